import Verif.Proof.CyMessage
import Verif.Props.CyReader

/-!
# C54: loading messages with the compiled version

The compiled loader keeps counts and sizes in C ints.  C54: if what the header announces fits,
it does what the pure version does; otherwise it may accept truncated messages.
-/

namespace Capnpy.Props

open Spec Capnpy.Cy

theorem cy_load_eq {σ} {F F' : FileLike σ} {s : σ} (h : Cy.loadMessage F' s = Capnpy.loadMessage F s) :
    match Capnpy.load F s with
    | .ok r s' => Cy.load F' s = (.ret (.ok r) false, s')
    | .error e s' => (Cy.load F' s).2 = s' ∧ ∀ r, (Cy.load F' s).1 = .ret r false → r = .error e := by
  unfold Cy.load
  rw [h]
  cases hm : Capnpy.loadMessage F s with
  | error e s' =>
    rw [load_of_error hm]
    refine ⟨rfl, fun r hr => ?_⟩
    injection hr with hr
    exact hr.symm
  | ok m s' =>
    rw [load_of_message hm]
    have hf := (readStruct_agree m 0).follows
    cases hr : m.readStruct 0 with
    | ok x =>
      simp only
      rw [hf.1 x hr]
    | error e =>
      refine ⟨rfl, fun r h => ?_⟩
      rw [← hf.2 r h, hr]

/-- What was ignored stays ignored. -/
theorem ignored_bind {α β} {a : α} {g : α → CRes β} {r : Py β} (h : (CRes.ret (.ok a) true >>= g) = .ret r false) :
    False := by
  revert h
  show (match g a with | .crash => CRes.crash | .ret r w' => CRes.ret r (true || w')) = .ret r false → False
  cases g a with
  | crash => intro h; cases h
  | ret r' w => intro h; injection h with _ h; cases h

/-- C54: `loads` of any bytes (also malformed ones), if what the header announces and the
length together are less than 2^31: what the pure version returns is returned, and what is raised
without a lost exception is what the pure version raises. -/
theorem C54_loads (buf : Bytes) (h1 : segCount buf < 2 ^ 31) (h2 : buf.length + bodyLen buf + 4 < 2 ^ 31) :
    Follows (Cy.loads buf) (Capnpy.loads buf) := by
  have hF := SBuffer.faithful buf
  have hR : ∃ k : Nat, k ≤ buf.length ∧ SBuffer.init buf = ⟨buf, k⟩ ∧ buf = buf.drop k := ⟨0, by simp, rfl, by simp⟩
  have hS := sbuffer_sameReads buf (bodyLen buf) (by omega)
  have h := cy_load_eq (loadMessage_sim hF hS hR ⟨rfl, Int.le_refl _, by simp [SBuffer.init]⟩ h1 (Int.le_refl _))
  unfold Cy.loads Capnpy.loads
  cases hl : Capnpy.load SBuffer.file (SBuffer.init buf) with
  | ok r s' =>
    rw [hl] at h
    simp only at h
    rw [h]
    simp only
    by_cases ht : s'.tell ≠ buf.length
    · rw [ret_bind, if_pos ht, if_pos ht]
      exact ⟨fun v hv => (by cases hv), fun r hr => (by injection hr)⟩
    · rw [ret_bind, if_neg ht, if_neg ht]
      exact ⟨fun v hv => (by injection hv with hv; rw [hv]; rfl), fun r hr => (by injection hr)⟩
  | error e s' =>
    rw [hl] at h
    simp only at h
    obtain ⟨h3, h4⟩ := h
    generalize Cy.load sbufferFile (SBuffer.init buf) = x at h3 h4
    obtain ⟨c, f⟩ := x
    simp only at h3 h4 ⊢
    refine ⟨fun v hv => (by cases hv), fun r hr => ?_⟩
    cases c with
    | crash => cases hr
    | ret r' w =>
      cases w with
      | false =>
        have := h4 r' rfl
        subst this
        injection hr
      | true =>
        exfalso
        cases r' with
        | error x => injection hr with _ hr; cases hr
        | ok x =>
          exact ignored_bind hr

/-- C54: for single-segment messages nothing is ignored: `loads` of any bytes has exactly the
outcome of the pure version. -/
theorem C54_loads_single (buf : Bytes) (h1 : segCount buf = 1) (h2 : buf.length + bodyLen buf + 4 < 2 ^ 31) :
    Cy.loads buf = .ret (Capnpy.loads buf) false := by
  have hF := SBuffer.faithful buf
  have hR : ∃ k : Nat, k ≤ buf.length ∧ SBuffer.init buf = ⟨buf, k⟩ ∧ buf = buf.drop k := ⟨0, by simp, rfl, by simp⟩
  have hS := sbuffer_sameReads buf (bodyLen buf) (by omega)
  have hsim := loadMessage_sim hF hS hR ⟨rfl, Int.le_refl _, by simp [SBuffer.init]⟩ (by omega) (Int.le_refl _)
  obtain ⟨l1, l2, l3, l4⟩ := loadMessage_spec hF (st := SBuffer.init buf) (b := buf) hR
  have err : ∀ e, (∃ st', Capnpy.loadMessage SBuffer.file (SBuffer.init buf) = .error e st') →
      Cy.loads buf = .ret (Capnpy.loads buf) false := by
    rintro e ⟨st', h⟩
    rw [loads_run_error (load_of_error h)]
    unfold Cy.loads Cy.load
    rw [hsim, h]
    rfl
  by_cases c1 : buf.length = 0
  · exact err _ (l1 c1)
  by_cases c2 : buf.length < 4 + 4 * segCount buf
  · exact err _ (l2 (by omega) (.inl c2))
  by_cases c3 : bodyLen buf = 0
  · exact err _ (l3 (by omega) c3)
  by_cases c4 : buf.length < headerLen buf + bodyLen buf
  · exact err _ (l2 (by omega) (.inr ⟨by omega, c4⟩))
  obtain ⟨st', h, hR'⟩ := l4 (by omega) (by omega)
  have ht : announcedTable buf = none := by unfold announcedTable; rw [if_pos h1]
  rw [ht] at h
  generalize hm : objAt (slice buf (headerLen buf) (bodyLen buf)) none 0 0 1 = m at h
  have hi : StructObj.initFromBuffer (Seg.of (slice buf (headerLen buf) (bodyLen buf)) none) 0 0 1 = .ok m := by
    rw [← hm]
    have hlen : (slice buf (headerLen buf) (bodyLen buf)).length = bodyLen buf := by
      rw [slice, List.length_take, List.length_drop]; omega
    have h8 : 8 ≤ bodyLen buf := by unfold bodyLen at c3 ⊢; omega
    exact initFromBuffer_nat (t := 0) (ds := 0) (ps := 1) (by omega)
  obtain ⟨-, -, h3⟩ := C53_in_buffer _ 0 0 1 m hi (by omega) (by omega) 0 (by omega)
  have h4 := (h3 rfl).1
  rw [Int.zero_mul] at h4
  have h5 := load_of_message h
  obtain ⟨k, -, rfl, -⟩ := hR'
  unfold Cy.loads Cy.load
  rw [hsim, h]
  simp only
  rw [h4]
  cases hr : m.readStruct 0 with
  | error e =>
    rw [hr] at h5
    rw [loads_run_error h5]
    rfl
  | ok x =>
    rw [hr] at h5
    rw [loads_run h5]
    have : (⟨buf, (k : Int)⟩ : SBuffer).tell = (k : Int) := rfl
    rw [ret_bind, this]
    split
    · rfl
    · rfl

/-- C54: `load` from a buffered stream, in any state with at most `C` bytes per chunk and at most
`M + C` bytes in the buffer, if the announced message has at most `M` bytes. -/
theorem C54_load (M C : Nat) (h4 : 4 ≤ M) (hM : 2 * M + C < 2 ^ 31) (st : BStream)
    (hi : 0 ≤ st.i) (hi' : st.i ≤ M + C) (hb : st.buf.length ≤ M + C)
    (hc : ∀ c ∈ st.chunks, c ≠ [] ∧ c.length ≤ C)
    (h1 : segCount (st.buf.drop st.i.toNat ++ st.chunks.flatten) < 2 ^ 31)
    (h2 : bodyLen (st.buf.drop st.i.toNat ++ st.chunks.flatten) ≤ M) :
    match Capnpy.load BStream.file st with
    | .ok r s' => Cy.load bstreamFile st = (.ret (.ok r) false, s')
    | .error e s' => (Cy.load bstreamFile st).2 = s' ∧ ∀ r, (Cy.load bstreamFile st).1 = .ret r false → r = .error e := by
  have h := cy_load_eq (loadMessage_sim BStream.faithful (bstream_sameReads M C h4 hM) (b := st.rest)
    ⟨⟨hi, fun c h => (hc c h).1⟩, rfl⟩ ⟨hi, hi', hb, fun c h => (hc c h).2⟩ h1 (by unfold BStream.rest; omega))
  cases hl : Capnpy.load BStream.file st with
  | ok r s' => rw [hl] at h; exact h
  | error e s' => rw [hl] at h; exact h

/-- C54: `load_all` over the concatenation of any number of framed messages of at most `M` bytes,
in any chunks of at most `C` bytes: the compiled version yields exactly these messages and
stops, and ignores nothing.  There is no bound on the length of the stream. -/
theorem C54_load_all (M C : Nat) (h4 : 4 ≤ M) (hM : 2 * M + C < 2 ^ 31)
    (ms : List (List Bytes × Bytes × Option StructObj)) (hm : ∀ m ∈ ms, Loadable m)
    (hs : ∀ m ∈ ms, m.1.length < 2 ^ 31 ∧ m.1.flatten.length ≤ M)
    (chunks : List Bytes) (hc : ∀ c ∈ chunks, c ≠ [] ∧ c.length ≤ C) (hcat : chunks.flatten = concat ms)
    {fuel : Nat} (hf : ms.length < fuel) :
    ∃ st', Cy.loadAll bstreamFile fuel (BStream.init chunks) = (ms.map fun m => m.2.2, false, some .stop, st') := by
  have hS := bstream_sameReads M C h4 hM
  have hK : Keeps BStream.file (Small M C) M := by
    intro s h n h0 h1
    obtain ⟨k, rfl⟩ := Int.eq_ofNat_of_zero_le h0
    exact h.read (n := k) (by omega)
  have gen : ∀ (ms : List (List Bytes × Bytes × Option StructObj)), (∀ m ∈ ms, Loadable m) →
      (∀ m ∈ ms, m.1.length < 2 ^ 31 ∧ m.1.flatten.length ≤ M) →
      ∀ st : BStream, st.Inv → st.rest = concat ms → Small M C st → ∀ fuel, ms.length < fuel →
      ∃ st', Cy.loadAll bstreamFile fuel st = (ms.map fun m => m.2.2, false, some .stop, st') := by
    intro ms
    induction ms with
    | nil =>
      intro _ _ st hI hR hS' fuel hf
      obtain ⟨f, rfl⟩ : ∃ f, fuel = f + 1 := ⟨fuel - 1, by simp at hf; omega⟩
      obtain ⟨l1, -⟩ := loadMessage_spec BStream.faithful (st := st) (b := []) ⟨hI, hR⟩
      obtain ⟨st', hl⟩ := l1 rfl
      have hsim := loadMessage_sim BStream.faithful hS (s := st) (b := []) ⟨hI, hR⟩ hS' (by decide) (by
        have : bodyLen [] = 0 := by decide
        omega)
      refine ⟨st', ?_⟩
      unfold Cy.loadAll Cy.load
      rw [hsim, hl]
      rfl
    | cons m ms ih =>
      intro hm hs st hI hR hS' fuel hf
      rw [List.length_cons] at hf
      obtain ⟨f, rfl⟩ : ∃ f, fuel = f + 1 := ⟨fuel - 1, by omega⟩
      have hl := hm m List.mem_cons_self
      have hs0 := hs m List.mem_cons_self
      have hcc : concat (m :: ms) = frame m.1 m.2.1 ++ concat ms := by simp [concat]
      rw [hcc] at hR
      obtain ⟨f1, f2, f3, f4, f5⟩ := frame_fields (rest := concat ms) hl.frameable
      obtain ⟨st1, h1, h2, h3⟩ := loadMessage_frame BStream.faithful hl.frameable hl.nonempty (st := st)
        (rest := concat ms) ⟨hI, hR⟩
      have hS1 := loadMessage_keep BStream.faithful hK (by omega) (s := st) ⟨hI, hR⟩ hS' (by rw [f4]; omega) h1
      have hsim := loadMessage_sim BStream.faithful hS (s := st) ⟨hI, hR⟩ hS' (by rw [f1]; omega) (by rw [f4]; omega)
      have h5 : Capnpy.load BStream.file st = .ok m.2.2 st1 := by
        have h4 := loads_frame_extra (extra := []) hl.frameable hl.nonempty
        rw [List.append_nil, hl.loads] at h4
        rw [load_of_message h1]
        cases hr : (objAt m.1.flatten (segTable m.1) 0 0 1).readStruct 0 with
        | error e => rw [hr] at h4; cases h4
        | ok x => rw [hr] at h4; cases h4; rfl
      have h6 := cy_load_eq hsim
      rw [h5] at h6
      simp only at h6
      obtain ⟨st2, h7⟩ := ih (fun x hx => hm x (List.mem_cons_of_mem _ hx)) (fun x hx => hs x (List.mem_cons_of_mem _ hx))
        st1 h2 h3 hS1 f (by omega)
      refine ⟨st2, ?_⟩
      unfold Cy.loadAll
      rw [h6]
      simp only [h7, List.map_cons, Bool.or_false]
  exact gen ms hm hs _ ⟨le_refl _, fun c h => (hc c h).1⟩ (by rw [← hcat]; simp [BStream.init, BStream.rest])
    ⟨by simp [BStream.init], by simp [BStream.init]; omega, by simp [BStream.init], fun c h => (hc c h).2⟩ fuel hf

/-! ## Sizes that do not fit -/

theorem cy_load_of_error {σ} {F : FileLike σ} {s s' : σ} {e : PyErr} (h : Cy.loadMessage F s = .error e s') :
    Cy.load F s = (.ret (.error e) false, s') := by
  unfold Cy.load
  rw [h]

theorem ret_bind_pure {α β} {a : α} {w : Bool} {g : α → CRes β} {b : β} (h : g a = pure b) :
    (CRes.ret (.ok a) w >>= g) = .ret (.ok b) w := by
  show (match g a with | .crash => CRes.crash | .ret r w' => CRes.ret r (w || w')) = _
  rw [h]
  show CRes.ret (.ok b) (w || false) = _
  rw [Bool.or_false]

theorem ret_bind_err {α β} {e : PyErr} {w : Bool} {g : α → CRes β} :
    ((CRes.ret (.error e) w : CRes α) >>= g) = .ret (.error e) w := rfl

theorem header8 {a b body B : Bytes} (ha : a.length = 4) (hb : b.length = 4) (hB : a ++ b ++ body = B) :
    B.take 4 = a ∧ (B.drop 4).take 4 = b ∧ B.drop 8 = body := by
  subst hB
  refine ⟨?_, ?_, ?_⟩
  · rw [List.append_assoc, List.take_append_of_le_length (by omega), List.take_of_length_le (by omega)]
  · rw [List.append_assoc, List.drop_append_of_le_length (by omega), List.drop_of_length_le (by omega), List.nil_append,
      List.take_append_of_le_length (by omega), List.take_of_length_le (by omega)]
  · rw [List.drop_append_of_le_length (by rw [List.length_append]; omega),
      List.drop_of_length_le (by rw [List.length_append]; omega), List.nil_append]

/-- The compiled `loads` of a single-segment message whose header announces `m` words, where
`m * 8` is the length of the body modulo 2^32. -/
theorem cy_loads_header {m : Int} {a b : Bytes} (ha : a.length = 4) (hb : b.length = 4)
    (u0 : unpackUint32 a 0 = .ok 0) (um : unpackUint32 b 0 = .ok m) {body : Bytes} (h : 8 + body.length < 2 ^ 31)
    (hw : int32 (int32 m * 8) = body.length) :
    Cy.loads (a ++ b ++ body) = match StructObj.initFromBuffer ⟨body, none⟩ 0 0 1 with
      | .error e => .ret (.error e) false
      | .ok msg => Cy.readStruct msg 0 := by
  generalize hB : a ++ b ++ body = B
  have hlen : B.length = 8 + body.length := by rw [← hB, List.length_append, List.length_append]; omega
  obtain ⟨t1, t2, t3⟩ := header8 ha hb hB
  have r1 : sbufferFile.read 4 ⟨B, 0⟩ = (a, ⟨B, 4⟩) := by
    show sbufferRead ⟨B, 0⟩ 4 = _
    rw [sbufferRead_eq (by omega) (by simp) (by simp)]
    show (pySlice B 0 (0 + 4), (⟨B, 0 + 4⟩ : SBuffer)) = _
    rw [show pySlice B 0 (0 + 4) = pySlice B ((0 : Nat) : Int) ((4 : Nat) : Int) from rfl, pySlice_nat]
    simp only [slice, List.drop_zero]
    rw [t1]
    rfl
  have r2 : sbufferFile.read 4 ⟨B, 4⟩ = (b, ⟨B, 8⟩) := by
    show sbufferRead ⟨B, 4⟩ 4 = _
    rw [sbufferRead_eq (by omega) (by simp) (by simp)]
    show (pySlice B 4 (4 + 4), (⟨B, 4 + 4⟩ : SBuffer)) = _
    rw [show pySlice B 4 (4 + 4) = pySlice B ((4 : Nat) : Int) ((8 : Nat) : Int) from rfl, pySlice_nat]
    simp only [slice]
    rw [t2]
    rfl
  have r3 : sbufferFile.read (body.length : Int) ⟨B, 8⟩ = (body, ⟨B, B.length⟩) := by
    show sbufferRead ⟨B, 8⟩ (body.length : Int) = _
    rw [sbufferRead_eq (by omega) (by simp) (by simp only; omega)]
    unfold SBuffer.read
    simp only
    rw [if_neg (by omega), show (8 : Int) + (body.length : Int) = ((8 + body.length : Nat) : Int) by push_cast; rfl,
      show (8 : Int) = ((8 : Nat) : Int) from rfl, pySlice_nat, slice, t3, hlen]
    simp
  have n4 : ¬ a.length < 4 := by omega
  have n5 : ¬ b.length < 4 := by omega
  have n6 : ¬ a.length = 0 := by omega
  have n7 : ¬ (body.length : Int) < (body.length : Int) := by omega
  have hs : Cy.loadSingle sbufferFile ⟨B, 4⟩ = .ok ⟨body, none⟩ ⟨B, B.length⟩ := by
    unfold Cy.loadSingle
    rw [FM.bind_read, r2]
    show (if b.length < 4 then _ else _ : FM SBuffer Seg) _ = _
    rw [if_neg n5, FM.bind_ok (FM.lift_ok um _), hw, FM.bind_read, r3]
    show (if (body.length : Int) < (body.length : Int) then _ else _ : FM SBuffer Seg) _ = _
    rw [if_neg n7]
    rfl
  have i1 : int32 ((0 + 1) % 2 ^ 32) = 1 := by unfold int32; omega
  have hmsg : Cy.loadMessage sbufferFile ⟨B, 0⟩ = match StructObj.initFromBuffer ⟨body, none⟩ 0 0 1 with
      | .error e => .error e ⟨B, B.length⟩
      | .ok msg => .ok msg ⟨B, B.length⟩ := by
    unfold Cy.loadMessage
    rw [FM.bind_read, r1]
    show (if a.length = 0 then _ else if a.length < 4 then _ else _ : FM SBuffer StructObj) _ = _
    rw [if_neg n6, if_neg n4, FM.bind_ok (FM.lift_ok u0 _), if_pos i1, FM.bind_ok hs]
    show FM.lift (StructObj.initFromBuffer ⟨body, none⟩ 0 0 1) _ = _
    cases StructObj.initFromBuffer ⟨body, none⟩ 0 0 1 <;> rfl
  unfold Cy.loads Cy.load SBuffer.init
  rw [hmsg]
  cases StructObj.initFromBuffer ⟨body, none⟩ 0 0 1 with
  | error e => rfl
  | ok msg =>
    simp only [SBuffer.tell]
    cases Cy.readStruct msg 0 with
    | crash => rfl
    | ret r w =>
      cases r with
      | error e => rfl
      | ok x => exact ret_bind_pure (if_neg (fun h => h rfl))

theorem cy_loads_single {m : Nat} (hm : m < 2 ^ 32) {body : Bytes} (h : 8 + body.length < 2 ^ 31)
    (hw : int32 (int32 m * 8) = body.length) :
    Cy.loads (le32 0 ++ le32 m ++ body) = match StructObj.initFromBuffer ⟨body, none⟩ 0 0 1 with
      | .error e => .ret (.error e) false
      | .ok msg => Cy.readStruct msg 0 := by
  have u0 : unpackUint32 (le32 0) 0 = .ok 0 := by decide +kernel
  have hl : (le32 m).length = 4 := le32_length m
  have um : unpackUint32 (le32 m) 0 = .ok (m : Int) := by
    have h1 := unpackUint32_take (b := le32 m) (by omega)
    rw [List.take_of_length_le (by omega)] at h1
    rw [h1]
    have h2 := u32_mid (a := []) (c := []) (k := 0) hm rfl
    rw [List.nil_append, List.append_nil] at h2
    rw [h2]
  exact cy_loads_header (le32_length 0) hl u0 um h hw

/-- The pure version does not load a single-segment message whose header announces more words
than there are. -/
theorem loads_announced {m : Nat} (hm : m < 2 ^ 32) {body : Bytes} (hb : body.length < 8 * m) :
    Capnpy.loads (le32 0 ++ le32 m ++ body) = .error .valueError := by
  generalize hB : le32 0 ++ le32 m ++ body = B
  have hlen : B.length = 8 + body.length := by
    rw [← hB, List.length_append, List.length_append, le32_length, le32_length]
  have hu : u32 B 4 = m := by rw [← hB]; exact u32_mid hm (le32_length 0)
  have h0 : u32 B 0 = 0 := by
    rw [← hB, List.append_assoc]
    exact u32_mid (a := []) (n := 0) (k := 0) (by omega) rfl
  have hc : segCount B = 1 := by unfold segCount; rw [h0]
  have hbl : bodyLen B = 8 * m := by
    unfold bodyLen segSizes; rw [hc]; simp [hu]
  have hh : headerLen B = 8 := by unfold headerLen; rw [hc]; rfl
  obtain ⟨-, l2, -⟩ := loadMessage_spec (SBuffer.faithful B) (st := SBuffer.init B) (b := B) ⟨0, by simp, rfl, by simp⟩
  obtain ⟨st', h⟩ := l2 (by omega) (.inr (by rw [hbl, hh]; omega))
  exact loads_run_error (load_of_error h)

/-- C54: the compiled `loads` ignores the three highest bits of the segment size: if a
message of `k` words announces `j * 2^29` words more, it is loaded as if it announced `k`.
The pure version raises ValueError, as it must for a truncated message. -/
theorem C54_top_bits (k j : Nat) (hj : 0 < j) (hj8 : j < 8) (body : Bytes) (hb : body.length = 8 * k)
    (hk : 8 + 8 * k < 2 ^ 31) :
    Cy.loads (le32 0 ++ le32 (k + j * 2 ^ 29) ++ body) = Cy.loads (le32 0 ++ le32 k ++ body) ∧
    Capnpy.loads (le32 0 ++ le32 (k + j * 2 ^ 29) ++ body) = .error .valueError := by
  obtain ⟨m, hm⟩ : ∃ m, k + j * 2 ^ 29 = m := ⟨_, rfl⟩
  rw [hm]
  have m0 : m < 2 ^ 32 := by omega
  have m1 : int32 (int32 m * 8) = body.length := by unfold int32; omega
  have m2 : int32 (int32 k * 8) = body.length := by unfold int32; omega
  have m3 : body.length < 8 * m := by omega
  have b1 : 8 + body.length < 2 ^ 31 := by omega
  clear hm
  constructor
  · rw [cy_loads_single m0 b1 m1, cy_loads_single (by omega) b1 m2]
  · exact loads_announced m0 m3

/-- C54: a single-segment message whose header announces `2^32 - 8 * k` bytes (so that the C int is
`-8 * k`), arriving in a buffered stream: the stream moves back by `8 * k` bytes from the end of the
header, and AssertionError is raised.  For `k = 1` it moves back to the header. -/
theorem cy_load_back (st : BStream) (k : Nat) (hk : 0 < k) (hi : 0 ≤ st.i) (hk' : 8 * (k : Int) ≤ st.i + 8)
    (hb : (st.buf.length : Int) < 2 ^ 31) (hh : st.i + 8 ≤ st.buf.length)
    (h0 : u32 (st.buf.drop st.i.toNat) 0 = 0) (h1 : u32 (st.buf.drop st.i.toNat) 4 = 2 ^ 29 - k) (hk29 : k ≤ 2 ^ 28) :
    Cy.load bstreamFile st = (.ret (.error .assertionError) false, { st with i := st.i + 8 - 8 * k }) := by
  obtain ⟨buf, i, chunks⟩ := st
  obtain ⟨p, rfl⟩ := Int.eq_ofNat_of_zero_le hi
  simp only [Int.toNat_natCast] at h0 h1 hk' hb hh ⊢
  have rdef : ∀ n s, bstreamFile.read n s = bstreamRead s n := fun _ _ => rfl
  have rd : ∀ q : Nat, q + 4 ≤ buf.length →
      bstreamFile.read 4 ⟨buf, q, chunks⟩ = ((buf.drop q).take 4, ⟨buf, ((q + 4 : Nat) : Int), chunks⟩) := by
    intro q hq
    rw [rdef]
    unfold bstreamRead
    simp only
    rw [if_neg (by omega), int32_id (x := (q : Int) + 4) (by omega) (by omega), if_neg (by omega),
      show (q : Int) + 4 = ((q + 4 : Nat) : Int) by push_cast; rfl, pySlice_nat, slice,
      show q + 4 - q = 4 by omega]
  obtain ⟨p', hp'⟩ : ∃ p' : Nat, p + 8 = p' + 8 * k := ⟨p + 8 - 8 * k, by omega⟩
  have e1 : int32 (int32 ((2 ^ 29 - k : Nat) : Int) * 8) = -8 * (k : Int) := by unfold int32; omega
  generalize hM : ((2 ^ 29 - k : Nat) : Int) = M at e1
  have r3 : bstreamFile.read (-8 * (k : Int)) ⟨buf, ((p + 8 : Nat) : Int), chunks⟩ = ([], ⟨buf, (p' : Int), chunks⟩) := by
    rw [rdef]
    unfold bstreamRead
    simp only
    rw [if_neg (by omega), int32_id (x := ((p + 8 : Nat) : Int) + -8 * (k : Int)) (by omega) (by omega), if_neg (by omega),
      show ((p + 8 : Nat) : Int) + -8 * (k : Int) = (p' : Int) by omega, pySlice_nat, slice,
      show p' - (p + 8) = 0 by omega, List.take_zero]
  have l1 : ((buf.drop p).take 4).length = 4 := by rw [List.length_take, List.length_drop]; omega
  have l2 : ((buf.drop (p + 4)).take 4).length = 4 := by rw [List.length_take, List.length_drop]; omega
  have u0 : unpackUint32 ((buf.drop p).take 4) 0 = .ok 0 := by
    rw [unpackUint32_take (by rw [List.length_drop]; omega), h0]; rfl
  have um : unpackUint32 ((buf.drop (p + 4)).take 4) 0 = .ok M := by
    rw [unpackUint32_take (by rw [List.length_drop]; omega), u32_drop, Nat.add_zero, ← u32_drop, h1, hM]
  have r1 := rd p (by omega)
  have r2 := rd (p + 4) (by omega)
  rw [show p + 4 + 4 = p + 8 from rfl] at r2
  generalize (buf.drop p).take 4 = a at l1 u0 r1
  generalize (buf.drop (p + 4)).take 4 = b at l2 um r2
  have n4 : ¬ a.length < 4 := by omega
  have n5 : ¬ b.length < 4 := by omega
  have n6 : ¬ a.length = 0 := by omega
  have n7 : ¬ (([] : Bytes).length : Int) < -8 * (k : Int) := by
    rw [List.length_nil]; omega
  have hs : Cy.loadSingle bstreamFile ⟨buf, ((p + 4 : Nat) : Int), chunks⟩ = .ok ⟨[], none⟩ ⟨buf, p', chunks⟩ := by
    unfold Cy.loadSingle
    rw [FM.bind_read, r2]
    show (if b.length < 4 then _ else _ : FM BStream Seg) _ = _
    rw [if_neg n5, FM.bind_ok (FM.lift_ok um _), e1, FM.bind_read, r3]
    show (if (([] : Bytes).length : Int) < -8 * (k : Int) then _ else _ : FM BStream Seg) _ = _
    rw [if_neg n7]
    rfl
  have i1 : int32 ((0 + 1) % 2 ^ 32) = 1 := by unfold int32; omega
  have hi : StructObj.initFromBuffer ⟨[], none⟩ 0 0 1 = .error .assertionError := by decide +kernel
  have hmsg : Cy.loadMessage bstreamFile ⟨buf, p, chunks⟩ = .error .assertionError ⟨buf, p', chunks⟩ := by
    unfold Cy.loadMessage
    rw [FM.bind_read, r1]
    show (if a.length = 0 then _ else if a.length < 4 then _ else _ : FM BStream StructObj) _ = _
    rw [if_neg n6, if_neg n4, FM.bind_ok (FM.lift_ok u0 _), if_pos i1, FM.bind_ok hs]
    exact FM.lift_error hi _
  rw [cy_load_of_error hmsg, show (p : Int) + 8 - 8 * (k : Int) = p' by omega]

/-- C54: a header that announces `2^29 - 1` words, at the front of a buffered stream: the compiled
`load` raises AssertionError and the stream is what it was before, so that a reader which catches
the error and loads again gets the same error, for ever.  (The pure version consumes the stream:
`C54_not_stuck`.) -/
theorem C54_stuck (st : BStream) (hi : 0 ≤ st.i) (hb : (st.buf.length : Int) < 2 ^ 31) (hh : st.i + 8 ≤ st.buf.length)
    (h0 : u32 (st.buf.drop st.i.toNat) 0 = 0) (h1 : u32 (st.buf.drop st.i.toNat) 4 = 2 ^ 29 - 1) :
    Cy.load bstreamFile st = (.ret (.error .assertionError) false, st) := by
  have h := cy_load_back st 1 (by omega) hi (by omega) hb hh h0 h1 (by omega)
  rw [show st.i + 8 - 8 * ((1 : Nat) : Int) = st.i by omega] at h
  exact h

/-- A buffered stream with the bytes `le32 0 ++ le32 (2^29 - 1)` and more. -/
def stuckStream : BStream := ⟨[0, 0, 0, 0, 0xff, 0xff, 0xff, 0x1f, 1, 2, 3, 4, 5, 6, 7, 8], 0, []⟩

example : Cy.load bstreamFile stuckStream = (.ret (.error .assertionError) false, stuckStream) :=
  C54_stuck _ (by decide +kernel) (by decide +kernel) (by decide +kernel) (by decide +kernel) (by decide +kernel)

/-- C54: the pure version raises ValueError, and the stream is at its end. -/
theorem C54_not_stuck : ∃ st', Capnpy.load BStream.file stuckStream = .error .valueError st' ∧ st'.rest = [] := by
  obtain ⟨-, l2, -, -⟩ := loadMessage_spec BStream.faithful (st := stuckStream) (b := stuckStream.buf)
    ⟨⟨by decide, by intro c h; cases h⟩, by decide +kernel⟩
  obtain ⟨st', h⟩ := l2 (by decide +kernel) (by decide +kernel)
  refine ⟨st', load_of_error h, ?_⟩
  have : ∀ x st', x = EStateM.Result.error (σ := BStream) (α := StructObj) PyErr.valueError st' →
      (match x with | .error _ s => decide (s.rest = []) | .ok _ _ => false) = true → st'.rest = [] := by
    rintro _ _ rfl h
    exact of_decide_eq_true h
  exact this _ _ h (by decide +kernel)

/-- A read of the compiled `StringBuffer`. -/
theorem sbufferFile_read {B : Bytes} {k n : Nat} (h : k + n < 2 ^ 31) :
    sbufferFile.read (n : Int) ⟨B, (k : Int)⟩ = (slice B k n, ⟨B, ((k + n : Nat) : Int)⟩) := by
  have e : ∀ n s, sbufferFile.read n s = sbufferRead s n := fun _ _ => rfl
  rw [e]
  unfold sbufferRead
  simp only
  rw [if_neg (by omega), int32_id (x := (k : Int) + n) (by omega) (by omega), show (k : Int) + n = ((k + n : Nat) : Int) by
    push_cast; rfl, pySlice_nat, show k + n - k = n by omega]

theorem cy_loads_of_error {buf : Bytes} {e : PyErr} {s' : SBuffer}
    (h : Cy.loadMessage sbufferFile (SBuffer.init buf) = .error e s') : Cy.loads buf = .ret (.error e) false := by
  unfold Cy.loads
  rw [cy_load_of_error h]
  rfl

theorem unpackUint32_slice {b : Bytes} {k : Nat} (h : k + 4 ≤ b.length) :
    unpackUint32 (slice b k 4) 0 = .ok ((u32 b k : Nat) : Int) := by
  have := unpackUint32_take (b := b.drop k) (by rw [List.length_drop]; omega)
  rw [u32_drop, Nat.add_zero] at this
  exact this

theorem slice4_length {b : Bytes} {k : Nat} (h : k + 4 ≤ b.length) : (slice b k 4).length = 4 := by
  rw [slice, List.length_take, List.length_drop]; omega

/-- `_load_message` of the compiled version when the count of segments is not 1. -/
theorem cy_loadMessage_multi {B : Bytes} {n : Int} (h : 4 ≤ B.length)
    (hn : int32 (((u32 B 0 : Nat) + 1) % 2 ^ 32) = n) (h1 : ¬ n = 1) :
    Cy.loadMessage sbufferFile (SBuffer.init B) = (do
      let seg ← Cy.loadMultiple sbufferFile n
      FM.lift (StructObj.initFromBuffer seg 0 0 1) : FM SBuffer StructObj) ⟨B, ((4 : Nat) : Int)⟩ := by
  have r1 := sbufferFile_read (B := B) (k := 0) (n := 4) (by omega)
  have u1 := unpackUint32_slice (b := B) (k := 0) (by omega)
  have l1 := slice4_length (b := B) (k := 0) (by omega)
  rw [show 0 + 4 = 4 from rfl, show ((4 : Nat) : Int) = 4 from rfl] at r1
  generalize slice B 0 4 = a at r1 u1 l1
  generalize (((u32 B 0 : Nat) : Nat) : Int) = N at u1 hn
  have n4 : ¬ a.length < 4 := by omega
  have n6 : ¬ a.length = 0 := by omega
  unfold Cy.loadMessage SBuffer.init
  rw [FM.bind_read]
  rw [show sbufferFile.read 4 ⟨B, 0⟩ = (a, ⟨B, 4⟩) from r1]
  show (if a.length = 0 then _ else if a.length < 4 then _ else _ : FM SBuffer StructObj) _ = _
  rw [if_neg n6, if_neg n4, FM.bind_ok (FM.lift_ok u1 _)]
  rw [hn, if_neg h1]
  rfl

/-- The compiled `_load_buffer_multiple_segments` after the sizes. -/
theorem cy_multi_sizes {σ} {F : FileLike σ} {n : Int} {s s1 : σ} {l : List Int}
    (hl : loadSizes F n.toNat s = .ok l s1) {e : PyErr}
    (hb : ∀ s2, ∃ s3, Cy.loadMultiple.body F l s2 = .error e s3) :
    ∃ s', Cy.loadMultiple F n s = .error e s' := by
  have e1 : Cy.loadMultiple F n s = (do
      let segments ← loadSizes F n.toNat
      if Int.land (int32 (4 + int32 (n * 4))) 7 ≠ 0 then do
        let _ ← FM.read F (8 - Int.land (int32 (4 + int32 (n * 4))) 7)
        Cy.loadMultiple.body F segments
      else Cy.loadMultiple.body F segments : FM σ Seg) s := by unfold Cy.loadMultiple; rfl
  rw [e1, FM.bind_ok hl]
  split
  · rw [FM.bind_read]
    exact hb _
  · exact hb _

theorem cy_body_eq {σ} {F : FileLike σ} {l : List Int} {s s' : σ} {b : Bytes} {n : Int} (hn : l.sum * 8 = n)
    (h : n < 2 ^ 31) (hr : F.read n s = (b, s')) (hb : n ≤ b.length) :
    Cy.loadMultiple.body F l s = .ok ⟨b, some (0 :: offsetsLoop 0 l.dropLast)⟩ s' := by
  subst hn
  unfold Cy.loadMultiple.body
  simp only
  rw [if_neg (by omega : ¬ l.sum * 8 ≥ 2 ^ 31), FM.bind_read, hr]
  simp only
  rw [if_neg (by omega)]
  rfl

/-- C54: a header that announces 2^32 segments: ValueError (the message is truncated) in the pure
version; in the compiled one the count is 0 and the message is empty. -/
theorem C54_count_wraps (buf : Bytes) (h0 : u32 buf 0 = 2 ^ 32 - 1) (h : 4 ≤ buf.length) (h' : buf.length < 2 ^ 31) :
    Cy.loads buf = .ret (.error .assertionError) false ∧ Capnpy.loads buf = .error .valueError := by
  constructor
  · have hn : int32 (((u32 buf 0 : Nat) + 1) % 2 ^ 32) = 0 := by rw [h0]; decide +kernel
    have r1 := sbufferFile_read (B := buf) (k := 4) (n := 4) (by omega)
    have r2 := sbufferFile_read (B := buf) (k := 8) (n := 0) (by omega)
    have hm : Cy.loadMultiple sbufferFile 0 ⟨buf, ((4 : Nat) : Int)⟩ = .ok ⟨[], some [0]⟩ ⟨buf, ((8 : Nat) : Int)⟩ := by
      have e1 : Cy.loadMultiple sbufferFile 0 ⟨buf, ((4 : Nat) : Int)⟩ = (do
          let segments ← loadSizes sbufferFile 0
          if Int.land (int32 (4 + int32 (0 * 4))) 7 ≠ 0 then do
            let _ ← FM.read sbufferFile (8 - Int.land (int32 (4 + int32 (0 * 4))) 7)
            Cy.loadMultiple.body sbufferFile segments
          else Cy.loadMultiple.body sbufferFile segments : FM SBuffer Seg) ⟨buf, ((4 : Nat) : Int)⟩ := by
        unfold Cy.loadMultiple; rfl
      have e2 : Int.land (int32 (4 + int32 (0 * 4))) 7 = 4 := by decide +kernel
      rw [e1, e2, FM.bind_ok (show loadSizes sbufferFile 0 ⟨buf, ((4 : Nat) : Int)⟩ = .ok [] ⟨buf, ((4 : Nat) : Int)⟩ from rfl),
        if_pos (by omega), FM.bind_read, show (8 - 4 : Int) = ((4 : Nat) : Int) by omega, r1]
      exact cy_body_eq (l := []) (n := ((0 : Nat) : Int)) rfl (by omega) (by
        rw [show slice buf 8 0 = [] by rw [slice, List.take_zero]] at r2
        exact r2) (by simp)
    exact cy_loads_of_error ((cy_loadMessage_multi (by omega) hn (by omega)).trans
      ((FM.bind_ok hm).trans (FM.lift_error (by decide +kernel) _)))
  · have hc : segCount buf = 2 ^ 32 := by unfold segCount; omega
    obtain ⟨-, l2, -⟩ := loadMessage_spec (SBuffer.faithful buf) (st := SBuffer.init buf) (b := buf) ⟨0, by simp, rfl, by simp⟩
    obtain ⟨st', h⟩ := l2 (by omega) (.inl (by omega))
    exact loads_run_error (load_of_error h)

/-- C54: several segments whose sizes do not fit in an int when added: OverflowError instead of
ValueError. -/
theorem C54_overflow (buf : Bytes) (h1 : segCount buf ≠ 1) (h2 : 4 + 4 * segCount buf ≤ buf.length)
    (h3 : buf.length + 4 < 2 ^ 31) (h4 : 2 ^ 31 ≤ bodyLen buf) :
    Cy.loads buf = .ret (.error .overflowError) false ∧ Capnpy.loads buf = .error .valueError := by
  constructor
  · have hS := sbuffer_sameReads buf 0 (by omega)
    have hc : 0 < segCount buf := by unfold segCount; omega
    have hn : int32 (((u32 buf 0 : Nat) + 1) % 2 ^ 32) = segCount buf := by
      unfold segCount at h2 ⊢; unfold int32; omega
    obtain ⟨g1, -⟩ := loadSizes_spec (SBuffer.faithful buf) (segCount buf) ⟨buf, ((4 : Nat) : Int)⟩ (buf.drop 4)
      ⟨4, by omega, rfl, rfl⟩
    obtain ⟨s1, g2, -⟩ := g1 (by rw [List.length_drop]; omega)
    obtain ⟨g3, -⟩ := loadSizes_sim hS (segCount buf) ⟨buf, ((4 : Nat) : Int)⟩ ⟨rfl, by simp, by simp only; omega⟩
    rw [g2] at g3
    generalize hl : (List.range (segCount buf)).map (fun k => ((u32 (buf.drop 4) (4 * k) : Nat) : Int)) = l at g3
    have hsum : l.sum * 8 = (bodyLen buf : Int) := by
      have : ∀ (f : Nat → Nat) (ks : List Nat), (ks.map fun k => ((f k : Nat) : Int)).sum = (((ks.map f).sum : Nat) : Int) := by
        intro f ks
        induction ks with
        | nil => rfl
        | cons k ks ih => rw [List.map_cons, List.sum_cons, ih, List.map_cons, List.sum_cons]; push_cast; rfl
      rw [← hl, this]
      unfold bodyLen segSizes
      have e : (fun k => u32 (buf.drop 4) (4 * k)) = fun k => u32 buf (4 + 4 * k) := by
        funext k; rw [u32_drop]
      rw [e]
      push_cast
      omega
    obtain ⟨s', hm⟩ := cy_multi_sizes (F := sbufferFile) (n := (segCount buf : Int)) (s := ⟨buf, ((4 : Nat) : Int)⟩) (l := l)
      (by rw [Int.toNat_natCast]; exact g3) (e := .overflowError) (fun s2 => ⟨s2, by
        unfold Cy.loadMultiple.body
        simp only
        rw [if_pos (by omega)]
        rfl⟩)
    exact cy_loads_of_error ((cy_loadMessage_multi (by omega) hn (by omega)).trans (FM.bind_error hm))
  · obtain ⟨-, l2, -⟩ := loadMessage_spec (SBuffer.faithful buf) (st := SBuffer.init buf) (b := buf) ⟨0, by simp, rfl, by simp⟩
    obtain ⟨st', h⟩ := l2 (by omega) (.inr (by omega))
    exact loads_run_error (load_of_error h)

/-! ## Examples -/

/-- A message with a word of data, announced correctly: both versions load it. -/
example : Capnpy.loads (cyMsg [sp 0 1 0, 42]) = .ok (some ⟨⟨words [sp 0 1 0, 42], none⟩, 8, 16, 1, 0⟩) ∧
    Cy.loads (cyMsg [sp 0 1 0, 42]) = .ret (.ok (some ⟨⟨words [sp 0 1 0, 42], none⟩, 8, 16, 1, 0⟩)) false := by
  decide +kernel

example : Cy.loads (cyMsg [sp 0 1 0, 42]) = .ret (Capnpy.loads (cyMsg [sp 0 1 0, 42])) false :=
  C54_loads_single _ (by decide +kernel) (by decide +kernel)

/-- Two segments, with a far pointer. -/
example : Follows (Cy.loads (le32 1 ++ le32 1 ++ le32 2 ++ le32 0 ++ words [2 + 2 ^ 32, sp 0 1 0, 42]))
    (Capnpy.loads (le32 1 ++ le32 1 ++ le32 2 ++ le32 0 ++ words [2 + 2 ^ 32, sp 0 1 0, 42])) :=
  C54_loads _ (by decide +kernel) (by decide +kernel)

example : Capnpy.loads (le32 1 ++ le32 1 ++ le32 2 ++ le32 0 ++ words [2 + 2 ^ 32, sp 0 1 0, 42])
    = .ok (some ⟨⟨words [2 + 2 ^ 32, sp 0 1 0, 42], some [0, 8]⟩, 16, 24, 1, 0⟩) := by
  decide +kernel

/-- C54: a truncated message that the compiled version accepts: it announces `2^29 + 2` words and
has 2. -/
theorem C54_truncated_accepted : ∃ buf o, Capnpy.loads buf = .error .valueError ∧
    Cy.loads buf = .ret (.ok (some o)) false ∧ Cy.enumField o 0 0 = .ret (.ok 42) false := by
  obtain ⟨h1, h2⟩ := C54_top_bits 2 1 (by omega) (by omega) (words [sp 0 1 0, 42]) (by decide +kernel) (by decide +kernel)
  refine ⟨_, ⟨⟨words [sp 0 1 0, 42], none⟩, 8, 16, 1, 0⟩, h2, ?_, by decide +kernel⟩
  rw [h1]
  decide +kernel

/-- The hypotheses of `C54_load`: a stream that has read 8 bytes of 24. -/
def loadStream : BStream := ⟨List.replicate 8 7 ++ le32 0 ++ le32 2 ++ words [sp 0 1 0], 8, [words [42]]⟩

example : match Capnpy.load BStream.file loadStream with
    | .ok r s' => Cy.load bstreamFile loadStream = (.ret (.ok r) false, s')
    | .error e s' => (Cy.load bstreamFile loadStream).2 = s' ∧
      ∀ r, (Cy.load bstreamFile loadStream).1 = .ret r false → r = .error e :=
  C54_load 100 8192 (by omega) (by omega) loadStream (by decide +kernel) (by decide +kernel) (by decide +kernel)
    (by decide +kernel) (by decide +kernel) (by decide +kernel)

example : (Cy.load bstreamFile loadStream).1
    = .ret (.ok (some ⟨⟨words [sp 0 1 0, 42], none⟩, 8, 16, 1, 0⟩)) false := by
  decide +kernel

/-- The hypotheses of `C54_load_all`: a message twice, in two chunks. -/
example : ∃ st', Cy.loadAll bstreamFile 3 (BStream.init [frame sampleSegs [0, 0, 0, 0], frame sampleSegs [0, 0, 0, 0]])
    = ([some (objAt sampleSegs.flatten (some [0, 8]) 16 1 0), some (objAt sampleSegs.flatten (some [0, 8]) 16 1 0)],
      false, some .stop, st') := by
  have hm : Loadable (sampleSegs, [0, 0, 0, 0], some (objAt sampleSegs.flatten (some [0, 8]) 16 1 0)) :=
    ⟨sampleSegs_frameable, by decide, by decide +kernel⟩
  refine C54_load_all 100 8192 (by omega) (by omega) [(sampleSegs, [0, 0, 0, 0], _), (sampleSegs, [0, 0, 0, 0], _)]
    ?_ (by decide +kernel) _ (by decide +kernel) (by decide +kernel) (by decide)
  intro m h
  simp only [List.mem_cons, List.not_mem_nil, or_false, or_self] at h
  rw [h]
  exact hm

/-- The hypotheses of `C54_overflow` and `C54_count_wraps`. -/
example : Cy.loads (le32 1 ++ le32 (2 ^ 28) ++ le32 5 ++ le32 0) = .ret (.error .overflowError) false :=
  (C54_overflow _ (by decide +kernel) (by decide +kernel) (by decide +kernel) (by decide +kernel)).1

example : Cy.loads (le32 (2 ^ 32 - 1) ++ le32 0) = .ret (.error .assertionError) false :=
  (C54_count_wraps _ (by decide +kernel) (by decide +kernel) (by decide +kernel)).1

end Capnpy.Props
