import Verif.Proof.Buffered
import Verif.Proof.Object

/-! # Loading a message, for every input -/

namespace Capnpy

open Spec

/-- `F` reads the byte sequence it represents: `R st rest` says that `rest` is
what is still unread in the state `st`; `E st` that the end has been passed. -/
structure Faithful {σ : Type} (F : FileLike σ) (R : σ → Bytes → Prop) (E : σ → Prop) : Prop where
  full : ∀ (st : σ) (rest : Bytes) (n : Nat), R st rest → n ≤ rest.length →
    (F.read n st).1 = rest.take n ∧ R (F.read n st).2 (rest.drop n)
  short : ∀ (st : σ) (rest : Bytes) (n : Nat), R st rest → rest.length < n →
    (F.read n st).1 = rest ∧ E (F.read n st).2
  ended : ∀ (st : σ) (n : Nat), E st → (F.read n st).1 = [] ∧ E (F.read n st).2

theorem BStream.faithful :
    Faithful BStream.file (fun st rest => st.Inv ∧ st.rest = rest) (fun st => st.Inv ∧ st.rest = []) where
  full := by
    rintro st rest n ⟨h, rfl⟩ hn
    obtain ⟨h1, h2, h3⟩ := BStream.read_spec h n
    exact ⟨h1, h3, h2⟩
  short := by
    rintro st rest n ⟨h, rfl⟩ hn
    obtain ⟨h1, h2, h3⟩ := BStream.read_spec h n
    exact ⟨by rw [show BStream.file.read n st = st.read n from rfl, h1, List.take_of_length_le (by omega)], h3,
      by rw [show BStream.file.read n st = st.read n from rfl, h2, List.drop_of_length_le (by omega)]⟩
  ended := by
    rintro st n ⟨h, h0⟩
    obtain ⟨h1, h2, h3⟩ := BStream.read_spec h n
    exact ⟨by rw [show BStream.file.read n st = st.read n from rfl, h1, h0, List.take_nil], h3,
      by rw [show BStream.file.read n st = st.read n from rfl, h2, h0, List.drop_nil]⟩

/-- For `StringBuffer`, with the exact position. -/
theorem SBuffer.faithful (S : Bytes) :
    Faithful SBuffer.file
      (fun st rest => ∃ k : Nat, k ≤ S.length ∧ st = ⟨S, k⟩ ∧ rest = S.drop k)
      (fun st => ∃ k : Nat, S.length < k ∧ st = ⟨S, k⟩) where
  full := by
    rintro st rest n ⟨k, hk, rfl, rfl⟩ hn
    rw [List.length_drop] at hn
    obtain ⟨h1, h2, h3, h4⟩ := SBuffer.read_spec (b := ⟨S, k⟩) (by dsimp only; omega) n
    refine ⟨?_, k + n, by omega, ?_, ?_⟩
    · rw [show SBuffer.file.read n ⟨S, k⟩ = SBuffer.read ⟨S, k⟩ n from rfl, h1]; simp [SBuffer.rest]
    · rw [show SBuffer.file.read n ⟨S, k⟩ = SBuffer.read ⟨S, k⟩ n from rfl, h4]; push_cast; rfl
    · rw [List.drop_drop]
  short := by
    rintro st rest n ⟨k, hk, rfl, rfl⟩ hn
    rw [List.length_drop] at hn
    obtain ⟨h1, h2, h3, h4⟩ := SBuffer.read_spec (b := ⟨S, k⟩) (by dsimp only; omega) n
    refine ⟨?_, k + n, by omega, ?_⟩
    · rw [show SBuffer.file.read n ⟨S, k⟩ = SBuffer.read ⟨S, k⟩ n from rfl, h1,
        List.take_of_length_le (by simp [SBuffer.rest]; omega)]; simp [SBuffer.rest]
    · rw [show SBuffer.file.read n ⟨S, k⟩ = SBuffer.read ⟨S, k⟩ n from rfl, h4]; push_cast; rfl
  ended := by
    rintro st n ⟨k, hk, rfl⟩
    obtain ⟨h1, h2, h3, h4⟩ := SBuffer.read_spec (b := ⟨S, k⟩) (by dsimp only; omega) n
    refine ⟨?_, k + n, by omega, ?_⟩
    · rw [show SBuffer.file.read n ⟨S, k⟩ = SBuffer.read ⟨S, k⟩ n from rfl, h1]
      rw [show SBuffer.rest ⟨S, k⟩ = [] from by
        simp [SBuffer.rest]; omega]
      simp
    · rw [show SBuffer.file.read n ⟨S, k⟩ = SBuffer.read ⟨S, k⟩ n from rfl, h4]; push_cast; rfl

/-! ## Monad plumbing -/

section
variable {σ : Type} {α β : Type}

theorem FM.bind_ok {x : FM σ α} {f : α → FM σ β} {s s' : σ} {a : α} (h : x s = .ok a s') :
    (x >>= f) s = f a s' := by
  change EStateM.bind x f s = _
  unfold EStateM.bind; rw [h]

theorem FM.bind_error {x : FM σ α} {f : α → FM σ β} {s s' : σ} {e : PyErr}
    (h : x s = .error e s') : (x >>= f) s = .error e s' := by
  change EStateM.bind x f s = _
  unfold EStateM.bind; rw [h]

theorem FM.bind_read (F : FileLike σ) (n : Int) (f : Bytes → FM σ β) (s : σ) :
    (FM.read F n >>= f) s = f (F.read n s).1 (F.read n s).2 := rfl

theorem FM.throw_run (e : PyErr) (s : σ) : (throw e : FM σ α) s = .error e s := rfl

theorem FM.pure_run (a : α) (s : σ) : (pure a : FM σ α) s = .ok a s := rfl

theorem FM.lift_ok {x : Py α} {a : α} (h : x = .ok a) (s : σ) :
    (FM.lift x : FM σ α) s = .ok a s := by
  unfold FM.lift; rw [h]

theorem FM.lift_error {x : Py α} {e : PyErr} (h : x = .error e) (s : σ) :
    (FM.lift x : FM σ α) s = .error e s := by
  unfold FM.lift; rw [h]

end

theorem decode_I (l : Bytes) (h : l.length = 4) : Fmt.decode .I l = (leNat l : Int) := by
  have := leNat_lt l
  rw [h] at this
  unfold Fmt.decode
  have hh : Fmt.hi .I = 4294967296 := rfl
  rw [if_pos (by rw [hh]; omega)]

theorem unpackI_take {b : Bytes} (h : 4 ≤ b.length) :
    unpackFrom .I (b.take 4) 0 = .ok ((u32 b 0 : Nat) : Int) := by
  have hl : (b.take 4).length = 4 := by simp; omega
  have := unpackFrom_nat (fmt := .I) (b := b.take 4) (i := 0) (by rw [hl]; decide)
  rw [show ((0 : Nat) : Int) = 0 from rfl] at this
  rw [this]
  have hs : slice (b.take 4) 0 4 = b.take 4 := by
    unfold slice; rw [List.drop_zero, List.take_take]; rfl
  rw [show Fmt.size .I = 4 from rfl, hs, decode_I _ hl]
  simp [u32, slice]

theorem unpackUint32_take {b : Bytes} (h : 4 ≤ b.length) :
    unpackUint32 (b.take 4) 0 = .ok ((u32 b 0 : Nat) : Int) := by
  unfold unpackUint32
  rw [if_neg (by simp; omega), unpackI_take h]

theorem u32_drop (b : Bytes) (n k : Nat) : u32 (b.drop n) k = u32 b (n + k) := by
  unfold u32 slice; rw [List.drop_drop]

section
variable {σ : Type} {F : FileLike σ} {R : σ → Bytes → Prop} {E : σ → Prop}

theorem loadSizes_spec (hF : Faithful F R E) : ∀ (n : Nat) (st : σ) (b : Bytes), R st b →
    (4 * n ≤ b.length → ∃ st', loadSizes F n st
        = .ok ((List.range n).map fun k => ((u32 b (4 * k) : Nat) : Int)) st' ∧ R st' (b.drop (4 * n))) ∧
    (b.length < 4 * n → ∃ st', loadSizes F n st = .error .valueError st') := by
  intro n
  induction n with
  | zero =>
    intro st b h
    exact ⟨fun _ => ⟨st, rfl, by simpa using h⟩, fun h' => by omega⟩
  | succ n ih =>
    intro st b h
    have e : loadSizes F (n + 1) st = (do
        let buf ← FM.read F 4
        if buf.length < 4 then throw .valueError
        else do
          let size ← FM.lift (unpackFrom .I buf 0)
          let rest ← loadSizes F n
          pure (size :: rest) : FM σ (List Int)) st := rfl
    rw [e, FM.bind_read]
    by_cases h4 : 4 ≤ b.length
    · obtain ⟨h1, h2⟩ := hF.full st b 4 h h4
      rw [show ((4 : Nat) : Int) = 4 from rfl] at h1 h2
      rw [h1, if_neg (by simp; omega), FM.bind_ok (FM.lift_ok (unpackI_take h4) _)]
      obtain ⟨i1, i2⟩ := ih _ _ h2
      rw [List.length_drop] at i1 i2
      constructor
      · intro hn
        obtain ⟨st', j1, j2⟩ := i1 (by omega)
        rw [FM.bind_ok j1, FM.pure_run]
        refine ⟨st', ?_, ?_⟩
        · congr 1
          rw [List.range_succ_eq_map]
          simp only [List.map_cons, List.map_map]
          congr 1
          apply List.map_congr_left
          intro k _
          rw [u32_drop]
          simp only [Function.comp]
          rw [show 4 * k.succ = 4 + 4 * k by omega]
        · rw [List.drop_drop] at j2
          rw [show 4 * (n + 1) = 4 + 4 * n by ring]; exact j2
      · intro hn
        obtain ⟨st', j1⟩ := i2 (by omega)
        exact ⟨st', FM.bind_error j1⟩
    · obtain ⟨h1, h2⟩ := hF.short st b 4 h (by omega)
      rw [show ((4 : Nat) : Int) = 4 from rfl] at h1 h2
      rw [h1, if_pos (by omega)]
      exact ⟨fun _ => by omega, fun _ => ⟨_, rfl⟩⟩

theorem offsetsLoop_spec (ns : List Nat) (m : Nat) : ∀ o : Nat,
    (o : Int) :: offsetsLoop o ((m :: ns).map Int.ofNat).dropLast
      = (sizeStarts (m :: ns)).map fun x => ((x + o : Nat) : Int) := by
  induction ns generalizing m with
  | nil => intro o; simp [offsetsLoop, sizeStarts]
  | cons n ns ih =>
    intro o
    rw [List.map_cons, List.map_cons, List.dropLast_cons_cons]
    unfold offsetsLoop sizeStarts
    dsimp only
    have := ih n (o + 8 * m)
    rw [List.map_cons] at this
    rw [show (o : Int) + Int.ofNat m * 8 = ((o + 8 * m : Nat) : Int) by
      rw [Int.ofNat_eq_natCast]; push_cast; ring]
    rw [this]
    simp only [List.map_cons, List.map_map]
    congr 1
    · simp
    · apply List.map_congr_left
      intro x _
      simp only [Function.comp]
      congr 1; omega

theorem offsets_spec {ns : List Nat} (h : ns ≠ []) :
    (0 : Int) :: offsetsLoop 0 (ns.map Int.ofNat).dropLast = (sizeStarts ns).map Int.ofNat := by
  cases ns with
  | nil => exact absurd rfl h
  | cons m ns => exact (offsetsLoop_spec ns m 0).trans (by apply List.map_congr_left; intro x _; simp)

theorem sum_map_ofNat (ns : List Nat) : (ns.map Int.ofNat).sum = ((ns.sum : Nat) : Int) := by
  induction ns with
  | nil => rfl
  | cons n ns ih => simp [ih]

theorem body_spec (hF : Faithful F R E) {ns : List Nat} (hne : ns ≠ []) {st : σ} {b : Bytes}
    (h : R st b) :
    (8 * ns.sum ≤ b.length → ∃ st', loadMultiple.body F (ns.map Int.ofNat) st
        = .ok (Seg.of (b.take (8 * ns.sum)) (some (sizeStarts ns))) st' ∧ R st' (b.drop (8 * ns.sum))) ∧
    (b.length < 8 * ns.sum → ∃ st', loadMultiple.body F (ns.map Int.ofNat) st
        = .error .valueError st') := by
  have e : loadMultiple.body F (ns.map Int.ofNat) st = (do
      let buf ← FM.read F ((ns.map Int.ofNat).sum * 8)
      if (buf.length : Int) < (ns.map Int.ofNat).sum * 8 then throw .valueError
      else pure ⟨buf, some (0 :: offsetsLoop 0 (ns.map Int.ofNat).dropLast)⟩ : FM σ Seg) st := rfl
  have hs : (ns.map Int.ofNat).sum * 8 = ((8 * ns.sum : Nat) : Int) := by
    rw [sum_map_ofNat]; push_cast; ring
  rw [e, FM.bind_read, hs, offsets_spec hne]
  constructor
  · intro hl
    obtain ⟨h1, h2⟩ := hF.full st b _ h hl
    rw [h1, if_neg (by rw [List.length_take]; omega), FM.pure_run]
    exact ⟨_, rfl, h2⟩
  · intro hl
    obtain ⟨h1, h2⟩ := hF.short st b _ h hl
    rw [h1, if_pos (by omega)]
    exact ⟨_, rfl⟩

/-- Past the end of the file the body can only be read if it is empty. -/
theorem body_ended (hF : Faithful F R E) {ns : List Nat} (hne : ns ≠ []) {st : σ} (h : E st) :
    (ns.sum = 0 → ∃ st', loadMultiple.body F (ns.map Int.ofNat) st
        = .ok (Seg.of [] (some (sizeStarts ns))) st') ∧
    (0 < ns.sum → ∃ st', loadMultiple.body F (ns.map Int.ofNat) st = .error .valueError st') := by
  have e : loadMultiple.body F (ns.map Int.ofNat) st = (do
      let buf ← FM.read F ((ns.map Int.ofNat).sum * 8)
      if (buf.length : Int) < (ns.map Int.ofNat).sum * 8 then throw .valueError
      else pure ⟨buf, some (0 :: offsetsLoop 0 (ns.map Int.ofNat).dropLast)⟩ : FM σ Seg) st := rfl
  have hs : (ns.map Int.ofNat).sum * 8 = ((8 * ns.sum : Nat) : Int) := by
    rw [sum_map_ofNat]; push_cast; ring
  obtain ⟨h1, h2⟩ := hF.ended st (8 * ns.sum) h
  rw [e, FM.bind_read, hs, offsets_spec hne, h1]
  constructor
  · intro hl
    rw [if_neg (by rw [hl]; simp), FM.pure_run]
    exact ⟨_, rfl⟩
  · intro hl
    rw [if_pos (by simp only [List.length_nil]; omega)]
    exact ⟨_, rfl⟩

theorem land7 (n : Nat) : Int.land (n : Int) 7 = ((n % 8 : Nat) : Int) := by
  have := land_mask (n : Int) 3
  rw [show (2 ^ 3 - 1 : Int) = 7 by norm_num] at this
  rw [this]; omega

/-- What `_load_buffer_multiple_segments` does on the bytes `b` that follow the
segment count. -/
theorem loadMultiple_spec (hF : Faithful F R E) {n : Nat} (hn : 0 < n) {st : σ} {b : Bytes}
    (h : R st b) {ns : List Nat} (hns : ns = (List.range n).map fun k => u32 b (4 * k))
    {hl : Nat} (hhl : hl + 4 = wordAlign (4 + 4 * n)) :
    (hl + 8 * ns.sum ≤ b.length → ∃ st', loadMultiple F n st
        = .ok (Seg.of (slice b hl (8 * ns.sum)) (some (sizeStarts ns))) st' ∧
          R st' (b.drop (hl + 8 * ns.sum))) ∧
    (b.length < 4 * n ∨ (0 < ns.sum ∧ b.length < hl + 8 * ns.sum) →
      ∃ st', loadMultiple F n st = .error .valueError st') ∧
    (4 * n ≤ b.length → ns.sum = 0 → ∃ st', loadMultiple F n st
        = .ok (Seg.of [] (some (sizeStarts ns))) st') := by
  have hne : ns ≠ [] := by
    rw [hns]; intro h0
    have := congrArg List.length h0
    simp at this; omega
  have e : loadMultiple F n st = (do
      let segments ← loadSizes F n
      if Int.land (4 + n * 4 : Int) 7 ≠ 0 then do
        let _ ← FM.read F (8 - Int.land (4 + n * 4 : Int) 7)
        loadMultiple.body F segments
      else loadMultiple.body F segments : FM σ Seg) st := rfl
  rw [e]
  rw [show (4 + n * 4 : Int) = ((4 + 4 * n : Nat) : Int) by push_cast; ring, land7]
  unfold wordAlign at hhl
  obtain ⟨s1, s2⟩ := loadSizes_spec hF n st b h
  by_cases h4 : 4 * n ≤ b.length
  · obtain ⟨st1, s3, s4⟩ := s1 h4
    have hmap : ((List.range n).map fun k => ((u32 b (4 * k) : Nat) : Int)) = ns.map Int.ofNat := by
      rw [hns, List.map_map]; rfl
    rw [FM.bind_ok s3, hmap]
    by_cases hp : (4 + 4 * n) % 8 = 0
    · rw [if_neg (by rw [hp]; simp)]
      have hl4 : hl = 4 * n := by omega
      subst hl4
      obtain ⟨b1, b2⟩ := body_spec hF hne s4
      rw [List.length_drop] at b1 b2
      refine ⟨fun hh => ?_, fun hh => ?_, fun _ hh => ?_⟩
      · obtain ⟨st', c1, c2⟩ := b1 (by omega)
        exact ⟨st', c1, by rw [← List.drop_drop]; exact c2⟩
      · rcases hh with hh | hh
        · omega
        · exact b2 (by omega)
      · obtain ⟨st', c1, c2⟩ := b1 (by omega)
        refine ⟨st', c1.trans ?_⟩
        rw [hh]; rfl
    · have hl4 : hl = 4 * n + 4 := by omega
      subst hl4
      have h84 : (4 + 4 * n) % 8 = 4 := by omega
      rw [if_pos (by omega), FM.bind_read, h84]
      rw [show (8 - ((4 : Nat) : Int)) = ((4 : Nat) : Int) by norm_num]
      by_cases h5 : 4 * n + 4 ≤ b.length
      · obtain ⟨p1, p2⟩ := hF.full _ _ 4 s4 (by rw [List.length_drop]; omega)
        obtain ⟨b1, b2⟩ := body_spec hF hne p2
        rw [List.drop_drop, List.length_drop] at b1 b2
        refine ⟨fun hh => ?_, fun hh => ?_, fun _ hh => ?_⟩
        · obtain ⟨st', c1, c2⟩ := b1 (by omega)
          exact ⟨st', c1, by rw [← List.drop_drop]; exact c2⟩
        · rcases hh with hh | hh
          · omega
          · exact b2 (by omega)
        · obtain ⟨st', c1, c2⟩ := b1 (by omega)
          refine ⟨st', c1.trans ?_⟩
          rw [hh]; rfl
      · obtain ⟨p1, p2⟩ := hF.short _ _ 4 s4 (by rw [List.length_drop]; omega)
        obtain ⟨b1, b2⟩ := body_ended hF hne p2
        refine ⟨fun hh => by omega, fun hh => ?_, fun _ hh => b1 hh⟩
        rcases hh with hh | hh
        · omega
        · exact b2 hh.1
  · obtain ⟨st', s3⟩ := s2 (by omega)
    refine ⟨fun hh => ?_, fun hh => ⟨st', FM.bind_error s3⟩, fun hh => by omega⟩
    omega

theorem loadSingle_spec (hF : Faithful F R E) {st : σ} {b : Bytes} (h : R st b) :
    (4 + 8 * u32 b 0 ≤ b.length → ∃ st', loadSingle F st
        = .ok (Seg.of (slice b 4 (8 * u32 b 0)) none) st' ∧ R st' (b.drop (4 + 8 * u32 b 0))) ∧
    (b.length < 4 ∨ b.length < 4 + 8 * u32 b 0 → ∃ st', loadSingle F st = .error .valueError st') := by
  have e : loadSingle F st = (do
      let buf ← FM.read F 4
      if buf.length < 4 then throw .valueError
      else do
        let messageSize ← FM.lift (unpackUint32 buf 0)
        let buf ← FM.read F (messageSize * 8)
        if (buf.length : Int) < messageSize * 8 then throw .valueError
        else pure ⟨buf, none⟩ : FM σ Seg) st := rfl
  rw [e, FM.bind_read]
  by_cases h4 : 4 ≤ b.length
  · obtain ⟨h1, h2⟩ := hF.full st b 4 h h4
    rw [show ((4 : Nat) : Int) = 4 from rfl] at h1 h2
    rw [h1, if_neg (by simp; omega), FM.bind_ok (FM.lift_ok (unpackUint32_take h4) _), FM.bind_read]
    rw [show ((u32 b 0 : Nat) : Int) * 8 = ((8 * u32 b 0 : Nat) : Int) by push_cast; ring]
    by_cases h5 : 4 + 8 * u32 b 0 ≤ b.length
    · obtain ⟨h6, h7⟩ := hF.full _ _ (8 * u32 b 0) h2 (by rw [List.length_drop]; omega)
      rw [h6, if_neg (by rw [List.length_take, List.length_drop]; omega), FM.pure_run]
      refine ⟨fun _ => ⟨_, rfl, ?_⟩, fun hh => by omega⟩
      rw [List.drop_drop] at h7; exact h7
    · obtain ⟨h6, h7⟩ := hF.short _ _ (8 * u32 b 0) h2 (by rw [List.length_drop]; omega)
      rw [h6, if_pos (by rw [List.length_drop]; omega)]
      exact ⟨fun _ => by omega, fun hh => ⟨_, rfl⟩⟩
  · obtain ⟨h1, h2⟩ := hF.short st b 4 h (by omega)
    rw [show ((4 : Nat) : Int) = 4 from rfl] at h1 h2
    rw [h1, if_pos (by omega)]
    exact ⟨fun _ => by omega, fun _ => ⟨_, rfl⟩⟩

/-- `_load_message` on every byte sequence. -/
theorem loadMessage_spec (hF : Faithful F R E) {st : σ} {b : Bytes} (h : R st b) :
    (b.length = 0 → ∃ st', loadMessage F st = .error .eofError st') ∧
    (0 < b.length → b.length < 4 + 4 * segCount b ∨
        (0 < bodyLen b ∧ b.length < headerLen b + bodyLen b) →
      ∃ st', loadMessage F st = .error .valueError st') ∧
    (4 + 4 * segCount b ≤ b.length → bodyLen b = 0 →
      ∃ st', loadMessage F st = .error .assertionError st') ∧
    (0 < bodyLen b → headerLen b + bodyLen b ≤ b.length →
      ∃ st', loadMessage F st
        = .ok (objAt (slice b (headerLen b) (bodyLen b)) (announcedTable b) 0 0 1) st' ∧
        R st' (b.drop (headerLen b + bodyLen b))) := by
  have e : loadMessage F st = (do
      let buf ← FM.read F 4
      if buf.length = 0 then throw .eofError
      else if buf.length < 4 then throw .valueError
      else do
        let n ← FM.lift (unpackUint32 buf 0)
        let seg ← if n + 1 = 1 then loadSingle F else loadMultiple F (n + 1).toNat
        FM.lift (StructObj.initFromBuffer seg 0 0 1) : FM σ StructObj) st := rfl
  rw [e, FM.bind_read]
  have hhl : 4 + 4 * segCount b ≤ headerLen b := by unfold headerLen wordAlign; omega
  by_cases h4 : 4 ≤ b.length
  swap
  · obtain ⟨h1, h2⟩ := hF.short st b 4 h (by omega)
    rw [show ((4 : Nat) : Int) = 4 from rfl] at h1 h2
    rw [h1]
    refine ⟨fun h0 => ?_, fun h0 _ => ?_, fun h0 => by omega, fun h0 => by omega⟩
    · rw [if_pos h0]; exact ⟨_, rfl⟩
    · rw [if_neg (by omega), if_pos (by omega)]; exact ⟨_, rfl⟩
  obtain ⟨h1, h2⟩ := hF.full st b 4 h h4
  rw [show ((4 : Nat) : Int) = 4 from rfl] at h1 h2
  have hlt : (b.take 4).length = 4 := by rw [List.length_take]; omega
  rw [h1, if_neg (by omega), if_neg (by omega), FM.bind_ok (FM.lift_ok (unpackUint32_take h4) _)]
  have hobj : ∀ (B : Bytes) (offs : Option (List Nat)), 8 ≤ B.length →
      StructObj.initFromBuffer (Seg.of B offs) 0 0 1 = .ok (objAt B offs 0 0 1) := by
    intro B offs hB
    exact initFromBuffer_nat (B := B) (offs := offs) (t := 0) (ds := 0) (ps := 1) (by omega)
  have hbad : ∀ (offs : Option (List Nat)),
      StructObj.initFromBuffer (Seg.of [] offs) 0 0 1 = .error .assertionError := by
    intro offs; rfl
  have h8 : 0 < bodyLen b → 8 ≤ bodyLen b := by unfold bodyLen; omega
  by_cases h0 : u32 b 0 = 0
  · have hc : segCount b = 1 := by unfold segCount; omega
    have hsz : bodyLen b = 8 * u32 b 4 := by
      unfold bodyLen segSizes; rw [hc]; simp
    have hh : headerLen b = 8 := by unfold headerLen; rw [hc]; rfl
    have htab : announcedTable b = none := by unfold announcedTable; rw [if_pos hc]
    rw [if_pos (by rw [h0]; rfl)]
    obtain ⟨s1, s2⟩ := loadSingle_spec hF h2
    rw [u32_drop, List.length_drop, Nat.add_zero] at s1 s2
    rw [List.drop_drop] at s1
    refine ⟨fun h0 => by omega, fun _ hor => ?_, fun h5 h6 => ?_, fun h5 h6 => ?_⟩
    · obtain ⟨st', s3⟩ := s2 (by omega)
      exact ⟨st', FM.bind_error s3⟩
    · obtain ⟨st', s3, s4⟩ := s1 (by omega)
      rw [FM.bind_ok s3]
      have hz : u32 b 4 = 0 := by omega
      rw [hz]
      refine ⟨st', ?_⟩
      rw [show slice (b.drop 4) 4 (8 * 0) = [] by simp [slice]]
      exact FM.lift_error (hbad _) _
    · obtain ⟨st', s3, s4⟩ := s1 (by omega)
      rw [FM.bind_ok s3]
      refine ⟨st', ?_, ?_⟩
      · rw [show slice (b.drop 4) 4 (8 * u32 b 4) = slice b (headerLen b) (bodyLen b) by
          unfold slice; rw [List.drop_drop, hh, hsz], htab]
        exact FM.lift_ok (hobj _ _ (by rw [slice_length_of_le (by omega)]; exact h8 h5)) _
      · rw [hh, hsz]; rw [show 8 + 8 * u32 b 4 = 4 + (4 + 8 * u32 b 4) by omega]; exact s4
  · have hc : segCount b ≠ 1 := by unfold segCount; omega
    have htab : announcedTable b = some (sizeStarts (segSizes b)) := by
      unfold announcedTable; rw [if_neg hc]
    rw [if_neg (by omega), show (((u32 b 0 : Nat) : Int) + 1).toNat = segCount b by
      unfold segCount; omega]
    have hns : segSizes b = (List.range (segCount b)).map fun k => u32 (b.drop 4) (4 * k) := by
      unfold segSizes; apply List.map_congr_left; intro k _; rw [u32_drop]
    obtain ⟨s1, s2, s3⟩ := loadMultiple_spec hF (n := segCount b) (by unfold segCount; omega) h2 hns
      (hl := headerLen b - 4) (by unfold headerLen at hhl ⊢; omega)
    rw [List.length_drop] at s1 s2 s3
    rw [show 8 * (segSizes b).sum = bodyLen b from rfl] at s1 s2
    have hsum : bodyLen b = 8 * (segSizes b).sum := rfl
    refine ⟨fun h0 => by omega, fun _ hor => ?_, fun h5 h6 => ?_, fun h5 h6 => ?_⟩
    · obtain ⟨st', s4⟩ := s2 (by omega)
      exact ⟨st', FM.bind_error s4⟩
    · obtain ⟨st', s4⟩ := s3 (by omega) (by omega)
      rw [FM.bind_ok s4]
      exact ⟨st', FM.lift_error (hbad _) _⟩
    · obtain ⟨st', s4, s5⟩ := s1 (by omega)
      rw [FM.bind_ok s4]
      refine ⟨st', ?_, ?_⟩
      · rw [show slice (b.drop 4) (headerLen b - 4) (bodyLen b) = slice b (headerLen b) (bodyLen b) by
          unfold slice; rw [List.drop_drop]; congr 2; omega, htab]
        exact FM.lift_ok (hobj _ _ (by rw [slice_length_of_le (by omega)]; exact h8 h5)) _
      · rw [List.drop_drop] at s5
        rw [show headerLen b + bodyLen b = 4 + (headerLen b - 4 + bodyLen b) by omega]; exact s5

end

end Capnpy
