import Verif.Model.PyxBuilder
import Verif.Props.Fields

/-!
# C05, C06, C07: the segment builder
-/

namespace Capnpy.Props

open Capnpy Spec

/-! ## C06: the compiled builder equals the pure one -/

/-- The arguments of a call are in bounds for a builder which has allocated `L`
bytes. -/
def InBounds (L : Int) : Pyx.Op → Prop
  | .write fmt i _ => 0 ≤ i ∧ i + fmt.size ≤ L
  | .writeBool i k _ => 0 ≤ i ∧ i + 1 ≤ L ∧ k < 8
  | .writeSlice i src start n => 0 ≤ n ∧ 0 ≤ i ∧ i + n ≤ L ∧ 0 ≤ start ∧ start + n ≤ src.length
  | .allocate n => 0 ≤ n
  | .allocStruct pos ds ps => 0 ≤ pos ∧ pos + 8 ≤ L ∧ 0 ≤ ds ∧ 0 ≤ ps
  | .allocList pos _ _ body => 0 ≤ pos ∧ pos + 8 ≤ L ∧ 0 ≤ body
  | .allocText pos _ => 0 ≤ pos ∧ pos + 8 ≤ L
  | .allocData pos _ => 0 ≤ pos ∧ pos + 8 ≤ L

instance (L : Int) (op : Pyx.Op) : Decidable (InBounds L op) := by
  cases op <;> unfold InBounds <;> infer_instance

/-- Every call of the program has arguments in bounds when it is made. -/
def Safe : Bytes → Pyx.Prog → Prop
  | _, .done => True
  | buf, .call op k => InBounds buf.length op ∧ ∀ r buf', op.runPy buf = .ok r buf' → Safe buf' (k r)

/-- The compiled builder represents the bytes `buf`: they are the used part, and
the unused part is zero. -/
structure Repr (s : Pyx.Builder) (buf : Bytes) : Prop where
  len : s.end_ = buf.length
  used : ∀ i, i < buf.length → s.buf[i]? = buf[i]?
  cap : buf.length ≤ s.buf.length
  zero : ∀ i, buf.length ≤ i → i < s.buf.length → s.buf[i]? = some 0

theorem repr_new (n : Nat) : Repr (Pyx.new n) [] := by
  refine ⟨rfl, by simp, by simp, ?_⟩
  intro i _ h
  simp [Pyx.new] at h
  simp [Pyx.new, List.getElem?_replicate, h]

theorem repr_asString {s : Pyx.Builder} {buf : Bytes} (h : Repr s buf) : Pyx.asString s = buf := by
  unfold Pyx.asString
  rw [h.len]
  apply List.ext_getElem?
  intro i
  rw [Int.toNat_natCast, List.getElem?_take]
  split
  · exact h.used i ‹_›
  · rw [List.getElem?_eq_none (by omega)]

/-- Stores inside the used part commute with the representation. -/
theorem repr_store {s : Pyx.Builder} {buf : Bytes} (h : Repr s buf) {i : Nat} {bs : Bytes}
    (hi : i + bs.length ≤ buf.length) :
    ∃ b, Pyx.store s.buf (i : Int) bs = some b ∧ Repr { s with buf := b } (overwrite buf i bs) := by
  have hc := h.cap
  refine ⟨overwrite s.buf i bs, ?_, ?_⟩
  · unfold Pyx.store
    rw [if_pos (by omega)]; rfl
  · have l1 := overwrite_length (b := buf) (s := bs) (i := i) hi
    have l2 := overwrite_length (b := s.buf) (s := bs) (i := i) (by omega)
    refine ⟨by simp only; rw [l1, h.len], ?_, by simp only; omega, ?_⟩
    · intro k hk
      simp only
      rw [overwrite_getElem? (by omega), overwrite_getElem? hi, h.used k (by omega)]
    · intro k hk hk2
      simp only at hk2 ⊢
      rw [overwrite_getElem? (by omega), if_neg (by omega), if_neg (by omega), h.zero k (by omega) (by omega)]

theorem roundToWord_eq (n : Int) : Pyx.roundToWord n = Ptr.roundUpToWord n := rfl

/-- `allocate` grows both buffers by the same zero bytes. -/
theorem repr_allocate {s : Pyx.Builder} {buf : Bytes} (h : Repr s buf) (junk : Nat → UInt8) (n : Nat) :
    ∃ s', Pyx.allocate junk s (n : Int) = some ((buf.length : Int), s') ∧
      Repr s' (buf ++ List.replicate n 0) := by
  have hc := h.cap
  have hlen := h.len
  unfold Pyx.allocate
  simp only
  rw [show s.end_ = (buf.length : Int) from hlen]
  unfold Pyx.Builder.length
  simp only
  by_cases hb : (buf.length : Int) + n > s.buf.length
  · rw [if_pos hb]
    unfold Pyx.resize Pyx.Builder.length
    simp only
    rw [roundToWord_eq, Ptr.roundUpToWord_eq]
    generalize hN : (max ((buf.length : Int) + n) ((s.buf.length : Int) + (s.buf.length : Int) / 2 + 512) + 7) / 8 * 8 = N
    have hN1 : (buf.length : Int) + n ≤ N := by omega
    have hN2 : (s.buf.length : Int) ≤ N := by omega
    obtain ⟨m, rfl⟩ := Int.eq_ofNat_of_zero_le (show 0 ≤ N by omega)
    have e : ((m : Int) - s.buf.length).toNat = m - s.buf.length := by omega
    rw [e]
    have l0 : (s.buf ++ (List.range (m - s.buf.length)).map junk).length = m := by simp; omega
    have lr : (List.replicate (m - s.buf.length) (0 : UInt8)).length = m - s.buf.length := by simp
    unfold Pyx.store
    rw [if_pos (by rw [l0, lr]; omega)]
    simp only [Int.toNat_natCast]
    refine ⟨_, rfl, ?_⟩
    have lo := overwrite_length (b := s.buf ++ (List.range (m - s.buf.length)).map junk)
      (s := List.replicate (m - s.buf.length) (0 : UInt8)) (i := s.buf.length) (by rw [l0, lr]; omega)
    rw [l0] at lo
    have key : ∀ k, k < m → (overwrite (s.buf ++ (List.range (m - s.buf.length)).map junk) s.buf.length
        (List.replicate (m - s.buf.length) (0 : UInt8)))[k]? = if k < s.buf.length then s.buf[k]? else some 0 := by
      intro k hk
      rw [overwrite_getElem? (by rw [l0, lr]; omega)]
      by_cases hks : k < s.buf.length
      · rw [if_pos hks, if_pos hks, List.getElem?_append_left hks]
      · rw [if_neg hks, if_neg hks, lr, if_pos (by omega), List.getElem?_replicate, if_pos (by omega)]
    refine ⟨by simp, ?_, ?_, ?_⟩
    · intro k hk
      simp only [List.length_append, List.length_replicate] at hk
      simp only
      rw [key k (by omega)]
      by_cases hkb : k < buf.length
      · rw [if_pos (by omega), List.getElem?_append_left hkb, h.used k hkb]
      · have er : (buf ++ List.replicate n (0 : UInt8))[k]? = some 0 := by
          rw [List.getElem?_append_right (by omega), List.getElem?_replicate, if_pos (by omega)]
        rw [er]
        split
        · exact h.zero k (by omega) ‹_›
        · rfl
    · simp only [List.length_append, List.length_replicate]; omega
    · intro k hk hk2
      simp only [List.length_append, List.length_replicate] at hk hk2 ⊢
      rw [lo] at hk2
      rw [key k hk2]
      split
      · exact h.zero k (by omega) ‹_›
      · rfl
  · rw [if_neg hb]
    refine ⟨_, rfl, by simp, ?_, ?_, ?_⟩
    · intro k hk
      simp only [List.length_append, List.length_replicate] at hk
      simp only
      by_cases hkb : k < buf.length
      · rw [List.getElem?_append_left hkb, h.used k hkb]
      · rw [List.getElem?_append_right (by omega), List.getElem?_replicate, if_pos (by omega)]
        exact h.zero k (by omega) (by omega)
    · simp only [List.length_append, List.length_replicate]; omega
    · intro k hk hk2
      simp only [List.length_append, List.length_replicate] at hk hk2 ⊢
      exact h.zero k (by omega) hk2

theorem encode_inv {fmt : Fmt} {v : Int} {bs : Bytes} (h : fmt.encode v = .ok bs) :
    bs = leBytes fmt.size (v % fmt.card).toNat := by
  unfold Fmt.encode at h
  by_cases hc : fmt.lo ≤ v ∧ v < fmt.hi
  · rw [if_pos hc] at h; cases h; rfl
  · rw [if_neg hc] at h; cases h

theorem writeFmt_run {b b' : Bytes} {fmt : Fmt} {i : Nat} {v : Int} (hi : i + fmt.size ≤ b.length)
    (h : writeFmt fmt (i : Int) v b = .ok () b') :
    ∃ bs, fmt.encode v = .ok bs ∧ bs.length = fmt.size ∧ b' = overwrite b i bs := by
  unfold writeFmt packInto at h
  cases he : fmt.encode v with
  | error e => rw [he] at h; simp at h
  | ok bs =>
    rw [he, structOffset_nat hi] at h
    simp only [EStateM.Result.ok.injEq, true_and] at h
    refine ⟨bs, rfl, ?_, h.symm⟩
    rw [encode_inv he]; exact leBytes_length _ _

/-- A successful pointer write. -/
theorem repr_writePtr {s : Pyx.Builder} {buf buf' : Bytes} (h : Repr s buf) {i : Nat} {p : Int}
    (hi : i + 8 ≤ buf.length) (hw : writeInt64 (i : Int) p buf = .ok () buf') :
    ∃ s', Pyx.writePtr s (i : Int) p = some s' ∧ Repr s' buf' := by
  obtain ⟨bs, h1, h2, rfl⟩ := writeFmt_run hi hw
  have h3 : bs = leBytes 8 (p % 2 ^ 64).toNat := encode_inv h1
  obtain ⟨b, g1, g2⟩ := repr_store h (i := i) (bs := bs) (by rw [h2]; exact hi)
  refine ⟨{ s with buf := b }, ?_, g2⟩
  unfold Pyx.writePtr
  rw [← h3, g1]

theorem repr_writeFmt {s : Pyx.Builder} {buf buf' : Bytes} (h : Repr s buf) {i : Nat} {v : Int} {fmt : Fmt}
    (hi : i + fmt.size ≤ buf.length) (hw : writeFmt fmt (i : Int) v buf = .ok () buf') :
    ∃ s', Pyx.writeFmt s fmt (i : Int) v = some s' ∧ Repr s' buf' := by
  obtain ⟨bs, h1, h2, rfl⟩ := writeFmt_run hi hw
  obtain ⟨b, g1, g2⟩ := repr_store h (i := i) (bs := bs) (by rw [h2]; exact hi)
  refine ⟨{ s with buf := b }, ?_, g2⟩
  unfold Pyx.writeFmt
  rw [h1]
  simp only
  rw [g1]

theorem BM.bind_ok_inv {α β} {x : BM α} {f : α → BM β} {s s' : Bytes} {b : β}
    (h : (x >>= f) s = .ok b s') : ∃ a s1, x s = .ok a s1 ∧ f a s1 = .ok b s' := by
  change EStateM.bind x f s = _ at h
  unfold EStateM.bind at h
  cases hx : x s with
  | error e s1 => rw [hx] at h; cases h
  | ok a s1 => rw [hx] at h; exact ⟨a, s1, rfl, h⟩

theorem repr_allocList {s : Pyx.Builder} {buf buf' : Bytes} (h : Repr s buf) (junk : Nat → UInt8)
    {pos body : Nat} {tag n r : Int} (hp : pos + 8 ≤ buf.length)
    (hw : allocList (pos : Int) tag n (body : Int) buf = .ok r buf') :
    ∃ s', Pyx.allocList junk s (pos : Int) tag n (body : Int) = some (r, s') ∧ Repr s' buf' ∧
      r = buf.length ∧ buf'.length = buf.length + wordAlign body := by
  unfold allocList at hw
  simp only at hw
  rw [roundUp_nat, BM.bind_ok (allocate_nat _ _)] at hw
  obtain ⟨a, s1, h1, h2⟩ := BM.bind_ok_inv hw
  cases h2
  obtain ⟨s2, g1, g2⟩ := repr_allocate h junk (wordAlign body)
  obtain ⟨s3, g3, g4⟩ := repr_writePtr g2 (by simp; omega) h1
  refine ⟨s3, ?_, g4, rfl, ?_⟩
  · unfold Pyx.allocList
    simp only [bind, Option.bind]
    rw [roundToWord_eq, roundUp_nat, g1]
    simp only
    rw [g3]
  · obtain ⟨bs, _, e2, e3⟩ := writeFmt_run (fmt := .q) (by simp [Fmt.size]; omega) h1
    rw [e3, overwrite_length (by rw [e2]; simp [Fmt.size]; omega)]
    simp

theorem repr_allocText {s : Pyx.Builder} {buf buf' : Bytes} (h : Repr s buf) (junk : Nat → UInt8)
    {pos tz : Nat} {x : Option Bytes} {r : Int} (hp : pos + 8 ≤ buf.length)
    (hw : allocText (pos : Int) x (tz : Int) buf = .ok r buf') :
    ∃ s', Pyx.allocText junk s (pos : Int) x (tz : Int) = some (r, s') ∧ Repr s' buf' := by
  cases x with
  | none =>
    unfold allocText at hw
    simp only at hw
    obtain ⟨a, s1, h1, h2⟩ := BM.bind_ok_inv hw
    cases h2
    obtain ⟨s3, g3, g4⟩ := repr_writeFmt h (fmt := .q) hp h1
    refine ⟨s3, ?_, g4⟩
    unfold Pyx.allocText
    simp only [bind, Option.bind]
    rw [g3]
  | some t =>
    unfold allocText at hw
    simp only at hw
    obtain ⟨a, s1, h1, h2⟩ := BM.bind_ok_inv hw
    have e : ((t.length : Int) + (tz : Int)) = ((t.length + tz : Nat) : Int) := by push_cast; rfl
    rw [e] at h1
    obtain ⟨s2, g1, g2, g3, g4⟩ := repr_allocList h junk hp h1
    subst g3
    obtain ⟨_, s3, h3, h4⟩ := BM.bind_ok_inv h2
    cases h4
    cases h3
    have hle : t.length ≤ wordAlign (t.length + tz) := by unfold wordAlign; omega
    obtain ⟨b, k1, k2⟩ := repr_store g2 (i := buf.length) (bs := t) (by omega)
    have ea : pySliceAssign s1 (buf.length : Int) ((buf.length : Int) + (t.length : Int)) t
        = overwrite s1 buf.length t := pySliceAssign_nat rfl (by omega)
    simp only [ea]
    refine ⟨{ s2 with buf := b }, ?_, k2⟩
    unfold Pyx.allocText
    simp only [bind, Option.bind]
    rw [e, g1]
    simp only
    rw [k1]

/-- One call. -/
theorem repr_step {s : Pyx.Builder} {buf buf' : Bytes} (h : Repr s buf) (junk : Nat → UInt8)
    {op : Pyx.Op} {r : Int} (hb : InBounds buf.length op) (hw : op.runPy buf = .ok r buf') :
    ∃ s', op.run junk s = some (r, s') ∧ Repr s' buf' := by
  cases op with
  | write fmt i v =>
    obtain ⟨h0, h1⟩ := hb
    obtain ⟨i, rfl⟩ := Int.eq_ofNat_of_zero_le h0
    obtain ⟨a, s1, g1, g2⟩ := BM.bind_ok_inv hw
    cases g2
    obtain ⟨s', e1, e2⟩ := repr_writeFmt h (by omega) g1
    refine ⟨s', ?_, e2⟩
    simp only [Pyx.Op.run, e1, Option.map_some]
  | writeBool i k v =>
    obtain ⟨h0, h1, hk⟩ := hb
    obtain ⟨i, rfl⟩ := Int.eq_ofNat_of_zero_le h0
    have hi : i < buf.length := by omega
    obtain ⟨a, s1, g1, g2⟩ := BM.bind_ok_inv hw
    cases g2
    unfold writeBool at g1
    rw [unpackFrom_nat (by simp [Fmt.size]; omega)] at g1
    simp only at g1
    obtain ⟨bs, b1, b2, rfl⟩ := writeFmt_run (fmt := .B) (by simp [Fmt.size]; omega) g1
    obtain ⟨b, k1, k2⟩ := repr_store h (i := i) (bs := bs) (by rw [b2]; simp [Fmt.size]; omega)
    refine ⟨{ s with buf := b }, ?_, k2⟩
    have hc := h.cap
    unfold Pyx.Op.run
    simp only
    unfold Pyx.writeBool
    rw [if_pos (by omega)]
    simp only [Int.toNat_natCast]
    have hcur : ((((s.buf[i]?).getD 0).toNat : Nat) : Int) = Fmt.decode .B (slice buf i (Fmt.size .B)) := by
      rw [h.used i hi, List.getElem?_eq_getElem hi]
      have : slice buf i (Fmt.size .B) = [buf[i]] := by
        unfold slice
        rw [List.drop_eq_getElem_cons hi]; rfl
      rw [this]
      have hx : (buf[i]).toNat < 256 := (buf[i]).toNat_lt
      have e0 : leNat [buf[i]] = (buf[i]).toNat := by simp [leNat]
      have e1 : Fmt.hi .B = 256 := rfl
      unfold Fmt.decode
      rw [e0, e1, if_pos (by omega)]
      rfl
    rw [hcur]
    have henc : leBytes 1 (Int.lor (Fmt.decode .B (slice buf i (Fmt.size .B)))
        (shl (if v = true then 1 else 0) k) % 256).toNat = bs := (encode_inv b1).symm
    rw [henc, k1]
    rfl
  | writeSlice i src start n =>
    obtain ⟨hn, h0, h1, h2, h3⟩ := hb
    obtain ⟨i, rfl⟩ := Int.eq_ofNat_of_zero_le h0
    obtain ⟨n, rfl⟩ := Int.eq_ofNat_of_zero_le hn
    obtain ⟨start, rfl⟩ := Int.eq_ofNat_of_zero_le h2
    obtain ⟨a, s1, g1, g2⟩ := BM.bind_ok_inv hw
    cases g2
    rw [writeSlice_nat (S := ⟨src, none⟩) (by omega) (by simp only; omega)] at g1
    cases g1
    have hl : (slice src start n).length = n := slice_length_of_le (by omega)
    obtain ⟨b, k1, k2⟩ := repr_store h (i := i) (bs := slice src start n) (by omega)
    refine ⟨{ s with buf := b }, ?_, k2⟩
    unfold Pyx.Op.run Pyx.writeSlice
    simp only
    rw [if_pos (by omega)]
    simp only [Int.toNat_natCast]
    rw [k1]
    rfl
  | allocate n =>
    obtain ⟨n, rfl⟩ := Int.eq_ofNat_of_zero_le (show 0 ≤ n from hb)
    rw [show Pyx.Op.runPy (.allocate (n : Int)) buf = allocate (n : Int) buf from rfl, allocate_nat] at hw
    cases hw
    exact repr_allocate h junk n
  | allocStruct pos ds ps =>
    obtain ⟨h0, h1, h2, h3⟩ := hb
    obtain ⟨pos, rfl⟩ := Int.eq_ofNat_of_zero_le h0
    obtain ⟨ds, rfl⟩ := Int.eq_ofNat_of_zero_le h2
    obtain ⟨ps, rfl⟩ := Int.eq_ofNat_of_zero_le h3
    have e : (((ds : Int) + ps) * 8) = ((8 * (ds + ps) : Nat) : Int) := by push_cast; ring
    replace hw : allocStruct (pos : Int) ds ps buf = .ok r buf' := hw
    unfold allocStruct at hw
    simp only at hw
    rw [e, BM.bind_ok (allocate_nat _ _)] at hw
    obtain ⟨a, s1, g1, g2⟩ := BM.bind_ok_inv hw
    cases g2
    obtain ⟨s2, k1, k2⟩ := repr_allocate h junk (8 * (ds + ps))
    obtain ⟨s3, k3, k4⟩ := repr_writePtr k2 (by simp; omega) g1
    refine ⟨s3, ?_, k4⟩
    unfold Pyx.Op.run Pyx.allocStruct
    simp only [bind, Option.bind]
    rw [e, k1]
    simp only
    rw [k3]
  | allocList pos tag n body =>
    obtain ⟨h0, h1, h2⟩ := hb
    obtain ⟨pos, rfl⟩ := Int.eq_ofNat_of_zero_le h0
    obtain ⟨body, rfl⟩ := Int.eq_ofNat_of_zero_le h2
    obtain ⟨s', k1, k2, _⟩ := repr_allocList h junk (by omega) hw
    exact ⟨s', k1, k2⟩
  | allocText pos x =>
    obtain ⟨h0, h1⟩ := hb
    obtain ⟨pos, rfl⟩ := Int.eq_ofNat_of_zero_le h0
    exact repr_allocText h junk (tz := 1) (by omega) hw
  | allocData pos x =>
    obtain ⟨h0, h1⟩ := hb
    obtain ⟨pos, rfl⟩ := Int.eq_ofNat_of_zero_le h0
    exact repr_allocText h junk (tz := 0) (by omega) hw

theorem run_refines (p : Pyx.Prog) : ∀ {s : Pyx.Builder} {buf buf' : Bytes} {rs : List Int}
    (junk : Nat → Nat → UInt8), Repr s buf → Safe buf p → Pyx.runPy buf p = some (rs, buf') →
    ∃ s', Pyx.run junk s p = some (rs, s') ∧ Repr s' buf' := by
  induction p with
  | done =>
    intro s buf buf' rs junk h _ hr
    cases hr
    exact ⟨s, rfl, h⟩
  | call op k ih =>
    intro s buf buf' rs junk h hs hr
    unfold Pyx.runPy at hr
    cases hop : op.runPy buf with
    | error e b => rw [hop] at hr; cases hr
    | ok r b1 =>
      rw [hop] at hr
      simp only at hr
      cases hk : Pyx.runPy b1 (k r) with
      | none => rw [hk] at hr; cases hr
      | some x =>
        obtain ⟨rs1, b2⟩ := x
        rw [hk] at hr
        cases hr
        obtain ⟨s1, e1, e2⟩ := repr_step h (junk 0) hs.1 hop
        obtain ⟨s2, e3, e4⟩ := ih r (fun n => junk (n + 1)) e2 (hs.2 r b1 hop) hk
        refine ⟨s2, ?_, e4⟩
        unfold Pyx.run
        rw [e1]
        simp only
        rw [e3]

/-- C06: a program which calls a new builder, each call depending in any way on
earlier results, with arguments in bounds, such that no call raises in pure
Python: on the compiled builder, whatever the length hint and whatever
uninitialised memory contains, no access is out of bounds, every call returns the
same result, and `as_string()` and `get_length()` are the same. -/
theorem C06_compiled_builder (p : Pyx.Prog) (hint : Nat) (junk : Nat → Nat → UInt8) (rs : List Int)
    (buf : Bytes) (hs : Safe newBuilder p) (hr : Pyx.runPy newBuilder p = some (rs, buf)) :
    ∃ s, Pyx.run junk (Pyx.new hint) p = some (rs, s) ∧ Pyx.asString s = buf ∧
      Pyx.getLength s = buf.length := by
  obtain ⟨s, h1, h2⟩ := run_refines p junk (repr_new hint) hs hr
  exact ⟨s, h1, repr_asString h2, h2.len⟩

/-- A program: allocate a root pointer, a struct for it, write a field, a text in
the first pointer slot of the struct (where the struct is depends on the result
of `alloc_struct`). -/
def sampleProg : Pyx.Prog :=
  .call (.allocate 8) fun r => .call (.allocStruct r 1 1) fun q =>
    .call (.write .i (q + 4) (-7)) fun _ => .call (.allocText (q + 8) (some [0x68, 0x69])) fun _ => .done

theorem sampleProg_safe : Safe newBuilder sampleProg := by
  refine ⟨by decide, ?_⟩
  intro r b h; cases h
  refine ⟨by decide, ?_⟩
  intro r b h; cases h
  refine ⟨by decide +kernel, ?_⟩
  intro r b h; cases h
  exact ⟨by decide +kernel, fun _ _ _ => trivial⟩

theorem sampleProg_runs : Pyx.runPy newBuilder sampleProg = some ([0, 8, 0, 24],
    leBytes 8 (structWord 0 1 1) ++ [0, 0, 0, 0, 0xf9, 0xff, 0xff, 0xff] ++ leBytes 8 (listWord 0 2 3)
      ++ [0x68, 0x69, 0, 0, 0, 0, 0, 0]) := by decide +kernel

example : ∃ s, Pyx.run (fun _ _ => 0xcc) (Pyx.new 3) sampleProg = some ([0, 8, 0, 24], s) :=
  let ⟨s, h, _⟩ := C06_compiled_builder _ 3 (fun _ _ => 0xcc) _ _ sampleProg_safe sampleProg_runs
  ⟨s, h⟩

/-! ## C05: allocations are fresh, zeroed, aligned and disjoint -/

/-- An allocation: where its pointer is stored, and what. -/
inductive Alloc
  | struct (pos ds ps : Nat)
  | list (pos tag count body : Nat)

namespace Alloc

/-- Position of the pointer. -/
def pos : Alloc → Nat
  | struct p _ _ => p
  | list p _ _ _ => p

/-- Number of bytes of the region: whole words. -/
def bytes : Alloc → Nat
  | struct _ ds ps => 8 * (ds + ps)
  | list _ _ _ body => wordAlign body

/-- The sizes fit the pointer format (without the top bit, see Props/Copy.lean). -/
def Fits : Alloc → Prop
  | struct _ ds ps => ds < 2 ^ 16 ∧ ps < 2 ^ 15
  | list _ tag count _ => tag < 8 ∧ count < 2 ^ 28

/-- The word `w`, stored at `pos`, points to `r` and has the requested sizes. -/
def PointsTo (a : Alloc) (w r : Nat) : Prop :=
  target a.pos w = r ∧
  match a with
  | struct _ ds ps => kind w = 0 ∧ dataSize w = ds ∧ ptrsSize w = ps
  | list _ tag count _ => kind w = 1 ∧ listTag w = tag ∧ listCount w = count

/-- The call. -/
def run : Alloc → BM Int
  | struct p ds ps => allocStruct p ds ps
  | list p tag count body => allocList p tag count body

end Alloc

/-- One executed allocation: buffer before, position returned, buffer after. -/
structure AllocStep where
  op : Alloc
  before : Bytes
  result : Int
  after : Bytes

/-- Run a sequence of allocations; `none` if one raises. -/
def runAllocs : List Alloc → Bytes → Option (List AllocStep × Bytes)
  | [], b => some ([], b)
  | a :: as, b =>
    match a.run b with
    | .error _ _ => none
    | .ok r b' =>
      match runAllocs as b' with
      | none => none
      | some (st, bf) => some (⟨a, b, r, b'⟩ :: st, bf)

/-- The pointer of each allocation is stored at a word of what is allocated so far
(`L` bytes), the sizes fit the format, and the total stays in reach of pointer
offsets. -/
def ValidAllocs : Nat → List Alloc → Prop
  | L, [] => L ≤ 2 ^ 32
  | L, a :: as => 8 ∣ a.pos ∧ a.pos + 8 ≤ L ∧ a.Fits ∧ ValidAllocs (L + a.bytes) as

theorem validAllocs_le : ∀ {as : List Alloc} {L : Nat}, ValidAllocs L as → L ≤ 2 ^ 32
  | [], _, h => h
  | _ :: as, L, h => by have := validAllocs_le h.2.2.2; omega

theorem alloc_bytes_dvd (a : Alloc) : 8 ∣ a.bytes := by
  cases a with
  | struct => exact Nat.dvd_mul_right _ _
  | list => exact Nat.dvd_mul_left _ _

theorem alloc_run {a : Alloc} {b : Bytes} (h8 : 8 ∣ b.length) (h1 : 8 ∣ a.pos) (h2 : a.pos + 8 ≤ b.length)
    (h3 : a.Fits) (hL : b.length ≤ 2 ^ 32) :
    ∃ b' w, a.run b = .ok (b.length : Int) b' ∧ AllocPost b b' a.pos a.bytes w ∧
      a.PointsTo w b.length := by
  cases a with
  | struct p ds ps =>
    obtain ⟨b', e1, e2⟩ := allocStruct_spec (ds := ds) (ps := ps) h2 h3.1 h3.2
    have hb : ps < 2 ^ 16 := by have := h3.2; omega
    exact ⟨b', _, e1, e2, target_struct h8 h1 h2 hL, kind_structWord _ _ _,
      dataSize_structWord _ _ _ h3.1, ptrsSize_structWord _ _ _ h3.1 hb⟩
  | list p tag count body =>
    obtain ⟨b', e1, e2⟩ := allocList_spec (tag := tag) (n := count) (body := body) h2 h3.1 h3.2
    have hb : count < 2 ^ 29 := by have := h3.2; omega
    exact ⟨b', _, e1, e2, target_list h8 h1 h2 hL, kind_listWord _ _ _,
      listTag_listWord _ _ _ h3.1, listCount_listWord _ _ _ h3.1 hb⟩

/-- C05: any sequence of allocations in a word-aligned builder succeeds.  Each one
returns a word-aligned position; its region starts where the buffer ended, is
zero when allocated and lies inside the final buffer; the pointer word points to
exactly this region and has the requested sizes; no other byte changes.  The
regions are pairwise disjoint. -/
theorem C05_allocations (ops : List Alloc) (b : Bytes) (h8 : 8 ∣ b.length)
    (hv : ValidAllocs b.length ops) :
    ∃ steps bf, runAllocs ops b = some (steps, bf) ∧ steps.map (·.op) = ops ∧
      (∀ s ∈ steps, ∃ r : Nat, s.result = r ∧ 8 ∣ r ∧ b.length ≤ r ∧
        r + s.op.bytes ≤ bf.length ∧
        (∀ i, r ≤ i → i < r + s.op.bytes → s.after[i]? = some 0) ∧
        s.op.PointsTo (wordAt s.after s.op.pos) r ∧
        s.after.length = s.before.length + s.op.bytes ∧
        (∀ i, i < s.before.length → ¬ (s.op.pos ≤ i ∧ i < s.op.pos + 8) → s.after[i]? = s.before[i]?)) ∧
      steps.Pairwise (fun s s' => s.result + (s.op.bytes : Int) ≤ s'.result) := by
  induction ops generalizing b with
  | nil => exact ⟨[], b, rfl, rfl, by simp, List.Pairwise.nil⟩
  | cons a as ih =>
    obtain ⟨h1, h2, h3, h4⟩ := hv
    have hL : b.length ≤ 2 ^ 32 := by have := validAllocs_le h4; omega
    obtain ⟨b', w, e1, e2, e3⟩ := alloc_run h8 h1 h2 h3 hL
    have hl := e2.len
    have h8' : 8 ∣ b'.length := by rw [hl]; exact Nat.dvd_add h8 (alloc_bytes_dvd a)
    obtain ⟨steps, bf, f1, f2, f3, f4⟩ := ih b' h8' (by rw [hl]; exact h4)
    have hbf : b'.length ≤ bf.length := by
      cases steps with
      | nil =>
        cases as with
        | nil => cases f1; omega
        | cons => simp at f2
      | cons s ss =>
        obtain ⟨r, _, _, g1, g2, _⟩ := f3 s (by simp)
        omega
    refine ⟨⟨a, b, b.length, b'⟩ :: steps, bf, ?_, by simp [f2], ?_, ?_⟩
    · unfold runAllocs; rw [e1]; simp only; rw [f1]
    · intro s hs
      rcases List.mem_cons.mp hs with rfl | hs
      · refine ⟨b.length, rfl, h8, le_refl _, by simp only; omega, ?_, ?_, hl, e2.frame⟩
        · intro i hi hi2; exact e2.zero i hi (by simp only at hi2; omega)
        · simp only; rw [e2.word]; exact e3
      · obtain ⟨r, g1, g2, g3, g4⟩ := f3 s hs
        exact ⟨r, g1, g2, by omega, g4⟩
    · refine List.Pairwise.cons ?_ f4
      intro s hs
      obtain ⟨r, g1, g2, g3, g4⟩ := f3 s hs
      simp only; rw [g1]; omega

/-- C05: a pointer stays in place when no later allocation stores its pointer
there. -/
theorem C05_pointer_stays (ops : List Alloc) (b : Bytes) (h8 : 8 ∣ b.length)
    (hv : ValidAllocs b.length ops) (pos : Nat) (hpos : 8 ∣ pos) (hb : pos + 8 ≤ b.length)
    (hne : ∀ a ∈ ops, a.pos ≠ pos) :
    ∃ steps bf, runAllocs ops b = some (steps, bf) ∧ wordAt bf pos = wordAt b pos := by
  induction ops generalizing b with
  | nil => exact ⟨[], b, rfl, rfl⟩
  | cons a as ih =>
    obtain ⟨h1, h2, h3, h4⟩ := hv
    have hL : b.length ≤ 2 ^ 32 := by have := validAllocs_le h4; omega
    obtain ⟨b', w, e1, e2, e3⟩ := alloc_run h8 h1 h2 h3 hL
    have hl := e2.len
    have h8' : 8 ∣ b'.length := by rw [hl]; exact Nat.dvd_add h8 (alloc_bytes_dvd a)
    obtain ⟨steps, bf, f1, f2⟩ := ih b' h8' (by rw [hl]; exact h4) (by omega)
      (fun a ha => hne a (List.mem_cons_of_mem _ ha))
    refine ⟨⟨a, b, b.length, b'⟩ :: steps, bf, ?_, ?_⟩
    · unfold runAllocs; rw [e1]; simp only; rw [f1]
    · rw [f2]
      apply wordAt_congr
      intro k hk
      have := hne a (by simp)
      exact e2.frame (pos + k) (by omega) (by omega)

example : ValidAllocs 8 [.struct 0 1 2, .list 16 2 5 5, .list 24 7 6 56] ∧
    (runAllocs [.struct 0 1 2, .list 16 2 5 5, .list 24 7 6 56] (List.replicate 8 0)).isSome := by
  refine ⟨⟨by decide, by decide, ⟨by decide, by decide⟩, by decide, by decide, ⟨by decide, by decide⟩,
    by decide, by decide, ⟨by decide, by decide⟩, by norm_num [Alloc.bytes, ValidAllocs, wordAlign]⟩,
    by decide +kernel⟩

/-! ## C07: texts and data -/

/-- Reading a slot which holds bytes. -/
theorem readStr_slot {B : Bytes} {t ds ps j n : Nat} {bs : Bytes} (hj : j < ps)
    (hb : t + 8 * (ds + ps) ≤ B.length)
    (h : Den B none ((t + 8 * ds + 8 * j : Nat) : Int) (wordAt B (t + 8 * ds + 8 * j)) (.listPrim 2 n bs)) :
    (objAt B none t ds ps).dataField ((8 * j : Nat) : Int) = .ok (some bs) ∧
    (0 < n → (objAt B none t ds ps).textField ((8 * j : Nat) : Int) = .ok (some bs.dropLast)) := by
  have hk : kind (wordAt B (t + 8 * ds + 8 * j)) < 2 := by
    generalize hv : Val.listPrim 2 n bs = v at h
    generalize wordAt B (t + 8 * ds + 8 * j) = w at h
    generalize ho : ((t + 8 * ds + 8 * j : Nat) : Int) = o at h
    cases h with
    | null => cases hv
    | struct => omega
    | listPrim => omega
    | listPtr => omega
    | listComp => omega
    | far _ _ _ _ _ _ _ _ _ _ hc => cases hc
    | far2 _ _ _ _ _ _ _ _ _ _ _ hc => cases hc
  obtain ⟨r1, r2, _⟩ := readStr_bytes (wordAt_lt _ _) hk h none
  have hm := signed64_mod _ (wordAt_lt B (t + 8 * ds + 8 * j))
  have e : (objAt B none t ds ps).resolve ((8 * j : Nat) : Int)
      = .ok (((t + 8 * ds + 8 * j : Nat) : Int), signed64 (wordAt B (t + 8 * ds + 8 * j))) := by
    unfold StructObj.resolve StructObj.readFastPtr objAt
    simp only
    rw [if_neg (by omega), show (((t + 8 * ds : Nat) : Int) + ((8 * j : Nat) : Int))
      = ((t + 8 * ds + 8 * j : Nat) : Int) by push_cast; ring, bind_okP (readPtr_at (by omega)),
      Ptr.kind_spec hm, if_neg (by unfold Ptr.FAR; omega)]
    refine congrArg Except.ok ?_
    refine Prod.ext ?_ rfl
    push_cast; ring
  constructor
  · unfold StructObj.dataField StructObj.readData
    rw [bind_okP e]; exact r1
  · intro hn
    unfold StructObj.textField StructObj.readTextBytes StructObj.readData
    rw [bind_okP e]; exact r2 hn

theorem allocText_spec {b : Bytes} (pos : Nat) (s : Bytes) (tz : Nat) (htz : tz ≤ 1) (h8 : 8 ∣ b.length) (hp8 : 8 ∣ pos)
    (hpos : pos + 8 ≤ b.length) (hs : s.length + tz < 2 ^ 28) (hL : b.length ≤ 2 ^ 32) :
    ∃ b', allocText (pos : Int) (some s) tz b = .ok (b.length : Int) b' ∧
      b'.length = b.length + wordAlign (s.length + tz) ∧
      Den b' none (pos : Int) (wordAt b' pos) (.listPrim 2 (s.length + tz) (s ++ List.replicate tz 0)) ∧
      (∀ i, i < b.length → ¬ (pos ≤ i ∧ i < pos + 8) → b'[i]? = b[i]?) := by
  obtain ⟨b1, e1, e2⟩ := allocList_spec (tag := 2) (n := s.length + tz) (body := s.length + tz) hpos
    (by norm_num) hs
  have hl := e2.len
  have hal : s.length + tz ≤ wordAlign (s.length + tz) := by unfold wordAlign; omega
  have ho := overwrite_length (b := b1) (s := s) (i := b.length) (by omega)
  have hget := fun k => overwrite_getElem? (b := b1) (s := s) (i := b.length) (by omega) k
  refine ⟨overwrite b1 b.length s, ?_, by omega, ?_, ?_⟩
  · unfold allocText
    simp only
    have e : ((s.length : Int) + (tz : Int)) = ((s.length + tz : Nat) : Int) := by push_cast; rfl
    rw [e, BM.bind_ok (show allocList (pos : Int) Ptr.LIST_SIZE_8 _ _ b = _ from e1)]
    have ea : pySliceAssign b1 (b.length : Int) ((b.length : Int) + (s.length : Int)) s
        = overwrite b1 b.length s := pySliceAssign_nat rfl (by omega)
    have em : (modify (fun buf => pySliceAssign buf (b.length : Int) ((b.length : Int) + (s.length : Int)) s) : BM Unit) b1
        = .ok () (overwrite b1 b.length s) := by rw [← ea]; rfl
    rw [BM.bind_ok em]; rfl
  · have hw : wordAt (overwrite b1 b.length s) pos = wordAt b1 pos := by
      apply wordAt_congr
      intro k hk
      rw [hget, if_pos (by omega)]
    rw [hw, e2.word]
    have ht := target_list (tag := 2) (n := s.length + tz) h8 hp8 hpos hL
    generalize hW : listWord (((b.length : Int) - (pos + 8)) / 8) 2 (s.length + tz) = W at ht
    have k1 : listTag W = 2 := by rw [← hW]; exact listTag_listWord _ _ _ (by norm_num)
    have k2 : listCount W = s.length + tz := by
      rw [← hW]; exact listCount_listWord _ _ _ (by norm_num) (by omega)
    have k3 : kind W = 1 := by rw [← hW]; exact kind_listWord _ _ _
    have hpl : primLen 2 (s.length + tz) = s.length + tz := rfl
    have := Den.listPrim (B := overwrite b1 b.length s) (offs := none) (pos : Int) W b.length k3
      (by rw [k1]; norm_num) ht (by rw [k1, k2, hpl]; omega)
    rw [k1, k2, hpl] at this
    have hsl : slice (overwrite b1 b.length s) b.length (s.length + tz) = s ++ List.replicate tz 0 := by
      apply List.ext_getElem?
      intro k
      rw [slice_getElem?]
      by_cases hk : k < s.length
      · rw [if_pos (by omega), hget, if_neg (by omega), if_pos (by omega), List.getElem?_append_left hk]
        congr 1; omega
      · rw [List.getElem?_append_right (by omega), List.getElem?_replicate]
        by_cases hk2 : k < s.length + tz
        · rw [if_pos hk2, hget, if_neg (by omega), if_neg (by omega), if_pos (by omega),
            e2.zero _ (by omega) (by omega)]
        · rw [if_neg hk2, if_neg (by omega)]
    rw [hsl] at this
    exact this
  · intro i hi hni
    rw [hget, if_pos hi]
    exact e2.frame i hi hni

/-- C07: a text written into pointer slot `j` of a struct of the builder is read
back exactly, as text and (with its trailing zero) as data; nothing else in the
builder changes. -/
theorem C07_text (b : Bytes) (t ds ps j : Nat) (s : Bytes) (h8 : 8 ∣ b.length) (ht : 8 ∣ t) (hj : j < ps)
    (hb : t + 8 * (ds + ps) ≤ b.length) (hs : s.length + 1 < 2 ^ 28) (hL : b.length ≤ 2 ^ 32) :
    ∃ b' r, allocText ((t + 8 * ds + 8 * j : Nat) : Int) (some s) 1 b = .ok r b' ∧
      (objAt b' none t ds ps).textField ((8 * j : Nat) : Int) = .ok (some s) ∧
      (objAt b' none t ds ps).dataField ((8 * j : Nat) : Int) = .ok (some (s ++ [0])) ∧
      (∀ i, i < b.length → ¬ (t + 8 * ds + 8 * j ≤ i ∧ i < t + 8 * ds + 8 * j + 8) → b'[i]? = b[i]?) := by
  obtain ⟨b', h1, h2, h3, h4⟩ := allocText_spec (t + 8 * ds + 8 * j) s 1 (le_refl _) h8 (by omega) (by omega) hs hL
  obtain ⟨r1, r2⟩ := readStr_slot (ds := ds) (ps := ps) hj (by omega) h3
  exact ⟨b', _, h1, by simpa using r2 (by omega), r1, h4⟩

/-- C07 for data. -/
theorem C07_data (b : Bytes) (t ds ps j : Nat) (s : Bytes) (h8 : 8 ∣ b.length) (ht : 8 ∣ t) (hj : j < ps)
    (hb : t + 8 * (ds + ps) ≤ b.length) (hs : s.length < 2 ^ 28) (hL : b.length ≤ 2 ^ 32) :
    ∃ b' r, allocData ((t + 8 * ds + 8 * j : Nat) : Int) (some s) b = .ok r b' ∧
      (objAt b' none t ds ps).dataField ((8 * j : Nat) : Int) = .ok (some s) ∧
      (∀ i, i < b.length → ¬ (t + 8 * ds + 8 * j ≤ i ∧ i < t + 8 * ds + 8 * j + 8) → b'[i]? = b[i]?) := by
  obtain ⟨b', h1, h2, h3, h4⟩ := allocText_spec (t + 8 * ds + 8 * j) s 0 (by omega) h8 (by omega) (by omega)
    (by omega) hL
  obtain ⟨r1, r2⟩ := readStr_slot (ds := ds) (ps := ps) hj (by omega) h3
  exact ⟨b', _, h1, by simpa using r1, h4⟩

/-- C07: allocating `None` makes the field null. -/
theorem C07_none (b : Bytes) (t ds ps j : Nat) (hj : j < ps) (hb : t + 8 * (ds + ps) ≤ b.length)
    (tz : Int) :
    ∃ b', allocText ((t + 8 * ds + 8 * j : Nat) : Int) none tz b = .ok (-1) b' ∧
      (objAt b' none t ds ps).textField ((8 * j : Nat) : Int) = .ok none ∧
      (objAt b' none t ds ps).dataField ((8 * j : Nat) : Int) = .ok none ∧
      (objAt b' none t ds ps).hasField ((8 * j : Nat) : Int) = .ok false ∧ b'.length = b.length ∧
      (∀ i, ¬ (t + 8 * ds + 8 * j ≤ i ∧ i < t + 8 * ds + 8 * j + 8) → b'[i]? = b[i]?) := by
  have hi : t + 8 * ds + 8 * j + 8 ≤ b.length := by omega
  have hlen8 : (leBytes 8 0).length = 8 := leBytes_length _ _
  have hl := overwrite_length (b := b) (s := leBytes 8 0) (i := t + 8 * ds + 8 * j) (by omega)
  have hw : wordAt (overwrite b (t + 8 * ds + 8 * j) (leBytes 8 0)) (t + 8 * ds + 8 * j) = 0 :=
    wordAt_overwrite (by norm_num) hi
  have hhas : (objAt (overwrite b (t + 8 * ds + 8 * j) (leBytes 8 0)) none t ds ps).hasField
      ((8 * j : Nat) : Int) = .ok false := by
    have e : (objAt (overwrite b (t + 8 * ds + 8 * j) (leBytes 8 0)) none t ds ps).readFastPtr
        ((8 * j : Nat) : Int) = .ok 0 := by
      unfold StructObj.readFastPtr objAt
      simp only
      rw [if_neg (by omega), show (((t + 8 * ds : Nat) : Int) + ((8 * j : Nat) : Int))
        = ((t + 8 * ds + 8 * j : Nat) : Int) by push_cast; ring, readPtr_at (by omega), hw]
      rfl
    unfold StructObj.hasField; rw [bind_okP e]; rfl
  obtain ⟨n1, n2, _⟩ := C11_not_has _ _ hhas
  refine ⟨overwrite b (t + 8 * ds + 8 * j) (leBytes 8 0), ?_, n1, n2, hhas, hl, ?_⟩
  · unfold allocText
    simp only
    have := writeInt64_nat (b := b) (i := t + 8 * ds + 8 * j) (v := 0) (by norm_num) hi
    rw [BM.bind_ok (show writeInt64 ((t + 8 * ds + 8 * j : Nat) : Int) 0 b = _ from this)]
    rfl
  · intro i hni
    rw [overwrite_getElem? (by omega)]
    split
    · rfl
    · rw [if_neg (by omega)]

example : ∃ b' r, allocText 8 (some [0x68, 0x69]) 1 (List.replicate 16 0) = .ok r b' ∧
    (objAt b' none 0 1 1).textField 0 = .ok (some [0x68, 0x69]) :=
  let ⟨b', r, h1, h2, _⟩ := C07_text (List.replicate 16 0) 0 1 1 0 [0x68, 0x69] (by decide) (by decide)
    (by decide) (by decide) (by decide) (by norm_num)
  ⟨b', r, h1, h2⟩

end Capnpy.Props
