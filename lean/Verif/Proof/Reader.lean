import Verif.Proof.Object

/-! # Reading the fields of a struct -/

namespace Capnpy

open Spec

theorem readPtr_at {B : Bytes} {offs : Option (List Nat)} {i : Nat} (h : i + 8 ≤ B.length) :
    (Seg.of B offs).readPtr (i : Int) = .ok (signed64 (wordAt B i)) := readInt64_nat h

theorem tableAligned_get {tbl : List Nat} (h : TableAligned (some tbl)) {k st : Nat}
    (hk : tbl[k]? = some st) : 8 ∣ st := h tbl rfl st (List.mem_of_getElem? hk)

/-- A pointer stored in the buffer, after following far pointers. -/
theorem den_resolve {B : Bytes} {offs : Option (List Nat)} (hta : TableAligned offs) {pos : Nat} {v : Val}
    (hpos : 8 ∣ pos) (h : Den B offs (pos : Int) (wordAt B pos) v) :
    (kind (wordAt B pos) < 2) ∨
    (kind (wordAt B pos) = 2 ∧ ∃ (q : Int) (w : Nat), (Seg.of B offs).readFarPtr (pos : Int) = .ok (q, signed64 w) ∧
      w < 2 ^ 64 ∧ (8 : Int) ∣ q ∧ kind w < 2 ∧ w ≠ 0 ∧ Den B offs q w v) := by
  generalize hw : wordAt B pos = w at h
  generalize ho : (pos : Int) = o at h
  cases h with
  | null => left; rw [show kind 0 = 0 from rfl]; omega
  | struct => left; omega
  | listPrim => left; omega
  | listPtr => left; omega
  | listComp => left; omega
  | far o w' pos' st tbl v ho' how hk hf htbl hst hpos' hb hpk hp0 hd =>
    right
    refine ⟨hk, ?_⟩
    subst htbl
    obtain rfl : pos = o := by omega
    subst how
    refine ⟨(pos' : Int), wordAt B pos', ?_, wordAt_lt _ _, ?_, hpk, hp0, hd⟩
    · exact readFarPtr_single ho' hf hst hpos' hb
    · have := tableAligned_get hta hst; omega
  | far2 o w' pos' st st2 tbl v ho' how hk hf htbl hst hpos' hb hfk hff hst2 htk ht0 hto hd =>
    right
    refine ⟨hk, ?_⟩
    subst htbl
    obtain rfl : pos = o := by omega
    subst how
    refine ⟨_, _, readFarPtr_double ho' hf hst hpos' hb hfk hff hst2 hto, wordAt_lt _ _, ?_, htk, ht0, hd⟩
    have := tableAligned_get hta hst2; omega

/-- The prologue of the pointer accessors. -/
theorem resolve_spec {B : Bytes} {offs : Option (List Nat)} {t ds ps : Nat} {data : Bytes}
    {ptrs : List Val} (hta : TableAligned offs) (h8 : 8 ∣ t) (ho : ObjDen B offs t ds ps data ptrs)
    {j : Nat} {v : Val} (hj : ptrs[j]? = some v) :
    ∃ (q : Int) (w : Nat), (objAt B offs t ds ps).resolve ((8 * j : Nat) : Int) = .ok (q, signed64 w) ∧
      w < 2 ^ 64 ∧ (8 : Int) ∣ q ∧ kind w < 2 ∧ Den B offs q w v ∧
      (w = 0 ↔ wordAt B (t + 8 * ds + 8 * j) = 0) := by
  obtain ⟨hb, hd, hl, hp⟩ := ho
  have hjl := getElem?_lt hj
  have hden := hp j v hj
  have hm := signed64_mod _ (wordAt_lt B (t + 8 * ds + 8 * j))
  unfold StructObj.resolve StructObj.readFastPtr StructObj.readFarPtr objAt
  simp only
  rw [if_neg (by omega)]
  rw [show (((t + 8 * ds : Nat) : Int) + ((8 * j : Nat) : Int)) = ((t + 8 * ds + 8 * j : Nat) : Int) by
    push_cast; ring]
  rw [readPtr_at (by omega)]
  simp only [bind, Except.bind, Ptr.kind_spec hm]
  rcases den_resolve hta (by omega) hden with hk | ⟨hk, q, w, h1, h2, h3, h4, h5, h6⟩
  · rw [if_neg (by unfold Ptr.FAR; omega)]
    refine ⟨((t + 8 * ds + 8 * j : Nat) : Int), _, ?_, wordAt_lt _ _, by omega, hk, hden, Iff.rfl⟩
    simp only [pure, Except.pure]
    congr 2
    push_cast; ring
  · rw [if_pos (by unfold Ptr.FAR; omega), if_neg (by omega), h1]
    refine ⟨q, w, rfl, h2, h3, h4, h6, ?_⟩
    constructor
    · intro h; exact absurd h h5
    · intro h; rw [h] at hk; simp [kind] at hk

/-- A slot beyond the pointer section is null. -/
theorem resolve_beyond {B : Bytes} {offs : Option (List Nat)} {t ds ps j : Nat} (h : ps ≤ j) :
    (objAt B offs t ds ps).resolve ((8 * j : Nat) : Int)
      = .ok (((t + 8 * ds + 8 * j : Nat) : Int), 0) := by
  unfold StructObj.resolve StructObj.readFastPtr objAt
  simp only
  rw [if_pos (by omega)]
  simp only [bind, Except.bind]
  rw [if_neg (by decide)]
  simp only [pure, Except.pure]
  congr 2
  push_cast; ring

theorem target_dvd {q : Int} {w t : Nat} (h : (8 : Int) ∣ q) (ht : target q w = t) : 8 ∣ t := by
  unfold target at ht; omega

theorem spec_dataSize_lt (w : Nat) : Spec.dataSize w < 2 ^ 16 := Nat.mod_lt _ (by norm_num)
theorem spec_ptrsSize_lt (w : Nat) : Spec.ptrsSize w < 2 ^ 16 := Nat.mod_lt _ (by norm_num)

/-- `_init_from_pointer` on a pointer that denotes a struct. -/
theorem initFromPointer_spec {B : Bytes} {offs : Option (List Nat)} (hta : TableAligned offs)
    {q : Int} {w : Nat} (hw : w < 2 ^ 64) (hq : (8 : Int) ∣ q) (hk : kind w < 2)
    {data : Bytes} {ptrs : List Val} (h : Den B offs q w (.struct data ptrs)) :
    ∃ o, StructObj.initFromPointer (Seg.of B offs) q (signed64 w) = .ok o ∧
      o.seg = Seg.of B offs ∧ Denotes o (.struct data ptrs) ∧ kind w = 0 ∧ w ≠ 0 := by
  have hm := signed64_mod _ hw
  cases h with
  | struct _ _ t _ _ hw0 hk0 ht hb hd hl hp =>
    refine ⟨objAt B offs t (dataSize w) (ptrsSize w), ?_, rfl, ?_, hk0, hw0⟩
    · unfold StructObj.initFromPointer
      simp only [Ptr.kind_spec hm, hk0, deref_spec hm, ht, Ptr.dataSize_spec hm, Ptr.ptrsSize_spec hm]
      rw [if_neg (by decide)]
      exact initFromBuffer_nat hb
    · exact ⟨B, offs, t, _, _, data, ptrs, rfl, hta, target_dvd hq ht, spec_dataSize_lt w,
        spec_ptrsSize_lt w, ⟨hb, hd, hl, hp⟩, rfl⟩
  | far => omega
  | far2 => omega

theorem den_kind1 {B : Bytes} {offs : Option (List Nat)} {q : Int} {w : Nat} {v : Val}
    (hk : kind w < 2) (h : Den B offs q w v) :
    (v = .null ∧ w = 0) ∨ (w ≠ 0 ∧ kind w = 0 ∧ ∃ d p, v = .struct d p) ∨
    (w ≠ 0 ∧ kind w = 1 ∧ v ≠ .null ∧ ∀ d p, v ≠ .struct d p) := by
  cases h with
  | null => exact .inl ⟨rfl, rfl⟩
  | struct _ _ _ _ _ h0 h1 => exact .inr (.inl ⟨h0, h1, _, _, rfl⟩)
  | listPrim _ _ _ h1 =>
    refine .inr (.inr ⟨?_, h1, by simp, by simp⟩)
    intro h; rw [h] at h1; simp [kind] at h1
  | listPtr _ _ _ _ h1 =>
    refine .inr (.inr ⟨?_, h1, by simp, by simp⟩)
    intro h; rw [h] at h1; simp [kind] at h1
  | listComp _ _ _ _ _ _ _ h1 =>
    refine .inr (.inr ⟨?_, h1, by simp, by simp⟩)
    intro h; rw [h] at h1; simp [kind] at h1
  | far => omega
  | far2 => omega

theorem signed64_ne_zero {w : Nat} (h : w < 2 ^ 64) (h0 : w ≠ 0) : signed64 w ≠ 0 := by
  intro hc; exact h0 ((signed64_eq_zero h).mp hc)

/-- Struct fields. -/
theorem readStruct_struct {o : StructObj} {data : Bytes} {ptrs : List Val}
    (ho : Denotes o (.struct data ptrs)) {j : Nat} {d : Bytes} {p : List Val}
    (hj : ptrs[j]? = some (.struct d p)) :
    ∃ o', o.readStruct ((8 * j : Nat) : Int) = .ok (some o') ∧ o'.seg = o.seg ∧
      Denotes o' (.struct d p) := by
  obtain ⟨B, offs, t, ds, ps, data', ptrs', rfl, hta, h8, hds, hps, hob, hv⟩ := ho
  injection hv with h1 h2
  subst h1 h2
  obtain ⟨q, w, r1, r2, r3, r4, r5, r6⟩ := resolve_spec hta h8 hob hj
  obtain ⟨o', i1, i2, i3, i4, i5⟩ := initFromPointer_spec hta r2 r3 r4 r5
  refine ⟨o', ?_, i2, i3⟩
  unfold StructObj.readStruct
  simp only [bind, Except.bind, r1]
  rw [if_neg (signed64_ne_zero r2 i5)]
  rw [Ptr.kind_spec (signed64_mod _ r2), i4, if_neg (by decide)]
  rw [show (objAt B offs t ds ps).seg = Seg.of B offs from rfl, i1]; rfl

theorem readStruct_null {o : StructObj} {data : Bytes} {ptrs : List Val}
    (ho : Denotes o (.struct data ptrs)) {j : Nat} (hj : ptrs[j]? = some .null ∨ ptrs[j]? = none) :
    o.readStruct ((8 * j : Nat) : Int) = .ok none := by
  obtain ⟨B, offs, t, ds, ps, data', ptrs', rfl, hta, h8, hds, hps, hob, hv⟩ := ho
  injection hv with h1 h2
  subst h1 h2
  unfold StructObj.readStruct
  rcases hj with hj | hj
  · obtain ⟨q, w, r1, r2, r3, r4, r5, r6⟩ := resolve_spec hta h8 hob hj
    have h0 : w = 0 := by
      rcases den_kind1 r4 r5 with h | ⟨_, _, d, p, h⟩ | ⟨_, _, h, _⟩
      · exact h.2
      · cases h
      · exact absurd rfl h
    subst h0
    simp only [bind, Except.bind, r1]
    rw [if_pos (by decide)]; rfl
  · have hl : ps ≤ j := by rw [← hob.2.2.1]; exact List.getElem?_eq_none_iff.mp hj
    simp only [bind, Except.bind, resolve_beyond hl]
    rw [if_pos trivial]; rfl

/-- A struct accessor on a list pointer raises. -/
theorem readStruct_list {o : StructObj} {data : Bytes} {ptrs : List Val}
    (ho : Denotes o (.struct data ptrs)) {j : Nat} {v : Val} (hj : ptrs[j]? = some v)
    (hn : v ≠ .null) (hs : ∀ d p, v ≠ .struct d p) :
    o.readStruct ((8 * j : Nat) : Int) = .error .assertionError := by
  obtain ⟨B, offs, t, ds, ps, data', ptrs', rfl, hta, h8, hds, hps, hob, hv⟩ := ho
  injection hv with h1 h2
  subst h1 h2
  obtain ⟨q, w, r1, r2, r3, r4, r5, r6⟩ := resolve_spec hta h8 hob hj
  rcases den_kind1 r4 r5 with h | ⟨_, _, d, p, h⟩ | ⟨h0, h1, _, _⟩
  · exact absurd h.1 hn
  · exact absurd h (hs d p)
  unfold StructObj.readStruct
  simp only [bind, Except.bind, r1]
  rw [if_neg (signed64_ne_zero r2 h0)]
  rw [Ptr.kind_spec (signed64_mod _ r2), h1, if_pos (by decide)]
  rfl

/-- Text and data fields. -/
theorem readData_bytes {o : StructObj} {data : Bytes} {ptrs : List Val}
    (ho : Denotes o (.struct data ptrs)) {j n : Nat} {bs : Bytes}
    (hj : ptrs[j]? = some (.listPrim 2 n bs)) (dflt : Option Bytes) :
    o.readData ((8 * j : Nat) : Int) dflt 0 = .ok (some bs) ∧
    (0 < n → o.readTextBytes ((8 * j : Nat) : Int) dflt = .ok (some bs.dropLast)) ∧
    bs.length = n := by
  obtain ⟨B, offs, t, ds, ps, data', ptrs', rfl, hta, h8, hds, hps, hob, hv⟩ := ho
  injection hv with h1 h2
  subst h1 h2
  obtain ⟨q, w, r1, r2, r3, r4, r5, r6⟩ := resolve_spec hta h8 hob hj
  have hm := signed64_mod _ r2
  generalize hvv : Val.listPrim 2 n bs = v at r5
  cases r5 with
  | null => cases hvv
  | struct => cases hvv
  | listPtr => cases hvv
  | listComp => cases hvv
  | far => omega
  | far2 => omega
  | listPrim _ _ s hk hg hs hb =>
    injection hvv with g1 g2 g3
    rw [← g1] at hb g3
    rw [← g2] at hb g3
    have hpl : primLen 2 n = n := rfl
    rw [hpl] at hb g3
    have hw0 : w ≠ 0 := by intro h; rw [h] at hk; simp [kind] at hk
    have key : ∀ add : Int, (Seg.of B offs).readStr (signed64 w) q dflt add
        = .ok (some (pySlice B (s : Int) ((s : Int) + n + add))) := by
      intro add
      unfold Seg.readStr
      rw [if_neg (signed64_ne_zero r2 hw0), Ptr.kind_spec hm, hk, if_neg (by decide),
        Ptr.listTag_spec hm, ← g1, if_neg (by decide), deref_spec hm, hs, Ptr.listCount_spec hm, ← g2]
      rfl
    have hl : bs.length = n := by rw [g3]; exact slice_length_of_le hb
    refine ⟨?_, ?_, hl⟩
    · unfold StructObj.readData
      simp only [bind, Except.bind, r1]
      change (Seg.of B offs).readStr (signed64 w) q dflt 0 = _
      rw [key, show (s : Int) + n + 0 = ((s + n : Nat) : Int) by push_cast; ring, pySlice_nat,
        Nat.add_sub_cancel_left, g3]
    · intro hn
      unfold StructObj.readTextBytes StructObj.readData
      simp only [bind, Except.bind, r1]
      change (Seg.of B offs).readStr (signed64 w) q dflt (-1) = _
      rw [key, show (s : Int) + n + (-1) = ((s + (n - 1) : Nat) : Int) by omega, pySlice_nat,
        Nat.add_sub_cancel_left, List.dropLast_eq_take, hl, g3]
      unfold slice
      rw [List.take_take, Nat.min_eq_left (by omega)]

theorem readData_null {o : StructObj} {data : Bytes} {ptrs : List Val}
    (ho : Denotes o (.struct data ptrs)) {j : Nat} (hj : ptrs[j]? = some .null ∨ ptrs[j]? = none)
    (dflt : Option Bytes) (add : Int) :
    o.readData ((8 * j : Nat) : Int) dflt add = .ok dflt := by
  obtain ⟨B, offs, t, ds, ps, data', ptrs', rfl, hta, h8, hds, hps, hob, hv⟩ := ho
  injection hv with h1 h2
  subst h1 h2
  unfold StructObj.readData
  rcases hj with hj | hj
  · obtain ⟨q, w, r1, r2, r3, r4, r5, r6⟩ := resolve_spec hta h8 hob hj
    have h0 : w = 0 := by
      rcases den_kind1 r4 r5 with h | ⟨_, _, d, p, h⟩ | ⟨_, _, h, _⟩
      · exact h.2
      · cases h
      · exact absurd rfl h
    subst h0
    simp only [bind, Except.bind, r1]
    unfold Seg.readStr; rw [if_pos (by decide)]
  · have hl : ps ≤ j := by rw [← hob.2.2.1]; exact List.getElem?_eq_none_iff.mp hj
    simp only [bind, Except.bind, resolve_beyond hl]
    unfold Seg.readStr; rw [if_pos rfl]

/-- Primitive fields read the zero-extended data section. -/
theorem readPrimitive_spec {o : StructObj} {data : Bytes} {ptrs : List Val}
    (ho : Denotes o (.struct data ptrs)) (k : Nat) (fmt : Fmt) :
    (data.length ≤ k → o.readPrimitive (k : Int) fmt = .ok 0) ∧
    (k + fmt.size ≤ data.length →
      o.readPrimitive (k : Int) fmt = .ok (fmt.decode (slice data k fmt.size))) := by
  obtain ⟨B, offs, t, ds, ps, data', ptrs', rfl, hta, h8, hds, hps, ⟨hb, hd, hl, hp⟩, hv⟩ := ho
  injection hv with h1 h2
  subst h1 h2
  have hdl : data.length = 8 * ds := by rw [hd]; exact slice_length_of_le (by omega)
  have := fmt.size_pos
  unfold StructObj.readPrimitive objAt
  simp only
  constructor
  · intro h; rw [if_pos (by omega)]
  · intro h
    rw [if_neg (by omega), show ((t : Int) + (k : Int)) = ((t + k : Nat) : Int) by push_cast; rfl]
    rw [show (Seg.of B offs).buf = B from rfl, readPrimitive_nat (by omega)]
    congr 2
    rw [hd]
    apply slice_congr
    intro i hi
    rw [slice_getElem?, if_pos (by omega)]
    congr 1; omega

end Capnpy
