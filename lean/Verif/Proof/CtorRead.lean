import Verif.Proof.CtorNodes
import Verif.Props.Fields

/-! # Reading what a constructor wrote -/

namespace Capnpy

open Spec Props

theorem zero_byte {b : Bytes} {k : Nat} (h : ∀ m, m < 8 → bitAt b (8 * k + m) = some false) : b[k]? = some 0 := by
  have : b[k]? = (List.replicate (k + 1) (0 : UInt8))[k]? := by
    apply byte_of_bits
    intro m hm
    rw [h m hm, bitAt_byte _ _ _ hm]
    simp [bitOf]
  rw [this]
  simp

/-- All the pointers of the struct denote something. -/
theorem denotes_of_ptrs {C : Bytes} {ds ps : Nat} (hds : ds < 2 ^ 16) (hps : ps < 2 ^ 16)
    (hC : 8 * (ds + ps) ≤ C.length)
    (h : ∀ j, j < ps → ∃ v, Den C none ((8 * (ds + j) : Nat) : Int) (wordAt C (8 * (ds + j))) v) :
    ∃ data ptrs, Denotes (objAt C none 0 ds ps) (.struct data ptrs) := by
  have h' : ∀ j : Fin ps, ∃ v, Den C none ((8 * (ds + j) : Nat) : Int) (wordAt C (8 * (ds + j))) v :=
    fun j => h j j.2
  choose g hg using h'
  refine ⟨slice C 0 (8 * ds), List.ofFn g, C, none, 0, ds, ps, _, _, rfl, (by intro _ h; cases h), by omega, hds, hps,
    ⟨by omega, rfl, by simp, ?_⟩, rfl⟩
  intro j v hj
  rw [List.getElem?_ofFn] at hj
  split at hj
  · rename_i hlt
    injection hj with hj
    subst hj
    have := hg ⟨j, hlt⟩
    rw [show 0 + 8 * ds + 8 * j = 8 * (ds + j) by ring]
    exact this
  · cases hj

/-- A pointer of the struct may be described by any value it denotes. -/
theorem denotes_set {C : Bytes} {ds ps : Nat} {data : Bytes} {ptrs : List Val}
    (h : Denotes (objAt C none 0 ds ps) (.struct data ptrs)) {j : Nat} (hj : j < ps) {v : Val}
    (hv : Den C none ((8 * (ds + j) : Nat) : Int) (wordAt C (8 * (ds + j))) v) :
    ∃ ptrs', Denotes (objAt C none 0 ds ps) (.struct data ptrs') ∧ child ptrs' j = v := by
  obtain ⟨B, offs, t, ds', ps', data', ptrs', ho, hta, h8, hds, hps, ⟨hb, hd, hl, hp⟩, hveq⟩ := h
  injection hveq with e1 e2
  subst e1 e2
  unfold objAt at ho
  injection ho with o1 o2 o3 o4 o5
  injection o1 with o11 o12
  subst o11
  have o12 : none = offs := by cases offs with
    | none => rfl
    | some t => cases o12
  subst o12
  obtain rfl : t = 0 := by exact_mod_cast o2.symm
  obtain rfl : ds = ds' := by exact_mod_cast o4
  obtain rfl : ps = ps' := by exact_mod_cast o5
  refine ⟨ptrs.set j v, ⟨C, none, 0, ds, ps, _, _, rfl, hta, h8, hds, hps, ⟨hb, hd, by simpa using hl, ?_⟩, rfl⟩, ?_⟩
  · intro i u hi
    rw [List.getElem?_set] at hi
    by_cases hij : j = i
    · subst hij
      rw [if_pos rfl, if_pos (by omega)] at hi
      injection hi with hi
      subst hi
      rw [show 0 + 8 * ds + 8 * j = 8 * (ds + j) by ring]
      exact hv
    · rw [if_neg hij] at hi
      exact hp i u hi
  · unfold child
    rw [List.getElem?_set, if_pos rfl, if_pos (by omega)]
    rfl

theorem readPrim_obj {C : Bytes} {ds ps k : Nat} {fmt : Fmt} {v : Int} (hk : k < 8 * ds)
    (h : readPrimitive C (k : Int) fmt = .ok v) : (objAt C none 0 ds ps).readPrimitive (k : Int) fmt = .ok v := by
  unfold StructObj.readPrimitive objAt
  simp only
  rw [if_neg (by omega)]
  rw [show (((0 : Nat) : Int) + (k : Int)) = (k : Int) by omega]
  exact h

theorem readInt16_obj {C : Bytes} {ds ps k : Nat} {v : Int} (hk : k < 8 * ds)
    (h : readPrimitive C (k : Int) .h = .ok v) : (objAt C none 0 ds ps).readInt16 (k : Int) = .ok v :=
  readPrim_obj (fmt := .h) hk h

theorem fmt_size_pos (fmt : Fmt) : 0 < fmt.size := by cases fmt <;> decide

theorem xor_default (v d : Int) : (if d ≠ 0 then (pure (Int.xor v d) : Py Int) else pure v) = .ok (Int.xor v d) := by
  by_cases hd : d = 0
  · rw [if_neg (by simpa using hd), hd, xor_zero_right]; rfl
  · rw [if_pos hd]; rfl

/-- A slot that holds an argument reads as it. -/
theorem reads_slot {C : Bytes} {ds ps : Nat} {data : Bytes} {ptrs : List Val}
    (ho : Denotes (objAt C none 0 ds ps) (.struct data ptrs)) {ty : SlotType} {off : Nat} {dflt : Option Int}
    (hwf : SlotWF ds ps ty off dflt) {a : Arg} (h : HoldsSlot ds C ty off dflt a) :
    SlotReads ty a (getSlot (objAt C none 0 ds ps) ty off dflt) := by
  cases ty with
  | void => rfl
  | anyPointer => exact h.elim
  | prim fmt =>
    obtain ⟨i, hai, h⟩ := h
    have := fmt_size_pos fmt
    refine ⟨i, hai, ?_⟩
    have e : (objAt C none 0 ds ps).primField ((off * fmt.size : Nat) : Int) fmt (dflt.getD 0) = .ok i := by
      unfold StructObj.primField
      rw [bind_okP (readPrim_obj (ds := ds) (ps := ps) (by have := hwf.1; omega) h), xor_default, int_xor_cancel]
    show ((objAt C none 0 ds ps).primField ((off * fmt.size : Nat) : Int) fmt (dflt.getD 0) >>= _) = _
    rw [bind_okP e]
    rfl
  | enum =>
    obtain ⟨i, hai, h⟩ := h
    refine ⟨i, hai, ?_⟩
    have e : (objAt C none 0 ds ps).enumField ((off * 2 : Nat) : Int) (dflt.getD 0) = .ok i := by
      unfold StructObj.enumField
      rw [bind_okP (readInt16_obj (ds := ds) (ps := ps) (by have := hwf.1; omega) h), xor_default, int_xor_cancel]
    show ((objAt C none 0 ds ps).enumField ((off * 2 : Nat) : Int) (dflt.getD 0) >>= _) = _
    rw [bind_okP e]
    rfl
  | float fmt =>
    obtain ⟨i, rfl, h⟩ := h
    have := fmt_size_pos fmt
    refine ⟨i, rfl, ?_⟩
    obtain ⟨h1, rfl⟩ := hwf
    show ((objAt C none 0 ds ps).readPrimitive ((off * fmt.size : Nat) : Int) fmt >>= _) = _
    rw [bind_okP (readPrim_obj (ds := ds) (ps := ps) (by omega) h)]
    rfl
  | bool =>
    obtain ⟨x, hx, h⟩ := h
    refine ⟨x, hx, ?_⟩
    have hwf : off < 64 * ds := hwf
    unfold getSlot
    simp only
    rw [bind_okP (C09_bool _ _ _ ho off _)]
    refine congrArg (fun y => Except.ok (RVal.bool y)) ?_
    have hb : (byteZ data (off / 8)).toNat.testBit (off % 8) = (x ^^ (dflt.getD 0 != 0)) := by
      obtain ⟨B, offs, t, ds', ps', data', ptrs', ho, hta, h8, hds, hps, ⟨hb, hd, hl, hp⟩, hveq⟩ := ho
      injection hveq with e1 e2
      unfold objAt at ho
      injection ho with o1 o2 o3 o4 o5
      injection o1 with o11 o12
      obtain rfl : t = 0 := by exact_mod_cast o2.symm
      obtain rfl : ds = ds' := by exact_mod_cast o4
      unfold bitAt bitOf at h
      have hdb : data[off / 8]? = C[off / 8]? := by
        rw [e1, hd, slice_getElem?, if_pos (by omega), o11, Nat.zero_add]
      unfold byteZ
      rw [hdb]
      cases hc : C[off / 8]? with
      | none => rw [hc] at h; cases h
      | some y => rw [hc] at h; simpa using h
    rw [hb]
    cases x <;> cases (dflt.getD 0 != 0) <;> rfl
  | text =>
    obtain ⟨v, hv, hden⟩ := h
    obtain ⟨ptrs', ho', hc⟩ := denotes_set ho hwf.1 hden
    obtain ⟨r1, r2, r3⟩ := C10_data _ _ _ ho' off
    unfold getSlot
    simp only
    rw [Nat.mul_comm off 8]
    cases a with
    | none => cases hv; left; rw [bind_okP (r1 hc).2]; exact ⟨rfl, rfl⟩
    | bytes s => cases hv; right; rw [bind_okP (r3 s hc)]; exact ⟨s, rfl, rfl⟩
    | _ => exact hv.elim
  | data =>
    obtain ⟨v, hv, hden⟩ := h
    obtain ⟨ptrs', ho', hc⟩ := denotes_set ho hwf.1 hden
    obtain ⟨r1, r2, r3⟩ := C10_data _ _ _ ho' off
    unfold getSlot
    simp only
    rw [Nat.mul_comm off 8]
    cases a with
    | none => cases hv; left; rw [bind_okP (r1 hc).1]; exact ⟨rfl, rfl⟩
    | bytes s => cases hv; right; rw [bind_okP (r2 _ s hc).2]; exact ⟨s, rfl, rfl⟩
    | _ => exact hv.elim
  | struct =>
    obtain ⟨v, hv, hden⟩ := h
    obtain ⟨ptrs', ho', hc⟩ := denotes_set ho hwf.1 hden
    obtain ⟨r1, r2, r3⟩ := C10_struct _ _ _ ho' off
    unfold getSlot
    simp only
    rw [Nat.mul_comm off 8]
    cases a with
    | none => cases hv; left; rw [bind_okP (r1 hc)]; exact ⟨rfl, rfl⟩
    | struct o =>
      right
      obtain ⟨hv, -⟩ := hv
      obtain ⟨_, _, _, _, _, d, p, _, _, _, _, _, _, rfl⟩ := id hv
      obtain ⟨o', h1, h2⟩ := r2 d p hc
      rw [bind_okP h1]
      exact ⟨o, o', _, rfl, rfl, hv, h2⟩
    | _ => exact hv.elim
  | list it =>
    obtain ⟨v, hv, hden⟩ := h
    obtain ⟨ptrs', ho', hc⟩ := denotes_set ho hwf.1 hden
    obtain ⟨r1, r2, r3⟩ := C10_list _ _ _ ho' off it
    unfold getSlot
    simp only
    rw [Nat.mul_comm off 8]
    cases a with
    | none => cases hv; left; rw [bind_okP (r1 hc)]; exact ⟨rfl, rfl⟩
    | list xs =>
      right
      have hv : ListVal it xs v := hv
      obtain ⟨s1, s2⟩ := listVal_shape hv
      rw [hc] at r2
      obtain ⟨l, l1, l2, l3⟩ := r2 s1 s2
      obtain ⟨q1, ys, q2, q3⟩ := readback it xs v hv l l3 l2
      rw [bind_okP l1]
      exact ⟨xs, l, ys, rfl, rfl, q1, q2, q3⟩
    | _ => exact hv.elim

/-- A group accessor makes an object over the same sections. -/
theorem group_obj {C : Bytes} {ds ps : Nat} (hC : 8 * (ds + ps) ≤ C.length) :
    StructObj.initFromBuffer (objAt C none 0 ds ps).seg (objAt C none 0 ds ps).dataOffset
      (objAt C none 0 ds ps).dataSize (objAt C none 0 ds ps).ptrsSize = .ok (objAt C none 0 ds ps) :=
  initFromBuffer_nat (B := C) (offs := none) (t := 0) (ds := ds) (ps := ps) (by omega)

/-- The `isNull` field of a nullable group reads as the flag written. -/
theorem isNull_reads {ty : SlotType} (h : IsNullType ty) {x : Int} (hx : x = 0 ∨ x = 1) {r : Py RVal}
    (hr : SlotReads ty (.int x) r) : ∃ v, r = .ok v ∧ v.truthy = (x != 0) := by
  cases ty with
  | prim fmt =>
    obtain ⟨i, h1, h2⟩ := hr
    cases h1
    exact ⟨_, h2, rfl⟩
  | bool =>
    obtain ⟨y, h1, h2⟩ := hr
    refine ⟨_, h2, ?_⟩
    rcases h1 with h1 | h1
    · cases h1
    · injection h1 with h1
      subst h1
      cases y <;> rfl
  | _ => exact h.elim

theorem ensureMember_ok {C : Bytes} {ds ps : Nat} {union : Option Nat} {u tag : Nat} (hu : union = some u)
    (ht : TagWF ds union) (h : readPrimitive C ((u * 2 : Nat) : Int) .h = .ok (tag : Int)) :
    ensureMember (objAt C none 0 ds ps) union (some tag) = .ok () := by
  subst hu
  have := ht u rfl
  unfold ensureMember StructObj.ensureUnion StructObj.whichRaw
  simp only [Option.map_some]
  rw [bind_okP (readInt16_obj (by omega) h), if_neg (by simp)]
  rfl

mutual

theorem reads_field {C : Bytes} {ds ps : Nat} {data : Bytes} {ptrs : List Val}
    (ho : Denotes (objAt C none 0 ds ps) (.struct data ptrs)) (hC : 8 * (ds + ps) ≤ C.length) (union : Option Nat) :
    ∀ (f : Field) (a : Arg), FieldWF ds ps f → HoldsField ds C f a →
      ensureMember (objAt C none 0 ds ps) union f.disc = .ok () →
      ReadsVal (objAt C none 0 ds ps) f a (getField (objAt C none 0 ds ps) union f)
  | .slot name code disc ty off dflt, a, hwf, h, he => by
    unfold FieldWF at hwf
    unfold HoldsField at h
    unfold ReadsVal getField
    have he : ensureMember (objAt C none 0 ds ps) union disc = .ok () := he
    rw [bind_okP he]
    exact reads_slot ho hwf h
  | .group name code disc nullable gunion children, a, hwf, h, he => by
    unfold FieldWF at hwf
    obtain ⟨hw1, hw2, hw3⟩ := hwf
    unfold HoldsField at h
    unfold ReadsVal getField
    have he : ensureMember (objAt C none 0 ds ps) union disc = .ok () := he
    rw [bind_okP he, bind_okP (group_obj hC)]
    by_cases hn : nullable = true
    · simp only [if_pos hn] at h ⊢
      obtain ⟨hu, hne, c, o, ty, d, c2, rfl, hty, hv, hd2, hs2⟩ := hw3 hn
      have hr := reads_fields ho hC gunion _ _ hw1 hw2 h
      have hs1 := isNullType_not_skipped (c := c) (o := o) (d := d) (n := "is_null") hty
      have hg1 : getAttr (objAt C none 0 ds ps) gunion "is_null" [.slot "is_null" c none ty o d, c2] =
          some (getField (objAt C none 0 ds ps) gunion (.slot "is_null" c none ty o d)) := by
        simp only [getAttr, hv]
        rfl
      have hg2 : getAttr (objAt C none 0 ds ps) gunion "value" [.slot "is_null" c none ty o d, c2] =
          some (getField (objAt C none 0 ds ps) gunion c2) := by
        simp only [getAttr, hv]
        rfl
      have pair : ∀ x y, nullablePair [.slot "is_null" c none ty o d, c2] a = [x, y] →
          ReadsVal (objAt C none 0 ds ps) (.slot "is_null" c none ty o d) x
              (getField (objAt C none 0 ds ps) gunion (.slot "is_null" c none ty o d)) ∧
            ReadsVal (objAt C none 0 ds ps) c2 y (getField (objAt C none 0 ds ps) gunion c2) := by
        intro x y e
        rw [e] at hr
        unfold ReadsFields at hr
        rw [if_neg (by rw [hs1]; simp)] at hr
        simp only at hr
        obtain ⟨hr1, hr2⟩ := hr
        unfold ReadsFields at hr2
        rw [if_neg (by rw [hs2]; simp)] at hr2
        simp only at hr2
        exact ⟨hr1 rfl, hr2.1 (by unfold absent; rw [hd2]; rfl)⟩
      rw [hg1, hg2]
      simp only
      by_cases ha : a.isNone = true
      · rw [if_pos ha]
        obtain ⟨p1, -⟩ := pair _ _ (by unfold nullablePair; rw [if_pos ha])
        unfold ReadsVal at p1
        obtain ⟨v, e, ht⟩ := isNull_reads hty (.inr rfl) p1
        rw [bind_okP e, if_pos (by rw [ht]; decide)]
        rfl
      · rw [if_neg ha]
        obtain ⟨p1, p2⟩ := pair _ _ (by unfold nullablePair; rw [if_neg ha])
        unfold ReadsVal at p1
        obtain ⟨v, e, ht⟩ := isNull_reads hty (.inl rfl) p1
        rw [bind_okP e, if_neg (by rw [ht]; decide)]
        unfold ReadsLast
        simp only
        unfold ReadsLast
        exact p2
    · simp only [if_neg hn] at h ⊢
      obtain ⟨as, rfl, h⟩ := h
      exact ⟨rfl, as, rfl, reads_fields ho hC gunion _ _ hw1 hw2 h⟩

theorem reads_fields {C : Bytes} {ds ps : Nat} {data : Bytes} {ptrs : List Val}
    (ho : Denotes (objAt C none 0 ds ps) (.struct data ptrs)) (hC : 8 * (ds + ps) ≤ C.length) (union : Option Nat) :
    ∀ (fs : List Field) (as : List Arg), TagWF ds union → FieldsWF ds ps union fs → HoldsFields ds C union fs as →
      ReadsFields (objAt C none 0 ds ps) union fs as
  | [], _, _, _, _ => by unfold ReadsFields; trivial
  | f :: fs, as, ht, hwf, h => by
    unfold FieldsWF at hwf
    obtain ⟨w1, w2, w3, w4, w5⟩ := hwf
    unfold HoldsFields at h
    unfold ReadsFields
    by_cases hs : f.skipped = true
    · rw [if_pos hs] at h ⊢
      refine ⟨?_, reads_fields ho hC union fs as ht w5 h⟩
      unfold Field.skipped at hs
      split at hs
      · unfold getField; rfl
      · cases hs
    · rw [if_neg hs] at h ⊢
      cases as with
      | nil => exact h.elim
      | cons a as =>
        refine ⟨fun hab => ?_, reads_fields ho hC union fs as ht w5 h.2⟩
        obtain ⟨h1, h2⟩ := h.1 hab
        refine reads_field ho hC union f a w1 h1 ?_
        cases hd : f.disc with
        | none => rfl
        | some tag =>
          obtain ⟨u, hu⟩ := Option.isSome_iff_exists.mp (w2 tag hd).1
          exact ensureMember_ok hu ht (h2 tag u hd hu)

end

end Capnpy
