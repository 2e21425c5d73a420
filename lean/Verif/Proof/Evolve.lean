import Verif.Proof.Ctor
import Verif.Proof.CtorCompact
import Verif.Spec.Evolve

/-! # Reading a message with another version of its schema -/

namespace Capnpy

open Spec Props

/-! ## What a constructor leaves unset -/

theorem slotBits_cell {ds ps : Nat} {ty : SlotType} {off : Nat} {dflt : Option Int} (hwf : SlotWF ds ps ty off dflt)
    {i : Nat} (h : slotBits ds ty off i) :
    (i < 64 * ds → slotCells ty off (.bit i)) ∧
    (∀ k, 64 * (ds + k) ≤ i → i < 64 * (ds + k) + 64 → slotCells ty off (.ptr k)) := by
  have ptr : 64 * (ds + off) ≤ i ∧ i < 64 * (ds + off) + 64 → (i < 64 * ds → (Cell.bit i) = .ptr off) ∧
      (∀ k, 64 * (ds + k) ≤ i → i < 64 * (ds + k) + 64 → Cell.ptr k = .ptr off) := by
    intro h
    refine ⟨fun h1 => by omega, fun k h1 h2 => ?_⟩
    rw [show k = off by omega]
  cases ty with
  | void => exact h.elim
  | bool =>
    have h : i = off := h
    have hwf : off < 64 * ds := hwf
    exact ⟨fun _ => by rw [h]; rfl, fun k h1 h2 => by omega⟩
  | prim fmt =>
    have h : 8 * (off * fmt.size) ≤ i ∧ i < 8 * (off * fmt.size) + 8 * fmt.size := h
    obtain ⟨hwf, _⟩ := hwf
    exact ⟨fun _ => ⟨i, rfl, h⟩, fun k h1 h2 => by omega⟩
  | float fmt =>
    have h : 8 * (off * fmt.size) ≤ i ∧ i < 8 * (off * fmt.size) + 8 * fmt.size := h
    obtain ⟨hwf, _⟩ := hwf
    exact ⟨fun _ => ⟨i, rfl, h⟩, fun k h1 h2 => by omega⟩
  | enum =>
    have h : 16 * off ≤ i ∧ i < 16 * off + 16 := h
    obtain ⟨hwf, _⟩ := hwf
    exact ⟨fun _ => ⟨i, rfl, h⟩, fun k h1 h2 => by omega⟩
  | text => exact ptr h
  | data => exact ptr h
  | struct => exact ptr h
  | list it => exact ptr h
  | anyPointer => exact ptr h

theorem tagBits_cell {ds : Nat} {union : Option Nat} (ht : TagWF ds union) {i : Nat} (h : tagBits union i) :
    (i < 64 * ds → ∃ u, union = some u ∧ tagCells u (.bit i)) ∧
    (∀ k, 64 * (ds + k) ≤ i → i < 64 * (ds + k) + 64 → ∃ u, union = some u ∧ tagCells u (.ptr k)) := by
  cases union with
  | none => exact h.elim
  | some u =>
    have h : 16 * u ≤ i ∧ i < 16 * u + 16 := h
    have := ht u rfl
    exact ⟨fun _ => ⟨u, rfl, i, rfl, h⟩, fun k h1 h2 => by omega⟩

mutual

theorem fieldBits_cell (ds ps : Nat) : ∀ (f : Field), FieldWF ds ps f → ∀ i, fieldBits ds f i →
    (i < 64 * ds → fieldCells f (.bit i)) ∧
    (∀ k, 64 * (ds + k) ≤ i → i < 64 * (ds + k) + 64 → fieldCells f (.ptr k))
  | .slot _ _ _ ty off dflt, hwf, i, h => by
    unfold FieldWF at hwf
    unfold fieldBits at h
    unfold fieldCells
    exact slotBits_cell hwf h
  | .group _ _ _ _ union children, hwf, i, h => by
    unfold FieldWF at hwf
    unfold fieldBits at h
    unfold fieldCells
    rcases h with h | h
    · obtain ⟨a, b⟩ := tagBits_cell hwf.1 h
      exact ⟨fun h1 => .inl (a h1), fun k h1 h2 => .inl (b k h1 h2)⟩
    · obtain ⟨a, b⟩ := fieldsBits_cell ds ps union children hwf.2.1 i h
      exact ⟨fun h1 => .inr (a h1), fun k h1 h2 => .inr (b k h1 h2)⟩

theorem fieldsBits_cell (ds ps : Nat) (union : Option Nat) : ∀ (fs : List Field), FieldsWF ds ps union fs →
    ∀ i, fieldsBits ds fs i →
    (i < 64 * ds → fieldsCells fs (.bit i)) ∧
    (∀ k, 64 * (ds + k) ≤ i → i < 64 * (ds + k) + 64 → fieldsCells fs (.ptr k))
  | [], _, i, h => by unfold fieldsBits at h; exact h.elim
  | f :: fs, hwf, i, h => by
    unfold FieldsWF at hwf
    unfold fieldsBits at h
    unfold fieldsCells
    rcases h with h | h
    · obtain ⟨a, b⟩ := fieldBits_cell ds ps f hwf.1 i h
      exact ⟨fun h1 => .inl (a h1), fun k h1 h2 => .inl (b k h1 h2)⟩
    · obtain ⟨a, b⟩ := fieldsBits_cell ds ps union fs hwf.2.2.2.2 i h
      exact ⟨fun h1 => .inr (a h1), fun k h1 h2 => .inr (b k h1 h2)⟩

end

/-- The sections of the object over the whole buffer. -/
theorem denotes_sections {C : Bytes} {ds ps : Nat} {data : Bytes} {ptrs : List Val}
    (h : Denotes (objAt C none 0 ds ps) (.struct data ptrs)) :
    8 * (ds + ps) ≤ C.length ∧ data = slice C 0 (8 * ds) ∧ ptrs.length = ps ∧
    ∀ (j : Nat) (v : Val), ptrs[j]? = some v → Den C none ((8 * (ds + j) : Nat) : Int) (wordAt C (8 * (ds + j))) v := by
  obtain ⟨B, offs, t, ds', ps', data', ptrs', ho, hta, h8, hds, hps, ⟨hb, hd, hl, hp⟩, hveq⟩ := h
  injection hveq with e1 e2
  subst e1 e2
  unfold objAt at ho
  injection ho with o1 o2 o3 o4 o5
  injection o1 with o11 o12
  subst o11
  have o12 : none = offs := by cases offs with
    | none => rfl
    | some t => cases o12
  subst o12
  obtain rfl : t = 0 := by exact_mod_cast o2.symm
  obtain rfl : ds = ds' := by exact_mod_cast o4
  obtain rfl : ps = ps' := by exact_mod_cast o5
  refine ⟨by omega, hd, hl, fun j v hj => ?_⟩
  have := hp j v hj
  rwa [show 0 + 8 * ds + 8 * j = 8 * (ds + j) by ring] at this

/-- Every cell the schema does not use is unset in a constructed message. -/
theorem construct_unset (fuel : Nat) (S : Schema) (args : List Arg) (n : Nat) (hS : S.WF) (hl : S.locals.Nodup)
    (ha : AccFields fuel S.fields args n) (hm : (members S.fields args).length ≤ 1)
    (hsz : 8 * (S.dataWords + S.ptrs) + n ≤ 2 ^ 32) :
    ∃ C data ptrs, S.construct fuel args = .ok (objAt C none 0 S.dataWords S.ptrs) ∧
      Denotes (objAt C none 0 S.dataWords S.ptrs) (.struct data ptrs) ∧
      HoldsFields S.dataWords C S.union S.fields args ∧
      ∀ c, ¬ schemaCells S c → Unset data ptrs c := by
  obtain ⟨C, _, e, hlen, ⟨data, ptrs, hd⟩, hh, hz⟩ := construct_spec fuel S args n hS hl ha hm hsz
  refine ⟨C, data, ptrs, e, hd, hh, fun c hc => ?_⟩
  obtain ⟨hb, hdata, hpl, hp⟩ := denotes_sections hd
  have hfoot : ∀ i, footAll S.dataWords S.union S.fields args i →
      (i < 64 * S.dataWords → schemaCells S (.bit i)) ∧
      (∀ k, 64 * (S.dataWords + k) ≤ i → i < 64 * (S.dataWords + k) + 64 → schemaCells S (.ptr k)) := by
    intro i hi
    rcases footAll_subset _ _ _ _ i hi with h | h
    · obtain ⟨a, b⟩ := fieldsBits_cell _ _ _ _ hS.fields i h
      exact ⟨fun h1 => .inr (a h1), fun k h1 h2 => .inr (b k h1 h2)⟩
    · obtain ⟨a, b⟩ := tagBits_cell hS.tag h
      exact ⟨fun h1 => .inl (a h1), fun k h1 h2 => .inl (b k h1 h2)⟩
  cases c with
  | bit i =>
    show (byteZ data (i / 8)).toNat.testBit (i % 8) = false
    unfold byteZ
    by_cases hi : i < 64 * S.dataWords
    · have hbit := hz i (by omega) (fun hf => hc ((hfoot i hf).1 hi))
      rw [hdata, slice_getElem?, if_pos (by omega), Nat.zero_add]
      unfold bitAt bitOf at hbit
      cases hC : C[i / 8]? with
      | none => rw [hC] at hbit; cases hbit
      | some y => rw [hC] at hbit; simpa using hbit
    · rw [hdata, slice_getElem?, if_neg (by omega)]
      simp
  | ptr k =>
    show child ptrs k = .null
    by_cases hk : k < S.ptrs
    · obtain ⟨v, hv⟩ := get_of_lt (show k < ptrs.length by omega)
      have hden := hp k v hv
      have hw : wordAt C (8 * (S.dataWords + k)) = 0 := by
        apply wordAt_zero
        intro j hj
        apply zero_byte
        intro m hm
        exact hz _ (by omega) (fun hf => hc ((hfoot _ hf).2 k (by omega) (by omega)))
      rw [hw] at hden
      unfold child
      rw [hv]
      exact den_zero hden
    · unfold child
      rw [List.getElem?_eq_none (by omega)]
      rfl

/-! ## Unset cells read as defaults -/

theorem byte_zero {x : UInt8} (h : ∀ m, m < 8 → x.toNat.testBit m = false) : x = 0 := by
  have h0 : x.toNat = 0 := by
    apply Nat.eq_of_testBit_eq
    intro m
    rw [Nat.zero_testBit]
    by_cases hm : m < 8
    · exact h m hm
    · apply Nat.testBit_lt_two_pow
      calc x.toNat < 2 ^ 8 := x.toNat_lt
        _ ≤ 2 ^ m := Nat.pow_le_pow_right (by norm_num) (by omega)
  exact UInt8.toNat_inj.mp (by simpa using h0)

theorem bytesZ_unset {data : Bytes} {ptrs : List Val} {k n : Nat}
    (h : ∀ i, 8 * k ≤ i → i < 8 * k + 8 * n → Unset data ptrs (.bit i)) : bytesZ data k n = List.replicate n 0 := by
  apply List.ext_getElem?
  intro i
  unfold bytesZ
  rw [List.getElem?_map, List.getElem?_replicate]
  by_cases hi : i < n
  · rw [if_pos hi, List.getElem?_range hi, Option.map_some]
    congr 1
    apply byte_zero
    intro m hm
    have : (byteZ data ((8 * (k + i) + m) / 8)).toNat.testBit ((8 * (k + i) + m) % 8) = false :=
      h (8 * (k + i) + m) (by omega) (by omega)
    rw [show (8 * (k + i) + m) / 8 = k + i by omega, show (8 * (k + i) + m) % 8 = m by omega] at this
    exact this
  · rw [if_neg hi, List.getElem?_eq_none (by simpa using hi)]; rfl

theorem int_xor_zero_left (d : Int) : Int.xor 0 d = d := xor_zero_left d

theorem getSlot_unset {o : StructObj} {data : Bytes} {ptrs : List Val} (ho : Denotes o (.struct data ptrs))
    {ty : SlotType} {off : Nat} {dflt : Option Int} (hfl : ∀ fmt, ty = .float fmt → dflt = none)
    (h : ∀ c, slotCells ty off c → Unset data ptrs c) : getSlot o ty off dflt = .ok (declaredDefault ty dflt) := by
  cases ty with
  | void => rfl
  | prim fmt =>
    have hz := bytesZ_unset (k := off * fmt.size) (n := fmt.size) (fun i h1 h2 => h (.bit i) ⟨i, rfl, h1, h2⟩)
    have e := C09_prim o data ptrs ho (off * fmt.size) fmt (Nat.dvd_mul_left _ _) (dflt.getD 0)
    rw [hz, valueOf_zeros, xor_zero_left] at e
    unfold getSlot SlotType.size
    simp only
    rw [bind_okP e]
    rfl
  | float fmt =>
    have hd := hfl fmt rfl
    subst hd
    have hz := bytesZ_unset (k := off * fmt.size) (n := fmt.size) (fun i h1 h2 => h (.bit i) ⟨i, rfl, h1, h2⟩)
    have e := readPrimitive_zext ho (k := off * fmt.size) (fmt := fmt) (Nat.dvd_mul_left _ _)
    rw [hz, valueOf_zeros] at e
    unfold getSlot SlotType.size
    simp only
    rw [bind_okP e]
    rfl
  | enum =>
    have hz := bytesZ_unset (k := off * 2) (n := 2) (fun i h1 h2 => h (.bit i) ⟨i, rfl, by omega, by omega⟩)
    have e := C09_enum o data ptrs ho (off * 2) (Nat.dvd_mul_left _ _) (dflt.getD 0)
    rw [hz, show valueOf .h (List.replicate 2 0) = 0 from valueOf_zeros .h, xor_zero_left] at e
    unfold getSlot SlotType.size
    simp only
    rw [bind_okP e]
    rfl
  | bool =>
    have hz : (byteZ data (off / 8)).toNat.testBit (off % 8) = false := h (.bit off) rfl
    unfold getSlot
    simp only
    rw [bind_okP (C09_bool o data ptrs ho off _), hz, Bool.false_xor]
    rfl
  | text =>
    have hz : child ptrs off = .null := h _ rfl
    unfold getSlot
    simp only
    rw [Nat.mul_comm off 8, bind_okP ((C10_data o data ptrs ho off).1 hz).2]
    rfl
  | data =>
    have hz : child ptrs off = .null := h _ rfl
    unfold getSlot
    simp only
    rw [Nat.mul_comm off 8, bind_okP ((C10_data o data ptrs ho off).1 hz).1]
    rfl
  | struct =>
    have hz : child ptrs off = .null := h _ rfl
    unfold getSlot
    simp only
    rw [Nat.mul_comm off 8, bind_okP ((C10_struct o data ptrs ho off).1 hz)]
    rfl
  | list it =>
    have hz : child ptrs off = .null := h _ rfl
    unfold getSlot
    simp only
    rw [Nat.mul_comm off 8, bind_okP ((C10_list o data ptrs ho off it).1 hz)]
    rfl
  | anyPointer =>
    have hz : child ptrs off = .null := h _ rfl
    obtain ⟨b, hb, hi⟩ := C11_has o data ptrs ho off
    have : b = false := by
      cases b with
      | false => rfl
      | true => exact absurd hz (hi.mp rfl)
    subst this
    unfold getSlot
    simp only
    rw [Nat.mul_comm off 8, bind_okP hb]
    rfl

theorem group_denotes {o : StructObj} {v : Val} (ho : Denotes o v) :
    StructObj.initFromBuffer o.seg o.dataOffset o.dataSize o.ptrsSize = .ok o := by
  obtain ⟨B, offs, t, ds, ps, data, ptrs, rfl, _, _, _, _, ⟨hb, _⟩, _⟩ := ho
  exact initFromBuffer_nat (B := B) (offs := offs) (t := t) (ds := ds) (ps := ps) (by omega)

mutual

/-- A field whose cells are unset reads as its default, on any object. -/
theorem readsDefault_unset {ds ps : Nat} {o : StructObj} {data : Bytes} {ptrs : List Val}
    (ho : Denotes o (.struct data ptrs)) (union : Option Nat) : ∀ f : Field, FieldWF ds ps f →
    (∀ c, fieldCells f c → Unset data ptrs c) → ReadsDefault o union f
  | .slot name code disc ty off dflt, hwf, h => by
    unfold FieldWF at hwf
    unfold fieldCells at h
    unfold ReadsDefault
    intro hd
    subst hd
    unfold getField
    rw [bind_okP (show ensureMember o union none = .ok () from rfl)]
    refine getSlot_unset ho (fun fmt hf => ?_) h
    subst hf
    exact hwf.2
  | .group name code disc nullable gunion children, hwf, h => by
    unfold FieldWF at hwf
    obtain ⟨h1, h2, h3⟩ := hwf
    unfold fieldCells at h
    unfold ReadsDefault
    intro hd
    subst hd
    have hch : ∀ c, fieldsCells children c → Unset data ptrs c := fun c hc => h c (.inr hc)
    by_cases hn : nullable = true
    · rw [if_pos hn]
      obtain ⟨_, hne, c, o', ty, d, c2, rfl, hty, hv, hd2, hs2⟩ := h3 hn
      intro n1 c1 t1 o1 d1 n2 c2' t2 o2 d2 he
      injection he with he1 he2
      injection he2 with he2 _
      subst he2
      injection he1 with e1 e2 e3 e4 e5 e6
      subst e4 e5 e6
      have hv : n2 = "value" := hv
      subst hv
      unfold FieldsWF at h2
      obtain ⟨w1, _, _, _, w2⟩ := h2
      unfold FieldsWF at w2
      obtain ⟨w2, _⟩ := w2
      unfold FieldWF at w1 w2
      have g1 : getSlot o ty o' d = .ok (declaredDefault ty d) :=
        getSlot_unset ho (fun fmt hf => by subst hf; exact w1.2) (fun c hc => hch c (by
          unfold fieldsCells; left; unfold fieldCells; exact hc))
      have g2 : getSlot o t2 o2 d2 = .ok (declaredDefault t2 d2) :=
        getSlot_unset ho (fun fmt hf => by subst hf; exact w2.2) (fun c hc => hch c (by
          unfold fieldsCells; right; unfold fieldsCells; left; unfold fieldCells; exact hc))
      have hg1 : getAttr o gunion "is_null" [.slot "is_null" c none ty o' d, .slot "value" c2' none t2 o2 d2] =
          some (.ok (declaredDefault ty d)) := by
        simp only [getAttr, Field.name]
        rw [← g1]
        unfold getField
        rfl
      have hg2 : getAttr o gunion "value" [.slot "is_null" c none ty o' d, .slot "value" c2' none t2 o2 d2] =
          some (.ok (declaredDefault t2 d2)) := by
        simp only [getAttr, Field.name]
        rw [← g2]
        unfold getField
        rfl
      unfold getField
      rw [bind_okP (show ensureMember o union none = .ok () from rfl), bind_okP (group_denotes ho)]
      simp only [if_pos hn]
      rw [hg1, hg2]
      simp only
      rw [bind_okP rfl]
      have htr : (declaredDefault ty d).truthy = (d.getD 0 != 0) := by
        cases ty with
        | prim fmt => rfl
        | bool => rfl
        | _ => exact hty.elim
      rw [htr]
      by_cases hd0 : d.getD 0 = 0
      · rw [if_neg (by simpa using hd0), if_neg (by simpa using hd0)]
      · rw [if_pos (by simpa using hd0), if_pos (by simpa using hd0)]
        rfl
    · rw [if_neg hn]
      refine ⟨?_, readsDefaults_unset ho gunion children h2 hch⟩
      unfold getField
      rw [bind_okP (show ensureMember o union none = .ok () from rfl), bind_okP (group_denotes ho)]
      simp only [if_neg hn]
      rfl

theorem readsDefaults_unset {ds ps : Nat} {o : StructObj} {data : Bytes} {ptrs : List Val}
    (ho : Denotes o (.struct data ptrs)) (union : Option Nat) : ∀ fs : List Field, FieldsWF ds ps union fs →
    (∀ c, fieldsCells fs c → Unset data ptrs c) → ReadsDefaults o union fs
  | [], _, _ => by unfold ReadsDefaults; trivial
  | f :: fs, hwf, h => by
    unfold FieldsWF at hwf
    unfold fieldsCells at h
    unfold ReadsDefaults
    exact ⟨readsDefault_unset ho union f hwf.1 (fun c hc => h c (.inl hc)),
      readsDefaults_unset ho union fs hwf.2.2.2.2 (fun c hc => h c (.inr hc))⟩

end

/-! ## Reading a copy -/

/-- What the value of the struct says about a slot that was given the argument `a`. -/
def ValSlot (data : Bytes) (ptrs : List Val) (ty : SlotType) (off : Nat) (dflt : Option Int) (a : Arg) : Prop :=
  match ty with
  | .void => True
  | .prim fmt => ∃ i, a.toInt? = some i ∧ valueOf fmt (bytesZ data (off * fmt.size) fmt.size) = Int.xor i (dflt.getD 0)
  | .enum => ∃ i, a.toInt? = some i ∧ valueOf .h (bytesZ data (off * 2) 2) = Int.xor i (dflt.getD 0)
  | .float fmt => ∃ i, a = .float i ∧ dflt = none ∧ valueOf fmt (bytesZ data (off * fmt.size) fmt.size) = i
  | .bool => ∃ b : Bool, (a = .bool b ∨ a = .int (if b then 1 else 0)) ∧
      (byteZ data (off / 8)).toNat.testBit (off % 8) = (b ^^ (dflt.getD 0 != 0))
  | .anyPointer => False
  | ty => PtrArg ty a (child ptrs off)

theorem holdsSlot_val {C : Bytes} {ds ps : Nat} {data : Bytes} {ptrs : List Val}
    (ho : Denotes (objAt C none 0 ds ps) (.struct data ptrs)) {ty : SlotType} {off : Nat} {dflt : Option Int}
    (hwf : SlotWF ds ps ty off dflt) {a : Arg} (h : HoldsSlot ds C ty off dflt a) : ValSlot data ptrs ty off dflt a := by
  obtain ⟨hb, hdata, hpl, hp⟩ := denotes_sections ho
  have num : ∀ (fmt : Fmt) (v : Int), off * fmt.size + fmt.size ≤ 8 * ds →
      readPrimitive C ((off * fmt.size : Nat) : Int) fmt = .ok v →
      valueOf fmt (bytesZ data (off * fmt.size) fmt.size) = v := by
    intro fmt v hle hr
    have := fmt_size_pos fmt
    have e1 := readPrimitive_zext ho (k := off * fmt.size) (fmt := fmt) (Nat.dvd_mul_left _ _)
    rw [readPrim_obj (ds := ds) (ps := ps) (by omega) hr] at e1
    injection e1 with e1
    exact e1.symm
  have ptr : ∀ v, off < ps → Den C none ((8 * (ds + off) : Nat) : Int) (wordAt C (8 * (ds + off))) v →
      child ptrs off = v := by
    intro v hlt hd
    obtain ⟨v', hv'⟩ := get_of_lt (show off < ptrs.length by omega)
    unfold child
    rw [hv', den_functional (hp off v' hv') v hd]
    rfl
  cases ty with
  | void => trivial
  | anyPointer => exact h.elim
  | prim fmt =>
    obtain ⟨i, h1, h2⟩ := h
    exact ⟨i, h1, num fmt _ hwf.1 h2⟩
  | enum =>
    obtain ⟨i, h1, h2⟩ := h
    exact ⟨i, h1, num .h _ hwf.1 h2⟩
  | float fmt =>
    obtain ⟨i, h1, h2⟩ := h
    exact ⟨i, h1, hwf.2, num fmt _ hwf.1 h2⟩
  | bool =>
    obtain ⟨x, hx, h⟩ := h
    have hwf : off < 64 * ds := hwf
    refine ⟨x, hx, ?_⟩
    unfold bitAt bitOf at h
    unfold byteZ
    rw [hdata, slice_getElem?, if_pos (by omega), Nat.zero_add]
    cases hc : C[off / 8]? with
    | none => rw [hc] at h; cases h
    | some y => rw [hc] at h; simpa using h
  | text =>
    obtain ⟨v, hv, hden⟩ := h
    show PtrArg .text a (child ptrs off)
    rw [ptr v hwf.1 hden]; exact hv
  | data =>
    obtain ⟨v, hv, hden⟩ := h
    show PtrArg .data a (child ptrs off)
    rw [ptr v hwf.1 hden]; exact hv
  | struct =>
    obtain ⟨v, hv, hden⟩ := h
    show PtrArg .struct a (child ptrs off)
    rw [ptr v hwf.1 hden]; exact hv
  | list it =>
    obtain ⟨v, hv, hden⟩ := h
    show PtrArg (.list it) a (child ptrs off)
    rw [ptr v hwf.1 hden]; exact hv

/-- A slot of any object with that value reads as the argument. -/
theorem valSlot_reads {o : StructObj} {data : Bytes} {ptrs : List Val} (ho : Denotes o (.struct data ptrs))
    {ty : SlotType} {off : Nat} {dflt : Option Int} {a : Arg} (h : ValSlot data ptrs ty off dflt a) :
    SlotReads ty a (getSlot o ty off dflt) := by
  cases ty with
  | void => rfl
  | anyPointer => exact h.elim
  | prim fmt =>
    obtain ⟨i, hai, h⟩ := h
    refine ⟨i, hai, ?_⟩
    have e := C09_prim o data ptrs ho (off * fmt.size) fmt (Nat.dvd_mul_left _ _) (dflt.getD 0)
    rw [h, int_xor_cancel] at e
    unfold getSlot SlotType.size
    simp only
    rw [bind_okP e]
    rfl
  | enum =>
    obtain ⟨i, hai, h⟩ := h
    refine ⟨i, hai, ?_⟩
    have e := C09_enum o data ptrs ho (off * 2) (Nat.dvd_mul_left _ _) (dflt.getD 0)
    rw [h, int_xor_cancel] at e
    unfold getSlot SlotType.size
    simp only
    rw [bind_okP e]
    rfl
  | float fmt =>
    obtain ⟨i, rfl, rfl, h⟩ := h
    refine ⟨i, rfl, ?_⟩
    have e := readPrimitive_zext ho (k := off * fmt.size) (fmt := fmt) (Nat.dvd_mul_left _ _)
    rw [h] at e
    unfold getSlot SlotType.size
    simp only
    rw [bind_okP e]
    rfl
  | bool =>
    obtain ⟨x, hx, h⟩ := h
    refine ⟨x, hx, ?_⟩
    unfold getSlot
    simp only
    rw [bind_okP (C09_bool o data ptrs ho off _), h]
    refine congrArg (fun y => Except.ok (RVal.bool y)) ?_
    cases x <;> cases (dflt.getD 0 != 0) <;> rfl
  | text =>
    obtain ⟨r1, r2, r3⟩ := C10_data _ _ _ ho off
    have h : PtrArg .text a (child ptrs off) := h
    generalize hc : child ptrs off = v at h
    unfold getSlot
    simp only
    rw [Nat.mul_comm off 8]
    cases a with
    | none => cases h; left; rw [bind_okP (r1 hc).2]; exact ⟨rfl, rfl⟩
    | bytes s => cases h; right; rw [bind_okP (r3 s hc)]; exact ⟨s, rfl, rfl⟩
    | _ => exact h.elim
  | data =>
    obtain ⟨r1, r2, r3⟩ := C10_data _ _ _ ho off
    have h : PtrArg .data a (child ptrs off) := h
    generalize hc : child ptrs off = v at h
    unfold getSlot
    simp only
    rw [Nat.mul_comm off 8]
    cases a with
    | none => cases h; left; rw [bind_okP (r1 hc).1]; exact ⟨rfl, rfl⟩
    | bytes s => cases h; right; rw [bind_okP (r2 _ s hc).2]; exact ⟨s, rfl, rfl⟩
    | _ => exact h.elim
  | struct =>
    obtain ⟨r1, r2, r3⟩ := C10_struct _ _ _ ho off
    have h : PtrArg .struct a (child ptrs off) := h
    generalize hc : child ptrs off = v at h
    unfold getSlot
    simp only
    rw [Nat.mul_comm off 8]
    cases a with
    | none => cases h; left; rw [bind_okP (r1 hc)]; exact ⟨rfl, rfl⟩
    | struct o =>
      right
      obtain ⟨hv, -⟩ := h
      obtain ⟨_, _, _, _, _, d, p, _, _, _, _, _, _, rfl⟩ := id hv
      obtain ⟨o', h1, h2⟩ := r2 d p hc
      rw [bind_okP h1]
      exact ⟨o, o', _, rfl, rfl, hv, h2⟩
    | _ => exact h.elim
  | list it =>
    obtain ⟨r1, r2, r3⟩ := C10_list _ _ _ ho off it
    have h : PtrArg (.list it) a (child ptrs off) := h
    generalize hc : child ptrs off = v at h
    unfold getSlot
    simp only
    rw [Nat.mul_comm off 8]
    cases a with
    | none => cases h; left; rw [bind_okP (r1 hc)]; exact ⟨rfl, rfl⟩
    | list xs =>
      right
      have hv : ListVal it xs v := h
      obtain ⟨s1, s2⟩ := listVal_shape hv
      rw [hc] at r2
      obtain ⟨l, l1, l2, l3⟩ := r2 s1 s2
      obtain ⟨q1, ys, q2, q3⟩ := readback it xs v hv l l3 l2
      rw [bind_okP l1]
      exact ⟨xs, l, ys, rfl, rfl, q1, q2, q3⟩
    | _ => exact h.elim

theorem whichRaw_same {o o' : StructObj} {data : Bytes} {ptrs : List Val} (ho : Denotes o (.struct data ptrs))
    (ho' : Denotes o' (.struct data ptrs)) (u : Nat) :
    o.whichRaw (some ((u * 2 : Nat) : Int)) = o'.whichRaw (some ((u * 2 : Nat) : Int)) := by
  have e1 := readPrimitive_zext ho (k := u * 2) (fmt := .h) (Nat.dvd_mul_left _ _)
  have e2 := readPrimitive_zext ho' (k := u * 2) (fmt := .h) (Nat.dvd_mul_left _ _)
  show o.readPrimitive ((u * 2 : Nat) : Int) .h = o'.readPrimitive ((u * 2 : Nat) : Int) .h
  rw [e1, e2]

theorem ensureMember_same {o o' : StructObj} {data : Bytes} {ptrs : List Val} (ho : Denotes o (.struct data ptrs))
    (ho' : Denotes o' (.struct data ptrs)) (union disc : Option Nat) :
    ensureMember o union disc = ensureMember o' union disc := by
  cases disc with
  | none => rfl
  | some d =>
    cases union with
    | none => rfl
    | some u =>
      unfold ensureMember StructObj.ensureUnion
      simp only [Option.map_some]
      rw [whichRaw_same ho ho' u]

mutual

/-- `reads_field` for any object with the value of the constructed one. -/
theorem reads_field_copy {C : Bytes} {ds ps : Nat} {data : Bytes} {ptrs : List Val}
    (ho : Denotes (objAt C none 0 ds ps) (.struct data ptrs)) {o' : StructObj} (ho' : Denotes o' (.struct data ptrs))
    (union : Option Nat) :
    ∀ (f : Field) (a : Arg), FieldWF ds ps f → HoldsField ds C f a →
      ensureMember (objAt C none 0 ds ps) union f.disc = .ok () → ReadsVal o' f a (getField o' union f)
  | .slot name code disc ty off dflt, a, hwf, h, he => by
    unfold FieldWF at hwf
    unfold HoldsField at h
    unfold ReadsVal getField
    have he : ensureMember (objAt C none 0 ds ps) union disc = .ok () := he
    rw [ensureMember_same ho ho'] at he
    rw [bind_okP he]
    exact valSlot_reads ho' (holdsSlot_val ho hwf h)
  | .group name code disc nullable gunion children, a, hwf, h, he => by
    unfold FieldWF at hwf
    obtain ⟨hw1, hw2, hw3⟩ := hwf
    unfold HoldsField at h
    unfold ReadsVal getField
    have he : ensureMember (objAt C none 0 ds ps) union disc = .ok () := he
    rw [ensureMember_same ho ho'] at he
    rw [bind_okP he, bind_okP (group_denotes ho')]
    by_cases hn : nullable = true
    · simp only [if_pos hn] at h ⊢
      obtain ⟨hu, hne, c, o, ty, d, c2, rfl, hty, hv, hd2, hs2⟩ := hw3 hn
      have hr := reads_fields_copy ho ho' gunion _ _ hw1 hw2 h
      have hs1 := isNullType_not_skipped (c := c) (o := o) (d := d) (n := "is_null") hty
      have hg1 : getAttr o' gunion "is_null" [.slot "is_null" c none ty o d, c2] =
          some (getField o' gunion (.slot "is_null" c none ty o d)) := by
        simp only [getAttr, hv]
        rfl
      have hg2 : getAttr o' gunion "value" [.slot "is_null" c none ty o d, c2] =
          some (getField o' gunion c2) := by
        simp only [getAttr, hv]
        rfl
      have pair : ∀ x y, nullablePair [.slot "is_null" c none ty o d, c2] a = [x, y] →
          ReadsVal o' (.slot "is_null" c none ty o d) x (getField o' gunion (.slot "is_null" c none ty o d)) ∧
            ReadsVal o' c2 y (getField o' gunion c2) := by
        intro x y e
        rw [e] at hr
        unfold ReadsFields at hr
        rw [if_neg (by rw [hs1]; simp)] at hr
        simp only at hr
        obtain ⟨hr1, hr2⟩ := hr
        unfold ReadsFields at hr2
        rw [if_neg (by rw [hs2]; simp)] at hr2
        simp only at hr2
        exact ⟨hr1 rfl, hr2.1 (by unfold absent; rw [hd2]; rfl)⟩
      rw [hg1, hg2]
      simp only
      by_cases ha : a.isNone = true
      · rw [if_pos ha]
        obtain ⟨p1, -⟩ := pair _ _ (by unfold nullablePair; rw [if_pos ha])
        unfold ReadsVal at p1
        obtain ⟨v, e, ht⟩ := isNull_reads hty (.inr rfl) p1
        rw [bind_okP e, if_pos (by rw [ht]; decide)]
        rfl
      · rw [if_neg ha]
        obtain ⟨p1, p2⟩ := pair _ _ (by unfold nullablePair; rw [if_neg ha])
        unfold ReadsVal at p1
        obtain ⟨v, e, ht⟩ := isNull_reads hty (.inl rfl) p1
        rw [bind_okP e, if_neg (by rw [ht]; decide)]
        unfold ReadsLast
        simp only
        unfold ReadsLast
        exact p2
    · simp only [if_neg hn] at h ⊢
      obtain ⟨as, rfl, h⟩ := h
      exact ⟨rfl, as, rfl, reads_fields_copy ho ho' gunion _ _ hw1 hw2 h⟩

theorem reads_fields_copy {C : Bytes} {ds ps : Nat} {data : Bytes} {ptrs : List Val}
    (ho : Denotes (objAt C none 0 ds ps) (.struct data ptrs)) {o' : StructObj} (ho' : Denotes o' (.struct data ptrs))
    (union : Option Nat) :
    ∀ (fs : List Field) (as : List Arg), TagWF ds union → FieldsWF ds ps union fs → HoldsFields ds C union fs as →
      ReadsFields o' union fs as
  | [], _, _, _, _ => by unfold ReadsFields; trivial
  | f :: fs, as, ht, hwf, h => by
    unfold FieldsWF at hwf
    obtain ⟨w1, w2, w3, w4, w5⟩ := hwf
    unfold HoldsFields at h
    unfold ReadsFields
    by_cases hs : f.skipped = true
    · rw [if_pos hs] at h ⊢
      refine ⟨?_, reads_fields_copy ho ho' union fs as ht w5 h⟩
      unfold Field.skipped at hs
      split at hs
      · unfold getField; rfl
      · cases hs
    · rw [if_neg hs] at h ⊢
      cases as with
      | nil => exact h.elim
      | cons a as =>
        refine ⟨fun hab => ?_, reads_fields_copy ho ho' union fs as ht w5 h.2⟩
        obtain ⟨h1, h2⟩ := h.1 hab
        refine reads_field_copy ho ho' union f a w1 h1 ?_
        cases hd : f.disc with
        | none => rfl
        | some tag =>
          obtain ⟨u, hu⟩ := Option.isSome_iff_exists.mp (w2 tag hd).1
          exact ensureMember_ok hu ht (h2 tag u hd hu)

end

/-! ## Attribute paths -/

theorem ensureMember_guard {o : StructObj} {v : Val} (ho : Denotes o v) {union disc : Option Nat}
    (hu : disc.isSome → union.isSome) :
    ((∀ g ∈ guardOf union disc, Holds o g) → ensureMember o union disc = .ok ()) ∧
    ((∃ g ∈ guardOf union disc, ¬ Holds o g) → ensureMember o union disc = .error .valueError) := by
  obtain ⟨_, _, _, _, _, data, ptrs, _, _, _, _, _, _, rfl⟩ := id ho
  cases disc with
  | none => exact ⟨fun _ => rfl, fun ⟨g, hg, _⟩ => by unfold guardOf at hg; cases union <;> cases hg⟩
  | some d =>
    obtain ⟨u, rfl⟩ := Option.isSome_iff_exists.mp (hu rfl)
    have e1 : o.whichRaw (some ((u * 2 : Nat) : Int)) = .ok _ :=
      readPrimitive_zext ho (k := u * 2) (fmt := .h) (Nat.dvd_mul_left _ _)
    refine ⟨fun h => ?_, fun ⟨g, hg, h⟩ => ?_⟩
    · have h := h (u, d) (by simp [guardOf])
      unfold Holds at h
      unfold ensureMember StructObj.ensureUnion
      simp only [Option.map_some]
      rw [bind_okP h, if_neg (by simp)]
      rfl
    · obtain rfl : g = (u, d) := by simpa [guardOf] using hg
      unfold Holds at h
      unfold ensureMember StructObj.ensureUnion
      simp only [Option.map_some]
      rw [bind_okP e1, if_pos ?_]
      · rfl
      · intro hc
        apply h
        rw [e1]
        exact congrArg Except.ok hc

theorem getPath_leads {o : StructObj} {v : Val} (ho : Denotes o v) {union : Option Nat} {fields : List Field}
    {path : List String} {G : List Guard} {s : SlotOf} (h : Leads union fields path G s) :
    ((∀ g ∈ G, Holds o g) → getPath o union fields path = getSlot o s.ty s.off s.dflt) ∧
    ((∃ g ∈ G, ¬ Holds o g) → getPath o union fields path = .error .valueError) := by
  induction h with
  | @slot union fields x code disc ty off dflt hf hu =>
    obtain ⟨g1, g2⟩ := ensureMember_guard ho hu
    unfold getPath
    rw [hf]
    simp only
    unfold getField
    refine ⟨fun h => ?_, fun h => ?_⟩
    · rw [g1 h, bind_okP (show (Except.ok () : Py Unit) = .ok () from rfl)]
      cases getSlot o ty off dflt <;> rfl
    · rw [g2 h]; rfl
  | @group union fields x y xs code disc gunion children G s hf hu hl ih =>
    obtain ⟨g1, g2⟩ := ensureMember_guard ho hu
    unfold getPath
    rw [hf]
    simp only
    unfold getField
    have hgr := group_denotes ho
    refine ⟨fun h => ?_, fun ⟨g, hg, hn⟩ => ?_⟩
    · rw [g1 (fun g hg => h g (List.mem_append_left _ hg)), bind_okP (show (Except.ok () : Py Unit) = .ok () from rfl),
        hgr, bind_okP (show (Except.ok o : Py StructObj) = .ok o from rfl)]
      exact ih.1 (fun g hg => h g (List.mem_append_right _ hg))
    · by_cases hd : ∃ g ∈ guardOf union disc, ¬ Holds o g
      · rw [g2 hd]; rfl
      · have hall : ∀ g ∈ guardOf union disc, Holds o g := by
          intro g hg
          by_contra hc
          exact hd ⟨g, hg, hc⟩
        rw [g1 hall, bind_okP (show (Except.ok () : Py Unit) = .ok () from rfl),
          hgr, bind_okP (show (Except.ok o : Py StructObj) = .ok o from rfl)]
        refine ih.2 ⟨g, ?_, hn⟩
        rcases List.mem_append.mp hg with h | h
        · exact absurd (hall g h) hn
        · exact h

theorem holds_unset {o : StructObj} {data : Bytes} {ptrs : List Val} (ho : Denotes o (.struct data ptrs)) {g : Guard}
    (h0 : g.2 = 0) (h : ∀ c, tagCells g.1 c → Unset data ptrs c) : Holds o g := by
  have hz := bytesZ_unset (k := g.1 * 2) (n := 2) (fun i h1 h2 => h (.bit i) ⟨i, rfl, by omega, by omega⟩)
  have e1 := readPrimitive_zext ho (k := g.1 * 2) (fmt := .h) (Nat.dvd_mul_left _ _)
  rw [show Fmt.size .h = 2 from rfl, hz, show valueOf .h (List.replicate 2 0) = 0 from valueOf_zeros .h] at e1
  unfold Holds
  rw [h0]
  exact e1

end Capnpy
