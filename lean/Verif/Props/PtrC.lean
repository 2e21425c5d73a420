import Verif.Proof.PtrC

/-!
# C46: the C macros of ptr.h compute what ptr.py computes

`x.toInt` is the Python int which Cython makes of the C `long` `x`, and
`BitVec.ofInt 64 a` is the word with the low 64 bits of the Python int `a`.
-/

namespace Capnpy.Props

open PtrC

/-- C46: every function which takes a pointer apart gives the same result on every
64-bit word. -/
theorem C46_fields (p : Long) :
    (PtrC.kind p).toInt = Ptr.kind p.toInt ∧
    (PtrC.offset p).toInt = Ptr.offset p.toInt ∧
    (PtrC.extra p).toInt = Ptr.extra p.toInt ∧
    (PtrC.structDataSize p).toInt = Ptr.structDataSize p.toInt ∧
    (PtrC.structPtrsSize p).toInt = Ptr.structPtrsSize p.toInt ∧
    (PtrC.listSizeTag p).toInt = Ptr.listSizeTag p.toInt ∧
    (PtrC.listItemCount p).toInt = Ptr.listItemCount p.toInt ∧
    (PtrC.farLandingPad p).toInt = Ptr.farLandingPad p.toInt ∧
    (PtrC.farOffset p).toInt = Ptr.farOffset p.toInt ∧
    (PtrC.farTarget p).toInt = Ptr.farTarget p.toInt := by
  refine ⟨?_, ?_, ?_, ?_, ?_, ?_, ?_, ?_, ?_, ?_⟩
  · have e := Ptr.kind_eq p.toInt
    exact W.toInt (a := Ptr.kind p.toInt) ((W.self p).and (W.lit 3)) (by omega) (by omega)
  · have h := ((W.sar p 2).and (W.lit 0x3fffffff)).shl 34
    have e := Ptr.offset_eq p.toInt
    unfold Ptr.offset at e
    have hm : Int.land (shr p.toInt 2) ((0x3fffffff : Nat) : Int) = p.toInt / 4 % 2 ^ 30 := by
      have := land_mask (shr p.toInt 2) 30
      unfold shr at this ⊢
      norm_num at this ⊢
      exact this
    have h1 : 0 ≤ p.toInt / 4 % 2 ^ 30 := by omega
    have h2 : p.toInt / 4 % 2 ^ 30 < 2 ^ 30 := by omega
    rw [Ptr.offset_eq]
    unfold PtrC.offset castAsSigned
    rw [sar_toInt]
    rw [hm] at h
    generalize p.toInt / 4 % 2 ^ 30 = m at h h1 h2
    unfold shl at h
    unfold W at h
    have hx : ((PtrC.sar p 2 &&& 0x3fffffff) <<< 34).toInt = if m ≥ 2 ^ 29 then (m - 2 ^ 30) * 2 ^ 34 else m * 2 ^ 34 := by
      split
      · refine W.toInt (a := (m - 2 ^ 30) * 2 ^ 34) ?_ (by omega) (by omega)
        unfold W
        refine Eq.trans ?_ h
        omega
      · exact W.toInt (a := m * 2 ^ 34) h (by omega) (by omega)
    change shr ((PtrC.sar p 2 &&& 0x3fffffff) <<< 34).toInt 34 = _
    rw [hx]
    unfold shr asSigned
    split
    · omega
    · omega
  · exact sar_toInt p 32
  · have e := Ptr.structDataSize_eq p.toInt
    exact W.toInt (a := Ptr.structDataSize p.toInt) ((W.sar p 32).and (W.lit 0xffff)) (by omega) (by omega)
  · have e := Ptr.structPtrsSize_eq p.toInt
    exact W.toInt (a := Ptr.structPtrsSize p.toInt) ((W.sar p 48).and (W.lit 0xffff)) (by omega) (by omega)
  · have e := Ptr.listSizeTag_eq p.toInt
    exact W.toInt (a := Ptr.listSizeTag p.toInt) ((W.sar p 32).and (W.lit 7)) (by omega) (by omega)
  · have e := Ptr.listItemCount_eq p.toInt
    exact W.toInt (a := Ptr.listItemCount p.toInt) ((W.sar p 35).and (W.lit 0x1fffffff)) (by omega) (by omega)
  · have e := Ptr.farLandingPad_eq p.toInt
    exact W.toInt (a := Ptr.farLandingPad p.toInt) ((W.sar p 2).and (W.lit 1)) (by omega) (by omega)
  · have e := Ptr.farOffset_eq p.toInt
    exact W.toInt (a := Ptr.farOffset p.toInt) ((W.sar p 3).and (W.lit 0x1fffffff)) (by omega) (by omega)
  · have e := Ptr.farTarget_eq p.toInt
    exact W.toInt (a := Ptr.farTarget p.toInt) ((W.sar p 32).and (W.lit 0xffffffff)) (by omega) (by omega)

/-- C46: every function which makes a pointer gives the low 64 bits of what ptr.py
gives, for all arguments. -/
theorem C46_constructors (a b c : Long) :
    PtrC.newGeneric a b c = BitVec.ofInt 64 (Ptr.newGeneric a.toInt b.toInt c.toInt) ∧
    PtrC.newStruct a b c = BitVec.ofInt 64 (Ptr.newStruct a.toInt b.toInt c.toInt) ∧
    PtrC.newList a b c = BitVec.ofInt 64 (Ptr.newList a.toInt b.toInt c.toInt) ∧
    PtrC.newFar a b c = BitVec.ofInt 64 (Ptr.newFar a.toInt b.toInt c.toInt) := by
  have ha := W.self a
  have hb := W.self b
  have hc := W.self c
  refine ⟨W.eq ?_, W.eq ?_, W.eq ?_, W.eq ?_⟩
  · unfold Ptr.newGeneric
    simp only [Ptr.lor_zero_left]
    exact ((hc.shl 32).or (hb.shl 2)).or ha
  · unfold Ptr.newStruct Ptr.STRUCT
    simp only [Ptr.lor_zero_left]
    exact (((hc.shl 48).or ((hb.shl 32).and (W.lit 0xffff00000000))).or ((ha.shl 2).and (W.lit 0xfffffffc))).or (W.lit 0)
  · unfold Ptr.newList Ptr.LIST
    simp only [Ptr.lor_zero_left]
    exact (((hc.shl 35).or ((hb.shl 32).and (W.lit 0x700000000))).or ((ha.shl 2).and (W.lit 0xfffffffc))).or (W.lit 1)
  · unfold Ptr.newFar Ptr.FAR
    simp only [Ptr.lor_zero_left]
    exact (((hc.shl 32).or ((hb.shl 3).and (W.lit 0xfffffff8))).or ((ha.shl 2).and (W.lit 4))).or (W.lit 2)

/-- So the pointer is the same int whenever the one of ptr.py fits a C `long`. -/
theorem C46_constructors_exact (a b c : Long) (hr : ∀ x ∈ [Ptr.newGeneric a.toInt b.toInt c.toInt, Ptr.newStruct a.toInt b.toInt c.toInt,
      Ptr.newList a.toInt b.toInt c.toInt, Ptr.newFar a.toInt b.toInt c.toInt], -2 ^ 63 ≤ x ∧ x < 2 ^ 63) :
    (PtrC.newGeneric a b c).toInt = Ptr.newGeneric a.toInt b.toInt c.toInt ∧
    (PtrC.newStruct a b c).toInt = Ptr.newStruct a.toInt b.toInt c.toInt ∧
    (PtrC.newList a b c).toInt = Ptr.newList a.toInt b.toInt c.toInt ∧
    (PtrC.newFar a b c).toInt = Ptr.newFar a.toInt b.toInt c.toInt := by
  have key : ∀ (x : Long) (i : Int), -2 ^ 63 ≤ i ∧ i < 2 ^ 63 → x = BitVec.ofInt 64 i → x.toInt = i := by
    intro x i hi hx
    subst hx
    exact BitVec.toInt_ofInt_eq_self (by norm_num) (by simpa using hi.1) (by simpa using hi.2)
  obtain ⟨h1, h2, h3, h4⟩ := C46_constructors a b c
  exact ⟨key _ _ (hr _ (by simp)) h1, key _ _ (hr _ (by simp)) h2, key _ _ (hr _ (by simp)) h3, key _ _ (hr _ (by simp)) h4⟩

/-- C46: `deref` and `round_up_to_word` agree modulo `2^64`, and exactly for positions
which are not within 8 GiB of the ends of the range of a C `long`. -/
theorem C46_positions (p o : Long) :
    PtrC.deref p o = BitVec.ofInt 64 (Ptr.deref p.toInt o.toInt) ∧
    PtrC.roundUpToWord o = BitVec.ofInt 64 (Ptr.roundUpToWord o.toInt) ∧
    (-2 ^ 62 ≤ o.toInt → o.toInt < 2 ^ 62 →
      (PtrC.deref p o).toInt = Ptr.deref p.toInt o.toInt ∧ (PtrC.roundUpToWord o).toInt = Ptr.roundUpToWord o.toInt) := by
  have ho := W.self o
  have e := (C46_fields p).2.1
  have h1 : W (PtrC.deref p o) (Ptr.deref p.toInt o.toInt) := by
    unfold PtrC.deref Ptr.deref
    rw [← e]
    exact ho.add (((W.self _).add (W.lit 1)).mul (W.lit 8))
  have h8 : W (-8 : Long) (-8) := by unfold W; decide
  have h2 : W (PtrC.roundUpToWord o) (Ptr.roundUpToWord o.toInt) := by
    unfold PtrC.roundUpToWord Ptr.roundUpToWord
    exact (ho.add (W.lit 7)).and h8
  refine ⟨h1.eq, h2.eq, fun hl hu => ⟨h1.toInt ?_ ?_, h2.toInt ?_ ?_⟩⟩
  · unfold Ptr.deref; rw [Ptr.offset_eq]; unfold asSigned; split <;> omega
  · unfold Ptr.deref; rw [Ptr.offset_eq]; unfold asSigned; split <;> omega
  · rw [Ptr.roundUpToWord_eq]; omega
  · rw [Ptr.roundUpToWord_eq]; omega

/-- C46: the length of a list item, for every size tag. -/
theorem C46_item_length (tag : Long) (h0 : 0 ≤ tag.toInt) (h7 : tag.toInt ≤ 7) :
    (PtrC.listItemLength tag).toInt = Ptr.listItemLength tag.toInt := by
  have e : tag = BitVec.ofInt 64 tag.toInt := (W.self tag).eq
  have : tag.toInt = 0 ∨ tag.toInt = 1 ∨ tag.toInt = 2 ∨ tag.toInt = 3 ∨ tag.toInt = 4 ∨ tag.toInt = 5 ∨
      tag.toInt = 6 ∨ tag.toInt = 7 := by omega
  rcases this with h | h | h | h | h | h | h | h <;> (rw [h] at e ⊢; subst e; decide)

/-- Sizes which fit the fields. -/
example : ∃ (o d p : Long), o.toInt = -1 ∧ d.toInt = 65535 ∧ p.toInt = 32767 ∧
    (PtrC.newStruct o d p).toInt = Ptr.newStruct (-1) 65535 32767 ∧
    (PtrC.offset (PtrC.newStruct o d p)).toInt = -1 := by
  refine ⟨-1, 65535, 32767, by decide, by decide, by decide, by decide +kernel, by decide +kernel⟩

/-- Beyond the range of a C `long` they differ: a struct with `2^15` pointers is a positive
Python int but a negative `long`. -/
theorem C46_sign_differs :
    Ptr.newStruct 0 0 32768 = 2 ^ 63 ∧ (PtrC.newStruct 0 0 32768).toInt = -2 ^ 63 := by
  constructor <;> decide +kernel

end Capnpy.Props
