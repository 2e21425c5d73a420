import Verif.Model.Ptr
import Verif.Spec.Word

/-! # Arithmetic reading of the pointer helpers -/

namespace Capnpy.Ptr

theorem kind_eq (p : Int) : kind p = p % 4 := land_mask p 2
theorem offset_eq (p : Int) : offset p = asSigned (p / 4 % 2 ^ 30) 30 := by
  unfold offset shr; rw [show (0x3fffffff : Int) = 2 ^ 30 - 1 by norm_num, land_mask]; norm_num
theorem structDataSize_eq (p : Int) : structDataSize p = p / 2 ^ 32 % 2 ^ 16 := by
  unfold structDataSize shr; rw [show (0xffff : Int) = 2 ^ 16 - 1 by norm_num, land_mask]
theorem structPtrsSize_eq (p : Int) : structPtrsSize p = p / 2 ^ 48 % 2 ^ 16 := by
  unfold structPtrsSize shr; rw [show (0xffff : Int) = 2 ^ 16 - 1 by norm_num, land_mask]
theorem listSizeTag_eq (p : Int) : listSizeTag p = p / 2 ^ 32 % 8 := by
  unfold listSizeTag shr; rw [show (0x7 : Int) = 2 ^ 3 - 1 by norm_num, land_mask]; norm_num
theorem listItemCount_eq (p : Int) : listItemCount p = p / 2 ^ 35 % 2 ^ 29 := by
  unfold listItemCount shr; rw [show (0x1fffffff : Int) = 2 ^ 29 - 1 by norm_num, land_mask]
theorem farLandingPad_eq (p : Int) : farLandingPad p = p / 4 % 2 := by
  unfold farLandingPad shr; rw [show (1 : Int) = 2 ^ 1 - 1 by norm_num, land_mask]; norm_num
theorem farOffset_eq (p : Int) : farOffset p = p / 8 % 2 ^ 29 := by
  unfold farOffset shr; rw [show (0x1fffffff : Int) = 2 ^ 29 - 1 by norm_num, land_mask]; norm_num
theorem farTarget_eq (p : Int) : farTarget p = p / 2 ^ 32 % 2 ^ 32 := by
  unfold farTarget shr; rw [show (0xffffffff : Int) = 2 ^ 32 - 1 by norm_num, land_mask]

theorem land_neg8 (x : Int) : Int.land x (-8) = x - x % 8 := by
  have h : x - x % 8 = (x / 2 ^ 3) * 2 ^ 3 := by omega
  rw [h]
  apply Int.eq_of_testBit
  intro i
  rw [Int.testBit_land, testBit_mul_two_pow]
  have h8 : (-8 : Int) = (-1) * 2 ^ 3 := by norm_num
  rw [h8, testBit_mul_two_pow]
  have hm1 : Int.testBit (-1) (i - 3) = true := by
    change (!(Nat.testBit 0 (i-3))) = true; simp
  rw [hm1]
  by_cases hi : 3 ≤ i
  · have := testBit_mul_two_pow (x / 2 ^ 3) 3 i
    have hx : Int.testBit (x / 2 ^ 3 * 2 ^ 3) i = Int.testBit x i := by
      have hx2 : x = Int.lor (x / 2 ^ 3 * 2 ^ 3) (x % 2 ^ 3) := by
        rw [lor_disjoint] <;> omega
      conv_rhs => rw [hx2]
      rw [Int.testBit_lor, testBit_mod]
      simp [Nat.not_lt.mpr hi]
    rw [this] at hx
    simp [hi] at hx ⊢
    exact hx.symm
  · simp [hi]

theorem roundUpToWord_eq (x : Int) : roundUpToWord x = (x + 7) / 8 * 8 := by
  unfold roundUpToWord; rw [land_neg8]; omega

theorem lor_zero_left (x : Int) : Int.lor 0 x = x := by
  apply Int.eq_of_testBit; intro i; rw [Int.testBit_lor, testBit_zero_int]; simp
theorem lor_zero_right (x : Int) : Int.lor x 0 = x := by
  apply Int.eq_of_testBit; intro i; rw [Int.testBit_lor, testBit_zero_int]; simp

/-- `new_struct` as arithmetic, for every argument. -/
theorem newStruct_eq (off ds ps : Int) :
    newStruct off ds ps = ps * 2 ^ 48 + (ds % 2 ^ 16) * 2 ^ 32 + (off % 2 ^ 30) * 2 ^ 2 := by
  unfold newStruct shl STRUCT
  simp only [lor_zero_left, lor_zero_right]
  rw [show (0xffff00000000 : Int) = (2 ^ 16 - 1) * 2 ^ 32 by norm_num, land_shift_mask]
  rw [show (0xfffffffc : Int) = (2 ^ 30 - 1) * 2 ^ 2 by norm_num, land_shift_mask]
  rw [lor_disjoint ps _ 48 (by omega) (by omega)]
  rw [show ps * 2 ^ 48 + ds % 2 ^ 16 * 2 ^ 32 = (ps * 2 ^ 16 + ds % 2 ^ 16) * 2 ^ 32 by ring]
  rw [lor_disjoint _ _ 32 (by omega) (by omega)]

/-- `new_list` as arithmetic, for every argument. -/
theorem newList_eq (off tag count : Int) :
    newList off tag count = count * 2 ^ 35 + (tag % 8) * 2 ^ 32 + (off % 2 ^ 30) * 2 ^ 2 + 1 := by
  unfold newList shl LIST
  simp only [lor_zero_left]
  rw [show (0x700000000 : Int) = (2 ^ 3 - 1) * 2 ^ 32 by norm_num, land_shift_mask]
  rw [show (0xfffffffc : Int) = (2 ^ 30 - 1) * 2 ^ 2 by norm_num, land_shift_mask]
  rw [lor_disjoint count _ 35 (by omega) (by omega)]
  rw [show count * 2 ^ 35 + tag % 2 ^ 3 * 2 ^ 32 = (count * 8 + tag % 8) * 2 ^ 32 by omega]
  rw [lor_disjoint _ _ 32 (by omega) (by omega)]
  rw [show (count * 8 + tag % 8) * 2 ^ 32 + off % 2 ^ 30 * 2 ^ 2
      = ((count * 8 + tag % 8) * 2 ^ 30 + off % 2 ^ 30) * 2 ^ 2 by ring]
  rw [lor_disjoint _ _ 2 (by omega) (by omega)]
  ring

/-- `new_far` as arithmetic, for every argument. -/
theorem newFar_eq (pad off target : Int) :
    newFar pad off target = target * 2 ^ 32 + (off % 2 ^ 29) * 2 ^ 3 + (pad % 2) * 2 ^ 2 + 2 := by
  unfold newFar shl FAR
  simp only [lor_zero_left]
  rw [show (0xfffffff8 : Int) = (2 ^ 29 - 1) * 2 ^ 3 by norm_num, land_shift_mask]
  rw [show (0x4 : Int) = (2 ^ 1 - 1) * 2 ^ 2 by norm_num, land_shift_mask]
  rw [lor_disjoint target _ 32 (by omega) (by omega)]
  rw [show target * 2 ^ 32 + off % 2 ^ 29 * 2 ^ 3 = (target * 2 ^ 29 + off % 2 ^ 29) * 2 ^ 3 by ring]
  rw [lor_disjoint _ _ 3 (by omega) (by omega)]
  rw [show (target * 2 ^ 29 + off % 2 ^ 29) * 2 ^ 3 + pad % 2 ^ 1 * 2 ^ 2
      = ((target * 2 ^ 29 + off % 2 ^ 29) * 2 + pad % 2) * 2 ^ 2 by omega]
  rw [lor_disjoint _ _ 2 (by omega) (by omega)]
  ring

/-! ## Decoding a word: agreement with the wire specification

`p` is any integer congruent to the word modulo `2^64`; `read_ptr` gives the
signed one, `_as_pointer` an unsigned one. -/

variable {p : Int} {w : Nat}

theorem kind_spec (h : p % 2 ^ 64 = (w : Int)) : kind p = (Spec.kind w : Nat) := by
  rw [kind_eq]; unfold Spec.kind; omega
theorem offset_spec (h : p % 2 ^ 64 = (w : Int)) : offset p = Spec.offset w := by
  rw [offset_eq]; unfold Spec.offset Spec.signed30 asSigned
  have : p / 4 % 2 ^ 30 = ((w / 4 % 2 ^ 30 : Nat) : Int) := by omega
  rw [this]
  split <;> split <;> omega
theorem dataSize_spec (h : p % 2 ^ 64 = (w : Int)) : structDataSize p = (Spec.dataSize w : Nat) := by
  rw [structDataSize_eq]; unfold Spec.dataSize; omega
theorem ptrsSize_spec (h : p % 2 ^ 64 = (w : Int)) : structPtrsSize p = (Spec.ptrsSize w : Nat) := by
  rw [structPtrsSize_eq]; unfold Spec.ptrsSize; omega
theorem listTag_spec (h : p % 2 ^ 64 = (w : Int)) : listSizeTag p = (Spec.listTag w : Nat) := by
  rw [listSizeTag_eq]; unfold Spec.listTag; omega
theorem listCount_spec (h : p % 2 ^ 64 = (w : Int)) : listItemCount p = (Spec.listCount w : Nat) := by
  rw [listItemCount_eq]; unfold Spec.listCount; omega
theorem farPad_spec (h : p % 2 ^ 64 = (w : Int)) : farLandingPad p = (Spec.farPad w : Nat) := by
  rw [farLandingPad_eq]; unfold Spec.farPad; omega
theorem farOffset_spec (h : p % 2 ^ 64 = (w : Int)) : farOffset p = (Spec.farOffset w : Nat) := by
  rw [farOffset_eq]; unfold Spec.farOffset; omega
theorem farTarget_spec (h : p % 2 ^ 64 = (w : Int)) : farTarget p = (Spec.farTarget w : Nat) := by
  rw [farTarget_eq]; unfold Spec.farTarget; omega

end Capnpy.Ptr
