import Verif.Model.PtrC
import Verif.Proof.Ptr

/-! # Two's complement words and Python integers -/

namespace Capnpy.PtrC

/-- `x` is the low 64 bits of the Python int `a`. -/
def W (x : Long) (a : Int) : Prop := a % 2 ^ 64 = (x.toNat : Int)

theorem W.self (x : Long) : W x x.toInt := by
  unfold W
  rw [BitVec.toInt_eq_toNat_cond]
  have := x.isLt
  split <;> omega

theorem W.bit {x : Long} {a : Int} (h : W x a) (i : Nat) : x.getLsbD i = (decide (i < 64) && Int.testBit a i) := by
  have := testBit_mod a 64 i
  rw [h] at this
  rw [← this]
  rfl

theorem W.of_bit {x : Long} {a : Int} (h : ∀ i, i < 64 → x.getLsbD i = Int.testBit a i) : W x a := by
  unfold W
  apply Int.eq_of_testBit
  intro i
  rw [testBit_mod]
  change _ = x.toNat.testBit i
  by_cases hi : i < 64
  · simp only [hi, decide_true, Bool.true_and]
    exact (h i hi).symm
  · simp only [hi, decide_false, Bool.false_and]
    rw [Nat.testBit_lt_two_pow]
    exact lt_of_lt_of_le x.isLt (Nat.pow_le_pow_right (by norm_num) (by omega))

theorem W.lit (n : Nat) : W (BitVec.ofNat 64 n) (n : Int) := by
  unfold W
  rw [BitVec.toNat_ofNat]
  push_cast
  rfl

theorem W.and {x y : Long} {a b : Int} (hx : W x a) (hy : W y b) : W (x &&& y) (Int.land a b) := by
  apply W.of_bit
  intro i hi
  rw [BitVec.getLsbD_and, hx.bit, hy.bit, Int.testBit_land]
  simp [hi]

theorem W.or {x y : Long} {a b : Int} (hx : W x a) (hy : W y b) : W (x ||| y) (Int.lor a b) := by
  apply W.of_bit
  intro i hi
  rw [BitVec.getLsbD_or, hx.bit, hy.bit, Int.testBit_lor]
  simp [hi]

theorem W.shl {x : Long} {a : Int} (hx : W x a) (n : Nat) : W (x <<< n) (shl a n) := by
  apply W.of_bit
  intro i hi
  unfold Capnpy.shl
  rw [BitVec.getLsbD_shiftLeft, testBit_mul_two_pow, hx.bit]
  have h2 : i - n < 64 := by omega
  by_cases hn : i < n
  · have : ¬ n ≤ i := by omega
    simp [hi, hn, this]
  · have : n ≤ i := by omega
    simp [hi, hn, h2, this]

theorem W.add {x y : Long} {a b : Int} (hx : W x a) (hy : W y b) : W (x + y) (a + b) := by
  unfold W at *
  rw [Int.add_emod, hx, hy, BitVec.toNat_add]
  push_cast
  rfl

theorem W.mul {x y : Long} {a b : Int} (hx : W x a) (hy : W y b) : W (x * y) (a * b) := by
  unfold W at *
  rw [Int.mul_emod, hx, hy, BitVec.toNat_mul]
  push_cast
  rfl

theorem W.toInt {x : Long} {a : Int} (h : W x a) (h1 : -9223372036854775808 ≤ a) (h2 : a < 9223372036854775808) : x.toInt = a := by
  unfold W at h
  rw [BitVec.toInt_eq_toNat_cond]
  have := x.isLt
  split <;> omega

theorem W.eq {x : Long} {a : Int} (h : W x a) : x = BitVec.ofInt 64 a := by
  apply BitVec.eq_of_toNat_eq
  rw [BitVec.toNat_ofInt]
  unfold W at h
  have e : ((2 ^ 64 : Nat) : Int) = 2 ^ 64 := by norm_num
  rw [e, h]; simp

/-- `>>` is the Python one. -/
theorem sar_toInt (x : Long) (n : Nat) : (sar x n).toInt = shr x.toInt n := by
  unfold sar shr
  rw [BitVec.toInt_sshiftRight, Int.shiftRight_eq_div_pow]
  push_cast
  rfl

theorem W.sar (x : Long) (n : Nat) : W (sar x n) (shr x.toInt n) := by
  rw [← sar_toInt]; exact W.self _

end Capnpy.PtrC
