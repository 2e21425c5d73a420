import Mathlib.Data.Int.Bitwise
import Mathlib.Tactic.Linarith
import Mathlib.Tactic.Ring

/-!
# The Python primitives used by capnpy

Exceptions are values, Python integers are `Int`, `bytes`/`bytearray` are lists
of `UInt8`.  The bit operators are Mathlib's two's-complement `Int.land`,
`Int.lor`, `Int.xor`, which is what CPython's `&`, `|`, `^` compute.
-/

namespace Capnpy

/-- The Python exception classes the modelled code can raise. -/
inductive PyErr
  | indexError | valueError | eofError | assertionError | typeError | structError
  | recursionError | notImplemented | attributeError | keyError | unicodeError
  | ioError | nameError | overflowError | syntaxError | systemError | importError
  deriving DecidableEq, Repr

/-- A computation that returns a value or raises. -/
abbrev Py := Except PyErr

/-- Python `bytes` / `bytearray`. -/
abbrev Bytes := List UInt8

/-- Python `x << n` on ints (`n ≥ 0`). -/
def shl (x : Int) (n : Nat) : Int := x * 2 ^ n

/-- Python `x >> n` on ints (floor). -/
def shr (x : Int) (n : Nat) : Int := x / 2 ^ n

/-- `pypytools.cast.as_signed(x, bits)` for `0 ≤ x < 2**bits` (used by
capnpy/ptr.py:51; the dependency itself is not in /repo). -/
def asSigned (x : Int) (bits : Nat) : Int :=
  if x ≥ 2 ^ (bits - 1) then x - 2 ^ bits else x

/-- Clamping of a slice bound in CPython (`PySlice_AdjustIndices`, step 1). -/
def pyClamp (len : Nat) (i : Int) : Nat :=
  if i < 0 then (i + len).toNat else min i.toNat len

/-- Python `b[i:j]`. -/
def pySlice {α} (b : List α) (i j : Int) : List α :=
  (b.drop (pyClamp b.length i)).take (pyClamp b.length j - pyClamp b.length i)

/-- Python `b[i:]`. -/
def pySliceFrom {α} (b : List α) (i : Int) : List α := b.drop (pyClamp b.length i)

/-- Python slice assignment `b[i:j] = src` on a bytearray (the length may
change). -/
def pySliceAssign {α} (b : List α) (i j : Int) (src : List α) : List α :=
  let lo := pyClamp b.length i
  let hi := max lo (pyClamp b.length j)
  b.take lo ++ src ++ b.drop hi

/-! ## Bit lemmas -/

theorem Int.testBit_ofNat (n k : Nat) : Int.testBit (n : Int) k = n.testBit k := rfl

theorem Int.eq_of_testBit {a b : Int} (h : ∀ k, Int.testBit a k = Int.testBit b k) : a = b := by
  have key : ∀ m n : Nat, ∃ k, m.testBit k = n.testBit k := by
    intro m n
    refine ⟨max m n, ?_⟩
    rw [Nat.testBit_lt_two_pow, Nat.testBit_lt_two_pow]
    · exact lt_of_le_of_lt (le_max_right _ _) Nat.lt_two_pow_self
    · exact lt_of_le_of_lt (le_max_left _ _) Nat.lt_two_pow_self
  cases a with
  | ofNat m =>
    cases b with
    | ofNat n => congr 1; exact Nat.eq_of_testBit_eq h
    | negSucc n =>
      exfalso; obtain ⟨k, hk⟩ := key m n
      have := h k; simp [Int.testBit, hk] at this
  | negSucc m =>
    cases b with
    | ofNat n =>
      exfalso; obtain ⟨k, hk⟩ := key m n
      have := h k; simp [Int.testBit, hk] at this
    | negSucc n =>
      congr 1; apply Nat.eq_of_testBit_eq
      intro k; have := h k; simpa [Int.testBit] using this

theorem testBit_mod (x : Int) (k i : Nat) :
    Int.testBit (x % 2 ^ k) i = (decide (i < k) && Int.testBit x i) := by
  cases x with
  | ofNat m =>
    have : (Int.ofNat m % 2 ^ k) = ((m % 2 ^ k : Nat) : Int) := by simp
    rw [this]; simp [Int.testBit, Nat.testBit_mod_two_pow]
  | negSucc m =>
    have h2 : (0:Nat) < 2 ^ k := Nat.two_pow_pos k
    have hlt : m % 2 ^ k < 2 ^ k := Nat.mod_lt _ h2
    have : (Int.negSucc m % 2 ^ k) = ((2 ^ k - (m % 2 ^ k + 1) : Nat) : Int) := by
      have e : Int.negSucc m = (2 ^ k : Int) * (-(m / 2 ^ k : Nat) - 1)
          + ((2 ^ k - (m % 2 ^ k + 1) : Nat) : Int) := by
        rw [Nat.cast_sub (by omega)]
        have := Nat.div_add_mod m (2 ^ k)
        have h3 : ((2 ^ k : Nat) : Int) * ((m / 2 ^ k : Nat) : Int) + ((m % 2 ^ k : Nat) : Int) = m := by
          exact_mod_cast this
        rw [Int.negSucc_eq]
        push_cast at h3 ⊢
        ring_nf at h3 ⊢
        linarith
      rw [e, Int.add_comm, Int.add_mul_emod_self_left]
      apply Int.emod_eq_of_lt
      · exact_mod_cast Nat.zero_le _
      · have : 2 ^ k - (m % 2 ^ k + 1) < 2 ^ k := by omega
        exact_mod_cast this
    rw [this]
    change Nat.testBit _ i = _
    rw [Nat.testBit_two_pow_sub_succ hlt]
    simp only [Nat.testBit_mod_two_pow, Int.testBit]
    cases decide (i < k) <;> simp

theorem testBit_mask (k i : Nat) : Int.testBit (2 ^ k - 1) i = decide (i < k) := by
  have : (2 ^ k - 1 : Int) = ((2 ^ k - 1 : Nat) : Int) := by
    rw [Nat.cast_sub Nat.one_le_two_pow]; simp
  rw [this]
  change Nat.testBit _ i = _
  simp [Nat.testBit_two_pow_sub_one]

/-- `x & (2**k - 1)` is `x mod 2**k`, for negative `x` too. -/
theorem land_mask (x : Int) (k : Nat) : Int.land x (2 ^ k - 1) = x % 2 ^ k := by
  apply Int.eq_of_testBit
  intro i
  rw [Int.testBit_land, testBit_mask, testBit_mod, Bool.and_comm]

theorem testBit_mul_two_pow (x : Int) (k i : Nat) :
    Int.testBit (x * 2 ^ k) i = (decide (k ≤ i) && Int.testBit x (i - k)) := by
  by_cases hk : k ≤ i
  · obtain ⟨j, rfl⟩ := Nat.exists_eq_add_of_le hk
    simp
    cases x with
    | ofNat m =>
      have : Int.ofNat m * 2 ^ k = ((2 ^ k * m : Nat) : Int) := by
        push_cast; rw [Int.ofNat_eq_natCast]; ring
      rw [this]
      change Nat.testBit _ _ = Nat.testBit _ _
      simp [Nat.testBit_two_pow_mul]
    | negSucc m =>
      have : Int.negSucc m * 2 ^ k = Int.negSucc (2 ^ k * m + (2 ^ k - 1)) := by
        rw [Int.negSucc_eq, Int.negSucc_eq]; push_cast
        rw [Nat.cast_sub Nat.one_le_two_pow]; push_cast; ring
      rw [this]
      simp only [Int.testBit]
      rw [Nat.testBit_two_pow_mul_add _ (by have := Nat.two_pow_pos k; omega)]
      simp
  · have h2 : ¬ k ≤ i := hk
    simp only [h2, decide_false, Bool.false_and]
    have hik : i < k := by omega
    have := testBit_mod (x * 2 ^ k) k i
    rw [Int.mul_emod_left] at this
    simp [hik] at this
    rw [← this]; simp [Int.testBit]

theorem testBit_zero_int (i : Nat) : Int.testBit 0 i = false := by
  change Nat.testBit 0 i = false; simp

/-- `(x << k) & ((2**m - 1) << k)` keeps the low `m` bits of `x`. -/
theorem land_shift_mask (x : Int) (k m : Nat) :
    Int.land (x * 2 ^ k) ((2 ^ m - 1) * 2 ^ k) = (x % 2 ^ m) * 2 ^ k := by
  apply Int.eq_of_testBit
  intro i
  rw [Int.testBit_land, testBit_mul_two_pow, testBit_mul_two_pow, testBit_mul_two_pow,
    testBit_mask, testBit_mod]
  cases decide (k ≤ i) <;> cases decide (i - k < m) <;> simp

/-- `|` of a multiple of `2**k` and a value below `2**k` is their sum. -/
theorem lor_disjoint (a b : Int) (k : Nat) (h0 : 0 ≤ b) (h1 : b < 2 ^ k) :
    Int.lor (a * 2 ^ k) b = a * 2 ^ k + b := by
  have hb : b = (a * 2 ^ k + b) % 2 ^ k := by
    rw [Int.add_comm, Int.add_mul_emod_self_right, Int.emod_eq_of_lt h0 h1]
  have ha : a = (a * 2 ^ k + b) / 2 ^ k := by
    rw [Int.add_comm, Int.add_mul_ediv_right _ _ (by positivity), Int.ediv_eq_zero_of_lt h0 h1]; simp
  generalize hx : a * 2 ^ k + b = x at ha hb
  subst ha
  rw [hb]
  clear hb hx h0 h1
  have hx2 : x = (x / 2 ^ k) * 2 ^ k + x % 2 ^ k := by
    rw [Int.mul_comm]; exact (Int.mul_ediv_add_emod x (2 ^ k)).symm
  apply Int.eq_of_testBit
  intro i
  rw [Int.testBit_lor, testBit_mul_two_pow, testBit_mod]
  have hdiv : ∀ j, Int.testBit (x / 2 ^ k) j = Int.testBit x (j + k) := by
    intro j
    cases x with
    | ofNat m =>
      have : (Int.ofNat m / 2 ^ k) = ((m / 2 ^ k : Nat) : Int) := by simp
      rw [this]
      change Nat.testBit _ _ = Nat.testBit _ _
      simp [Nat.testBit_div_two_pow]
    | negSucc m =>
      have : (Int.negSucc m / 2 ^ k) = Int.negSucc (m / 2 ^ k) := by
        have h2 : (0:Int) < 2 ^ k := by positivity
        rw [Int.negSucc_ediv _ h2]
        simp only [Int.negSucc_eq]
        push_cast
        rfl
      rw [this]
      simp [Int.testBit, Nat.testBit_div_two_pow]
  by_cases hki : k ≤ i
  · simp [hki, hdiv, Nat.sub_add_cancel hki, Nat.not_lt.mpr hki]
  · simp [hki, Nat.lt_of_not_le hki]

end Capnpy
