import Verif.Model.Hash
import Verif.Spec.Hash

/-! # Lemmas about the compiled hash functions -/

namespace Capnpy.Hash
open Spec

theorem fold61 (n : Nat) (hn : n < 2^64) :
   (let s := n % 2305843009213693952 + n / 2305843009213693952
    if 2305843009213693951 ≤ s then s - 2305843009213693951 else s) = n % 2305843009213693951 := by
  simp only
  split <;> omega

theorem longhash_core (v : BitVec 64) : (longhash3 v).toNat = v.toNat % 2305843009213693951 := by
  have hv := v.isLt
  have e : ((v &&& HASH_MASK) + v >>> 61).toNat
      = v.toNat % 2305843009213693952 + v.toNat / 2305843009213693952 := by
    rw [BitVec.toNat_add, BitVec.toNat_and, BitVec.toNat_ushiftRight]
    have h1 : HASH_MASK.toNat = 2^61 - 1 := by decide
    rw [h1, Nat.and_two_pow_sub_one_eq_mod, Nat.shiftRight_eq_div_pow]
    norm_num
    omega
  rw [← fold61 v.toNat hv]
  unfold longhash3
  simp only
  have hm : HASH_MASK.toNat = 2305843009213693951 := by decide
  rw [← e]
  by_cases h : 2305843009213693951 ≤ ((v &&& HASH_MASK) + v >>> 61).toNat
  · rw [if_pos h, if_pos (by rw [BitVec.ule_eq_decide, decide_eq_true_iff, hm]; exact h)]
    rw [BitVec.toNat_sub_of_le (by rw [BitVec.le_def, hm]; exact h), hm]
  · rw [if_neg h, if_neg (by rw [BitVec.ule_eq_decide, decide_eq_true_iff, hm]; exact h)]

theorem inthash_nonneg (v : BitVec 64) (hv : v.toNat < 2^63) :
    (let w := (v &&& HASH_MASK) + v.sshiftRight 61
     if HASH_MASK.sle w then w - HASH_MASK else w) = longhash3 v := by
  have hs : v.sshiftRight 61 = v >>> 61 := by
    apply BitVec.sshiftRight_eq_of_msb_false
    rw [BitVec.msb_eq_false_iff_two_mul_lt]; omega
  simp only [longhash3]
  rw [hs]
  have e : ((v &&& HASH_MASK) + v >>> 61).toNat
      = v.toNat % 2305843009213693952 + v.toNat / 2305843009213693952 := by
    rw [BitVec.toNat_add, BitVec.toNat_and, BitVec.toNat_ushiftRight]
    have h1 : HASH_MASK.toNat = 2^61 - 1 := by decide
    rw [h1, Nat.and_two_pow_sub_one_eq_mod, Nat.shiftRight_eq_div_pow]
    norm_num
    omega
  have hm : HASH_MASK.toNat = 2305843009213693951 := by decide
  generalize (v &&& HASH_MASK) + v >>> 61 = w at e
  have hw : w.toNat < 2^63 := by omega
  have : HASH_MASK.sle w = HASH_MASK.ule w := by
    rw [BitVec.sle_eq_decide, BitVec.ule_eq_decide, BitVec.toInt_eq_toNat_of_lt (by omega), BitVec.toInt_eq_toNat_of_lt (by omega)]
    simp
  rw [this]

theorem inthash_abs (v0 : CLong) (h : v0 ≠ MINLONG) :
    inthash3 v0 = (if v0.slt 0#64 then
        (if -(longhash3 (-v0)) = BitVec.ofInt 64 (-1) then BitVec.ofInt 64 (-2)
         else -(longhash3 (-v0))) else longhash3 v0) := by
  have hne : v0.toNat ≠ 2^63 := by
    intro h2; apply h; apply BitVec.eq_of_toNat_eq; rw [h2]; decide
  unfold inthash3
  rw [if_neg h]
  by_cases hn : v0.slt 0#64
  · have hlt : (-v0).toNat < 2^63 := by
      rw [BitVec.slt_eq_decide, decide_eq_true_iff, BitVec.toInt_eq_toNat_cond] at hn
      rw [BitVec.toNat_neg]
      simp at hn
      split at hn <;> omega
    have := inthash_nonneg (-v0) hlt
    simp only at this
    simp only [hn, if_true, this]
  · have hlt : v0.toNat < 2^63 := by
      rw [BitVec.slt_eq_decide, decide_eq_true_iff, BitVec.toInt_eq_toNat_cond] at hn
      simp at hn
      split at hn <;> omega
    have := inthash_nonneg v0 hlt
    simp only at this
    simp only [hn]
    simpa using this

theorem pyIntHash_nat (n : Nat) : pyIntHash (n : Int) = ((n % 2305843009213693951 : Nat) : Int) := by
  have h1 : ¬ ((n : Int) < 0) := by omega
  have h2 : pyIntHash (n : Int) = (if ((n % 2305843009213693951 : Nat) : Int) = -1 then -2
      else ((n % 2305843009213693951 : Nat) : Int)) := by
    unfold pyIntHash
    simp only [h1, if_false]
    rfl
  rw [h2, if_neg (by omega)]

theorem pyIntHash_neg (x : Int) (h : x < 0) : pyIntHash x =
    (if -((x.natAbs % 2305843009213693951 : Nat) : Int) = -1 then -2
      else -((x.natAbs % 2305843009213693951 : Nat) : Int)) := by
  unfold pyIntHash
  simp only [h, if_true]
  rfl

theorem inthash3_eq (v : CLong) : (inthash3 v).toInt = pyIntHash v.toInt := by
  by_cases h : v = MINLONG
  · subst h; decide +kernel
  · rw [inthash_abs v h]
    have hne : v.toNat ≠ 2^63 := by
      intro h2; apply h; apply BitVec.eq_of_toNat_eq; rw [h2]; decide
    have hv := v.isLt
    by_cases hn : v.slt 0#64
    · rw [if_pos hn]
      have hlt := hn
      rw [BitVec.slt_eq_decide, decide_eq_true_iff] at hlt
      have hz : (0#64 : BitVec 64).toInt = 0 := by decide
      rw [hz] at hlt
      have hI : v.toInt = (v.toNat : Int) - 2^64 := by
        rw [BitVec.toInt_eq_toNat_cond] at hlt ⊢
        split at hlt <;> split <;> omega
      have hN : (-v).toNat = v.toInt.natAbs := by
        have e : v.toInt.natAbs = 2^64 - v.toNat := by rw [hI]; omega
        have e2 : (2 ^ 64 - v.toNat) % 2 ^ 64 = 2 ^ 64 - v.toNat := by
          have : v.toNat ≠ 0 := by
            intro h0
            have : v = 0#64 := BitVec.eq_of_toNat_eq (by simpa using h0)
            rw [this] at hlt; revert hlt; decide
          omega
        rw [BitVec.toNat_neg, e, e2]
      have hb : v.toInt.natAbs < 2^63 + 1 := by
        have e : v.toInt.natAbs = 2^64 - v.toNat := by rw [hI]; omega
        have := BitVec.le_toInt v
        omega
      have hl := longhash_core (-v)
      rw [hN] at hl
      rw [pyIntHash_neg _ hlt]
      generalize longhash3 (-v) = w at hl
      have hneg : (-w).toInt = -(w.toNat : Int) := by
        rw [BitVec.toInt_neg_of_ne_intMin, BitVec.toInt_eq_toNat_of_lt (by omega)]
        intro h2
        have : w.toNat = 2^63 := by rw [h2]; decide
        omega
      rw [← hl]
      by_cases h1 : -w = BitVec.ofInt 64 (-1)
      · rw [if_pos h1]
        have : (-w).toInt = -1 := by rw [h1]; decide
        rw [if_pos (by omega)]; decide
      · rw [if_neg h1, if_neg, hneg]
        intro h2; apply h1
        apply BitVec.eq_of_toInt_eq
        rw [hneg, h2]; decide
    · rw [if_neg hn]
      have hlt := hn
      rw [BitVec.slt_eq_decide, decide_eq_true_iff] at hlt
      have hz : (0#64 : BitVec 64).toInt = 0 := by decide
      rw [hz] at hlt
      have hI : v.toInt = (v.toNat : Int) := by
        rw [BitVec.toInt_eq_toNat_cond] at hlt ⊢
        split at hlt <;> split <;> omega
      have hl := longhash_core v
      have hb : v.toNat < 2^63 := by
        rw [BitVec.toInt_eq_toNat_cond] at hI; split at hI <;> omega
      rw [hI, pyIntHash_nat, ← hl, BitVec.toInt_eq_toNat_of_lt (by omega)]

theorem longhash3_eq (v : BitVec 64) : (longhash3 v).toInt = pyIntHash v.toNat := by
  have hl := longhash_core v
  rw [pyIntHash_nat, ← hl, BitVec.toInt_eq_toNat_of_lt (by omega)]

/-! ## Tuples -/

theorem xxrotate_toNat (x : BitVec 64) : (xxrotate x).toNat = rotl31 x.toNat := by
  have hx := x.isLt
  unfold xxrotate rotl31
  rw [BitVec.toNat_or, BitVec.toNat_shiftLeft, BitVec.toNat_ushiftRight, Nat.shiftLeft_eq, Nat.shiftRight_eq_div_pow]
  have h1 : x.toNat * 2 ^ 31 % 2 ^ 64 = x.toNat % 2 ^ 33 * 2 ^ 31 := by omega
  have h2 : x.toNat / 2 ^ 33 < 2 ^ 31 := by omega
  rw [h1, ← Nat.shiftLeft_eq, Nat.shiftLeft_add_eq_or_of_lt h2]

theorem tuplehashLoop_spec : ∀ (hs : List CLong) (acc : BitVec 64), (∀ h ∈ hs, h ≠ BitVec.ofInt 64 (-1)) →
    ∃ r, tuplehashLoop acc hs = some r ∧ r.toNat = (hs.map BitVec.toNat).foldl
      (fun acc h => rotl31 ((acc + h * 14029467366897019727) % 2 ^ 64) * 11400714785074694791 % 2 ^ 64) acc.toNat
  | [], acc, _ => ⟨acc, rfl, rfl⟩
  | h :: hs, acc, hh => by
    obtain ⟨r, e1, e2⟩ := tuplehashLoop_spec hs (xxrotate (acc + h * XXPRIME_2) * XXPRIME_1)
      (fun x hx => hh x (List.mem_cons_of_mem _ hx))
    refine ⟨r, ?_, ?_⟩
    · unfold tuplehashLoop
      rw [if_neg (hh h (List.mem_cons_self ..))]
      exact e1
    · rw [e2, List.map_cons, List.foldl_cons, BitVec.toNat_mul, xxrotate_toNat, BitVec.toNat_add, BitVec.toNat_mul,
        Nat.add_mod_mod]
      rfl

theorem tuplehash_spec (hs : List CLong) (hh : ∀ h ∈ hs, h ≠ BitVec.ofInt 64 (-1)) :
    tuplehash hs = BitVec.ofNat 64 (pyTupleHash (hs.map BitVec.toNat)) := by
  obtain ⟨r, e1, e2⟩ := tuplehashLoop_spec hs XXPRIME_5 hh
  have e0 : XXPRIME_5.toNat = 2870177450012600261 := by decide
  unfold tuplehash pyTupleHash
  rw [e1]
  rw [e0] at e2
  simp only
  rw [← e2, List.length_map]
  have e3 : (r + (BitVec.ofNat 64 hs.length ^^^ (XXPRIME_5 ^^^ 3527539#64))).toNat =
      (r.toNat + Nat.xor (hs.length % 2 ^ 64) (Nat.xor 2870177450012600261 3527539)) % 2 ^ 64 := by
    rw [BitVec.toNat_add, BitVec.toNat_xor, BitVec.toNat_xor, BitVec.toNat_ofNat]
    rfl
  rw [← e3]
  generalize r + (BitVec.ofNat 64 hs.length ^^^ (XXPRIME_5 ^^^ 3527539#64)) = a
  by_cases h : a = BitVec.ofInt 64 (-1)
  · rw [if_pos h, if_pos (by rw [h]; decide)]
  · rw [if_neg h, if_neg, BitVec.ofNat_toNat, BitVec.setWidth_eq]
    intro h'
    apply h
    apply BitVec.eq_of_toNat_eq
    rw [h']
    decide

theorem pyTupleHash_ne (hs : List Nat) : BitVec.ofNat 64 (pyTupleHash hs) ≠ BitVec.ofInt 64 (-1) := by
  unfold pyTupleHash
  simp only
  generalize hx : (_ : Nat) % 2 ^ 64 = x
  have hlt : x < 2 ^ 64 := by omega
  split
  · decide
  · intro h
    have := congrArg BitVec.toNat h
    rw [BitVec.toNat_ofNat] at this
    have e : (BitVec.ofInt 64 (-1)).toNat = 2 ^ 64 - 1 := by decide
    omega

theorem tuplehash_minus_one (hs : List CLong) (h : BitVec.ofInt 64 (-1) ∈ hs) : tuplehash hs = BitVec.ofInt 64 (-1) := by
  have : ∀ acc, tuplehashLoop acc hs = none := by
    induction hs with
    | nil => cases h
    | cons x xs ih =>
      intro acc
      unfold tuplehashLoop
      by_cases hx : x = BitVec.ofInt 64 (-1)
      · rw [if_pos hx]
      · rw [if_neg hx]
        exact ih (by rcases List.mem_cons.mp h with h | h; exact absurd h.symm hx; exact h) _
  unfold tuplehash
  rw [this]

theorem tuplehashOldLoop_spec (n : Nat) : ∀ (hs : List CLong) (i : Nat) (x mult : BitVec 64), i + hs.length = n →
    mult.toNat = oldMult n i % 2 ^ 64 →
    (tuplehashOldLoop x mult hs).toNat = (List.range hs.length).foldl
      (fun x j => Nat.xor x (hs.map BitVec.toNat)[j]! * oldMult n (i + j) % 2 ^ 64) x.toNat
  | [], _, _, _, _, _ => rfl
  | h :: hs, i, x, mult, hn, hm => by
    have hl : hs.length = n - 1 - i := by rw [List.length_cons] at hn; omega
    have ih := tuplehashOldLoop_spec n hs (i + 1) ((x ^^^ h) * mult) (mult + (82520#64 + BitVec.ofNat 64 hs.length + BitVec.ofNat 64 hs.length))
      (by rw [List.length_cons] at hn; omega) (by
        rw [BitVec.toNat_add, BitVec.toNat_add, BitVec.toNat_add, BitVec.toNat_ofNat, BitVec.toNat_ofNat, hm, oldMult, ← hl]
        omega)
    rw [tuplehashOldLoop]
    rw [ih, List.length_cons, List.range_succ_eq_map, List.foldl_cons, List.foldl_map]
    have e : ((x ^^^ h) * mult).toNat = Nat.xor x.toNat ((h :: hs).map BitVec.toNat)[0]! * oldMult n (i + 0) % 2 ^ 64 := by
      rw [BitVec.toNat_mul, BitVec.toNat_xor, hm, Nat.mul_mod_mod]
      rfl
    rw [e]
    congr 1
    funext y j
    have e1 : (List.map BitVec.toNat (h :: hs))[j.succ]! = (List.map BitVec.toNat hs)[j]! := by simp
    have e2 : i + 1 + j = i + j.succ := by omega
    rw [e1, e2]

theorem tuplehashOld_spec (hs : List CLong) : (tuplehashOld hs).toNat = pyTupleHashOld (hs.map BitVec.toNat) := by
  have e := tuplehashOldLoop_spec hs.length hs 0 0x345678#64 1000003#64 (by omega) (by rw [oldMult]; decide)
  unfold tuplehashOld pyTupleHashOld
  simp only
  rw [List.length_map]
  have e0 : (0x345678#64).toNat = 0x345678 := by decide
  rw [e0] at e
  simp only [Nat.zero_add] at e
  rw [← e]
  generalize tuplehashOldLoop _ _ hs = a
  have e3 : (a + 97531#64).toNat = (a.toNat + 97531) % 2 ^ 64 := by rw [BitVec.toNat_add]; rfl
  rw [← e3]
  generalize a + 97531#64 = b
  by_cases h : b = BitVec.ofInt 64 (-1)
  · rw [if_pos h, if_pos (by rw [h]; decide)]; decide
  · rw [if_neg h, if_neg]
    intro h'
    apply h
    apply BitVec.eq_of_toNat_eq
    rw [h']
    decide

end Capnpy.Hash
