import Verif.Model.Builder
import Verif.Proof.Ptr

/-! # Lemmas about bytes, slices and the `struct` module -/

namespace Capnpy

open Spec

theorem leBytes_length (n v : Nat) : (leBytes n v).length = n := by
  induction n generalizing v with
  | zero => rfl
  | succ n ih => simp [leBytes, ih]

theorem leNat_lt (l : Bytes) : leNat l < 256 ^ l.length := by
  induction l with
  | nil => simp [leNat]
  | cons x xs ih =>
    have := x.toNat_lt
    simp only [leNat, List.length_cons, Nat.pow_succ]
    omega

theorem leNat_leBytes (n v : Nat) : leNat (leBytes n v) = v % 256 ^ n := by
  induction n generalizing v with
  | zero => simp [leNat, leBytes, Nat.mod_one]
  | succ n ih =>
    simp only [leNat, leBytes, ih]
    have : (UInt8.ofNat (v % 256)).toNat = v % 256 := by
      simp
    rw [this, Nat.pow_succ, Nat.mul_comm, Nat.mul_comm (256 ^ n) 256, Nat.mod_mul]
    omega

theorem leBytes_leNat (l : Bytes) : leBytes l.length (leNat l) = l := by
  induction l with
  | nil => rfl
  | cons x xs ih =>
    have hx := x.toNat_lt
    simp only [List.length_cons, leBytes, leNat]
    rw [show (x.toNat + 256 * leNat xs) % 256 = x.toNat by omega,
      show (x.toNat + 256 * leNat xs) / 256 = leNat xs by omega, ih]
    simp

theorem slice_length (b : Bytes) (s n : Nat) : (slice b s n).length = min n (b.length - s) := by
  simp [slice]

theorem slice_length_of_le {b : Bytes} {s n : Nat} (h : s + n ≤ b.length) :
    (slice b s n).length = n := by
  rw [slice_length]; omega

theorem slice_getElem? (b : Bytes) (s n k : Nat) :
    (slice b s n)[k]? = if k < n then b[s + k]? else none := by
  unfold slice
  rw [List.getElem?_take, List.getElem?_drop]

theorem slice_congr {b b' : Bytes} {s s' n : Nat}
    (h : ∀ k, k < n → b[s + k]? = b'[s' + k]?) : slice b s n = slice b' s' n := by
  apply List.ext_getElem?
  intro k
  rw [slice_getElem?, slice_getElem?]
  split
  · exact h k ‹_›
  · rfl

theorem wordAt_congr {b b' : Bytes} {s s' : Nat}
    (h : ∀ k, k < 8 → b[s + k]? = b'[s' + k]?) : wordAt b s = wordAt b' s' := by
  unfold wordAt; rw [slice_congr h]

theorem wordAt_lt (b : Bytes) (s : Nat) : wordAt b s < 2 ^ 64 := by
  unfold wordAt
  refine lt_of_lt_of_le (leNat_lt _) ?_
  have h : (slice b s 8).length ≤ 8 := by rw [slice_length]; omega
  calc 256 ^ (slice b s 8).length ≤ 256 ^ 8 := Nat.pow_le_pow_right (by norm_num) h
    _ = 2 ^ 64 := by norm_num

theorem signed64_mod (w : Nat) (h : w < 2 ^ 64) : signed64 w % 2 ^ 64 = (w : Int) := by
  unfold signed64; split <;> omega

theorem signed64_eq_zero {w : Nat} (h : w < 2 ^ 64) : signed64 w = 0 ↔ w = 0 := by
  unfold signed64; split <;> omega

/-! ## overwrite -/

theorem overwrite_length {b s : Bytes} {i : Nat} (h : i + s.length ≤ b.length) :
    (overwrite b i s).length = b.length := by
  simp [overwrite]; omega

theorem overwrite_getElem? {b s : Bytes} {i : Nat} (h : i + s.length ≤ b.length) (k : Nat) :
    (overwrite b i s)[k]? =
      if k < i then b[k]? else if k < i + s.length then s[k - i]? else b[k]? := by
  unfold overwrite
  have hi : (b.take i).length = i := by simp; omega
  by_cases h1 : k < i
  · rw [if_pos h1, List.append_assoc, List.getElem?_append_left (by omega), List.getElem?_take,
      if_pos h1]
  · rw [if_neg h1, List.append_assoc, List.getElem?_append_right (by omega), hi]
    by_cases h2 : k < i + s.length
    · rw [if_pos h2, List.getElem?_append_left (by omega)]
    · rw [if_neg h2, List.getElem?_append_right (by omega), List.getElem?_drop]
      congr 1; omega

theorem overwrite_slice {b s : Bytes} {i : Nat} (h : i + s.length ≤ b.length) :
    slice (overwrite b i s) i s.length = s := by
  apply List.ext_getElem?
  intro k
  rw [slice_getElem?]
  split
  · rw [overwrite_getElem? h, if_neg (by omega), if_pos (by omega)]; congr 1; omega
  · rw [List.getElem?_eq_none (by omega)]

/-! ## pySlice -/

theorem pyClamp_nat (len n : Nat) : pyClamp len (n : Int) = min n len := by
  unfold pyClamp; rw [if_neg (by omega)]; simp

theorem pySlice_nat (b : Bytes) (s e : Nat) : pySlice b (s : Int) (e : Int) = slice b s (e - s) := by
  unfold pySlice
  rw [pyClamp_nat, pyClamp_nat]
  by_cases h : s ≤ b.length
  · rw [Nat.min_eq_left h]
    unfold slice
    by_cases h2 : e ≤ b.length
    · rw [Nat.min_eq_left h2]
    · rw [Nat.min_eq_right (by omega), List.take_of_length_le (by simp),
        List.take_of_length_le (by simp; omega)]
  · rw [Nat.min_eq_right (show b.length ≤ s by omega)]
    unfold slice
    rw [List.drop_eq_nil_of_le (as := b) (i := s) (by omega), List.drop_eq_nil_of_le (by omega)]
    simp

theorem pySliceAssign_nat {b s : Bytes} {i n : Nat} (hn : s.length = n) (h : i + n ≤ b.length) :
    pySliceAssign b (i : Int) ((i : Int) + n) s = overwrite b i s := by
  unfold pySliceAssign overwrite
  rw [show ((i : Int) + n) = ((i + n : Nat) : Int) by push_cast; rfl, pyClamp_nat, pyClamp_nat]
  simp only [Nat.min_eq_left (show i ≤ b.length by omega), Nat.min_eq_left h]
  rw [Nat.max_eq_right (by omega), hn]

/-! ## struct.pack / unpack -/

theorem Fmt.size_pos (fmt : Fmt) : 0 < fmt.size := by cases fmt <;> decide

theorem pow256 (n : Nat) : 256 ^ n = 2 ^ (8 * n) := by
  rw [Nat.pow_mul]

/-- `struct.unpack` inverts `struct.pack`. -/
theorem Fmt.decode_encode (fmt : Fmt) (v : Int) (h : fmt.lo ≤ v ∧ v < fmt.hi) :
    fmt.decode (leBytes fmt.size (v % fmt.card).toNat) = v := by
  obtain ⟨h1, h2⟩ := h
  unfold Fmt.decode
  rw [leNat_leBytes]
  dsimp only
  by_cases hc : (((v % fmt.card).toNat % 256 ^ fmt.size : Nat) : Int) < fmt.hi
  · rw [if_pos hc]
    cases fmt <;> simp only [Fmt.size, Fmt.card, Fmt.lo, Fmt.hi] at h1 h2 hc ⊢ <;> omega
  · rw [if_neg hc]
    cases fmt <;> simp only [Fmt.size, Fmt.card, Fmt.lo, Fmt.hi] at h1 h2 hc ⊢ <;> omega

theorem Fmt.encode_ok (fmt : Fmt) (v : Int) (h : fmt.lo ≤ v ∧ v < fmt.hi) :
    fmt.encode v = .ok (leBytes fmt.size (v % fmt.card).toNat) := by
  unfold Fmt.encode; rw [if_pos h]

theorem structOffset_nat {len i n : Nat} (h : i + n ≤ len) :
    structOffset len (i : Int) n = .ok i := by
  unfold structOffset
  rw [if_neg (by omega), if_neg (by omega)]; simp

theorem packInto_nat {fmt : Fmt} {b : Bytes} {i : Nat} {v : Int} (hv : fmt.lo ≤ v ∧ v < fmt.hi)
    (h : i + fmt.size ≤ b.length) :
    packInto fmt b (i : Int) v = .ok (overwrite b i (leBytes fmt.size (v % fmt.card).toNat)) := by
  unfold packInto
  rw [Fmt.encode_ok fmt v hv]
  simp only [structOffset_nat h]

theorem unpackFrom_nat {fmt : Fmt} {b : Bytes} {i : Nat} (h : i + fmt.size ≤ b.length) :
    unpackFrom fmt b (i : Int) = .ok (fmt.decode (slice b i fmt.size)) := by
  unfold unpackFrom
  simp only [structOffset_nat h]

theorem readPrimitive_nat {fmt : Fmt} {b : Bytes} {i : Nat} (h : i + fmt.size ≤ b.length) :
    readPrimitive b (i : Int) fmt = .ok (fmt.decode (slice b i fmt.size)) := by
  unfold readPrimitive
  rw [if_neg (by omega), unpackFrom_nat h]

theorem readInt64_nat {b : Bytes} {i : Nat} (h : i + 8 ≤ b.length) :
    readInt64 b (i : Int) = .ok (signed64 (wordAt b i)) := by
  unfold readInt64
  rw [readPrimitive_nat (show i + Fmt.size .q ≤ b.length from h)]
  refine congrArg Except.ok ?_
  unfold Fmt.decode signed64 wordAt
  dsimp only
  by_cases hn : ((leNat (slice b i Fmt.q.size) : Nat) : Int) < Fmt.q.hi
  · rw [if_pos hn]
    simp only [Fmt.size, Fmt.hi] at hn ⊢
    rw [if_pos (by omega)]
  · rw [if_neg hn]
    simp only [Fmt.size, Fmt.hi, Fmt.card] at hn ⊢
    rw [if_neg (by omega)]; norm_num

theorem readPtr_nat {S : Seg} {i : Nat} (h : i + 8 ≤ S.buf.length) :
    S.readPtr (i : Int) = .ok (signed64 (wordAt S.buf i)) := readInt64_nat h

/-! ## Builder writes -/

theorem writeFmt_of_packInto {fmt : Fmt} {b b' : Bytes} {i v : Int} (h : packInto fmt b i v = .ok b') :
    writeFmt fmt i v b = .ok () b' := by
  unfold writeFmt; rw [h]

/-- The effect of an in-bounds write of a non-negative int64. -/
theorem writeInt64_nat {b : Bytes} {i : Nat} {v : Nat} (hv : v < 2 ^ 63) (h : i + 8 ≤ b.length) :
    writeInt64 (i : Int) (v : Int) b = .ok () (overwrite b i (leBytes 8 v)) := by
  have hq : Fmt.lo .q ≤ (v : Int) ∧ (v : Int) < Fmt.hi .q := by
    simp only [Fmt.lo, Fmt.hi]; omega
  have hm : ((v : Int) % Fmt.card .q).toNat = v := by
    have : ((Fmt.card .q : Nat) : Int) = 2 ^ 64 := by norm_num [Fmt.card]
    rw [this]; omega
  have hp := packInto_nat (b := b) (i := i) hq h
  rw [hm] at hp
  exact writeFmt_of_packInto hp

theorem wordAt_overwrite {b : Bytes} {i v : Nat} (hv : v < 2 ^ 64) (h : i + 8 ≤ b.length) :
    wordAt (overwrite b i (leBytes 8 v)) i = v := by
  unfold wordAt
  have h8 : (leBytes 8 v).length = 8 := leBytes_length 8 v
  have := overwrite_slice (b := b) (i := i) (s := leBytes 8 v) (by omega)
  rw [h8] at this
  rw [this, leNat_leBytes]
  exact Nat.mod_eq_of_lt (by norm_num; exact hv)

end Capnpy
