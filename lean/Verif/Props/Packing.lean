import Verif.Model.Packing
import Verif.Props.Memory

/-!
# C47: the compiled reads, packing functions and `dump_message`

The functions with the suffix `C` are those of base.pyx and packing.pyx; `none` is
undefined behaviour.
-/

namespace Capnpy.Props

open Spec Pyx

theorem readPrimitive_cases (buf : Bytes) (off : Int) (fmt : Fmt) :
    readPrimitive buf off fmt =
      if 0 ≤ off ∧ off + fmt.size ≤ buf.length then .ok (fmt.decode (slice buf off.toNat fmt.size))
      else .error .indexError := by
  by_cases h : 0 ≤ off ∧ off + fmt.size ≤ buf.length
  · rw [if_pos h]
    obtain ⟨k, rfl⟩ := Int.eq_ofNat_of_zero_le h.1
    rw [readPrimitive_nat (by omega), Int.toNat_natCast]
  · rw [if_neg h]
    unfold readPrimitive
    rw [if_pos (by omega)]

theorem size_pos (fmt : Fmt) : 1 ≤ fmt.size ∧ fmt.size ≤ 8 := by cases fmt <;> decide

/-- C47: every read of a segment (`read_int64` and the others) gives the same value or raises
the same exception in both versions, and never accesses memory out of bounds, for every
offset but the 8 largest of a `Py_ssize_t`. -/
theorem C47_reads (buf : Bytes) (off : Int) (fmt : Fmt) (h : off < 2 ^ 63 - 8) :
    readPrimitiveC buf off fmt = some (readPrimitive buf off fmt) := by
  have hs := size_pos fmt
  rw [readPrimitive_cases]
  unfold readPrimitiveC checkBoundsSeg isLong
  by_cases h0 : off < 0
  · rw [if_pos h0, if_neg (by omega)]
  · rw [if_neg h0, if_neg (by omega)]
    by_cases h1 : off + fmt.size > buf.length
    · rw [if_pos h1, if_neg (by omega)]
    · rw [if_neg h1, if_pos (by omega)]

/-- C47: `capnpy.packing.unpack_primitive` agrees for all offsets from `-2^31` to
`2^31 - 9`. -/
theorem C47_unpack (buf : Bytes) (off : Int) (fmt : Fmt) (h1 : -2 ^ 31 ≤ off) (h2 : off + fmt.size < 2 ^ 31) :
    unpackPrimitiveC fmt buf off = some (Packing.unpackPrimitive fmt buf off) := by
  have hs := size_pos fmt
  have e : Packing.unpackPrimitive fmt buf off = readPrimitive buf off fmt := rfl
  rw [e, readPrimitive_cases]
  unfold unpackPrimitiveC checkbound isInt
  rw [if_neg (by omega)]
  by_cases h0 : off < 0
  · rw [if_pos h0, if_neg (by omega)]
  · rw [if_neg h0, if_neg (by omega)]
    by_cases h1 : off + fmt.size > buf.length
    · rw [if_pos h1, if_neg (by omega)]
    · rw [if_neg h1, if_pos (by omega)]

/-- For the offsets just below `2^31` the bounds check of packing.pyx overflows, whatever the
buffer, where the pure version raises IndexError. -/
theorem C47_unpack_overflow (buf : Bytes) (off : Int) (fmt : Fmt) (h1 : off < 2 ^ 31) (h2 : 2 ^ 31 ≤ off + fmt.size) :
    unpackPrimitiveC fmt buf off = none ∧
      (buf.length < 2 ^ 31 → Packing.unpackPrimitive fmt buf off = .error .indexError) := by
  have hs := size_pos fmt
  constructor
  · unfold unpackPrimitiveC checkbound isInt
    rw [if_neg (by omega), if_neg (by omega), if_pos (by omega)]
  · intro hl
    have e : Packing.unpackPrimitive fmt buf off = readPrimitive buf off fmt := rfl
    rw [e, readPrimitive_cases, if_neg (by omega)]

example : unpackPrimitiveC .q [1, 2, 3, 4, 5, 6, 7, 8] 0x7fffffff = none := by decide +kernel

instance (fmt : Fmt) (v : Int) : Decidable (InRange fmt v) := by unfold InRange; infer_instance

theorem packInto_cases (fmt : Fmt) (buf : Bytes) (off v : Int) :
    Packing.packInto fmt buf off v =
      if InRange fmt v then
        if 0 ≤ off ∧ off + fmt.size ≤ buf.length then
          .ok (overwrite buf off.toNat (leBytes fmt.size (v % fmt.card).toNat))
        else if off + fmt.size ≤ 0 ∧ 0 ≤ off + buf.length then
          .ok (overwrite buf (off + buf.length).toNat (leBytes fmt.size (v % fmt.card).toNat))
        else .error .indexError
      else .error .indexError := by
  have hs := size_pos fmt
  unfold Packing.packInto Capnpy.packInto Fmt.encode structOffset
  by_cases hr : InRange fmt v
  · rw [if_pos hr, if_pos ((inRange_iff fmt v).mp hr)]
    simp only
    by_cases h0 : off < 0
    · rw [if_pos h0, if_neg (by omega : ¬ (0 ≤ off ∧ off + fmt.size ≤ buf.length))]
      by_cases h1 : off + fmt.size > 0
      · rw [if_pos h1, if_neg (by omega)]
      · rw [if_neg h1]
        by_cases h2 : off + buf.length < 0
        · rw [if_pos h2, if_neg (by omega)]
        · rw [if_neg h2, if_pos (by omega)]
    · rw [if_neg h0]
      by_cases h1 : off + fmt.size > buf.length
      · rw [if_pos h1, if_neg (by omega), if_neg (by omega)]
      · rw [if_neg h1, if_pos (by omega)]
  · rw [if_neg hr, if_neg (fun h => hr ((inRange_iff fmt v).mpr h))]

/-- C47: `pack_into` agrees for every value in range and every offset from 0 to `2^31 - 9`. -/
theorem C47_pack_into (fmt : Fmt) (buf : Bytes) (off v : Int) (h1 : 0 ≤ off) (h2 : off + fmt.size < 2 ^ 31)
    (hv : InRange fmt v) :
    packIntoC fmt buf off v = some (Packing.packInto fmt buf off v) := by
  have hs := size_pos fmt
  rw [packInto_cases, if_pos hv]
  unfold packIntoC checkbound isInt
  rw [if_neg (by omega), if_neg (by omega), if_neg (by omega)]
  by_cases h3 : off + fmt.size > buf.length
  · rw [if_pos h3, if_neg (by omega : ¬ (0 ≤ off ∧ off + fmt.size ≤ buf.length)),
      if_neg (by omega : ¬ (off + fmt.size ≤ 0 ∧ 0 ≤ off + buf.length))]
  · rw [if_neg h3, if_pos (by omega : 0 ≤ off ∧ off + fmt.size ≤ buf.length)]
    simp only
    rw [if_pos ((inRange_iff fmt v).mp hv)]

/-- For the other arguments they do not: a negative offset counts from the end in the pure
version and is an IndexError in the compiled one; a value out of range is an IndexError in the
pure version and an OverflowError in the compiled one. -/
theorem C47_pack_into_differs (fmt : Fmt) (buf : Bytes) (off v : Int) :
    (off + fmt.size ≤ 0 → 0 ≤ off + buf.length → -2 ^ 31 ≤ off → InRange fmt v →
      (∃ b', Packing.packInto fmt buf off v = .ok b') ∧ packIntoC fmt buf off v = some (.error .indexError)) ∧
    (0 ≤ off → off + fmt.size ≤ buf.length → off + fmt.size < 2 ^ 31 → ¬ InRange fmt v →
      Packing.packInto fmt buf off v = .error .indexError ∧ packIntoC fmt buf off v = some (.error .overflowError)) := by
  have hs := size_pos fmt
  rw [packInto_cases]
  constructor
  · intro h1 h2 h3 hv
    rw [if_pos hv, if_neg (by omega), if_pos ⟨h1, h2⟩]
    refine ⟨⟨_, rfl⟩, ?_⟩
    unfold packIntoC checkbound isInt
    rw [if_neg (by omega), if_pos (by omega)]
  · intro h1 h2 h3 hv
    rw [if_neg hv]
    refine ⟨rfl, ?_⟩
    unfold packIntoC checkbound isInt
    rw [if_neg (by omega), if_neg (by omega), if_neg (by omega), if_neg (by omega)]
    simp only
    rw [if_neg (fun h => hv ((inRange_iff fmt v).mpr h))]

example : Packing.packInto .h [1, 2, 3, 4] (-2) 5 = .ok [1, 2, 5, 0] ∧
    packIntoC .h [1, 2, 3, 4] (-2) 5 = some (.error .indexError) := by decide +kernel

/-- C47: the header of a message with one segment. -/
theorem C47_message_header (size p : Int) (h1 : -2 ^ 31 ≤ size) (h2 : size < 2 ^ 31) (h3 : 0 ≤ p) (h4 : p < 2 ^ 63) :
    packMessageHeaderC 1 size p = Packing.packMessageHeader 1 size p := by
  have e0 : Fmt.i.encode (1 - 1) = .ok (leBytes 4 ((1 - 1) % 2 ^ 32 : Int).toNat) := by decide
  have e1 : Fmt.i.encode size = .ok (leBytes 4 (size % 2 ^ 32).toNat) := by
    unfold Fmt.encode; rw [if_pos (by simp only [Fmt.lo, Fmt.hi]; omega)]; rfl
  have e2 : Fmt.Q.encode p = .ok (leBytes 8 (p % 2 ^ 64).toNat) := by
    unfold Fmt.encode; rw [if_pos (by simp only [Fmt.lo, Fmt.hi]; omega)]; rfl
  unfold packMessageHeaderC Packing.packMessageHeader isInt isLong
  rw [if_neg (by omega), if_neg (by decide), e1, e2, e0]
  rfl

/-- A negative pointer word (a struct with `2^15` pointers, say) is refused by the pure
version only. -/
theorem C47_message_header_negative (p : Int) (h1 : -2 ^ 63 ≤ p) (h2 : p < 0) :
    Packing.packMessageHeader 1 0 p = .error .structError ∧ ∃ b, packMessageHeaderC 1 0 p = .ok b := by
  have e0 : Fmt.i.encode (1 - 1) = .ok (leBytes 4 0) := by decide
  have e1 : Fmt.i.encode 0 = .ok (leBytes 4 0) := by decide
  have e2 : Fmt.Q.encode p = .error .structError := by
    unfold Fmt.encode; rw [if_neg (by simp only [Fmt.lo, Fmt.hi]; omega)]
  constructor
  · unfold Packing.packMessageHeader
    rw [e0, e1, e2]
    rfl
  · unfold packMessageHeaderC isInt isLong
    rw [if_neg (by omega), if_neg (by decide)]
    exact ⟨_, rfl⟩

/-- C47: `pack_int64` agrees on every int64. -/
theorem C47_pack_int64 (v : Int) (h1 : -2 ^ 63 ≤ v) (h2 : v < 2 ^ 63) : packInt64C v = Packing.packInt64 v := by
  unfold packInt64C Packing.packInt64 isLong Fmt.encode
  rw [if_neg (by omega), if_pos (by simp only [Fmt.lo, Fmt.hi]; omega)]
  rfl

/-- C47: `dump_message`, the fast path of `dumps`, agrees for every pointer which is an
int64 and every range of less than 32 GiB. -/
theorem C47_dump_message (buf : Bytes) (p start end_ : Int) (hp1 : -2 ^ 63 ≤ p) (hp2 : p < 2 ^ 63)
    (hl : (end_ - start) / 8 + 1 < 2 ^ 32) :
    dumpMessageC buf p start end_ = dumpMessage buf p start end_ := by
  unfold dumpMessageC dumpMessage
  by_cases h : start < 0 ∨ start > end_ ∨ end_ > buf.length
  · rw [if_pos h, if_pos h]
  · rw [if_neg h, if_neg h]
    have e0 : Fmt.I.encode 0 = .ok (leBytes 4 0) := by decide
    have e1 : Fmt.I.encode ((end_ - start) / 8 + 1) = .ok (leBytes 4 (((end_ - start) / 8 + 1) % 2 ^ 32).toNat) := by
      unfold Fmt.encode; rw [if_pos (by simp only [Fmt.lo, Fmt.hi]; omega)]; rfl
    have e2 : Fmt.q.encode p = .ok (leBytes 8 (p % 2 ^ 64).toNat) := by
      unfold Fmt.encode; rw [if_pos (by simp only [Fmt.lo, Fmt.hi]; omega)]; rfl
    rw [e0, e1, e2]
    simp only
    obtain ⟨i, rfl⟩ := Int.eq_ofNat_of_zero_le (show 0 ≤ start by omega)
    obtain ⟨j, rfl⟩ := Int.eq_ofNat_of_zero_le (show 0 ≤ end_ by omega)
    have e3 : pySlice buf (i : Int) (j : Int) = slice buf i (j - i) := by
      unfold pySlice pyClamp slice
      rw [if_neg (by omega), if_neg (by omega)]
      simp only [Int.toNat_natCast]
      rw [Nat.min_eq_left (by omega), Nat.min_eq_left (by omega)]
    rw [e3]
    have e4 : ((j : Int) - (i : Int)).toNat = j - i := by omega
    rw [e4, Int.toNat_natCast]

example : dumpMessageC [1, 2, 3, 4, 5, 6, 7, 8] 7 0 8 = .ok ([0, 0, 0, 0, 2, 0, 0, 0, 7, 0, 0, 0, 0, 0, 0, 0] ++
    [1, 2, 3, 4, 5, 6, 7, 8]) := by decide +kernel

end Capnpy.Props
