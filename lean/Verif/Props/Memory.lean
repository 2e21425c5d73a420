import Verif.Proof.Builder

/-!
# C03, C04: primitive reads and writes
-/

namespace Capnpy.Props

open Capnpy Spec

/-- The value ranges of the formats, in terms of the width: two's complement for
the signed ones. -/
def isSigned : Fmt → Bool
  | .b | .h | .i | .q => true
  | _ => false

/-- `v` is representable in the format. -/
def InRange (fmt : Fmt) (v : Int) : Prop :=
  if isSigned fmt then -2 ^ (8 * fmt.size - 1) ≤ v ∧ v < 2 ^ (8 * fmt.size - 1)
  else 0 ≤ v ∧ v < 2 ^ (8 * fmt.size)

theorem inRange_iff (fmt : Fmt) (v : Int) : InRange fmt v ↔ fmt.lo ≤ v ∧ v < fmt.hi := by
  cases fmt <;> simp [InRange, isSigned, Fmt.size, Fmt.lo, Fmt.hi]

/-- The little-endian value of some bytes in a format. -/
def valueOf (fmt : Fmt) (bs : Bytes) : Int :=
  if isSigned fmt then toSigned fmt.size (leNat bs) else (leNat bs : Int)

theorem decode_eq_valueOf (fmt : Fmt) (bs : Bytes) (h : bs.length = fmt.size) :
    fmt.decode bs = valueOf fmt bs := by
  have hlt := leNat_lt bs
  rw [h] at hlt
  unfold Fmt.decode valueOf
  dsimp only
  cases fmt <;> simp [isSigned, Fmt.size, Fmt.hi, Fmt.card, toSigned] at * <;>
    omega

/-! ## C04 -/

/-- C04: a primitive read raises `IndexError` exactly when some byte of it lies
outside the buffer, negative offsets included; otherwise it returns the
little-endian value of exactly these bytes. -/
theorem C04_read (buf : Bytes) (fmt : Fmt) (off : Int) :
    (0 ≤ off ∧ off + fmt.size ≤ buf.length →
      readPrimitive buf off fmt = .ok (valueOf fmt (slice buf off.toNat fmt.size))) ∧
    (¬ (0 ≤ off ∧ off + fmt.size ≤ buf.length) →
      readPrimitive buf off fmt = .error .indexError) := by
  constructor
  · intro ⟨h0, h1⟩
    obtain ⟨k, rfl⟩ := Int.eq_ofNat_of_zero_le h0
    have hk : k + fmt.size ≤ buf.length := by omega
    rw [readPrimitive_nat hk, Int.toNat_natCast, decode_eq_valueOf _ _ (slice_length_of_le hk)]
  · intro h
    unfold readPrimitive
    rw [if_pos (by omega)]

/-- C04: the bytes outside the ones read do not matter. -/
theorem C04_read_local (b b' : Bytes) (fmt : Fmt) (i : Nat) (h : i + fmt.size ≤ b.length)
    (h' : i + fmt.size ≤ b'.length) (heq : ∀ k, i ≤ k → k < i + fmt.size → b[k]? = b'[k]?) :
    readPrimitive b i fmt = readPrimitive b' i fmt := by
  rw [readPrimitive_nat h, readPrimitive_nat h', slice_congr]
  intro k hk; exact heq (i + k) (by omega) (by omega)

example : readPrimitive [0xff, 0x01, 0x80] 1 .h = .ok (-32767) ∧
    readPrimitive [0xff, 0x01, 0x80] 2 .h = .error .indexError ∧
    readPrimitive [0xff, 0x01, 0x80] (-1) .b = .error .indexError := by decide

/-! ## C03 -/

/-- C03: a write of a representable value at a position inside the builder
succeeds; reading back gives the value; no other byte and not the length
changes. -/
theorem C03_write_read (b : Bytes) (fmt : Fmt) (i : Nat) (v : Int) (hv : InRange fmt v)
    (h : i + fmt.size ≤ b.length) :
    ∃ b', writeFmt fmt i v b = .ok () b' ∧ readPrimitive b' i fmt = .ok v ∧
      b'.length = b.length ∧ ∀ k, ¬ (i ≤ k ∧ k < i + fmt.size) → b'[k]? = b[k]? := by
  have hv' := (inRange_iff _ _).mp hv
  have hl : (leBytes fmt.size (v % fmt.card).toNat).length = fmt.size := leBytes_length _ _
  refine ⟨_, writeFmt_of_packInto (packInto_nat hv' h), ?_, ?_, ?_⟩
  · rw [readPrimitive_nat (by rw [overwrite_length (by omega)]; omega)]
    have := overwrite_slice (b := b) (i := i) (s := leBytes fmt.size (v % fmt.card).toNat) (by omega)
    rw [hl] at this
    rw [this, Fmt.decode_encode fmt v hv']
  · exact overwrite_length (by omega)
  · intro k hk
    rw [overwrite_getElem? (by omega)]
    split
    · rfl
    · rw [if_neg (by omega)]

/-- C03: the write fails, leaving the builder as it was, exactly when the value
is not representable or the position does not fit.  (`struct.pack_into` counts a
negative position from the end, so a negative position fits when the resulting
one does; no caller passes one.) -/
theorem C03_write_fails (b : Bytes) (fmt : Fmt) (i v : Int) :
    ((∃ b', writeFmt fmt i v b = .ok () b') ↔
      (InRange fmt v ∧ ((0 ≤ i ∧ i + fmt.size ≤ b.length) ∨
        (i < 0 ∧ i + fmt.size ≤ 0 ∧ 0 ≤ i + b.length)))) ∧
    (∀ e b', writeFmt fmt i v b = .error e b' → e = .structError ∧ b' = b) := by
  rw [inRange_iff]
  unfold writeFmt packInto Fmt.encode structOffset
  by_cases h1 : fmt.lo ≤ v ∧ v < fmt.hi
  · rw [if_pos h1]
    dsimp only
    by_cases h2 : i < 0
    · rw [if_pos h2]
      by_cases h3 : i + fmt.size > 0
      · rw [if_pos h3]
        refine ⟨⟨?_, ?_⟩, ?_⟩
        · rintro ⟨b', h⟩; cases h
        · rintro ⟨-, h | h⟩ <;> omega
        · intro e b' h; cases h; exact ⟨rfl, rfl⟩
      · rw [if_neg h3]
        by_cases h4 : i + b.length < 0
        · rw [if_pos h4]
          refine ⟨⟨?_, ?_⟩, ?_⟩
          · rintro ⟨b', h⟩; cases h
          · rintro ⟨-, h | h⟩ <;> omega
          · intro e b' h; cases h; exact ⟨rfl, rfl⟩
        · rw [if_neg h4]
          refine ⟨⟨fun _ => ⟨h1, .inr (by omega)⟩, fun _ => ⟨_, rfl⟩⟩, ?_⟩
          intro e b' h; cases h
    · rw [if_neg h2]
      by_cases h3 : i + fmt.size > b.length
      · rw [if_pos h3]
        refine ⟨⟨?_, ?_⟩, ?_⟩
        · rintro ⟨b', h⟩; cases h
        · rintro ⟨-, h | h⟩ <;> omega
        · intro e b' h; cases h; exact ⟨rfl, rfl⟩
      · rw [if_neg h3]
        refine ⟨⟨fun _ => ⟨h1, .inl (by omega)⟩, fun _ => ⟨_, rfl⟩⟩, ?_⟩
        intro e b' h; cases h
  · rw [if_neg h1]
    refine ⟨⟨?_, fun h => absurd h.1 h1⟩, ?_⟩
    · rintro ⟨b', h⟩; cases h
    · intro e b' h; cases h; exact ⟨rfl, rfl⟩

example : InRange .q (-9223372036854775808) ∧ ¬ InRange .q 9223372036854775808 := by
  constructor <;> norm_num [InRange, isSigned, Fmt.size]
example : writeFmt .h 1 (-2) [0, 0, 0, 7] = .ok () [0, 0xfe, 0xff, 7] := by rfl

/-! ### Bits -/

/-- Bit `k` of byte `i` of a buffer. -/
def bitOf (b : Bytes) (i k : Nat) : Option Bool := b[i]?.map fun x => x.toNat.testBit k

theorem lor_nat (a b : Nat) : Int.lor (a : Int) (b : Int) = ((a ||| b : Nat) : Int) := rfl

theorem leNat_single (x : UInt8) : leNat [x] = x.toNat := by simp [leNat]

/-- C03, bools: writing a bool at bit `k` of byte `i` sets that bit if the value
is true, and changes no other bit of the builder.  (A false value leaves the bit
alone: the builder's memory starts zeroed.) -/
theorem C03_write_bool (b : Bytes) (i k : Nat) (v : Bool) (hi : i < b.length) (hk : k < 8) :
    ∃ b', writeBool i k (if v then 1 else 0) b = .ok () b' ∧ b'.length = b.length ∧
      (∀ j m, m < 8 → ¬ (j = i ∧ m = k) → bitOf b' j m = bitOf b j m) ∧
      bitOf b' i k = (bitOf b i k).map (· || v) := by
  obtain ⟨x, hx⟩ : ∃ x, b[i]? = some x := ⟨b[i], List.getElem?_eq_getElem hi⟩
  have hs : slice b i 1 = [x] := by
    apply List.ext_getElem?
    intro j
    rw [slice_getElem?]
    by_cases hj : j < 1
    · obtain rfl : j = 0 := by omega
      simp [hx]
    · rw [if_neg hj, List.getElem?_eq_none (by simp; omega)]
  have hxl := x.toNat_lt
  have hun : unpackFrom .B b (i : Int) = .ok ((x.toNat : Nat) : Int) := by
    rw [unpackFrom_nat (show i + Fmt.size .B ≤ b.length by simp only [Fmt.size]; omega)]
    rw [show Fmt.size .B = 1 from rfl, hs]
    unfold Fmt.decode
    rw [leNat_single]
    dsimp only
    rw [if_pos (by simp only [Fmt.hi]; omega)]
  obtain ⟨y, hy1, hy2⟩ : ∃ y : Nat, y < 256 ∧
      Int.lor (x.toNat : Int) (shl (if v then 1 else 0) k) = (y : Int) ∧
      ∀ m, y.testBit m = (x.toNat.testBit m || (v && decide (m = k))) := by
    refine ⟨x.toNat ||| (if v then 2 ^ k else 0), ?_, ?_, ?_⟩
    · apply Nat.or_lt_two_pow (n := 8) (by omega)
      split
      · exact Nat.pow_lt_pow_right (by norm_num) hk
      · norm_num
    · rw [← lor_nat]
      congr 1
      unfold shl
      cases v <;> simp
    · intro m
      rw [Nat.testBit_or]
      cases v
      · simp
      · simp [Nat.testBit_two_pow, eq_comm]
  obtain ⟨hy2, hy3⟩ := hy2
  refine ⟨overwrite b i (leBytes 1 y), ?_, ?_, ?_, ?_⟩
  · unfold writeBool
    rw [hun]
    dsimp only
    rw [hy2]
    have h := packInto_nat (fmt := .B) (b := b) (i := i) (v := (y : Int))
      (by simp only [Fmt.lo, Fmt.hi]; omega) (by simp only [Fmt.size]; omega)
    have hm : ((y : Int) % (Fmt.card .B : Nat)).toNat = y := by simp only [Fmt.card]; omega
    rw [hm] at h
    exact writeFmt_of_packInto h
  · exact overwrite_length (by rw [leBytes_length]; omega)
  · intro j m hm hne
    unfold bitOf
    rw [overwrite_getElem? (by rw [leBytes_length]; omega), leBytes_length]
    split
    · rfl
    · by_cases hj : j < i + 1
      · obtain rfl : j = i := by omega
        rw [if_pos hj, hx]
        simp only [Nat.sub_self, leBytes, List.getElem?_cons_zero, Option.map_some, Option.some.injEq]
        have hyy : (UInt8.ofNat (y % 256)).toNat = y := by simp; omega
        rw [hyy, hy3]
        have : m ≠ k := fun h => hne ⟨rfl, h⟩
        simp [this]
      · rw [if_neg hj]
  · unfold bitOf
    rw [overwrite_getElem? (by rw [leBytes_length]; omega), leBytes_length, if_neg (by omega),
      if_pos (by omega), hx]
    simp only [Nat.sub_self, leBytes, List.getElem?_cons_zero, Option.map_some, Option.some.injEq]
    have hyy : (UInt8.ofNat (y % 256)).toNat = y := by simp; omega
    rw [hyy, hy3]
    simp

/-- Finding: in pure Python mode `write_bool` shifts its argument without
normalising it, so a truthy value other than `True` sets a neighbouring bit. -/
theorem C03_write_bool_int_argument :
    writeBool 0 3 2 [0] = .ok () [16] ∧ bitOf [16] 0 3 = some false ∧
      bitOf [16] 0 4 = some true := by decide +kernel

example : writeBool 1 3 1 [0, 1, 0] = .ok () [0, 9, 0] := by decide +kernel

end Capnpy.Props
