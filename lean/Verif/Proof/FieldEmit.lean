import Verif.Spec.FieldEmit
import Verif.Proof.CtorBits
import Verif.Proof.CtorRead

/-! # Bits of numbers, and the choices of the compiler -/

namespace Capnpy.FieldEmit

open Spec Props
open Const (STy TextType PyVal)

/-! ## Bits -/

theorem leNat_bit : ∀ (bs : Bytes) (i : Nat), (leNat bs).testBit i = (bs.getD (i / 8) 0).toNat.testBit (i % 8)
  | [], i => by simp [leNat]
  | x :: xs, i => by
    have e : leNat (x :: xs) = 2 ^ 8 * leNat xs + x.toNat := by
      show x.toNat + 256 * leNat xs = _
      ring
    rw [e, Nat.testBit_two_pow_mul_add _ x.toNat_lt]
    by_cases hi : i < 8
    · rw [if_pos hi, show i / 8 = 0 by omega, show i % 8 = i by omega]
      rfl
    · rw [if_neg hi, leNat_bit xs (i - 8), show i / 8 = (i - 8) / 8 + 1 by omega, show i % 8 = (i - 8) % 8 by omega]
      rfl

theorem sub_pow_bit {v n : Nat} (hv : v < 2 ^ n) {i : Nat} (hi : i < n) :
    Int.testBit ((v : Int) - 2 ^ n) i = v.testBit i := by
  have e : (v : Int) - 2 ^ n = Int.negSucc (2 ^ n - (v + 1)) := by
    rw [Int.negSucc_eq]
    have : (2 : Int) ^ n = ((2 ^ n : Nat) : Int) := by push_cast; rfl
    rw [this]
    omega
  rw [e]
  show (!(Nat.testBit (2 ^ n - (v + 1)) i)) = _
  rw [Nat.testBit_two_pow_sub_succ hv]
  simp [hi]

theorem valueOf_bit (fmt : Fmt) (bs : Bytes) (h : bs.length = fmt.size) {i : Nat} (hi : i < 8 * fmt.size) :
    Int.testBit (valueOf fmt bs) i = (bs.getD (i / 8) 0).toNat.testBit (i % 8) := by
  rw [← leNat_bit]
  have hlt := leNat_lt bs
  rw [h, show (256 : Nat) = 2 ^ 8 by rfl, ← pow_mul] at hlt
  unfold valueOf
  split
  · unfold toSigned
    split
    · rfl
    · exact sub_pow_bit hlt hi
  · rfl

theorem valueOf_inRange (fmt : Fmt) (bs : Bytes) (h : bs.length = fmt.size) : InRange fmt (valueOf fmt bs) := by
  have hlt := leNat_lt bs
  rw [h, show (256 : Nat) = 2 ^ 8 by rfl, ← pow_mul] at hlt
  unfold valueOf InRange
  split
  · unfold toSigned
    cases fmt <;> simp only [Fmt.size] at hlt ⊢ <;> norm_num at hlt ⊢ <;> split <;> omega
  · refine ⟨by omega, ?_⟩
    have : (2 : Int) ^ (8 * fmt.size) = ((2 ^ (8 * fmt.size) : Nat) : Int) := by push_cast; rfl
    rw [this]
    omega

theorem bytesZ_getD (data : Bytes) (k n i : Nat) (hi : i < n) : (bytesZ data k n).getD i 0 = data.getD (k + i) 0 := by
  unfold bytesZ byteZ
  rw [List.getD_eq_getElem?_getD, List.getElem?_map, List.getElem?_range hi, List.getD_eq_getElem?_getD]
  rfl

theorem bytesZ_len (data : Bytes) (k n : Nat) : (bytesZ data k n).length = n := by
  unfold bytesZ; rw [List.length_map, List.length_range]

/-- The number at byte `n * size` of a section, bit by bit. -/
theorem valueOf_section (fmt : Fmt) (data : Bytes) (n : Nat) {i : Nat} (hi : i < 8 * fmt.size) :
    Int.testBit (valueOf fmt (bytesZ data (n * fmt.size) fmt.size)) i = sectionBit data (8 * fmt.size * n + i) := by
  rw [valueOf_bit fmt _ (bytesZ_len _ _ _) hi, bytesZ_getD _ _ _ _ (by omega)]
  unfold sectionBit
  have e : 8 * fmt.size * n + i = 8 * (n * fmt.size) + i := by ring
  rw [e, show (8 * (n * fmt.size) + i) / 8 = n * fmt.size + i / 8 by omega,
    show (8 * (n * fmt.size) + i) % 8 = i % 8 by omega]

/-- Two numbers with the same bits. -/
theorem number_unique {w : Nat} {signed : Bool} {bit : Nat → Bool} {v v' : Int} (hw : 0 < w) (h : IsNumber w signed bit v)
    (h' : IsNumber w signed bit v') : v = v' := by
  obtain ⟨hr, hb⟩ := h
  obtain ⟨hr', hb'⟩ := h'
  have key : ∀ {x : Int}, (if signed then -2 ^ (w - 1) ≤ x ∧ x < 2 ^ (w - 1) else 0 ≤ x ∧ x < 2 ^ w) →
      ∃ n : Nat, n < 2 ^ w ∧ (∀ i, i < w → Int.testBit x i = n.testBit i) ∧
        (x = (n : Int) ∧ (signed = true → n < 2 ^ (w - 1)) ∨ x = (n : Int) - 2 ^ w ∧ signed = true ∧ 2 ^ (w - 1) ≤ n) := by
    intro x hx
    have hp : (2 : Nat) ^ w = 2 * 2 ^ (w - 1) := by
      rw [← pow_succ', Nat.sub_add_cancel hw]
    have hpz : (2 : Int) ^ w = ((2 ^ w : Nat) : Int) := by push_cast; rfl
    have hpz' : (2 : Int) ^ (w - 1) = ((2 ^ (w - 1) : Nat) : Int) := by push_cast; rfl
    cases signed with
    | false =>
      rw [if_neg (by decide), hpz] at hx
      obtain ⟨n, rfl⟩ := Int.eq_ofNat_of_zero_le hx.1
      exact ⟨n, by omega, fun _ _ => rfl, .inl ⟨rfl, fun h => by cases h⟩⟩
    | true =>
      rw [if_pos rfl, hpz'] at hx
      by_cases h0 : 0 ≤ x
      · obtain ⟨n, rfl⟩ := Int.eq_ofNat_of_zero_le h0
        exact ⟨n, by omega, fun _ _ => rfl, .inl ⟨rfl, fun _ => by omega⟩⟩
      · obtain ⟨n, hn⟩ := Int.eq_ofNat_of_zero_le (show 0 ≤ x + 2 ^ w by omega)
        have hn' : x = (n : Int) - 2 ^ w := by omega
        have hlt : n < 2 ^ w := by omega
        refine ⟨n, hlt, fun i hi => ?_, .inr ⟨hn', rfl, by omega⟩⟩
        rw [hn']
        exact sub_pow_bit hlt hi
  obtain ⟨n, hn, e, c⟩ := key hr
  obtain ⟨n', hn', e', c'⟩ := key hr'
  have : n = n' := by
    apply Nat.eq_of_testBit_eq
    intro i
    by_cases hi : i < w
    · rw [← e i hi, ← e' i hi, hb i hi, hb' i hi]
    · have hle : (2 : Nat) ^ w ≤ 2 ^ i := Nat.pow_le_pow_right (by norm_num) (by omega)
      rw [Nat.testBit_lt_two_pow (by omega), Nat.testBit_lt_two_pow (by omega)]
  subst this
  rcases c with ⟨rfl, hs⟩ | ⟨rfl, hs, hge⟩ <;> rcases c' with ⟨rfl, hs'⟩ | ⟨rfl, hs', hge'⟩
  · rfl
  · have := hs hs'; omega
  · have := hs' hs; omega
  · rfl

theorem inRange_number (fmt : Fmt) (v : Int) :
    InRange fmt v ↔ if isSigned fmt then -2 ^ (8 * fmt.size - 1) ≤ v ∧ v < 2 ^ (8 * fmt.size - 1) else 0 ≤ v ∧ v < 2 ^ (8 * fmt.size) :=
  Iff.rfl

/-- The XOR of two numbers of a format, bit by bit. -/
theorem xor_number {fmt : Fmt} {v d : Int} (hv : InRange fmt v) (hd : InRange fmt d) :
    IsNumber (8 * fmt.size) (isSigned fmt) (fun i => Int.testBit v i ^^ Int.testBit d i) (Int.xor v d) :=
  ⟨inRange_xor hv hd, fun i _ => Int.testBit_lxor v d i⟩

end Capnpy.FieldEmit
