import Verif.Spec.Ctor
import Verif.Props.ListWrite
import Verif.Proof.CtorBuild

/-! # Bits, footprints and the slots of a constructor -/

namespace Capnpy

open Spec Props

/-- Bit `i` of a buffer. -/
def bitAt (b : Bytes) (i : Nat) : Option Bool := bitOf b (i / 8) (i % 8)

theorem bitAt_byte (b : Bytes) (k m : Nat) (hm : m < 8) : bitAt b (8 * k + m) = bitOf b k m := by
  unfold bitAt
  rw [show (8 * k + m) / 8 = k by omega, show (8 * k + m) % 8 = m by omega]

theorem byte_of_bits {b c : Bytes} {k : Nat} (h : ∀ m, m < 8 → bitAt b (8 * k + m) = bitAt c (8 * k + m)) :
    b[k]? = c[k]? := by
  have h' : ∀ m, m < 8 → bitOf b k m = bitOf c k m := by
    intro m hm
    have := h m hm
    rwa [bitAt_byte _ _ _ hm, bitAt_byte _ _ _ hm] at this
  unfold bitOf at h'
  cases hb : b[k]? with
  | none =>
    have := h' 0 (by omega)
    rw [hb] at this
    cases hc : c[k]? with
    | none => rfl
    | some y => rw [hc] at this; simp at this
  | some x =>
    cases hc : c[k]? with
    | none => have := h' 0 (by omega); rw [hb, hc] at this; simp at this
    | some y =>
      rw [hb, hc] at h'
      refine congrArg some ?_
      apply UInt8.toNat_inj.mp
      apply Nat.eq_of_testBit_eq
      intro m
      by_cases hm : m < 8
      · have := h' m hm
        simpa using this
      · have hx := x.toNat_lt
        have hy := y.toNat_lt
        rw [Nat.testBit_lt_two_pow (Nat.lt_of_lt_of_le hx (Nat.pow_le_pow_right (by norm_num) (show 8 ≤ m by omega))),
          Nat.testBit_lt_two_pow (Nat.lt_of_lt_of_le hy (Nat.pow_le_pow_right (by norm_num) (show 8 ≤ m by omega)))]

theorem bitAt_of_byte {b c : Bytes} {i : Nat} (h : b[i / 8]? = c[i / 8]?) : bitAt b i = bitAt c i := by
  unfold bitAt bitOf; rw [h]

/-! ## Postconditions -/

/-- Running a part of the constructor took the buffer `b` to `b'`: `n` bytes were
appended, only the bits in `F` changed, and `H` holds of every buffer that agrees
with `b'` on those bits and on the appended bytes. -/
structure NodePost (b b' : Bytes) (n : Nat) (F : Nat → Prop) (H : Bytes → Prop) : Prop where
  len : b'.length = b.length + n
  al : 8 ∣ b'.length
  frame : ∀ i, i < 8 * b.length → ¬ F i → bitAt b' i = bitAt b i
  holds : ∀ C : Bytes, b'.length ≤ C.length → (∀ i, F i → bitAt C i = bitAt b' i) →
    (∀ k, b.length ≤ k → k < b'.length → C[k]? = b'[k]?) → H C

theorem NodePost.mono {b b' : Bytes} {n : Nat} {F F' : Nat → Prop} {H H' : Bytes → Prop}
    (h : NodePost b b' n F H) (hF : ∀ i, F i → F' i) (hH : ∀ C, H C → H' C) : NodePost b b' n F' H' :=
  ⟨h.len, h.al, fun i hi hn => h.frame i hi (fun hf => hn (hF i hf)),
    fun C h1 h2 h3 => hH C (h.holds C h1 (fun i hi => h2 i (hF i hi)) h3)⟩

theorem NodePost.refl {b : Bytes} (h8 : 8 ∣ b.length) : NodePost b b 0 (fun _ => False) (fun _ => True) :=
  ⟨rfl, h8, fun _ _ _ => rfl, fun _ _ _ _ => trivial⟩

/-- Two parts one after the other. -/
theorem NodePost.seq {b b1 b2 : Bytes} {n1 n2 R : Nat} {F1 F2 : Nat → Prop} {H1 H2 : Bytes → Prop}
    (h1 : NodePost b b1 n1 F1 H1) (h2 : NodePost b1 b2 n2 F2 H2) (hR : R ≤ b.length)
    (b2F : ∀ i, F2 i → i < 8 * R)
    (hd : ∀ i, F1 i → ¬ F2 i) (b1F : ∀ i, F1 i → i < 8 * R) :
    NodePost b b2 (n1 + n2) (fun i => F1 i ∨ F2 i) (fun C => H1 C ∧ H2 C) := by
  have l1 := h1.len
  have l2 := h2.len
  refine ⟨by omega, h2.al, ?_, ?_⟩
  · intro i hi hn
    rw [not_or] at hn
    rw [h2.frame i (by omega) hn.2, h1.frame i hi hn.1]
  · intro C hC hbits hbytes
    refine ⟨h1.holds C (by omega) ?_ ?_, h2.holds C hC (fun i hi => hbits i (.inr hi)) ?_⟩
    · intro i hi
      have := b1F i hi
      rw [hbits i (.inl hi), h2.frame i (by omega) (hd i hi)]
    · intro k hk hk2
      rw [hbytes k hk (by omega)]
      apply byte_of_bits
      intro m hm
      apply h2.frame _ (by omega)
      intro hf
      have := b2F _ hf
      omega
    · intro k hk hk2
      exact hbytes k (by omega) hk2

/-! ## XOR with defaults -/

theorem int_xor_cancel (i d : Int) : Int.xor (Int.xor i d) d = i := by
  cases i <;> cases d <;> simp [Int.xor]

theorem inRange_xor {fmt : Fmt} {i d : Int} (hi : InRange fmt i) (hd : InRange fmt d) :
    InRange fmt (Int.xor i d) := by
  unfold InRange at *
  by_cases hs : isSigned fmt = true
  · rw [if_pos hs] at *
    generalize 8 * fmt.size - 1 = n at *
    have aux : ∀ x : Int, (-2 ^ n ≤ x ∧ x < 2 ^ n) ↔ ∃ k : Nat, k < 2 ^ n ∧ (x = (k : Int) ∨ x = Int.negSucc k) := by
      intro x
      have hp : (2 : Int) ^ n = ((2 ^ n : Nat) : Int) := by push_cast; rfl
      rw [hp]
      constructor
      · intro ⟨h1, h2⟩
        cases x with
        | ofNat k => exact ⟨k, by simp only [Int.ofNat_eq_natCast] at h2; omega, .inl rfl⟩
        | negSucc k =>
          refine ⟨k, ?_, .inr rfl⟩
          have := Int.negSucc_eq k
          omega
      · rintro ⟨k, hk, rfl | rfl⟩
        · omega
        · have := Int.negSucc_eq k
          omega
    obtain ⟨k, hk, hi⟩ := (aux i).mp hi
    obtain ⟨m, hm, hd⟩ := (aux d).mp hd
    refine (aux _).mpr ⟨k ^^^ m, Nat.xor_lt_two_pow hk hm, ?_⟩
    rcases hi with rfl | rfl <;> rcases hd with rfl | rfl
    · exact .inl rfl
    · exact .inr rfl
    · exact .inr rfl
    · exact .inl rfl
  · rw [if_neg hs] at *
    obtain ⟨k, rfl⟩ := Int.eq_ofNat_of_zero_le hi.1
    obtain ⟨m, rfl⟩ := Int.eq_ofNat_of_zero_le hd.1
    generalize 8 * fmt.size = n at *
    have hp : (2 : Int) ^ n = ((2 ^ n : Nat) : Int) := by push_cast; rfl
    rw [hp] at hi hd ⊢
    have : k ^^^ m < 2 ^ n := Nat.xor_lt_two_pow (by omega) (by omega)
    show 0 ≤ ((k ^^^ m : Nat) : Int) ∧ ((k ^^^ m : Nat) : Int) < _
    omega

/-! ## Slots -/

/-- What the buffer says about a slot that was given the argument `a`. -/
def HoldsSlot (ds : Nat) (C : Bytes) (ty : SlotType) (off : Nat) (dflt : Option Int) (a : Arg) : Prop :=
  match ty with
  | .void => True
  | .prim fmt => ∃ i, a.toInt? = some i ∧
      readPrimitive C ((off * fmt.size : Nat) : Int) fmt = .ok (Int.xor i (dflt.getD 0))
  | .enum => ∃ i, a.toInt? = some i ∧
      readPrimitive C ((off * 2 : Nat) : Int) .h = .ok (Int.xor i (dflt.getD 0))
  | .float fmt => ∃ i, a = .float i ∧ readPrimitive C ((off * fmt.size : Nat) : Int) fmt = .ok i
  | .bool => ∃ b : Bool, (a = .bool b ∨ a = .int (if b then 1 else 0)) ∧
      bitAt C off = some (b ^^ (dflt.getD 0 != 0))
  | .anyPointer => False
  | ty => ∃ v, PtrArg ty a v ∧
      Den C none ((8 * (ds + off) : Nat) : Int) (wordAt C (8 * (ds + off))) v

/-- A number written at a byte position. -/
theorem write_num {b : Bytes} {fmt : Fmt} {k : Nat} {v : Int} (hv : InRange fmt v) (h : k + fmt.size ≤ b.length)
    (h8 : 8 ∣ b.length) :
    ∃ b', writeFmt fmt k v b = .ok () b' ∧
      NodePost b b' 0 (fun i => 8 * k ≤ i ∧ i < 8 * k + 8 * fmt.size)
        (fun C => readPrimitive C k fmt = .ok v) := by
  obtain ⟨b', e, hr, hl, hf⟩ := C03_write_read b fmt k v hv h
  refine ⟨b', e, by omega, by omega, ?_, ?_⟩
  · intro i _ hi
    exact bitAt_of_byte (hf (i / 8) (by omega))
  · intro C hC hb _
    rw [← hr]
    refine C04_read_local C b' fmt k (by omega) (by omega) ?_
    intro x hx1 hx2
    apply byte_of_bits
    intro m hm
    exact hb _ (by omega)

/-- A pointer written by any of the copy functions. -/
theorem write_ptr {b b' : Bytes} {dst : Nat} {v : Val} (h : CopyPost b b' dst v) (hd : dst + 8 ≤ b.length) :
    NodePost b b' v.size (fun i => 8 * dst ≤ i ∧ i < 8 * dst + 64)
      (fun C => Den C none (dst : Int) (wordAt C dst) v) := by
  have hl := h.len
  refine ⟨hl, h.al, ?_, ?_⟩
  · intro i hi hn
    exact bitAt_of_byte (h.frame (i / 8) (by omega) (by omega))
  · intro C hC hb hby
    have hlay := h.lay C hC hby
    have hw : wordAt C dst = wordAt b' dst := by
      apply wordAt_congr
      intro k hk
      apply byte_of_bits
      intro m hm
      exact hb _ (by omega)
    rw [hw]
    exact hlay.den none (by omega)

end Capnpy
