import Verif.Model.Message
import Verif.Spec.Stream
import Verif.Proof.Mem

/-! # Buffered streams refine flat byte sequences -/

namespace Capnpy

open Spec

theorem pySliceFrom_nat {α} (b : List α) (i : Nat) : pySliceFrom b (i : Int) = b.drop i := by
  unfold pySliceFrom
  have : pyClamp b.length (i : Int) = min i b.length := by
    unfold pyClamp; rw [if_neg (by omega)]; simp
  rw [this]
  by_cases h : i ≤ b.length
  · rw [Nat.min_eq_left h]
  · rw [Nat.min_eq_right (by omega), List.drop_of_length_le (le_refl _),
      List.drop_of_length_le (by omega)]

theorem firstLine_length_le (l : Bytes) : (firstLine l).length ≤ l.length := by
  induction l with
  | nil => simp [firstLine]
  | cons c cs ih => 
    simp only [firstLine]
    split
    · simp
    · simp; omega

theorem firstLine_eq_take (l : Bytes) : firstLine l = l.take (firstLine l).length := by
  induction l with
  | nil => simp [firstLine]
  | cons c cs ih =>
    simp only [firstLine]
    split
    · simp
    · simp only [List.length_cons, List.take_succ_cons]; rw [← ih]

/-- With a newline in `l`, the first line ends there, whatever follows. -/
theorem firstLine_some {l : Bytes} {k : Nat} (h : l.findIdx? (· = 10) = some k) (r : Bytes) :
    firstLine (l ++ r) = l.take (k + 1) ∧ k < l.length := by
  induction l generalizing k with
  | nil => simp at h
  | cons c cs ih =>
    rw [List.findIdx?_cons] at h
    by_cases hc : c = 10
    · simp [hc] at h; subst h
      simp [firstLine, hc]
    · simp [hc] at h
      obtain ⟨k', hk', rfl⟩ := h
      have := ih hk'
      simp only [List.cons_append, firstLine, hc, if_false, List.length_cons, List.take_succ_cons]
      rw [this.1]
      exact ⟨rfl, by omega⟩

theorem firstLine_none {l : Bytes} (h : l.findIdx? (· = 10) = none) (r : Bytes) :
    firstLine (l ++ r) = l ++ firstLine r := by
  induction l with
  | nil => rfl
  | cons c cs ih =>
    rw [List.findIdx?_cons] at h
    by_cases hc : c = 10
    · simp [hc] at h
    · simp [hc] at h
      have := ih (by rw [List.findIdx?_eq_none_iff]; simpa using h)
      simp only [List.cons_append, firstLine, hc, if_false, this]

/-! ## BufferedStream -/

namespace BStream

/-- The read position is not negative and the peer sends no empty chunk. -/
def Inv (b : BStream) : Prop := 0 ≤ b.i ∧ ∀ c ∈ b.chunks, c ≠ []

/-- The bytes which have not been returned yet. -/
def rest (b : BStream) : Bytes := b.buf.drop b.i.toNat ++ b.chunks.flatten

theorem fillLoop_spec (size : Int) : ∀ (chunks : List Bytes) (total : Int),
    (∀ c ∈ chunks, c ≠ []) →
    (fillLoop size total chunks).1 ++ (fillLoop size total chunks).2.flatten = chunks.flatten ∧
    (∀ c ∈ (fillLoop size total chunks).2, c ≠ []) ∧
    (size ≤ total + ((fillLoop size total chunks).1.length : Int) ∨
      (fillLoop size total chunks).2 = []) := by
  intro chunks
  induction chunks with
  | nil => intro total _; simp [fillLoop]
  | cons c cs ih =>
    intro total h
    unfold fillLoop
    by_cases ht : total < size
    · rw [if_pos ht, if_neg (h c (by simp))]
      obtain ⟨h1, h2, h3⟩ := ih (total + c.length) (fun x hx => h x (by simp [hx]))
      dsimp only
      refine ⟨?_, h2, ?_⟩
      · simp only [List.append_assoc, h1, List.flatten_cons]
      · rcases h3 with h3 | h3
        · left; simp only [List.length_append]; push_cast; omega
        · right; exact h3
    · rw [if_neg ht]
      exact ⟨by simp, h, .inl (by simp; omega)⟩

theorem allLoop_spec : ∀ (chunks : List Bytes), (∀ c ∈ chunks, c ≠ []) →
    allLoop chunks = (chunks.flatten, []) := by
  intro chunks
  induction chunks with
  | nil => intro _; rfl
  | cons c cs ih =>
    intro h
    unfold allLoop
    rw [if_neg (h c (by simp)), ih (fun x hx => h x (by simp [hx]))]
    rfl

theorem lineLoop_spec : ∀ (chunks : List Bytes), (∀ c ∈ chunks, c ≠ []) →
    (lineLoop chunks).1 = firstLine chunks.flatten ∧
    (lineLoop chunks).2.1 ++ (lineLoop chunks).2.2.flatten
      = chunks.flatten.drop (firstLine chunks.flatten).length ∧
    (∀ c ∈ (lineLoop chunks).2.2, c ≠ []) := by
  intro chunks
  induction chunks with
  | nil => intro _; simp [lineLoop, firstLine]
  | cons c cs ih =>
    intro h
    obtain ⟨h1, h2, h3⟩ := ih (fun x hx => h x (by simp [hx]))
    unfold lineLoop
    rw [if_neg (h c (by simp))]
    dsimp only
    unfold pyFindNewline
    simp only [Int.toNat_zero, List.drop_zero, List.flatten_cons]
    cases hf : c.findIdx? (· = 10) with
    | some k =>
      obtain ⟨e1, e2⟩ := firstLine_some hf cs.flatten
      simp only
      rw [if_pos (by omega)]
      rw [show ((0 : Nat) : Int) + (k : Int) + 1 = ((k + 1 : Nat) : Int) by push_cast; ring,
        show (0 : Int) = ((0 : Nat) : Int) by rfl, pySlice_nat, pySliceFrom_nat, e1]
      refine ⟨by simp [slice], ?_, fun x hx => h x (by simp [hx])⟩
      rw [List.length_take, Nat.min_eq_left (by omega), List.drop_append_of_le_length (by omega)]
    | none =>
      have e1 := firstLine_none hf cs.flatten
      simp only
      rw [if_neg (by omega), e1]
      refine ⟨by rw [h1], ?_, h3⟩
      rw [List.length_append, ← List.drop_drop, List.drop_left, h2]

theorem read_spec {b : BStream} (hb : b.Inv) (n : Nat) :
    (b.read n).1 = b.rest.take n ∧ (b.read n).2.rest = b.rest.drop n ∧ (b.read n).2.Inv := by
  obtain ⟨buf, i, chunks⟩ := b
  obtain ⟨hi, hc⟩ := hb
  obtain ⟨i, rfl⟩ : ∃ k : Nat, i = k := ⟨i.toNat, by have h : 0 ≤ i := hi; omega⟩
  simp only at hc
  unfold read
  rw [if_neg (by omega)]
  dsimp only
  by_cases hlt : (buf.length : Int) < i + n
  · rw [if_pos hlt]
    unfold fillbuf
    dsimp only
    rw [pySliceFrom_nat]
    obtain ⟨h1, h2, h3⟩ := fillLoop_spec n chunks (buf.drop i).length hc
    revert h1 h2 h3
    generalize fillLoop n (buf.drop i).length chunks = r
    obtain ⟨parts, cs⟩ := r
    intro h1 h2 h3
    simp only at h1 h2 h3
    have hrest : rest ⟨buf, i, chunks⟩ = (buf.drop i ++ parts) ++ cs.flatten := by
      unfold rest; rw [List.append_assoc, h1]; simp
    rw [hrest, show (0 : Int) = ((0 : Nat) : Int) by rfl, pySlice_nat]
    refine ⟨?_, ?_, by dsimp only; omega, h2⟩
    · simp only [slice, List.drop_zero, Nat.sub_zero]
      rcases h3 with h3 | h3
      · have hl := List.length_append (as := buf.drop i) (bs := parts)
        rw [List.take_append_of_le_length (l₁ := buf.drop i ++ parts) (by omega)]
      · simp [h3]
    · unfold rest
      simp only [Int.toNat_natCast]
      rcases h3 with h3 | h3
      · have hl := List.length_append (as := buf.drop i) (bs := parts)
        rw [List.drop_append_of_le_length (l₁ := buf.drop i ++ parts) (by omega)]
      · simp [h3]
  · rw [if_neg hlt]
    rw [show (i : Int) + n = ((i + n : Nat) : Int) by push_cast; rfl, pySlice_nat]
    unfold rest
    simp only [Int.toNat_natCast, slice]
    rw [Nat.add_sub_cancel_left]
    refine ⟨?_, ?_, by dsimp only; omega, hc⟩
    · rw [List.take_append_of_le_length]; rw [List.length_drop]; omega
    · rw [List.drop_append_of_le_length (by rw [List.length_drop]; omega), List.drop_drop]

theorem readall_spec {b : BStream} (hb : b.Inv) :
    (b.read (-1)).1 = b.rest ∧ (b.read (-1)).2.rest = [] ∧ (b.read (-1)).2.Inv := by
  obtain ⟨buf, i, chunks⟩ := b
  obtain ⟨hi, hc⟩ := hb
  obtain ⟨i, rfl⟩ : ∃ k : Nat, i = k := ⟨i.toNat, by have h : 0 ≤ i := hi; omega⟩
  unfold read
  rw [if_pos rfl]
  unfold readall
  simp only [pySliceFrom_nat]
  rw [allLoop_spec _ hc]
  exact ⟨by simp [rest], by simp [rest], by simp [Inv]⟩

theorem readline_spec {b : BStream} (hb : b.Inv) :
    b.readline.1 = firstLine b.rest ∧
    b.readline.2.rest = b.rest.drop (firstLine b.rest).length ∧ b.readline.2.Inv := by
  obtain ⟨buf, i, chunks⟩ := b
  obtain ⟨hi, hc⟩ := hb
  obtain ⟨i, rfl⟩ : ∃ k : Nat, i = k := ⟨i.toNat, by have h : 0 ≤ i := hi; omega⟩
  simp only at hc
  unfold readline pyFindNewline
  simp only [Int.toNat_natCast]
  cases hf : (buf.drop i).findIdx? (· = 10) with
  | some k =>
    obtain ⟨e1, e2⟩ := firstLine_some hf chunks.flatten
    rw [List.length_drop] at e2
    simp only
    rw [if_pos (by omega)]
    rw [show (i : Int) + (k : Int) + 1 = ((i + (k + 1) : Nat) : Int) by push_cast; ring,
      pySlice_nat]
    have hr : rest ⟨buf, i, chunks⟩ = buf.drop i ++ chunks.flatten := by simp [rest]
    rw [hr, e1]
    refine ⟨by simp [slice], ?_, by dsimp only; omega, hc⟩
    rw [List.length_take, List.length_drop, Nat.min_eq_left (by omega),
      List.drop_append_of_le_length (by rw [List.length_drop]; omega), List.drop_drop]
    unfold rest
    dsimp only
    rw [Int.toNat_natCast]
  | none =>
    have e1 := firstLine_none hf chunks.flatten
    obtain ⟨h1, h2, h3⟩ := lineLoop_spec chunks hc
    simp only
    rw [if_neg (by omega), pySliceFrom_nat]
    have hr : rest ⟨buf, i, chunks⟩ = buf.drop i ++ chunks.flatten := by simp [rest]
    rw [hr, e1]
    refine ⟨by rw [h1], ?_, by dsimp only; omega, h3⟩
    rw [List.length_append, ← List.drop_drop, List.drop_left, ← h2]
    simp [rest]

end BStream

/-! ## StringBuffer -/

namespace SBuffer

/-- The bytes after the current position. -/
def rest (b : SBuffer) : Bytes := b.s.drop b.i.toNat

theorem read_spec {b : SBuffer} (hb : 0 ≤ b.i) (n : Nat) :
    (b.read n).1 = b.rest.take n ∧ (b.read n).2.rest = b.rest.drop n ∧ 0 ≤ (b.read n).2.i ∧
    (b.read n).2 = ⟨b.s, b.i + n⟩ := by
  obtain ⟨s, i⟩ := b
  obtain ⟨i, rfl⟩ : ∃ k : Nat, i = k := ⟨i.toNat, by have h : 0 ≤ i := hb; omega⟩
  unfold read rest
  simp only
  rw [if_neg (by omega)]
  rw [show (i : Int) + n = ((i + n : Nat) : Int) by push_cast; rfl, pySlice_nat]
  refine ⟨?_, ?_, ?_, rfl⟩
  · simp [slice]
  · rw [List.drop_drop]; dsimp only; rw [Int.toNat_natCast, Int.toNat_natCast]
  · dsimp only; omega

theorem readall_spec {b : SBuffer} (hb : 0 ≤ b.i) :
    (b.read (-1)).1 = b.rest ∧ (b.read (-1)).2.rest = [] ∧ 0 ≤ (b.read (-1)).2.i := by
  obtain ⟨s, i⟩ := b
  obtain ⟨i, rfl⟩ : ∃ k : Nat, i = k := ⟨i.toNat, by have h : 0 ≤ i := hb; omega⟩
  unfold read rest
  simp only [if_true, pySliceFrom_nat]
  refine ⟨by simp, by simp, by omega⟩

theorem readline_spec {b : SBuffer} (hb : 0 ≤ b.i) :
    b.readline.1 = firstLine b.rest ∧
    b.readline.2.rest = b.rest.drop (firstLine b.rest).length ∧ 0 ≤ b.readline.2.i := by
  obtain ⟨s, i⟩ := b
  obtain ⟨i, rfl⟩ : ∃ k : Nat, i = k := ⟨i.toNat, by have h : 0 ≤ i := hb; omega⟩
  unfold readline pyFindNewline rest
  simp only [Int.toNat_natCast]
  cases hf : (s.drop i).findIdx? (· = 10) with
  | some k =>
    obtain ⟨e1, e2⟩ := firstLine_some hf []
    rw [List.append_nil] at e1
    rw [List.length_drop] at e2
    simp only
    rw [if_neg (by omega), e1]
    rw [show (i : Int) + (k : Int) + 1 = ((i + (k + 1) : Nat) : Int) by push_cast; ring,
      pySlice_nat]
    refine ⟨by simp [slice], ?_, by simp only; omega⟩
    rw [List.length_take, List.length_drop, Nat.min_eq_left (by omega), List.drop_drop]
    dsimp only
    rw [Int.toNat_natCast]
  | none =>
    have e1 := firstLine_none hf []
    simp only [List.append_nil] at e1
    simp only [firstLine, List.append_nil] at e1
    simp only [Int.reduceNeg, Int.reduceAdd, if_true, pySliceFrom_nat]
    rw [e1]
    exact ⟨rfl, by simp; omega, by omega⟩

end SBuffer

end Capnpy
