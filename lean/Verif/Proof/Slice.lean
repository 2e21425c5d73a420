import Verif.Spec.Slice
import Verif.Model.List

/-! # `range(*slice.indices(len))` enumerates exactly the indexes of the slice -/

namespace Capnpy

open Spec ListObj

theorem mem_rangeFrom {a step x : Int} : ∀ {n : Nat}, x ∈ rangeFrom a step n ↔ ∃ k : Nat, k < n ∧ x = a + k * step := by
  intro n
  induction n generalizing a with
  | zero => simp [rangeFrom]
  | succ n ih =>
    simp only [rangeFrom, List.mem_cons, ih]
    constructor
    · rintro (h | ⟨k, hk, h⟩)
      · exact ⟨0, by omega, by simp [h]⟩
      · exact ⟨k + 1, by omega, by rw [h]; push_cast; ring⟩
    · rintro ⟨k, hk, h⟩
      cases k with
      | zero => left; simpa using h
      | succ k => right; exact ⟨k, by omega, by rw [h]; push_cast; ring⟩

theorem rangeFrom_lt {a step : Int} (hs : 0 < step) : ∀ {n : Nat}, (rangeFrom a step n).Pairwise (· < ·) := by
  intro n
  induction n generalizing a with
  | zero => simp [rangeFrom]
  | succ n ih =>
    simp only [rangeFrom, List.pairwise_cons]
    refine ⟨?_, ih⟩
    intro x hx
    obtain ⟨k, -, rfl⟩ := mem_rangeFrom.mp hx
    have : 0 ≤ (k : Int) * step := by positivity
    omega

theorem rangeFrom_gt {a step : Int} (hs : step < 0) : ∀ {n : Nat}, (rangeFrom a step n).Pairwise (· > ·) := by
  intro n
  induction n generalizing a with
  | zero => simp [rangeFrom]
  | succ n ih =>
    simp only [rangeFrom, List.pairwise_cons]
    refine ⟨?_, ih⟩
    intro x hx
    obtain ⟨k, -, rfl⟩ := mem_rangeFrom.mp hx
    have : 0 ≤ (k : Int) * (-step) := mul_nonneg (by omega) (by omega)
    have e : (k : Int) * (-step) = -(k * step) := by ring
    show a > _
    omega

/-- A sequence strictly sorted is determined by its set of members. -/
theorem eq_of_strict {α} {r : α → α → Prop} (hirr : ∀ a, ¬ r a a) (hanti : ∀ a b, r a b → r b a → False) :
    ∀ {l l' : List α}, l.Pairwise r → l'.Pairwise r → (∀ x, x ∈ l ↔ x ∈ l') → l = l' := by
  intro l
  induction l with
  | nil =>
    intro l' _ _ h
    cases l' with
    | nil => rfl
    | cons b l' => have := (h b).mpr (by simp); simp at this
  | cons a l ih =>
    intro l' h1 h2 h
    cases l' with
    | nil => have := (h a).mp (by simp); simp at this
    | cons b l' =>
      rw [List.pairwise_cons] at h1 h2
      have hab : a = b := by
        have ha := (h a).mp (by simp)
        have hb := (h b).mpr (by simp)
        rw [List.mem_cons] at ha hb
        rcases ha with ha | ha
        · exact ha
        · rcases hb with hb | hb
          · exact hb.symm
          · exact absurd (h2.1 a ha) (fun x => hanti _ _ (h1.1 b hb) x)
      subst hab
      refine congrArg _ (ih h1.2 h2.2 ?_)
      intro x
      have := h x
      rw [List.mem_cons, List.mem_cons] at this
      constructor
      · intro hx
        rcases this.mp (Or.inr hx) with e | e
        · subst e; exact absurd (h1.1 x hx) (hirr x)
        · exact e
      · intro hx
        rcases this.mpr (Or.inr hx) with e | e
        · subst e; exact absurd (h2.1 x hx) (hirr x)
        · exact e

theorem rangeLen_up {a b step : Int} (hs : 0 < step) (k : Nat) : k < rangeLen a b step ↔ a + k * step < b := by
  unfold rangeLen
  rw [if_pos hs]
  have h : (k : Int) < (b - a + step - 1) / step ↔ a + k * step < b := by
    rw [Int.lt_iff_add_one_le, Int.le_ediv_iff_mul_le hs]
    constructor
    · intro h; nlinarith
    · intro h; nlinarith
  omega

theorem rangeLen_down {a b step : Int} (hs : step < 0) (k : Nat) : k < rangeLen a b step ↔ b < a + k * step := by
  unfold rangeLen
  rw [if_neg (by omega)]
  have h : (k : Int) < (a - b - step - 1) / -step ↔ b < a + k * step := by
    rw [Int.lt_iff_add_one_le, Int.le_ediv_iff_mul_le (by omega)]
    constructor
    · intro h; nlinarith
    · intro h; nlinarith
  omega

/-- Membership in an ascending `range`. -/
theorem mem_range_up {a b step x : Int} (hs : 0 < step) :
    x ∈ rangeFrom a step (rangeLen a b step) ↔ a ≤ x ∧ x < b ∧ step ∣ x - a := by
  rw [mem_rangeFrom]
  constructor
  · rintro ⟨k, hk, rfl⟩
    rw [rangeLen_up hs] at hk
    have : 0 ≤ (k : Int) * step := by positivity
    exact ⟨by omega, hk, ⟨k, by ring⟩⟩
  · rintro ⟨h1, h2, ⟨c, hc⟩⟩
    have hc0 : 0 ≤ c := by
      by_contra h
      have : step * c < 0 := by nlinarith
      omega
    obtain ⟨k, rfl⟩ := Int.eq_ofNat_of_zero_le hc0
    refine ⟨k, ?_, by linarith⟩
    rw [rangeLen_up hs]
    linarith

/-- Membership in a descending `range`. -/
theorem mem_range_down {a b step x : Int} (hs : step < 0) :
    x ∈ rangeFrom a step (rangeLen a b step) ↔ x ≤ a ∧ b < x ∧ step ∣ x - a := by
  rw [mem_rangeFrom]
  constructor
  · rintro ⟨k, hk, rfl⟩
    rw [rangeLen_down hs] at hk
    have : 0 ≤ (k : Int) * (-step) := mul_nonneg (by omega) (by omega)
    have e : (k : Int) * (-step) = -(k * step) := by ring
    exact ⟨by omega, hk, ⟨k, by ring⟩⟩
  · rintro ⟨h1, h2, ⟨c, hc⟩⟩
    have hc0 : 0 ≤ c := by
      by_contra h
      have : 0 < step * c := by nlinarith
      omega
    obtain ⟨k, rfl⟩ := Int.eq_ofNat_of_zero_le hc0
    refine ⟨k, ?_, by linarith⟩
    rw [rangeLen_down hs]
    linarith

open Classical in
theorem sliceIndices_up {len : Nat} {start stop : Option Int} {step : Int} (hs : 0 < step) :
    sliceIndices len start stop step =
      .ok (((List.range len).filter fun x => InUp len start stop step x).map Int.ofNat) := by
  unfold sliceIndices
  rw [if_neg (by omega)]
  refine congrArg Except.ok ?_
  refine eq_of_strict (r := (· < ·)) (fun a => lt_irrefl a) (fun a b h h' => lt_asymm h h') (rangeFrom_lt hs) ?_ ?_
  · rw [List.pairwise_map]
    refine List.Pairwise.filter _ (List.Pairwise.imp ?_ (List.pairwise_lt_range (n := len)))
    intro a b h
    show (a : Int) < b
    omega
  · intro x
    rw [mem_range_up hs]
    simp only [List.mem_map, List.mem_filter, List.mem_range, decide_eq_true_eq]
    have ea : adjust len step (-1) (len - 1) (if step < 0 then (len : Int) - 1 else 0) start
        = min (len : Int) (firstUp len start) := by
      cases start with
      | none => simp only [adjust, firstUp]; split <;> omega
      | some i => simp only [adjust, firstUp, fromEnd]; split_ifs <;> omega
    have eb : ∀ x : Nat, x < len → ((x : Int) < adjust len step (-1) (len - 1) (if step < 0 then -1 else (len : Int)) stop
        ↔ ∀ j, stop = some j → (x : Int) < fromEnd len j) := by
      intro x hx
      cases stop with
      | none => simp only [adjust]; split <;> simp <;> omega
      | some i =>
        simp only [adjust, Option.some.injEq, forall_eq', fromEnd]; split_ifs <;> omega
    have eb2 : adjust len step (-1) (len - 1) (if step < 0 then -1 else (len : Int)) stop ≤ len := by
      cases stop with
      | none => simp only [adjust]; split <;> omega
      | some i => simp only [adjust]; split_ifs <;> omega
    have h0 : 0 ≤ firstUp len start := by cases start <;> simp [firstUp]
    rw [ea]
    constructor
    · rintro ⟨h1, h2, h3⟩
      have hl : min (len : Int) (firstUp len start) = firstUp len start := by omega
      rw [hl] at h1 h3
      obtain ⟨n, rfl⟩ := Int.eq_ofNat_of_zero_le (show 0 ≤ x by omega)
      exact ⟨n, ⟨by omega, h1, (eb n (by omega)).mp h2, h3⟩, rfl⟩
    · rintro ⟨n, ⟨hn, h1, h2, h3⟩, rfl⟩
      have hl : min (len : Int) (firstUp len start) = firstUp len start := by omega
      rw [hl]
      exact ⟨h1, (eb n hn).mpr h2, h3⟩

open Classical in
theorem sliceIndices_down {len : Nat} {start stop : Option Int} {step : Int} (hs : step < 0) :
    sliceIndices len start stop step =
      .ok (((List.range len).reverse.filter fun x => InDown len start stop step x).map Int.ofNat) := by
  unfold sliceIndices
  rw [if_neg (by omega)]
  refine congrArg Except.ok ?_
  refine eq_of_strict (r := (· > ·)) (fun a => lt_irrefl a) (fun a b h h' => lt_asymm h h') (rangeFrom_gt hs) ?_ ?_
  · rw [List.pairwise_map]
    refine List.Pairwise.filter _ ?_
    rw [List.pairwise_reverse]
    refine List.Pairwise.imp ?_ (List.pairwise_lt_range (n := len))
    intro a b h
    show (b : Int) > a
    omega
  · intro x
    rw [mem_range_down hs]
    simp only [List.mem_map, List.mem_filter, List.mem_reverse, List.mem_range, decide_eq_true_eq]
    have ea : adjust len step (-1) (len - 1) (if step < 0 then (len : Int) - 1 else 0) start
        = max (-1) (firstDown len start) := by
      cases start with
      | none => simp only [adjust, firstDown]; split <;> omega
      | some i => simp only [adjust, firstDown, fromEnd]; split_ifs <;> omega
    have eb : ∀ x : Nat, x < len → (adjust len step (-1) (len - 1) (if step < 0 then -1 else (len : Int)) stop < (x : Int)
        ↔ ∀ j, stop = some j → fromEnd len j < (x : Int)) := by
      intro x hx
      cases stop with
      | none => simp only [adjust]; split <;> simp <;> omega
      | some i =>
        simp only [adjust, Option.some.injEq, forall_eq', fromEnd]; split_ifs <;> omega
    have eb2 : -1 ≤ adjust len step (-1) (len - 1) (if step < 0 then -1 else (len : Int)) stop := by
      cases stop with
      | none => simp only [adjust]; split <;> omega
      | some i => simp only [adjust]; split_ifs <;> omega
    have h0 : firstDown len start ≤ len - 1 := by cases start <;> simp [firstDown]
    rw [ea]
    constructor
    · rintro ⟨h1, h2, h3⟩
      have hl : max (-1) (firstDown len start) = firstDown len start := by omega
      rw [hl] at h1 h3
      obtain ⟨n, rfl⟩ := Int.eq_ofNat_of_zero_le (show 0 ≤ x by omega)
      exact ⟨n, ⟨by omega, h1, (eb n (by omega)).mp h2, h3⟩, rfl⟩
    · rintro ⟨n, ⟨hn, h1, h2, h3⟩, rfl⟩
      have hl : max (-1) (firstDown len start) = firstDown len start := by omega
      rw [hl]
      exact ⟨h1, (eb n hn).mpr h2, h3⟩

end Capnpy
