import Verif.Proof.Ctor

/-! # Default arguments -/

namespace Capnpy

open Spec Props

theorem inRange_one (fmt : Fmt) : InRange fmt 1 := by
  unfold InRange
  cases fmt <;> decide +kernel

theorem slotDefault_acc {fuel ds ps : Nat} {ty : SlotType} {off : Nat} {dflt : Option Int}
    (hwf : SlotWF ds ps ty off dflt) (ha : ty ≠ .anyPointer) : SlotArg fuel ty (slotDefault ty dflt) 0 := by
  have null : ∃ v : Val, v = .null ∧ v.Fits ∧ 2 * v.depth ≤ fuel + 1 ∧ 0 = v.size :=
    ⟨.null, rfl, by simp [Val.Fits], by simp [Val.depth], by simp [Val.size]⟩
  cases ty with
  | void => rfl
  | prim fmt => exact ⟨_, rfl, inRange_dflt hwf.2, rfl⟩
  | enum => exact ⟨_, rfl, inRange_dflt hwf.2, rfl⟩
  | float fmt => obtain ⟨_, rfl⟩ := hwf; exact ⟨_, rfl, inRange_dflt (dflt := none) (by simp), rfl⟩
  | bool => exact ⟨_, .inl rfl, rfl⟩
  | text => exact null
  | data => exact null
  | struct => exact null
  | list it => exact null
  | anyPointer => exact absurd rfl ha

theorem isNull_acc {fuel ds ps : Nat} {ty : SlotType} {off : Nat} {dflt : Option Int} (h : IsNullType ty)
    (hwf : SlotWF ds ps ty off dflt) {x : Int} (hx : x = 0 ∨ x = 1) : SlotArg fuel ty (.int x) 0 := by
  cases ty with
  | prim fmt =>
    refine ⟨x, rfl, ?_, rfl⟩
    rcases hx with rfl | rfl
    · exact inRange_dflt (dflt := none) (by simp)
    · exact inRange_one fmt
  | bool =>
    rcases hx with rfl | rfl
    · exact ⟨false, .inr rfl, rfl⟩
    · exact ⟨true, .inr rfl, rfl⟩
  | _ => exact h.elim

theorem accFields_cons {fuel : Nat} {f : Field} {fs : List Field} {a : Arg} {as : List Arg} {n : Nat}
    (hs : f.skipped = false) : AccFields fuel (f :: fs) (a :: as) n ↔
      ∃ n1 n2, n = n1 + n2 ∧ (if absent f a then n1 = 0 else AccField fuel f a n1) ∧ AccFields fuel fs as n2 := by
  conv_lhs => unfold AccFields
  rw [if_neg (by simp [hs])]

theorem accFields_nil {fuel : Nat} : AccFields fuel [] [] 0 := by unfold AccFields; exact ⟨rfl, rfl⟩

theorem defaultArg_group (name : String) (code : Nat) (nullable : Bool) (union : Option Nat) (ch : List Field) :
    defaultArg none (.group name code none nullable union ch) =
      if nullable then
        match defaultArgs none ch with
        | [isNull, value] => if isNull.truthy then .none else value
        | _ => .none
      else .tuple (defaultArgs none ch) := by
  conv_lhs => unfold defaultArg
  rfl

theorem defaultArg_member {f : Field} {tag : Nat} (h : f.disc = some tag) : defaultArg none f = .undefined := by
  cases f with
  | slot n c d t o df =>
    have h : d = some tag := h
    subst h
    unfold defaultArg
    rfl
  | group n c d nl u ch =>
    have h : d = some tag := h
    subst h
    unfold defaultArg
    rfl

mutual

theorem default_acc (fuel ds ps : Nat) : ∀ f : Field, FieldWF ds ps f → NoAny f → f.disc = none →
    AccField fuel f (defaultArg none f) 0
  | .slot name code disc ty off dflt, hwf, hna, hd => by
    unfold FieldWF at hwf
    unfold NoAny at hna
    have hd : disc = none := hd
    unfold AccField defaultArg
    subst hd
    rw [if_neg (by simp)]
    exact slotDefault_acc hwf (hna rfl)
  | .group name code disc nullable union children, hwf, hna, hd => by
    unfold FieldWF at hwf
    obtain ⟨h1, h2, h3⟩ := hwf
    unfold NoAny at hna
    have hd : disc = none := hd
    have ih := defaults_acc fuel ds ps union children h2 (hna hd)
    subst hd
    rw [defaultArg_group]
    unfold AccField
    by_cases hn : nullable = true
    · rw [if_pos hn, if_pos hn]
      obtain ⟨_, hne, c, o, ty, d, c2, rfl, hty, hv, hd2, hs2⟩ := h3 hn
      have hs1 := isNullType_not_skipped (c := c) (o := o) (d := d) (n := "is_null") hty
      have hda : defaultArgs none [.slot "is_null" c none ty o d, c2] =
          [slotDefault ty d, defaultArg none c2] := by
        unfold defaultArgs
        rw [if_neg (by rw [hs1]; simp)]
        unfold defaultArgs
        rw [if_neg (by rw [hs2]; simp)]
        unfold defaultArgs
        conv_lhs => arg 1; unfold defaultArg
        rw [if_neg (by simp)]
      have ih1 := ih.1
      rw [hda] at ih1 ⊢
      simp only
      have hc2 : AccField fuel c2 (defaultArg none c2) 0 := by
        obtain ⟨n1, n2, hn12, _, h⟩ := (accFields_cons hs1).mp ih1
        obtain ⟨n3, n4, hn34, h, _⟩ := (accFields_cons hs2).mp h
        have ha2 : absent c2 (defaultArg none c2) = false := by unfold absent; rw [hd2]; rfl
        rw [if_neg (by rw [ha2]; simp)] at h
        obtain rfl : n3 = 0 := by omega
        exact h
      unfold FieldsWF at h2
      have hw1 := h2.1
      unfold FieldWF at hw1
      have build : ∀ x, (x = 0 ∨ x = 1) →
          AccFields fuel [.slot "is_null" c none ty o d, c2] [.int x, defaultArg none c2] 0 := by
        intro x hx
        refine (accFields_cons hs1).mpr ⟨0, 0, rfl, ?_, (accFields_cons hs2).mpr ⟨0, 0, rfl, ?_, accFields_nil⟩⟩
        · rw [if_neg (by simp [absent, Field.disc])]
          unfold AccField
          exact isNull_acc hty hw1 hx
        · rw [if_neg (by simp [absent, hd2])]
          exact hc2
      have key : ∀ a, a = .none ∨ a = defaultArg none c2 →
          AccFields fuel [.slot "is_null" c none ty o d, c2]
            (nullablePair [.slot "is_null" c none ty o d, c2] a) 0 := by
        intro a ha
        unfold nullablePair
        by_cases han : a.isNone = true
        · rw [if_pos han]
          exact build 1 (.inr rfl)
        · rw [if_neg han]
          rcases ha with rfl | rfl
          · exact absurd rfl han
          · exact build 0 (.inl rfl)
      apply key
      split
      · exact .inl rfl
      · exact .inr rfl
    · rw [if_neg hn, if_neg hn]
      exact ⟨_, rfl, ih.1, by rw [ih.2]; simp⟩

theorem defaults_acc (fuel ds ps : Nat) (union : Option Nat) : ∀ fs : List Field, FieldsWF ds ps union fs →
    NoAnys fs → AccFields fuel fs (defaultArgs none fs) 0 ∧ members fs (defaultArgs none fs) = []
  | [], _, _ => by unfold defaultArgs; exact ⟨accFields_nil, by unfold members; rfl⟩
  | f :: fs, hwf, hna => by
    unfold FieldsWF at hwf
    unfold NoAnys at hna
    have ih := defaults_acc fuel ds ps union fs hwf.2.2.2.2 hna.2
    unfold defaultArgs
    by_cases hs : f.skipped = true
    · rw [if_pos hs, members_skip hs]
      refine ⟨?_, ih.2⟩
      unfold AccFields
      rw [if_pos hs]
      exact ih.1
    · rw [if_neg hs]
      have hs' : f.skipped = false := by simpa using hs
      cases hd : f.disc with
      | none =>
        rw [members_none hs' hd]
        refine ⟨(accFields_cons hs').mpr ⟨0, 0, rfl, ?_, ih.1⟩, ih.2⟩
        rw [if_neg (by simp [absent, hd])]
        exact default_acc fuel ds ps f hwf.1 hna.1 hd
      | some tag =>
        have hu := defaultArg_member hd
        have hab : absent f (defaultArg none f) = true := by rw [hu]; unfold absent; rw [hd]; rfl
        rw [members_absent hs' hab]
        refine ⟨(accFields_cons hs').mpr ⟨0, 0, rfl, ?_, ih.1⟩, ih.2⟩
        rw [if_pos hab]

end

theorem slotReads_default {ty : SlotType} {dflt : Option Int} {r : Py RVal}
    (h : SlotReads ty (slotDefault ty dflt) r) : r = .ok (declaredDefault ty dflt) := by
  cases ty with
  | void => exact h
  | prim fmt => obtain ⟨i, h1, h2⟩ := h; cases h1; exact h2
  | enum => obtain ⟨i, h1, h2⟩ := h; cases h1; exact h2
  | float fmt => obtain ⟨i, h1, h2⟩ := h; cases h1; exact h2
  | bool =>
    obtain ⟨b, h1 | h1, h2⟩ := h
    · cases h1; exact h2
    · cases h1
  | text =>
    obtain ⟨_, h⟩ | ⟨_, h, _⟩ := h
    · exact h
    · cases h
  | data =>
    obtain ⟨_, h⟩ | ⟨_, h, _⟩ := h
    · exact h
    · cases h
  | struct =>
    obtain ⟨_, h⟩ | ⟨_, _, _, h, _⟩ := h
    · exact h
    · cases h
  | list it =>
    obtain ⟨_, h⟩ | ⟨_, _, _, h, _⟩ := h
    · exact h
    · cases h
  | anyPointer => exact h.elim

theorem slotDefault_isNone {ty : SlotType} {dflt : Option Int} (h : (slotDefault ty dflt).isNone = true) :
    declaredDefault ty dflt = .none := by
  cases ty <;> first | rfl | (exact absurd h (by simp [slotDefault, Arg.isNone]))

mutual

/-- A field that was given its default argument reads as the declared default. -/
theorem reads_default {ds ps : Nat} (o : StructObj) (union : Option Nat) : ∀ f : Field, FieldWF ds ps f →
    ReadsVal o f (defaultArg none f) (getField o union f) → ReadsDefault o union f
  | .slot name code disc ty off dflt, hwf, h => by
    unfold ReadsDefault
    intro hd
    subst hd
    unfold ReadsVal defaultArg at h
    rw [if_neg (by simp)] at h
    exact slotReads_default h
  | .group name code disc nullable gunion children, hwf, h => by
    unfold FieldWF at hwf
    obtain ⟨h1, h2, h3⟩ := hwf
    unfold ReadsDefault
    intro hd
    subst hd
    rw [defaultArg_group] at h
    unfold ReadsVal at h
    by_cases hn : nullable = true
    · rw [if_pos hn] at h ⊢
      obtain ⟨_, hne, c, o', ty, d, c2, rfl, hty, hv, hd2, hs2⟩ := h3 hn
      have hs1 := isNullType_not_skipped (c := c) (o := o') (d := d) (n := "is_null") hty
      intro n1 c1 t1 o1 d1 n2 c2' t2 o2 d2 he
      injection he with he1 he2
      injection he2 with he2 _
      subst he2
      injection he1 with e1 e2 e3 e4 e5 e6
      subst e4 e6
      have hda : defaultArgs none [.slot "is_null" c none ty o' d, .slot n2 c2' none t2 o2 d2] =
          [slotDefault ty d, slotDefault t2 d2] := by
        unfold defaultArgs
        rw [if_neg (by rw [hs1]; simp)]
        unfold defaultArgs
        rw [if_neg (by rw [hs2]; simp)]
        unfold defaultArgs
        unfold defaultArg
        rfl
      rw [if_pos hn, hda] at h
      simp only at h
      have htr : (slotDefault ty d).truthy = (d.getD 0 != 0) := by
        cases ty with
        | prim fmt => rfl
        | bool => rfl
        | _ => exact hty.elim
      rw [htr] at h
      by_cases hd0 : d.getD 0 = 0
      · rw [if_neg (by simpa using hd0)]
        rw [hd0] at h
        simp only [bne_self_eq_false, Bool.false_eq_true, if_false] at h
        by_cases han : (slotDefault t2 d2).isNone = true
        · rw [if_pos han] at h
          rw [h, slotDefault_isNone han]
        · rw [if_neg han] at h
          unfold ReadsLast at h
          simp only at h
          unfold ReadsLast at h
          simp only at h
          unfold ReadsVal at h
          exact slotReads_default h
      · rw [if_pos hd0]
        have : (d.getD 0 != 0) = true := by simpa using hd0
        simp only [this, if_true, Arg.isNone] at h
        exact h
    · rw [if_neg hn] at h ⊢
      obtain ⟨h4, as, h5, h6⟩ := h
      rw [if_neg hn] at h5
      injection h5 with h5
      subst h5
      exact ⟨h4, reads_defaults o gunion children h2 h6⟩

theorem reads_defaults {ds ps : Nat} (o : StructObj) (union : Option Nat) : ∀ fs : List Field,
    FieldsWF ds ps union fs → ReadsFields o union fs (defaultArgs none fs) → ReadsDefaults o union fs
  | [], _, _ => by unfold ReadsDefaults; trivial
  | f :: fs, hwf, h => by
    unfold FieldsWF at hwf
    unfold ReadsDefaults
    unfold ReadsFields defaultArgs at h
    by_cases hs : f.skipped = true
    · rw [if_pos hs, if_pos hs] at h
      refine ⟨?_, reads_defaults o union fs hwf.2.2.2.2 h.2⟩
      unfold Field.skipped at hs
      split at hs
      · unfold ReadsDefault
        intro _
        exact h.1
      · cases hs
    · rw [if_neg hs, if_neg hs] at h
      refine ⟨?_, reads_defaults o union fs hwf.2.2.2.2 h.2⟩
      cases hd : f.disc with
      | none => exact reads_default o union f hwf.1 (h.1 (by simp [absent, hd]))
      | some tag =>
        cases f with
        | slot => unfold ReadsDefault; intro h'; subst h'; cases hd
        | group => unfold ReadsDefault; intro h'; subst h'; cases hd

end

end Capnpy
