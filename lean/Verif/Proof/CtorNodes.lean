import Verif.Proof.CtorSlot

/-! # The fields of a constructor -/

namespace Capnpy

open Spec Props

mutual

/-- The bits written for a field given the argument `a`. -/
def footNode (ds : Nat) : Field → Arg → Nat → Prop
  | .slot _ _ _ ty off _, _, i => slotBits ds ty off i
  | .group _ _ _ nullable gunion children, a, i =>
    if nullable then footAll ds gunion children (nullablePair children a) i
    else
      match a with
      | .tuple as => footAll ds gunion children as i
      | _ => False

def footAll (ds : Nat) (union : Option Nat) : List Field → List Arg → Nat → Prop
  | [], _, _ => False
  | f :: fs, as, i =>
    if f.skipped then footAll ds union fs as i
    else
      match as with
      | [] => False
      | a :: as =>
        (absent f a = false ∧ (footNode ds f a i ∨ (f.disc.isSome ∧ tagBits union i))) ∨ footAll ds union fs as i

end

mutual

/-- The buffer `C` holds the argument `a` in the field. -/
def HoldsField (ds : Nat) (C : Bytes) : Field → Arg → Prop
  | .slot _ _ _ ty off dflt, a => HoldsSlot ds C ty off dflt a
  | .group _ _ _ nullable gunion children, a =>
    if nullable then HoldsFields ds C gunion children (nullablePair children a)
    else ∃ as, a = .tuple as ∧ HoldsFields ds C gunion children as

/-- The buffer holds the arguments that are given, and the discriminants of the
union members among them. -/
def HoldsFields (ds : Nat) (C : Bytes) (union : Option Nat) : List Field → List Arg → Prop
  | [], _ => True
  | f :: fs, as =>
    if f.skipped then HoldsFields ds C union fs as
    else
      match as with
      | [] => False
      | a :: as =>
        (absent f a = false → HoldsField ds C f a ∧
          ∀ tag u, f.disc = some tag → union = some u → readPrimitive C ((u * 2 : Nat) : Int) .h = .ok (tag : Int)) ∧
        HoldsFields ds C union fs as

end

/-- The pointers among the bits `F` denote something. -/
def PtrsOK (ds ps : Nat) (C : Bytes) (F : Nat → Prop) : Prop :=
  ∀ j, j < ps → (∃ i, F i ∧ 64 * (ds + j) ≤ i ∧ i < 64 * (ds + j) + 64) →
    ∃ v, Den C none ((8 * (ds + j) : Nat) : Int) (wordAt C (8 * (ds + j))) v

theorem PtrsOK.or {ds ps : Nat} {C : Bytes} {F G : Nat → Prop} (h1 : PtrsOK ds ps C F) (h2 : PtrsOK ds ps C G) :
    PtrsOK ds ps C (fun i => F i ∨ G i) := by
  rintro j hj ⟨i, hi | hi, hb⟩
  · exact h1 j hj ⟨i, hi, hb⟩
  · exact h2 j hj ⟨i, hi, hb⟩

theorem PtrsOK.mono {ds ps : Nat} {C : Bytes} {F G : Nat → Prop} (h1 : PtrsOK ds ps C F) (h : ∀ i, G i → F i) :
    PtrsOK ds ps C G := by
  rintro j hj ⟨i, hi, hb⟩
  exact h1 j hj ⟨i, h i hi, hb⟩

/-- Bits of the data section are not pointers. -/
theorem PtrsOK.of_data {ds ps : Nat} {C : Bytes} {F : Nat → Prop} (h : ∀ i, F i → i < 64 * ds) :
    PtrsOK ds ps C F := by
  rintro j hj ⟨i, hi, hb⟩
  have := h i hi
  omega

/-! ## Footprints -/

theorem footNode_slot (ds : Nat) (nm : String) (c : Nat) (d : Option Nat) (ty : SlotType) (off : Nat) (df : Option Int)
    (a : Arg) : footNode ds (.slot nm c d ty off df) a = slotBits ds ty off := by
  funext i; unfold footNode; rfl

theorem footNode_nullable (ds : Nat) (nm : String) (c : Nat) (d : Option Nat) (u : Option Nat) (ch : List Field)
    (a : Arg) : footNode ds (.group nm c d true u ch) a = footAll ds u ch (nullablePair ch a) := by
  funext i; unfold footNode; rw [if_pos rfl]

theorem footNode_tuple (ds : Nat) (nm : String) (c : Nat) (d : Option Nat) (u : Option Nat) (ch : List Field)
    (as : List Arg) : footNode ds (.group nm c d false u ch) (.tuple as) = footAll ds u ch as := by
  funext i; unfold footNode; rw [if_neg (by simp)]

theorem footAll_skip (ds : Nat) (u : Option Nat) (f : Field) (fs : List Field) (as : List Arg) (h : f.skipped = true) :
    footAll ds u (f :: fs) as = footAll ds u fs as := by
  funext i; conv_lhs => unfold footAll
  rw [if_pos h]


mutual

theorem footNode_subset (ds : Nat) : ∀ (f : Field) (a : Arg) (i : Nat), footNode ds f a i → fieldBits ds f i
  | .slot .., a, i, h => by unfold footNode at h; unfold fieldBits; exact h
  | .group _ _ _ nullable gunion children, a, i, h => by
    unfold footNode at h
    unfold fieldBits
    by_cases hn : nullable = true
    · rw [if_pos hn] at h
      exact (footAll_subset ds gunion children _ i h).symm
    · rw [if_neg hn] at h
      cases a with
      | tuple as => exact (footAll_subset ds gunion children _ i h).symm
      | _ => exact h.elim

theorem footAll_subset (ds : Nat) (union : Option Nat) : ∀ (fs : List Field) (as : List Arg) (i : Nat),
    footAll ds union fs as i → fieldsBits ds fs i ∨ tagBits union i
  | [], as, i, h => by unfold footAll at h; exact h.elim
  | f :: fs, as, i, h => by
    unfold footAll at h
    unfold fieldsBits
    by_cases hs : f.skipped = true
    · rw [if_pos hs] at h
      rcases footAll_subset ds union fs as i h with h | h
      · exact .inl (.inr h)
      · exact .inr h
    · rw [if_neg hs] at h
      cases as with
      | nil => exact h.elim
      | cons a as =>
        rcases h with ⟨_, h | h⟩ | h
        · exact .inl (.inl (footNode_subset ds f a i h))
        · exact .inr h.2
        · rcases footAll_subset ds union fs as i h with h | h
          · exact .inl (.inr h)
          · exact .inr h

end

/-- Where the bits of the fields come from. -/
theorem footAll_mem (ds : Nat) (union : Option Nat) : ∀ (fs : List Field) (as : List Arg) (i : Nat),
    footAll ds union fs as i →
    ∃ g ∈ fs, (g.disc.isSome → members fs as ≠ []) ∧ (fieldBits ds g i ∨ (g.disc.isSome ∧ tagBits union i))
  | [], as, i, h => by unfold footAll at h; exact h.elim
  | f :: fs, as, i, h => by
    unfold footAll at h
    by_cases hs : f.skipped = true
    · rw [if_pos hs] at h
      obtain ⟨g, hg, h1, h2⟩ := footAll_mem ds union fs as i h
      refine ⟨g, List.mem_cons_of_mem _ hg, fun hd => ?_, h2⟩
      unfold members
      rw [if_pos hs]
      exact h1 hd
    · rw [if_neg hs] at h
      cases as with
      | nil => exact h.elim
      | cons a as =>
        rcases h with ⟨ha, h⟩ | h
        · refine ⟨f, List.mem_cons_self, fun hd => ?_, ?_⟩
          · unfold members
            rw [if_neg hs]
            simp only
            obtain ⟨tag, ht⟩ := Option.isSome_iff_exists.mp hd
            have hu : a.isUndefined = false := by
              unfold absent at ha
              rw [ht] at ha
              simpa using ha
            rw [ht]
            simp [hu]
          · rcases h with h | h
            · exact .inl (footNode_subset ds f a i h)
            · exact .inr h
        · obtain ⟨g, hg, h1, h2⟩ := footAll_mem ds union fs as i h
          refine ⟨g, List.mem_cons_of_mem _ hg, fun hd => ?_, h2⟩
          unfold members
          rw [if_neg hs]
          simp only
          exact fun hc => h1 hd (List.append_eq_nil_iff.mp hc).2

theorem tagBits_lt {ds : Nat} {union : Option Nat} (h : TagWF ds union) {i : Nat} (hi : tagBits union i) :
    i < 64 * ds := by
  cases union with
  | none => exact hi.elim
  | some u =>
    have := h u rfl
    have hi : 16 * u ≤ i ∧ i < 16 * u + 16 := hi
    omega

theorem slotBits_lt {ds ps : Nat} {ty : SlotType} {off : Nat} {dflt : Option Int} (h : SlotWF ds ps ty off dflt)
    {i : Nat} (hi : slotBits ds ty off i) : i < 64 * (ds + ps) := by
  cases ty with
  | void => exact hi.elim
  | bool =>
    have hi : i = off := hi
    have h : off < 64 * ds := h
    omega
  | prim fmt =>
    have hi : 8 * (off * fmt.size) ≤ i ∧ i < 8 * (off * fmt.size) + 8 * fmt.size := hi
    have := h.1
    omega
  | float fmt =>
    have hi : 8 * (off * fmt.size) ≤ i ∧ i < 8 * (off * fmt.size) + 8 * fmt.size := hi
    have := h.1
    omega
  | enum =>
    have hi : 16 * off ≤ i ∧ i < 16 * off + 16 := hi
    have := h.1
    omega
  | text => have hi : 64 * (ds + off) ≤ i ∧ i < 64 * (ds + off) + 64 := hi; have := h.1; omega
  | data => have hi : 64 * (ds + off) ≤ i ∧ i < 64 * (ds + off) + 64 := hi; have := h.1; omega
  | struct => have hi : 64 * (ds + off) ≤ i ∧ i < 64 * (ds + off) + 64 := hi; have := h.1; omega
  | list it => have hi : 64 * (ds + off) ≤ i ∧ i < 64 * (ds + off) + 64 := hi; have := h.1; omega
  | anyPointer => have hi : 64 * (ds + off) ≤ i ∧ i < 64 * (ds + off) + 64 := hi; have := h.1; omega

mutual

theorem fieldBits_lt (ds ps : Nat) : ∀ (f : Field), FieldWF ds ps f → ∀ i, fieldBits ds f i → i < 64 * (ds + ps)
  | .slot .., h, i, hi => by
    unfold FieldWF at h; unfold fieldBits at hi; exact slotBits_lt h hi
  | .group _ _ _ _ union children, h, i, hi => by
    unfold FieldWF at h
    unfold fieldBits at hi
    rcases hi with hi | hi
    · have := tagBits_lt h.1 hi; omega
    · exact fieldsBits_lt ds ps union children h.2.1 i hi

theorem fieldsBits_lt (ds ps : Nat) (union : Option Nat) : ∀ (fs : List Field), FieldsWF ds ps union fs →
    ∀ i, fieldsBits ds fs i → i < 64 * (ds + ps)
  | [], _, i, hi => by unfold fieldsBits at hi; exact hi.elim
  | f :: fs, h, i, hi => by
    unfold FieldsWF at h
    unfold fieldsBits at hi
    rcases hi with hi | hi
    · exact fieldBits_lt ds ps f h.1 i hi
    · exact fieldsBits_lt ds ps union fs h.2.2.2.2 i hi

end

theorem FieldsWF.tag_disj {ds ps : Nat} {union : Option Nat} : ∀ {fs : List Field}, FieldsWF ds ps union fs →
    ∀ g ∈ fs, ∀ i, tagBits union i → ¬ fieldBits ds g i
  | [], _, g, hg, _, _ => by simp at hg
  | f :: fs, h, g, hg, i, hi => by
    unfold FieldsWF at h
    rcases List.mem_cons.mp hg with rfl | hg
    · exact h.2.2.1 i hi
    · exact FieldsWF.tag_disj h.2.2.2.2 g hg i hi

theorem accFields_length (fuel : Nat) : ∀ (fs : List Field) (as : List Arg) (n : Nat), AccFields fuel fs as n →
    as.length = (fs.filter (!·.skipped)).length
  | [], as, n, h => by unfold AccFields at h; simp [h.1]
  | f :: fs, as, n, h => by
    unfold AccFields at h
    by_cases hs : f.skipped = true
    · rw [if_pos hs] at h
      rw [List.filter_cons_of_neg (by simp [hs])]
      exact accFields_length fuel fs as n h
    · rw [if_neg hs] at h
      rw [List.filter_cons_of_pos (by simp [hs])]
      cases as with
      | nil => exact h.elim
      | cons a as =>
        obtain ⟨n1, n2, _, _, h⟩ := h
        simp only [List.length_cons]
        rw [accFields_length fuel fs as n2 h]

/-! ## Nodes -/

/-- What `buildNode` does inside the union check. -/
def bodyNode (fuel ds : Nat) : Field → Arg → BM Unit
  | .slot _ _ _ ty off dflt, a => buildSlot fuel ds ty off dflt a
  | .group _ _ _ nullable gunion children, a =>
    if nullable then do
      let _ ← buildNodes fuel ds gunion false children (nullableArgs children a)
    else
      match a with
      | .tuple as =>
        if as.length = (children.filter (!·.skipped)).length then do
          let _ ← buildNodes fuel ds gunion false children as
        else BM.lift (.error .valueError)
      | _ => BM.lift (.error .typeError)

theorem buildNode_eq (fuel ds : Nat) (union : Option Nat) (cur : Bool) (f : Field) (a : Arg) :
    buildNode fuel ds union cur f a = guardedB union cur f.disc a (bodyNode fuel ds f a) := by
  cases f <;> (unfold buildNode; rfl)

theorem isNullType_not_skipped {c : Nat} {ty : SlotType} {o : Nat} {d : Option Int} {n : String} (h : IsNullType ty) :
    (Field.slot n c none ty o d).skipped = false := by
  cases ty <;> first | rfl | exact h.elim

theorem nullableArgs_eq {c : Nat} {ty : SlotType} {o : Nat} {d : Option Int} {n : String} {c2 : Field} {a : Arg}
    (h : IsNullType ty) (h2 : c2.skipped = false) :
    nullableArgs [.slot n c none ty o d, c2] a = nullablePair [.slot n c none ty o d, c2] a := by
  unfold nullableArgs nullablePair
  by_cases ha : a.isNone = true
  · rw [if_pos ha, if_pos ha]
    unfold defaultArgs
    rw [if_neg (by rw [isNullType_not_skipped h]; simp)]
    unfold defaultArgs
    rw [if_neg (by rw [h2]; simp)]
    rfl
  · rw [if_neg ha, if_neg ha]

/-- The common hypotheses on the buffer. -/
structure BufOK (ds ps : Nat) (b : Bytes) (n : Nat) (F : Nat → Prop) : Prop where
  al : 8 ∣ b.length
  root : 8 * (ds + ps) ≤ b.length
  fits : b.length + n ≤ 2 ^ 32
  zero : ∀ i, F i → bitAt b i = some false

theorem slotPtrsOK {ds ps : Nat} {C : Bytes} {ty : SlotType} {off : Nat} {dflt : Option Int} {a : Arg}
    (hwf : SlotWF ds ps ty off dflt) (h : HoldsSlot ds C ty off dflt a) : PtrsOK ds ps C (slotBits ds ty off) := by
  have ptr : ∀ v, Den C none ((8 * (ds + off) : Nat) : Int) (wordAt C (8 * (ds + off))) v →
      PtrsOK ds ps C (fun i => 64 * (ds + off) ≤ i ∧ i < 64 * (ds + off) + 64) := by
    rintro v hv j hj ⟨i, hi, hb⟩
    have : j = off := by omega
    subst this
    exact ⟨v, hv⟩
  cases ty with
  | void => exact .of_data (fun i hi => hi.elim)
  | bool =>
    refine .of_data (fun i hi => ?_)
    have hi : i = off := hi
    have hwf : off < 64 * ds := hwf
    omega
  | prim fmt =>
    refine .of_data (fun i hi => ?_)
    have hi : 8 * (off * fmt.size) ≤ i ∧ i < 8 * (off * fmt.size) + 8 * fmt.size := hi
    have := hwf.1
    omega
  | float fmt =>
    refine .of_data (fun i hi => ?_)
    have hi : 8 * (off * fmt.size) ≤ i ∧ i < 8 * (off * fmt.size) + 8 * fmt.size := hi
    have := hwf.1
    omega
  | enum =>
    refine .of_data (fun i hi => ?_)
    have hi : 16 * off ≤ i ∧ i < 16 * off + 16 := hi
    have := hwf.1
    omega
  | text => obtain ⟨v, _, h⟩ := h; exact ptr v h
  | data => obtain ⟨v, _, h⟩ := h; exact ptr v h
  | struct => obtain ⟨v, _, h⟩ := h; exact ptr v h
  | list it => obtain ⟨v, _, h⟩ := h; exact ptr v h
  | anyPointer => exact h.elim

theorem inRange_tag {tag : Nat} (h : tag < 2 ^ 15) : InRange .h (tag : Int) := by
  unfold InRange
  rw [if_pos (by rfl)]
  have : ((tag : Nat) : Int) < ((2 ^ 15 : Nat) : Int) := by exact_mod_cast h
  refine ⟨?_, ?_⟩
  · have : (-2 ^ (8 * Fmt.size .h - 1) : Int) ≤ 0 := by simp
    omega
  · simpa [Fmt.size] using this

theorem members_skip {f : Field} {fs : List Field} {as : List Arg} (h : f.skipped = true) :
    members (f :: fs) as = members fs as := by
  conv_lhs => unfold members
  rw [if_pos h]

theorem members_none {f : Field} {fs : List Field} {a : Arg} {as : List Arg} (h : f.skipped = false)
    (hd : f.disc = none) : members (f :: fs) (a :: as) = members fs as := by
  conv_lhs => unfold members
  rw [if_neg (by simp [h])]
  simp [hd]

theorem members_absent {f : Field} {fs : List Field} {a : Arg} {as : List Arg} (h : f.skipped = false)
    (hd : absent f a = true) : members (f :: fs) (a :: as) = members fs as := by
  conv_lhs => unfold members
  rw [if_neg (by simp [h])]
  unfold absent at hd
  simp only [Bool.and_eq_true] at hd
  obtain ⟨tag, ht⟩ := Option.isSome_iff_exists.mp hd.1
  simp [ht, hd.2]

theorem members_some {f : Field} {fs : List Field} {a : Arg} {as : List Arg} {tag : Nat} (h : f.skipped = false)
    (hd : f.disc = some tag) (ha : a.isUndefined = false) :
    members (f :: fs) (a :: as) = tag :: members fs as := by
  conv_lhs => unfold members
  rw [if_neg (by simp [h])]
  simp [hd, ha]

/-- The bits of a field do not meet those of the rest of the fields. -/
theorem foot_disj {ds ps : Nat} {union : Option Nat} {f : Field} {fs : List Field} {a : Arg} {as : List Arg}
    (hwf : FieldsWF ds ps union (f :: fs)) (hm : f.disc.isSome → members fs as = []) (i : Nat)
    (h1 : footNode ds f a i ∨ (f.disc.isSome ∧ tagBits union i)) : ¬ footAll ds union fs as i := by
  intro h2
  obtain ⟨g, hg, hgm, hgb⟩ := footAll_mem ds union fs as i h2
  have htd := FieldsWF.tag_disj hwf
  unfold FieldsWF at hwf
  obtain ⟨_, _, _, hdis, _⟩ := hwf
  rcases h1 with h1 | ⟨h1, h1'⟩
  · have h1 := footNode_subset ds f a i h1
    rcases hgb with hgb | hgb
    · rcases hdis g hg with h | h
      · exact hgm h.2 (hm h.1)
      · exact h i ⟨h1, hgb⟩
    · exact htd f List.mem_cons_self i hgb.2 h1
  · rcases hgb with hgb | hgb
    · exact htd g (List.mem_cons_of_mem _ hg) i h1' hgb
    · exact hgm hgb.1 (hm h1)

mutual

theorem bodyNode_spec (fuel ds ps : Nat) : ∀ (f : Field) (a : Arg) (n : Nat), FieldWF ds ps f →
    AccField fuel f a n → ∀ b : Bytes, BufOK ds ps b n (footNode ds f a) →
    ∃ b', bodyNode fuel ds f a b = .ok () b' ∧
      NodePost b b' n (footNode ds f a) (fun C => HoldsField ds C f a ∧ PtrsOK ds ps C (footNode ds f a))
  | .slot name code disc ty off dflt, a, n, hwf, ha, b, hb => by
    unfold FieldWF at hwf
    unfold AccField at ha
    unfold bodyNode HoldsField
    rw [footNode_slot] at hb ⊢
    obtain ⟨b', e, hp⟩ := buildSlot_spec hwf ha hb.al hb.root hb.fits hb.zero
    exact ⟨b', e, hp.mono (fun _ h => h) (fun C h => ⟨h, slotPtrsOK hwf h⟩)⟩
  | .group name code disc nullable gunion children, a, n, hwf, ha, b, hb => by
    unfold FieldWF at hwf
    obtain ⟨hw1, hw2, hw3⟩ := hwf
    unfold AccField at ha
    unfold bodyNode HoldsField
    cases nullable with
    | true =>
      have hn : true = true := rfl
      rw [footNode_nullable] at hb ⊢
      simp only [if_true] at ha ⊢
      obtain ⟨hu, hne, c, o, ty, d, c2, rfl, hty, hv, hd2, hs2⟩ := hw3 hn
      rw [nullableArgs_eq hty hs2]
      have hmem : members [.slot "is_null" c none ty o d, c2] (nullablePair [.slot "is_null" c none ty o d, c2] a) = [] := by
        have : ∃ x y, nullablePair [.slot "is_null" c none ty o d, c2] a = [x, y] := by
          unfold nullablePair; split <;> exact ⟨_, _, rfl⟩
        obtain ⟨x, y, e⟩ := this
        rw [e, members_none (isNullType_not_skipped hty) rfl, members_none hs2 hd2]
        rfl
      obtain ⟨c', b', e, hp⟩ := buildNodes_spec fuel ds ps gunion false _ _ n hw1 hw2 ha (by rw [hmem]; simp) b hb
      refine ⟨b', ?_, hp⟩
      rw [BM.bind_ok e]; rfl
    | false =>
      simp only [Bool.false_eq_true, if_false] at ha ⊢
      obtain ⟨as, rfl, hac, hm⟩ := ha
      rw [footNode_tuple] at hb ⊢
      simp only
      rw [if_pos (accFields_length fuel _ _ _ hac)]
      obtain ⟨c', b', e, hp⟩ := buildNodes_spec fuel ds ps gunion false children as n hw1 hw2 hac (by simpa using hm) b hb
      refine ⟨b', ?_, hp.mono (fun _ h => h) (fun C h => ⟨⟨as, rfl, h.1⟩, h.2⟩)⟩
      rw [BM.bind_ok e]; rfl

theorem buildNodes_spec (fuel ds ps : Nat) (union : Option Nat) (cur : Bool) :
    ∀ (fs : List Field) (as : List Arg) (n : Nat), TagWF ds union → FieldsWF ds ps union fs →
    AccFields fuel fs as n → (members fs as).length + (if cur then 1 else 0) ≤ 1 →
    ∀ b : Bytes, BufOK ds ps b n (footAll ds union fs as) →
    ∃ c b', buildNodes fuel ds union cur fs as b = .ok c b' ∧
      NodePost b b' n (footAll ds union fs as)
        (fun C => HoldsFields ds C union fs as ∧ PtrsOK ds ps C (footAll ds union fs as))
  | [], as, n, ht, hwf, ha, hm, b, hb => by
    unfold AccFields at ha
    obtain ⟨rfl, rfl⟩ := ha
    refine ⟨cur, b, by unfold buildNodes; rfl, (NodePost.refl hb.al).mono (fun _ h => h.elim) (fun C _ => ⟨?_, ?_⟩)⟩
    · unfold HoldsFields; trivial
    · exact .of_data (fun i hi => by unfold footAll at hi; exact hi.elim)
  | f :: fs, as, n, ht, hwf, ha, hm, b, hb => by
    have hwf' := hwf
    unfold FieldsWF at hwf
    obtain ⟨w1, w2, w3, w4, w5⟩ := hwf
    by_cases hs : f.skipped = true
    · unfold AccFields at ha
      rw [if_pos hs] at ha
      rw [members_skip hs] at hm
      rw [footAll_skip _ _ _ _ _ hs] at hb ⊢
      unfold buildNodes HoldsFields
      simp only [if_pos hs]
      exact buildNodes_spec fuel ds ps union cur fs as n ht w5 ha hm b hb
    · unfold AccFields at ha
      rw [if_neg hs] at ha
      have hs' : f.skipped = false := by simpa using hs
      cases as with
      | nil => exact ha.elim
      | cons a as =>
        obtain ⟨n1, n2, rfl, ha1, ha2⟩ := ha
        have hfoot : ∀ i, footAll ds union (f :: fs) (a :: as) i ↔
            ((absent f a = false ∧ (footNode ds f a i ∨ (f.disc.isSome ∧ tagBits union i))) ∨
              footAll ds union fs as i) := by
          intro i
          conv_lhs => unfold footAll
          rw [if_neg hs]
        have hholds : ∀ C, HoldsFields ds C union (f :: fs) (a :: as) ↔
            ((absent f a = false → HoldsField ds C f a ∧
              ∀ tag u, f.disc = some tag → union = some u →
                readPrimitive C ((u * 2 : Nat) : Int) .h = .ok (tag : Int)) ∧
            HoldsFields ds C union fs as) := by
          intro C
          conv_lhs => unfold HoldsFields
          rw [if_neg hs]
        have hbuild : buildNodes fuel ds union cur (f :: fs) (a :: as) b =
            (buildNode fuel ds union cur f a >>= fun cur => buildNodes fuel ds union cur fs as) b := by
          conv_lhs => unfold buildNodes
          rw [if_neg hs]
        rw [hbuild]
        have hlt : ∀ i, footAll ds union fs as i → i < 8 * (8 * (ds + ps)) := by
          intro i hi
          rcases footAll_subset ds union fs as i hi with h | h
          · have := fieldsBits_lt ds ps union fs w5 i h; omega
          · have := tagBits_lt ht h; omega
        have hlt1 : ∀ i, footNode ds f a i → i < 8 * (8 * (ds + ps)) := by
          intro i hi
          have := fieldBits_lt ds ps f w1 i (footNode_subset ds f a i hi)
          omega
        by_cases hab : absent f a = true
        · rw [if_pos hab] at ha1
          subst ha1
          have hd := hab
          unfold absent at hd
          simp only [Bool.and_eq_true] at hd
          obtain ⟨tag, htag⟩ := Option.isSome_iff_exists.mp hd.1
          obtain ⟨u, hu⟩ := Option.isSome_iff_exists.mp (w2 tag htag).1
          rw [members_absent hs' hab] at hm
          have hfa : ∀ i, footAll ds union fs as i → footAll ds union (f :: fs) (a :: as) i :=
            fun i hi => (hfoot i).mpr (.inr hi)
          obtain ⟨c, b', e, hp⟩ := buildNodes_spec fuel ds ps union cur fs as n2 ht w5 ha2 hm b
            ⟨hb.al, hb.root, by have := hb.fits; omega, fun i hi => hb.zero i (hfa i hi)⟩
          refine ⟨c, b', ?_, ?_⟩
          · rw [buildNode_eq, BM.bind_ok (a := cur) (s' := b)]
            · exact e
            · rw [htag, hu]
              unfold guardedB
              simp only
              rw [if_pos hd.2]; rfl
          · rw [Nat.zero_add]
            refine hp.mono hfa (fun C h => ⟨(hholds C).mpr ⟨fun h' => ?_, h.1⟩, h.2.mono fun i hi => ?_⟩)
            · rw [hab] at h'; simp at h'
            · rcases (hfoot i).mp hi with h | h
              · rw [hab] at h; simp at h
              · exact h
        · rw [if_neg hab] at ha1
          have hab' : absent f a = false := by simpa using hab
          have hfit := hb.fits
          cases hdisc : f.disc with
          | none =>
            rw [members_none hs' hdisc] at hm
            obtain ⟨b1, e1, hp1⟩ := bodyNode_spec fuel ds ps f a n1 w1 ha1 b
              ⟨hb.al, hb.root, by omega, fun i hi => hb.zero i ((hfoot i).mpr (.inl ⟨hab', .inl hi⟩))⟩
            have hl1 := hp1.len
            have hroot := hb.root
            obtain ⟨c, b2, e2, hp2⟩ := buildNodes_spec fuel ds ps union cur fs as n2 ht w5 ha2 hm b1
              ⟨hp1.al, by omega, by omega, fun i hi => by
                have hi' := hlt i hi
                rw [hp1.frame i (by omega) (fun hf => foot_disj hwf' (by simp [hdisc]) i (.inl hf) hi)]
                exact hb.zero i ((hfoot i).mpr (.inr hi))⟩
            refine ⟨c, b2, ?_, ?_⟩
            · rw [buildNode_eq, BM.bind_ok (a := cur) (s' := b1)]
              · exact e2
              · rw [hdisc]
                unfold guardedB
                simp only
                rw [BM.bind_ok e1]; rfl
            · refine (hp1.seq hp2 hroot hlt (fun i h1 h2 => foot_disj hwf' (by simp [hdisc]) i (.inl h1) h2) hlt1).mono
                (fun i hi => ?_) (fun C h => ⟨(hholds C).mpr ⟨fun _ => ⟨h.1.1, ?_⟩, h.2.1⟩, ?_⟩)
              · rcases hi with hi | hi
                · exact (hfoot i).mpr (.inl ⟨hab', .inl hi⟩)
                · exact (hfoot i).mpr (.inr hi)
              · intro tag u h; rw [hdisc] at h; cases h
              · refine (h.1.2.or h.2.2).mono fun i hi => ?_
                rcases (hfoot i).mp hi with ⟨_, h | h⟩ | h
                · exact .inl h
                · rw [hdisc] at h; simp at h
                · exact .inr h
          | some tag =>
            obtain ⟨hus, htag⟩ := w2 tag hdisc
            obtain ⟨u, hu⟩ := Option.isSome_iff_exists.mp hus
            have hund : a.isUndefined = false := by
              unfold absent at hab'; rw [hdisc] at hab'; simpa using hab'
            rw [members_some hs' hdisc hund] at hm
            have hcur : cur = false := by
              cases cur with
              | false => rfl
              | true => simp at hm
            subst hcur
            have hm0 : members fs as = [] := by
              cases hmm : members fs as with
              | nil => rfl
              | cons _ _ => rw [hmm] at hm; simp at hm
            have hroot := hb.root
            have hu2 := ht u hu
            obtain ⟨b0, e0, hp0⟩ := write_num (b := b) (fmt := .h) (k := u * 2) (v := (tag : Int)) (inRange_tag htag)
              (by show _ + 2 ≤ _; omega) hb.al
            have hp0 : NodePost b b0 0 (tagBits union) (fun C => readPrimitive C ((u * 2 : Nat) : Int) .h = .ok (tag : Int)) := by
              refine hp0.mono (fun i hi => ?_) (fun C h => h)
              have hi : 8 * (u * 2) ≤ i ∧ i < 8 * (u * 2) + 16 := hi
              rw [hu]
              show 16 * u ≤ i ∧ i < 16 * u + 16
              omega
            have hl0 := hp0.len
            have htl : ∀ i, tagBits union i → i < 8 * (8 * (ds + ps)) := by
              intro i hi; have := tagBits_lt ht hi; omega
            have hd0 : ∀ i, tagBits union i → ¬ footNode ds f a i := by
              intro i h1 h2
              exact w3 i h1 (footNode_subset ds f a i h2)
            obtain ⟨b1, e1, hp1⟩ := bodyNode_spec fuel ds ps f a n1 w1 ha1 b0
              ⟨hp0.al, by omega, by omega, fun i hi => by
                have hi' := hlt1 i hi
                rw [hp0.frame i (by omega) (fun h => hd0 i h hi)]
                exact hb.zero i ((hfoot i).mpr (.inl ⟨hab', .inl hi⟩))⟩
            have hl1 := hp1.len
            have hp01 := hp0.seq hp1 hroot hlt1 hd0 htl
            have hdisj : ∀ i, (tagBits union i ∨ footNode ds f a i) → ¬ footAll ds union fs as i := by
              intro i hi
              refine foot_disj (a := a) hwf' (fun _ => hm0) i ?_
              rcases hi with hi | hi
              · exact .inr ⟨by simp [hdisc], hi⟩
              · exact .inl hi
            obtain ⟨c, b2, e2, hp2⟩ := buildNodes_spec fuel ds ps union true fs as n2 ht w5 ha2 (by rw [hm0]; simp) b1
              ⟨hp1.al, by omega, by omega, fun i hi => by
                have hi' := hlt i hi
                rw [hp01.frame i (by omega) (fun hf => hdisj i hf hi)]
                exact hb.zero i ((hfoot i).mpr (.inr hi))⟩
            refine ⟨c, b2, ?_, ?_⟩
            · rw [buildNode_eq, BM.bind_ok (a := true) (s' := b1)]
              · exact e2
              · rw [hdisc, hu]
                unfold guardedB
                simp only
                rw [if_neg (by simp [hund]), if_neg (by simp), BM.bind_ok e0, BM.bind_ok e1]; rfl
            · have hp012 := hp01.seq hp2 hroot hlt hdisj (fun i hi => by
                rcases hi with hi | hi
                · exact htl i hi
                · exact hlt1 i hi)
              rw [Nat.zero_add] at hp012
              refine hp012.mono (fun i hi => ?_) (fun C h => ⟨(hholds C).mpr ⟨fun _ => ⟨h.1.2.1, ?_⟩, h.2.1⟩, ?_⟩)
              · rcases hi with (hi | hi) | hi
                · exact (hfoot i).mpr (.inl ⟨hab', .inr ⟨by simp [hdisc], hi⟩⟩)
                · exact (hfoot i).mpr (.inl ⟨hab', .inl hi⟩)
                · exact (hfoot i).mpr (.inr hi)
              · intro tag' u' h1 h2
                rw [hdisc] at h1
                rw [hu] at h2
                cases h1
                cases h2
                exact h.1.1
              · refine ((PtrsOK.of_data (fun i hi => tagBits_lt ht hi)).or (h.1.2.2.or h.2.2)).mono fun i hi => ?_
                rcases (hfoot i).mp hi with ⟨_, h | h⟩ | h
                · exact .inr (.inl h)
                · exact .inl h.2
                · exact .inr (.inr h)

end

end Capnpy
