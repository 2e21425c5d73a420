import Verif.Proof.Evolve

/-! # The tags of the unions of a constructed message -/

namespace Capnpy

open Spec Props

theorem footAll_mem_tag (ds : Nat) (union : Option Nat) : ∀ (fs : List Field) (as : List Arg) (i : Nat),
    footAll ds union fs as i →
    ∃ g ∈ fs, (∀ t, g.disc = some t → t ∈ members fs as) ∧ (fieldBits ds g i ∨ (g.disc.isSome ∧ tagBits union i))
  | [], as, i, h => by unfold footAll at h; exact h.elim
  | f :: fs, as, i, h => by
    unfold footAll at h
    by_cases hs : f.skipped = true
    · rw [if_pos hs] at h
      obtain ⟨g, hg, h1, h2⟩ := footAll_mem_tag ds union fs as i h
      refine ⟨g, List.mem_cons_of_mem _ hg, fun t ht => ?_, h2⟩
      rw [members_skip hs]
      exact h1 t ht
    · rw [if_neg hs] at h
      have hs' : f.skipped = false := by simpa using hs
      cases as with
      | nil => exact h.elim
      | cons a as =>
        rcases h with ⟨ha, h⟩ | h
        · refine ⟨f, List.mem_cons_self, fun t ht => ?_, ?_⟩
          · have hu : a.isUndefined = false := by
              unfold absent at ha
              rw [ht] at ha
              simpa using ha
            rw [members_some hs' ht hu]
            exact List.mem_cons_self
          · rcases h with h | h
            · exact .inl (footNode_subset ds f a i h)
            · exact .inr h
        · obtain ⟨g, hg, h1, h2⟩ := footAll_mem_tag ds union fs as i h
          refine ⟨g, List.mem_cons_of_mem _ hg, fun t ht => ?_, h2⟩
          unfold members
          rw [if_neg hs]
          exact List.mem_append_right _ (h1 t ht)

theorem disc_mem {fs : List Field} {g : Field} {t : Nat} (hg : g ∈ fs) (ht : g.disc = some t) :
    t ∈ fs.filterMap Field.disc := List.mem_filterMap.mpr ⟨g, hg, ht⟩

theorem members_disc : ∀ (fs : List Field) (as : List Arg) (t : Nat), t ∈ members fs as → ∃ f ∈ fs, f.disc = some t
  | [], as, t, h => by unfold members at h; cases h
  | f :: fs, as, t, h => by
    by_cases hs : f.skipped = true
    · rw [members_skip hs] at h
      obtain ⟨g, hg, h⟩ := members_disc fs as t h
      exact ⟨g, List.mem_cons_of_mem _ hg, h⟩
    · unfold members at h
      rw [if_neg hs] at h
      cases as with
      | nil => cases h
      | cons a as =>
        rcases List.mem_append.mp h with h | h
        · cases hd : f.disc with
          | none => rw [hd] at h; cases h
          | some tag =>
            rw [hd] at h
            simp only at h
            split at h
            · cases h
            · obtain rfl : t = tag := by simpa using h
              exact ⟨f, List.mem_cons_self, hd⟩
        · obtain ⟨g, hg, h⟩ := members_disc fs as t h
          exact ⟨g, List.mem_cons_of_mem _ hg, h⟩

/-- The argument of a field, and which of the bits of the field were written. -/
theorem field_arg (fuel ds ps : Nat) (C : Bytes) (union : Option Nat) : ∀ (fs : List Field) (as : List Arg) (n : Nat),
    FieldsWF ds ps union fs → (fs.filterMap Field.disc).Nodup → AccFields fuel fs as n → HoldsFields ds C union fs as →
    ∀ f ∈ fs, f.skipped = false →
    ∃ a, (absent f a = false → HoldsField ds C f a ∧ ∃ n', AccField fuel f a n') ∧
      ∀ i, fieldBits ds f i → footAll ds union fs as i →
        (absent f a = false ∧ footNode ds f a i) ∨ ∃ t t', f.disc = some t ∧ t' ∈ members fs as ∧ t ≠ t'
  | [], _, _, _, _, _, _, f, hf, _ => by cases hf
  | h :: fs, as, n, hwf, hnd, hacc, hh, f, hf, hsf => by
    have htd := FieldsWF.tag_disj hwf
    unfold FieldsWF at hwf
    obtain ⟨w1, w2, w3, w4, w5⟩ := hwf
    unfold AccFields at hacc
    unfold HoldsFields at hh
    have hnd' : (fs.filterMap Field.disc).Nodup := by
      cases hd : h.disc with
      | none => rw [List.filterMap_cons_none hd] at hnd; exact hnd
      | some t => rw [List.filterMap_cons_some hd] at hnd; exact (List.nodup_cons.mp hnd).2
    have hne : ∀ t, h.disc = some t → ∀ g ∈ fs, ∀ t', g.disc = some t' → t ≠ t' := by
      intro t ht g hg t' ht' e
      subst e
      rw [List.filterMap_cons_some ht] at hnd
      exact (List.nodup_cons.mp hnd).1 (disc_mem hg ht')
    by_cases hs : h.skipped = true
    · rw [if_pos hs] at hacc hh
      have hf' : f ∈ fs := by
        rcases List.mem_cons.mp hf with rfl | hf
        · rw [hsf] at hs; cases hs
        · exact hf
      obtain ⟨a, h1, h2⟩ := field_arg fuel ds ps C union fs as n w5 hnd' hacc hh f hf' hsf
      refine ⟨a, h1, fun i hi hfoot => ?_⟩
      rw [footAll_skip _ _ _ _ _ hs] at hfoot
      rw [members_skip hs]
      exact h2 i hi hfoot
    · rw [if_neg hs] at hacc hh
      have hs' : h.skipped = false := by simpa using hs
      cases as with
      | nil => exact hacc.elim
      | cons x as =>
        simp only at hacc hh
        obtain ⟨n1, n2, _, hacc1, hacc2⟩ := hacc
        rcases List.mem_cons.mp hf with rfl | hf'
        · refine ⟨x, fun hab => ⟨(hh.1 hab).1, n1, ?_⟩, fun i hi hfoot => ?_⟩
          · rw [if_neg (by rw [hab]; simp)] at hacc1
            exact hacc1
          · unfold footAll at hfoot
            rw [if_neg hs] at hfoot
            rcases hfoot with ⟨hab, hfoot | hfoot⟩ | hfoot
            · exact .inl ⟨hab, hfoot⟩
            · exact absurd hi (htd f List.mem_cons_self i hfoot.2)
            · obtain ⟨g, hg, hgm, hgb⟩ := footAll_mem_tag ds union fs as i hfoot
              rcases hgb with hgb | hgb
              · rcases w4 g hg with hb | hb
                · obtain ⟨t, ht⟩ := Option.isSome_iff_exists.mp hb.1
                  obtain ⟨t', ht'⟩ := Option.isSome_iff_exists.mp hb.2
                  refine .inr ⟨t, t', ht, ?_, hne t ht g hg t' ht'⟩
                  unfold members
                  rw [if_neg hs]
                  exact List.mem_append_right _ (hgm t' ht')
                · exact absurd ⟨hi, hgb⟩ (hb i)
              · exact absurd hi (htd f List.mem_cons_self i hgb.2)
        · obtain ⟨a, h1, h2⟩ := field_arg fuel ds ps C union fs as n2 w5 hnd' hacc2 hh.2 f hf' hsf
          refine ⟨a, h1, fun i hi hfoot => ?_⟩
          unfold footAll at hfoot
          rw [if_neg hs] at hfoot
          rcases hfoot with ⟨hab, hfoot | hfoot⟩ | hfoot
          · have hib := footNode_subset ds h x i hfoot
            rcases w4 f hf' with hb | hb
            · obtain ⟨t, ht⟩ := Option.isSome_iff_exists.mp hb.1
              obtain ⟨t', ht'⟩ := Option.isSome_iff_exists.mp hb.2
              refine .inr ⟨t', t, ht', ?_, (hne t ht f hf' t' ht').symm⟩
              have hu : x.isUndefined = false := by
                unfold absent at hab
                rw [ht] at hab
                simpa using hab
              rw [members_some hs' ht hu]
              exact List.mem_cons_self
            · exact absurd ⟨hib, hi⟩ (hb i)
          · exact absurd hi (htd f (List.mem_cons_of_mem _ hf') i hfoot.2)
          · rcases h2 i hi hfoot with h | ⟨t, t', h3, h4, h5⟩
            · exact .inl h
            · refine .inr ⟨t, t', h3, ?_, h5⟩
              unfold members
              rw [if_neg hs]
              exact List.mem_append_right _ h4

/-- What is known about the fields of an active group. -/
def Region (fuel ds : Nat) (C : Bytes) (union : Option Nat) (fs : List Field) : Prop :=
  (∀ i, tagBits union i ∨ fieldsBits ds fs i → bitAt C i = some false) ∨
  ∃ as n, AccFields fuel fs as n ∧ (members fs as).length ≤ 1 ∧ HoldsFields ds C union fs as ∧
    ∀ i, tagBits union i ∨ fieldsBits ds fs i → ¬ footAll ds union fs as i → bitAt C i = some false

theorem fieldsBits_mem {ds : Nat} : ∀ {fs : List Field} {f : Field}, f ∈ fs → ∀ {i}, fieldBits ds f i → fieldsBits ds fs i
  | g :: gs, f, hf, i, hi => by
    unfold fieldsBits
    rcases List.mem_cons.mp hf with rfl | hf
    · exact .inl hi
    · exact .inr (fieldsBits_mem hf hi)

/-- The tag of an active group: it is zero or the number of one of its members. -/
theorem region_tag {fuel ds ps : Nat} {C : Bytes} {u : Nat} {fs : List Field} (hwf : FieldsWF ds ps (some u) fs)
    (h : Region fuel ds C (some u) fs) {t : Int} (hr : readPrimitive C ((u * 2 : Nat) : Int) .h = .ok t) :
    t = 0 ∨ ∃ as : List Arg, ∃ m : Nat, members fs as = [m] ∧ t = m ∧ HoldsFields ds C (some u) fs as := by
  have zero : (∀ i, tagBits (some u) i → bitAt C i = some false) → t = 0 := by
    intro hz
    have := readPrimitive_zero (C := C) (k := u * 2) fun j hj => zero_byte fun m hm => hz _ (by
      show 16 * u ≤ _ ∧ _ < 16 * u + 16
      omega)
    rw [this] at hr
    injection hr with hr
    exact hr.symm
  rcases h with hz | ⟨as, n, _, hm, hh, hz⟩
  · exact .inl (zero fun i hi => hz i (.inl hi))
  · cases hmm : members fs as with
    | nil => exact .inl (zero fun i hi => hz i (.inl hi) (footAll_no_tag hwf hmm i hi))
    | cons m rest =>
      have hrest : rest = [] := by
        rw [hmm] at hm
        simpa using hm
      subst hrest
      refine .inr ⟨as, m, hmm, ?_, hh⟩
      have := holdsFields_tag rfl hh m (by rw [hmm]; simp)
      rw [this] at hr
      injection hr with hr
      exact hr.symm

theorem fieldsWF_disc {ds ps : Nat} {u : Option Nat} : ∀ {fs : List Field}, FieldsWF ds ps u fs →
    ∀ {f : Field}, f ∈ fs → ∀ t, f.disc = some t → u.isSome
  | g :: gs, h, f, hf, t, ht => by
    unfold FieldsWF at h
    rcases List.mem_cons.mp hf with rfl | hf
    · exact (h.2.1 t ht).1
    · exact fieldsWF_disc h.2.2.2.2 hf t ht

/-- From a group to a group in it. -/
theorem region_step {fuel ds ps : Nat} {C : Bytes} {union : Option Nat} {fs : List Field} (hwf : FieldsWF ds ps union fs)
    (hnd : (fs.filterMap Field.disc).Nodup) (h : Region fuel ds C union fs) {x : String} {code : Nat} {disc gunion : Option Nat}
    {children : List Field} (hf : Field.group x code disc false gunion children ∈ fs)
    (hg : ∀ d u, disc = some d → union = some u → readPrimitive C ((u * 2 : Nat) : Int) .h = .ok (d : Int)) :
    Region fuel ds C gunion children := by
  have hsub : ∀ i, tagBits gunion i ∨ fieldsBits ds children i → fieldBits ds (.group x code disc false gunion children) i := by
    intro i hi
    unfold fieldBits
    exact hi
  rcases h with hz | ⟨as, n, hacc, hm, hh, hz⟩
  · exact .inl fun i hi => hz i (.inr (fieldsBits_mem hf (hsub i hi)))
  · obtain ⟨a, h1, h2⟩ := field_arg fuel ds ps C union fs as n hwf hnd hacc hh _ hf rfl
    have hno : ∀ t t', disc = some t → t' ∈ members fs as → t = t' := by
      intro t t' ht ht'
      obtain ⟨g, hg', hd'⟩ := members_disc fs as t' ht'
      obtain ⟨u, hu⟩ : ∃ u, union = some u := by
        have := fieldsWF_disc hwf hg' t' hd'
        exact Option.isSome_iff_exists.mp this
      have e1 := hg t u ht hu
      have e2 := holdsFields_tag hu hh t' ht'
      rw [e1] at e2
      injection e2 with e2
      exact_mod_cast e2
    have hfoot : ∀ i, tagBits gunion i ∨ fieldsBits ds children i → footAll ds union fs as i →
        absent (.group x code disc false gunion children) a = false ∧
          footNode ds (.group x code disc false gunion children) a i := by
      intro i hi hft
      rcases h2 i (hsub i hi) hft with h | ⟨t, t', e1, e2, e3⟩
      · exact h
      · exact absurd (hno t t' e1 e2) e3
    by_cases hab : absent (.group x code disc false gunion children) a = false
    · obtain ⟨hold, n', hacc'⟩ := h1 hab
      unfold HoldsField at hold
      unfold AccField at hacc'
      rw [if_neg (by simp)] at hold hacc'
      obtain ⟨as', rfl, hold⟩ := hold
      obtain ⟨as'', e, hacc', hm'⟩ := hacc'
      injection e with e
      subst e
      refine .inr ⟨as', n', hacc', hm', hold, fun i hi hn => hz i (.inr (fieldsBits_mem hf (hsub i hi))) fun hft => hn ?_⟩
      have := (hfoot i hi hft).2
      unfold footNode at this
      rw [if_neg (by simp)] at this
      exact this
    · exact .inl fun i hi => hz i (.inr (fieldsBits_mem hf (hsub i hi))) fun hft => hab (hfoot i hi hft).1

theorem fieldsWF_member {ds ps : Nat} {u : Option Nat} : ∀ {fs : List Field}, FieldsWF ds ps u fs →
    ∀ {f : Field}, f ∈ fs → FieldWF ds ps f
  | g :: gs, h, f, hf => by
    unfold FieldsWF at h
    rcases List.mem_cons.mp hf with rfl | hf
    · exact h.1
    · exact fieldsWF_member h.2.2.2.2 hf

theorem fieldsTags_mem : ∀ {fs : List Field}, fieldsTags fs → ∀ {f : Field}, f ∈ fs → fieldTags f
  | g :: gs, h, f, hf => by
    unfold fieldsTags at h
    rcases List.mem_cons.mp hf with rfl | hf
    · exact h.1
    · exact fieldsTags_mem h.2 hf

theorem holds_read {C : Bytes} {ds ps u d : Nat} (hb : 8 * (ds + ps) ≤ C.length) (hu : 2 * u + 2 ≤ 8 * ds)
    (h : Holds (objAt C none 0 ds ps) (u, d)) : readPrimitive C ((u * 2 : Nat) : Int) .h = .ok (d : Int) := by
  have h : (objAt C none 0 ds ps).readPrimitive ((u * 2 : Nat) : Int) .h = .ok (d : Int) := h
  unfold StructObj.readPrimitive objAt at h
  simp only at h
  rw [if_neg (by omega)] at h
  rw [show (((0 : Nat) : Int) + ((u * 2 : Nat) : Int)) = ((u * 2 : Nat) : Int) by omega] at h
  exact h

/-- The active groups of a constructed message. -/
theorem region_group {fuel ds ps : Nat} {C : Bytes} (hb : 8 * (ds + ps) ≤ C.length) {union gunion : Option Nat}
    {fs children : List Field} {G : List Guard} (h : HasGroup union fs G gunion children) (ht : TagWF ds union)
    (hwf : FieldsWF ds ps union fs) (hd : DistinctTags fs) (hr : Region fuel ds C union fs)
    (hg : ∀ g ∈ G, Holds (objAt C none 0 ds ps) g) :
    Region fuel ds C gunion children ∧ TagWF ds gunion ∧ FieldsWF ds ps gunion children := by
  induction h with
  | self => exact ⟨hr, ht, hwf⟩
  | @group union fields x code disc gunion gunion' children children' G hf hsub ih =>
    have hw := fieldsWF_member hwf hf
    unfold FieldWF at hw
    unfold DistinctTags at hd
    have hd' := fieldsTags_mem hd.2 hf
    unfold fieldTags at hd'
    refine ih hw.1 hw.2.1 hd' (region_step hwf hd.1 hr hf fun d u hdd hu => ?_)
      (fun g hg' => hg g (List.mem_append_right _ hg'))
    subst hdd hu
    exact holds_read hb (ht u rfl) (hg (u, d) (List.mem_append_left _ (by simp [guardOf])))

/-- A new member of a union is not set. -/
theorem newMember_not_holds {fuel ds ps : Nat} {C : Bytes} (hb : 8 * (ds + ps) ≤ C.length) {union : Option Nat} {u tag : Nat}
    {fs children : List Field} {G : List Guard} (h : HasGroup union fs G (some u) children) (ht : TagWF ds union)
    (hwf : FieldsWF ds ps union fs) (hd : DistinctTags fs) (hr : Region fuel ds C union fs)
    (h0 : tag ≠ 0) (hnew : ∀ f ∈ children, f.disc ≠ some tag)
    (hg : ∀ g ∈ G, Holds (objAt C none 0 ds ps) g) : ¬ Holds (objAt C none 0 ds ps) (u, tag) := by
  intro hc
  obtain ⟨r1, r2, r3⟩ := region_group hb h ht hwf hd hr hg
  rcases region_tag r3 r1 (holds_read hb (r2 u rfl) hc) with h | ⟨as, m, h1, h2, _⟩
  · exact h0 (by exact_mod_cast h)
  · obtain ⟨f, hf, hfd⟩ := members_disc children as m (by rw [h1]; simp)
    obtain rfl : tag = m := by exact_mod_cast h2
    exact hnew f hf hfd

end Capnpy
