import Verif.Model.Group
import Verif.Proof.Ctor
import Verif.Proof.CtorDefault

/-! # Group constructors -/

namespace Capnpy

open Spec Props

/-! ## Calls -/

theorem bindCall_ok {params : List (String × Arg)} {pos : List Arg} {kw : List (String × Arg)}
    (h1 : pos.length ≤ params.length)
    (h2 : ∀ x ∈ kw, ∃ p ∈ params.drop pos.length, p.1 = x.1) (h3 : (kw.map Prod.fst).Nodup) :
    bindCall params pos kw = .ok (pos ++ (params.drop pos.length).map fun p => (kw.lookup p.1).getD p.2) := by
  have e : kw.all (fun x => (params.drop pos.length).any fun p => p.1 == x.1) = true := by
    rw [List.all_eq_true]
    intro x hx
    obtain ⟨p, hp, he⟩ := h2 x hx
    rw [List.any_eq_true]
    exact ⟨p, hp, by simpa using he⟩
  unfold bindCall
  rw [if_neg (by omega), if_neg (by rw [e]; simp), if_neg (by simpa using h3)]

theorem bindCall_error {params : List (String × Arg)} {pos : List Arg} {kw : List (String × Arg)}
    (h : params.length < pos.length ∨ (∃ x ∈ kw, ∀ p ∈ params.drop pos.length, p.1 ≠ x.1) ∨
      ¬ (kw.map Prod.fst).Nodup) : bindCall params pos kw = .error .typeError := by
  unfold bindCall
  split
  · rfl
  · split
    · rfl
    · split
      · rfl
      · rename_i h1 h2 h3
        exfalso
        rcases h with h | ⟨x, hx, h⟩ | h
        · exact h1 h
        · simp only [Bool.not_eq_false] at h2
          rw [List.all_eq_true] at h2
          have := h2 x hx
          rw [List.any_eq_true] at this
          obtain ⟨p, hp, he⟩ := this
          exact h p hp (by simpa using he)
        · exact h3 h

theorem lookupLast_mem {x : String} : ∀ {l : List (String × List Field)} {c : List Field}, lookupLast x l = some c →
    (x, c) ∈ l
  | [], c, h => by cases h
  | (y, d) :: r, c, h => by
    unfold lookupLast at h
    split at h
    · rename_i c' e
      cases h
      exact List.mem_cons_of_mem _ (lookupLast_mem e)
    · split at h
      · rename_i e
        cases h
        rw [e]; exact List.mem_cons_self
      · cases h

theorem lookupLast_isSome {x : String} : ∀ {l : List (String × List Field)} {c : List Field}, (x, c) ∈ l →
    ∃ c', lookupLast x l = some c'
  | [], c, h => by simp at h
  | (y, d) :: r, c, h => by
    unfold lookupLast
    cases e : lookupLast x r with
    | some c' => exact ⟨c', rfl⟩
    | none =>
      rcases List.mem_cons.mp h with h | h
      · cases h
        exact ⟨d, by simp⟩
      · obtain ⟨c', e'⟩ := lookupLast_isSome h
        rw [e] at e'; cases e'

/-- The methods are those of the groups which are not nullable. -/
theorem groupMethods_mem {kwlist : List String} : ∀ {fs : List Field} {ms : List (String × List Field)},
    groupMethods kwlist fs = .ok ms → ∀ x c, (x, c) ∈ ms ↔
      ∃ name code disc u, Field.group name code disc false u c ∈ fs ∧ x = capitalName name
  | [], ms, h, x, c => by
    unfold groupMethods at h
    cases h
    simp
  | .slot n co d ty o df :: fs, ms, h, x, c => by
    unfold groupMethods at h
    rw [groupMethods_mem h]
    simp
  | .group n co d true u ch :: fs, ms, h, x, c => by
    unfold groupMethods at h
    rw [if_pos rfl] at h
    rw [groupMethods_mem h]
    simp
  | .group n co d false u ch :: fs, ms, h, x, c => by
    unfold groupMethods at h
    rw [if_neg (by simp)] at h
    split at h
    · cases h
    · cases e : groupMethods kwlist fs with
      | error err => rw [e] at h; cases h
      | ok rest =>
        rw [e] at h
        cases h
        rw [List.mem_cons, groupMethods_mem e]
        constructor
        · rintro (h | ⟨name, code, disc, u', hm, hx⟩)
          · cases h
            exact ⟨n, co, d, u, List.mem_cons_self, rfl⟩
          · exact ⟨name, code, disc, u', List.mem_cons_of_mem _ hm, hx⟩
        · rintro ⟨name, code, disc, u', hm, hx⟩
          rcases List.mem_cons.mp hm with hm | hm
          · injection hm with h1 h2 h3 h4 h5 h6
            left
            rw [hx, h1, h6]
          · exact .inr ⟨name, code, disc, u', hm, hx⟩

/-- What is emitted compiles: every group has parameters with distinct names. -/
theorem groupMethods_iff {kwlist : List String} : ∀ {fs : List Field},
    ((∃ ms, groupMethods kwlist fs = .ok ms) ↔
      ∀ n c d u ch, Field.group n c d false u ch ∈ fs →
        capitalName n ∉ kwlist ∧ groupParams ch ≠ [] ∧ ((groupParams ch).map Field.name).Nodup) ∧
    ∀ e, groupMethods kwlist fs = .error e → e = .syntaxError
  | [] => ⟨⟨fun _ n c d u ch h => by simp at h, fun _ => ⟨[], rfl⟩⟩, fun e h => by cases h⟩
  | .slot n co d ty o df :: fs => by
    have e : groupMethods kwlist (.slot n co d ty o df :: fs) = groupMethods kwlist fs := by
      conv_lhs => unfold groupMethods
    rw [e]
    obtain ⟨h1, h2⟩ := groupMethods_iff (kwlist := kwlist) (fs := fs)
    refine ⟨h1.trans ⟨fun h n c d u ch hm => h n c d u ch ?_, fun h n c d u ch hm => h n c d u ch (List.mem_cons_of_mem _ hm)⟩, h2⟩
    rcases List.mem_cons.mp hm with hm | hm
    · cases hm
    · exact hm
  | .group n co d true u ch :: fs => by
    have e : groupMethods kwlist (.group n co d true u ch :: fs) = groupMethods kwlist fs := by
      conv_lhs => unfold groupMethods
      rw [if_pos rfl]
    rw [e]
    obtain ⟨h1, h2⟩ := groupMethods_iff (kwlist := kwlist) (fs := fs)
    refine ⟨h1.trans ⟨fun h n c d u ch hm => h n c d u ch ?_, fun h n c d u ch hm => h n c d u ch (List.mem_cons_of_mem _ hm)⟩, h2⟩
    rcases List.mem_cons.mp hm with hm | hm
    · cases hm
    · exact hm
  | .group n co d false u ch :: fs => by
    obtain ⟨h1, h2⟩ := groupMethods_iff (kwlist := kwlist) (fs := fs)
    unfold groupMethods
    rw [if_neg (by simp)]
    by_cases hc : capitalName n ∈ kwlist ∨ groupParams ch = [] ∨ ¬ ((groupParams ch).map Field.name).Nodup
    · rw [if_pos hc]
      refine ⟨⟨fun ⟨ms, h⟩ => (by cases h), fun h => ?_⟩, fun e h => by cases h; rfl⟩
      obtain ⟨a1, a2, a3⟩ := h n co d u ch List.mem_cons_self
      rcases hc with hc | hc | hc
      · exact absurd hc a1
      · exact absurd hc a2
      · exact absurd a3 hc
    · rw [if_neg hc]
      simp only [not_or, not_not] at hc
      cases e : groupMethods kwlist fs with
      | error err =>
        refine ⟨⟨fun ⟨ms, h⟩ => (by cases h), fun h => ?_⟩, fun e' h => by cases h; exact h2 _ e⟩
        obtain ⟨ms, hms⟩ := h1.mpr fun n' c' d' u' ch' hm => h n' c' d' u' ch' (List.mem_cons_of_mem _ hm)
        rw [e] at hms; cases hms
      | ok rest =>
        refine ⟨⟨fun _ n' c' d' u' ch' hm => ?_, fun _ => ⟨_, rfl⟩⟩, fun e' h => by cases h⟩
        rcases List.mem_cons.mp hm with hm | hm
        · cases hm; exact hc
        · exact h1.mp ⟨rest, e⟩ n' c' d' u' ch' hm

/-! ## The footprint of a group -/

theorem present_members {k : Nat} {f : Field} {a : Arg} : ∀ {fs : List Field} {as : List Arg},
    (fs.filter (!·.skipped))[k]? = some f → as[k]? = some a → f.disc.isSome → absent f a = false →
    members fs as ≠ [] := by
  intro fs
  induction fs generalizing k with
  | nil => intro as hf; simp at hf
  | cons g gs ih =>
    intro as hf ha hd hab
    by_cases hs : g.skipped = true
    · rw [members_skip hs]
      rw [List.filter_cons_of_neg (by simp [hs])] at hf
      exact ih hf ha hd hab
    · have hs' : g.skipped = false := by simpa using hs
      rw [List.filter_cons_of_pos (by simp [hs])] at hf
      cases as with
      | nil => simp at ha
      | cons b bs =>
        cases k with
        | zero =>
          simp only [List.getElem?_cons_zero, Option.some.injEq] at hf ha
          subst hf ha
          obtain ⟨t, ht⟩ := Option.isSome_iff_exists.mp hd
          rw [members_some hs' ht (by unfold absent at hab; rw [hd] at hab; simpa using hab)]
          simp
        | succ k =>
          simp only [List.getElem?_cons_succ] at hf ha
          have := ih hf ha hd hab
          intro hc
          apply this
          unfold members at hc
          rw [if_neg hs] at hc
          simp only [List.append_eq_nil_iff] at hc
          exact hc.2

theorem members_tail_le {f : Field} {fs : List Field} {a : Arg} {as : List Arg} (hs : f.skipped = false) :
    (members fs as).length ≤ (members (f :: fs) (a :: as)).length ∧
    (f.disc.isSome → absent f a = false → (members fs as).length + 1 ≤ (members (f :: fs) (a :: as)).length) := by
  cases hd : f.disc with
  | none => rw [members_none hs hd]; simp
  | some t =>
    by_cases hu : a.isUndefined = true
    · have hab : absent f a = true := by unfold absent; rw [hd, hu]; rfl
      rw [members_absent hs hab]
      exact ⟨le_rfl, fun _ h => by rw [hab] at h; simp at h⟩
    · rw [members_some hs hd (by simpa using hu)]
      simp

theorem mem_of_params {k : Nat} {f : Field} {fs : List Field} (h : (fs.filter (!·.skipped))[k]? = some f) : f ∈ fs :=
  List.mem_of_mem_filter (List.mem_of_getElem? h)

/-- Of the bits of a field which is given, the constructor touches only the footprint of its
argument. -/
theorem footAll_of_field {ds ps : Nat} {union : Option Nat} {k : Nat} {f : Field} {a : Arg} :
    ∀ {fs : List Field} {as : List Arg}, FieldsWF ds ps union fs → (members fs as).length ≤ 1 →
    (fs.filter (!·.skipped))[k]? = some f → as[k]? = some a → absent f a = false →
    ∀ i, fieldBits ds f i → footAll ds union fs as i → footNode ds f a i := by
  intro fs
  induction fs generalizing k with
  | nil => intro as _ _ hf; simp at hf
  | cons g gs ih =>
    intro as hwf hm hf ha hab i hi hfa
    have htd := FieldsWF.tag_disj hwf
    have hwf' := hwf
    unfold FieldsWF at hwf
    obtain ⟨w1, w2, w3, w4, w5⟩ := hwf
    by_cases hs : g.skipped = true
    · rw [members_skip hs] at hm
      rw [List.filter_cons_of_neg (by simp [hs])] at hf
      rw [footAll_skip _ _ _ _ _ hs] at hfa
      exact ih w5 hm hf ha hab i hi hfa
    · have hs' : g.skipped = false := by simpa using hs
      rw [List.filter_cons_of_pos (by simp [hs])] at hf
      cases as with
      | nil => simp at ha
      | cons b bs =>
        rw [footAll_cons hs'] at hfa
        obtain ⟨m1, m2⟩ := members_tail_le (f := g) (fs := gs) (a := b) (as := bs) hs'
        cases k with
        | zero =>
          simp only [List.getElem?_cons_zero, Option.some.injEq] at hf ha
          subst hf ha
          rcases hfa with ⟨_, h | ⟨_, h⟩⟩ | h
          · exact h
          · exact absurd hi (w3 i h)
          · exfalso
            obtain ⟨g', hg', hgm, hgb⟩ := footAll_mem ds union gs bs i h
            rcases hgb with hgb | hgb
            · rcases w4 g' hg' with hd | hd
              · have h1 := hgm hd.2
                have h2 := m2 hd.1 hab
                have h3 : (members gs bs).length ≠ 0 := fun hc => h1 (List.length_eq_zero_iff.mp hc)
                omega
              · exact hd i ⟨hi, hgb⟩
            · exact w3 i hgb.2 hi
        | succ k =>
          simp only [List.getElem?_cons_succ] at hf ha
          have hfm := mem_of_params hf
          rcases hfa with ⟨hab2, h | ⟨_, h⟩⟩ | h
          · exfalso
            rcases w4 f hfm with hd | hd
            · have h1 := present_members hf ha hd.2 hab
              have h2 := m2 hd.1 hab2
              have h3 : (members gs bs).length ≠ 0 := fun hc => h1 (List.length_eq_zero_iff.mp hc)
              omega
            · exact hd i ⟨footNode_subset ds g b i h, hi⟩
          · exact absurd hi (htd f (List.mem_cons_of_mem _ hfm) i h)
          · exact ih w5 (by omega) hf ha hab i hi h

theorem holdsFields_get {ds : Nat} {C : Bytes} {union : Option Nat} {k : Nat} {f : Field} {a : Arg} :
    ∀ {fs : List Field} {as : List Arg}, HoldsFields ds C union fs as →
    (fs.filter (!·.skipped))[k]? = some f → as[k]? = some a → absent f a = false → HoldsField ds C f a := by
  intro fs
  induction fs generalizing k with
  | nil => intro as _ hf; simp at hf
  | cons g gs ih =>
    intro as h hf ha hab
    unfold HoldsFields at h
    by_cases hs : g.skipped = true
    · rw [if_pos hs] at h
      rw [List.filter_cons_of_neg (by simp [hs])] at hf
      exact ih h hf ha hab
    · rw [if_neg hs] at h
      rw [List.filter_cons_of_pos (by simp [hs])] at hf
      cases as with
      | nil => exact h.elim
      | cons b bs =>
        cases k with
        | zero =>
          simp only [List.getElem?_cons_zero, Option.some.injEq] at hf ha
          subst hf ha
          exact (h.1 hab).1
        | succ k =>
          simp only [List.getElem?_cons_succ] at hf ha
          exact ih h.2 hf ha hab

theorem fieldsWF_get {ds ps : Nat} {u : Option Nat} : ∀ {fs : List Field}, FieldsWF ds ps u fs →
    ∀ {f : Field}, f ∈ fs → FieldWF ds ps f ∧ (∀ tag, f.disc = some tag → u.isSome ∧ tag < 2 ^ 15) := by
  intro fs
  induction fs with
  | nil => intro _ f hf; simp at hf
  | cons g gs ih =>
    intro h f hf
    unfold FieldsWF at h
    rcases List.mem_cons.mp hf with rfl | hf
    · exact ⟨h.1, h.2.1⟩
    · exact ih h.2.2.2.2 hf

/-- The discriminant of the union of a group in a constructed object. -/
theorem construct_group_which (fuel : Nat) (S : Schema) (args : List Arg) (n : Nat) (hS : S.WF) (hl : S.locals.Nodup)
    (ha : AccFields fuel S.fields args n) (hm : (members S.fields args).length ≤ 1)
    (hsz : 8 * (S.dataWords + S.ptrs) + n ≤ 2 ^ 32) {k : Nat} {name : String} {code : Nat} {disc : Option Nat} {u : Nat}
    {ch : List Field} {as : List Arg} (hf : S.params[k]? = some (.group name code disc false (some u) ch))
    (hak : args[k]? = some (.tuple as)) :
    ∃ o, S.construct fuel args = .ok o ∧
      o.readInt16 ((u * 2 : Nat) : Int) = .ok ((((members ch as).head?).getD 0 : Nat) : Int) := by
  obtain ⟨C, _, e, hlen, _, hh, hz⟩ := construct_spec fuel S args n hS hl ha hm hsz
  refine ⟨_, e, ?_⟩
  have hab : absent (.group name code disc false (some u) ch) (.tuple as) = false := by
    unfold absent Arg.isUndefined; simp
  have hfwf := (fieldsWF_get hS.fields (mem_of_params hf)).1
  unfold FieldWF at hfwf
  obtain ⟨ht, hch, _⟩ := hfwf
  have ht' := ht u rfl
  have hg := holdsFields_get hh hf hak hab
  unfold HoldsField at hg
  rw [if_neg (by simp)] at hg
  obtain ⟨as', e', hg⟩ := hg
  cases e'
  refine readInt16_obj (by omega) ?_
  cases hmm : members ch as with
  | cons tag rest => exact holdsFields_tag rfl hg tag (by rw [hmm]; simp)
  | nil =>
    refine readPrimitive_zero fun j hj => zero_byte fun m hm' => ?_
    have hti : tagBits (some u) (8 * (u * 2 + j) + m) := by
      show 16 * u ≤ _ ∧ _ < 16 * u + 16
      omega
    refine hz _ (by omega) fun hfa => ?_
    have hfb : fieldBits S.dataWords (.group name code disc false (some u) ch) (8 * (u * 2 + j) + m) := by
      unfold fieldBits; exact .inl hti
    have := footAll_of_field hS.fields hm hf hak hab _ hfb hfa
    rw [footNode_tuple] at this
    exact footAll_no_tag hch hmm _ hti this

/-! ## Two members of the union of a group -/

theorem guardedB_cur {union : Option Nat} {cur : Bool} {disc : Option Nat} {a : Arg} {body : BM Unit} {b b' : Bytes}
    {c : Bool} (h : guardedB union cur disc a body b = .ok c b') :
    c = cur ∨ (disc.isSome ∧ a.isUndefined = false) := by
  unfold guardedB at h
  cases disc with
  | none =>
    left
    simp only at h
    cases hb : body b with
    | ok x b1 => rw [BM.bind_ok hb] at h; cases h; rfl
    | error e b1 => rw [BM.bind_error hb] at h; cases h
  | some tag =>
    by_cases hu : a.isUndefined = true
    · left
      cases union with
      | none => cases h
      | some off =>
        simp only at h
        rw [if_pos hu] at h
        cases h; rfl
    · exact .inr ⟨rfl, by simpa using hu⟩

theorem buildNodes_group_two (fuel ds ps : Nat) (union : Option Nat) {name : String} {code : Nat} {disc : Option Nat}
    {gu : Option Nat} {ch : List Field} {as : List Arg} {m : Nat} {t' : Arg} (hac : AccFields fuel ch as m)
    (h2 : 2 ≤ (members ch as).length) (ht' : t'.isUndefined = false) (ht : TagWF ds union) :
    ∀ (fs : List Field) (args args' : List Arg) (n k : Nat) (cur : Bool), FieldsWF ds ps union fs →
    AccFields fuel fs args' n → (members fs args').length + (if cur then 1 else 0) ≤ 1 →
    (fs.filter (!·.skipped))[k]? = some (.group name code disc false gu ch) → args'[k]? = some t' →
    args[k]? = some (.tuple as) → (∀ j, j ≠ k → args[j]? = args'[j]?) →
    ∀ b : Bytes, BufOK ds ps b (n + m) (fun i => footAll ds union fs args' i ∨
      fieldBits ds (.group name code disc false gu ch) i) →
    ∃ b', buildNodes fuel ds union cur fs args b = .error .typeError b' := by
  intro fs
  induction fs with
  | nil => intro args args' n k cur _ _ _ hf; simp at hf
  | cons g gs ih =>
    intro args args' n k cur hwf ha hm hf hk' hk hne b hb
    have hwf' := hwf
    have htd := FieldsWF.tag_disj hwf
    unfold FieldsWF at hwf
    obtain ⟨w1, w2, w3, w4, w5⟩ := hwf
    by_cases hs : g.skipped = true
    · unfold AccFields at ha
      rw [if_pos hs] at ha
      rw [members_skip hs] at hm
      rw [List.filter_cons_of_neg (by simp [hs])] at hf
      rw [footAll_skip _ _ _ _ _ hs] at hb
      unfold buildNodes
      rw [if_pos hs]
      exact ih args args' n k cur w5 ha hm hf hk' hk hne b hb
    · have hs' : g.skipped = false := by simpa using hs
      rw [List.filter_cons_of_pos (by simp [hs])] at hf
      have hfit := hb.fits
      cases args' with
      | nil => simp at hk'
      | cons a' as' =>
        cases args with
        | nil => simp at hk
        | cons a0 as0 =>
        obtain ⟨m1, m2⟩ := members_tail_le (f := g) (fs := gs) (a := a') (as := as') hs'
        rw [buildNodes_cons hs']
        cases k with
        | zero =>
          simp only [List.getElem?_cons_zero, Option.some.injEq] at hf hk hk'
          subst hf hk hk'
          have hgwf := w1
          unfold FieldWF at hgwf
          obtain ⟨hgt, hgch, _⟩ := hgwf
          have hlen := accFields_length fuel _ _ _ hac
          -- the body fails
          have hbody : ∀ b1 : Bytes, 8 ∣ b1.length → b1.length = b.length →
              (∀ i, fieldBits ds (.group name code disc false gu ch) i → bitAt b1 i = some false) →
              ∃ b2, bodyNode fuel ds (.group name code disc false gu ch) (.tuple as) b1 = .error .typeError b2 := by
            intro b1 h8 hl1 hz
            obtain ⟨b2, e2⟩ := buildNodes_two fuel ds ps gu ch as m hgt hgch hac h2 b1
              ⟨h8, by have := hb.root; omega, by omega, fun i hi => hz i (by
                unfold fieldBits
                rcases footAll_subset ds gu ch as i hi with h | h
                · exact .inr h
                · exact .inl h)⟩
            refine ⟨b2, ?_⟩
            unfold bodyNode
            simp only [Bool.false_eq_true, if_false]
            rw [if_pos hlen]
            exact BM.bind_error e2
          rw [buildNode_eq]
          have hz0 : ∀ i, fieldBits ds (.group name code disc false gu ch) i → bitAt b i = some false :=
            fun i hi => hb.zero i (.inr hi)
          cases hd : disc with
          | none =>
            obtain ⟨b2, e2⟩ := hbody b hb.al rfl hz0
            refine ⟨b2, BM.bind_error ?_⟩
            show guardedB union cur none _ _ b = _
            unfold guardedB
            simp only
            rw [hd] at e2
            exact BM.bind_error e2
          | some tag =>
            obtain ⟨hus, htag⟩ := w2 tag hd
            obtain ⟨u, hu⟩ := Option.isSome_iff_exists.mp hus
            have hab : absent (.group name code disc false gu ch) a' = false := by unfold absent; rw [ht']; simp
            have := m2 (by show disc.isSome = true; rw [hd]; rfl) hab
            have hcur : cur = false := by
              cases cur with
              | false => rfl
              | true =>
                rw [if_pos rfl] at hm
                omega
            have hu2 := ht u hu
            have hroot := hb.root
            obtain ⟨b0, e0, hp0⟩ := write_num (b := b) (fmt := .h) (k := u * 2) (v := (tag : Int)) (inRange_tag htag)
              (by show _ + 2 ≤ _; omega) hb.al
            have hl0 := hp0.len
            obtain ⟨b2, e2⟩ := hbody b0 hp0.al (by omega) (fun i hi => by
              have hlt := fieldBits_lt ds ps _ w1 i hi
              rw [hp0.frame i (by omega) (fun h => w3 i (by
                have hi : 8 * (u * 2) ≤ i ∧ i < 8 * (u * 2) + 16 := h
                rw [hu]
                show 16 * u ≤ i ∧ i < 16 * u + 16
                omega) hi)]
              exact hz0 i hi)
            refine ⟨b2, BM.bind_error ?_⟩
            rw [hcur, hu]
            show guardedB (some u) false (some tag) _ _ b = _
            unfold guardedB
            simp only
            rw [hd] at e2
            rw [if_neg (by simp [Arg.isUndefined]), if_neg (by simp), BM.bind_ok e0, BM.bind_error e2]
        | succ k =>
          have e0 : a0 = a' := by
            have := hne 0 (by omega)
            simpa using this
          subst e0
          simp only [List.getElem?_cons_succ] at hf hk hk'
          have hne' : ∀ j, j ≠ k → as0[j]? = as'[j]? := fun j hj => by
            have := hne (j + 1) (by omega)
            simpa using this
          have hfm := mem_of_params hf
          have hfp : absent (.group name code disc false gu ch) t' = false := by unfold absent; rw [ht']; simp
          obtain ⟨n1, n2, rfl, ha1, ha2⟩ := (accFields_cons hs').mp ha
          -- the node of `g`
          have hone : AccFields fuel [g] [a0] (n1 + 0) := (accFields_cons hs').mpr ⟨n1, 0, rfl, ha1, accFields_nil⟩
          have hwf1 : FieldsWF ds ps union [g] := by
            unfold FieldsWF
            exact ⟨w1, w2, w3, by simp, by unfold FieldsWF; trivial⟩
          have hmem1 : (members [g] [a0]).length ≤ (members (g :: gs) (a0 :: as')).length - (members gs as').length := by
            cases hgd : g.disc with
            | none => rw [members_none hs' hgd]; unfold members; simp
            | some t =>
              by_cases hab : absent g a0 = true
              · rw [members_absent hs' hab]; unfold members; simp
              · have hab' : absent g a0 = false := by simpa using hab
                have hund : a0.isUndefined = false := by unfold absent at hab'; rw [hgd] at hab'; simpa using hab'
                rw [members_some hs' hgd hund, members_some hs' hgd hund]
                have : members [] ([] : List Arg) = [] := by unfold members; rfl
                rw [this]
                simp
          have hdisj : g.disc.isSome → absent g a0 = false → disc = none := by
            intro h3 h4
            cases hd : disc with
            | none => rfl
            | some t =>
              have h5 := present_members hf hk' (by show disc.isSome = true; rw [hd]; rfl) hfp
              have h6 := m2 h3 h4
              have h7 : (members gs as').length ≠ 0 := fun hc => h5 (List.length_eq_zero_iff.mp hc)
              omega
          have hfsub : ∀ i, footAll ds union [g] [a0] i → footAll ds union (g :: gs) (a0 :: as') i := by
            intro i hi
            rw [footAll_cons hs'] at hi ⊢
            rcases hi with h | h
            · exact .inl h
            · unfold footAll at h; exact h.elim
          obtain ⟨c, b1, e1, hp1⟩ := buildNodes_spec fuel ds ps union cur [g] [a0] (n1 + 0) ht hwf1 hone
            (by omega) b ⟨hb.al, hb.root, by omega, fun i hi => hb.zero i (.inl (hfsub i hi))⟩
          rw [buildNodes_cons hs'] at e1
          have e1' : buildNode fuel ds union cur g a0 b = .ok c b1 := by
            cases hn : buildNode fuel ds union cur g a0 b with
            | error er bb => rw [BM.bind_error hn] at e1; cases e1
            | ok c' bb =>
              rw [BM.bind_ok hn] at e1
              unfold buildNodes at e1
              exact e1
          rw [BM.bind_ok e1']
          have hl1 := hp1.len
          have hroot := hb.root
          refine ih as0 as' n2 k c w5 ha2 ?_ hf hk' hk hne' b1 ⟨hp1.al, by omega, by omega, ?_⟩
          · rw [buildNode_eq] at e1'
            rcases guardedB_cur e1' with rfl | ⟨h3, h4⟩
            · omega
            · have := m2 h3 (by unfold absent; rw [h4]; simp)
              split <;> omega
          · intro i hi
            have hnot : ¬ footAll ds union [g] [a0] i := by
              intro hfo
              rw [footAll_cons hs'] at hfo
              rcases hfo with ⟨hab, hfo⟩ | hfo
              · rcases hi with hi | hi
                · refine foot_disj (as := as') hwf' (fun h3 => ?_) i hfo hi
                  have h6 := m2 h3 hab
                  have : (members gs as').length = 0 := by omega
                  exact List.length_eq_zero_iff.mp this
                · rcases hfo with hfo | ⟨_, hfo⟩
                  · rcases w4 _ hfm with h5 | h5
                    · have h6 := hdisj h5.1 hab
                      have h7 : disc.isSome = true := h5.2
                      rw [h6] at h7; simp at h7
                    · exact h5 i ⟨footNode_subset ds g a0 i hfo, hi⟩
                  · exact htd _ (List.mem_cons_of_mem _ hfm) i hfo hi
              · unfold footAll at hfo; exact hfo.elim
            have hlt : i < 64 * (ds + ps) := by
              rcases hi with hi | hi
              · exact footAll_lt ht w5 i hi
              · exact fieldBits_lt ds ps _ (fieldsWF_get w5 hfm).1 i hi
            rw [hp1.frame i (by omega) hnot]
            refine hb.zero i ?_
            rcases hi with hi | hi
            · left
              rw [footAll_cons hs']
              exact .inr hi
            · exact .inr hi

theorem construct_group_two (fuel : Nat) (S : Schema) (args args' : List Arg) (n m : Nat) (hS : S.WF)
    (hl : S.locals.Nodup) (ha : AccFields fuel S.fields args' n) (hm : (members S.fields args').length ≤ 1)
    {k : Nat} {name : String} {code : Nat} {disc gu : Option Nat} {ch : List Field} {as as' : List Arg}
    (hf : S.params[k]? = some (.group name code disc false gu ch)) (hak' : args'[k]? = some (.tuple as'))
    (hak : args[k]? = some (.tuple as)) (hne : ∀ j, j ≠ k → args[j]? = args'[j]?)
    (hac : AccFields fuel ch as m) (h2 : 2 ≤ (members ch as).length)
    (hsz : 8 * (S.dataWords + S.ptrs) + (n + m) ≤ 2 ^ 32) : S.construct fuel args = .error .typeError := by
  have hnull := nullablesOK_of_wf _ _ _ _ hS.fields
  have hlen' := accFields_length fuel _ _ _ ha
  have hlen : args.length = args'.length := by
    have h1 := (List.getElem?_eq_some_iff.mp hak).1
    have h1' := (List.getElem?_eq_some_iff.mp hak').1
    rcases Nat.lt_trichotomy args.length args'.length with h | h | h
    · have := hne args.length (by omega)
      rw [List.getElem?_eq_none (by omega), List.getElem?_eq_getElem h] at this
      cases this
    · exact h
    · have := hne args'.length (by omega)
      rw [List.getElem?_eq_getElem h, List.getElem?_eq_none (by omega)] at this
      cases this
  have hnew := new_eq_build fuel S args hl hnull (by rw [hlen, hlen']; rfl)
  have hfw := (fieldsWF_get hS.fields (mem_of_params hf)).1
  obtain ⟨C, e⟩ := buildNodes_group_two fuel S.dataWords S.ptrs S.union hac h2 (t' := .tuple as') rfl hS.tag S.fields
    args args' n k false hS.fields ha (by simpa using hm) hf hak' hak hne _
    (bufOK_init (F := fun i => footAll S.dataWords S.union S.fields args' i ∨
      fieldBits S.dataWords (.group name code disc false gu ch) i) (fun i hi => by
        rcases hi with hi | hi
        · exact footAll_lt hS.tag hS.fields i hi
        · exact fieldBits_lt _ _ _ hfw i hi) hsz)
  unfold Schema.construct
  rw [hnew]
  unfold buildNew
  rw [e]
  rfl

end Capnpy
