import Verif.Proof.CtorRead

/-! # The whole constructor -/

namespace Capnpy

open Spec Props

mutual

theorem nullableOK_of_wf (ds ps : Nat) : ∀ f : Field, FieldWF ds ps f → NullableOK f
  | .slot .., _ => by unfold NullableOK; trivial
  | .group name code disc nullable union children, h => by
    unfold FieldWF at h
    obtain ⟨_, h2, h3⟩ := h
    unfold NullableOK
    refine ⟨fun hn => ?_, nullablesOK_of_wf ds ps union children h2⟩
    obtain ⟨_, hne, c, o, ty, d, c2, rfl, hty, hv, hd2, hs2⟩ := h3 hn
    exact ⟨hne, _, c2, rfl, rfl, hv, isNullType_not_skipped hty, hs2⟩

theorem nullablesOK_of_wf (ds ps : Nat) (union : Option Nat) : ∀ fs : List Field, FieldsWF ds ps union fs → NullablesOK fs
  | [], _ => by unfold NullablesOK; trivial
  | f :: fs, h => by
    unfold FieldsWF at h
    unfold NullablesOK
    exact ⟨nullableOK_of_wf ds ps f h.1, nullablesOK_of_wf ds ps union fs h.2.2.2.2⟩

end

theorem bitAt_replicate {n i : Nat} (h : i < 8 * n) : bitAt (List.replicate n 0) i = some false := by
  unfold bitAt bitOf
  rw [List.getElem?_replicate, if_pos (by omega)]
  simp

theorem bufOK_init {ds ps n : Nat} {F : Nat → Prop} (hF : ∀ i, F i → i < 64 * (ds + ps))
    (hsz : 8 * (ds + ps) + n ≤ 2 ^ 32) : BufOK ds ps (List.replicate ((ds + ps) * 8) 0) n F := by
  have hl : (List.replicate ((ds + ps) * 8) (0 : UInt8)).length = (ds + ps) * 8 := by simp
  refine ⟨by rw [hl]; omega, by rw [hl]; omega, by rw [hl]; omega, fun i hi => ?_⟩
  have := hF i hi
  exact bitAt_replicate (by omega)

theorem footAll_lt {ds ps : Nat} {union : Option Nat} {fs : List Field} {as : List Arg} (ht : TagWF ds union)
    (hwf : FieldsWF ds ps union fs) (i : Nat) (hi : footAll ds union fs as i) : i < 64 * (ds + ps) := by
  rcases footAll_subset ds union fs as i hi with h | h
  · exact fieldsBits_lt ds ps union fs hwf i h
  · have := tagBits_lt ht h; omega

/-- What the constructor returns for acceptable arguments. -/
theorem construct_spec (fuel : Nat) (S : Schema) (args : List Arg) (n : Nat) (hS : S.WF) (hl : S.locals.Nodup)
    (ha : AccFields fuel S.fields args n) (hm : (members S.fields args).length ≤ 1)
    (hsz : 8 * (S.dataWords + S.ptrs) + n ≤ 2 ^ 32) :
    ∃ C : Bytes, S.new fuel args = .ok C ∧
      S.construct fuel args = .ok (objAt C none 0 S.dataWords S.ptrs) ∧
      C.length = 8 * (S.dataWords + S.ptrs) + n ∧
      (∃ data ptrs, Denotes (objAt C none 0 S.dataWords S.ptrs) (.struct data ptrs)) ∧
      HoldsFields S.dataWords C S.union S.fields args ∧
      (∀ i, i < 64 * (S.dataWords + S.ptrs) → ¬ footAll S.dataWords S.union S.fields args i →
        bitAt C i = some false) := by
  have hnull := nullablesOK_of_wf _ _ _ _ hS.fields
  have hlen := accFields_length fuel _ _ _ ha
  have hnew := new_eq_build fuel S args hl hnull hlen
  obtain ⟨c, C, e, hp⟩ := buildNodes_spec fuel S.dataWords S.ptrs S.union false S.fields args n hS.tag hS.fields ha
    (by simpa using hm) _ (bufOK_init (footAll_lt hS.tag hS.fields) hsz)
  have hl0 := hp.len
  rw [List.length_replicate] at hl0
  have hnew' : S.new fuel args = .ok C := by
    rw [hnew]; unfold buildNew; rw [e]
  obtain ⟨hh, hptr⟩ := hp.holds C le_rfl (fun _ _ => rfl) (fun _ _ _ => rfl)
  have hzero : ∀ i, i < 64 * (S.dataWords + S.ptrs) → ¬ footAll S.dataWords S.union S.fields args i →
      bitAt C i = some false := by
    intro i hi hn
    rw [hp.frame i (by rw [List.length_replicate]; omega) hn]
    exact bitAt_replicate (by omega)
  refine ⟨C, hnew', ?_, by omega, ?_, hh, hzero⟩
  · unfold Schema.construct
    rw [bind_okP hnew']
    exact initFromBuffer_nat (B := C) (offs := none) (t := 0) (by omega)
  · refine denotes_of_ptrs hS.data hS.ptrs (by omega) fun j hj => ?_
    by_cases ht : ∃ i, footAll S.dataWords S.union S.fields args i ∧ 64 * (S.dataWords + j) ≤ i ∧
        i < 64 * (S.dataWords + j) + 64
    · exact hptr j hj ht
    · refine ⟨.null, ?_⟩
      have hw : wordAt C (8 * (S.dataWords + j)) = 0 := by
        apply wordAt_zero
        intro k hk
        apply zero_byte
        intro m hm
        exact hzero _ (by omega) (fun hf => ht ⟨_, hf, by omega, by omega⟩)
      rw [hw]
      exact .null _

/-- The fields of a constructed object read as the arguments. -/
theorem construct_reads (fuel : Nat) (S : Schema) (args : List Arg) (n : Nat) (hS : S.WF) (hl : S.locals.Nodup)
    (ha : AccFields fuel S.fields args n) (hm : (members S.fields args).length ≤ 1)
    (hsz : 8 * (S.dataWords + S.ptrs) + n ≤ 2 ^ 32) :
    ∃ o, S.construct fuel args = .ok o ∧ (∃ data ptrs, Denotes o (.struct data ptrs)) ∧
      ReadsFields o S.union S.fields args := by
  obtain ⟨C, _, e, hlen, ⟨data, ptrs, hd⟩, hh, _⟩ := construct_spec fuel S args n hS hl ha hm hsz
  exact ⟨_, e, ⟨data, ptrs, hd⟩, reads_fields hd (by omega) _ _ _ hS.tag hS.fields hh⟩

theorem readsFields_get {o : StructObj} {union : Option Nat} : ∀ {fs : List Field} {as : List Arg},
    ReadsFields o union fs as → ∀ (k : Nat) (f : Field) (a : Arg), (fs.filter (!·.skipped))[k]? = some f →
    as[k]? = some a → absent f a = false → ReadsVal o f a (getField o union f)
  | [], _, _, k, f, a, hf, _, _ => by simp at hf
  | g :: fs, as, h, k, f, a, hf, ha, hab => by
    unfold ReadsFields at h
    by_cases hs : g.skipped = true
    · rw [if_pos hs] at h
      rw [List.filter_cons_of_neg (by simp [hs])] at hf
      exact readsFields_get h.2 k f a hf ha hab
    · rw [if_neg hs] at h
      rw [List.filter_cons_of_pos (by simp [hs])] at hf
      cases as with
      | nil => exact h.elim
      | cons x as =>
        cases k with
        | zero =>
          simp only [List.getElem?_cons_zero, Option.some.injEq] at hf ha
          subst hf ha
          exact h.1 hab
        | succ k =>
          simp only [List.getElem?_cons_succ] at hf ha
          exact readsFields_get h.2 k f a hf ha hab

theorem readsFields_skipped {o : StructObj} {union : Option Nat} : ∀ {fs : List Field} {as : List Arg},
    ReadsFields o union fs as → ∀ f ∈ fs, f.skipped = true → getField o union f = .ok .none
  | [], _, _, f, hf, _ => by simp at hf
  | g :: fs, as, h, f, hf, hsk => by
    unfold ReadsFields at h
    by_cases hs : g.skipped = true
    · rw [if_pos hs] at h
      rcases List.mem_cons.mp hf with rfl | hf
      · exact h.1
      · exact readsFields_skipped h.2 f hf hsk
    · rw [if_neg hs] at h
      rcases List.mem_cons.mp hf with rfl | hf
      · exact absurd hsk hs
      · cases as with
        | nil => exact h.elim
        | cons x as => exact readsFields_skipped h.2 f hf hsk

/-! ## The discriminant -/

theorem holdsFields_tag {ds : Nat} {C : Bytes} {union : Option Nat} {u : Nat} (hu : union = some u) :
    ∀ {fs : List Field} {as : List Arg}, HoldsFields ds C union fs as → ∀ tag ∈ members fs as,
      readPrimitive C ((u * 2 : Nat) : Int) .h = .ok (tag : Int)
  | [], _, _, tag, ht => by unfold members at ht; simp at ht
  | f :: fs, as, h, tag, ht => by
    unfold HoldsFields at h
    by_cases hs : f.skipped = true
    · rw [if_pos hs] at h
      rw [members_skip hs] at ht
      exact holdsFields_tag hu h tag ht
    · rw [if_neg hs] at h
      have hs' : f.skipped = false := by simpa using hs
      cases as with
      | nil => exact h.elim
      | cons a as =>
        by_cases hab : absent f a = true
        · rw [members_absent hs' hab] at ht
          exact holdsFields_tag hu h.2 tag ht
        · have hab' : absent f a = false := by simpa using hab
          cases hd : f.disc with
          | none =>
            rw [members_none hs' hd] at ht
            exact holdsFields_tag hu h.2 tag ht
          | some t =>
            have hund : a.isUndefined = false := by
              unfold absent at hab'; rw [hd] at hab'; simpa using hab'
            rw [members_some hs' hd hund] at ht
            rcases List.mem_cons.mp ht with rfl | ht
            · exact (h.1 hab').2 _ u hd hu
            · exact holdsFields_tag hu h.2 tag ht

/-- Without members the discriminant is not written. -/
theorem footAll_no_tag {ds ps : Nat} {union : Option Nat} {fs : List Field} {as : List Arg}
    (hwf : FieldsWF ds ps union fs) (hm : members fs as = []) (i : Nat) (hi : tagBits union i) :
    ¬ footAll ds union fs as i := by
  intro h
  obtain ⟨g, hg, hgm, hb⟩ := footAll_mem ds union fs as i h
  rcases hb with hb | hb
  · exact FieldsWF.tag_disj hwf g hg i hi hb
  · exact hgm hb.1 hm

theorem readPrimitive_zero {C : Bytes} {k : Nat} (h : ∀ j, j < 2 → C[k + j]? = some 0) :
    readPrimitive C (k : Int) .h = .ok 0 := by
  have hk : k + 2 ≤ C.length := by
    have := h 1 (by omega)
    have := (List.getElem?_eq_some_iff.mp this).1
    omega
  have hs : slice C k 2 = [0, 0] := by
    apply List.ext_getElem?
    intro j
    rw [slice_getElem?]
    by_cases hj : j < 2
    · rw [if_pos hj, h j hj]
      have : j = 0 ∨ j = 1 := by omega
      rcases this with rfl | rfl <;> rfl
    · rw [if_neg hj, List.getElem?_eq_none (by simp; omega)]
  rw [readPrimitive_nat (fmt := .h) hk, show Fmt.size .h = 2 from rfl, hs]
  exact congrArg Except.ok (by decide)

/-- The discriminant of a constructed object. -/
theorem construct_which (fuel : Nat) (S : Schema) (args : List Arg) (n : Nat) (hS : S.WF) (hl : S.locals.Nodup)
    (ha : AccFields fuel S.fields args n) (hm : (members S.fields args).length ≤ 1)
    (hsz : 8 * (S.dataWords + S.ptrs) + n ≤ 2 ^ 32) {u : Nat} (hu : S.union = some u) :
    ∃ o, S.construct fuel args = .ok o ∧
      o.readInt16 ((u * 2 : Nat) : Int) = .ok ((((members S.fields args).head?).getD 0 : Nat) : Int) := by
  obtain ⟨C, _, e, hlen, _, hh, hz⟩ := construct_spec fuel S args n hS hl ha hm hsz
  refine ⟨_, e, ?_⟩
  have ht := hS.tag u hu
  refine readInt16_obj (by omega) ?_
  cases hmm : members S.fields args with
  | cons tag rest => exact holdsFields_tag hu hh tag (by rw [hmm]; simp)
  | nil =>
    refine readPrimitive_zero fun j hj => zero_byte fun m hm => ?_
    refine hz _ (by omega) (footAll_no_tag hS.fields hmm _ ?_)
    rw [hu]
    show 16 * u ≤ _ ∧ _ < 16 * u + 16
    omega

/-! ## Two members -/

/-- The arguments with all the union members left out. -/
def mask : List Field → List Arg → List Arg
  | [], as => as
  | f :: fs, as =>
    if f.skipped then mask fs as
    else
      match as with
      | [] => []
      | a :: as => (if f.disc.isSome then .undefined else a) :: mask fs as

theorem mask_skip {f : Field} {fs : List Field} {as : List Arg} (h : f.skipped = true) :
    mask (f :: fs) as = mask fs as := by
  conv_lhs => unfold mask
  rw [if_pos h]

theorem mask_cons {f : Field} {fs : List Field} {a : Arg} {as : List Arg} (h : f.skipped = false) :
    mask (f :: fs) (a :: as) = (if f.disc.isSome then .undefined else a) :: mask fs as := by
  conv_lhs => unfold mask
  rw [if_neg (by simp [h])]

theorem members_mask : ∀ (fs : List Field) (as : List Arg), members fs (mask fs as) = []
  | [], as => by unfold members; rfl
  | f :: fs, as => by
    by_cases hs : f.skipped = true
    · rw [mask_skip hs, members_skip hs]; exact members_mask fs as
    · have hs' : f.skipped = false := by simpa using hs
      cases as with
      | nil => unfold mask members; rw [if_neg hs, if_neg hs]
      | cons a as =>
        rw [mask_cons hs']
        cases hd : f.disc with
        | none => rw [members_none hs' hd]; exact members_mask fs as
        | some t =>
          rw [members_absent hs' (by unfold absent; rw [hd]; rfl)]
          exact members_mask fs as

theorem footAll_cons {ds : Nat} {union : Option Nat} {f : Field} {fs : List Field} {a : Arg} {as : List Arg}
    (hs : f.skipped = false) (i : Nat) : footAll ds union (f :: fs) (a :: as) i ↔
      ((absent f a = false ∧ (footNode ds f a i ∨ (f.disc.isSome ∧ tagBits union i))) ∨
        footAll ds union fs as i) := by
  conv_lhs => unfold footAll
  rw [if_neg (by simp [hs])]

theorem footAll_mask {ds : Nat} {union : Option Nat} : ∀ (fs : List Field) (as : List Arg) (i : Nat),
    footAll ds union fs (mask fs as) i → footAll ds union fs as i
  | [], as, i, h => by unfold footAll at h; exact h.elim
  | f :: fs, as, i, h => by
    by_cases hs : f.skipped = true
    · rw [mask_skip hs, footAll_skip _ _ _ _ _ hs] at h
      rw [footAll_skip _ _ _ _ _ hs]
      exact footAll_mask fs as i h
    · have hs' : f.skipped = false := by simpa using hs
      cases as with
      | nil =>
        unfold mask at h
        rw [if_neg hs] at h
        exact h
      | cons a as =>
        rw [mask_cons hs', footAll_cons hs'] at h
        rw [footAll_cons hs']
        rcases h with ⟨h1, h2⟩ | h
        · cases hd : f.disc with
          | none =>
            rw [hd] at h1 h2
            exact .inl ⟨h1, by rw [hd] at *; exact h2⟩
          | some t => rw [hd] at h1; simp [absent, hd, Arg.isUndefined] at h1
        · exact .inr (footAll_mask fs as i h)

theorem buildNodes_cons {fuel ds : Nat} {union : Option Nat} {cur : Bool} {f : Field} {fs : List Field} {a : Arg}
    {as : List Arg} (hs : f.skipped = false) :
    buildNodes fuel ds union cur (f :: fs) (a :: as) =
      (buildNode fuel ds union cur f a >>= fun cur => buildNodes fuel ds union cur fs as) := by
  conv_lhs => unfold buildNodes
  rw [if_neg (by simp [hs])]

/-- A member when one is already set. -/
theorem buildNodes_second (fuel ds ps : Nat) (union : Option Nat) :
    ∀ (fs : List Field) (as : List Arg) (n : Nat), TagWF ds union → FieldsWF ds ps union fs →
    AccFields fuel fs as n → members fs as ≠ [] →
    ∀ b : Bytes, BufOK ds ps b n (footAll ds union fs (mask fs as)) →
    ∃ b', buildNodes fuel ds union true fs as b = .error .typeError b'
  | [], as, n, ht, hwf, ha, hm, b, hb => by unfold members at hm; exact absurd rfl hm
  | f :: fs, as, n, ht, hwf, ha, hm, b, hb => by
    have hwf' := hwf
    unfold FieldsWF at hwf
    obtain ⟨w1, w2, w3, w4, w5⟩ := hwf
    unfold AccFields at ha
    by_cases hs : f.skipped = true
    · rw [if_pos hs] at ha
      rw [members_skip hs] at hm
      rw [mask_skip hs, footAll_skip _ _ _ _ _ hs] at hb
      unfold buildNodes
      rw [if_pos hs]
      exact buildNodes_second fuel ds ps union fs as n ht w5 ha hm b hb
    · rw [if_neg hs] at ha
      have hs' : f.skipped = false := by simpa using hs
      cases as with
      | nil => exact ha.elim
      | cons a as =>
        obtain ⟨n1, n2, rfl, ha1, ha2⟩ := ha
        rw [buildNodes_cons hs']
        have hfit := hb.fits
        have hroot := hb.root
        have hlt : ∀ i, footAll ds union fs (mask fs as) i → i < 64 * (ds + ps) := footAll_lt ht w5
        have hz := hb.zero
        rw [mask_cons hs'] at hz
        cases hd : f.disc with
        | none =>
          have hab : absent f a = false := by unfold absent; rw [hd]; rfl
          rw [if_neg (by rw [hab]; simp)] at ha1
          rw [hd] at hz
          rw [members_none hs' hd] at hm
          obtain ⟨b1, e1, hp1⟩ := bodyNode_spec fuel ds ps f a n1 w1 ha1 b
            ⟨hb.al, hb.root, by omega, fun i hi => hz i ((footAll_cons hs' i).mpr (.inl ⟨by simpa using hab, .inl (by simpa using hi)⟩))⟩
          have hl1 := hp1.len
          obtain ⟨b2, e2⟩ := buildNodes_second fuel ds ps union fs as n2 ht w5 ha2 hm b1
            ⟨hp1.al, by omega, by omega, fun i hi => by
              have hi' := hlt i hi
              rw [hp1.frame i (by omega) (fun hf => foot_disj hwf' (by simp [hd]) i (.inl hf) hi)]
              exact hz i ((footAll_cons hs' i).mpr (.inr hi))⟩
          refine ⟨b2, ?_⟩
          rw [buildNode_eq, BM.bind_ok (a := true) (s' := b1)]
          · exact e2
          · rw [hd]
            unfold guardedB
            simp only
            rw [BM.bind_ok e1]; rfl
        | some tag =>
          obtain ⟨u, hu⟩ := Option.isSome_iff_exists.mp (w2 tag hd).1
          by_cases hab : absent f a = true
          · rw [if_pos hab] at ha1
            subst ha1
            rw [members_absent hs' hab] at hm
            obtain ⟨b2, e2⟩ := buildNodes_second fuel ds ps union fs as n2 ht w5 ha2 hm b
              ⟨hb.al, by omega, by omega, fun i hi => hz i ((footAll_cons hs' i).mpr (.inr hi))⟩
            refine ⟨b2, ?_⟩
            rw [buildNode_eq, BM.bind_ok (a := true) (s' := b)]
            · exact e2
            · rw [hd, hu]
              unfold absent at hab
              simp only [Bool.and_eq_true] at hab
              unfold guardedB
              simp only
              rw [if_pos hab.2]; rfl
          · have hund : a.isUndefined = false := by
              unfold absent at hab; rw [hd] at hab; simpa using hab
            refine ⟨b, ?_⟩
            rw [buildNode_eq]
            refine BM.bind_error (s' := b) ?_
            rw [hd, hu]
            unfold guardedB
            simp only
            rw [if_neg (by simp [hund]), if_pos trivial]
            rfl

/-- Two members. -/
theorem buildNodes_two (fuel ds ps : Nat) (union : Option Nat) :
    ∀ (fs : List Field) (as : List Arg) (n : Nat), TagWF ds union → FieldsWF ds ps union fs →
    AccFields fuel fs as n → 2 ≤ (members fs as).length →
    ∀ b : Bytes, BufOK ds ps b n (footAll ds union fs as) →
    ∃ b', buildNodes fuel ds union false fs as b = .error .typeError b'
  | [], as, n, ht, hwf, ha, hm, b, hb => by unfold members at hm; simp at hm
  | f :: fs, as, n, ht, hwf, ha, hm, b, hb => by
    have hwf' := hwf
    unfold FieldsWF at hwf
    obtain ⟨w1, w2, w3, w4, w5⟩ := hwf
    unfold AccFields at ha
    by_cases hs : f.skipped = true
    · rw [if_pos hs] at ha
      rw [members_skip hs] at hm
      rw [footAll_skip _ _ _ _ _ hs] at hb
      unfold buildNodes
      rw [if_pos hs]
      exact buildNodes_two fuel ds ps union fs as n ht w5 ha hm b hb
    · rw [if_neg hs] at ha
      have hs' : f.skipped = false := by simpa using hs
      cases as with
      | nil => exact ha.elim
      | cons a as =>
        obtain ⟨n1, n2, rfl, ha1, ha2⟩ := ha
        rw [buildNodes_cons hs']
        have hfit := hb.fits
        have hroot := hb.root
        have hlt : ∀ i, footAll ds union fs as i → i < 64 * (ds + ps) := footAll_lt ht w5
        have hlt1 : ∀ i, footNode ds f a i → i < 64 * (ds + ps) := fun i hi =>
          fieldBits_lt ds ps f w1 i (footNode_subset ds f a i hi)
        have hz := hb.zero
        cases hd : f.disc with
        | none =>
          have hab : absent f a = false := by unfold absent; rw [hd]; rfl
          rw [if_neg (by rw [hab]; simp)] at ha1
          rw [members_none hs' hd] at hm
          obtain ⟨b1, e1, hp1⟩ := bodyNode_spec fuel ds ps f a n1 w1 ha1 b
            ⟨hb.al, hb.root, by omega, fun i hi => hz i ((footAll_cons hs' i).mpr (.inl ⟨hab, .inl hi⟩))⟩
          have hl1 := hp1.len
          obtain ⟨b2, e2⟩ := buildNodes_two fuel ds ps union fs as n2 ht w5 ha2 hm b1
            ⟨hp1.al, by omega, by omega, fun i hi => by
              have hi' := hlt i hi
              rw [hp1.frame i (by omega) (fun hf => foot_disj hwf' (by simp [hd]) i (.inl hf) hi)]
              exact hz i ((footAll_cons hs' i).mpr (.inr hi))⟩
          refine ⟨b2, ?_⟩
          rw [buildNode_eq, BM.bind_ok (a := false) (s' := b1)]
          · exact e2
          · rw [hd]
            unfold guardedB
            simp only
            rw [BM.bind_ok e1]; rfl
        | some tag =>
          obtain ⟨hus, htag⟩ := w2 tag hd
          obtain ⟨u, hu⟩ := Option.isSome_iff_exists.mp hus
          by_cases hab : absent f a = true
          · rw [if_pos hab] at ha1
            subst ha1
            rw [members_absent hs' hab] at hm
            obtain ⟨b2, e2⟩ := buildNodes_two fuel ds ps union fs as n2 ht w5 ha2 hm b
              ⟨hb.al, by omega, by omega, fun i hi => hz i ((footAll_cons hs' i).mpr (.inr hi))⟩
            refine ⟨b2, ?_⟩
            rw [buildNode_eq, BM.bind_ok (a := false) (s' := b)]
            · exact e2
            · rw [hd, hu]
              unfold absent at hab
              simp only [Bool.and_eq_true] at hab
              unfold guardedB
              simp only
              rw [if_pos hab.2]; rfl
          · have hab' : absent f a = false := by simpa using hab
            rw [if_neg hab] at ha1
            have hund : a.isUndefined = false := by
              unfold absent at hab; rw [hd] at hab; simpa using hab
            rw [members_some hs' hd hund] at hm
            have hm' : members fs as ≠ [] := by
              intro h; rw [h] at hm; simp at hm
            have hu2 := ht u hu
            obtain ⟨b0, e0, hp0⟩ := write_num (b := b) (fmt := .h) (k := u * 2) (v := (tag : Int)) (inRange_tag htag)
              (by show _ + 2 ≤ _; omega) hb.al
            have htb : ∀ i, (8 * (u * 2) ≤ i ∧ i < 8 * (u * 2) + 8 * Fmt.size .h) → tagBits union i := by
              intro i hi
              have hi : 8 * (u * 2) ≤ i ∧ i < 8 * (u * 2) + 16 := hi
              rw [hu]
              show 16 * u ≤ i ∧ i < 16 * u + 16
              omega
            have hl0 := hp0.len
            obtain ⟨b1, e1, hp1⟩ := bodyNode_spec fuel ds ps f a n1 w1 ha1 b0
              ⟨hp0.al, by omega, by omega, fun i hi => by
                have hi' := hlt1 i hi
                rw [hp0.frame i (by omega) (fun h => w3 i (htb i h) (footNode_subset ds f a i hi))]
                exact hz i ((footAll_cons hs' i).mpr (.inl ⟨hab', .inl hi⟩))⟩
            have hl1 := hp1.len
            have hmm := members_mask fs as
            obtain ⟨b2, e2⟩ := buildNodes_second fuel ds ps union fs as n2 ht w5 ha2 hm' b1
              ⟨hp1.al, by omega, by omega, fun i hi => by
                have hi' := footAll_lt ht w5 i hi
                rw [hp1.frame i (by omega) (fun hf => foot_disj hwf' (fun _ => hmm) i (.inl hf) hi),
                  hp0.frame i (by omega) (fun hf =>
                    foot_disj (a := a) hwf' (fun _ => hmm) i (.inr ⟨by simp [hd], htb i hf⟩) hi)]
                exact hz i ((footAll_cons hs' i).mpr (.inr (footAll_mask fs as i hi)))⟩
            refine ⟨b2, ?_⟩
            rw [buildNode_eq, BM.bind_ok (a := true) (s' := b1)]
            · exact e2
            · rw [hd, hu]
              unfold guardedB
              simp only
              rw [if_neg (by simp [hund]), if_neg (by simp), BM.bind_ok e0, BM.bind_ok e1]; rfl

theorem construct_two (fuel : Nat) (S : Schema) (args : List Arg) (n : Nat) (hS : S.WF) (hl : S.locals.Nodup)
    (ha : AccFields fuel S.fields args n) (hm : 2 ≤ (members S.fields args).length)
    (hsz : 8 * (S.dataWords + S.ptrs) + n ≤ 2 ^ 32) : S.construct fuel args = .error .typeError := by
  have hnull := nullablesOK_of_wf _ _ _ _ hS.fields
  have hlen := accFields_length fuel _ _ _ ha
  have hnew := new_eq_build fuel S args hl hnull hlen
  obtain ⟨C, e⟩ := buildNodes_two fuel S.dataWords S.ptrs S.union S.fields args n hS.tag hS.fields ha
    hm _ (bufOK_init (footAll_lt hS.tag hS.fields) hsz)
  unfold Schema.construct
  rw [hnew]
  unfold buildNew
  rw [e]
  rfl

end Capnpy
