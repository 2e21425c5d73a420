import Verif.Proof.CtorDefault

/-!
# C30 - C32, C35: constructors, unions, nullable groups

The specification is in Spec/Ctor.lean.  `Schema.construct` and `Schema.call` are the
generated constructor; `getField` is the generated property.
-/

namespace Capnpy.Props

open Spec

/-! ## C30 -/

/-- C30: for every schema laid out by the capnp compiler, whatever its fields, and
all acceptable arguments, the constructor succeeds; the result is a well-formed
struct, and reading each field that was given returns the argument (whatever the
other arguments are).  Void fields read as `None`. -/
theorem C30_roundtrip (fuel : Nat) (S : Schema) (args : List Arg) (n : Nat) (hS : S.WF) (hl : S.locals.Nodup)
    (ha : AccFields fuel S.fields args n) (hm : (members S.fields args).length ≤ 1)
    (hsz : 8 * (S.dataWords + S.ptrs) + n ≤ 2 ^ 32) :
    ∃ o, S.construct fuel args = .ok o ∧ (∃ data ptrs, Denotes o (.struct data ptrs)) ∧
      o.dataSize = S.dataWords ∧ o.ptrsSize = S.ptrs ∧ o.seg.buf.length = 8 * (S.dataWords + S.ptrs) + n ∧
      (∀ (k : Nat) (f : Field) (a : Arg), S.params[k]? = some f → args[k]? = some a → absent f a = false →
        ReadsVal o f a (getField o S.union f)) ∧
      (∀ f ∈ S.fields, f.skipped = true → getField o S.union f = .ok .none) := by
  obtain ⟨C, _, e, hlen, ⟨data, ptrs, hd⟩, hh, _⟩ := construct_spec fuel S args n hS hl ha hm hsz
  have hr := reads_fields hd (by omega) _ _ _ hS.tag hS.fields hh
  exact ⟨_, e, ⟨data, ptrs, hd⟩, rfl, rfl, hlen, readsFields_get hr, readsFields_skipped hr⟩

/-- The arguments of a keyword call are the given ones and, for the others, what
the compiler emits as the default of the parameter. -/
theorem kwargs_ok (S : Schema) (kw : List (String × Arg)) (h : ∀ x ∈ kw, ∃ f ∈ S.params, f.name = x.1) :
    S.kwargs kw = .ok (S.params.map fun f => (kw.lookup f.name).getD (defaultArg none f)) := by
  unfold Schema.kwargs
  rw [if_pos]
  · rfl
  · rw [List.all_eq_true]
    intro x hx
    obtain ⟨f, hf, he⟩ := h x hx
    rw [List.any_eq_true]
    exact ⟨f, hf, by simpa using he⟩

theorem fieldsWF_mem {ds ps : Nat} {u : Option Nat} : ∀ {fs : List Field}, FieldsWF ds ps u fs →
    ∀ {f : Field}, f ∈ fs → FieldWF ds ps f := by
  intro fs
  induction fs with
  | nil => intro _ f hf; simp at hf
  | cons g gs ih =>
    intro h f hf
    unfold FieldsWF at h
    rcases List.mem_cons.mp hf with rfl | hf
    · exact h.1
    · exact ih h.2.2.2.2 hf

/-- C30, keyword calls: `Cls(**kw)` where every keyword is the name of a field and the
arguments are acceptable: every given field reads as its argument, every omitted
field outside unions reads as its declared default. -/
theorem C30_call (fuel : Nat) (S : Schema) (kw : List (String × Arg)) (n : Nat) (hS : S.WF) (hl : S.locals.Nodup)
    (hk : ∀ x ∈ kw, ∃ f ∈ S.params, f.name = x.1)
    (ha : AccFields fuel S.fields (S.params.map fun f => (kw.lookup f.name).getD (defaultArg none f)) n)
    (hm : (members S.fields (S.params.map fun f => (kw.lookup f.name).getD (defaultArg none f))).length ≤ 1)
    (hsz : 8 * (S.dataWords + S.ptrs) + n ≤ 2 ^ 32) :
    ∃ o, S.call fuel kw = .ok o ∧
      (∀ f ∈ S.params, ∀ a, kw.lookup f.name = some a → absent f a = false →
        ReadsVal o f a (getField o S.union f)) ∧
      (∀ f ∈ S.params, kw.lookup f.name = none → f.disc = none → ReadsDefault o S.union f) := by
  obtain ⟨o, e, hd, _, _, _, hr, _⟩ := C30_roundtrip fuel S _ n hS hl ha hm hsz
  have hget : ∀ f ∈ S.params, ∃ k : Nat, S.params[k]? = some f := fun f hf => by
    obtain ⟨k, hk, he⟩ := List.getElem_of_mem hf
    exact ⟨k, by rw [List.getElem?_eq_getElem hk, he]⟩
  have hfield : ∀ f ∈ S.params, FieldWF S.dataWords S.ptrs f := by
    intro f hf
    exact fieldsWF_mem hS.fields (List.mem_of_mem_filter hf)
  refine ⟨o, ?_, ?_, ?_⟩
  · unfold Schema.call
    rw [bind_okP (kwargs_ok S kw hk)]
    exact e
  · intro f hf a hla hab
    obtain ⟨k, hkf⟩ := hget f hf
    refine hr k f a hkf ?_ hab
    rw [List.getElem?_map, hkf]
    simp [hla]
  · intro f hf hla hd
    obtain ⟨k, hkf⟩ := hget f hf
    refine reads_default o S.union f (hfield f hf) (hr k f (defaultArg none f) hkf ?_ ?_)
    · rw [List.getElem?_map, hkf]
      simp [hla]
    · simp [absent, hd]

/-- C30: the default arguments are acceptable, so a constructor may be called without
arguments (or with some), unless there is an AnyPointer field. -/
theorem C30_no_arguments (fuel : Nat) (S : Schema) (hS : S.WF) (hl : S.locals.Nodup) (hna : NoAnys S.fields) :
    ∃ o, S.call fuel [] = .ok o ∧ ∀ f ∈ S.params, f.disc = none → ReadsDefault o S.union f := by
  have hda : ∀ fs : List Field, defaultArgs none fs = (fs.filter (!·.skipped)).map fun f => defaultArg none f := by
    intro fs
    induction fs with
    | nil => unfold defaultArgs; rfl
    | cons f fs ih =>
      unfold defaultArgs
      by_cases hs : f.skipped = true
      · rw [if_pos hs, List.filter_cons_of_neg (by simp [hs]), ih]
      · rw [if_neg hs, List.filter_cons_of_pos (by simp [hs]), ih]; rfl
  obtain ⟨h1, h2⟩ := defaults_acc fuel _ _ _ _ hS.fields hna
  rw [hda] at h1 h2
  have e : (S.params.map fun f => (([] : List (String × Arg)).lookup f.name).getD (defaultArg none f)) =
      (S.fields.filter (!·.skipped)).map fun f => defaultArg none f := rfl
  have hd := hS.data
  have hp := hS.ptrs
  obtain ⟨o, e1, _, e3⟩ := C30_call fuel S [] 0 hS hl (by simp) (by rw [e]; exact h1) (by rw [e, h2]; simp) (by omega)
  exact ⟨o, e1, fun f hf hd => e3 f hf rfl hd⟩

/-- C30: an unknown keyword is a `TypeError`. -/
theorem C30_unknown_keyword (fuel : Nat) (S : Schema) (kw : List (String × Arg)) (x : String × Arg) (hx : x ∈ kw)
    (h : ∀ f ∈ S.params, f.name ≠ x.1) : S.call fuel kw = .error .typeError := by
  unfold Schema.call Schema.kwargs
  rw [if_neg]
  · rfl
  · rw [List.all_eq_true]
    intro hc
    have := hc x hx
    rw [List.any_eq_true] at this
    obtain ⟨f, hf, he⟩ := this
    exact h f hf (by simpa using he)

/-! ## C31 -/

/-- C31: when at most one union member is given, `which()` is the tag of that member
(the first enumerant if none is), and `is_x()` is true for exactly that one. -/
theorem C31_which (fuel : Nat) (S : Schema) (args : List Arg) (n u : Nat) (hS : S.WF) (hl : S.locals.Nodup)
    (hu : S.union = some u) (ha : AccFields fuel S.fields args n) (hm : (members S.fields args).length ≤ 1)
    (hsz : 8 * (S.dataWords + S.ptrs) + n ≤ 2 ^ 32) :
    ∃ o, S.construct fuel args = .ok o ∧
      (∀ tag, members S.fields args = [tag] →
        o.whichRaw (some ((u * 2 : Nat) : Int)) = .ok tag ∧ ∀ i, isMember o u i = .ok (decide (i = tag))) ∧
      (members S.fields args = [] →
        o.whichRaw (some ((u * 2 : Nat) : Int)) = .ok 0 ∧ ∀ i, isMember o u i = .ok (decide (i = 0))) := by
  obtain ⟨o, e, hw⟩ := construct_which fuel S args n hS hl ha hm hsz hu
  have key : ∀ tag : Nat, o.readInt16 ((u * 2 : Nat) : Int) = .ok (tag : Int) →
      o.whichRaw (some ((u * 2 : Nat) : Int)) = .ok tag ∧ ∀ i, isMember o u i = .ok (decide (i = tag)) := by
    intro tag h
    refine ⟨h, fun i => ?_⟩
    unfold isMember
    rw [bind_okP h]
    refine congrArg Except.ok ?_
    by_cases hi : i = tag
    · subst hi; simp
    · simp only [hi, decide_false]
      rw [beq_eq_false_iff_ne]
      intro hc
      apply hi
      exact_mod_cast hc.symm
  refine ⟨o, e, fun tag ht => key tag ?_, fun ht => ?_⟩
  · rw [hw, ht]; rfl
  · have := key 0 (by rw [hw, ht]; rfl)
    exact_mod_cast this

/-- C31: on any object (also a received one) whose tag is `t`, reading any member
with another tag raises `ValueError`, for slots and groups. -/
theorem C31_wrong_member (o : StructObj) (u : Nat) (t : Int) (f : Field) (tag : Nat) (hf : f.disc = some tag)
    (hw : o.whichRaw (some ((u * 2 : Nat) : Int)) = .ok t) (hne : t ≠ tag) :
    getField o (some u) f = .error .valueError := by
  have e : ensureMember o (some u) (some tag) = .error .valueError := by
    unfold ensureMember StructObj.ensureUnion
    simp only [Option.map_some]
    rw [bind_okP hw, if_pos hne]
    rfl
  cases f with
  | slot n c d ty off df =>
    have hf : d = some tag := hf
    subst hf
    unfold getField
    rw [e]
    rfl
  | group n c d nl gu ch =>
    have hf : d = some tag := hf
    subst hf
    unfold getField
    rw [e]
    rfl

/-- C31: passing two or more members of a union raises `TypeError`. -/
theorem C31_two_members (fuel : Nat) (S : Schema) (args : List Arg) (n : Nat) (hS : S.WF) (hl : S.locals.Nodup)
    (ha : AccFields fuel S.fields args n) (hm : 2 ≤ (members S.fields args).length)
    (hsz : 8 * (S.dataWords + S.ptrs) + n ≤ 2 ^ 32) : S.construct fuel args = .error .typeError :=
  construct_two fuel S args n hS hl ha hm hsz

/-- The arguments of `new_foo(**kw)`. -/
def newMemberArgs (S : Schema) (tag : Field) (kw : List (String × Arg)) : List Arg :=
  S.params.map fun f =>
    if f.disc.isNone || (f.name == tag.name && f.code == tag.code) then
      (kw.lookup f.name).getD (defaultArg (some (tag.name, tag.code)) f)
    else .undefined

theorem params_names_nodup (S : Schema) (hl : S.locals.Nodup) : (S.params.map Field.name).Nodup := by
  have h1 : (localsAll "" S.fields).Nodup := by
    unfold Schema.locals at hl
    rw [List.nodup_cons, List.nodup_cons] at hl
    exact (List.nodup_append.mp hl.2.2).2.1
  have h2 : (fieldVars "" S.fields).Nodup := (fieldVars_sublist "" S.fields).nodup h1
  have : fieldVars "" S.fields = S.params.map Field.name := by
    unfold fieldVars Schema.params
    refine List.map_congr_left fun f _ => ?_
    unfold varname
    rw [if_pos rfl]
  rwa [this] at h2

theorem members_none (φ : Field → Arg) : ∀ fs : List Field,
    (∀ f ∈ fs, f.disc.isSome → (φ f).isUndefined = true) → members fs ((fs.filter (!·.skipped)).map φ) = [] := by
  intro fs
  induction fs with
  | nil => intro _; unfold members; rfl
  | cons f fs ih =>
    intro h
    unfold members
    have ih := ih fun g hg => h g (List.mem_cons_of_mem _ hg)
    by_cases hs : f.skipped = true
    · rw [if_pos hs, List.filter_cons_of_neg (by simp [hs])]
      exact ih
    · rw [if_neg hs, List.filter_cons_of_pos (by simp [hs])]
      simp only [List.map_cons]
      rw [ih]
      cases hd : f.disc with
      | none => rfl
      | some t => simp [h f (by simp) (by simp [hd])]

theorem members_one (φ : Field → Arg) (g : Field) (tag : Nat) (hg : g.disc = some tag)
    (hu : (φ g).isUndefined = false) : ∀ fs : List Field, g ∈ fs →
      ((fs.filter (!·.skipped)).map Field.name).Nodup →
      (∀ f ∈ fs, f.disc.isSome → f.name ≠ g.name → (φ f).isUndefined = true) →
      members fs ((fs.filter (!·.skipped)).map φ) = [tag] := by
  have hsk : g.skipped = false := by
    cases g with
    | slot n c d ty o df => cases d with
      | none => simp [Field.disc] at hg
      | some d => simp [Field.skipped]
    | group n c d nl u ch => simp [Field.skipped]
  have hpos : ∀ f : Field, f.disc.isSome → f.skipped = false := by
    intro f hf
    cases f with
    | slot n c d ty o df => cases d with
      | none => simp [Field.disc] at hf
      | some d => simp [Field.skipped]
    | group n c d nl u ch => simp [Field.skipped]
  intro fs
  induction fs with
  | nil => intro h; simp at h
  | cons f fs ih =>
    intro hmem hnd h
    unfold members
    by_cases hs : f.skipped = true
    · rw [if_pos hs, List.filter_cons_of_neg (by simp [hs])]
      rw [List.filter_cons_of_neg (by simp [hs])] at hnd
      refine ih ?_ hnd fun g hg => h g (List.mem_cons_of_mem _ hg)
      rcases List.mem_cons.mp hmem with rfl | hm
      · rw [hsk] at hs; simp at hs
      · exact hm
    · rw [if_neg hs, List.filter_cons_of_pos (by simp [hs])]
      rw [List.filter_cons_of_pos (by simp [hs])] at hnd
      simp only [List.map_cons] at hnd ⊢
      rw [List.nodup_cons] at hnd
      rcases List.mem_cons.mp hmem with rfl | hm
      · rw [members_none φ fs ?_, hg]
        · simp [hu]
        · intro f hf hd
          refine h f (List.mem_cons_of_mem _ hf) hd fun hc => hnd.1 ?_
          rw [← hc]
          exact List.mem_map_of_mem (List.mem_filter.mpr ⟨hf, by simp [hpos f hd]⟩)
      · rw [ih hm hnd.2 fun g hg => h g (List.mem_cons_of_mem _ hg)]
        have hne : f.name ≠ g.name := fun hc => hnd.1 (by
          rw [hc]
          exact List.mem_map_of_mem (List.mem_filter.mpr ⟨hm, by simp [hsk]⟩))
        cases hd : f.disc with
        | none => rfl
        | some t => simp [h f (by simp) (by simp [hd]) hne]

/-- The default of a field outside the union, and that of the member itself in
`new_foo`, is a value. -/
theorem default_defined (force : Option (String × Nat)) (ds ps : Nat) : ∀ g : Field, FieldWF ds ps g →
    (g.disc = none ∨ forced force g.name g.code = true) → (defaultArg force g).isUndefined = false
  | .slot n c d ty o df, _, h => by
    unfold defaultArg
    rw [if_neg]
    · cases ty <;> rfl
    · rcases h with h | h
      · have h : d = none := h
        simp [h]
      · have h : forced force n c = true := h
        simp [h]
  | .group n c d nl u ch, hwf, h => by
    unfold FieldWF at hwf
    unfold defaultArg
    rw [if_neg]
    · by_cases hn : nl = true
      · rw [if_pos hn]
        obtain ⟨_, _, c1, o1, ty, d1, c2, e, hty, hname, hdisc, hsk⟩ := hwf.2.2 hn
        have hs1 : (Field.slot "is_null" c1 none ty o1 d1).skipped = false := by
          cases ty <;> first | rfl | simp [IsNullType] at hty
        have hwf2 : FieldWF ds ps c2 := by
          have := hwf.2.1
          rw [e] at this
          unfold FieldsWF at this
          have := this.2.2.2.2
          unfold FieldsWF at this
          exact this.1
        have ih := default_defined force ds ps c2 hwf2 (Or.inl hdisc)
        rw [e]
        simp only [defaultArgs, hs1, hsk, Bool.false_eq_true, if_false]
        split
        · rfl
        · exact ih
      · rw [if_neg hn]; rfl
    · rcases h with h | h
      · have h : d = none := h
        simp [h]
      · have h : forced force n c = true := h
        simp [h]
termination_by g => sizeOf g
decreasing_by
  subst e
  simp
  omega

/-- C31: `new_foo(**kw)` sets the tag to that of `foo`; `foo` and the other given
fields read as their arguments. -/
theorem C31_new_member (fuel : Nat) (S : Schema) (g : Field) (tag : Nat) (kw : List (String × Arg)) (n u : Nat)
    (hS : S.WF) (hl : S.locals.Nodup) (hu : S.union = some u) (hg : g ∈ S.params) (hd : g.disc = some tag)
    (hk : ∀ x ∈ kw, ∃ f ∈ S.params, (f.disc = none ∨ f = g) ∧ f.name = x.1)
    (hgu : kw.lookup g.name ≠ some .undefined)
    (ha : AccFields fuel S.fields (newMemberArgs S g kw) n)
    (hsz : 8 * (S.dataWords + S.ptrs) + n ≤ 2 ^ 32) :
    ∃ o, S.newMember fuel g kw = .ok o ∧ o.whichRaw (some ((u * 2 : Nat) : Int)) = .ok tag ∧
      ∀ f ∈ S.params, (f.disc = none ∨ f = g) → ∀ a, kw.lookup f.name = some a → absent f a = false →
        ReadsVal o f a (getField o S.union f) := by
  have hnd := params_names_nodup S hl
  have hm : members S.fields (newMemberArgs S g kw) = [tag] := by
    unfold newMemberArgs
    refine members_one (fun f => if f.disc.isNone || (f.name == g.name && f.code == g.code) then
      (kw.lookup f.name).getD (defaultArg (some (g.name, g.code)) f) else .undefined) g tag hd ?_ S.fields
      (List.mem_of_mem_filter hg) hnd ?_
    · simp only [beq_self_eq_true, Bool.and_self, Bool.or_true, if_true]
      cases hkg : kw.lookup g.name with
      | none => exact default_defined _ _ _ g (fieldsWF_mem hS.fields (List.mem_of_mem_filter hg))
                  (Or.inr (by simp [forced]))
      | some a =>
        rw [hkg] at hgu
        cases a <;> first | rfl | exact absurd rfl hgu
    · intro f hf hfd hne
      rw [if_neg]
      · rfl
      · simp only [Bool.or_eq_true, Bool.and_eq_true, beq_iff_eq, Option.isNone_iff_eq_none]
        rintro (h | h)
        · rw [h] at hfd; simp at hfd
        · exact hne h.1
  obtain ⟨o, e, hd', _, _, _, hr, _⟩ := C30_roundtrip fuel S _ n hS hl ha (by rw [hm]; simp) hsz
  obtain ⟨o2, e2, hw, _⟩ := C31_which fuel S _ n u hS hl hu ha (by rw [hm]; simp) hsz
  rw [e] at e2
  injection e2 with e2
  subst e2
  refine ⟨o, ?_, (hw tag hm).1, ?_⟩
  · rw [← e]
    unfold Schema.newMember newMemberArgs
    simp only
    rw [if_pos]
    rw [List.all_eq_true]
    intro x hx
    obtain ⟨f, hf, hfg, he⟩ := hk x hx
    rw [List.any_eq_true]
    refine ⟨f, List.mem_filter.mpr ⟨hf, ?_⟩, by simpa using he⟩
    rcases hfg with h | rfl
    · simp [h]
    · simp
  · intro f hf hfg a hla hab
    obtain ⟨k, hkl, he⟩ := List.getElem_of_mem hf
    have hkf : S.params[k]? = some f := by rw [List.getElem?_eq_getElem hkl, he]
    refine hr k f a hkf ?_ hab
    unfold newMemberArgs
    rw [List.getElem?_map, hkf]
    simp only [Option.map_some]
    rw [if_pos]
    · simp [hla]
    · rcases hfg with h | rfl
      · simp [h]
      · simp

/-! ## C32 -/

/-- C32: a nullable group passed `None` reads as `None`; passed anything else, its
property reads as its `value` field does, which reads as the argument. -/
theorem C32_nullable (fuel : Nat) (S : Schema) (args : List Arg) (n : Nat) (hS : S.WF) (hl : S.locals.Nodup)
    (ha : AccFields fuel S.fields args n) (hm : (members S.fields args).length ≤ 1)
    (hsz : 8 * (S.dataWords + S.ptrs) + n ≤ 2 ^ 32) {k : Nat} {name : String} {code : Nat} {u : Option Nat}
    {isNull value : Field} {a : Arg}
    (hf : S.params[k]? = some (.group name code none true u [isNull, value])) (hak : args[k]? = some a) :
    ∃ o, S.construct fuel args = .ok o ∧
      (a = .none → getField o S.union (.group name code none true u [isNull, value]) = .ok .none) ∧
      (a ≠ .none → ReadsVal o value a (getField o S.union (.group name code none true u [isNull, value]))) := by
  obtain ⟨o, e, _, _, _, _, hr, _⟩ := C30_roundtrip fuel S args n hS hl ha hm hsz
  have h := hr k _ a hf hak rfl
  unfold ReadsVal at h
  rw [if_pos rfl] at h
  refine ⟨o, e, ?_, ?_⟩
  · rintro rfl
    exact h
  · intro hne
    rw [if_neg (by
      intro hc
      apply hne
      cases a <;> first | rfl | (simp [Arg.isNone] at hc))] at h
    unfold ReadsLast at h
    simp only at h
    unfold ReadsLast at h
    exact h

/-- C32: an omitted nullable field reads as `None` when its `isNull` defaults to true,
and as the default of its `value` otherwise. -/
theorem C32_omitted (fuel : Nat) (S : Schema) (hS : S.WF) (hl : S.locals.Nodup) (hna : NoAnys S.fields)
    {name n1 n2 : String} {code c1 c2 o1 o2 : Nat} {u : Option Nat} {t1 t2 : SlotType} {d1 d2 : Option Int}
    (hf : .group name code none true u [.slot n1 c1 none t1 o1 d1, .slot n2 c2 none t2 o2 d2] ∈ S.params) :
    ∃ o, S.call fuel [] = .ok o ∧
      getField o S.union (.group name code none true u [.slot n1 c1 none t1 o1 d1, .slot n2 c2 none t2 o2 d2]) =
        .ok (if d1.getD 0 ≠ 0 then .none else declaredDefault t2 d2) := by
  obtain ⟨o, e, h⟩ := C30_no_arguments fuel S hS hl hna
  have := h _ hf rfl
  unfold ReadsDefault at this
  have := this rfl
  rw [if_pos rfl] at this
  exact ⟨o, e, this _ _ _ _ _ _ _ _ _ _ rfl⟩

/-! ## C35 -/

/-- C35: enum values round-trip through fields, for all 16-bit values and any
declared default. -/
theorem C35_field_roundtrip (fuel : Nat) (S : Schema) (args : List Arg) (n : Nat) (hS : S.WF) (hl : S.locals.Nodup)
    (ha : AccFields fuel S.fields args n) (hm : (members S.fields args).length ≤ 1)
    (hsz : 8 * (S.dataWords + S.ptrs) + n ≤ 2 ^ 32) {k : Nat} {name : String} {code off : Nat} {dflt : Option Int}
    {i : Int} (hf : S.params[k]? = some (.slot name code none .enum off dflt)) (hak : args[k]? = some (.int i)) :
    ∃ o, S.construct fuel args = .ok o ∧
      getField o S.union (.slot name code none .enum off dflt) = .ok (.int i) := by
  obtain ⟨o, e, _, _, _, _, hr, _⟩ := C30_roundtrip fuel S args n hS hl ha hm hsz
  have h := hr k _ _ hf hak rfl
  unfold ReadsVal at h
  obtain ⟨j, h1, h2⟩ := h
  cases h1
  exact ⟨o, e, h2⟩

/-! ## A concrete schema

    struct Sample {
      x @0 :Int32 = 5;  b @1 :Bool = true;  e @2 :Color;  name @3 :Text;
      pos2 :group { lat @4 :Int16; union { up @5 :Int16; down @6 :Void; } }
      maybe :group $Py.nullable { isNull @7 :Int8; value @8 :Int16 = 7; }
      union { foo @9 :Int32; bar @10 :Int16; }
    } -/

def sampleFields : List Field :=
  [ .slot "x" 0 none (.prim .i) 0 (some 5),
    .slot "b" 1 none .bool 32 (some 1),
    .slot "e" 2 none .enum 3 none,
    .slot "name" 3 none .text 0 none,
    .group "pos2" 4 none false (some 5)
      [ .slot "lat" 4 none (.prim .h) 4 none,
        .slot "up" 5 (some 0) (.prim .h) 6 none,
        .slot "down" 6 (some 1) .void 0 none ],
    .group "maybe" 7 none true none
      [ .slot "is_null" 7 none (.prim .b) 14 none,
        .slot "value" 8 none (.prim .h) 8 (some 7) ],
    .slot "foo" 9 (some 0) (.prim .i) 5 none,
    .slot "bar" 10 (some 1) (.prim .h) 10 none,
    .slot "nothing" 11 none .void 0 none ]

/-- Two words would overlap: the sample uses three words of data. -/
def sampleSchema : Schema := ⟨3, 1, some 9, sampleFields⟩

theorem sampleSchema_wf : sampleSchema.WF := by
  refine ⟨by decide, by decide, ?_, ?_⟩
  · intro u hu
    cases hu
    decide
  · unfold sampleSchema sampleFields
    simp only [FieldsWF, FieldWF, TagWF, SlotWF, Field.disc, fieldBits, fieldsBits, slotBits, tagBits, Fmt.size,
      IsNullType, Field.name, Field.skipped, List.mem_cons, List.not_mem_nil, or_false, forall_eq_or_imp, forall_eq,
      Option.isSome_some, Option.isSome_none, true_and, and_true, Bool.false_eq_true, false_and, false_or]
    simp [InRange, isSigned, Fmt.size]
    repeat' apply And.intro
    all_goals
      intros
      omega

theorem sampleSchema_locals : sampleSchema.locals.Nodup := by decide +kernel

def sampleArgs : List Arg :=
  [.int (-7), .bool false, .int 2, .bytes [104, 105], .tuple [.int 3, .undefined, .none], .none, .undefined, .int 9]

theorem sampleArgs_ok : AccFields 10 sampleSchema.fields sampleArgs 8 := by
  show AccFields 10 sampleFields sampleArgs 8
  simp [sampleFields, sampleArgs, AccFields, AccField, SlotArg, Field.skipped, absent, Field.disc, Arg.isUndefined,
    nullablePair, Arg.isNone, members, defaultArg, slotDefault, PtrArg]
  refine ⟨?_, ?_, ?_, ⟨?_, ?_⟩, ?_, ⟨?_, ?_⟩, ?_⟩
  · simp [Val.size]
    decide
  · simp [Arg.toInt?, InRange, isSigned, Fmt.size]
  · simp [Arg.toInt?, InRange, isSigned, Fmt.size]
  · simp [Val.Fits]
  · simp [Val.depth]
  · simp [Arg.toInt?, InRange, isSigned, Fmt.size]
  · simp [Arg.toInt?, InRange, isSigned, Fmt.size]
  · simp [Arg.toInt?, InRange, isSigned, Fmt.size]
  · simp [Arg.toInt?, InRange, isSigned, Fmt.size]

theorem sampleArgs_members : members sampleSchema.fields sampleArgs = [1] := by
  show members sampleFields sampleArgs = [1]
  simp [members, sampleFields, sampleArgs, Field.skipped, Field.disc, Arg.isUndefined]

/-- The sample meets the hypotheses of `C30_roundtrip`, `C31_which` and `C32_nullable`. -/
example : ∃ o, sampleSchema.construct 10 sampleArgs = .ok o ∧
    getField o (some 9) (.slot "x" 0 none (.prim .i) 0 (some 5)) = .ok (.int (-7)) ∧
    getField o (some 9) (.slot "name" 3 none .text 0 none) = .ok (.bytes [104, 105]) ∧
    o.whichRaw (some 18) = .ok 1 := by
  have hm : (members sampleSchema.fields sampleArgs).length ≤ 1 := by rw [sampleArgs_members]; simp
  obtain ⟨o, e, _, _, _, _, h, _⟩ := C30_roundtrip 10 sampleSchema sampleArgs 8 sampleSchema_wf sampleSchema_locals
    sampleArgs_ok hm (by decide)
  obtain ⟨o2, e2, hw, _⟩ := C31_which 10 sampleSchema sampleArgs 8 9 sampleSchema_wf sampleSchema_locals rfl
    sampleArgs_ok hm (by decide)
  rw [e] at e2
  injection e2 with e2
  subst e2
  refine ⟨o, e, ?_, ?_, (hw 1 sampleArgs_members).1⟩
  · have := h 0 _ _ rfl rfl rfl
    unfold ReadsVal at this
    obtain ⟨i, hi, hr⟩ := this
    cases hi
    exact hr
  · have := h 3 _ _ rfl rfl rfl
    unfold ReadsVal at this
    rcases this with ⟨hn, _⟩ | ⟨t, ht, hr⟩
    · cases hn
    · cases ht
      exact hr

/-- ... and the nullable group was passed `None`. -/
example : ∃ o, sampleSchema.construct 10 sampleArgs = .ok o ∧
    getField o (some 9) (.group "maybe" 7 none true none
      [ .slot "is_null" 7 none (.prim .b) 14 none, .slot "value" 8 none (.prim .h) 8 (some 7) ]) = .ok .none := by
  obtain ⟨o, e, h, _⟩ := C32_nullable 10 sampleSchema sampleArgs 8 sampleSchema_wf sampleSchema_locals
    sampleArgs_ok (by rw [sampleArgs_members]; simp) (by decide) (k := 5) rfl rfl
  exact ⟨o, e, h rfl⟩

def sampleBar : Field := .slot "bar" 10 (some 1) (.prim .h) 10 none

def sampleKw : List (String × Arg) := [("x", .int 1), ("pos2", .tuple [.int 3, .int 4, .undefined])]

theorem sampleBar_args : newMemberArgs sampleSchema sampleBar sampleKw =
    [.int 1, .bool true, .int 0, .none, .tuple [.int 3, .int 4, .undefined], .int 7, .undefined, .int 0] := rfl

/-- `Sample.new_bar(x=1, pos2=(3, 4, _undefined))` meets the hypotheses of `C31_new_member`. -/
example : ∃ o, sampleSchema.newMember 10 sampleBar sampleKw = .ok o ∧ o.whichRaw (some 18) = .ok 1 := by
  obtain ⟨o, e, h, _⟩ := C31_new_member 10 sampleSchema sampleBar 1 sampleKw 0 9
    sampleSchema_wf sampleSchema_locals rfl
    (by simp [Schema.params, sampleSchema, sampleFields, Field.skipped, sampleBar]) rfl
    (by simp [Schema.params, sampleSchema, sampleFields, Field.skipped, Field.disc, Field.name, sampleKw])
    (by intro h; cases h)
    (by
      rw [sampleBar_args]
      show AccFields 10 sampleFields _ 0
      simp [sampleFields, AccFields, AccField, SlotArg, Field.skipped, absent, Field.disc, Arg.isUndefined,
        nullablePair, Arg.isNone, members, PtrArg, Arg.toInt?, InRange, isSigned, Fmt.size, Val.size, Val.Fits, Val.depth])
    (by decide)
  exact ⟨o, e, h⟩

/-! ## What does not hold -/

/-- The integer read, if the result is one. -/
def readInt? : Py RVal → Option Int
  | .ok (.int i) => some i
  | _ => none

theorem of_readInt? {r : Py RVal} {i : Int} (h : readInt? r = some i) : r = .ok (.int i) := by
  unfold readInt? at h
  split at h
  · injection h with h
    rw [h]
  · cases h

/-- A field called `pos`: the parameter is overwritten by `pos = builder.allocate(8)`;
`Cls(pos=7).pos` is 0. -/
theorem C30_field_called_pos :
    ((⟨1, 0, none, [.slot "pos" 0 none (.prim .q) 0 none]⟩ : Schema).call 10 [("pos", .int 7)] >>= fun o =>
      getField o none (.slot "pos" 0 none (.prim .q) 0 none)) = .ok (.int 0) :=
  of_readInt? (by decide +kernel)

/-- A field called `builder`: the constructor writes the builder object itself. -/
theorem C30_field_called_builder :
    (⟨1, 0, none, [.slot "builder" 0 none (.prim .q) 0 none]⟩ : Schema).call 10 [("builder", .int 7)] =
      .error .structError := rfl

/-- A float with an explicit default: `arg ^= 1.5` raises `TypeError` whatever the
argument. -/
theorem C30_float_default (fuel : Nat) (a : Arg) (d : Int) :
    (⟨1, 0, none, [.slot "x" 0 none (.float .Q) 0 (some d)]⟩ : Schema).construct fuel [a] = .error .typeError := by
  rfl

/-- An AnyPointer field outside unions: the constructor always raises
`NotImplementedError`, also without arguments. -/
theorem C30_any_pointer (fuel : Nat) (a : Arg) :
    (⟨0, 1, none, [.slot "x" 0 none .anyPointer 0 none]⟩ : Schema).construct fuel [a] = .error .notImplemented := by
  rfl

/-- A field `a_b` after a group `a` with a field `b` (distinct names for capnp): the
argument of `a_b` is lost, `Cls(a=(2,), a_b=1).a_b` is 2. -/
theorem C30_group_name_collision :
    ((⟨2, 0, none, [.group "a" 0 none false none [.slot "b" 0 none (.prim .q) 0 none],
          .slot "a_b" 1 none (.prim .q) 1 none]⟩ : Schema).construct 10 [.tuple [.int 2], .int 1] >>= fun o =>
      getField o none (.slot "a_b" 1 none (.prim .q) 1 none)) = .ok (.int 2) :=
  of_readInt? (by decide +kernel)

/-- A nullable group compiled with `convert_case=False`: the constructor raises
`NameError` whatever the argument. -/
theorem C32_convert_case_false (fuel : Nat) (a : Arg) :
    (⟨2, 0, none, [.group "a" 0 none true none
        [.slot "isNull" 0 none (.prim .q) 0 none, .slot "value" 1 none (.prim .q) 1 none]]⟩ : Schema).construct
          fuel [a] = .error .nameError := by
  cases a <;> rfl

/-- Discriminants above 32767 (the schema language allows 65535 members) cannot be
set. -/
theorem C31_large_discriminant (fuel : Nat) (v : Int) :
    (⟨2, 0, some 0, [.slot "x" 0 (some 32768) (.prim .q) 1 none]⟩ : Schema).construct fuel [.int v] =
      .error .structError := by
  rfl

end Capnpy.Props
