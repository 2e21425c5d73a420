import Verif.Spec.Group
import Verif.Proof.Group
import Verif.Props.Ctor
import Verif.Props.Typed
import Verif.Props.Names

/-!
# C58: group constructors

`Cls.Position(x=5, y=6)` makes the argument for the group `position` of `Cls(...)`.
-/

namespace Capnpy.Props

open Spec

/-- The fields of a group as parameters of its constructor. -/
abbrev groupNamesOf (ch : List Field) : List String := (groupParams ch).map Field.name

theorem groupCtor_eq {kwlist : List String} {fs : List Field} {ms : List (String × List Field)}
    (hms : groupMethods kwlist fs = .ok ms) {name : String} {code : Nat} {disc u : Option Nat} {ch : List Field}
    (hf : Field.group name code disc false u ch ∈ fs)
    (huniq : ∀ n c d v l, Field.group n c d false v l ∈ fs → capitalName n = capitalName name → l = ch)
    (pos : List Arg) (kw : List (String × Arg)) :
    groupCtor kwlist fs (capitalName name) pos kw =
      (bindCall ((groupParams ch).map fun f => (f.name, defaultArg none f)) pos kw).map Arg.tuple := by
  unfold groupCtor
  rw [bind_okP hms]
  obtain ⟨c', e⟩ := lookupLast_isSome ((groupMethods_mem hms _ _).mpr ⟨name, code, disc, u, hf, rfl⟩)
  obtain ⟨n, c, d, v, hm, hx⟩ := (groupMethods_mem hms _ _).mp (lookupLast_mem e)
  have := huniq n c d v c' hm hx.symm
  subst this
  rw [e]
  simp only
  cases bindCall ((groupParams c').map fun f => (f.name, defaultArg none f)) pos kw <;> rfl

/-- C58: the constructor of a group takes the fields of the group by position or by keyword and
returns the tuple of the values: what was given, or the default of the parameter. -/
theorem C58_tuple {kwlist : List String} {fs : List Field} {ms : List (String × List Field)}
    (hms : groupMethods kwlist fs = .ok ms) {name : String} {code : Nat} {disc u : Option Nat} {ch : List Field}
    (hf : Field.group name code disc false u ch ∈ fs)
    (huniq : ∀ n c d v l, Field.group n c d false v l ∈ fs → capitalName n = capitalName name → l = ch)
    {pos : List Arg} {kw : List (String × Arg)} (hc : CallOK (groupNamesOf ch) pos kw) :
    ∃ vals, groupCtor kwlist fs (capitalName name) pos kw = .ok (.tuple vals) ∧
      vals.length = (groupParams ch).length ∧
      ∀ k f, (groupParams ch)[k]? = some f →
        vals[k]? = some ((givenArg pos kw k f.name).getD (defaultArg none f)) := by
  have hlen : pos.length ≤ (groupParams ch).length := by
    have := hc.count
    simpa [groupNamesOf] using this
  have hb := bindCall_ok (params := (groupParams ch).map fun f => (f.name, defaultArg none f)) (pos := pos) (kw := kw)
    (by simpa using hlen)
    (by
      intro x hx
      obtain ⟨k, hk, he⟩ := hc.known x hx
      rw [List.getElem?_map] at he
      cases hg : (groupParams ch)[k]? with
      | none => rw [hg] at he; cases he
      | some g =>
        rw [hg] at he
        have he : g.name = x.1 := by simpa using he
        refine ⟨(g.name, defaultArg none g), ?_, he⟩
        rw [← List.map_drop]
        refine List.mem_map.mpr ⟨g, ?_, rfl⟩
        refine List.mem_of_getElem? (i := k - pos.length) ?_
        rw [List.getElem?_drop]
        rw [show pos.length + (k - pos.length) = k by omega]
        exact hg)
    hc.once
  refine ⟨pos ++ (((groupParams ch).map fun f => (f.name, defaultArg none f)).drop pos.length).map
    fun p => (kw.lookup p.1).getD p.2, ?_, ?_, ?_⟩
  · rw [groupCtor_eq hms hf huniq, hb]
    rfl
  · rw [List.length_append, List.length_map, List.length_drop, List.length_map]
    omega
  · intro k f hk
    rw [← List.map_drop, List.map_map]
    unfold givenArg
    by_cases h : k < pos.length
    · rw [List.getElem?_append_left h, List.getElem?_eq_getElem h]
      rfl
    · rw [List.getElem?_append_right (by omega), List.getElem?_eq_none (by omega : pos.length ≤ k),
        List.getElem?_map, List.getElem?_drop, show pos.length + (k - pos.length) = k by omega, hk]
      rfl

/-- C58: any other call is a `TypeError`: too many arguments, an unknown keyword, a parameter that is given
twice. -/
theorem C58_bad_call {kwlist : List String} {fs : List Field} {ms : List (String × List Field)}
    (hms : groupMethods kwlist fs = .ok ms) {name : String} {code : Nat} {disc u : Option Nat} {ch : List Field}
    (hf : Field.group name code disc false u ch ∈ fs)
    (huniq : ∀ n c d v l, Field.group n c d false v l ∈ fs → capitalName n = capitalName name → l = ch)
    {pos : List Arg} {kw : List (String × Arg)} (hc : ¬ CallOK (groupNamesOf ch) pos kw) :
    groupCtor kwlist fs (capitalName name) pos kw = .error .typeError := by
  rw [groupCtor_eq hms hf huniq, bindCall_error]
  · rfl
  by_cases h1 : (groupParams ch).length < pos.length
  · left; simpa using h1
  right
  by_cases h3 : (kw.map Prod.fst).Nodup
  · left
    by_contra hall
    push Not at hall
    refine hc ⟨by simp [groupNamesOf]; omega, fun x hx => ?_, h3⟩
    obtain ⟨p, hp, he⟩ := hall x hx
    rw [← List.map_drop] at hp
    obtain ⟨g, hg, rfl⟩ := List.mem_map.mp hp
    obtain ⟨j, hj, hge⟩ := List.getElem_of_mem hg
    refine ⟨pos.length + j, by omega, ?_⟩
    rw [List.getElem?_map, ← List.getElem?_drop, List.getElem?_eq_getElem hj, hge]
    simpa using he
  · right; exact h3

theorem lookup_cons_self (name : String) (t : Arg) (kw : List (String × Arg)) :
    ((name, t) :: kw).lookup name = some t := by
  simp [List.lookup]

/-- C58: what is read from the group is what was given to its constructor, and the declared default for
what was omitted: `Cls(pos=Cls.Pos(**gkw), **kw).pos.x`. -/
theorem C58_roundtrip (fuel : Nat) (S : Schema) (kwlist : List String) {ms : List (String × List Field)}
    (hms : groupMethods kwlist S.fields = .ok ms) (hS : S.WF) (hl : S.locals.Nodup)
    {name : String} {code : Nat} {disc gu : Option Nat} {ch : List Field}
    (hf : Field.group name code disc false gu ch ∈ S.params)
    (huniq : ∀ n c d v l, Field.group n c d false v l ∈ S.fields → capitalName n = capitalName name → l = ch)
    {gpos : List Arg} {gkw : List (String × Arg)} {t : Arg}
    (ht : groupCtor kwlist S.fields (capitalName name) gpos gkw = .ok t)
    {kw : List (String × Arg)} {n : Nat} (hk : ∀ x ∈ kw, ∃ f ∈ S.params, f.name = x.1)
    (ha : AccFields fuel S.fields (S.params.map fun f => (((name, t) :: kw).lookup f.name).getD (defaultArg none f)) n)
    (hm : (members S.fields (S.params.map fun f =>
      (((name, t) :: kw).lookup f.name).getD (defaultArg none f))).length ≤ 1)
    (hsz : 8 * (S.dataWords + S.ptrs) + n ≤ 2 ^ 32) :
    ∃ o g, S.call fuel ((name, t) :: kw) = .ok o ∧
      getField o S.union (.group name code disc false gu ch) = .ok (.group g) ∧
      (∀ k f a, (groupParams ch)[k]? = some f → givenArg gpos gkw k f.name = some a → absent f a = false →
        ReadsVal g f a (getField g gu f)) ∧
      (∀ k f, (groupParams ch)[k]? = some f → givenArg gpos gkw k f.name = none → f.disc = none →
        ReadsDefault g gu f) := by
  have hfm : Field.group name code disc false gu ch ∈ S.fields := List.mem_of_mem_filter hf
  have hc : CallOK (groupNamesOf ch) gpos gkw := by
    by_contra hc
    rw [C58_bad_call hms hfm huniq hc] at ht
    cases ht
  obtain ⟨vals, e, _, hv⟩ := C58_tuple hms hfm huniq hc
  rw [e] at ht
  cases ht
  obtain ⟨o, eo, hr, _⟩ := C30_call fuel S ((name, .tuple vals) :: kw) n hS hl
    (by
      intro x hx
      rcases List.mem_cons.mp hx with rfl | hx
      · exact ⟨_, hf, rfl⟩
      · exact hk x hx) ha hm hsz
  have hrg := hr _ hf (.tuple vals) (lookup_cons_self name _ kw) (by unfold absent Arg.isUndefined; simp)
  unfold ReadsVal at hrg
  rw [if_neg (by simp)] at hrg
  obtain ⟨h1, as, e2, h2⟩ := hrg
  cases e2
  have hgw := (fieldsWF_get hS.fields hfm).1
  unfold FieldWF at hgw
  refine ⟨o, o, eo, h1, ?_, ?_⟩
  · intro k f a hkf hga hab
    refine readsFields_get h2 k f a hkf ?_ hab
    rw [hv k f hkf, hga]
    rfl
  · intro k f hkf hga hd
    have hfm2 : f ∈ ch := mem_of_params hkf
    refine reads_default o gu f (fieldsWF_get hgw.2.1 hfm2).1 (readsFields_get h2 k f (defaultArg none f) hkf ?_ ?_)
    · rw [hv k f hkf, hga]
      rfl
    · simp [absent, hd]

/-- C58: `which()` of a group with a union is the member given to the group's constructor, and 0 if none is. -/
theorem C58_which (fuel : Nat) (S : Schema) (args : List Arg) (n : Nat) (hS : S.WF) (hl : S.locals.Nodup)
    (ha : AccFields fuel S.fields args n) (hm : (members S.fields args).length ≤ 1)
    (hsz : 8 * (S.dataWords + S.ptrs) + n ≤ 2 ^ 32) {k : Nat} {name : String} {code : Nat} {disc : Option Nat} {u : Nat}
    {ch : List Field} {as : List Arg} (hf : S.params[k]? = some (.group name code disc false (some u) ch))
    (hak : args[k]? = some (.tuple as)) :
    ∃ o, S.construct fuel args = .ok o ∧
      getField o S.union (.group name code disc false (some u) ch) = .ok (.group o) ∧
      (∀ tag, members ch as = [tag] →
        o.whichRaw (some ((u * 2 : Nat) : Int)) = .ok tag ∧ ∀ i, isMember o u i = .ok (decide (i = tag))) ∧
      (members ch as = [] →
        o.whichRaw (some ((u * 2 : Nat) : Int)) = .ok 0 ∧ ∀ i, isMember o u i = .ok (decide (i = 0))) := by
  obtain ⟨o, e, hw⟩ := construct_group_which fuel S args n hS hl ha hm hsz hf hak
  obtain ⟨o2, e2, _, _, _, _, hr, _⟩ := C30_roundtrip fuel S args n hS hl ha hm hsz
  rw [e] at e2
  cases e2
  have hrg := hr k _ _ hf hak (by unfold absent Arg.isUndefined; simp)
  unfold ReadsVal at hrg
  rw [if_neg (by simp)] at hrg
  have key : ∀ tag : Nat, o.readInt16 ((u * 2 : Nat) : Int) = .ok (tag : Int) →
      o.whichRaw (some ((u * 2 : Nat) : Int)) = .ok tag ∧ ∀ i, isMember o u i = .ok (decide (i = tag)) := by
    intro tag h
    refine ⟨h, fun i => ?_⟩
    unfold isMember
    rw [bind_okP h]
    refine congrArg Except.ok ?_
    by_cases hi : i = tag
    · subst hi; simp
    · have : (tag : Int) ≠ (i : Int) := by omega
      simp [hi, this]
  refine ⟨o, e, hrg.1, fun tag ht => ?_, fun ht => ?_⟩
  · rw [ht] at hw
    exact key tag hw
  · rw [ht] at hw
    exact key 0 hw

/-- C58: the constructor of a group does not mind two members of its union, but the constructor of the struct
raises `TypeError` then (where it would accept the arguments with another tuple for the group). -/
theorem C58_two_members (fuel : Nat) (S : Schema) (args args' : List Arg) (n m : Nat) (hS : S.WF)
    (hl : S.locals.Nodup) (ha : AccFields fuel S.fields args' n) (hm : (members S.fields args').length ≤ 1)
    {k : Nat} {name : String} {code : Nat} {disc gu : Option Nat} {ch : List Field} {as as' : List Arg}
    (hf : S.params[k]? = some (.group name code disc false gu ch)) (hak' : args'[k]? = some (.tuple as'))
    (hak : args[k]? = some (.tuple as)) (hne : ∀ j, j ≠ k → args[j]? = args'[j]?)
    (hac : AccFields fuel ch as m) (h2 : 2 ≤ (members ch as).length)
    (hsz : 8 * (S.dataWords + S.ptrs) + (n + m) ≤ 2 ^ 32) : S.construct fuel args = .error .typeError :=
  construct_group_two fuel S args args' n m hS hl ha hm hf hak' hak hne hac h2 hsz

/-- C58: with two members of the union of a group no object is ever made, whatever the other arguments are. -/
theorem C58_two_members_never (fuel : Nat) (S : Schema) (args : List Arg) (hS : S.WF) (hl : S.locals.Nodup)
    {k : Nat} {name : String} {code : Nat} {disc gu : Option Nat} {ch : List Field} {as : List Arg}
    (hf : S.params[k]? = some (.group name code disc false gu ch)) (hak : args[k]? = some (.tuple as))
    (h2 : 2 ≤ (members ch as).length) :
    (∀ o, S.construct fuel args ≠ .ok o) ∧ (∀ junk o, S.constructC junk fuel args ≠ .ok o) := by
  have key : ¬ TypedFields S.fields args := by
    intro h
    rcases typedFields_get h k _ _ hf hak with h | h
    · simp [absent, Arg.isUndefined] at h
    · unfold TypedField at h
      rw [if_neg (by simp)] at h
      obtain ⟨as', e, _, _, h3⟩ := h
      cases e
      omega
  exact ⟨fun o h => key (C56_typed fuel S args hS hl h).2.1,
    fun junk o h => key (C56_typed_compiled junk fuel S args hS hl h).2.1⟩

/-! ## Names -/

/-- C58: exactly when the group constructors of a class can be compiled: no capitalized name of a group is a keyword and every
group has at least one parameter, and no two with the same name.  Otherwise the module is a syntax error. -/
theorem C58_compiles (kwlist : List String) (fs : List Field) :
    ((∃ ms, groupMethods kwlist fs = .ok ms) ↔
      ∀ n c d u ch, Field.group n c d false u ch ∈ fs →
        capitalName n ∉ kwlist ∧ groupNamesOf ch ≠ [] ∧ (groupNamesOf ch).Nodup) ∧
    ∀ e, groupMethods kwlist fs = .error e → e = .syntaxError := by
  refine ⟨groupMethods_iff.1.trans ?_, groupMethods_iff.2⟩
  simp only [groupNamesOf, ne_eq, List.map_eq_nil_iff]

/-- A nullable group has no constructor: `AttributeError`, unless another group has the name. -/
theorem C58_nullable_none {kwlist : List String} {fs : List Field} {ms : List (String × List Field)}
    (hms : groupMethods kwlist fs = .ok ms) (x : String)
    (h : ∀ n c d v l, Field.group n c d false v l ∈ fs → capitalName n ≠ x) (pos : List Arg) (kw : List (String × Arg)) :
    groupCtor kwlist fs x pos kw = .error .attributeError := by
  unfold groupCtor
  rw [bind_okP hms]
  cases e : lookupLast x ms with
  | none => rfl
  | some c =>
    obtain ⟨n, c', d, v, hm, hx⟩ := (groupMethods_mem hms _ _).mp (lookupLast_mem e)
    exact absurd hx.symm (h n c' d v c hm)

theorem capChar_inj {c d : Char} (hc : Names.isUpper c = false) (hd : Names.isUpper d = false)
    (h : (if Names.isLower c then Char.ofNat (c.toNat - 32) else c) =
      (if Names.isLower d then Char.ofNat (d.toNat - 32) else d)) : c = d := by
  have up : ∀ c : Char, Names.isLower c = true →
      (Char.ofNat (c.toNat - 32)).toNat = c.toNat - 32 ∧ Names.isUpper (Char.ofNat (c.toNat - 32)) = true ∧
        32 ≤ c.toNat := by
    intro c hc
    unfold Names.isLower at hc
    simp only [Bool.and_eq_true, decide_eq_true_eq] at hc
    obtain ⟨h1, h2⟩ := hc
    have h1 : 97 ≤ c.toNat := h1
    have h2 : c.toNat ≤ 122 := h2
    have hv : (c.toNat - 32).isValidChar := Or.inl (by omega)
    have ht : (Char.ofNat (c.toNat - 32)).toNat = c.toNat - 32 := by
      unfold Char.ofNat
      rw [dif_pos hv]
      rfl
    refine ⟨ht, ?_, by omega⟩
    unfold Names.isUpper
    simp only [Bool.and_eq_true, decide_eq_true_eq]
    refine ⟨?_, ?_⟩
    · show 65 ≤ (Char.ofNat (c.toNat - 32)).toNat
      omega
    · show (Char.ofNat (c.toNat - 32)).toNat ≤ 90
      omega
  by_cases h1 : Names.isLower c = true
  · rw [if_pos h1] at h
    obtain ⟨a1, a2, a3⟩ := up c h1
    by_cases h2 : Names.isLower d = true
    · rw [if_pos h2] at h
      obtain ⟨b1, b2, b3⟩ := up d h2
      have := congrArg Char.toNat h
      rw [a1, b1] at this
      have hn : c.toNat = d.toNat := by omega
      exact Char.ext (UInt32.toNat_inj.mp hn)
    · rw [if_neg h2] at h
      rw [h, hd] at a2
      cases a2
  · rw [if_neg h1] at h
    by_cases h2 : Names.isLower d = true
    · rw [if_pos h2] at h
      obtain ⟨b1, b2, b3⟩ := up d h2
      rw [← h, hc] at b2
      cases b2
    · rw [if_neg h2] at h
      exact h

/-- C58: with converted names (no upper-case letter, C37_no_uppercase) different groups have different
constructors. -/
theorem C58_distinct_names {a b : String} (ha : ∀ c ∈ a.toList, Names.isUpper c = false)
    (hb : ∀ c ∈ b.toList, Names.isUpper c = false) (h : capitalName a = capitalName b) : a = b := by
  have key : ∀ x y : List Char, (∀ c ∈ x, Names.isUpper c = false) → (∀ c ∈ y, Names.isUpper c = false) →
      Module.capitalize x = Module.capitalize y → x = y := by
    intro x y hx hy h
    cases x with
    | nil => cases y with
      | nil => rfl
      | cons d y => cases h
    | cons c x => cases y with
      | nil => cases h
      | cons d y =>
        unfold Module.capitalize at h
        injection h with h1 h2
        rw [lower_id x (fun c hc => hx c (List.mem_cons_of_mem _ hc)),
          lower_id y (fun c hc => hy c (List.mem_cons_of_mem _ hc))] at h2
        rw [capChar_inj (hx c List.mem_cons_self) (hy d List.mem_cons_self) h1, h2]
  unfold capitalName at h
  have h := congrArg String.toList h
  rw [String.toList_ofList, String.toList_ofList] at h
  exact String.toList_inj.mp (key _ _ ha hb h)

/-! ## Examples and exceptions -/

/-- `position :group { x @0 :Int64; y @1 :Int64 = 42; union { a @2 :Int32; b @3 :Text; } }` -/
def positionGroup : Field := .group "position" 0 none false (some 10)
  [.slot "x" 0 none (.prim .q) 0 none, .slot "y" 1 none (.prim .q) 1 (some 42),
   .slot "a" 2 (some 0) (.prim .i) 4 none, .slot "b" 3 (some 1) .text 0 none]

def pointSchema : Schema := ⟨3, 1, none, [positionGroup]⟩

theorem pointSchema_wf : pointSchema.WF := by
  refine ⟨by decide, by decide, ?_, ?_⟩
  · intro u hu
    cases hu
  · unfold pointSchema positionGroup
    simp only [FieldsWF, FieldWF, TagWF, SlotWF, Field.disc, fieldBits, fieldsBits, slotBits, tagBits, Fmt.size,
      IsNullType, Field.name, Field.skipped, List.mem_cons, List.not_mem_nil, or_false, forall_eq_or_imp, forall_eq,
      Option.isSome_some, Option.isSome_none, true_and, and_true, Bool.false_eq_true, false_and, false_or]
    simp [InRange, isSigned, Fmt.size]
    repeat' apply And.intro
    all_goals
      intros
      omega

theorem pointSchema_locals : pointSchema.locals.Nodup := by decide +kernel

/-- `Point.Position(5, b=b'hi')` is `(5, 42, undefined, b'hi')` -/
theorem pointPosition_ctor : groupCtor ["None", "True", "False"] pointSchema.fields "Position" [.int 5]
    [("b", .bytes [104, 105])] = .ok (.tuple [.int 5, .int 42, .undefined, .bytes [104, 105]]) := by
  rfl

theorem capital_position : capitalName "position" = "Position" := by decide +kernel

/-- `Point(position=Point.Position(5, b=b'hi')).position.x` is 5, `.y` is 42 and `.b` is `b'hi'`: the hypotheses of
`C58_roundtrip` are met. -/
example : ∃ o g, pointSchema.call 10 [("position", .tuple [.int 5, .int 42, .undefined, .bytes [104, 105]])] = .ok o ∧
    getField o none positionGroup = .ok (.group g) ∧
    getField g (some 10) (.slot "x" 0 none (.prim .q) 0 none) = .ok (.int 5) ∧
    getField g (some 10) (.slot "y" 1 none (.prim .q) 1 (some 42)) = .ok (.int 42) ∧
    getField g (some 10) (.slot "b" 3 (some 1) .text 0 none) = .ok (.bytes [104, 105]) := by
  obtain ⟨ms, hms⟩ : ∃ ms, groupMethods ["None", "True", "False"] pointSchema.fields = .ok ms := ⟨_, rfl⟩
  obtain ⟨o, g, e, eg, h1, h2⟩ := C58_roundtrip 10 pointSchema ["None", "True", "False"] hms
    pointSchema_wf pointSchema_locals
    (name := "position") (code := 0) (disc := none) (gu := some 10)
    (ch := [.slot "x" 0 none (.prim .q) 0 none, .slot "y" 1 none (.prim .q) 1 (some 42),
      .slot "a" 2 (some 0) (.prim .i) 4 none, .slot "b" 3 (some 1) .text 0 none])
    (by simp [Schema.params, pointSchema, positionGroup, Field.skipped])
    (by
      intro n c d v l h _
      simp [pointSchema, positionGroup] at h
      exact h.2.2.2.2)
    (gpos := [.int 5]) (gkw := [("b", .bytes [104, 105])])
    (t := .tuple [.int 5, .int 42, .undefined, .bytes [104, 105]])
    (by rw [capital_position]; exact pointPosition_ctor)
    (kw := []) (n := 8) (by simp)
    (by
      show AccFields 10 [positionGroup] [Arg.tuple [.int 5, .int 42, .undefined, .bytes [104, 105]]] 8
      simp [positionGroup, AccFields, AccField, SlotArg, Field.skipped, absent, Field.disc, Arg.isUndefined, members, PtrArg]
      refine ⟨?_, ?_, ?_, ?_, ?_⟩
      · simp [Arg.toInt?, InRange, isSigned, Fmt.size]
      · simp [Arg.toInt?, InRange, isSigned, Fmt.size]
      · simp [Val.size]
        decide
      · simp [Val.Fits]
      · simp [Val.depth])
    (by
      show (members [positionGroup] [Arg.tuple [.int 5, .int 42, .undefined, .bytes [104, 105]]]).length ≤ 1
      simp [members, positionGroup, Field.skipped, Field.disc])
    (by decide)
  refine ⟨o, g, e, eg, ?_, ?_, ?_⟩
  · have := h1 0 (.slot "x" 0 none (.prim .q) 0 none) (.int 5) rfl rfl rfl
    unfold ReadsVal at this
    obtain ⟨i, e1, e2⟩ := this
    cases e1
    exact e2
  · have := h2 1 (.slot "y" 1 none (.prim .q) 1 (some 42)) rfl rfl rfl
    unfold ReadsDefault at this
    exact this rfl
  · have := h1 3 (.slot "b" 3 (some 1) .text 0 none) (.bytes [104, 105]) rfl rfl rfl
    unfold ReadsVal at this
    rcases this with ⟨h, _⟩ | ⟨s, e1, e2⟩
    · cases h
    · cases e1
      exact e2

/-- `Point.Position(a=1, b=b'hi')` returns a tuple, `Point(position=...)` raises `TypeError`. -/
example : groupCtor [] pointSchema.fields "Position" [] [("a", .int 1), ("b", .bytes [104, 105])] =
    .ok (.tuple [.int 0, .int 42, .int 1, .bytes [104, 105]]) ∧
    pointSchema.construct 10 [.tuple [.int 0, .int 42, .int 1, .bytes [104, 105]]] = .error .typeError := by
  refine ⟨rfl, ?_⟩
  refine C58_two_members 10 pointSchema _ [.tuple [.int 0, .int 42, .undefined, .undefined]] 0 8 pointSchema_wf pointSchema_locals
    (k := 0) ?_ ?_ rfl rfl rfl ?_ ?_ ?_ (by decide)
  · show AccFields 10 [positionGroup] [Arg.tuple [.int 0, .int 42, .undefined, .undefined]] 0
    simp [positionGroup, AccFields, AccField, SlotArg, Field.skipped, absent, Field.disc, Arg.isUndefined, members]
    refine ⟨?_, ?_⟩ <;> simp [Arg.toInt?, InRange, isSigned, Fmt.size]
  · show (members [positionGroup] [Arg.tuple [.int 0, .int 42, .undefined, .undefined]]).length ≤ 1
    simp [members, positionGroup, Field.skipped, Field.disc]
  · intro j hj
    cases j with
    | zero => exact absurd rfl hj
    | succ j => rfl
  · simp [AccFields, AccField, SlotArg, Field.skipped, absent, Field.disc, Arg.isUndefined, PtrArg]
    refine ⟨?_, ?_, ?_, ?_, ?_, ?_⟩
    · simp [Val.size]
      decide
    · simp [Arg.toInt?, InRange, isSigned, Fmt.size]
    · simp [Arg.toInt?, InRange, isSigned, Fmt.size]
    · simp [Arg.toInt?, InRange, isSigned, Fmt.size]
    · simp [Val.Fits]
    · simp [Val.depth]
  · simp [members, Field.skipped, Field.disc, Arg.isUndefined]

/-- Finding: with `convertCase = false` the groups `fooBar` and `foobar` share the constructor `Foobar`, which is that of the
last one. -/
theorem C58_capital_collision :
    groupCtor [] [.group "fooBar" 0 none false none [.slot "x" 0 none (.prim .q) 0 none],
      .group "foobar" 1 none false none [.slot "y" 0 none (.prim .q) 1 (some 3)]] "Foobar" [] [] = .ok (.tuple [.int 3]) ∧
    groupCtor [] [.group "fooBar" 0 none false none [.slot "x" 0 none (.prim .q) 0 none],
      .group "foobar" 1 none false none [.slot "y" 0 none (.prim .q) 1 (some 3)]] "Foobar" [] [("x", .int 1)] =
        .error .typeError :=
  ⟨rfl, rfl⟩

/-- Finding: a group (or named union) called `none`, `true` or `false` makes the generated module a syntax error
(`def None(...)`), and so does a group all of whose fields are `Void`. -/
theorem C58_syntax_errors (code : Nat) (disc u : Option Nat) (ch fs : List Field) :
    groupMethods ["False", "None", "True"] (.group "none" code disc false u ch :: fs) = .error .syntaxError ∧
    groupMethods [] (.group "g" code disc false u [.slot "a" 0 none .void 0 none] :: fs) = .error .syntaxError := by
  have e : capitalName "none" = "None" := by decide +kernel
  constructor
  · unfold groupMethods
    rw [e]
    rfl
  · unfold groupMethods
    rfl

end Capnpy.Props
