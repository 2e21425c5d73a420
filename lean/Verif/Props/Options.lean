import Verif.Spec.Options
import Verif.Props.Ctor
import Verif.Props.Fields

/-! # C36: compiler options -/

namespace Capnpy.Props

open Spec

theorem inRange_valueOf (fmt : Fmt) (bs : Bytes) (h : bs.length = fmt.size) : InRange fmt (valueOf fmt bs) := by
  have hlt := leNat_lt bs
  rw [h] at hlt
  unfold InRange valueOf
  cases fmt <;> simp [isSigned, Fmt.size, toSigned] at * <;> omega

theorem optionsSchema_wf : optionsSchema.WF := by
  refine ⟨by decide, by decide, fun u hu => ?_, ?_⟩
  · cases hu
  · simp [optionsSchema, OptName.all, OptName.field, FieldsWF, FieldWF, SlotWF, Field.disc, tagBits, fieldBits,
      slotBits, InRange, isSigned, Fmt.size]
    repeat' apply And.intro
    all_goals
      intros
      omega

theorem optionsSchema_locals : optionsSchema.locals.Nodup := by decide +kernel

/-- Every well-formed struct, whatever its size and content, reads as some options. -/
theorem C36_readable (o : StructObj) (data : Bytes) (ptrs : List Val) (ho : Denotes o (.struct data ptrs)) :
    ∃ v, OptReads o v := by
  have key : ∀ (name : String) (c off : Nat) (d : Int), InRange .h d →
      ∃ i, getField o none (.slot name c none .enum off (some d)) = .ok (.int i) ∧ InRange .h i := by
    intro name c off d hd
    refine ⟨_, ?_, inRange_xor (inRange_valueOf .h (bytesZ data (off * 2) 2) (by simp [bytesZ, Fmt.size])) hd⟩
    unfold getField
    show (do pure (RVal.int (← o.enumField ((off * 2 : Nat) : Int) d)) : Py RVal) = _
    rw [bind_okP (C09_enum o data ptrs ho (off * 2) (by omega) d)]
    rfl
  have h2 : InRange .h 2 := by simp [InRange, isSigned, Fmt.size]
  have h0 : InRange .h 0 := by simp [InRange, isSigned, Fmt.size]
  have : ∀ k : OptName, ∃ i, optGet o k = .ok i ∧ InRange .h i := by
    intro k
    have : ∃ i, getField o none k.field = .ok (.int i) ∧ InRange .h i := by
      cases k
      · exact key _ _ _ _ h2
      · exact key _ _ _ _ h2
      · exact key _ _ _ _ h0
      · exact key _ _ _ _ h2
    obtain ⟨i, e, hi⟩ := this
    refine ⟨i, ?_, hi⟩
    unfold optGet
    rw [bind_okP e]
    rfl
  choose v hv using this
  exact ⟨v, hv⟩

/-- Constructing an `Options` from four values. -/
theorem options_call (kw : List (String × Arg)) (v : OptVals)
    (hk : ∀ x ∈ kw, ∃ k : OptName, k.name = x.1)
    (hv : ∀ k : OptName, ((kw.lookup k.name).getD (.int k.notset)).toInt? = some (v k) ∧ InRange .h (v k)) :
    ∃ o, optionsSchema.call 0 kw = .ok o ∧ OptReads o v ∧ ∃ data ptrs, Denotes o (.struct data ptrs) := by
  have hp : optionsSchema.params = OptName.all.map OptName.field := rfl
  have hd : ∀ k : OptName, defaultArg none k.field = .int k.notset := by intro k; cases k <;> rfl
  have hn : ∀ k : OptName, k.field.name = k.name := by intro k; cases k <;> rfl
  have hargs : optionsSchema.params.map (fun f => (kw.lookup f.name).getD (defaultArg none f)) =
      OptName.all.map fun k => (kw.lookup k.name).getD (.int k.notset) := by
    rw [hp, List.map_map]
    refine List.map_congr_left fun k _ => ?_
    show (kw.lookup k.field.name).getD (defaultArg none k.field) = _
    rw [hd, hn]
  have hk' : ∀ x ∈ kw, ∃ f ∈ optionsSchema.params, f.name = x.1 := by
    intro x hx
    obtain ⟨k, hk⟩ := hk x hx
    exact ⟨k.field, by rw [hp]; exact List.mem_map_of_mem (by cases k <;> simp [OptName.all]), by rw [hn, hk]⟩
  have hacc : AccFields 0 optionsSchema.fields
      (OptName.all.map fun k => (kw.lookup k.name).getD (.int k.notset)) 0 := by
    show AccFields 0 (OptName.all.map OptName.field) _ 0
    have step : ∀ ks : List OptName, AccFields 0 (ks.map OptName.field)
        (ks.map fun k => (kw.lookup k.name).getD (.int k.notset)) 0 := by
      intro ks
      induction ks with
      | nil => exact accFields_nil
      | cons k ks ih =>
        rw [List.map_cons, List.map_cons]
        refine (accFields_cons (by cases k <;> rfl)).mpr ⟨0, 0, rfl, ?_, ih⟩
        rw [if_neg (by cases k <;> simp [absent, OptName.field, Field.disc])]
        have := hv k
        cases k <;> exact ⟨_, this.1, this.2, rfl⟩
    exact step _
  have hmem : members optionsSchema.fields (OptName.all.map fun k => (kw.lookup k.name).getD (.int k.notset)) = [] := by
    simp [optionsSchema, OptName.all, OptName.field, members, Field.skipped, Field.disc]
  obtain ⟨o, e, ⟨data, ptrs, hden⟩, _, _, _, hr, _⟩ := C30_roundtrip 0 optionsSchema _ 0 optionsSchema_wf
    optionsSchema_locals hacc (by rw [hmem]; simp) (by decide)
  refine ⟨o, ?_, ?_, data, ptrs, hden⟩
  · unfold Schema.call
    rw [bind_okP (kwargs_ok _ kw hk'), hargs]
    exact e
  · have key : ∀ (k : OptName) (n : Nat), OptName.all[n]? = some k → optGet o k = .ok (v k) ∧ InRange .h (v k) := by
      intro k n hn
      have h := hr n k.field ((kw.lookup k.name).getD (.int k.notset)) (by rw [hp, List.getElem?_map, hn]; rfl)
        (by rw [List.getElem?_map, hn]; rfl) (by cases k <;> simp [absent, OptName.field, Field.disc])
      refine ⟨?_, (hv k).2⟩
      have h : getField o none k.field = .ok (.int (v k)) := by
        have h' : ∃ i, ((kw.lookup k.name).getD (.int k.notset)).toInt? = some i ∧
            getField o none k.field = .ok (.int i) := by cases k <;> exact h
        obtain ⟨i, h1, h2⟩ := h'
        rw [(hv k).1] at h1
        injection h1 with h1
        rw [h1]
        exact h2
      unfold optGet
      rw [bind_okP h]
      rfl
    intro k
    cases k
    · exact key _ 0 rfl
    · exact key _ 1 rfl
    · exact key _ 2 rfl
    · exact key _ 3 rfl

/-- C36: `a.combine(b)` takes, for every option, the value of `b` if it is set and
that of `a` otherwise; the result is a well-formed struct. -/
theorem C36_combine (a b : StructObj) (v w : OptVals) (ha : OptReads a v) (hb : OptReads b w) :
    ∃ o, optCombine a b = .ok o ∧ OptReads o (combineVals v w) ∧ ∃ data ptrs, Denotes o (.struct data ptrs) := by
  have hf : ∀ k, combineField a b k = .ok (k.name, .int (combineVals v w k)) := by
    intro k
    unfold combineField
    rw [bind_okP (ha k).1, bind_okP (hb k).1]
    show Except.ok _ = _
    unfold combineVals
    by_cases h : w k = k.notset
    · rw [if_pos h, if_neg (by simpa using h)]
    · rw [if_neg h, if_pos h]
  have hm : ∀ ks : List OptName, ks.mapM (combineField a b) = .ok (ks.map fun k => (k.name, .int (combineVals v w k))) := by
    intro ks
    induction ks with
    | nil => rfl
    | cons k ks ih => rw [List.mapM_cons, bind_okP (hf k), bind_okP ih]; rfl
  obtain ⟨o, e, hr, hd⟩ := options_call (OptName.all.map fun k => (k.name, .int (combineVals v w k))) (combineVals v w)
    (by
      intro x hx
      rw [List.mem_map] at hx
      obtain ⟨k, _, rfl⟩ := hx
      exact ⟨k, rfl⟩)
    (by
      intro k
      refine ⟨by cases k <;> rfl, ?_⟩
      unfold combineVals
      split
      · exact (ha k).2
      · exact (hb k).2)
  refine ⟨o, ?_, hr, hd⟩
  unfold optCombine
  rw [bind_okP (hm _)]
  exact e

theorem combineVals_assoc (u v w : OptVals) : combineVals (combineVals u v) w = combineVals u (combineVals v w) := by
  funext k
  unfold combineVals
  by_cases h : w k = k.notset
  · simp [h]
  · simp [h]

/-- C36: combining is associative: both groupings succeed and read the same. -/
theorem C36_assoc (a b c : StructObj) (u v w : OptVals) (ha : OptReads a u) (hb : OptReads b v) (hc : OptReads c w) :
    ∃ ab bc l r, optCombine a b = .ok ab ∧ optCombine ab c = .ok l ∧ optCombine b c = .ok bc ∧
      optCombine a bc = .ok r ∧ ∀ k, optGet l k = optGet r k := by
  obtain ⟨ab, e1, h1, _⟩ := C36_combine a b u v ha hb
  obtain ⟨bc, e2, h2, _⟩ := C36_combine b c v w hb hc
  obtain ⟨l, e3, h3, _⟩ := C36_combine ab c _ w h1 hc
  obtain ⟨r, e4, h4, _⟩ := C36_combine a bc u _ ha h2
  refine ⟨ab, bc, l, r, e1, e3, e2, e4, fun k => ?_⟩
  rw [(h3 k).1, (h4 k).1, combineVals_assoc]

theorem resolved_cons (k : OptName) (d : OptVals) (w : OptVals) (ws : List OptVals) :
    resolved k (d k) (w :: ws) = resolved k (combineVals d w k) ws := by
  unfold resolved combineVals
  rw [List.map_cons]
  by_cases h : w k = k.notset
  · rw [if_pos h, List.filter_cons_of_neg (by simp [h])]
  · rw [if_neg h, List.filter_cons_of_pos (by simp [h]), List.getLast?_cons]
    cases (List.filter (fun x => decide (x ≠ k.notset)) (List.map (fun w => w k) ws)).getLast? <;> rfl

theorem findAnn_eq (anns : List Ann) : (findAnn optionsAnnId anns).map Ann.value = explicitAt anns := by
  unfold explicitAt
  congr 1
  induction anns with
  | nil => rfl
  | cons a as ih =>
    unfold findAnn
    by_cases h : a.id = optionsAnnId
    · rw [if_pos h, List.find?_cons_of_pos (by simp [h])]
    · rw [if_neg h, List.find?_cons_of_neg (by simp [h]), ih]

theorem forall₂_append {α β : Type} {R : α → β → Prop} {a c : List α} {b d : List β} (h1 : List.Forall₂ R a b)
    (h2 : List.Forall₂ R c d) : List.Forall₂ R (a ++ c) (b ++ d) := by
  induction h1 with
  | nil => exact h2
  | cons h _ ih => exact List.Forall₂.cons h ih

section

variable {ι : Type} [DecidableEq ι]

/-- What the computation guarantees for the entities under `es`. -/
def Resolved (t' : OptTable ι) (v : OptVals) (i : ι) (path : List (Option StructObj)) : Prop :=
  ∃ o ws, t'.get i = .ok o ∧ List.Forall₂ OptReads (path.filterMap id) ws ∧
    OptReads o fun k => resolved k (v k) ws

omit [DecidableEq ι] in
theorem ids_sub {es : List (Entity ι)} {c : Entity ι} {i : ι} (hc : c ∈ es) (hi : i ∈ entityIds c) :
    i ∈ entitiesIds es := by
  induction es with
  | nil => simp at hc
  | cons x xs ih =>
    unfold entitiesIds
    rcases List.mem_cons.mp hc with rfl | hc
    · exact List.mem_append_left _ hi
    · exact List.mem_append_right _ (ih hc)

omit [DecidableEq ι] in
theorem onPath_mem : ∀ {e : Entity ι} {i : ι} {path}, OnPath e i path → i ∈ entityIds e := by
  intro e i path h
  induction h with
  | here => unfold entityIds; simp
  | node hc _ ih => unfold entityIds; exact List.mem_cons_of_mem _ (List.mem_append_left _ (ids_sub hc ih))
  | field hc _ ih => unfold entityIds; exact List.mem_cons_of_mem _ (List.mem_append_right _ (ids_sub hc ih))

theorem get_congr {t t' : OptTable ι} {i : ι} (h : t'.lookup i = t.lookup i) : t'.get i = t.get i := by
  unfold OptTable.get
  rw [h]

mutual

theorem computeOptions_spec (t : OptTable ι) (parent : StructObj) (v : OptVals) (hp : OptReads parent v) :
    ∀ e : Entity ι, EntityOK e → (entityIds e).Nodup →
      ∃ t', computeOptions t parent e = .ok t' ∧ (∀ i, i ∉ entityIds e → t'.lookup i = t.lookup i) ∧
        ∀ i path, OnPath e i path → Resolved t' v i path
  | .mk id anns nodes fields, hok, hnd => by
    unfold EntityOK at hok
    unfold entityIds at hnd
    rw [List.nodup_cons] at hnd
    obtain ⟨hid, hnd⟩ := hnd
    obtain ⟨hnd1, hnd2, hdisj⟩ := List.nodup_append.mp hnd
    -- the options of the entity itself
    have self : ∃ opt ws, computeGeneric t parent id anns = .ok ((id, opt) :: t) ∧
        List.Forall₂ OptReads ([explicitAt anns].filterMap _root_.id) ws ∧
        OptReads opt (fun k => resolved k (v k) ws) := by
      unfold computeGeneric
      have hfe := findAnn_eq anns
      cases hf : findAnn optionsAnnId anns with
      | none =>
        rw [hf] at hfe
        refine ⟨parent, [], rfl, ?_, hp⟩
        rw [← hfe]
        exact List.Forall₂.nil
      | some a =>
        rw [hf] at hfe
        obtain ⟨w, hw⟩ := hok.1 a.value hfe.symm
        obtain ⟨o, e, hr, _⟩ := C36_combine parent a.value v w hp hw
        refine ⟨o, [w], ?_, ?_, ?_⟩
        · show (do let opt ← optCombine parent a.value; pure ((id, opt) :: t) : Py (OptTable ι)) = _
          rw [bind_okP e]; rfl
        · rw [← hfe]
          exact List.Forall₂.cons hw List.Forall₂.nil
        · intro k
          have := hr k
          show optGet o k = .ok (resolved k (v k) [w]) ∧ InRange .h (resolved k (v k) [w])
          rw [resolved_cons]
          exact this
    obtain ⟨opt, ws, e1, hws, hopt⟩ := self
    have e2 : OptTable.get ((id, opt) :: t) id = .ok opt := by
      unfold OptTable.get
      rw [List.lookup_cons_self]
    obtain ⟨t1, e3, hf1, hr1⟩ := computeChildren_spec ((id, opt) :: t) opt _ hopt nodes hok.2.1 hnd1
    have hid1 : id ∉ entitiesIds nodes := fun h => hid (List.mem_append_left _ h)
    have hid2 : id ∉ entitiesIds fields := fun h => hid (List.mem_append_right _ h)
    have e4 : t1.get id = .ok opt := by rw [get_congr (hf1 id hid1), e2]
    obtain ⟨t2, e5, hf2, hr2⟩ := computeChildren_spec t1 opt _ hopt fields hok.2.2 hnd2
    have lift : ∀ i path, Resolved t2 (fun k => resolved k (v k) ws) i path →
        Resolved t2 v i (explicitAt anns :: path) := by
      rintro i path ⟨o, ws', h1, h2, h3⟩
      have hcat : (explicitAt anns :: path).filterMap _root_.id =
          [explicitAt anns].filterMap _root_.id ++ path.filterMap _root_.id := by
        rw [← List.filterMap_append]; rfl
      refine ⟨o, ws ++ ws', h1, ?_, fun k => ?_⟩
      · rw [hcat]
        exact forall₂_append hws h2
      · have := h3 k
        have hres : ∀ (ws : List OptVals) (d : OptVals),
            resolved k (d k) (ws ++ ws') = resolved k (resolved k (d k) ws) ws' := by
          intro ws
          induction ws with
          | nil => intro d; rfl
          | cons w ws ih =>
            intro d
            rw [List.cons_append, resolved_cons, resolved_cons, ih]
        show optGet o k = .ok (resolved k (v k) (ws ++ ws')) ∧ InRange .h (resolved k (v k) (ws ++ ws'))
        rw [hres]
        exact this
    refine ⟨t2, ?_, ?_, ?_⟩
    · unfold computeOptions
      rw [bind_okP e1, bind_okP e2, bind_okP e3, bind_okP e4]
      exact e5
    · intro i hi
      unfold entityIds at hi
      rw [List.mem_cons, List.mem_append] at hi
      push Not at hi
      rw [hf2 i hi.2.2, hf1 i hi.2.1, List.lookup_cons]
      rw [show (i == id) = false by simpa using hi.1]
    · intro i path h
      cases h with
      | here =>
        refine ⟨opt, ws, ?_, hws, hopt⟩
        rw [get_congr (hf2 id hid2), e4]
      | node hc h =>
        apply lift
        have hmem : i ∈ entitiesIds nodes := ids_sub hc (onPath_mem h)
        obtain ⟨o, ws', h1, h2⟩ := hr1 _ _ _ hc h
        refine ⟨o, ws', ?_, h2⟩
        rw [get_congr (hf2 i fun h' => hdisj i hmem i h' rfl), h1]
      | field hc h => exact lift _ _ (hr2 _ _ _ hc h)

theorem computeChildren_spec (t : OptTable ι) (parent : StructObj) (v : OptVals) (hp : OptReads parent v) :
    ∀ es : List (Entity ι), EntitiesOK es → (entitiesIds es).Nodup →
      ∃ t', computeChildren t parent es = .ok t' ∧ (∀ i, i ∉ entitiesIds es → t'.lookup i = t.lookup i) ∧
        ∀ c i path, c ∈ es → OnPath c i path → Resolved t' v i path
  | [], _, _ => ⟨t, rfl, fun _ _ => rfl, fun _ _ _ h => by simp at h⟩
  | e :: es, hok, hnd => by
    unfold EntitiesOK at hok
    unfold entitiesIds at hnd
    obtain ⟨hnd1, hnd2, hdisj⟩ := List.nodup_append.mp hnd
    obtain ⟨t1, e1, hf1, hr1⟩ := computeOptions_spec t parent v hp e hok.1 hnd1
    obtain ⟨t2, e2, hf2, hr2⟩ := computeChildren_spec t1 parent v hp es hok.2 hnd2
    refine ⟨t2, ?_, ?_, ?_⟩
    · unfold computeChildren
      rw [bind_okP e1]
      exact e2
    · intro i hi
      unfold entitiesIds at hi
      rw [List.mem_append] at hi
      push Not at hi
      rw [hf2 i hi.2, hf1 i hi.1]
    · intro c i path hc h
      rcases List.mem_cons.mp hc with rfl | hc
      · obtain ⟨o, ws, h1, h2⟩ := hr1 i path h
        refine ⟨o, ws, ?_, h2⟩
        rw [get_congr (hf2 i fun h' => hdisj i (onPath_mem h) i h' rfl), h1]
      · exact hr2 c i path hc h

end

/-- C36: option resolution.  For every tree of nodes and fields with distinct ids,
whatever its shape and depth, computing the options succeeds, and the options of
the entity `i` are, option by option: the innermost value set explicitly on the
path from the file to `i`, and the default if there is none. -/
theorem C36_resolution (dflt : StructObj) (v : OptVals) (hd : OptReads dflt v) (root : Entity ι) (hok : EntityOK root)
    (hnd : (entityIds root).Nodup) :
    ∃ t, computeOptions [] dflt root = .ok t ∧
      ∀ i path, OnPath root i path → ∃ o ws, t.get i = .ok o ∧
        List.Forall₂ OptReads (path.filterMap id) ws ∧ ∀ k, optGet o k = .ok (resolved k (v k) ws) := by
  obtain ⟨t, e, _, h⟩ := computeOptions_spec [] dflt v hd root hok hnd
  refine ⟨t, e, fun i path hp => ?_⟩
  obtain ⟨o, ws, h1, h2, h3⟩ := h i path hp
  exact ⟨o, ws, h1, h2, fun k => (h3 k).1⟩

end

/-- If every option is set in the defaults, the options of every entity are set; so
`bool(option)` never raises in the compiler. -/
theorem C36_never_notset (k : OptName) (d : Int) (ws : List OptVals) (hd : d ≠ k.notset) :
    resolved k d ws ≠ k.notset ∧ (k ≠ .textType → ∃ b, boolOption (resolved k d ws) = .ok b) := by
  have h : resolved k d ws ≠ k.notset := by
    unfold resolved
    cases he : (List.filter (fun x => decide (x ≠ k.notset)) (List.map (fun w => w k) ws)).getLast? with
    | none => exact hd
    | some x =>
      have := List.mem_of_getLast? he
      rw [List.mem_filter] at this
      simpa using this.2
  refine ⟨h, fun hk => ?_⟩
  have hn : k.notset = 2 := by cases k <;> first | rfl | exact absurd rfl hk
  unfold boolOption
  rw [if_neg (by rw [← hn]; exact h)]
  exact ⟨_, rfl⟩

/-- `bool(option)` raises exactly on `notset`. -/
theorem C36_bool (i : Int) : boolOption i = .error .valueError ↔ i = OptName.versionCheck.notset := by
  unfold boolOption OptName.notset
  by_cases h : i = 2
  · simp [h]
  · rw [if_neg h]
    exact ⟨fun hc => (by cases hc), fun h' => absurd h' h⟩

/-- The value an item of the dictionary stands for. -/
def dictVal (k : OptName) (d : List (String × OptArg)) : Option Int :=
  match d.lookup k.name with
  | some (.bool b) => if k = .textType then none else some (if b then 1 else 0)
  | some (.str s) => if k = .textType then (if s = "bytes" then some 1 else if s = "unicode" then some 2 else none) else none
  | none => some k.notset

/-- The dictionary is acceptable: known keys, bools for the bool options, and
"bytes" or "unicode" for `text_type`. -/
def DictOK (d : List (String × OptArg)) : Prop :=
  ∀ x ∈ d, (x.1 ∈ ["version_check", "convert_case", "include_reflection_data"] ∧ ∃ b, x.2 = .bool b) ∨
    (x.1 = "text_type" ∧ (x.2 = .str "bytes" ∨ x.2 = .str "unicode"))

/-- C36: `Options.from_dict` of an acceptable dictionary: the options given, `notset`
for the others. -/
theorem C36_from_dict (d : List (String × OptArg)) (h : DictOK d) :
    ∃ o, optFromDict d = .ok o ∧ ∀ k, ∃ i, dictVal k d = some i ∧ optGet o k = .ok i := by
  have hr : ∀ i : Int, i = 0 ∨ i = 1 ∨ i = 2 → InRange .h i := by
    rintro i (rfl | rfl | rfl) <;> simp [InRange, isSigned, Fmt.size]
  -- the keyword arguments
  have hm : ∃ kw, d.mapM fromDictItem = .ok kw ∧ (∀ x ∈ kw, ∃ k : OptName, k.name = x.1) ∧
      ∀ k : OptName, ∃ i, dictVal k d = some i ∧ ((kw.lookup k.name).getD (.int k.notset)).toInt? = some i ∧
        (i = 0 ∨ i = 1 ∨ i = 2) := by
    induction d with
    | nil =>
      refine ⟨[], rfl, by simp, fun k => ⟨k.notset, rfl, rfl, ?_⟩⟩
      cases k <;> simp [OptName.notset]
    | cons x d ih =>
      obtain ⟨kw, e, h1, h2⟩ := ih fun y hy => h y (List.mem_cons_of_mem _ hy)
      obtain ⟨key, val⟩ := x
      have step : ∀ (a : Arg) (k0 : OptName) (i0 : Int), fromDictItem (key, val) = .ok (key, a) → key = k0.name →
          a.toInt? = some i0 → (i0 = 0 ∨ i0 = 1 ∨ i0 = 2) → dictVal k0 ((key, val) :: d) = some i0 →
          ∃ kw, ((key, val) :: d).mapM fromDictItem = .ok kw ∧ (∀ x ∈ kw, ∃ k : OptName, k.name = x.1) ∧
            ∀ k : OptName, ∃ i, dictVal k ((key, val) :: d) = some i ∧
              ((kw.lookup k.name).getD (.int k.notset)).toInt? = some i ∧ (i = 0 ∨ i = 1 ∨ i = 2) := by
        intro a k0 i0 he hkey ha hi0 hdv
        refine ⟨(key, a) :: kw, ?_, ?_, fun k => ?_⟩
        · rw [List.mapM_cons, bind_okP he, bind_okP e]; rfl
        · intro y hy
          rcases List.mem_cons.mp hy with rfl | hy
          · exact ⟨k0, hkey.symm⟩
          · exact h1 y hy
        · by_cases hk : k = k0
          · subst hk
            refine ⟨i0, hdv, ?_, hi0⟩
            rw [List.lookup_cons, hkey]
            simpa using ha
          · have hne : (k.name == key) = false := by
              rw [hkey]
              cases k <;> cases k0 <;> first | exact absurd rfl hk | decide
            obtain ⟨i, h3, h4, h5⟩ := h2 k
            refine ⟨i, ?_, ?_, h5⟩
            · unfold dictVal at h3 ⊢
              rw [List.lookup_cons, hne]
              exact h3
            · rw [List.lookup_cons, hne]
              exact h4
      rcases h (key, val) (by simp) with ⟨hk, b, hb⟩ | ⟨hk, hb⟩
      · have hb : val = .bool b := hb
        subst hb
        have hbi : (Arg.bool b).toInt? = some (if b then 1 else 0) := rfl
        have hb3 : ((if b then 1 else 0 : Int) = 0 ∨ (if b then 1 else 0 : Int) = 1 ∨ (if b then 1 else 0 : Int) = 2) := by
          cases b <;> simp
        simp only [List.mem_cons, List.not_mem_nil, or_false] at hk
        rcases hk with rfl | rfl | rfl
        · exact step (.bool b) .versionCheck _ (by simp [fromDictItem]; rfl) rfl hbi hb3 (by simp [dictVal, OptName.name])
        · exact step (.bool b) .convertCase _ (by simp [fromDictItem]; rfl) rfl hbi hb3 (by simp [dictVal, OptName.name])
        · exact step (.bool b) .includeReflectionData _ (by simp [fromDictItem]; rfl) rfl hbi hb3
            (by simp [dictVal, OptName.name])
      · have hk : key = "text_type" := hk
        subst hk
        rcases hb with hb | hb
        · have hb : val = .str "bytes" := hb
          subst hb
          exact step (.int 1) .textType 1 rfl rfl rfl (by simp) rfl
        · have hb : val = .str "unicode" := hb
          subst hb
          exact step (.int 2) .textType 2 rfl rfl rfl (by simp) rfl
  obtain ⟨kw, e, h1, h2⟩ := hm
  choose v hv using h2
  obtain ⟨o, e2, hro, _⟩ := options_call kw v h1 fun k => ⟨(hv k).2.1, hr _ (hv k).2.2⟩
  refine ⟨o, ?_, fun k => ⟨v k, (hv k).1, (hro k).1⟩⟩
  unfold optFromDict
  rw [bind_okP e]
  exact e2

/-- C36: an unknown option is a `ValueError`, if the items before it are acceptable. -/
theorem C36_unknown_option (d1 d2 : List (String × OptArg)) (key : String) (val : OptArg) (h : DictOK d1)
    (hk : key ∉ ["version_check", "convert_case", "include_reflection_data", "text_type"]) :
    optFromDict (d1 ++ (key, val) :: d2) = .error .valueError := by
  have item : ∀ x, (x ∈ d1) → ∃ y, fromDictItem x = .ok y := by
    intro x hx
    rcases h x hx with ⟨hm, b, hb⟩ | ⟨hm, hb⟩
    · unfold fromDictItem
      rw [if_pos (by simpa using hm)]
      exact ⟨_, rfl⟩
    · obtain ⟨k, w⟩ := x
      have hm : k = "text_type" := hm
      subst hm
      rcases hb with hb | hb
      · have hb : w = _ := hb
        subst hb
        exact ⟨_, rfl⟩
      · have hb : w = _ := hb
        subst hb
        exact ⟨_, rfl⟩
  have bad : fromDictItem (key, val) = .error .valueError := by
    simp only [List.mem_cons, List.not_mem_nil, or_false, not_or] at hk
    unfold fromDictItem
    rw [if_neg (by simp [hk]), if_neg (by simp [hk])]
  have hm : (d1 ++ (key, val) :: d2).mapM fromDictItem = .error .valueError := by
    clear h
    induction d1 with
    | nil => rw [List.nil_append, List.mapM_cons, bad]; rfl
    | cons x d1 ih =>
      obtain ⟨y, hy⟩ := item x (by simp)
      rw [List.cons_append, List.mapM_cons, bind_okP hy, ih fun z hz => item z (List.mem_cons_of_mem _ hz)]
      rfl
  unfold optFromDict
  rw [hm]
  rfl

/-! ## A concrete tree: a file with `convertCase = false`, a struct, a field with
`textType = unicode` -/

def exampleDict : List (String × OptArg) := [("convert_case", .bool false), ("text_type", .str "unicode")]

example : DictOK exampleDict := by
  simp [DictOK, exampleDict]

example : ∃ (a b : StructObj) (v w : OptVals), OptReads a v ∧ OptReads b w ∧ v .convertCase = 0 ∧ w .textType = 2 ∧
    w .convertCase = 2 := by
  obtain ⟨a, _, ha, _⟩ := options_call [("convert_case", .bool false)]
    (fun k => match k with | .convertCase => 0 | k => k.notset) (by
      intro x hx
      simp only [List.mem_cons, List.not_mem_nil, or_false] at hx
      subst hx
      exact ⟨.convertCase, rfl⟩) (by
      intro k
      cases k <;> refine ⟨rfl, ?_⟩ <;> simp [InRange, isSigned, Fmt.size, OptName.notset])
  obtain ⟨b, _, hb, _⟩ := options_call [("text_type", .int 2)]
    (fun k => match k with | .textType => 2 | k => k.notset) (by
      intro x hx
      simp only [List.mem_cons, List.not_mem_nil, or_false] at hx
      subst hx
      exact ⟨.textType, rfl⟩) (by
      intro k
      cases k <;> refine ⟨rfl, ?_⟩ <;> simp [InRange, isSigned, Fmt.size, OptName.notset])
  exact ⟨a, b, _, _, ha, hb, rfl, rfl, rfl⟩

/-- The tree meets the hypotheses of `C36_resolution`, and the field inherits
`convertCase` from the file. -/
example (a b : StructObj) (v w : OptVals) (ha : OptReads a v) (hb : OptReads b w) (hv : v .convertCase = 0)
    (hw : w .convertCase = 2) :
    let tree : Entity Nat := .mk 1 [⟨optionsAnnId, a⟩] [.mk 2 [] [] [.mk 3 [⟨7, a⟩, ⟨optionsAnnId, b⟩] [] []]] []
    ∃ t o, computeOptions [] a tree = .ok t ∧ t.get 3 = .ok o ∧ optGet o .convertCase = .ok 0 := by
  intro tree
  have e1 : explicitAt [⟨optionsAnnId, a⟩] = some a := rfl
  have e2 : explicitAt [] = none := rfl
  have e3 : explicitAt [⟨7, a⟩, ⟨optionsAnnId, b⟩] = some b := rfl
  have hok : EntityOK tree := by
    simp only [tree, EntityOK, EntitiesOK, e1, e2, e3]
    refine ⟨?_, ⟨⟨by simp, trivial, ⟨?_, trivial, trivial⟩, trivial⟩, trivial⟩, trivial⟩
    · rintro o ho; cases ho; exact ⟨v, ha⟩
    · rintro o ho; cases ho; exact ⟨w, hb⟩
  obtain ⟨t, e, h⟩ := C36_resolution a v ha tree hok (by simp [tree, entityIds, entitiesIds])
  have hp : OnPath tree 3 [explicitAt [⟨optionsAnnId, a⟩], explicitAt [], explicitAt [⟨7, a⟩, ⟨optionsAnnId, b⟩]] :=
    .node (List.mem_singleton.mpr rfl) (.field (List.mem_singleton.mpr rfl) (.here _ _ _ _))
  obtain ⟨o, ws, h1, h2, h3⟩ := h 3 _ hp
  refine ⟨t, o, e, h1, ?_⟩
  rw [e1, e2, e3] at h2
  cases h2 with
  | cons r1 r2 =>
    cases r2 with
    | cons r3 r4 =>
      cases r4
      rw [h3]
      rename_i x y
      have hx := (r1 .convertCase).1
      have hy := (r3 .convertCase).1
      rw [(ha .convertCase).1] at hx
      rw [(hb .convertCase).1] at hy
      injection hx with hx
      injection hy with hy
      unfold resolved
      simp [← hx, ← hy, hv, hw, OptName.notset]

end Capnpy.Props
