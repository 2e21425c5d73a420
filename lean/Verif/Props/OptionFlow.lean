import Verif.Spec.OptionFlow
import Verif.Props.Options

/-!
# C75: the way of the options

From the command line, `setup.py` and `load_schema` to every node, field and enumerant, and to the head of the generated
module.
-/

namespace Capnpy.Props

open Spec OptionFlow

theorem builtin_set (k : OptName) : builtinOptions k ≠ k.notset := by
  cases k <;> simp [builtinOptions, OptName.notset]

theorem inRange_small {i : Int} (h : i = 0 ∨ i = 1 ∨ i = 2) : InRange .h i := by
  rcases h with rfl | rfl | rfl <;> simp [InRange, isSigned, Fmt.size]

theorem default_reads : ∃ o, defaultOptions = .ok o ∧ OptReads o builtinOptions := by
  obtain ⟨o, h1, h2, -⟩ := options_call [("version_check", .bool true), ("convert_case", .bool true), ("text_type", .int 1),
    ("include_reflection_data", .bool true)] builtinOptions
    (by
      intro x hx
      simp only [List.mem_cons, List.not_mem_nil, or_false] at hx
      rcases hx with rfl | rfl | rfl | rfl
      · exact ⟨.versionCheck, rfl⟩
      · exact ⟨.convertCase, rfl⟩
      · exact ⟨.textType, rfl⟩
      · exact ⟨.includeReflectionData, rfl⟩)
    (by
      intro k
      refine ⟨by cases k <;> rfl, inRange_small (.inr (.inl rfl))⟩)
  exact ⟨o, h1, h2⟩

theorem moduleOptions_reads {options : Option StructObj} {w : OptVals} (h : Given options w) :
    ∃ o, moduleOptions options = .ok o ∧ OptReads o (combineVals builtinOptions w) := by
  obtain ⟨d, h1, h2⟩ := default_reads
  cases options with
  | none =>
    have hw : w = OptName.notset := h
    refine ⟨d, ?_, ?_⟩
    · unfold moduleOptions
      rw [bind_okP h1]
      rfl
    · have : combineVals builtinOptions w = builtinOptions := by
        funext k
        unfold combineVals
        rw [hw, if_pos rfl]
      rw [this]
      exact h2
  | some o =>
    obtain ⟨o', h3, h4, -⟩ := C36_combine d o _ _ h2 h
    refine ⟨o', ?_, h4⟩
    unfold moduleOptions
    rw [bind_okP h1]
    exact h3

section

variable {ι : Type} [DecidableEq ι]

/-- C75: the options of every node, field and enumerant: those of the innermost annotation that sets them, otherwise those
of the caller, otherwise the built-in ones; never `notset`. -/
theorem C75_options (options : Option StructObj) (w : OptVals) (hw : Given options w) (file : Entity ι) (hok : EntityOK file)
    (hnd : (entityIds file).Nodup) :
    ∃ t, allOptions options file = .ok t ∧
      ∀ i path, OnPath file i path → ∃ o ws, t.get i = .ok o ∧ List.Forall₂ OptReads (path.filterMap id) ws ∧
        ∀ k, optGet o k = .ok (optionAt k w ws) ∧ optionAt k w ws ≠ k.notset := by
  obtain ⟨d, h1, h2⟩ := moduleOptions_reads hw
  obtain ⟨t, h3, h4⟩ := C36_resolution d _ h2 file hok hnd
  refine ⟨t, ?_, fun i path hp => ?_⟩
  · unfold allOptions
    rw [bind_okP h1]
    exact h3
  · obtain ⟨o, ws, h5, h6, h7⟩ := h4 i path hp
    refine ⟨o, ws, h5, h6, fun k => ⟨?_, (C36_never_notset k _ (w :: ws) (builtin_set k)).1⟩⟩
    rw [h7 k, optionAt, resolved_cons]

theorem optReads_unique {o : StructObj} {v w : OptVals} (h1 : OptReads o v) (h2 : OptReads o w) : v = w := by
  funext k
  have := (h1 k).1
  rw [(h2 k).1] at this
  exact (Except.ok.inj this).symm

theorem forall₂_unique : ∀ {os : List StructObj} {vs ws : List OptVals}, List.Forall₂ OptReads os vs → List.Forall₂ OptReads os ws →
    vs = ws
  | [], _, _, .nil, .nil => rfl
  | _ :: _, _, _, .cons a b, .cons c d => by rw [optReads_unique a c, forall₂_unique b d]

/-- C75: the head of the module: the version check is that of the caller (otherwise on), whatever the annotations of the file
say; the reflection data are included as the annotation of the file says, otherwise the caller, otherwise they are. -/
theorem C75_head (options : Option StructObj) (w : OptVals) (hw : Given options w) (i : ι) (anns : List Ann)
    (nodes fields : List (Entity ι)) (hok : EntityOK (.mk i anns nodes fields)) (hnd : (entityIds (.mk i anns nodes fields)).Nodup)
    (ws : List OptVals) (hws : List.Forall₂ OptReads (explicitAt anns).toList ws) :
    head options (.mk i anns nodes fields) =
      .ok ⟨decide (optionAt .versionCheck w [] ≠ 0), decide (optionAt .includeReflectionData w ws ≠ 0)⟩ := by
  obtain ⟨d, h1, h2⟩ := moduleOptions_reads hw
  obtain ⟨t, h3, h4⟩ := C36_resolution d _ h2 _ hok hnd
  obtain ⟨o, ws', h5, h6, h7⟩ := h4 i _ (.here i anns nodes fields)
  have hpath : ([explicitAt anns].filterMap id) = (explicitAt anns).toList := by
    cases explicitAt anns <;> rfl
  rw [hpath] at h6
  obtain rfl := forall₂_unique h6 hws
  have hv : combineVals builtinOptions w .versionCheck = optionAt .versionCheck w [] := by
    rw [optionAt, resolved_cons]
    rfl
  have hbool : ∀ k, k ≠ .textType → ∀ ws, boolOption (optionAt k w ws) = .ok (decide (optionAt k w ws ≠ 0)) := by
    intro k hk ws
    have hn := (C36_never_notset k _ (w :: ws) (builtin_set k)).1
    have h2 : k.notset = 2 := by cases k <;> first | rfl | exact absurd rfl hk
    rw [h2] at hn
    unfold boolOption
    rw [if_neg (show ¬ optionAt k w ws = 2 from hn)]
    exact congrArg Except.ok (show (optionAt k w ws != 0) = decide (optionAt k w ws ≠ 0) from (by by_cases h0 : optionAt k w ws = 0 <;> simp [h0]))
  unfold head
  rw [bind_okP h1, bind_okP h3, bind_okP (h2 .versionCheck).1, hv, bind_okP (hbool .versionCheck (by simp) []),
    bind_okP (show t.get (entityId (.mk i anns nodes fields)) = .ok o from h5), bind_okP (h7 .includeReflectionData),
    ← resolved_cons]
  exact bind_okP (hbool .includeReflectionData (by simp) ws')

/-- C75: a Text field is read as bytes or as unicode as the option says. -/
theorem C75_text (options : Option StructObj) (w : OptVals) (hw : Given options w) (file : Entity ι) (hok : EntityOK file)
    (hnd : (entityIds file).Nodup) (i : ι) (path : List (Option StructObj)) (hp : OnPath file i path) (ws : List OptVals)
    (hws : List.Forall₂ OptReads (path.filterMap id) ws) :
    ∃ t, allOptions options file = .ok t ∧
      (optionAt .textType w ws = 1 → textAccess t i = .ok .bytes) ∧
      (optionAt .textType w ws = 2 → textAccess t i = .ok .unicode) ∧
      (optionAt .textType w ws ≠ 1 → optionAt .textType w ws ≠ 2 → textAccess t i = .error .notImplemented) := by
  obtain ⟨t, h1, h2⟩ := C75_options options w hw file hok hnd
  obtain ⟨o, ws', h3, h4, h5⟩ := h2 i path hp
  obtain rfl := forall₂_unique h4 hws
  have he : textAccess t i = (if optionAt .textType w ws' = 1 then pure .bytes
      else if optionAt .textType w ws' = 2 then pure .unicode else .error .notImplemented : Py TextAccess) := by
    unfold textAccess
    rw [bind_okP h3, bind_okP (h5 .textType).1]
  refine ⟨t, h1, fun h => ?_, fun h => ?_, fun h h' => ?_⟩
  · rw [he, if_pos h]; rfl
  · rw [he, if_neg (by omega), if_pos h]; rfl
  · rw [he, if_neg h, if_neg h']

end

/-- C75: `optionAt` does not invent values: it is one of those given. -/
theorem C75_known (k : OptName) (w : OptVals) (ws : List OptVals) :
    optionAt k w ws = 1 ∨ optionAt k w ws = w k ∨ ∃ v ∈ ws, optionAt k w ws = v k := by
  unfold optionAt resolved
  cases he : (List.filter (fun x => decide (x ≠ k.notset)) (List.map (fun w => w k) (w :: ws))).getLast? with
  | none => exact .inl rfl
  | some x =>
    have := List.mem_of_getLast? he
    rw [List.mem_filter] at this
    obtain ⟨v, hv, hx⟩ := List.mem_map.mp this.1
    rcases List.mem_cons.mp hv with rfl | hv
    · exact .inr (.inl hx.symm)
    · exact .inr (.inr ⟨v, hv, hx.symm⟩)

/-! ## The command line -/

/-- C75: the flags of the command line, and `--no-pyx`. -/
theorem C75_cli (a : CliArgs) (ha : a.textType = "bytes" ∨ a.textType = "unicode") :
    ∃ o, parseArgv a = .ok (if a.noPyx then some false else none, o) ∧ Given (some o) (cliOptions a) := by
  obtain ⟨o, h1, h2⟩ := C36_from_dict [("version_check", .bool (!a.noVersionCheck)), ("convert_case", .bool (!a.noConvertCase)),
    ("text_type", .str a.textType), ("include_reflection_data", .bool (!a.noReflection))] (by
      intro x hx
      simp only [List.mem_cons, List.not_mem_nil, or_false] at hx
      rcases hx with rfl | rfl | rfl | rfl
      · exact .inl ⟨by simp, _, rfl⟩
      · exact .inl ⟨by simp, _, rfl⟩
      · exact .inr ⟨rfl, by rcases ha with h | h <;> rw [h] <;> simp⟩
      · exact .inl ⟨by simp, _, rfl⟩)
  refine ⟨o, ?_, fun k => ?_⟩
  · unfold parseArgv
    rw [if_neg (not_not.mpr ha), h1]
  · obtain ⟨i, h3, h4⟩ := h2 k
    have hi : i = cliOptions a k := by
      cases k with
      | versionCheck =>
        have h3 : some (if (!a.noVersionCheck) = true then (1 : Int) else 0) = some i := h3
        rw [← Option.some.inj h3]
        show _ = if a.noVersionCheck = true then (0 : Int) else 1
        cases a.noVersionCheck <;> rfl
      | convertCase =>
        have h3 : some (if (!a.noConvertCase) = true then (1 : Int) else 0) = some i := h3
        rw [← Option.some.inj h3]
        show _ = if a.noConvertCase = true then (0 : Int) else 1
        cases a.noConvertCase <;> rfl
      | textType =>
        have h3 : (if a.textType = "bytes" then some (1 : Int) else if a.textType = "unicode" then some 2 else none) = some i := h3
        show _ = if a.textType = "unicode" then (2 : Int) else 1
        rcases ha with h | h <;> (rw [h] at h3 ⊢; exact (Option.some.inj h3).symm)
      | includeReflectionData =>
        have h3 : some (if (!a.noReflection) = true then (1 : Int) else 0) = some i := h3
        rw [← Option.some.inj h3]
        show _ = if a.noReflection = true then (0 : Int) else 1
        cases a.noReflection <;> rfl
    rw [← hi]
    refine ⟨h4, inRange_small ?_⟩
    rw [hi]
    cases k <;> (unfold cliOptions; simp only []; split <;> simp)

/-- C75: another value of `--text-type` ends the command with status 1. -/
theorem C75_cli_bad (a : CliArgs) : parseArgv a = .error (.exit 1) ↔ ¬ (a.textType = "bytes" ∨ a.textType = "unicode") := by
  constructor
  · intro h hc
    obtain ⟨o, h1, -⟩ := C75_cli a hc
    rw [h1] at h
    cases h
  · intro h
    unfold parseArgv
    rw [if_pos h]

/-- C75: without annotations in the schema the flags decide. -/
theorem C75_cli_final (a : CliArgs) (k : OptName) (ws : List OptVals) (h : ∀ v ∈ ws, v k = k.notset) :
    optionAt k (cliOptions a) ws = cliOptions a k := by
  unfold optionAt
  rw [resolved_cons]
  have hset : cliOptions a k ≠ k.notset := by
    cases k <;> (unfold cliOptions OptName.notset; simp only []; split <;> simp)
  unfold resolved combineVals
  rw [if_neg hset]
  have : List.filter (fun x => decide (x ≠ k.notset)) (List.map (fun w => w k) ws) = [] := by
    rw [List.filter_eq_nil_iff]
    intro x hx
    obtain ⟨v, hv, rfl⟩ := List.mem_map.mp hx
    simp [h v hv]
  rw [this]
  rfl

/-! ## setup.py -/

theorem lookup_filter_ne {β : Type} {k key : String} (hk : k ≠ key) : ∀ d : List (String × β),
    (d.filter fun x => decide (x.1 ≠ key)).lookup k = d.lookup k
  | [] => rfl
  | (x, v) :: d => by
    by_cases hx : x = key
    · subst hx
      rw [List.filter_cons_of_neg (by simp), List.lookup_cons, show (k == x) = false from by simpa using hk, lookup_filter_ne hk d]
    · rw [List.filter_cons_of_pos (by simpa using hx), List.lookup_cons, List.lookup_cons, lookup_filter_ne hk d]

theorem lookup_mem' {β : Type} {k : String} {v : β} : ∀ {d : List (String × β)}, d.lookup k = some v → (k, v) ∈ d
  | [], h => by cases h
  | (x, w) :: d, h => by
    rw [List.lookup_cons] at h
    by_cases hx : k = x
    · subst hx
      simp only [beq_self_eq_true] at h
      obtain rfl := Option.some.inj h
      exact List.mem_cons_self
    · rw [show (k == x) = false from by simpa using hx] at h
      exact List.mem_cons_of_mem _ (lookup_mem' h)

/-- The dictionary without `pyx`. -/
theorem dict_options {d : OptDict} (h : SetupDict d) :
    ∃ o, optFromDict (d.filter fun x => decide (x.1 ≠ "pyx")) = .ok o ∧ OptReads o (dictOptions d) := by
  obtain ⟨o, h1, h2⟩ := C36_from_dict (d.filter fun x => decide (x.1 ≠ "pyx")) (by
    intro x hx
    rw [List.mem_filter] at hx
    rcases h.2 x hx.1 with h' | h'
    · exact absurd h'.1 (by simpa using hx.2)
    · exact h')
  refine ⟨o, h1, fun k => ?_⟩
  obtain ⟨i, h3, h4⟩ := h2 k
  unfold dictVal at h3
  rw [lookup_filter_ne (by cases k <;> decide)] at h3
  have hi : i = dictOptions d k ∧ (i = 0 ∨ i = 1 ∨ i = 2) := by
    unfold dictOptions
    cases hl : d.lookup k.name with
    | none =>
      rw [hl] at h3
      obtain rfl := Option.some.inj h3
      exact ⟨rfl, by cases k <;> simp [OptName.notset]⟩
    | some v =>
      rw [hl] at h3
      cases v with
      | bool b =>
        simp only [] at h3 ⊢
        by_cases hk : k = .textType
        · rw [if_pos hk] at h3; cases h3
        · rw [if_neg hk] at h3
          obtain rfl := Option.some.inj h3
          exact ⟨rfl, by cases b <;> simp⟩
      | str s =>
        simp only [] at h3 ⊢
        by_cases hk : k = .textType
        · rw [if_pos hk] at h3
          by_cases hb : s = "bytes"
          · rw [if_pos hb] at h3
            obtain rfl := Option.some.inj h3
            exact ⟨by rw [if_neg (by rw [hb]; decide)], by simp⟩
          · rw [if_neg hb] at h3
            by_cases hu : s = "unicode"
            · rw [if_pos hu] at h3
              obtain rfl := Option.some.inj h3
              exact ⟨by rw [if_pos hu], by simp⟩
            · rw [if_neg hu] at h3; cases h3
        · rw [if_neg hk] at h3; cases h3
  rw [← hi.1]
  exact ⟨h4, inRange_small hi.2⟩

/-- The mode which a dictionary asks for, on a machine where the compiled modules are there or not. -/
def SetupMode (available : Bool) (d : OptDict) (b : Bool) : Prop :=
  match d.lookup "pyx" with
  | some (.bool b') => b = b' ∧ (b' = true → available = true)
  | _ => b = available

theorem compileAll_ok {E : SetupEnv} {pyx : OptArg} {b : Bool} {o : StructObj} {out : String → String} (hb : E.getpyx pyx = .ok b) :
    ∀ {fs : List String}, (∀ f ∈ fs, E.compile f b o = .ok (out f)) → compileAll E pyx o fs = .ok (fs.map out)
  | [], _ => rfl
  | f :: fs, h => by
    unfold compileAll
    rw [bind_okP hb, bind_okP (h f List.mem_cons_self), bind_okP (compileAll_ok hb fun g hg => h g (List.mem_cons_of_mem _ hg))]
    rfl

theorem setup_mode {E : SetupEnv} {d : OptDict} (h : SetupDict d) {b : Bool} (hb : SetupMode E.pyxAvailable d b) :
    E.getpyx ((d.lookup "pyx").getD (.str "auto")) = .ok b := by
  unfold SetupMode at hb
  cases hl : d.lookup "pyx" with
  | none =>
    rw [hl] at hb
    have hb : b = E.pyxAvailable := hb
    rw [hb]
    rfl
  | some v =>
    rw [hl] at hb
    cases v with
    | bool b' =>
      obtain ⟨rfl, hb⟩ := hb
      cases b with
      | false => rfl
      | true =>
        show (if E.pyxAvailable = true then Except.ok true else Except.error PyErr.valueError) = _
        rw [if_pos (hb rfl)]
    | str s =>
      have hb : b = E.pyxAvailable := hb
      rcases h.2 _ (lookup_mem' hl) with ⟨-, h' | ⟨b', h'⟩⟩ | h' | h'
      · have h' : OptArg.str s = .str "auto" := h'
        rw [h', hb]
        rfl
      · cases h'
      · obtain ⟨-, b', h'⟩ := h'
        cases h'
      · exact absurd (show "pyx" = "text_type" from h'.1) (by decide)

/-- C75: `setup(capnpy_schemas=…, capnpy_options=…)`: every schema is compiled once, in order, in the mode and with the
options of the dictionary, and in pyx mode the outputs become extension modules. -/
theorem C75_setup (E : SetupEnv) (schemas : Schemas) (files : List String) (d : Dist)
    (hf : match schemas with | .pattern p => E.glob p = files ∧ files ≠ [] | .files fs => fs = files)
    (hd : SetupDict (d.options.getD [])) (b : Bool) (hb : SetupMode E.pyxAvailable (d.options.getD []) b)
    (hcy : b = true → E.cythonAvailable = true) :
    ∃ o, Given (some o) (dictOptions (d.options.getD [])) ∧ ∀ out : String → String, (∀ f ∈ files, E.compile f b o = .ok (out f)) →
      ∃ d', capnpySchemas E schemas d = (.ok (), d') ∧
        d'.extModules = some (d.extModules.getD [] ++ if b then files.map out else []) := by
  obtain ⟨o, h1, h2⟩ := dict_options hd
  refine ⟨o, h2, fun out hout => ?_⟩
  have hm := setup_mode hd hb
  have hc := compileAll_ok hm hout
  have hcap : capnpify E schemas ((d.options.getD []).lookup "pyx" |>.getD (.str "auto")) o = .ok (if b then files.map out else []) := by
    have hfiles : schemas.expand E = .ok files := by
      cases schemas with
      | pattern p =>
        obtain ⟨hg, hne⟩ := hf
        unfold Schemas.expand
        simp only []
        rw [hg, if_neg hne]
      | files fs => exact congrArg Except.ok hf
    unfold capnpify
    rw [bind_okP hfiles, bind_okP hc, bind_okP hm]
    cases b with
    | false => rfl
    | true =>
      simp only [if_true]
      rw [if_pos (hcy rfl)]
      rfl
  refine ⟨⟨d.options.map fun _ => (d.options.getD []).filter fun x => decide (x.1 ≠ "pyx"),
    some (d.extModules.getD [] ++ if b then files.map out else [])⟩, ?_, rfl⟩
  unfold capnpySchemas
  simp only [h1, hcap]

/-- C75: a pattern that matches nothing is an error, and nothing is compiled. -/
theorem C75_glob (E : SetupEnv) (p : String) (pyx : OptArg) (o : StructObj) (h : E.glob p = []) :
    capnpify E (.pattern p) pyx o = .error .valueError := by
  unfold capnpify Schemas.expand
  simp only []
  rw [if_pos h]
  rfl

/-- C75: without the compiled modules, `pyx=True` is an error for any schemas. -/
theorem C75_no_pyx (E : SetupEnv) (h : E.pyxAvailable = false) (fs : List String) (o : StructObj) :
    capnpify E (.files fs) (.bool true) o = .error .valueError := by
  have hg : E.getpyx (.bool true) = .error .valueError := by
    show (if E.pyxAvailable = true then Except.ok true else Except.error PyErr.valueError) = _
    rw [h]
    rfl
  unfold capnpify
  cases fs with
  | nil => simp only [Schemas.expand, compileAll, bind_okP rfl]; rw [hg]; rfl
  | cons f fs => simp only [Schemas.expand, compileAll, bind_okP rfl]; rw [hg]; rfl

/-- C75: the names that `capnpy_options` warns about. -/
theorem C75_warnings (d : OptDict) (key : String) :
    key ∈ capnpyOptions d ↔ (∃ v, (key, v) ∈ d) ∧
      key ∉ ["pyx", "version_check", "convert_case", "text_type", "include_reflection_data"] := by
  unfold capnpyOptions
  rw [List.mem_filter, List.mem_map]
  constructor
  · rintro ⟨⟨⟨k, v⟩, hm, rfl⟩, h⟩
    refine ⟨⟨v, hm⟩, ?_⟩
    simpa [OptName.all, OptName.name] using h
  · rintro ⟨⟨v, hm⟩, h⟩
    refine ⟨⟨(key, v), hm, rfl⟩, ?_⟩
    simpa [OptName.all, OptName.name] using h

/-- C75: and then `capnpy_schemas` raises ValueError for them and compiles nothing. -/
theorem C75_unknown (E : SetupEnv) (schemas : Schemas) (d : Dist) (d1 d2 : OptDict) (key : String) (v : OptArg)
    (hd : d.options = some (d1 ++ (key, v) :: d2)) (h1 : SetupDict d1) (hk : key ∈ capnpyOptions (d.options.getD [])) :
    (capnpySchemas E schemas d).1 = .error .valueError ∧ (capnpySchemas E schemas d).2.extModules = d.extModules := by
  have hk' := ((C75_warnings _ _).mp hk).2
  simp only [List.mem_cons, List.not_mem_nil, or_false, not_or] at hk'
  have hdict : ∀ x ∈ d1.filter (fun x => decide (x.1 ≠ "pyx")), (x.1 ∈ ["version_check", "convert_case", "include_reflection_data"] ∧ ∃ b, x.2 = .bool b) ∨
      (x.1 = "text_type" ∧ (x.2 = .str "bytes" ∨ x.2 = .str "unicode")) := by
    intro x hx
    rw [List.mem_filter] at hx
    rcases h1.2 x hx.1 with h' | h'
    · exact absurd h'.1 (by simpa using hx.2)
    · exact h'
  have he := C36_unknown_option (d1.filter fun x => decide (x.1 ≠ "pyx")) (d2.filter fun x => decide (x.1 ≠ "pyx")) key v hdict
    (by simp [hk'])
  have hf : (d.options.getD []).filter (fun x => decide (x.1 ≠ "pyx")) =
      d1.filter (fun x => decide (x.1 ≠ "pyx")) ++ (key, v) :: d2.filter fun x => decide (x.1 ≠ "pyx") := by
    rw [hd, Option.getD_some, List.filter_append, List.filter_cons_of_pos (by simpa using hk'.1)]
  unfold capnpySchemas
  simp only [hf, he, and_self]

/-! ## The version check -/

/-- C75: importing a module fails iff it has the version check and was generated by another version of capnpy; then it is not
left in `sys.modules`, and nothing else changes there. -/
theorem C75_import (current modname version : String) (h : Head) (s : SysModules) :
    ((h.versionCheck = true ∧ version ≠ current) → (importHead current modname version h s).1 = .error .importError ∧
      ∀ m, (importHead current modname version h s).2 m = if m = modname then none else s m) ∧
    (¬ (h.versionCheck = true ∧ version ≠ current) → importHead current modname version h s = (.ok (), s)) := by
  unfold importHead checkVersion
  constructor
  · rintro ⟨h1, h2⟩
    rw [if_pos h1, if_pos h2]
    exact ⟨rfl, fun m => rfl⟩
  · intro hn
    by_cases h1 : h.versionCheck = true
    · rw [if_pos h1, if_neg (fun h2 => hn ⟨h1, h2⟩)]
    · rw [if_neg h1]

/-- The value of an annotation that sets nothing but `versionCheck` to false. -/
theorem noCheck : ∃ o, OptReads o (fun k => if k = .versionCheck then 0 else k.notset) := by
  obtain ⟨o, -, h, -⟩ := options_call [("version_check", .bool false)] (fun k => if k = .versionCheck then 0 else k.notset)
    (by
      intro x hx
      simp only [List.mem_cons, List.not_mem_nil, or_false] at hx
      subst hx
      exact ⟨.versionCheck, rfl⟩)
    (by
      intro k
      refine ⟨by cases k <;> rfl, ?_⟩
      apply inRange_small
      cases k <;> simp [OptName.notset])
  exact ⟨o, h⟩

/-- C75, finding: a file that is annotated with `$Py.options(versionCheck=false)`, whose own options accordingly say "no", is
nonetheless compiled with the version check, and importing it with another version of capnpy raises. -/
theorem C75_version_check_annotation : ∃ (file : Entity Nat) (t : OptTable Nat) (o : StructObj) (h : Head),
    allOptions none file = .ok t ∧ t.get (entityId file) = .ok o ∧ optGet o .versionCheck = .ok 0 ∧
    head none file = .ok h ∧ h.versionCheck = true ∧
    ∀ s, (importHead "0.11" "foo" "0.10" h s).1 = .error .importError := by
  obtain ⟨a, ha⟩ := noCheck
  have hok : EntityOK (.mk 1 [⟨optionsAnnId, a⟩] [] [] : Entity Nat) := by
    simp only [EntityOK, EntitiesOK, and_self, and_true]
    intro o ho
    cases ho
    exact ⟨_, ha⟩
  have hnd : (entityIds (.mk 1 [⟨optionsAnnId, a⟩] [] [] : Entity Nat)).Nodup := by simp [entityIds, entitiesIds]
  obtain ⟨t, h1, h2⟩ := C75_options none OptName.notset rfl _ hok hnd
  obtain ⟨o, ws, h3, h4, h5⟩ := h2 1 _ (.here _ _ _ _)
  have h4 : List.Forall₂ OptReads [a] ws := h4
  obtain rfl : ws = [fun k => if k = .versionCheck then 0 else k.notset] :=
    forall₂_unique h4 (.cons ha .nil)
  have hh := C75_head none OptName.notset rfl 1 _ [] [] hok hnd _ h4
  refine ⟨_, t, o, _, h1, h3, ?_, hh, ?_, ?_⟩
  · exact (h5 .versionCheck).1
  · rfl
  · intro s
    exact ((C75_import "0.11" "foo" "0.10" _ s).1 ⟨rfl, by decide⟩).1

/-! ## Findings about setup.py -/

/-- C75: after a call, `pyx` is no longer in the user's dictionary. -/
theorem C75_pop (E : SetupEnv) (schemas : Schemas) (d : Dist) (v : OptArg) :
    ∀ dict, (capnpySchemas E schemas d).2.options = some dict → ("pyx", v) ∉ dict := by
  have key : (capnpySchemas E schemas d).2.options = d.options.map fun _ => (d.options.getD []).filter fun x => decide (x.1 ≠ "pyx") := by
    unfold capnpySchemas
    simp only []
    split
    · rfl
    · split <;> rfl
  intro dict h hm
  rw [key] at h
  cases ho : d.options with
  | none => rw [ho] at h; cases h
  | some dd =>
    rw [ho] at h
    obtain rfl := Option.some.inj h
    rw [List.mem_filter] at hm
    simp at hm

/-- C75, finding: so a second call with the same dictionary (a `setup.py` with two calls of `setup` that share it) ignores
`'pyx': False` where the compiled modules are there: it makes extension modules. -/
theorem C75_pop_twice : ∃ (E : SetupEnv) (d : Dist), d.options = some [("pyx", .bool false)] ∧
    (capnpySchemas E (.files ["a.capnp"]) d).1 = .ok () ∧ (capnpySchemas E (.files ["a.capnp"]) d).2.extModules = some [] ∧
    (capnpySchemas E (.files ["a.capnp"]) ⟨(capnpySchemas E (.files ["a.capnp"]) d).2.options, none⟩).1 = .ok () ∧
    (capnpySchemas E (.files ["a.capnp"]) ⟨(capnpySchemas E (.files ["a.capnp"]) d).2.options, none⟩).2.extModules = some ["a.capnp.pyx"] := by
  refine ⟨⟨true, true, fun _ => [], fun f b _ => .ok (if b then f ++ ".pyx" else f ++ ".py")⟩, ⟨some [("pyx", .bool false)], none⟩, rfl, ?_⟩
  obtain ⟨o, -, h⟩ := C75_setup ⟨true, true, fun _ => [], fun f b _ => .ok (if b then f ++ ".pyx" else f ++ ".py")⟩
    (.files ["a.capnp"]) ["a.capnp"] ⟨some [("pyx", .bool false)], none⟩ rfl
    ⟨by simp, by simp⟩ false ⟨rfl, by simp⟩ (by simp)
  obtain ⟨d', h1, h2⟩ := h (fun f => f ++ ".py") (fun f _ => rfl)
  obtain ⟨o2, -, h'⟩ := C75_setup ⟨true, true, fun _ => [], fun f b _ => .ok (if b then f ++ ".pyx" else f ++ ".py")⟩
    (.files ["a.capnp"]) ["a.capnp"] ⟨some [], none⟩ rfl
    ⟨by simp, by simp⟩ true rfl (by simp)
  obtain ⟨d'', h3, h4⟩ := h' (fun f => f ++ ".pyx") (fun f _ => rfl)
  have ho : d'.options = some [] := by
    have : (capnpySchemas ⟨true, true, fun _ => [], fun f b _ => .ok (if b then f ++ ".pyx" else f ++ ".py")⟩ (.files ["a.capnp"])
      ⟨some [("pyx", .bool false)], none⟩).2.options = some [] := by
      unfold capnpySchemas
      simp only []
      split
      · rfl
      · split <;> rfl
    rw [h1] at this
    exact this
  rw [h1]
  refine ⟨rfl, h2, ?_⟩
  simp only [ho]
  rw [h3]
  exact ⟨rfl, h4⟩

/-! ## Examples -/

/-- `capnpy compile --text-type=unicode --no-version-check`, for a file with a struct whose field `x` is annotated. -/
example (a : StructObj) (v : OptVals) (ha : OptReads a v) (hv : v .textType = 1) :
    let args : CliArgs := { textType := "unicode", noVersionCheck := true }
    let file : Entity Nat := .mk 1 [] [.mk 2 [] [] [.mk 3 [⟨optionsAnnId, a⟩] [] [], .mk 4 [] [] []]] []
    ∃ o t, parseArgv args = .ok (none, o) ∧ allOptions (some o) file = .ok t ∧ textAccess t 3 = .ok .bytes ∧
      textAccess t 4 = .ok .unicode ∧ head (some o) file = .ok ⟨false, true⟩ := by
  intro args file
  have hok : EntityOK file := by
    simp only [file, EntityOK, EntitiesOK, and_true]
    refine ⟨?_, ?_, trivial, ?_, ?_⟩ <;> (intro o ho; cases ho; try exact ⟨v, ha⟩)
  have hnd : (entityIds file).Nodup := by simp [file, entityIds, entitiesIds]
  obtain ⟨o, h1, h2⟩ := C75_cli args (.inr rfl)
  have p3 : OnPath file 3 [explicitAt [], explicitAt [], explicitAt [⟨optionsAnnId, a⟩]] :=
    .node (List.mem_singleton.mpr rfl) (.field (List.mem_cons_self) (.here _ _ _ _))
  have p4 : OnPath file 4 [explicitAt [], explicitAt [], explicitAt []] :=
    .node (List.mem_singleton.mpr rfl) (.field (List.mem_cons_of_mem _ List.mem_cons_self) (.here _ _ _ _))
  obtain ⟨t, h3, h4, -, -⟩ := C75_text (some o) _ h2 file hok hnd 3 _ p3 [v] (.cons ha .nil)
  obtain ⟨t', h3', -, h4', -⟩ := C75_text (some o) _ h2 file hok hnd 4 _ p4 [] .nil
  rw [h3] at h3'
  obtain rfl := Except.ok.inj h3'
  refine ⟨o, t, h1, h3, h4 ?_, h4' rfl, ?_⟩
  · rw [optionAt, resolved_cons]
    simp [resolved, hv, OptName.notset]
  · exact C75_head (some o) _ h2 1 [] _ [] hok hnd [] .nil

/-- The dictionary of the documentation. -/
example : SetupDict [("pyx", .bool false), ("version_check", .bool false), ("convert_case", .bool false)] := by
  refine ⟨by simp, ?_⟩
  simp

example : capnpyOptions [("pyx", .bool false), ("convertcase", .bool false)] = ["convertcase"] := by decide +kernel

end Capnpy.Props
