import Verif.Proof.Loader

/-! # C42: the cache of compiled schemas

`loadSchema env fuel call st` is `compiler.load_schema(...)`; `Dep` is "compiling this
file loads that one" (Proof/Loader.lean). -/

namespace Capnpy.Props

variable (env : LoaderEnv)

/-- A state in which a compiler can be: some history of calls (successful or not, with
any recursion limits) was made on a new compiler. -/
def Reachable (annotatePath : String) (st : LoaderState) : Prop :=
  ∃ calls, st = loadHistory env calls (LoaderState.init annotatePath)

variable {env}

theorem init_inv (annotatePath : String) : LoaderInv env [annotatePath] (LoaderState.init annotatePath) := by
  have h : ∀ f, (LoaderState.init annotatePath).modules.lookup f =
      if f = annotatePath then some ⟨0, annotatePath, false, none⟩ else none := by
    intro f
    unfold LoaderState.init
    rw [List.lookup_cons]
    by_cases hf : f = annotatePath
    · simp [hf]
    · rw [show (f == annotatePath) = false by simpa using hf, if_neg hf]; rfl
  refine ⟨?_, ?_, ?_, ?_, ?_⟩
  · intro f m hm
    rw [h] at hm
    by_cases hf : f = annotatePath
    · rw [if_pos hf] at hm
      injection hm with hm
      subst hm
      exact ⟨hf.symm, Nat.zero_lt_one⟩
    · rw [if_neg hf] at hm; cases hm
  · intro f g m m' hm hm' _
    rw [h] at hm hm'
    by_cases hf : f = annotatePath
    · by_cases hg : g = annotatePath
      · rw [hf, hg]
      · rw [if_neg hg] at hm'; cases hm'
    · rw [if_neg hf] at hm; cases hm
  · intro f hf
    rw [h, if_pos (by simpa using hf)]
    simp
  · intro f g hf hd
    rw [h] at hf
    by_cases hfa : f = annotatePath
    · exact absurd (by simp [hfa]) hd.1
    · rw [if_neg hfa] at hf; simp at hf
  · intro f hf
    rw [h]
    by_cases hfa : f = annotatePath
    · obtain ⟨g, hg, _⟩ := Relation.TransGen.head'_iff.mp hf
      exact absurd (by simp [hfa]) hg.1
    · rw [if_neg hfa]

theorem loadSchema_step {known : List String} {fuel : Nat} {c : LoadCall} {st : LoaderState}
    (h : LoaderInv env known st) : LoaderStep env known st (loadSchema env fuel c st).2 fun _ => True := by
  unfold loadSchema
  cases env.getpyx c.pyx with
  | error e => exact LoaderStep.refl h _
  | ok pyx =>
    cases env.getFilename c.modname c.importname c.filename with
    | error e => exact LoaderStep.refl h _
    | ok f => exact (loadFile_spec fuel f pyx c.options st h).1.mono fun _ _ => trivial

theorem loadHistory_step {known : List String} : ∀ (cs : List (Nat × LoadCall)) (st : LoaderState),
    LoaderInv env known st → LoaderStep env known st (loadHistory env cs st) fun _ => True
  | [], st, h => LoaderStep.refl h _
  | (fuel, c) :: cs, st, h => by
    have h1 := loadSchema_step (fuel := fuel) (c := c) h
    exact h1.trans (loadHistory_step cs _ h1.inv)

theorem reachable_inv {annotatePath : String} {st : LoaderState} (h : Reachable env annotatePath st) :
    LoaderInv env [annotatePath] st := by
  obtain ⟨cs, rfl⟩ := h
  exact (loadHistory_step cs _ (init_inv annotatePath)).inv

/-- `call` refers to the file `f` (and its pyx mode is available). -/
def Names (c : LoadCall) (f : String) : Prop :=
  env.getFilename c.modname c.importname c.filename = .ok f ∧ ∃ pyx, env.getpyx c.pyx = .ok pyx

theorem load_ok_names {fuel : Nat} {c : LoadCall} {st : LoaderState} {m : Mod}
    (h : (loadSchema env fuel c st).1 = .ok m) :
    ∃ f pyx, env.getFilename c.modname c.importname c.filename = .ok f ∧ env.getpyx c.pyx = .ok pyx ∧
      loadSchema env fuel c st = loadFile env fuel f pyx c.options st := by
  unfold loadSchema at h ⊢
  cases hp : env.getpyx c.pyx with
  | error e => rw [hp] at h; cases h
  | ok pyx =>
    cases hf : env.getFilename c.modname c.importname c.filename with
    | error e => rw [hp, hf] at h; cases h
    | ok f => exact ⟨f, pyx, rfl, rfl, rfl⟩

/-- C42: loading the same file again returns the identical module: whatever happened
before, if a call returned `m`, then after any further calls (also failed ones) every
call that refers to the same file, by modname, importname or filename, with whatever
options, returns `m` and does not change the compiler. -/
theorem C42_same_module {annotatePath : String} {st : LoaderState} (hst : Reachable env annotatePath st)
    {fuel fuel' : Nat} {c c' : LoadCall} {m : Mod} {f : String} (hm : (loadSchema env fuel c st).1 = .ok m)
    (hc : Names (env := env) c f) (hc' : Names (env := env) c' f) (cs : List (Nat × LoadCall)) (hfuel : 0 < fuel') :
    loadSchema env fuel' c' (loadHistory env cs (loadSchema env fuel c st).2) =
      (.ok m, loadHistory env cs (loadSchema env fuel c st).2) := by
  have hi := reachable_inv hst
  obtain ⟨f1, pyx, e1, e2, e3⟩ := load_ok_names hm
  have : f1 = f := by
    have := hc.1
    rw [e1] at this
    injection this
  subst this
  have hs := loadFile_spec fuel f1 pyx c.options st hi
  rw [e3] at hm ⊢
  have hk := (loadHistory_step cs _ hs.1.inv).keep f1 m (hs.2.1 m hm).1
  obtain ⟨g1, pyx', g2⟩ := hc'
  obtain ⟨n, rfl⟩ : ∃ n, fuel' = n + 1 := ⟨fuel' - 1, by omega⟩
  generalize loadHistory env cs (loadFile env fuel f1 pyx c.options st).2 = S at hk ⊢
  unfold loadSchema
  rw [g2, g1]
  simp only
  unfold loadFile
  rw [hk]

/-- C42: different files give different modules. -/
theorem C42_distinct {annotatePath : String} {st : LoaderState} (hst : Reachable env annotatePath st)
    {fuel fuel' : Nat} {c c' : LoadCall} {m m' : Mod} {f g : String} (hm : (loadSchema env fuel c st).1 = .ok m)
    (cs : List (Nat × LoadCall))
    (hm' : (loadSchema env fuel' c' (loadHistory env cs (loadSchema env fuel c st).2)).1 = .ok m')
    (hc : Names (env := env) c f) (hc' : Names (env := env) c' g) (hne : f ≠ g) : m.ident ≠ m'.ident := by
  have hi := reachable_inv hst
  obtain ⟨f1, pyx, e1, e2, e3⟩ := load_ok_names hm
  obtain rfl : f1 = f := by have := hc.1; rw [e1] at this; injection this
  have hs := loadFile_spec fuel f1 pyx c.options st hi
  rw [e3] at hm hm'
  have hst2 := loadHistory_step cs _ hs.1.inv
  obtain ⟨g1, pyx', e1', e2', e3'⟩ := load_ok_names hm'
  obtain rfl : g1 = g := by have := hc'.1; rw [e1'] at this; injection this
  have hs' := loadFile_spec fuel' g1 pyx' c'.options _ hst2.inv
  rw [e3'] at hm'
  have h1 := hs'.1.keep f1 m (hst2.keep f1 m (hs.2.1 m hm).1)
  have h2 := (hs'.2.1 m' hm').1
  intro he
  exact hne (hs'.1.inv.inj f1 g1 m m' h1 h2 he)

/-- C42: the options and the pyx mode of a module are those of the call that compiled
it; later calls with other options get the same module. -/
theorem C42_first_options {annotatePath : String} {st : LoaderState} (hst : Reachable env annotatePath st)
    {fuel : Nat} {c : LoadCall} {m : Mod} {f : String} {pyx : Bool} (hm : (loadSchema env fuel c st).1 = .ok m)
    (hc : env.getFilename c.modname c.importname c.filename = .ok f) (hp : env.getpyx c.pyx = .ok pyx)
    (hnew : st.modules.lookup f = none) : m.file = f ∧ m.options = c.options ∧ m.pyx = pyx := by
  have hi := reachable_inv hst
  obtain ⟨f1, pyx', e1, e2, e3⟩ := load_ok_names hm
  obtain rfl : f1 = f := by rw [e1] at hc; injection hc
  obtain rfl : pyx' = pyx := by rw [e2] at hp; injection hp
  have hs := loadFile_spec fuel f1 pyx' c.options st hi
  rw [e3] at hm
  obtain ⟨h1, h2⟩ := hs.2.1 m hm
  exact ⟨(hs.1.inv.file f1 m h1).1, (h2 hnew).2.2, (h2 hnew).2.1⟩

/-- C42: a call that fails leaves the file out of the cache, so that it can be
retried. -/
theorem C42_failure_not_cached {annotatePath : String} {st : LoaderState} (hst : Reachable env annotatePath st)
    {fuel : Nat} {c : LoadCall} {e : PyErr} {f : String} (hm : (loadSchema env fuel c st).1 = .error e)
    (hc : env.getFilename c.modname c.importname c.filename = .ok f) (hn : st.modules.lookup f = none) :
    (loadSchema env fuel c st).2.modules.lookup f = none := by
  have hi := reachable_inv hst
  unfold loadSchema at hm ⊢
  cases hp : env.getpyx c.pyx with
  | error e => exact hn
  | ok pyx =>
    rw [hp, hc] at hm
    rw [hc]
    exact ((loadFile_spec fuel f pyx c.options st hi).2.2 e hm).2 hn

/-- C42: a schema that imports itself, directly or through other schemas (the schema
language allows it), can never be loaded: every call fails. -/
theorem C42_cyclic_imports_fail {annotatePath : String} {st : LoaderState} (hst : Reachable env annotatePath st)
    (fuel : Nat) (c : LoadCall) (f : String) (hc : env.getFilename c.modname c.importname c.filename = .ok f)
    (hcyc : OnCycle env [annotatePath] f) : ∃ e, (loadSchema env fuel c st).1 = .error e := by
  have hi := reachable_inv hst
  cases h : (loadSchema env fuel c st).1 with
  | error e => exact ⟨e, rfl⟩
  | ok m =>
    obtain ⟨f1, pyx, e1, e2, e3⟩ := load_ok_names h
    obtain rfl : f1 = f := by rw [e1] at hc; injection hc
    have hs := loadFile_spec fuel f1 pyx c.options st hi
    rw [e3] at h
    have := (hs.2.1 m h).1
    rw [hs.1.inv.acyclic f1 hcyc] at this
    cases this

theorem loadFile_total {rank : String → Nat} (hsrc : ∀ f, ∃ is, env.source f = .ok is ∧
      ∀ i ∈ is, ∃ g, env.findImport i = .ok g ∧ rank g < rank f) :
    ∀ (fuel : Nat) (f : String) (pyx : Bool) (options : Option Nat) (st : LoaderState), rank f < fuel →
      ∃ m, (loadFile env fuel f pyx options st).1 = .ok m := by
  intro fuel
  induction fuel with
  | zero => intro f pyx options st h; omega
  | succ fuel ih =>
    intro f pyx options st h
    unfold loadFile
    cases st.modules.lookup f with
    | some m => exact ⟨m, rfl⟩
    | none =>
      obtain ⟨is, e, his⟩ := hsrc f
      rw [e]
      have run : ∀ (js : List String), (∀ j ∈ js, j ∈ is) → ∀ st,
          (runImports (fun i st => match env.findImport i with
              | .error e => (.error e, st)
              | .ok f => loadFile env fuel f pyx none st) js st).1 = .ok () := by
        intro js
        induction js with
        | nil => intro _ st; rfl
        | cons j js ihj =>
          intro hj st
          obtain ⟨g, hg, hr⟩ := his j (hj j (by simp))
          obtain ⟨m, hm⟩ := ih g pyx none st (by omega)
          unfold runImports
          rw [hg]
          simp only
          cases hl : loadFile env fuel g pyx none st with
          | mk r st1 =>
            rw [hl] at hm
            have hm : r = .ok m := hm
            subst hm
            exact ihj (fun x hx => hj x (List.mem_cons_of_mem _ hx)) st1
      have := run is (fun _ h => h) { st with next := st.next + 1 }
      simp only
      generalize hrr : runImports (fun i st => match env.findImport i with
              | .error e => (.error e, st)
              | .ok f => loadFile env fuel f pyx none st) is { st with next := st.next + 1 } = rr at this
      obtain ⟨r, st1⟩ := rr
      have this : r = .ok () := this
      subst this
      exact ⟨_, rfl⟩

/-- C42: if the files compile and the imports are found and are not cyclic (there is a
rank that decreases along imports), then loading succeeds when the recursion limit
exceeds the rank. -/
theorem C42_acyclic_loads {rank : String → Nat} (hsrc : ∀ f, ∃ is, env.source f = .ok is ∧
      ∀ i ∈ is, ∃ g, env.findImport i = .ok g ∧ rank g < rank f) (fuel : Nat) (c : LoadCall) (f : String)
    (st : LoaderState) (hc : Names (env := env) c f) (h : rank f < fuel) :
    ∃ m, (loadSchema env fuel c st).1 = .ok m := by
  obtain ⟨h1, pyx, h2⟩ := hc
  unfold loadSchema
  rw [h2, h1]
  exact loadFile_total hsrc fuel f pyx c.options st h

/-- C42: exactly one of modname, importname and filename must be given. -/
theorem C42_exactly_one (a b c : Option String) :
    (¬ (([a, b, c].filter Option.isSome).length = 1)) → env.getFilename a b c = .error .valueError := by
  cases a <;> cases b <;> cases c <;> simp [LoaderEnv.getFilename]

/-- C42: how each kind of argument names a file: modname is searched in the path with dots
turned into slashes, importname must be absolute (else ValueError) and is searched in the path,
filename is used as it is. -/
theorem C42_naming (m i f : String) :
    env.getFilename (some m) none none = env.findFile ((m.map fun c => if c = '.' then '/' else c) ++ ".capnp") ∧
    (i.startsWith "/" = true → env.getFilename none (some i) none = env.findFile i) ∧
    (i.startsWith "/" = false → env.getFilename none (some i) none = .error .valueError) ∧
    env.getFilename none none (some f) = .ok (env.norm f) := by
  refine ⟨rfl, fun h => ?_, fun h => ?_, rfl⟩
  · show env.findImport i = _
    unfold LoaderEnv.findImport
    rw [if_pos h]
  · show env.findImport i = _
    unfold LoaderEnv.findImport
    rw [if_neg (by simp [h])]

/-- C42: the search finds the first directory of the path with that file. -/
theorem C42_search (importname f : String) : env.findFile importname = .ok f ↔
    ∃ ds d ds', env.dirs = ds ++ d :: ds' ∧ f = env.join d importname ∧ env.isFile (env.join d importname) = true ∧
      ∀ x ∈ ds, env.isFile (env.join x importname) = false := by
  unfold LoaderEnv.findFile
  constructor
  · intro h
    cases hf : env.dirs.find? (fun d => env.isFile (env.join d importname)) with
    | none => rw [hf] at h; cases h
    | some d =>
      rw [hf] at h
      injection h with h
      obtain ⟨hp, ds, ds', he, hn⟩ := List.find?_eq_some_iff_append.mp hf
      exact ⟨ds, d, ds', he, h.symm, hp, fun x hx => by simpa using hn x hx⟩
  · rintro ⟨ds, d, ds', he, rfl, hp, hn⟩
    have : env.dirs.find? (fun d => env.isFile (env.join d importname)) = some d :=
      List.find?_eq_some_iff_append.mpr ⟨hp, ds, ds', he, fun x hx => by simp [hn x hx]⟩
    rw [this]

/-! ## A concrete compiler: `a` imports `b`; `c` and `d` import each other -/

def exEnv : LoaderEnv where
  dirs := ["/p"]
  join d i := d ++ i
  norm f := f
  isFile _ := true
  source f := if f = "/p/a" then .ok ["/b"] else if f = "/p/c" then .ok ["/d"] else if f = "/p/d" then .ok ["/c"] else .ok []
  pyxAvailable := true

example : (loadSchema exEnv 10 { importname := some "/a", options := some 5 } (LoaderState.init "/annotate")).1 =
    .ok ⟨1, "/p/a", true, some 5⟩ := by decide +kernel

/-- `b` was compiled on the way, without the options given for `a`. -/
example : (loadSchema exEnv 10 { importname := some "/b", options := some 5 }
    (loadSchema exEnv 10 { importname := some "/a", options := some 5 } (LoaderState.init "/annotate")).2).1 =
    .ok ⟨2, "/p/b", true, none⟩ := by decide +kernel

example : OnCycle exEnv ["/annotate"] "/p/c" := by
  have h1 : Dep exEnv ["/annotate"] "/p/c" "/p/d" :=
    ⟨by decide, ["/d"], by decide +kernel, "/d", by simp, by decide +kernel⟩
  have h2 : Dep exEnv ["/annotate"] "/p/d" "/p/c" :=
    ⟨by decide, ["/c"], by decide +kernel, "/c", by simp, by decide +kernel⟩
  exact .tail (.single h1) h2

example : Reachable exEnv "/annotate" (LoaderState.init "/annotate") := ⟨[], rfl⟩

/-- The same file under two names (a symbolic link) is two files for the cache. -/
theorem C42_links_are_different (f g : String) (h : env.norm f ≠ env.norm g) (fuel : Nat) (m m' : Mod)
    {annotatePath : String} {st : LoaderState} (hst : Reachable env annotatePath st)
    (hm : (loadSchema env fuel { filename := some f } st).1 = .ok m)
    (hm' : (loadSchema env fuel { filename := some g } (loadSchema env fuel { filename := some f } st).2).1 = .ok m') :
    m.ident ≠ m'.ident :=
  C42_distinct hst hm [] hm' ⟨rfl, _, rfl⟩ ⟨rfl, _, rfl⟩ h

end Capnpy.Props
