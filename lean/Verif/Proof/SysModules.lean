import Verif.Spec.SysModules

/-! # `sys.modules` in pyx mode: lemmas -/

namespace Capnpy

open Capnpy.Spec

theorem tmp_ne_ext (n : String) : tmpName n ≠ extName n := by
  intro h
  have := congrArg String.length h
  simp only [tmpName, extName, String.length_append] at this
  have h1 : "_tmp".length = 4 := by decide
  have h2 : "capnpy.ext.".length = 11 := by decide
  omega

theorem tmp_ne_pkg (n : String) : tmpName n ≠ "capnpy.ext" := by
  intro h
  have := congrArg (fun s => s.toList.getLast?) h
  simp only [tmpName, String.toList_append, List.getLast?_append] at this
  revert this
  have h1 : "_tmp".toList.getLast? = some 'p' := by decide
  have h2 : "capnpy.ext".toList.getLast? = some 't' := by decide
  rw [h1, h2]
  intro h
  simp at h

theorem ext_ne_pkg (n : String) : extName n ≠ "capnpy.ext" := by
  intro h
  have := congrArg String.length h
  simp only [extName, String.length_append] at this
  have h1 : "capnpy.ext".length = 10 := by decide
  have h2 : "capnpy.ext.".length = 11 := by decide
  omega

/-- What a successful run does. -/
structure SysStep (E : SysEnv) (R : Nat → String → Prop) (st st' : SysState) : Prop where
  keep : ∀ c f m, (st.modules c).lookup f = some m → (st'.modules c).lookup f = some m
  new : ∀ c f, NewlyLoaded st st' c f → R c f
  gone : ∀ k, (∃ c f, NewlyLoaded st st' c f ∧ OwnName E f k) → st'.sys k = none
  same : ∀ k, k ≠ "capnpy.ext" → (¬ ∃ c f, NewlyLoaded st st' c f ∧ OwnName E f k) → st'.sys k = st.sys k
  pkg : ∀ m, st.sys "capnpy.ext" = some m → st'.sys "capnpy.ext" = some m

variable {E : SysEnv}

theorem SysStep.refl {R} (st : SysState) : SysStep E R st st :=
  ⟨fun _ _ _ h => h, fun _ _ h => absurd h.2 h.1, fun _ ⟨_, _, h, _⟩ => absurd h.2 h.1, fun _ _ _ => rfl, fun _ h => h⟩

theorem SysStep.loaded {R} {st st' : SysState} (h : SysStep E R st st') {c f} (hl : IsLoaded st c f) : IsLoaded st' c f := by
  unfold IsLoaded at *
  obtain ⟨m, hm⟩ := Option.isSome_iff_exists.mp hl
  rw [h.keep c f m hm]; rfl

theorem SysStep.mono {R S : Nat → String → Prop} {st st' : SysState} (h : SysStep E R st st') (hRS : ∀ c f, R c f → S c f) :
    SysStep E S st st' := ⟨h.keep, fun c f hn => hRS c f (h.new c f hn), h.gone, h.same, h.pkg⟩

theorem SysStep.trans {R} {a b c : SysState} (h1 : SysStep E R a b) (h2 : SysStep E R b c) : SysStep E R a c := by
  have hsplit : ∀ x f, NewlyLoaded a c x f → NewlyLoaded a b x f ∨ NewlyLoaded b c x f := by
    intro x f h
    by_cases hb : IsLoaded b x f
    · exact .inl ⟨h.1, hb⟩
    · exact .inr ⟨hb, h.2⟩
  have hl : ∀ x f, NewlyLoaded a b x f → NewlyLoaded a c x f := fun x f h => ⟨h.1, h2.loaded h.2⟩
  have hr : ∀ x f, NewlyLoaded b c x f → NewlyLoaded a c x f := fun x f h => ⟨fun h' => h.1 (h1.loaded h'), h.2⟩
  refine ⟨fun x f m h => h2.keep x f m (h1.keep x f m h), ?_, ?_, ?_, fun m h => h2.pkg m (h1.pkg m h)⟩
  · intro x f h
    rcases hsplit x f h with h | h
    · exact h1.new x f h
    · exact h2.new x f h
  · rintro k ⟨x, f, h, hk⟩
    by_cases hc : ∃ x f, NewlyLoaded b c x f ∧ OwnName E f k
    · exact h2.gone k hc
    · have hab : NewlyLoaded a b x f := by
        rcases hsplit x f h with h | h
        · exact h
        · exact absurd ⟨x, f, h, hk⟩ hc
      have hk' : k ≠ "capnpy.ext" := by
        rcases hk with rfl | rfl
        · exact tmp_ne_pkg _
        · exact ext_ne_pkg _
      rw [h2.same k hk' hc]
      exact h1.gone k ⟨x, f, hab, hk⟩
  · intro k hk hn
    rw [h2.same k hk fun ⟨x, f, h, ho⟩ => hn ⟨x, f, hr x f h, ho⟩]
    exact h1.same k hk fun ⟨x, f, h, ho⟩ => hn ⟨x, f, hl x f h, ho⟩

theorem runSysImports_ok {load : String → SysState → Py Mod × SysState} {P : SysState → SysState → Prop}
    (hrefl : ∀ st, P st st) (htrans : ∀ a b c, P a b → P b c → P a c) :
    ∀ (is : List String) (st st' : SysState),
      (∀ i ∈ is, ∀ st m st', load i st = (.ok m, st') → P st st') →
      runSysImports load is st = (.ok (), st') → P st st' := by
  intro is
  induction is with
  | nil =>
    intro st st' _ h
    unfold runSysImports at h
    injection h with _ h
    subst h
    exact hrefl st
  | cons i is ih =>
    intro st st' hl h
    unfold runSysImports at h
    cases hi : load i st with
    | mk r st1 =>
      rw [hi] at h
      cases r with
      | error e => cases h
      | ok m =>
        exact htrans _ _ _ (hl i (by simp) st m st1 hi) (ih st1 st' (fun j hj => hl j (by simp [hj])) h)

/-- A property of the states that holds whatever happens. -/
theorem runSysImports_all {load : String → SysState → Py Mod × SysState} {P : SysState → SysState → Prop}
    (hrefl : ∀ st, P st st) (htrans : ∀ a b c, P a b → P b c → P a c) :
    ∀ (is : List String) (st : SysState),
      (∀ i ∈ is, ∀ st, P st (load i st).2) → P st (runSysImports load is st).2 := by
  intro is
  induction is with
  | nil => intro st _; exact hrefl st
  | cons i is ih =>
    intro st hl
    unfold runSysImports
    have h1 := hl i (by simp) st
    cases hi : load i st with
    | mk r st1 =>
      rw [hi] at h1
      cases r with
      | error e => exact h1
      | ok m => exact htrans _ _ _ h1 (ih st1 (fun j hj => hl j (by simp [hj])))

theorem runModule_ok {load : String → SysState → Py Mod × SysState} {file is st st'}
    (h : runModule E load file is st = (.ok (), st')) : runSysImports load is st = (.ok (), st') ∧ E.body file = .ok () := by
  unfold runModule at h
  cases hr : runSysImports load is st with
  | mk r st1 =>
    rw [hr] at h
    cases r with
    | error e => cases h
    | ok u =>
      injection h with h1 h2
      subst h2
      exact ⟨rfl, h1⟩

theorem runModule_state {load : String → SysState → Py Mod × SysState} {file is st} :
    (runModule E load file is st).2 = (runSysImports load is st).2 := by
  unfold runModule
  cases hr : runSysImports load is st with
  | mk r st1 => cases r <;> rfl

/-- The state in which the generated module starts to run. -/
def pyxStart (E : SysEnv) (c : Nat) (file : String) (st : SysState) : SysState :=
  { modules := st.modules, next := st.next + 1,
    sys := ((st.importExt E).sys.set (tmpName (E.modname file)) (.tmp c file)).set (extName (E.modname file)) (.ext st.next) }

theorem importExt_modules (st : SysState) : (st.importExt E).modules = st.modules ∧ (st.importExt E).next = st.next := by
  unfold SysState.importExt
  cases st.sys "capnpy.ext" <;> exact ⟨rfl, rfl⟩

theorem importExt_sys (st : SysState) {k : String} (hk : k ≠ "capnpy.ext") : (st.importExt E).sys k = st.sys k := by
  unfold SysState.importExt
  cases st.sys "capnpy.ext" with
  | some m => rfl
  | none => exact if_neg hk

theorem importExt_pkg (st : SysState) {m} (h : st.sys "capnpy.ext" = some m) : (st.importExt E).sys "capnpy.ext" = some m := by
  unfold SysState.importExt
  rw [h]
  exact h

theorem pyxStart_ext (c : Nat) (file : String) (st : SysState) :
    (pyxStart E c file st).sys (extName (E.modname file)) = some (.ext st.next) := if_pos rfl

theorem pyxStart_tmp (c : Nat) (file : String) (st : SysState) :
    (pyxStart E c file st).sys (tmpName (E.modname file)) = some (.tmp c file) := by
  refine (if_neg (tmp_ne_ext _)).trans ?_
  exact if_pos rfl

theorem pyxStart_sys (c : Nat) (file : String) (st : SysState) {k : String} (h1 : k ≠ tmpName (E.modname file))
    (h2 : k ≠ extName (E.modname file)) : (pyxStart E c file st).sys k = (st.importExt E).sys k := by
  refine (if_neg h2).trans ?_
  exact if_neg h1

/-- `_compile_pyx`, step by step. -/
theorem compileFile_pyx (load : Nat → String → SysState → Py Mod × SysState) (c : Nat) (file : String)
    (imports : List String) (options : Option Nat) (st : SysState) :
    compileFile E load c file imports true options st =
      match runModule E (load c) file imports (pyxStart E c file st) with
      | (.error e, st') => (.error e, st')
      | (.ok _, st') =>
        match cleanUp st' (E.modname file) with
        | (.error e, st'') => (.error e, st'')
        | (.ok _, st'') => (.ok ⟨st.next, file, true, options⟩, st'') := by
  have hp : pyxStart E c file st = ⟨(st.importExt E).modules, (st.importExt E).next + 1,
      ((st.importExt E).sys.set (tmpName (E.modname file)) (.tmp c file)).set (extName (E.modname file))
        (.ext (st.importExt E).next)⟩ := by
    unfold pyxStart
    rw [(importExt_modules st).1, (importExt_modules st).2]
  have hf : (pyxStart E c file st).fromTmp (tmpName (E.modname file)) = .ok (c, file) := by
    unfold SysState.fromTmp
    rw [pyxStart_tmp]
  unfold compileFile
  rw [if_pos rfl]
  dsimp only
  rw [← hp, hf, (importExt_modules st).2]
  rfl

theorem cleanUp_ok {st st' : SysState} {n : String} (h : cleanUp st n = (.ok (), st')) :
    st.sys (extName n) ≠ none ∧ st.sys (tmpName n) ≠ none ∧ st' = { st with sys := (st.sys.pop (extName n)).pop (tmpName n) } := by
  unfold cleanUp SysModules.del at h
  cases h1 : st.sys (extName n) with
  | none => rw [h1] at h; cases h
  | some a =>
    rw [h1] at h
    dsimp only at h
    have hp : st.sys.pop (extName n) (tmpName n) = st.sys (tmpName n) := if_neg (tmp_ne_ext n)
    rw [hp] at h
    cases h2 : st.sys (tmpName n) with
    | none => rw [h2] at h; cases h
    | some b =>
      rw [h2] at h
      injection h with _ h
      exact ⟨by simp, by simp, h.symm⟩

theorem cleanUp_some {st : SysState} {n : String} (h1 : st.sys (extName n) ≠ none) (h2 : st.sys (tmpName n) ≠ none) :
    cleanUp st n = (.ok (), { st with sys := (st.sys.pop (extName n)).pop (tmpName n) }) := by
  unfold cleanUp SysModules.del
  obtain ⟨a, h1⟩ := Option.ne_none_iff_exists'.mp h1
  obtain ⟨b, h2⟩ := Option.ne_none_iff_exists'.mp h2
  have hp : st.sys.pop (extName n) (tmpName n) = st.sys (tmpName n) := if_neg (tmp_ne_ext n)
  rw [h1]
  dsimp only
  rw [hp, h2]

theorem sysLoad_cached {fuel pyx c file options} {st : SysState} {m : Mod} (h : (st.modules c).lookup file = some m) :
    sysLoad E (fuel + 1) pyx c file options st = (.ok m, st) := by
  unfold sysLoad
  rw [h]

/-- The imports of a generated module. -/
def sysNested (E : SysEnv) (fuel : Nat) (pyx : Bool) (c : Nat) (i : String) (st : SysState) : Py Mod × SysState :=
  match (E.env c).findImport i with
  | .error e => (.error e, st)
  | .ok g => sysLoad E fuel pyx c g none st

theorem sysLoad_new {fuel pyx c file options} {st : SysState} {is : List String} (h : (st.modules c).lookup file = none)
    (hs : (E.env c).source file = .ok is) :
    sysLoad E (fuel + 1) pyx c file options st =
      match compileFile E (sysNested E fuel pyx) c file is pyx options st with
      | (.error e, st) => (.error e, st)
      | (.ok m, st) => (.ok m, st.cache c file m) := by
  show sysLoad E (fuel + 1) pyx c file options st = _
  rw [sysLoad, h, hs]
  rfl

theorem lookup_cache (st : SysState) (c x : Nat) (f g : String) (m : Mod) :
    ((st.cache c f m).modules x).lookup g = if x = c ∧ g = f then some m else (st.modules x).lookup g := by
  show (if x = c then (f, m) :: st.modules c else st.modules x).lookup g = _
  by_cases hx : x = c
  · subst hx
    rw [if_pos rfl, List.lookup_cons]
    by_cases hg : g = f
    · subst hg; simp
    · rw [show (g == f) = false by simpa using hg, if_neg (by simp [hg])]
  · rw [if_neg hx, if_neg (by simp [hx])]

/-- Reachable by imports, for one compiler. -/
def ImportedBy (E : SysEnv) (c : Nat) (f : String) (x : Nat) (g : String) : Prop :=
  x = c ∧ Relation.ReflTransGen (Imports E c) f g

theorem not_loaded {st : SysState} {c f} : ¬ IsLoaded st c f ↔ (st.modules c).lookup f = none := by
  unfold IsLoaded
  cases (st.modules c).lookup f <;> simp

/-- In a successful load: what holds when the module has run, before the clean up. -/
theorem sysLoad_ok (fuel : Nat) : ∀ (c : Nat) (file : String) (options : Option Nat) (st st' : SysState) (m : Mod),
    sysLoad E fuel true c file options st = (.ok m, st') →
      SysStep E (ImportedBy E c file) st st' ∧ (st'.modules c).lookup file = some m ∧
      (¬ IsLoaded st c file → st'.sys "capnpy.ext" ≠ none ∧
        (∀ x g, NewlyLoaded st st' x g → g ≠ file → ¬ Clash E file g)) := by
  induction fuel with
  | zero => intro c file options st st' m h; cases h
  | succ fuel ih =>
    intro c file options st st' m h
    cases hl : (st.modules c).lookup file with
    | some m' =>
      rw [sysLoad_cached hl] at h
      injection h with h1 h2
      injection h1 with h1
      subst h1; subst h2
      refine ⟨.refl _, hl, fun hn => ?_⟩
      rw [not_loaded, hl] at hn
      cases hn
    | none =>
      cases hs : (E.env c).source file with
      | error e =>
        rw [sysLoad, hl, hs] at h
        cases h
      | ok is =>
        rw [sysLoad_new hl hs, compileFile_pyx] at h
        cases hr : runModule E (sysNested E fuel true c) file is (pyxStart E c file st) with
        | mk r st3 =>
          rw [hr] at h
          cases r with
          | error e => cases h
          | ok u =>
            dsimp only at h
            cases hc : cleanUp st3 (E.modname file) with
            | mk r4 st4 =>
              rw [hc] at h
              cases r4 with
              | error e => cases h
              | ok u4 =>
                injection h with h1 h2
                injection h1 with h1
                obtain ⟨hrun, hbody⟩ := runModule_ok hr
                obtain ⟨he, ht, hst4⟩ := cleanUp_ok hc
                have hstep : SysStep E (ImportedBy E c file) (pyxStart E c file st) st3 := by
                  refine runSysImports_ok (P := SysStep E (ImportedBy E c file)) .refl (fun _ _ _ h1 h2 => h1.trans h2)
                    is _ _ ?_ hrun
                  intro i hi a m' b hab
                  unfold sysNested at hab
                  cases hf : (E.env c).findImport i with
                  | error e => rw [hf] at hab; cases hab
                  | ok g =>
                    rw [hf] at hab
                    refine (ih c g none a b m' hab).1.mono ?_
                    rintro x y ⟨rfl, hy⟩
                    exact ⟨rfl, .head ⟨is, hs, i, hi, hf⟩ hy⟩
                have hnew : ∀ x g, NewlyLoaded (pyxStart E c file st) st3 x g → ∀ k, OwnName E g k →
                    k ≠ extName (E.modname file) ∧ k ≠ tmpName (E.modname file) := by
                  intro x g hn k hk
                  have := hstep.gone k ⟨x, g, hn, hk⟩
                  constructor
                  · rintro rfl; exact he this
                  · rintro rfl; exact ht this
                have hld : ∀ x g, IsLoaded st' x g ↔ (x = c ∧ g = file) ∨ IsLoaded st3 x g := by
                  intro x g
                  unfold IsLoaded
                  rw [← h2, lookup_cache]
                  by_cases hx : x = c ∧ g = file
                  · simp [hx]
                  · rw [if_neg hx, hst4]
                    simp only [hx, false_or]
                have hns : ∀ x g, NewlyLoaded st st' x g ↔ (x = c ∧ g = file) ∨ NewlyLoaded (pyxStart E c file st) st3 x g := by
                  intro x g
                  show (¬ IsLoaded st x g ∧ IsLoaded st' x g) ↔ _ ∨ (¬ IsLoaded st x g ∧ IsLoaded st3 x g)
                  rw [hld]
                  have hn : ¬ IsLoaded st c file := not_loaded.mpr hl
                  constructor
                  · rintro ⟨a, b | b⟩
                    · exact .inl b
                    · exact .inr ⟨a, b⟩
                  · rintro (⟨rfl, rfl⟩ | ⟨a, b⟩)
                    · exact ⟨hn, .inl ⟨rfl, rfl⟩⟩
                    · exact ⟨a, .inr b⟩
                have hsys : st'.sys = (st3.sys.pop (extName (E.modname file))).pop (tmpName (E.modname file)) := by
                  rw [← h2, hst4]; rfl
                have hgone : ∀ k, OwnName E file k → st'.sys k = none := by
                  intro k hk
                  rw [hsys]
                  rcases hk with rfl | rfl
                  · exact if_pos rfl
                  · refine (if_neg (Ne.symm (tmp_ne_ext _))).trans ?_
                    exact if_pos rfl
                have hother : ∀ k, ¬ OwnName E file k → st'.sys k = st3.sys k := by
                  intro k hk
                  rw [hsys]
                  refine (if_neg fun h => hk (.inl h)).trans ?_
                  exact if_neg fun h => hk (.inr h)
                have hstart : ∀ k, ¬ OwnName E file k → (pyxStart E c file st).sys k = (st.importExt E).sys k :=
                  fun k hk => pyxStart_sys c file st (fun h => hk (.inl h)) (fun h => hk (.inr h))
                have hpk : ¬ OwnName E file "capnpy.ext" := by
                  rintro (h | h)
                  · exact tmp_ne_pkg _ h.symm
                  · exact ext_ne_pkg _ h.symm
                refine ⟨⟨?_, ?_, ?_, ?_, ?_⟩, ?_, fun _ => ⟨?_, ?_⟩⟩
                · intro x g m' hm'
                  rw [← h2, lookup_cache, if_neg]
                  · rw [hst4]
                    exact hstep.keep x g m' hm'
                  · rintro ⟨rfl, rfl⟩
                    rw [hl] at hm'; cases hm'
                · intro x g hn
                  rcases (hns x g).mp hn with ⟨rfl, rfl⟩ | hn
                  · exact ⟨rfl, .refl⟩
                  · exact hstep.new x g hn
                · rintro k ⟨x, g, hn, hk⟩
                  rcases (hns x g).mp hn with ⟨rfl, rfl⟩ | hn
                  · exact hgone k hk
                  · have := hnew x g hn k hk
                    rw [hother k (by rintro (h | h); exacts [this.2 h, this.1 h])]
                    exact hstep.gone k ⟨x, g, hn, hk⟩
                · intro k hk hn
                  have ho : ¬ OwnName E file k := fun ho => hn ⟨c, file, (hns c file).mpr (.inl ⟨rfl, rfl⟩), ho⟩
                  rw [hother k ho, hstep.same k hk fun ⟨x, g, hg, hk⟩ => hn ⟨x, g, (hns x g).mpr (.inr hg), hk⟩,
                    hstart k ho, importExt_sys st hk]
                · intro m' hm'
                  rw [hother _ hpk]
                  apply hstep.pkg
                  rw [hstart _ hpk]
                  exact importExt_pkg st hm'
                · rw [← h2, lookup_cache, if_pos ⟨rfl, rfl⟩, h1]
                · rw [hother _ hpk]
                  have : ∃ p, (st.importExt E).sys "capnpy.ext" = some p := by
                    unfold SysState.importExt
                    cases hh : st.sys "capnpy.ext" with
                    | some p => exact ⟨p, hh⟩
                    | none =>
                      refine ⟨E.extPackage, ?_⟩
                      show st.sys.set "capnpy.ext" E.extPackage "capnpy.ext" = _
                      exact if_pos rfl
                  obtain ⟨p, hp⟩ := this
                  rw [hstep.pkg p (by rw [hstart _ hpk]; exact hp)]
                  simp
                · rintro x g hn hne ⟨k, hk1, hk2⟩
                  rcases (hns x g).mp hn with ⟨rfl, rfl⟩ | hn
                  · exact hne rfl
                  · have := hnew x g hn k hk2
                    rcases hk1 with h | h
                    · exact this.2 h
                    · exact this.1 h

/-! ## All outcomes -/

/-- Nothing that was loaded is lost, and other compilers are not touched. -/
def SysKeep (c : Nat) (a b : SysState) : Prop :=
  (∀ x f m, (a.modules x).lookup f = some m → (b.modules x).lookup f = some m) ∧ ∀ x, x ≠ c → b.modules x = a.modules x

theorem SysKeep.refl (c : Nat) (a : SysState) : SysKeep c a a := ⟨fun _ _ _ h => h, fun _ _ => rfl⟩

theorem SysKeep.trans {c : Nat} {x y z : SysState} (h1 : SysKeep c x y) (h2 : SysKeep c y z) : SysKeep c x z :=
  ⟨fun a f m h => h2.1 a f m (h1.1 a f m h), fun a ha => (h2.2 a ha).trans (h1.2 a ha)⟩

theorem SysKeep.loaded {c : Nat} {a b : SysState} (h : SysKeep c a b) {x f} (hl : IsLoaded a x f) : IsLoaded b x f := by
  unfold IsLoaded at *
  obtain ⟨m, hm⟩ := Option.isSome_iff_exists.mp hl
  rw [h.1 x f m hm]; rfl

theorem SysKeep.of_modules {c : Nat} {a b : SysState} (h : b.modules = a.modules) : SysKeep c a b := by
  unfold SysKeep
  rw [h]
  exact SysKeep.refl c a

theorem cleanUp_modules (st : SysState) (n : String) :
    (cleanUp st n).2.modules = st.modules ∧ (cleanUp st n).2.next = st.next := by
  unfold cleanUp
  cases st.sys.del (extName n) with
  | error e => exact ⟨rfl, rfl⟩
  | ok s =>
    dsimp only
    cases s.del (tmpName n) <;> exact ⟨rfl, rfl⟩

/-- `_compile_py`, step by step. -/
theorem compileFile_py (load : Nat → String → SysState → Py Mod × SysState) (c : Nat) (file : String)
    (imports : List String) (options : Option Nat) (st : SysState) :
    compileFile E load c file imports false options st =
      match runModule E (load c) file imports { st with next := st.next + 1 } with
      | (.error e, st') => (.error e, st')
      | (.ok _, st') => (.ok ⟨st.next, file, false, options⟩, st') := rfl

theorem sysLoad_keep (fuel : Nat) : ∀ (pyx : Bool) (c : Nat) (file : String) (options : Option Nat) (st : SysState),
    SysKeep c st (sysLoad E fuel pyx c file options st).2 := by
  induction fuel with
  | zero => intro pyx c file options st; exact .refl _ _
  | succ fuel ih =>
    intro pyx c file options st
    cases hl : (st.modules c).lookup file with
    | some m => rw [sysLoad_cached hl]; exact .refl _ _
    | none =>
      cases hs : (E.env c).source file with
      | error e => rw [sysLoad, hl, hs]; exact .refl _ _
      | ok is =>
        rw [sysLoad_new hl hs]
        have hrun : ∀ a, SysKeep c a (runModule E (sysNested E fuel pyx c) file is a).2 := by
          intro a
          rw [runModule_state]
          refine runSysImports_all (P := SysKeep c) (.refl c) (fun _ _ _ => .trans) is a ?_
          intro i _ b
          unfold sysNested
          cases (E.env c).findImport i with
          | error e => exact .refl _ _
          | ok g => exact ih pyx c g none b
        have hcache : ∀ (b : SysState) m, SysKeep c st b → SysKeep c st (b.cache c file m) := by
          intro b m hb
          refine ⟨fun x f m' h => ?_, fun x hx => ?_⟩
          · rw [lookup_cache, if_neg]
            · exact hb.1 x f m' h
            · rintro ⟨rfl, rfl⟩
              rw [hl] at h; cases h
          · rw [← hb.2 x hx]
            exact if_neg hx
        cases pyx with
        | true =>
          rw [compileFile_pyx]
          have h1 := hrun (pyxStart E c file st)
          have h0 : SysKeep c st (pyxStart E c file st) := .of_modules rfl
          generalize runModule E (sysNested E fuel true c) file is (pyxStart E c file st) = rr at h1
          obtain ⟨r, st3⟩ := rr
          cases r with
          | error e => exact h0.trans h1
          | ok u =>
            dsimp only
            have h2 : SysKeep c st3 (cleanUp st3 (E.modname file)).2 := .of_modules (cleanUp_modules _ _).1
            generalize cleanUp st3 (E.modname file) = cc at h2
            obtain ⟨r4, st4⟩ := cc
            cases r4 with
            | error e => exact (h0.trans h1).trans h2
            | ok u => exact hcache _ _ ((h0.trans h1).trans h2)
        | false =>
          rw [compileFile_py]
          have h1 := hrun { st with next := st.next + 1 }
          have h0 : SysKeep c st { st with next := st.next + 1 } := .of_modules rfl
          generalize runModule E (sysNested E fuel false c) file is { st with next := st.next + 1 } = rr at h1
          obtain ⟨r, st3⟩ := rr
          cases r with
          | error e => exact h0.trans h1
          | ok u => exact hcache _ _ (h0.trans h1)

/-- In pure Python mode `sys.modules` is not touched. -/
theorem sysLoad_py (fuel : Nat) : ∀ (c : Nat) (file : String) (options : Option Nat) (st : SysState),
    (sysLoad E fuel false c file options st).2.sys = st.sys := by
  induction fuel with
  | zero => intro c file options st; rfl
  | succ fuel ih =>
    intro c file options st
    cases hl : (st.modules c).lookup file with
    | some m => rw [sysLoad_cached hl]
    | none =>
      cases hs : (E.env c).source file with
      | error e => rw [sysLoad, hl, hs]
      | ok is =>
        rw [sysLoad_new hl hs, compileFile_py]
        have h1 : (runModule E (sysNested E fuel false c) file is { st with next := st.next + 1 }).2.sys = st.sys := by
          rw [runModule_state]
          refine runSysImports_all (P := fun a b => b.sys = a.sys) (fun _ => rfl) (fun _ _ _ h1 h2 => h2.trans h1) is _ ?_
          intro i _ b
          unfold sysNested
          cases (E.env c).findImport i with
          | error e => rfl
          | ok g => exact ih c g none b
        generalize runModule E (sysNested E fuel false c) file is { st with next := st.next + 1 } = rr at h1
        obtain ⟨r, st3⟩ := rr
        cases r <;> exact h1

/-- Names of other files are not touched. -/
theorem sysLoad_frame (fuel : Nat) : ∀ (pyx : Bool) (c : Nat) (file : String) (options : Option Nat) (st : SysState) (k : String),
    k ≠ "capnpy.ext" →
    (∀ g, Relation.ReflTransGen (Imports E c) file g → ¬ IsLoaded st c g → ¬ OwnName E g k) →
    (sysLoad E fuel pyx c file options st).2.sys k = st.sys k := by
  induction fuel with
  | zero => intro pyx c file options st k _ _; rfl
  | succ fuel ih =>
    intro pyx c file options st k hk hno
    cases pyx with
    | false => rw [sysLoad_py]
    | true =>
    cases hl : (st.modules c).lookup file with
    | some m => rw [sysLoad_cached hl]
    | none =>
      cases hs : (E.env c).source file with
      | error e => rw [sysLoad, hl, hs]
      | ok is =>
        rw [sysLoad_new hl hs, compileFile_pyx]
        have hown : ¬ OwnName E file k := hno file .refl (not_loaded.mpr hl)
        have h0 : (pyxStart E c file st).sys k = st.sys k := by
          rw [pyxStart_sys c file st (fun h => hown (.inl h)) (fun h => hown (.inr h)), importExt_sys st hk]
        have h1 := runSysImports_all (load := sysNested E fuel true c)
          (P := fun a b => SysKeep c a b ∧ (SysKeep c st a → b.sys k = a.sys k))
          (fun _ => ⟨.refl _ _, fun _ => rfl⟩)
          (fun _ _ _ h1 h2 => ⟨h1.1.trans h2.1, fun hst => (h2.2 (hst.trans h1.1)).trans (h1.2 hst)⟩)
          is (pyxStart E c file st) (by
            intro i hi b
            unfold sysNested
            cases hf : (E.env c).findImport i with
            | error e => exact ⟨.refl _ _, fun _ => rfl⟩
            | ok g =>
              refine ⟨sysLoad_keep fuel true c g none b, fun hst => ih true c g none b k hk ?_⟩
              intro g' hg' hn
              exact hno g' (.head ⟨is, hs, i, hi, hf⟩ hg') fun h => hn (hst.loaded h))
        have h1 := h1.2 (.of_modules rfl)
        rw [← runModule_state (E := E) (file := file), h0] at h1
        generalize runModule E (sysNested E fuel true c) file is (pyxStart E c file st) = rr at h1
        obtain ⟨r, st3⟩ := rr
        cases r with
        | error e => exact h1
        | ok u =>
          dsimp only at h1 ⊢
          have h2 : (cleanUp st3 (E.modname file)).2.sys k = st3.sys k := by
            unfold cleanUp SysModules.del
            cases st3.sys (extName (E.modname file)) with
            | none => rfl
            | some a =>
              dsimp only
              cases (st3.sys.pop (extName (E.modname file))) (tmpName (E.modname file)) with
              | none => exact if_neg fun h => hown (.inr h)
              | some b =>
                refine (if_neg fun h => hown (.inl h)).trans ?_
                exact if_neg fun h => hown (.inr h)
          generalize cleanUp st3 (E.modname file) = cc at h2
          obtain ⟨r4, st4⟩ := cc
          cases r4 <;> exact h2.trans h1

/-- The imports of a module that is being loaded in pyx mode. -/
theorem nested_step {fuel c file is} (hs : (E.env c).source file = .ok is) {a b : SysState}
    (h : runSysImports (sysNested E fuel true c) is a = (.ok (), b)) :
    SysStep E (fun x g => x = c ∧ Relation.TransGen (Imports E c) file g) a b := by
  refine runSysImports_ok (P := SysStep E _) .refl (fun _ _ _ h1 h2 => h1.trans h2) is _ _ ?_ h
  intro i hi a m' b hab
  unfold sysNested at hab
  cases hf : (E.env c).findImport i with
  | error e => rw [hf] at hab; cases hab
  | ok g =>
    rw [hf] at hab
    refine (sysLoad_ok fuel c g none a b m' hab).1.mono ?_
    rintro x y ⟨rfl, hy⟩
    exact ⟨rfl, Relation.TransGen.head'_iff.mpr ⟨g, ⟨is, hs, i, hi, hf⟩, hy⟩⟩

/-- The own names of a module are still there after its imports, unless one of them uses the same name. -/
theorem nested_own {fuel c file is} (hs : (E.env c).source file = .ok is) {st b : SysState}
    (h : runSysImports (sysNested E fuel true c) is (pyxStart E c file st) = (.ok (), b)) {k : String} (hk : OwnName E file k) :
    b.sys k = none ↔ ∃ x g, NewlyLoaded st b x g ∧ OwnName E g k := by
  have hstep := nested_step hs h
  constructor
  · intro hn
    by_contra hno
    have hk' : k ≠ "capnpy.ext" := by
      rcases hk with rfl | rfl
      · exact tmp_ne_pkg _
      · exact ext_ne_pkg _
    rw [hstep.same k hk' hno] at hn
    rcases hk with rfl | rfl
    · rw [show (E.modname file ++ "_tmp") = tmpName (E.modname file) from rfl, pyxStart_tmp] at hn; cases hn
    · rw [show ("capnpy.ext." ++ E.modname file) = extName (E.modname file) from rfl, pyxStart_ext] at hn; cases hn
  · exact hstep.gone k

/-! ## The contents of `sys.modules` do not matter -/

/-- The same state but for `sys.modules`. -/
def SameCaches (a b : SysState) : Prop := a.modules = b.modules ∧ a.next = b.next

theorem runSysImports_same {load : String → SysState → Py Mod × SysState} : ∀ (is : List String) (a b : SysState),
    SameCaches a b →
    (∀ i ∈ is, ∀ a b, SameCaches a b → (load i a).1 = (load i b).1 ∧ SameCaches (load i a).2 (load i b).2) →
    (runSysImports load is a).1 = (runSysImports load is b).1 ∧
      SameCaches (runSysImports load is a).2 (runSysImports load is b).2 := by
  intro is
  induction is with
  | nil => intro a b h _; exact ⟨rfl, h⟩
  | cons i is ih =>
    intro a b h hl
    unfold runSysImports
    have h1 := hl i (by simp) a b h
    generalize load i a = x at h1
    generalize load i b = y at h1
    obtain ⟨r, a'⟩ := x
    obtain ⟨r', b'⟩ := y
    obtain ⟨rfl, h1⟩ : r = r' ∧ SameCaches a' b' := h1
    cases r with
    | error e => exact ⟨rfl, h1⟩
    | ok m => exact ih a' b' h1 (fun j hj => hl j (by simp [hj]))

theorem runModule_same {load : String → SysState → Py Mod × SysState} {file : String} {is : List String} {a b : SysState}
    (h : (runSysImports load is a).1 = (runSysImports load is b).1 ∧
      SameCaches (runSysImports load is a).2 (runSysImports load is b).2) :
    (runModule E load file is a).1 = (runModule E load file is b).1 ∧
      SameCaches (runModule E load file is a).2 (runModule E load file is b).2 := by
  unfold runModule
  generalize runSysImports load is a = x at h
  generalize runSysImports load is b = y at h
  obtain ⟨r, a'⟩ := x
  obtain ⟨r', b'⟩ := y
  obtain ⟨rfl, h1⟩ : r = r' ∧ SameCaches a' b' := h
  cases r with
  | error e => exact ⟨rfl, h1⟩
  | ok m => exact ⟨rfl, h1⟩

theorem cleanUp_same {a b : SysState} {n : String} (h : SameCaches a b) (he : a.sys (extName n) = none ↔ b.sys (extName n) = none)
    (ht : a.sys (tmpName n) = none ↔ b.sys (tmpName n) = none) :
    (cleanUp a n).1 = (cleanUp b n).1 ∧ SameCaches (cleanUp a n).2 (cleanUp b n).2 := by
  have hp : ∀ s : SysModules, s.pop (extName n) (tmpName n) = s (tmpName n) := fun s => if_neg (tmp_ne_ext n)
  refine ⟨?_, ?_⟩
  · unfold cleanUp SysModules.del
    cases h1 : a.sys (extName n) with
    | none => rw [he.mp h1]
    | some x =>
      cases h2 : b.sys (extName n) with
      | none => rw [he.mpr h2] at h1; cases h1
      | some y =>
        dsimp only
        rw [hp, hp]
        cases h3 : a.sys (tmpName n) with
        | none => rw [ht.mp h3]
        | some x =>
          cases h4 : b.sys (tmpName n) with
          | none => rw [ht.mpr h4] at h3; cases h3
          | some y => rfl
  · exact ⟨by rw [(cleanUp_modules a n).1, (cleanUp_modules b n).1, h.1],
      by rw [(cleanUp_modules a n).2, (cleanUp_modules b n).2, h.2]⟩

theorem cache_same {a b : SysState} (h : SameCaches a b) (c f m) : SameCaches (a.cache c f m) (b.cache c f m) := by
  unfold SameCaches SysState.cache
  rw [h.1]
  exact ⟨rfl, h.2⟩

theorem sysLoad_same (fuel : Nat) : ∀ (pyx : Bool) (c : Nat) (file : String) (options : Option Nat) (a b : SysState),
    SameCaches a b →
    (sysLoad E fuel pyx c file options a).1 = (sysLoad E fuel pyx c file options b).1 ∧
      SameCaches (sysLoad E fuel pyx c file options a).2 (sysLoad E fuel pyx c file options b).2 := by
  induction fuel with
  | zero => intro pyx c file options a b h; exact ⟨rfl, h⟩
  | succ fuel ih =>
    intro pyx c file options a b h
    cases hl : (a.modules c).lookup file with
    | some m =>
      rw [sysLoad_cached hl, sysLoad_cached (m := m) (by rw [← h.1]; exact hl)]
      exact ⟨rfl, h⟩
    | none =>
      have hl' : (b.modules c).lookup file = none := by rw [← h.1]; exact hl
      cases hs : (E.env c).source file with
      | error e =>
        rw [sysLoad, hl, hs, sysLoad, hl', hs]
        exact ⟨rfl, h⟩
      | ok is =>
        rw [sysLoad_new hl hs, sysLoad_new hl' hs]
        have hrun : ∀ a b, SameCaches a b → (runSysImports (sysNested E fuel pyx c) is a).1 = (runSysImports (sysNested E fuel pyx c) is b).1 ∧
            SameCaches (runSysImports (sysNested E fuel pyx c) is a).2 (runSysImports (sysNested E fuel pyx c) is b).2 := by
          intro a b hab
          refine runSysImports_same is a b hab ?_
          intro i _ a b hab
          unfold sysNested
          cases (E.env c).findImport i with
          | error e => exact ⟨rfl, hab⟩
          | ok g => exact ih pyx c g none a b hab
        cases pyx with
        | true =>
          rw [compileFile_pyx, compileFile_pyx]
          have hst : SameCaches (pyxStart E c file a) (pyxStart E c file b) := by
            refine ⟨h.1, ?_⟩
            show a.next + 1 = b.next + 1
            rw [h.2]
          have h1 := hrun _ _ hst
          have h2 := runModule_same (E := E) (file := file) h1
          cases hra : runModule E (sysNested E fuel true c) file is (pyxStart E c file a) with
          | mk r a' =>
            cases hrb : runModule E (sysNested E fuel true c) file is (pyxStart E c file b) with
            | mk r' b' =>
              rw [hra, hrb] at h2
              obtain ⟨rfl, h2⟩ : r = r' ∧ SameCaches a' b' := h2
              cases r with
              | error e => exact ⟨rfl, h2⟩
              | ok u =>
                have hia := (runModule_ok hra).1
                have hib := (runModule_ok hrb).1
                have hnew : ∀ x g, NewlyLoaded a a' x g ↔ NewlyLoaded b b' x g := by
                  intro x g
                  unfold NewlyLoaded IsLoaded
                  rw [h.1, h2.1]
                have hown : ∀ k, OwnName E file k → (a'.sys k = none ↔ b'.sys k = none) := by
                  intro k hk
                  rw [nested_own hs hia hk, nested_own hs hib hk]
                  constructor <;> rintro ⟨x, g, hn, ho⟩
                  · exact ⟨x, g, (hnew x g).mp hn, ho⟩
                  · exact ⟨x, g, (hnew x g).mpr hn, ho⟩
                have h3 := cleanUp_same (n := E.modname file) h2 (hown _ (.inr rfl)) (hown _ (.inl rfl))
                dsimp only
                rw [h.2]
                generalize cleanUp a' (E.modname file) = ca at h3
                generalize cleanUp b' (E.modname file) = cb at h3
                obtain ⟨r4, a4⟩ := ca
                obtain ⟨r4', b4⟩ := cb
                obtain ⟨rfl, h3⟩ : r4 = r4' ∧ SameCaches a4 b4 := h3
                cases r4 with
                | error e => exact ⟨rfl, h3⟩
                | ok u => exact ⟨rfl, cache_same h3 _ _ _⟩
        | false =>
          rw [compileFile_py, compileFile_py]
          have hst : SameCaches { a with next := a.next + 1 } { b with next := b.next + 1 } := by
            refine ⟨h.1, ?_⟩
            show a.next + 1 = b.next + 1
            rw [h.2]
          have h2 := runModule_same (E := E) (file := file) (hrun _ _ hst)
          rw [h.2] at *
          generalize runModule E (sysNested E fuel false c) file is { a with next := b.next + 1 } = ca at h2
          generalize runModule E (sysNested E fuel false c) file is { b with next := b.next + 1 } = cb at h2
          obtain ⟨r4, a4⟩ := ca
          obtain ⟨r4', b4⟩ := cb
          obtain ⟨rfl, h3⟩ : r4 = r4' ∧ SameCaches a4 b4 := h2
          cases r4 with
          | error e => exact ⟨rfl, h3⟩
          | ok u => exact ⟨rfl, cache_same h3 _ _ _⟩

/-! ## Refinement of the loader -/

/-- One compiler, without `sys.modules`. -/
def SysState.ofCompiler (st : SysState) (c : Nat) : LoaderState := ⟨st.modules c, st.next⟩

theorem NoClash.mono {a b : SysState} {c : Nat} {f : String} (h : NoClash E a c f) (hl : ∀ g, IsLoaded a c g → IsLoaded b c g) :
    NoClash E b c f := fun x y h1 h2 h3 h4 => h x y h1 h2 (fun h => h3 (hl _ h)) (fun h => h4 (hl _ h))

theorem sysLoad_refines (hbody : ∀ f, E.body f = .ok ()) (fuel : Nat) :
    ∀ (pyx : Bool) (c : Nat) (file : String) (options : Option Nat) (st : SysState),
    (pyx = true → NoClash E st c file) →
    (sysLoad E fuel pyx c file options st).1 = (loadFile (E.env c) fuel file pyx options (st.ofCompiler c)).1 ∧
      (sysLoad E fuel pyx c file options st).2.ofCompiler c = (loadFile (E.env c) fuel file pyx options (st.ofCompiler c)).2 := by
  induction fuel with
  | zero => intro pyx c file options st _; exact ⟨rfl, rfl⟩
  | succ fuel ih =>
    intro pyx c file options st hno
    have hlk : (st.ofCompiler c).modules = st.modules c := rfl
    cases hl : (st.modules c).lookup file with
    | some m =>
      rw [sysLoad_cached hl, loadFile, hlk, hl]
      exact ⟨rfl, rfl⟩
    | none =>
      cases hs : (E.env c).source file with
      | error e =>
        rw [sysLoad, hl, hs, loadFile, hlk, hl, hs]
        exact ⟨rfl, rfl⟩
      | ok is =>
        rw [sysLoad_new hl hs, loadFile, hlk, hl, hs]
        dsimp only
        have hrun : ∀ (js : List String), (∀ j ∈ js, j ∈ is) → ∀ a : SysState, SysKeep c st a →
            (runSysImports (sysNested E fuel pyx c) js a).1 = (runImports (fun i st =>
              match (E.env c).findImport i with
              | .error e => (.error e, st)
              | .ok f => loadFile (E.env c) fuel f pyx none st) js (a.ofCompiler c)).1 ∧
            (runSysImports (sysNested E fuel pyx c) js a).2.ofCompiler c = (runImports (fun i st =>
              match (E.env c).findImport i with
              | .error e => (.error e, st)
              | .ok f => loadFile (E.env c) fuel f pyx none st) js (a.ofCompiler c)).2 := by
          intro js
          induction js with
          | nil => intro _ a _; exact ⟨rfl, rfl⟩
          | cons i js ihj =>
            intro hj a ha
            unfold runSysImports runImports
            cases hf : (E.env c).findImport i with
            | error e =>
              have : sysNested E fuel pyx c i a = (.error e, a) := by unfold sysNested; rw [hf]
              rw [this]
              exact ⟨rfl, rfl⟩
            | ok g =>
              have : sysNested E fuel pyx c i a = sysLoad E fuel pyx c g none a := by unfold sysNested; rw [hf]
              rw [this]
              have hkeep := sysLoad_keep (E := E) fuel pyx c g none a
              have h1 := ih pyx c g none a (by
                intro hp x y hx hy hnx hny
                exact hno hp x y (.head ⟨is, hs, i, hj i (by simp), hf⟩ hx) hy (fun h => hnx (ha.loaded h)) fun h => hny (ha.loaded h))
              dsimp only
              generalize sysLoad E fuel pyx c g none a = x at h1 hkeep
              generalize loadFile (E.env c) fuel g pyx none (a.ofCompiler c) = y at h1
              obtain ⟨r, a'⟩ := x
              obtain ⟨r', b'⟩ := y
              obtain ⟨rfl, h1⟩ : r = r' ∧ a'.ofCompiler c = b' := h1
              subst h1
              cases r with
              | error e => exact ⟨rfl, rfl⟩
              | ok m => exact ihj (fun x hx => hj x (List.mem_cons_of_mem _ hx)) a' (ha.trans hkeep)
        have hmod : ∀ a, (runModule E (sysNested E fuel pyx c) file is a) = (runSysImports (sysNested E fuel pyx c) is a) := by
          intro a
          unfold runModule
          cases runSysImports (sysNested E fuel pyx c) is a with
          | mk r a' => cases r with
            | error e => rfl
            | ok u => rw [hbody]
        cases pyx with
        | true =>
          rw [compileFile_pyx, hmod]
          have h1 := hrun is (fun _ h => h) (pyxStart E c file st) (.of_modules rfl)
          have hp : (pyxStart E c file st).ofCompiler c = ⟨st.modules c, (st.ofCompiler c).next + 1⟩ := rfl
          rw [hp] at h1
          cases hx : runSysImports (sysNested E fuel true c) is (pyxStart E c file st) with
          | mk r a' =>
            rw [hx] at h1
            dsimp only at h1
            generalize runImports _ is ⟨st.modules c, (st.ofCompiler c).next + 1⟩ = y at h1 ⊢
            obtain ⟨r', b'⟩ := y
            obtain ⟨rfl, h1⟩ : r = r' ∧ a'.ofCompiler c = b' := h1
            subst h1
            cases r with
            | error e => exact ⟨rfl, rfl⟩
            | ok u =>
              have hstep := nested_step hs hx
              have hown : ∀ k, OwnName E file k → a'.sys k ≠ none := by
                intro k hk hn
                obtain ⟨x, g, hg, ho⟩ := (nested_own hs hx hk).mp hn
                obtain ⟨rfl, hr⟩ := hstep.new x g hg
                exact hno rfl file g .refl hr (not_loaded.mpr hl) hg.1 ⟨k, hk, ho⟩
              dsimp only
              rw [cleanUp_some (hown _ (.inr rfl)) (hown _ (.inl rfl))]
              refine ⟨rfl, ?_⟩
              unfold SysState.ofCompiler SysState.cache
              dsimp only
              rw [if_pos rfl]
        | false =>
          rw [compileFile_py, hmod]
          have h1 := hrun is (fun _ h => h) { st with next := st.next + 1 } (.of_modules rfl)
          have hp : ({ st with next := st.next + 1 } : SysState).ofCompiler c = ⟨st.modules c, (st.ofCompiler c).next + 1⟩ := rfl
          rw [hp] at h1
          generalize runSysImports (sysNested E fuel false c) is { st with next := st.next + 1 } = x at h1
          obtain ⟨r, a'⟩ := x
          dsimp only at h1
          generalize runImports _ is ⟨st.modules c, (st.ofCompiler c).next + 1⟩ = y at h1 ⊢
          obtain ⟨r', b'⟩ := y
          obtain ⟨rfl, h1⟩ : r = r' ∧ a'.ofCompiler c = b' := h1
          subst h1
          cases r with
          | error e => exact ⟨rfl, rfl⟩
          | ok u =>
            refine ⟨rfl, ?_⟩
            unfold SysState.ofCompiler SysState.cache
            dsimp only
            rw [if_pos rfl]

end Capnpy
