import Verif.Proof.SysModules

/-! # C69: loading schemas in pyx mode and `sys.modules`

`sysLoad E fuel pyx c file options st` is `load_schema` of the compiler `c` for a file, in pyx mode or in pure
Python mode; `fuel` is the recursion limit.  `SysState` has the caches of all compilers and `sys.modules`. -/

namespace Capnpy.Props

open Capnpy.Spec

variable {E : SysEnv}

/-- C69: when a load in pyx mode succeeds, the temporary entries of all the files that it loaded (there can be many,
nested) are gone, and every other entry of `sys.modules` is as before.  (`capnpy.ext` can be new, see below.) -/
theorem C69_clean {fuel c file options} {st st' : SysState} {m : Mod}
    (h : sysLoad E fuel true c file options st = (.ok m, st')) (k : String) :
    ((∃ x g, NewlyLoaded st st' x g ∧ OwnName E g k) → st'.sys k = none) ∧
    (k ≠ "capnpy.ext" → (¬ ∃ x g, NewlyLoaded st st' x g ∧ OwnName E g k) → st'.sys k = st.sys k) :=
  have := (sysLoad_ok fuel c file options st st' m h).1
  ⟨this.gone k, this.same k⟩

/-- C69: hence, if `sys.modules` had no modules with such names, it is unchanged, but for the package `capnpy.ext`,
which is there if anything was compiled, and is kept if it was there. -/
theorem C69_unchanged {fuel c file options} {st st' : SysState} {m : Mod}
    (h : sysLoad E fuel true c file options st = (.ok m, st'))
    (hno : ∀ g k, Relation.ReflTransGen (Imports E c) file g → OwnName E g k → st.sys k = none) :
    (∀ k, k ≠ "capnpy.ext" → st'.sys k = st.sys k) ∧
    (∀ p, st.sys "capnpy.ext" = some p → st'.sys = st.sys) ∧
    (¬ IsLoaded st c file → st'.sys "capnpy.ext" ≠ none) := by
  have hs := sysLoad_ok fuel c file options st st' m h
  have h1 : ∀ k, k ≠ "capnpy.ext" → st'.sys k = st.sys k := by
    intro k hk
    by_cases hn : ∃ x g, NewlyLoaded st st' x g ∧ OwnName E g k
    · rw [hs.1.gone k hn]
      obtain ⟨x, g, hn, ho⟩ := hn
      exact (hno g k (hs.1.new x g hn).2 ho).symm
    · exact hs.1.same k hk hn
  refine ⟨h1, fun p hp => ?_, fun hl => (hs.2.2 hl).1⟩
  funext k
  by_cases hk : k = "capnpy.ext"
  · rw [hk, hs.1.pkg p hp, hp]
  · exact h1 k hk

/-- C69: in pure Python mode `sys.modules` is never touched, also when the load fails. -/
theorem C69_py_mode (fuel c : Nat) (file : String) (options : Option Nat) (st : SysState) :
    (sysLoad E fuel false c file options st).2.sys = st.sys := sysLoad_py fuel c file options st

/-- C69: whether a load succeeds or not, the only entries of `sys.modules` that it can change are `capnpy.ext`
and the names of the files that must be loaded. -/
theorem C69_frame (fuel : Nat) (pyx : Bool) (c : Nat) (file : String) (options : Option Nat) (st : SysState) (k : String)
    (hk : k ≠ "capnpy.ext")
    (hno : ∀ g, Relation.ReflTransGen (Imports E c) file g → ¬ IsLoaded st c g → ¬ OwnName E g k) :
    (sysLoad E fuel pyx c file options st).2.sys k = st.sys k := sysLoad_frame fuel pyx c file options st k hk hno

/-- C69: a module loaded in pyx mode gets its own schema path, mode and options, and is a new object, whatever
`sys.modules` had before (e.g. the remains of a failed load of a file with the same name). -/
theorem C69_own_schema {fuel c file options} {st st' : SysState} {m : Mod}
    (h : sysLoad E fuel true c file options st = (.ok m, st')) (hn : ¬ IsLoaded st c file) :
    m = ⟨st.next, file, true, options⟩ ∧ (st'.modules c).lookup file = some m := by
  have hs := sysLoad_ok fuel c file options st st' m h
  refine ⟨?_, hs.2.1⟩
  rw [not_loaded] at hn
  cases fuel with
  | zero => cases h
  | succ fuel =>
    cases hsrc : (E.env c).source file with
    | error e => rw [sysLoad, hn, hsrc] at h; cases h
    | ok is =>
      rw [sysLoad_new hn hsrc, compileFile_pyx] at h
      generalize runModule E (sysNested E fuel true c) file is (pyxStart E c file st) = rr at h
      obtain ⟨r, a⟩ := rr
      cases r with
      | error e => cases h
      | ok u =>
        dsimp only at h
        generalize cleanUp a (E.modname file) = cc at h
        obtain ⟨r, b⟩ := cc
        cases r with
        | error e => cases h
        | ok u =>
          injection h with h _
          injection h with h
          exact h.symm

/-- C69: what was in `sys.modules` has no influence on the result of a load and on the caches. -/
theorem C69_independent (fuel : Nat) (pyx : Bool) (c : Nat) (file : String) (options : Option Nat)
    (modules : Nat → List (String × Mod)) (next : Nat) (s s' : SysModules) :
    (sysLoad E fuel pyx c file options ⟨modules, next, s⟩).1 = (sysLoad E fuel pyx c file options ⟨modules, next, s'⟩).1 ∧
    (sysLoad E fuel pyx c file options ⟨modules, next, s⟩).2.modules =
      (sysLoad E fuel pyx c file options ⟨modules, next, s'⟩).2.modules :=
  have h := sysLoad_same (E := E) fuel pyx c file options ⟨modules, next, s⟩ ⟨modules, next, s'⟩ ⟨rfl, rfl⟩
  ⟨h.1, h.2.1⟩

/-- C69: if no file imports (directly or not) another one with the same base name, then loading in pyx mode gives
the same as the loader of C42, so that all of C42 holds.  In pure Python mode there is no condition on the names. -/
theorem C69_loader (hbody : ∀ f, E.body f = .ok ()) (fuel : Nat) (pyx : Bool) (c : Nat) (file : String) (options : Option Nat)
    (st : SysState) (hno : pyx = true → NoClash E st c file) :
    (sysLoad E fuel pyx c file options st).1 = (loadFile (E.env c) fuel file pyx options ⟨st.modules c, st.next⟩).1 ∧
    (sysLoad E fuel pyx c file options st).2.modules c =
      (loadFile (E.env c) fuel file pyx options ⟨st.modules c, st.next⟩).2.modules := by
  have h := sysLoad_refines hbody fuel pyx c file options st hno
  exact ⟨h.1, congrArg LoaderState.modules h.2⟩

/-- C69: a compiler does not touch the modules of another one, and never forgets or replaces a module. -/
theorem C69_other_compilers (fuel : Nat) (pyx : Bool) (c : Nat) (file : String) (options : Option Nat) (st : SysState) :
    (∀ x, x ≠ c → (sysLoad E fuel pyx c file options st).2.modules x = st.modules x) ∧
    ∀ x f m, (st.modules x).lookup f = some m → ((sysLoad E fuel pyx c file options st).2.modules x).lookup f = some m :=
  have h := sysLoad_keep (E := E) fuel pyx c file options st
  ⟨h.2, h.1⟩

/-- C69: when do two schemas use the same names?  If their base names have no dots: when these are equal. -/
theorem C69_clash_iff (f g : String) (hf : '.' ∉ (E.modname f).toList) (hg : '.' ∉ (E.modname g).toList) :
    Clash E f g ↔ E.modname f = E.modname g := by
  have hd : ∀ a b : String, '.' ∉ a.toList → a ++ "_tmp" ≠ "capnpy.ext." ++ b := by
    intro a b ha h
    have hm : '.' ∈ (a ++ "_tmp").toList := by
      rw [h, String.toList_append]
      exact List.mem_append_left _ (by decide)
    rw [String.toList_append] at hm
    rcases List.mem_append.mp hm with hm | hm
    · exact ha hm
    · revert hm; decide
  have hcancel : ∀ a b x : String, a ++ x = b ++ x → a = b := by
    intro a b x h
    have := congrArg String.toList h
    rw [String.toList_append, String.toList_append] at this
    exact String.toList_inj.mp (List.append_cancel_right this)
  have hcancel' : ∀ a b x : String, x ++ a = x ++ b → a = b := by
    intro a b x h
    have := congrArg String.toList h
    rw [String.toList_append, String.toList_append] at this
    exact String.toList_inj.mp (List.append_cancel_left this)
  constructor
  · rintro ⟨k, h1 | h1, h2 | h2⟩
    · exact hcancel _ _ _ (h1.symm.trans h2)
    · exact absurd (h1.symm.trans h2) (hd _ _ hf)
    · exact absurd (h2.symm.trans h1) (hd _ _ hg)
    · exact hcancel' _ _ _ (h1.symm.trans h2)
  · intro h
    exact ⟨E.modname f ++ "_tmp", .inl rfl, .inl (by rw [h])⟩

theorem imports_loaded {fuel c is} : ∀ (a b : SysState), runSysImports (sysNested E fuel true c) is a = (.ok (), b) →
    ∀ i ∈ is, ∀ g, (E.env c).findImport i = .ok g → IsLoaded b c g := by
  induction is with
  | nil => intro a b _ i hi; cases hi
  | cons j js ih =>
    intro a b h i hi g hg
    unfold runSysImports at h
    cases hn : sysNested E fuel true c j a with
    | mk r a' =>
      rw [hn] at h
      cases r with
      | error e => cases h
      | ok m =>
        rcases List.mem_cons.mp hi with rfl | hi
        · have hl : sysLoad E fuel true c g none a = (.ok m, a') := by
            unfold sysNested at hn
            rw [hg] at hn
            exact hn
          have h1 := (sysLoad_ok fuel c g none a a' m hl).2.1
          have hk : SysKeep c a' b := by
            have := runSysImports_all (load := sysNested E fuel true c) (P := SysKeep c) (.refl c) (fun _ _ _ => .trans) js a' (by
              intro i _ b
              unfold sysNested
              cases (E.env c).findImport i with
              | error e => exact .refl _ _
              | ok g => exact sysLoad_keep fuel true c g none b)
            dsimp only at h
            rw [h] at this
            exact this
          exact hk.loaded (by unfold IsLoaded; rw [h1]; rfl)
        · exact ih a' b h i hi g hg

/-- C69 (finding): in pyx mode a schema that imports another one with the same base name (`a/x.capnp` imports
`b/x.capnp`) cannot be loaded, if `b/x.capnp` was not loaded before. -/
theorem C69_same_base_name_fails {c : Nat} {f g : String} (himp : Imports E c f g) (hclash : Clash E f g) {st : SysState}
    (hf : ¬ IsLoaded st c f) (hg : ¬ IsLoaded st c g) (fuel : Nat) (options : Option Nat) :
    ∃ e, (sysLoad E fuel true c f options st).1 = .error e := by
  cases hr : sysLoad E fuel true c f options st with
  | mk r st' =>
    cases r with
    | error e => exact ⟨e, rfl⟩
    | ok m =>
      exfalso
      obtain ⟨is, hsrc, i, hi, hfi⟩ := himp
      have hl := not_loaded.mp hf
      cases fuel with
      | zero => cases hr
      | succ fuel =>
        rw [sysLoad_new hl hsrc, compileFile_pyx] at hr
        cases hm : runModule E (sysNested E fuel true c) f is (pyxStart E c f st) with
        | mk r a =>
          rw [hm] at hr
          cases r with
          | error e => cases hr
          | ok u =>
            dsimp only at hr
            cases hc : cleanUp a (E.modname f) with
            | mk r b =>
              rw [hc] at hr
              cases r with
              | error e => cases hr
              | ok u =>
                have hrun := (runModule_ok hm).1
                obtain ⟨he, ht, _⟩ := cleanUp_ok hc
                have hnew : NewlyLoaded st a c g := ⟨hg, imports_loaded _ _ hrun i hi g hfi⟩
                obtain ⟨k, hk1, hk2⟩ := hclash
                have := (nested_own hsrc hrun hk1).mpr ⟨c, g, hnew, hk2⟩
                rcases hk1 with rfl | rfl
                · exact ht this
                · exact he this

/-- C69: conversely, when a load succeeds, no file that was loaded on the way has the name of the file. -/
theorem C69_success_no_clash {fuel c file options} {st st' : SysState} {m : Mod}
    (h : sysLoad E fuel true c file options st = (.ok m, st')) (hn : ¬ IsLoaded st c file) (x : Nat) (g : String)
    (hg : NewlyLoaded st st' x g) (hne : g ≠ file) : ¬ Clash E file g :=
  ((sysLoad_ok fuel c file options st st' m h).2.2 hn).2 x g hg hne

/-- C69 (finding): a load in pyx mode that fails after the module was compiled (in an import, or in its own code)
leaves the temporary entries of the file in `sys.modules`. -/
theorem C69_failure_leaks {c : Nat} {file : String} {is : List String} (hsrc : (E.env c).source file = .ok is)
    {st : SysState} (hn : ¬ IsLoaded st c file) (hno : NoClash E st c file) (fuel : Nat) (options : Option Nat) {e : PyErr} {st' : SysState}
    (h : sysLoad E (fuel + 1) true c file options st = (.error e, st')) :
    st'.sys (E.modname file ++ "_tmp") = some (.tmp c file) ∧
    st'.sys ("capnpy.ext." ++ E.modname file) = some (.ext st.next) := by
  have hl := not_loaded.mp hn
  rw [sysLoad_new hl hsrc, compileFile_pyx] at h
  have hkeep : ∀ k, OwnName E file k →
      (runModule E (sysNested E fuel true c) file is (pyxStart E c file st)).2.sys k = (pyxStart E c file st).sys k := by
    intro k hk
    have hk' : k ≠ "capnpy.ext" := by
      rcases hk with rfl | rfl
      · exact tmp_ne_pkg _
      · exact ext_ne_pkg _
    rw [runModule_state]
    refine (runSysImports_all (load := sysNested E fuel true c)
          (P := fun a b => SysKeep c a b ∧ (SysKeep c st a → b.sys k = a.sys k))
          (fun _ => ⟨.refl _ _, fun _ => rfl⟩)
          (fun _ _ _ h1 h2 => ⟨h1.1.trans h2.1, fun hst => (h2.2 (hst.trans h1.1)).trans (h1.2 hst)⟩)
          is (pyxStart E c file st) ?_).2 (.of_modules rfl)
    intro i hi b
    unfold sysNested
    cases hf : (E.env c).findImport i with
    | error e => exact ⟨.refl _ _, fun _ => rfl⟩
    | ok g =>
      refine ⟨sysLoad_keep fuel true c g none b, fun hst => sysLoad_frame fuel true c g none b k hk' ?_⟩
      intro g' hg' hng ho
      exact hno file g' .refl (Relation.TransGen.head'_iff.mpr ⟨g, ⟨is, hsrc, i, hi, hf⟩, hg'⟩) hn
        (fun h => hng (hst.loaded h)) ⟨k, hk, ho⟩
  have he := hkeep (extName (E.modname file)) (.inr rfl)
  have ht := hkeep (tmpName (E.modname file)) (.inl rfl)
  rw [pyxStart_ext] at he
  rw [pyxStart_tmp] at ht
  generalize runModule E (sysNested E fuel true c) file is (pyxStart E c file st) = rr at h he ht
  obtain ⟨r, a⟩ := rr
  cases r with
  | error e =>
    injection h with _ h
    subst h
    exact ⟨ht, he⟩
  | ok u =>
    have hc := cleanUp_some (st := a) (n := E.modname file) (by rw [he]; simp) (by rw [ht]; simp)
    dsimp only at h
    rw [hc] at h
    cases h

/-- C69: the version check of a generated module: if it was generated by another version of capnpy, the import
fails with ImportError, and the module is not left in `sys.modules`; otherwise nothing happens. -/
theorem C69_check_version (current modname version : String) (s : SysModules) :
    (version = current → checkVersion current modname version s = (.ok (), s)) ∧
    (version ≠ current → (checkVersion current modname version s).1 = .error .importError ∧
      (checkVersion current modname version s).2 modname = none ∧
      ∀ k, k ≠ modname → (checkVersion current modname version s).2 k = s k) := by
  unfold checkVersion
  refine ⟨fun h => ?_, fun h => ?_⟩
  · rw [if_neg (by simp [h])]
  · rw [if_pos h]
    exact ⟨rfl, if_pos rfl, fun k hk => if_neg hk⟩

/-! ## Examples -/

/-- `/p/a.capnp` imports `/p/b.capnp`; `/p/x.capnp` imports `/q/x.capnp`; the code of `/p/bad.capnp` raises. -/
def sysEx : SysEnv where
  env _ := {
    dirs := [""]
    join d i := d ++ i
    norm f := f
    isFile _ := true
    source f := if f = "/p/a.capnp" then .ok ["/p/b.capnp", "/q/x.capnp"] else if f = "/p/x.capnp" then .ok ["/q/x.capnp"] else .ok []
    pyxAvailable := true }
  modname f := if f = "/p/a.capnp" then "a" else if f = "/p/b.capnp" then "b" else if f = "/p/bad.capnp" then "bad" else "x"
  body f := if f = "/p/bad.capnp" then .error .nameError else .ok ()
  extPackage := .other 1

/-- `sys.modules` has `os` and `capnpy.ext`. -/
def sysEx0 : SysState :=
  ⟨fun _ => [], 10, fun k => if k = "os" then some (.other 0) else if k = "capnpy.ext" then some (.other 1) else none⟩

example : (sysLoad sysEx 10 true 0 "/p/a.capnp" (some 3) sysEx0).1 = .ok ⟨10, "/p/a.capnp", true, some 3⟩ := by decide +kernel

example : (["os", "a_tmp", "capnpy.ext.a", "b_tmp", "capnpy.ext.b", "capnpy.ext"].map
    (sysLoad sysEx 10 true 0 "/p/a.capnp" none sysEx0).2.sys) = [some (.other 0), none, none, none, none, some (.other 1)] := by
  decide +kernel

/-- The clash: `KeyError`; the imported file is loaded, though, and the second attempt succeeds. -/
theorem C69_key_error : (sysLoad sysEx 10 true 0 "/p/x.capnp" none sysEx0).1 = .error .keyError ∧
    (sysLoad sysEx 10 true 0 "/p/x.capnp" none (sysLoad sysEx 10 true 0 "/p/x.capnp" none sysEx0).2).1 =
      .ok ⟨12, "/p/x.capnp", true, none⟩ := by decide +kernel

example : Imports sysEx 0 "/p/x.capnp" "/q/x.capnp" ∧ Clash sysEx "/p/x.capnp" "/q/x.capnp" :=
  ⟨⟨["/q/x.capnp"], by decide +kernel, "/q/x.capnp", by simp, by decide +kernel⟩, "x_tmp", .inl (by decide +kernel), .inl (by decide +kernel)⟩

/-- In pure Python mode the same file can be loaded. -/
example : (sysLoad sysEx 10 false 0 "/p/x.capnp" none sysEx0).1 = .ok ⟨10, "/p/x.capnp", false, none⟩ := by decide +kernel

/-- A module that raises leaves its entries. -/
example : (sysLoad sysEx 10 true 0 "/p/bad.capnp" none sysEx0).1 = .error .nameError ∧
    (sysLoad sysEx 10 true 0 "/p/bad.capnp" none sysEx0).2.sys "bad_tmp" = some (.tmp 0 "/p/bad.capnp") ∧
    (sysLoad sysEx 10 true 0 "/p/bad.capnp" none sysEx0).2.sys "capnpy.ext.bad" = some (.ext 10) := by decide +kernel

theorem sysEx_source (f : String) : (sysEx.env 0).source f =
    if f = "/p/a.capnp" then .ok ["/p/b.capnp", "/q/x.capnp"] else if f = "/p/x.capnp" then .ok ["/q/x.capnp"] else .ok [] := rfl

theorem sysEx_imports {f g : String} (h : Imports sysEx 0 f g) :
    (f = "/p/a.capnp" ∧ (g = "/p/b.capnp" ∨ g = "/q/x.capnp")) ∨ (f = "/p/x.capnp" ∧ g = "/q/x.capnp") := by
  obtain ⟨is, hs, i, hi, hf⟩ := h
  rw [sysEx_source] at hs
  have hb : (sysEx.env 0).findImport "/p/b.capnp" = .ok "/p/b.capnp" := by decide +kernel
  have hx : (sysEx.env 0).findImport "/q/x.capnp" = .ok "/q/x.capnp" := by decide +kernel
  by_cases h1 : f = "/p/a.capnp"
  · rw [if_pos h1] at hs
    injection hs with hs
    subst hs
    refine .inl ⟨h1, ?_⟩
    rcases List.mem_cons.mp hi with rfl | hi
    · rw [hb] at hf; injection hf with hf; exact .inl hf.symm
    · rw [List.mem_singleton.mp hi, hx] at hf; injection hf with hf; exact .inr hf.symm
  · rw [if_neg h1] at hs
    by_cases h2 : f = "/p/x.capnp"
    · rw [if_pos h2] at hs
      injection hs with hs
      subst hs
      rw [List.mem_singleton.mp hi, hx] at hf; injection hf with hf
      exact .inr ⟨h2, hf.symm⟩
    · rw [if_neg h2] at hs
      injection hs with hs
      subst hs
      cases hi

/-- The hypothesis on the names holds for `a`, which imports two other files. -/
example : NoClash sysEx sysEx0 0 "/p/a.capnp" := by
  intro a b ha hb _ _ hc
  have ha' : a = "/p/a.capnp" ∨ a = "/p/b.capnp" ∨ a = "/q/x.capnp" := by
    rcases Relation.ReflTransGen.cases_head ha with rfl | ⟨y, hy, hr⟩
    · exact .inl rfl
    · rcases sysEx_imports hy with ⟨_, hy⟩ | ⟨h, _⟩
      · rcases Relation.ReflTransGen.cases_head hr with rfl | ⟨z, hz, _⟩
        · exact .inr hy
        · rcases hy with rfl | rfl <;> rcases sysEx_imports hz with ⟨h, _⟩ | ⟨h, _⟩ <;> simp at h
      · simp at h
  obtain ⟨y, hy, hr⟩ := Relation.TransGen.head'_iff.mp hb
  rcases ha' with rfl | rfl | rfl
  · have hb' : b = "/p/b.capnp" ∨ b = "/q/x.capnp" := by
      rcases sysEx_imports hy with ⟨_, hy⟩ | ⟨h, _⟩
      · rcases Relation.ReflTransGen.cases_head hr with rfl | ⟨z, hz, _⟩
        · exact hy
        · rcases hy with rfl | rfl <;> rcases sysEx_imports hz with ⟨h, _⟩ | ⟨h, _⟩ <;> simp at h
      · simp at h
    rw [C69_clash_iff] at hc
    · rcases hb' with rfl | rfl <;> revert hc <;> decide +kernel
    · decide +kernel
    · rcases hb' with rfl | rfl <;> decide +kernel
  · rcases sysEx_imports hy with ⟨h, _⟩ | ⟨h, _⟩ <;> simp at h
  · rcases sysEx_imports hy with ⟨h, _⟩ | ⟨h, _⟩ <;> simp at h

end Capnpy.Props
