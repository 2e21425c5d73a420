import Verif.Model.Loader
import Mathlib.Logic.Relation

/-! # Invariants of the schema loader -/

namespace Capnpy

/-- Compiling `f` loads `g`: `f` is not one of the modules known from the start, and
it imports `g`. -/
def Dep (env : LoaderEnv) (known : List String) (f g : String) : Prop :=
  f ∉ known ∧ ∃ is, env.source f = .ok is ∧ ∃ i ∈ is, env.findImport i = .ok g

/-- `f` imports itself, directly or not. -/
def OnCycle (env : LoaderEnv) (known : List String) (f : String) : Prop :=
  Relation.TransGen (Dep env known) f f

structure LoaderInv (env : LoaderEnv) (known : List String) (st : LoaderState) : Prop where
  file : ∀ f m, st.modules.lookup f = some m → m.file = f ∧ m.ident < st.next
  inj : ∀ f g m m', st.modules.lookup f = some m → st.modules.lookup g = some m' → m.ident = m'.ident → f = g
  base : ∀ f ∈ known, st.modules.lookup f ≠ none
  closed : ∀ f g, st.modules.lookup f ≠ none → Dep env known f g → st.modules.lookup g ≠ none
  acyclic : ∀ f, OnCycle env known f → st.modules.lookup f = none

/-- The state after: nothing lost, and what is new satisfies `R` and has a new
identity. -/
structure LoaderStep (env : LoaderEnv) (known : List String) (st st' : LoaderState) (R : String → Prop) : Prop where
  inv : LoaderInv env known st'
  next : st.next ≤ st'.next
  keep : ∀ f m, st.modules.lookup f = some m → st'.modules.lookup f = some m
  new : ∀ f m, st'.modules.lookup f = some m → st.modules.lookup f = some m ∨ (R f ∧ st.next ≤ m.ident)

variable {env : LoaderEnv} {known : List String}

theorem LoaderStep.refl {st : LoaderState} (h : LoaderInv env known st) (R : String → Prop) :
    LoaderStep env known st st R := ⟨h, Nat.le_refl _, fun _ _ h => h, fun _ _ h => .inl h⟩

theorem LoaderStep.trans {a b c : LoaderState} {R : String → Prop} (h1 : LoaderStep env known a b R)
    (h2 : LoaderStep env known b c R) : LoaderStep env known a c R := by
  refine ⟨h2.inv, Nat.le_trans h1.next h2.next, fun f m h => h2.keep f m (h1.keep f m h), fun f m h => ?_⟩
  rcases h2.new f m h with h | ⟨h, hi⟩
  · exact h1.new f m h
  · exact .inr ⟨h, Nat.le_trans h1.next hi⟩

theorem LoaderStep.mono {a b : LoaderState} {R S : String → Prop} (h : LoaderStep env known a b R)
    (hRS : ∀ f, R f → S f) : LoaderStep env known a b S := by
  refine ⟨h.inv, h.next, h.keep, fun f m hm => ?_⟩
  rcases h.new f m hm with h | ⟨h, hi⟩
  · exact .inl h
  · exact .inr ⟨hRS f h, hi⟩

/-- The statements that load the imports. -/
theorem runImports_spec {load : String → LoaderState → Py Mod × LoaderState} {R : String → Prop}
    (hload : ∀ i st, LoaderInv env known st → (∀ g, env.findImport i = .ok g → R g) →
      LoaderStep env known st (load i st).2 R ∧
        (∀ m, (load i st).1 = .ok m → ∃ g, env.findImport i = .ok g ∧ (load i st).2.modules.lookup g = some m)) :
    ∀ (is : List String) (st : LoaderState), LoaderInv env known st →
      (∀ i ∈ is, ∀ g, env.findImport i = .ok g → R g) →
      LoaderStep env known st (runImports load is st).2 R ∧
        ((runImports load is st).1 = .ok () → ∀ i ∈ is, ∀ g, env.findImport i = .ok g →
          (runImports load is st).2.modules.lookup g ≠ none) := by
  intro is
  induction is with
  | nil => intro st hi _; exact ⟨LoaderStep.refl hi R, fun _ i h => by simp at h⟩
  | cons i is ih =>
    intro st hi hR
    obtain ⟨hs, hr⟩ := hload i st hi (hR i (by simp))
    unfold runImports
    cases hl : load i st with
    | mk r st1 =>
      rw [hl] at hs hr
      cases r with
      | error e =>
        exact ⟨hs, fun h => by cases h⟩
      | ok m =>
        obtain ⟨hs2, hr2⟩ := ih st1 hs.inv fun j hj => hR j (List.mem_cons_of_mem _ hj)
        refine ⟨hs.trans hs2, fun h j hj g hg => ?_⟩
        rcases List.mem_cons.mp hj with rfl | hj
        · obtain ⟨g', hg', hm⟩ := hr m rfl
          rw [hg] at hg'
          injection hg' with hg'
          subst hg'
          have := hs2.keep g m hm
          intro hc
          rw [hc] at this
          cases this
        · exact hr2 h j hj g hg

theorem loadFile_spec : ∀ (fuel : Nat) (file : String) (pyx : Bool) (options : Option Nat) (st : LoaderState),
    LoaderInv env known st →
    LoaderStep env known st (loadFile env fuel file pyx options st).2 (Relation.ReflTransGen (Dep env known) file) ∧
      (∀ m, (loadFile env fuel file pyx options st).1 = .ok m →
        (loadFile env fuel file pyx options st).2.modules.lookup file = some m ∧
        (st.modules.lookup file = none → m.ident = st.next ∧ m.pyx = pyx ∧ m.options = options)) ∧
      (∀ e, (loadFile env fuel file pyx options st).1 = .error e →
        (0 < fuel → st.modules.lookup file = none) ∧
        (st.modules.lookup file = none →
          (loadFile env fuel file pyx options st).2.modules.lookup file = none)) := by
  intro fuel
  induction fuel with
  | zero =>
    intro file pyx options st hi
    refine ⟨LoaderStep.refl hi _, fun m h => (by cases h), fun e _ => ⟨fun h => (by omega), fun h => h⟩⟩
  | succ fuel ih =>
    intro file pyx options st hi
    unfold loadFile
    cases hl : st.modules.lookup file with
    | some m =>
      refine ⟨LoaderStep.refl hi _, fun m' h => ?_, fun e h => by cases h⟩
      injection h with h
      subst h
      exact ⟨hl, fun h => by cases h⟩
    | none =>
      cases hsrc : env.source file with
      | error e => exact ⟨LoaderStep.refl hi _, fun m h => (by cases h), fun _ _ => ⟨fun _ => rfl, fun _ => hl⟩⟩
      | ok imports =>
        have hunk : file ∉ known := fun h => hi.base file h hl
        have hdep : ∀ i ∈ imports, ∀ g, env.findImport i = .ok g → Dep env known file g := fun i hi g hg =>
          ⟨hunk, imports, hsrc, i, hi, hg⟩
        have hi0 : LoaderInv env known { st with next := st.next + 1 } :=
          ⟨fun f m h => ⟨(hi.file f m h).1, Nat.lt_succ_of_lt (hi.file f m h).2⟩, hi.inj, hi.base, hi.closed, hi.acyclic⟩
        have hrun := runImports_spec (env := env) (known := known)
          (R := Relation.TransGen (Dep env known) file)
          (load := fun i st => match env.findImport i with
              | .error e => (.error e, st)
              | .ok f => loadFile env fuel f pyx none st)
          (fun i st hi hR => by
            cases hf : env.findImport i with
            | error e => exact ⟨LoaderStep.refl hi _, fun m h => by cases h⟩
            | ok g =>
              obtain ⟨h1, h2, _⟩ := ih g pyx none st hi
              refine ⟨h1.mono fun f hr => (hR g hf).trans_left hr, fun m hm => ⟨g, rfl, (h2 m hm).1⟩⟩)
          imports _ hi0 (fun i hi g hg => .single (hdep i hi g hg))
        simp only
        generalize hrr : runImports (fun i st => match env.findImport i with
              | .error e => (.error e, st)
              | .ok f => loadFile env fuel f pyx none st) imports { st with next := st.next + 1 } = rr at hrun
        obtain ⟨r, st1⟩ := rr
        obtain ⟨hs, hr⟩ := hrun
        have hs' : LoaderStep env known st st1 (Relation.ReflTransGen (Dep env known) file) := by
          refine ⟨hs.inv, Nat.le_of_succ_le hs.next, hs.keep, fun f m h => ?_⟩
          rcases hs.new f m h with h | ⟨h, hi⟩
          · exact .inl h
          · exact .inr ⟨h.to_reflTransGen, Nat.le_of_succ_le hi⟩
        have hnone : st1.modules.lookup file = none := by
          cases hc : st1.modules.lookup file with
          | none => rfl
          | some m =>
            rcases hs.new file m hc with h | ⟨h, _⟩
            · have h : st.modules.lookup file = some m := h
              rw [hl] at h; cases h
            · rw [hs.inv.acyclic file h] at hc; cases hc
        cases r with
        | error e => exact ⟨hs', fun m h => (by cases h), fun _ _ => ⟨fun _ => trivial, fun _ => hnone⟩⟩
        | ok u =>
          have hr := hr rfl
          have hcyc : ¬ OnCycle env known file := by
            intro hc
            -- the next node of the cycle is an import, hence cached, but it is on the cycle
            obtain ⟨g, hg, hgf⟩ := Relation.TransGen.head'_iff.mp hc
            obtain ⟨_, is, his, i, hmem, hig⟩ := hg
            rw [hsrc] at his
            injection his with his
            subst his
            refine hr i hmem g hig (hs.inv.acyclic g ?_)
            exact Relation.TransGen.tail' hgf ⟨hunk, imports, hsrc, i, hmem, hig⟩
          have hlk : ∀ f, List.lookup f ((file, (⟨st.next, file, pyx, options⟩ : Mod)) :: st1.modules) =
              if f = file then some ⟨st.next, file, pyx, options⟩ else st1.modules.lookup f := by
            intro f
            rw [List.lookup_cons]
            by_cases h : f = file
            · simp [h]
            · rw [show (f == file) = false by simpa using h, if_neg h]
          have hold : ∀ f m, st1.modules.lookup f = some m → m.ident ≠ st.next := by
            intro f m h
            rcases hs.new f m h with h | ⟨_, h⟩
            · exact Nat.ne_of_lt (hi.file f m h).2
            · have h : st.next + 1 ≤ m.ident := h
              omega
          have hnext : st.next < st1.next := hs.next
          refine ⟨⟨⟨?_, ?_, ?_, ?_, ?_⟩, by have : st.next < st1.next := hs.next; exact Nat.le_of_lt this, ?_, ?_⟩, ?_, ?_⟩
          · intro f m h
            simp only [hlk] at h
            by_cases hf : f = file
            · rw [if_pos hf] at h
              injection h with h
              subst h
              exact ⟨hf.symm, hnext⟩
            · rw [if_neg hf] at h
              exact hs.inv.file f m h
          · intro f g m m' h1 h2 he
            simp only [hlk] at h1 h2
            by_cases hf : f = file
            · rw [if_pos hf] at h1
              injection h1 with h1
              by_cases hg : g = file
              · rw [hf, hg]
              · rw [if_neg hg] at h2
                exact absurd (by rw [← he, ← h1]) (hold g m' h2)
            · rw [if_neg hf] at h1
              by_cases hg : g = file
              · rw [if_pos hg] at h2
                injection h2 with h2
                exact absurd (by rw [he, ← h2]) (hold f m h1)
              · rw [if_neg hg] at h2
                exact hs.inv.inj f g m m' h1 h2 he
          · intro f hf
            simp only [hlk]
            by_cases hff : f = file
            · exact absurd (hff ▸ hf) hunk
            · rw [if_neg hff]; exact hs.inv.base f hf
          · intro f g hfc hd
            simp only [hlk] at hfc ⊢
            by_cases hg : g = file
            · rw [if_pos hg]; simp
            · rw [if_neg hg]
              by_cases hf : f = file
              · subst hf
                obtain ⟨_, is, his, i, hmem, hig⟩ := hd
                rw [hsrc] at his
                injection his with his
                subst his
                exact hr i hmem g hig
              · rw [if_neg hf] at hfc
                exact hs.inv.closed f g hfc hd
          · intro f hf
            simp only [hlk]
            by_cases hff : f = file
            · exact absurd (hff ▸ hf) hcyc
            · rw [if_neg hff]; exact hs.inv.acyclic f hf
          · intro f m h
            simp only [hlk]
            by_cases hff : f = file
            · rw [hff, hl] at h; cases h
            · rw [if_neg hff]; exact hs'.keep f m h
          · intro f m h
            simp only [hlk] at h
            by_cases hff : f = file
            · rw [if_pos hff] at h
              injection h with h
              subst h
              exact .inr ⟨hff ▸ Relation.ReflTransGen.refl, Nat.le_refl _⟩
            · rw [if_neg hff] at h
              exact hs'.new f m h
          · intro m h
            injection h with h
            subst h
            simp only [hlk, if_pos]
            exact ⟨trivial, fun _ => ⟨trivial, trivial, trivial⟩⟩
          · intro e h
            cases h

end Capnpy
