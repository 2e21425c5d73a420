import Verif.Spec.Build

/-!
# C61: incremental builds

`DistutilsCompiler.compile` (behind `capnpy_schemas` in `setup.py`) regenerates a module only if
the generated file is not newer than the schema.
-/

namespace Capnpy.Props

open Capnpy.Build Spec.Build

/-- The invariant of orderly histories. -/
structure BuildInv {C I O} (gen : Bool → O → I → C → Py (List Char)) (o : O) (d : Disk C I) : Prop where
  past : ∀ pyx src t, d.out pyx = some (src, t) → t ≤ d.now
  fresh : ∀ pyx src t, d.out pyx = some (src, t) → d.schemaTime < t → gen pyx o d.imports d.schema = .ok src
  pending : ∀ pyx src, (pyx, src) ∈ d.pending → gen pyx o d.imports d.schema = .ok src

theorem buildInv_setOut {C I O} {gen : Bool → O → I → C → Py (List Char)} {o : O} {d : Disk C I} {l : List (Bool × List Char)}
    (h : BuildInv gen o d) {pyx : Bool} {src : List Char} (hs : gen pyx o d.imports d.schema = .ok src)
    (hl : ∀ x ∈ l, x ∈ d.pending) : BuildInv gen o { setOut d pyx src with pending := l } := by
  refine ⟨?_, ?_, fun p s hm => h.pending p s (hl _ hm)⟩
  · intro p s t ht
    change (if p = pyx then some (src, d.now) else d.out p) = some (s, t) at ht
    split at ht
    · cases ht; exact Nat.le_refl _
    · exact h.past p s t ht
  · intro p s t ht hlt
    change (if p = pyx then some (src, d.now) else d.out p) = some (s, t) at ht
    split at ht
    · rename_i hp
      cases ht
      subst hp
      exact hs
    · exact h.fresh p s t ht hlt

theorem buildInv_step {C I O} {gen : Bool → O → I → C → Py (List Char)} {o : O} {d : Disk C I} (h : BuildInv gen o d)
    {e : Event C I O} (ha : Allowed o d e) : BuildInv gen o (step gen d e) := by
  cases e with
  | tick n => exact ⟨fun p s t ht => Nat.le_add_right_of_le (h.past p s t ht), h.fresh, h.pending⟩
  | save c =>
    refine ⟨h.past, fun p s t ht hlt => ?_, fun p s hm => ?_⟩
    · have := h.past p s t ht
      have hlt : d.now < t := hlt
      omega
    · have hp : d.pending = [] := ha
      have hm : (p, s) ∈ d.pending := hm
      rw [hp] at hm
      simp at hm
  | restore c t0 =>
    refine ⟨h.past, fun p s t ht hlt => ?_, fun p s hm => ?_⟩
    · have := ha.2 p s t ht
      have hlt : t0 < t := hlt
      omega
    · have hm : (p, s) ∈ d.pending := hm
      rw [ha.1] at hm
      simp at hm
  | saveImports i => exact absurd ha id
  | start pyx o' =>
    have ha : o' = o := ha
    subst ha
    show BuildInv gen o' (start gen pyx o' d).2
    unfold start
    split
    · exact h
    · cases hg : gen pyx o' d.imports d.schema with
      | error er => exact h
      | ok src =>
        refine ⟨h.past, h.fresh, fun p s hm => ?_⟩
        rcases List.mem_append.mp hm with hm | hm
        · exact h.pending p s hm
        · rw [List.mem_singleton] at hm
          cases hm
          exact hg
  | finish j =>
    show BuildInv gen o (finish j d)
    unfold finish
    cases hj : d.pending[j]? with
    | none => exact h
    | some x =>
      obtain ⟨pyx, src⟩ := x
      exact buildInv_setOut h (h.pending pyx src (List.mem_of_getElem? hj)) fun x hx => List.mem_of_mem_eraseIdx hx
  | kill j w =>
    have ha : w = none := ha
    subst ha
    show BuildInv gen o (kill j none d)
    unfold kill
    cases hj : d.pending[j]? with
    | none => exact h
    | some x => exact ⟨h.past, h.fresh, fun p s hm => h.pending p s (List.mem_of_mem_eraseIdx hm)⟩

theorem buildInv_run {C I O} {gen : Bool → O → I → C → Py (List Char)} {o : O} {d : Disk C I} (h : BuildInv gen o d)
    {es : List (Event C I O)} (he : Orderly gen o d es) : BuildInv gen o (run gen d es) := by
  induction es generalizing d with
  | nil => exact h
  | cons e es ih => exact ih (buildInv_step h he.1) he.2

theorem buildInv_unbuilt {C I O} (gen : Bool → O → I → C → Py (List Char)) (o : O) {d : Disk C I} (h : Unbuilt d) :
    BuildInv gen o d :=
  ⟨fun p s t ht => (by rw [h.1] at ht; cases ht), fun p s t ht => (by rw [h.1] at ht; cases ht),
    fun p s hm => (by rw [h.2] at hm; simp at hm)⟩

/-- C61: after any orderly history, when `compile` returns the output is what a build from scratch would give: either
`compile` finds the output up to date, and it is, or it writes it.  Any number of builds (in both modes) may run at the
same time. -/
theorem C61_correct {C I O} (gen : Bool → O → I → C → Py (List Char)) (o : O) {d0 : Disk C I} (h0 : Unbuilt d0)
    {es : List (Event C I O)} (he : Orderly gen o d0 es) :
    (∀ pyx, (start gen pyx o (run gen d0 es)).1 = .current → Fresh gen o pyx (run gen d0 es)) ∧
    (∀ j pyx src, (run gen d0 es).pending[j]? = some (pyx, src) → Fresh gen o pyx (finish j (run gen d0 es))) ∧
    (∀ pyx e, (start gen pyx o (run gen d0 es)).1 = .raised e →
      gen pyx o (run gen d0 es).imports (run gen d0 es).schema = .error e ∧
      (start gen pyx o (run gen d0 es)).2 = run gen d0 es) := by
  have h := buildInv_run (buildInv_unbuilt gen o h0) he
  generalize run gen d0 es = d at h
  refine ⟨fun pyx hc => ?_, fun j pyx src hj => ?_, fun pyx e hr => ?_⟩
  · unfold start at hc
    split at hc
    · rename_i hu
      unfold upToDate at hu
      cases ho : d.out pyx with
      | none => rw [ho] at hu; cases hu
      | some x =>
        obtain ⟨src, t⟩ := x
        rw [ho] at hu
        have hu : d.schemaTime < t := by simpa using hu
        exact ⟨src, t, ho, h.fresh pyx src t ho hu⟩
    · cases hg : gen pyx o d.imports d.schema <;> rw [hg] at hc <;> cases hc
  · refine ⟨src, d.now, ?_, ?_⟩
    · unfold finish
      rw [hj]
      show (if pyx = pyx then some (src, d.now) else d.out pyx) = some (src, d.now)
      rw [if_pos rfl]
    · have := h.pending pyx src (List.mem_of_getElem? hj)
      unfold finish
      rw [hj]
      exact this
  · unfold start at hr ⊢
    split at hr
    · cases hr
    · rename_i hu
      rw [if_neg hu]
      cases hg : gen pyx o d.imports d.schema with
      | error e' => rw [hg] at hr; cases hr; exact ⟨rfl, rfl⟩
      | ok src => rw [hg] at hr; cases hr

/-- C61: nothing is generated again if the schema was last saved before (not in the same tick of the clock as) the last
build: the second of two builds in a row finds the output up to date. -/
theorem C61_no_rebuild {C I O} (gen : Bool → O → I → C → Py (List Char)) (o' : O) {d : Disk C I} {j : Nat} {pyx : Bool}
    {src : List Char} (hj : d.pending[j]? = some (pyx, src)) (ht : d.schemaTime < d.now) (es : List (Event C I O))
    (he : ∀ e ∈ es, match e with
      | .tick _ => True
      | .start _ _ => True
      | .saveImports _ => True
      | _ => False) :
    (start gen pyx o' (run gen (finish j d) es)).1 = .current := by
  have key : ∀ (es : List (Event C I O)) (d : Disk C I), upToDate d pyx = true → (∀ e ∈ es, match e with
      | .tick _ => True
      | .start _ _ => True
      | .saveImports _ => True
      | _ => False) → upToDate (run gen d es) pyx = true := by
    intro es
    induction es with
    | nil => intro d h _; exact h
    | cons e es ih =>
      intro d h he
      refine ih _ ?_ fun x hx => he x (List.mem_cons_of_mem _ hx)
      have h1 := he e List.mem_cons_self
      cases e with
      | tick n => exact h
      | saveImports i => exact h
      | start p o =>
        show upToDate (start gen p o d).2 pyx = true
        unfold start
        split
        · exact h
        · cases gen p o d.imports d.schema <;> exact h
      | save c => exact absurd h1 id
      | restore c t => exact absurd h1 id
      | finish j => exact absurd h1 id
      | kill j w => exact absurd h1 id
  unfold start
  rw [if_pos]
  refine key es _ ?_ he
  unfold upToDate finish
  rw [hj]
  show (match (if pyx = pyx then some (src, d.now) else d.out pyx) with
    | none => false
    | some (_, t) => decide (t > d.schemaTime)) = true
  rw [if_pos rfl]
  simpa using ht

/-! ## The conditions are needed -/

/-- Build and wait. -/
def buildNow {C I O} (gen : Bool → O → I → C → Py (List Char)) (pyx : Bool) (o : O) (d : Disk C I) : Disk C I :=
  run gen d [.start pyx o, .finish d.pending.length]

theorem buildNow_eq {C I O} (gen : Bool → O → I → C → Py (List Char)) (pyx : Bool) (o : O) {d : Disk C I}
    (hu : upToDate d pyx = false) {src : List Char} (hg : gen pyx o d.imports d.schema = .ok src) :
    (buildNow gen pyx o d).out pyx = some (src, d.now) ∧ (buildNow gen pyx o d).schemaTime = d.schemaTime ∧
    (buildNow gen pyx o d).now = d.now ∧ (buildNow gen pyx o d).schema = d.schema ∧
    (buildNow gen pyx o d).imports = d.imports ∧ (buildNow gen pyx o d).pending = d.pending := by
  have e : buildNow gen pyx o d = finish d.pending.length (start gen pyx o d).2 := rfl
  rw [e]
  unfold start
  rw [if_neg (by simp [hu]), hg]
  unfold finish
  have : (d.pending ++ [(pyx, src)])[d.pending.length]? = some (pyx, src) := by simp
  simp only [this]
  refine ⟨?_, rfl, rfl, rfl, rfl, ?_⟩
  · show (if pyx = pyx then some (src, d.now) else d.out pyx) = some (src, d.now)
    rw [if_pos rfl]
  · show (d.pending ++ [(pyx, src)]).eraseIdx d.pending.length = d.pending
    rw [List.eraseIdx_append_of_length_le (Nat.le_refl _)]
    simp

/-- C61: a build that is not interrupted, after any orderly history, leaves the output that a build from scratch would
leave, whenever the schema can be compiled. -/
theorem C61_build {C I O} (gen : Bool → O → I → C → Py (List Char)) (o : O) {d0 : Disk C I} (h0 : Unbuilt d0)
    {es : List (Event C I O)} (he : Orderly gen o d0 es) (pyx : Bool) {src : List Char}
    (hg : gen pyx o (run gen d0 es).imports (run gen d0 es).schema = .ok src) :
    ∃ t, (run gen d0 (es ++ [.start pyx o, .finish (run gen d0 es).pending.length])).out pyx = some (src, t) := by
  have e : run gen d0 (es ++ [.start pyx o, .finish (run gen d0 es).pending.length]) =
      buildNow gen pyx o (run gen d0 es) := by
    unfold buildNow run
    rw [List.foldl_append]
  rw [e]
  have hc := (C61_correct gen o h0 he).1 pyx
  generalize run gen d0 es = d at hg hc
  cases hu : upToDate d pyx with
  | false => exact ⟨_, (buildNow_eq gen pyx o hu hg).1⟩
  | true =>
    have hs : start gen pyx o d = (.current, d) := by unfold start; rw [if_pos hu]
    obtain ⟨src', t, h1, h2⟩ := hc (by rw [hs])
    rw [hg] at h2
    cases h2
    refine ⟨t, ?_⟩
    have e2 : buildNow gen pyx o d = finish d.pending.length (start gen pyx o d).2 := rfl
    rw [e2, hs]
    unfold finish
    simp only [List.getElem?_eq_none (Nat.le_refl _)]
    exact h1

/-- Finding: a build with other options returns the module built with the old ones. -/
theorem C61_options_ignored {C I O} (gen : Bool → O → I → C → Py (List Char)) (pyx : Bool) (o o' : O) {d : Disk C I}
    (hu : upToDate d pyx = false) {src : List Char} (hg : gen pyx o d.imports d.schema = .ok src)
    (ht : d.schemaTime < d.now) :
    (start gen pyx o' (buildNow gen pyx o d)).1 = .current ∧ ∃ t, (buildNow gen pyx o d).out pyx = some (src, t) := by
  obtain ⟨h1, h2, h3, _⟩ := buildNow_eq gen pyx o hu hg
  refine ⟨?_, _, h1⟩
  unfold start
  rw [if_pos]
  unfold upToDate
  rw [h1]
  simpa [h2] using ht

/-- Finding: a change of an imported schema is not noticed. -/
theorem C61_imports_ignored {C I O} (gen : Bool → O → I → C → Py (List Char)) (pyx : Bool) (o : O) {d : Disk C I}
    (hu : upToDate d pyx = false) {src : List Char} (hg : gen pyx o d.imports d.schema = .ok src)
    (ht : d.schemaTime < d.now) (i : I) (n : Nat) :
    (start gen pyx o (run gen (buildNow gen pyx o d) [.tick n, .saveImports i])).1 = .current ∧
      ∃ t, (run gen (buildNow gen pyx o d) [.tick n, .saveImports i]).out pyx = some (src, t) := by
  obtain ⟨h1, h2, h3, _⟩ := buildNow_eq gen pyx o hu hg
  refine ⟨?_, _, h1⟩
  unfold start
  rw [if_pos]
  show upToDate (buildNow gen pyx o d) pyx = true
  unfold upToDate
  rw [h1]
  simpa [h2] using ht

/-- Finding: an older version of the schema that is restored with its time is not compiled. -/
theorem C61_restored_ignored {C I O} (gen : Bool → O → I → C → Py (List Char)) (pyx : Bool) (o : O) {d : Disk C I}
    (hu : upToDate d pyx = false) {src : List Char} (hg : gen pyx o d.imports d.schema = .ok src) (c : C) {t : Nat}
    (ht : t < d.now) :
    (start gen pyx o (run gen (buildNow gen pyx o d) [.restore c t])).1 = .current ∧
      ∃ t', (run gen (buildNow gen pyx o d) [.restore c t]).out pyx = some (src, t') := by
  obtain ⟨h1, h2, h3, _⟩ := buildNow_eq gen pyx o hu hg
  refine ⟨?_, _, h1⟩
  unfold start
  rw [if_pos]
  unfold upToDate
  show (match (buildNow gen pyx o d).out pyx with
    | none => false
    | some (_, t') => decide (t' > t)) = true
  rw [h1]
  simpa using ht

/-- Finding: a schema saved while it is being compiled is not compiled again. -/
theorem C61_race {C I O} (gen : Bool → O → I → C → Py (List Char)) (pyx : Bool) (o : O) {d : Disk C I}
    (hu : upToDate d pyx = false) {src : List Char} (hg : gen pyx o d.imports d.schema = .ok src) (c : C) {n : Nat}
    (hn : 0 < n) :
    (start gen pyx o (run gen d [.start pyx o, .save c, .tick n, .finish d.pending.length])).1 = .current ∧
      ∃ t, (run gen d [.start pyx o, .save c, .tick n, .finish d.pending.length]).out pyx = some (src, t) ∧
        (run gen d [.start pyx o, .save c, .tick n, .finish d.pending.length]).schema = c := by
  have e : run gen d [.start pyx o, .save c, .tick n, .finish d.pending.length] =
      finish d.pending.length ({ d with schema := c, schemaTime := d.now, now := d.now + n, pending := d.pending ++ [(pyx, src)] }) := by
    show finish _ (step gen (step gen (start gen pyx o d).2 (.save c : Event C I O)) (.tick n : Event C I O)) = _
    unfold start
    rw [if_neg (by simp [hu]), hg]
    rfl
  rw [e]
  unfold finish
  have : (d.pending ++ [(pyx, src)])[d.pending.length]? = some (pyx, src) := by simp
  simp only [this]
  refine ⟨?_, d.now + n, ?_, rfl⟩
  · unfold start
    rw [if_pos]
    unfold upToDate setOut
    simp
    omega
  · unfold setOut
    simp

/-- Finding: if a build is killed while it writes, the next one takes the incomplete file for up to date. -/
theorem C61_killed {C I O} (gen : Bool → O → I → C → Py (List Char)) (pyx : Bool) (o : O) {d : Disk C I}
    (hu : upToDate d pyx = false) {src : List Char} (hg : gen pyx o d.imports d.schema = .ok src)
    (ht : d.schemaTime < d.now) (k : Nat) :
    (start gen pyx o (run gen d [.start pyx o, .kill d.pending.length (some k)])).1 = .current ∧
      ∃ t, (run gen d [.start pyx o, .kill d.pending.length (some k)]).out pyx = some (src.take k, t) := by
  have e : run gen d [.start pyx o, .kill d.pending.length (some k)] =
      kill d.pending.length (some k) { d with pending := d.pending ++ [(pyx, src)] } := by
    show kill d.pending.length (some k) (start gen pyx o d).2 = _
    unfold start
    rw [if_neg (by simp [hu]), hg]
  rw [e]
  unfold kill
  have : (d.pending ++ [(pyx, src)])[d.pending.length]? = some (pyx, src) := by simp
  simp only [this]
  refine ⟨?_, d.now, ?_⟩
  · unfold start
    rw [if_pos]
    unfold upToDate setOut
    simpa using ht
  · unfold setOut
    simp

/-! ## A case that meets the hypotheses -/

/-- Save, build in both modes at the same time, save, build: the history is orderly, and the output is that of the last
version. -/
example : Orderly (fun _ (_ : Unit) (_ : Unit) (c : Nat) => (.ok (List.replicate c 'x') : Py (List Char))) ()
      ⟨7, 1, 3, (), fun _ => none, []⟩
      [.start true (), .start false (), .tick 2, .finish 1, .finish 0, .save 2, .start true (), .finish 0] ∧
    (run (fun _ (_ : Unit) (_ : Unit) (c : Nat) => (.ok (List.replicate c 'x') : Py (List Char)))
      ⟨7, 1, 3, (), fun _ => none, []⟩
      [.start true (), .start false (), .tick 2, .finish 1, .finish 0, .save 2, .start true (), .finish 0]).out true =
        some (['x', 'x'], 9) := by
  refine ⟨⟨rfl, rfl, trivial, trivial, trivial, ?_, rfl, trivial, trivial⟩, by decide +kernel⟩
  rfl

end Capnpy.Props
