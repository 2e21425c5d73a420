import Verif.Proof.ModuleRun

/-!
# C51 and C52: the generated module

C51: the names of the classes.  C52: importing the module gives every type of the schema
file under its name, with its id.
-/

namespace Capnpy.Props

open Spec Capnpy.Module

variable {g : Gen} {file : Tree}

/-! ## C51: names -/

/-- C51: the class of the type `Outer.Inner` is `Outer_Inner` in the module, its name at run
time is `Outer.Inner`. -/
theorem C51_names (ok : FileOK g file) {p : List Str} {t : Tree} (h : Sub file p t) {fuel : Nat}
    (hf : p.length < fuel) :
    g.compileName fuel t.node = .ok (under p) ∧ g.runtimeName fuel t.node = .ok (dotted p) := by
  have := h.compileName ok [] hf
  rw [List.nil_append] at this
  exact ⟨this, h.runtimeName ok (by omega)⟩

/-- C51: different nodes of a file have different class names. -/
theorem C51_injective (ok : FileOK g file) {p q : List Str} {t u : Tree} (h : Sub file p t) (h' : Sub file q u)
    {fuel fuel' : Nat} (hf : p.length < fuel) (hf' : q.length < fuel')
    (e : g.compileName fuel t.node = g.compileName fuel' u.node) : p = q ∧ t = u := by
  rw [(C51_names ok h hf).1, (C51_names ok h' hf').1] at e
  injection e with e
  have := h.under_inj ok h' e
  subst this
  exact ⟨rfl, h.path_unique ok h'⟩

/-- A node of another file: the name starts with the import name. -/
theorem chain_fullname {f : Node} (hf : f.isFile = true) (hs : f.scopeId = 0) {imp : Str}
    (hi : g.importname f.id = some imp) {p : List Str} {n : Node} (h : Chain g f p n) (sep : Str) :
    ∀ {fuel : Nat}, p.length < fuel → g.fullname sep fuel n = .ok (imp ++ (p.map fun s => sep ++ s).flatten) := by
  induction h with
  | file =>
    intro fuel hl
    cases fuel with
    | zero => omega
    | succ fuel =>
      unfold Gen.fullname Gen.parent
      rw [if_pos hs]
      show g.shortname f = _
      unfold Gen.shortname
      rw [if_pos hf, hi]
      simp
  | @kid p m n h hs' h0 hm hc hf' ih =>
    intro fuel hl
    rw [List.length_append, List.length_cons, List.length_nil] at hl
    cases fuel with
    | zero => omega
    | succ fuel =>
      unfold Gen.fullname
      have hp : g.parent n = .ok (some m) := by
        unfold Gen.parent
        rw [hs', if_neg h0, hm]
        rfl
      have hsn : g.shortname n = .ok n.short := by
        unfold Gen.shortname
        rw [hf']
        rfl
      rw [bind_okP hp]
      simp only
      rw [if_neg hc, bind_okP (ih (by omega)), bind_okP hsn]
      simp [pure, Except.pure]

theorem chain_imported {f : Node} (hf : f.isFile = true) (hc : f.id ≠ g.current) {p : List Str} {n : Node}
    (h : Chain g f p n) : ∀ {fuel : Nat}, p.length < fuel → g.isImported fuel n = .ok true := by
  induction h with
  | file =>
    intro fuel hl
    cases fuel with
    | zero => omega
    | succ fuel =>
      unfold Gen.isImported
      rw [hf, if_pos (by simpa using hc)]
  | @kid p m n h hs' h0 hm hc' hf' ih =>
    intro fuel hl
    rw [List.length_append, List.length_cons, List.length_nil] at hl
    cases fuel with
    | zero => omega
    | succ fuel =>
      unfold Gen.isImported
      have hp : g.parent n = .ok (some m) := by
        unfold Gen.parent
        rw [hs', if_neg h0, hm]
        rfl
      rw [hf']
      simp only [Bool.false_and, Bool.false_eq_true, if_false]
      rw [bind_okP hp]
      exact ih (by omega)

/-- C51: the type `Outer.Inner` of another file is called `imp.Outer.Inner`, where `imp` is
the import name of the file. -/
theorem C51_imported {f : Node} (hf : f.isFile = true) (hs : f.scopeId = 0) (hc : f.id ≠ g.current) {imp : Str}
    (hi : g.importname f.id = some imp) {p : List Str} {n : Node} (h : Chain g f p n) {fuel : Nat}
    (hl : p.length < fuel) : g.compileName fuel n = .ok (dotted (imp :: p)) := by
  unfold Gen.compileName
  rw [bind_okP (chain_imported hf hc h hl)]
  simp only [if_true]
  unfold Gen.runtimeName
  rw [chain_fullname hf hs hi h _ hl]
  congr 1
  have key : ∀ (x : Str) (q : List Str), dotted (x :: q) = x ++ (q.map fun s => (['.'] ++ []) ++ s).flatten := by
    intro x q
    induction q generalizing x with
    | nil => simp [dotted, joinWith]
    | cons y q ih =>
      have : dotted (x :: y :: q) = x ++ ['.'] ++ dotted (y :: q) := rfl
      rw [this, ih]
      simp
  exact (key imp p).symm

/-- C51: the members of the tag of a union: there are as many as members of the union, and
number `d` is the name of the field with the discriminant `d`. -/
theorem C51_enum_items {count : Nat} {fs : List Module.Field}
    (h1 : ∀ f ∈ fs, ∀ d, f.disc = some d → d < count) (h2 : ∀ i, i < count → ∃ f ∈ fs, f.disc = some i)
    (h3 : ∀ f ∈ fs, ∀ f' ∈ fs, f.disc ≠ none → f.disc = f'.disc → f = f') :
    ∃ names : List Str, getEnumItems count fs = .ok (names.map some) ∧ names.length = count ∧
      ∀ f ∈ fs, ∀ (d : Nat), f.disc = some d → names[d]? = some f.pyname := by
  obtain ⟨names, e1, e2, e3⟩ := getEnumItems_spec h1 h2
  refine ⟨names, e1, e2, ?_⟩
  intro f hf d hd
  have hlt : d < names.length := by rw [e2]; exact h1 f hf d hd
  obtain ⟨f', hf', hd', hn⟩ := e3 d names[d] (List.getElem?_eq_getElem hlt)
  rw [List.getElem?_eq_getElem hlt, ← hn, h3 f hf f' hf' (by rw [hd]; simp) (hd.trans hd'.symm)]

/-- C51: a discriminant that is not smaller than `discriminantCount` is an IndexError. -/
theorem C51_enum_items_range {count : Nat} {fs : List Module.Field} {f : Module.Field} {d : Nat} (hf : f ∈ fs)
    (hd : f.disc = some d) (h : count ≤ d) : getEnumItems count fs = .error .indexError := by
  unfold getEnumItems
  have key : ∀ (fs : List Module.Field) (items : List (Option Str)), items.length = count → f ∈ fs →
      fs.foldlM (init := items) (fun items f =>
      match f.disc with
      | none => (Except.ok items : Py _)
      | some d => if d < items.length then .ok (items.set d (some f.pyname)) else .error .indexError)
        = .error .indexError := by
    intro fs
    induction fs with
    | nil => intro items _ h; cases h
    | cons f' fs ih =>
      intro items hl hm
      rw [List.foldlM_cons]
      rcases List.mem_cons.mp hm with rfl | hm
      · simp only [hd]
        rw [if_neg (by omega)]
        rfl
      · cases hd' : f'.disc with
        | none => exact ih items hl hm
        | some d' =>
          simp only
          by_cases hlt : d' < items.length
          · rw [if_pos hlt]
            exact ih _ (by rw [List.length_set]; exact hl) hm
          · rw [if_neg hlt]; rfl
  exact key fs _ List.length_replicate hf

/-! ## C52: the import -/

/-- Enough recursion depth for generating the module. -/
def Deep (file : Tree) (F : Nat) : Prop := ∀ p t, Sub file p t → 2 * p.length ≤ F

theorem the_import (ok : FileOK g file) (sup : Supported g file) {F : Nat} (hF : Deep file F) {σ0 σ : State}
    (h : importModule g F σ0 = .ok σ) : ∃ A B, Imported g file A B σ0 σ := by
  obtain ⟨A, B, σ', h1, h2⟩ := import_spec ok sup hF σ0
  rw [h] at h1
  injection h1 with h1
  subst h1
  exact ⟨A, B, h2⟩

/-- C52: the module of a supported file can be generated and imported. -/
theorem C52_imports (ok : FileOK g file) (sup : Supported g file) {F : Nat} (hF : Deep file F) (σ0 : State) :
    ∃ σ, importModule g F σ0 = .ok σ := by
  obtain ⟨A, B, σ, h, -⟩ := import_spec ok sup hF σ0
  exact ⟨σ, h⟩

theorem id_of {A B : List Str → Nat} {σ0 σ : State} (im : Imported g file A B σ0 σ) {p : List Str} {t : Tree}
    (h : Sub file p t) (hc : Classy t.node) : HasId σ (.ref (A p)) t.node.id := by
  unfold HasId State.getattr
  rcases hc with hc | ⟨ms, hc⟩
  · obtain ⟨⟨d, h1, h2⟩, -⟩ := im.structs p t h hc
    simp only [h1, Option.bind_some, h2.1]
  · obtain ⟨r, h1, h2⟩ := im.enums p t h ms hc
    simp only [h1, Option.bind_some, h2]

theorem ancestors_type (ok : FileOK g file) {p : List Str} {t k : Tree} (h : Sub file p t) (hk : k ∈ t.kids)
    (ht : Node.isType k.node) : Node.isType t.node := by
  have hst : Node.isStruct t.node := by
    apply Classical.byContradiction
    intro hn
    rw [ok.leaves _ _ h hn] at hk
    cases hk
  refine .inl ⟨hst, fun hg => ?_⟩
  have hkg := ok.groups _ _ h hg k hk
  rcases ht with ⟨_, h'⟩ | ⟨ms, h'⟩
  · exact h' hkg
  · obtain ⟨_, _, _, h2⟩ := hkg
    rw [h'] at h2
    cases h2

theorem getattr_ref {σ : State} {a : Nat} {d : Dict} {s : Str} {o : Obj} (h1 : σ.heap[a]? = some d)
    (h2 : d.lookup s = some o) : σ.getattr (.ref a) s = .ok o := by
  unfold State.getattr
  simp only [h1, Option.bind_some, h2]

theorem attrs_snoc {σ : State} {o o' : Obj} {r : List Str} {a : Nat} {s : Str} (h : attrs σ o r = .ok (.ref a))
    (h' : σ.getattr (.ref a) s = .ok o') : attrs σ o (r ++ [s]) = .ok o' := by
  unfold attrs at h ⊢
  rw [List.foldlM_append, bind_okP h, List.foldlM_cons, bind_okP h']
  rfl

theorem attrs_of (ok : FileOK g file) {A B : List Str → Nat} {σ0 σ : State} (im : Imported g file A B σ0 σ)
    {p : List Str} {t : Tree} (h : Sub file p t) : Node.isType t.node → ∃ x r, p = x :: r ∧
      σ.globals.lookup x = some (.ref (A [x])) ∧ attrs σ (.ref (A [x])) r = .ok (.ref (A p)) := by
  induction h with
  | @top k hk =>
    intro ht
    exact ⟨_, [], rfl, im.typed.cls _ _ (.top hk) (Classy.of_type ht), rfl⟩
  | @kid p t k h hk ih =>
    intro ht
    have htt := ancestors_type ok h hk ht
    obtain ⟨x, r, rfl, h1, h2⟩ := ih htt
    refine ⟨x, r ++ [k.node.short], rfl, h1, ?_⟩
    have hst : Node.isStruct t.node := by
      apply Classical.byContradiction
      intro hn
      rw [ok.leaves _ _ h hn] at hk
      cases hk
    obtain ⟨⟨d, e1, e2⟩, -⟩ := im.structs _ _ h hst
    exact attrs_snoc h2 (getattr_ref e1 (e2.2.2.1 k hk ht))

theorem evalPath_dotted {σ : State} {x : Str} {r : List Str} {a : Nat} {o : Obj} (hd : ∀ s ∈ x :: r, '.' ∉ s)
    (h1 : σ.globals.lookup x = some (.ref a)) (h2 : attrs σ (.ref a) r = .ok o) :
    σ.evalPath [] (dotted (x :: r)) = .ok o := by
  unfold State.evalPath dotted
  rw [split_join (by simp) hd]
  simp only
  have : σ.lookup [] x = .ok (.ref a) := by
    unfold State.lookup
    simp only [List.lookup_nil, h1]
  rw [bind_okP this]
  exact h2

/-- C52: every struct and every enum of the file, also nested ones, is found under its dotted
name, e.g. `mod.Outer.Inner`, and under the name of its class.  It has the id of the
schema.  Its item type is bound, too. -/
theorem C52_types (ok : FileOK g file) (sup : Supported g file) {F : Nat} (hF : Deep file F) {σ0 σ : State}
    (hi : importModule g F σ0 = .ok σ) {p : List Str} {t : Tree} (h : Sub file p t) (ht : Node.isType t.node) :
    ∃ a, σ.evalPath [] (dotted p) = .ok (.ref a) ∧ σ.evalPath [] (under p) = .ok (.ref a) ∧
      HasId σ (.ref a) t.node.id ∧ σ.evalPath [] (itemTypeName (under p)) = .ok (.itemType a) := by
  obtain ⟨A, B, im⟩ := the_import ok sup hF hi
  have hc := Classy.of_type ht
  obtain ⟨x, r, rfl, h1, h2⟩ := attrs_of ok im h ht
  refine ⟨A (x :: r), evalPath_dotted (h.no_dot ok) h1 h2, ?_, id_of im h hc, ?_⟩
  · exact evalPath_nodot (h.under_no_dot ok) rfl (im.typed.cls _ _ h hc)
  · refine evalPath_nodot (itemTypeName_no_dot ok h) rfl ?_
    rcases hc with hc | hc
    · exact (im.structs _ _ h hc).2
    · exact im.typed.item _ _ h hc

/-- C52: the class of a group is found under the name of its class and has the id of the
group. -/
theorem C52_groups (ok : FileOK g file) (sup : Supported g file) {F : Nat} (hF : Deep file F) {σ0 σ : State}
    (hi : importModule g F σ0 = .ok σ) {p : List Str} {t : Tree} (h : Sub file p t) (ht : Node.isGroup t.node) :
    ∃ a, σ.evalPath [] (under p) = .ok (.ref a) ∧ HasId σ (.ref a) t.node.id := by
  obtain ⟨A, B, im⟩ := the_import ok sup hF hi
  obtain ⟨c, f, k, hk⟩ := ht
  have hc : Classy t.node := .inl ⟨_, _, _, _, hk⟩
  exact ⟨A p, evalPath_nodot (h.under_no_dot ok) rfl (im.typed.cls _ _ h hc), id_of im h hc⟩

/-- C52: the `__name__` of the class of a struct is the dotted name. -/
theorem C52_class_name (ok : FileOK g file) (sup : Supported g file) {F : Nat} (hF : Deep file F) {σ0 σ : State}
    (hi : importModule g F σ0 = .ok σ) {p : List Str} {t : Tree} (h : Sub file p t) (ht : Node.isStruct t.node) :
    ∃ a, σ.evalPath [] (under p) = .ok (.ref a) ∧ σ.getattr (.ref a) "__name__".toList = .ok (.str (dotted p)) := by
  obtain ⟨A, B, im⟩ := the_import ok sup hF hi
  refine ⟨A p, evalPath_nodot (h.under_no_dot ok) rfl (im.typed.cls _ _ h (.inl ht)), ?_⟩
  obtain ⟨⟨d, e1, e2⟩, -⟩ := im.structs _ _ h ht
  unfold State.getattr
  simp only [e1, Option.bind_some, e2.2.1]

/-- C52: enumerant number `i` of an enum is the attribute of this name, with the value `i`. -/
theorem C52_enum_members (ok : FileOK g file) (sup : Supported g file) {F : Nat} (hF : Deep file F) {σ0 σ : State}
    (hi : importModule g F σ0 = .ok σ) {p : List Str} {t : Tree} (h : Sub file p t) {ms : List Str}
    (ht : t.node.kind = .enum ms) (hn : ms.Nodup) {i : Nat} {m : Str} (hm : ms[i]? = some m) :
    ∃ a, σ.evalPath [] (dotted p) = .ok (.ref a) ∧ σ.getattr (.ref a) m = .ok (.int i) := by
  obtain ⟨A, B, im⟩ := the_import ok sup hF hi
  obtain ⟨x, r, rfl, h1, h2⟩ := attrs_of ok im h (.inr ⟨ms, ht⟩)
  refine ⟨A (x :: r), evalPath_dotted (h.no_dot ok) h1 h2, ?_⟩
  obtain ⟨r', e1, -⟩ := im.enums _ _ h ms ht
  unfold State.getattr
  simp only [e1, Option.bind_some, memDict_lookup hn hm, Nat.zero_add]

/-- C52: `__tag__` of a class with a union is an enum where the name of a member of the union
has its discriminant as value. -/
theorem C52_union_tag (ok : FileOK g file) (sup : Supported g file) {F : Nat} (hF : Deep file F) {σ0 σ : State}
    (hi : importModule g F σ0 = .ok σ) {p : List Str} {t : Tree} (h : Sub file p t) {gr : Bool} {count : Nat}
    {fs : List Module.Field} {key : Bool} (ht : t.node.kind = .struct gr count (some fs) key) (hc : 0 < count)
    (hd : ∀ f ∈ fs, ∀ f' ∈ fs, f.disc ≠ none → f'.disc ≠ none → f.disc = f'.disc ∨ f.pyname = f'.pyname → f = f')
    {f : Module.Field} (hf : f ∈ fs) {d : Nat} (hfd : f.disc = some d) :
    ∃ a b, σ.evalPath [] (under p) = .ok (.ref a) ∧ σ.getattr (.ref a) "__tag__".toList = .ok (.ref b) ∧
      σ.getattr (.ref b) f.pyname = .ok (.int d) := by
  obtain ⟨A, B, im⟩ := the_import ok sup hF hi
  have hst : Node.isStruct t.node := ⟨_, _, _, _, ht⟩
  obtain ⟨fs', hfs', h2, h1⟩ := ok.unions _ _ h _ _ _ _ ht hc
  injection hfs' with hfs'
  subst hfs'
  obtain ⟨names, n1, n2, n3⟩ := getEnumItems_spec h1 h2
  have htag : tagItems count (some fs) = names.map some := by
    unfold tagItems enumItems
    rw [if_neg (by omega)]
    simp only [n1]
  have hne : tagItems count (some fs) ≠ [] := by
    rw [htag]
    intro e
    have := congrArg List.length e
    rw [List.length_map, n2, List.length_nil] at this
    omega
  have hnames : ∀ i y, names[i]? = some y → ∃ f ∈ fs, f.disc = some i ∧ f.pyname = y := n3
  have hnd : names.Nodup := by
    rw [List.nodup_iff_getElem?_ne_getElem?]
    intro i j hij hj e
    have hi' : i < names.length := by omega
    rw [List.getElem?_eq_getElem hi', List.getElem?_eq_getElem hj] at e
    injection e with e
    obtain ⟨f1, m1, d1, p1⟩ := n3 i _ (List.getElem?_eq_getElem hi')
    obtain ⟨f2, m2, d2, p2⟩ := n3 j _ (List.getElem?_eq_getElem hj)
    have := hd f1 m1 f2 m2 (by rw [d1]; simp) (by rw [d2]; simp) (.inr (p1.trans (e.trans p2.symm)))
    subst this
    rw [d1] at d2
    injection d2 with d2
    omega
  refine ⟨A p, B p, evalPath_nodot (h.under_no_dot ok) rfl (im.typed.cls _ _ h (.inl hst)), ?_, ?_⟩
  · obtain ⟨⟨dd, e1, e2⟩, -⟩ := im.structs _ _ h hst
    unfold State.getattr
    simp only [e1, Option.bind_some, e2.2.2.2.1 _ _ _ _ ht hne]
  · obtain ⟨names', r, e1, e2⟩ := im.tags _ _ h _ _ _ _ ht hne
    rw [htag] at e1
    have : names = names' := List.map_injective_iff.mpr (Option.some_injective _) e1
    subst this
    have hlt : d < names.length := by rw [n2]; exact h1 f hf d hfd
    obtain ⟨f', m', d', p'⟩ := n3 d _ (List.getElem?_eq_getElem hlt)
    have := hd f hf f' m' (by rw [hfd]; simp) (by rw [d']; simp) (.inl (hfd.trans d'.symm))
    subst this
    refine (getattr_ref e2 (memDict_lookup (i := d) hnd (by rw [List.getElem?_eq_getElem hlt, p']))).trans ?_
    simp

theorem IsItemA.item {A B : List Str → Nat} {σ0 σ : State} (im : Imported g file A B σ0 σ) : ∀ {e : Ty} {o : Obj},
    IsItemA file A e o → IsItem σ e o := by
  intro e
  induction e with
  | builtin => intro o h; cases o <;> first | exact h.elim | trivial
  | other => intro o h; cases o <;> exact h.elim
  | list e ih => intro o h; cases o <;> first | exact h.elim | exact ih h
  | struct i =>
    intro o h
    cases o <;> first | exact h.elim | skip
    obtain ⟨q, u, hq, rfl, hc, rfl⟩ := h
    exact id_of im hq hc
  | enum i =>
    intro o h
    cases o <;> first | exact h.elim | skip
    obtain ⟨q, u, hq, rfl, hc, rfl⟩ := h
    exact id_of im hq hc

theorem IsConstA.const {A B : List Str → Nat} {σ0 σ : State} (im : Imported g file A B σ0 σ) {c : ConstTy} {o : Obj}
    (h : IsConstA file A c o) : IsConst σ c o := by
  cases c with
  | plain => cases o <;> first | exact h.elim | trivial
  | struct i =>
    cases o <;> first | exact h.elim | skip
    obtain ⟨q, u, hq, rfl, hc, rfl⟩ := h
    exact id_of im hq hc
  | list e => cases o <;> first | exact h.elim | exact IsItemA.item im h

/-- C52: a constant at top level is bound to a value of its type. -/
theorem C52_const (ok : FileOK g file) (sup : Supported g file) {F : Nat} (hF : Deep file F) {σ0 σ : State}
    (hi : importModule g F σ0 = .ok σ) {k : Tree} (hk : k ∈ file.kids) {c : ConstTy} (hc : k.node.kind = .const c) :
    ∃ o, σ.evalPath [] k.node.short = .ok o ∧ IsConst σ c o := by
  obtain ⟨A, B, im⟩ := the_import ok sup hF hi
  obtain ⟨o, h1, h2⟩ := im.consts k hk c hc
  exact ⟨o, evalPath_nodot ((ok.plain _ _ (.top hk)).not_mem (by decide)) rfl h1, IsConstA.const im h2⟩

/-- C52: a constant that is nested in a struct is an attribute of the class, unless an
accessor has the same name. -/
theorem C52_nested_const (ok : FileOK g file) (sup : Supported g file) {F : Nat} (hF : Deep file F) {σ0 σ : State}
    (hi : importModule g F σ0 = .ok σ) {p : List Str} {t k : Tree} (h : Sub file p t) {count : Nat}
    {fields : Option (List Module.Field)} {key : Bool} (ht : t.node.kind = .struct false count fields key)
    (hk : k ∈ t.kids) {c : ConstTy} (hc : k.node.kind = .const c)
    (hn : ∀ items, enumItems count fields = .ok items → k.node.short ∉ classAttrs (under p) false items fields key) :
    ∃ o, σ.evalPath [] (dotted (p ++ [k.node.short])) = .ok o ∧ IsConst σ c o := by
  obtain ⟨A, B, im⟩ := the_import ok sup hF hi
  have hst : Node.isStruct t.node := ⟨_, _, _, _, ht⟩
  have hty : Node.isType t.node := .inl ⟨hst, by rintro ⟨_, _, _, h'⟩; rw [ht] at h'; cases h'⟩
  obtain ⟨x, r, rfl, h1, h2⟩ := attrs_of ok im h hty
  obtain ⟨⟨d, e1, e2⟩, -⟩ := im.structs _ _ h hst
  obtain ⟨o, o1, o2⟩ := e2.2.2.2.2.1 _ _ _ _ ht k hk c hc (hn _ (h.enumItems ok ht).1)
  refine ⟨o, ?_, IsConstA.const im o2⟩
  refine evalPath_dotted ((Sub.kid h hk).no_dot ok) h1 ?_
  exact attrs_snoc h2 (getattr_ref e1 o1)

/-- C52: the module has the id of the file. -/
theorem C52_module_id (ok : FileOK g file) (sup : Supported g file) {F : Nat} (hF : Deep file F) {σ0 σ : State}
    (hi : importModule g F σ0 = .ok σ) : σ.evalPath [] "__capnpy_id__".toList = .ok (.int file.node.id) := by
  obtain ⟨A, B, im⟩ := the_import ok sup hF hi
  exact evalPath_nodot (by decide) rfl im.modId

/-- C52: the import does not change the classes that existed before, and the classes of the
file are new. -/
theorem C52_frame (ok : FileOK g file) (sup : Supported g file) {F : Nat} (hF : Deep file F) {σ0 σ : State}
    (hi : importModule g F σ0 = .ok σ) :
    (∀ (a : Nat) (d : Dict), σ0.heap[a]? = some d → σ.heap[a]? = some d) ∧
    ∀ p t, Sub file p t → Node.isType t.node → ∃ a, σ.evalPath [] (dotted p) = .ok (.ref a) ∧ σ0.heap.length ≤ a := by
  obtain ⟨A, B, im⟩ := the_import ok sup hF hi
  refine ⟨im.old, fun p t h ht => ?_⟩
  obtain ⟨x, r, rfl, h1, h2⟩ := attrs_of ok im h ht
  exact ⟨A (x :: r), evalPath_dotted (h.no_dot ok) h1 h2, im.fresh _ _ h (Classy.of_type ht)⟩

/-- C52: the class of a struct or group has all the attributes that the accessors of a field
consist of. -/
theorem C52_field_attrs (ok : FileOK g file) (sup : Supported g file) {F : Nat} (hF : Deep file F) {σ0 σ : State}
    (hi : importModule g F σ0 = .ok σ) {p : List Str} {t : Tree} (h : Sub file p t) {gr : Bool} {count : Nat}
    {fs : List Module.Field} {key : Bool} (ht : t.node.kind = .struct gr count (some fs) key) {f : Module.Field}
    (hf : f ∈ fs) {s : Str} (hs : s ∈ fieldAttrs f) :
    ∃ a, σ.evalPath [] (under p) = .ok (.ref a) ∧ HasId σ (.ref a) t.node.id ∧ σ.getattr (.ref a) s = .ok .value := by
  obtain ⟨A, B, im⟩ := the_import ok sup hF hi
  have hst : Node.isStruct t.node := ⟨_, _, _, _, ht⟩
  obtain ⟨⟨d, e1, e2⟩, -⟩ := im.structs _ _ h hst
  refine ⟨A p, evalPath_nodot (h.under_no_dot ok) rfl (im.typed.cls _ _ h (.inl hst)), id_of im h (.inl hst), ?_⟩
  refine getattr_ref e1 (e2.2.2.2.2.2 _ _ _ _ ht s ?_)
  unfold classAttrs
  refine List.mem_append_left _ (List.mem_append_left _ (List.mem_append_right _ (List.mem_append_left _ ?_)))
  exact List.mem_flatMap.mpr ⟨f, hf, hs⟩

/-- C52: the class of a struct or group has an accessor for every field, under the name of the
field: neither a nested type nor a constant takes its place. -/
theorem C52_accessors (ok : FileOK g file) (sup : Supported g file) {F : Nat} (hF : Deep file F) {σ0 σ : State}
    (hi : importModule g F σ0 = .ok σ) {p : List Str} {t : Tree} (h : Sub file p t) {gr : Bool} {count : Nat}
    {fs : List Module.Field} {key : Bool} (ht : t.node.kind = .struct gr count (some fs) key) {f : Module.Field}
    (hf : f ∈ fs) :
    ∃ a, σ.evalPath [] (under p) = .ok (.ref a) ∧ HasId σ (.ref a) t.node.id ∧ σ.getattr (.ref a) f.pyname = .ok .value := by
  refine C52_field_attrs ok sup hF hi h ht hf ?_
  unfold fieldAttrs
  cases f.shape with
  | group b => cases b <;> exact List.mem_cons_self
  | _ => exact List.mem_cons_self

/-- C52: an annotation is a class of the module under its own name (also if it is nested in a
struct), with the id of the annotation, unless the file has another annotation or a top-level
constant of this name. -/
theorem C52_annotation (ok : FileOK g file) (sup : Supported g file) {F : Nat} (hF : Deep file F) {σ0 σ : State}
    (hi : importModule g F σ0 = .ok σ) {p : List Str} {t : Tree} (h : Sub file p t) (ht : t.node.kind = .annotation)
    (hu : ∀ q u, Sub file q u → u.node.kind = .annotation → u.node.short = t.node.short → q = p)
    (hc : ∀ k ∈ file.kids, (∃ c, k.node.kind = .const c) → k.node.short ≠ t.node.short) :
    ∃ a, σ.evalPath [] t.node.short = .ok (.ref a) ∧ HasId σ (.ref a) t.node.id := by
  obtain ⟨A, B, im⟩ := the_import ok sup hF hi
  obtain ⟨a, h1, h2⟩ := im.anns p t h ht hu hc
  exact ⟨a, evalPath_nodot ((ok.plain _ _ h).not_mem (by decide)) rfl h1, getattr_ref h2 (lookup_self _ _ _)⟩

/-- C52: a type of an imported file.  `σ` is the state after the import of that file, `τ` a
later state, where `imp` is the module; the class name that the generator uses in other files
gives the class. -/
theorem C52_imported_type (ok : FileOK g file) (sup : Supported g file) {F : Nat} (hF : Deep file F) {σ0 σ τ : State}
    (hi : importModule g F σ0 = .ok σ) {p : List Str} {t : Tree} (h : Sub file p t) (ht : Node.isType t.node)
    {g' : Gen} {f : Node} (hf : f.isFile = true) (hs : f.scopeId = 0) (hc : f.id ≠ g'.current) {imp : Str}
    (himp : g'.importname f.id = some imp) (hdot : '.' ∉ imp) (hn : Chain g' f p t.node) {fuel : Nat} (hl : p.length < fuel)
    {m : Nat} (hm : τ.globals.lookup imp = some (.ref m)) (hmod : τ.heap[m]? = some σ.globals)
    (hold : ∀ (a : Nat) (d : Dict), σ.heap[a]? = some d → τ.heap[a]? = some d) :
    ∃ s a, g'.compileName fuel t.node = .ok s ∧ τ.evalPath [] s = .ok (.ref a) ∧ HasId τ (.ref a) t.node.id := by
  obtain ⟨A, B, im⟩ := the_import ok sup hF hi
  obtain ⟨x, r, rfl, h1, h2⟩ := attrs_of ok im h ht
  have ga : ∀ o s o', σ.getattr o s = .ok o' → τ.getattr o s = .ok o' := by
    intro o s o' ho
    unfold State.getattr at ho ⊢
    cases o <;> try cases ho
    rename_i a
    simp only at ho ⊢
    cases hd : σ.heap[a]? with
    | none => rw [hd] at ho; cases ho
    | some d =>
      rw [hd] at ho
      rw [hold a d hd]
      exact ho
  have gas : ∀ (r : List Str) o o', attrs σ o r = .ok o' → attrs τ o r = .ok o' := by
    intro r
    induction r with
    | nil => intro o o' h; exact h
    | cons s r ih =>
      intro o o' h
      unfold attrs at h ⊢
      rw [List.foldlM_cons] at h ⊢
      cases ho : σ.getattr o s with
      | error e => rw [ho] at h; cases h
      | ok o1 =>
        rw [ho] at h
        rw [ga _ _ _ ho]
        exact ih o1 o' h
  refine ⟨_, A (x :: r), C51_imported hf hs hc himp hn hl, ?_, ga _ _ _ (id_of im h (Classy.of_type ht))⟩
  refine evalPath_dotted ?_ hm ?_
  · intro s hs
    rcases List.mem_cons.mp hs with rfl | hs
    · exact hdot
    · exact h.no_dot ok s hs
  · unfold attrs
    rw [List.foldlM_cons]
    have : τ.getattr (.ref m) x = .ok (.ref (A [x])) := by
      unfold State.getattr
      simp only [hmod, Option.bind_some, h1]
    rw [bind_okP this]
    exact gas r _ _ h2

end Capnpy.Props
