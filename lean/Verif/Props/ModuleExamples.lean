import Verif.Props.Module

/-!
# C51 and C52: concrete schema files

A checker for `FileOK` and `Supported`, a non-trivial file that meets them, and files that
show where the import fails or gives something else when a hypothesis is dropped.
-/

namespace Capnpy.Props

open Spec Capnpy.Module

/-! ## A checker -/

def isStructB (n : Node) : Bool := match n.kind with | .struct .. => true | _ => false
def isGroupB (n : Node) : Bool := match n.kind with | .struct g .. => g | _ => false
def isEnumB (n : Node) : Bool := match n.kind with | .enum _ => true | _ => false
def isConstB (n : Node) : Bool := match n.kind with | .const _ => true | _ => false
def isTypeB (n : Node) : Bool := (isStructB n && !isGroupB n) || isEnumB n
def plainB (s : Str) : Bool := !s.isEmpty && s.all Char.isAlphanum
def upperB : Str → Bool | [] => false | c :: _ => c.isUpper
def lowerB : Str → Bool | [] => false | c :: _ => c.isLower
def nodupB (l : List Str) : Bool := decide l.Nodup

theorem isStructB_iff {n : Node} : isStructB n = true ↔ Node.isStruct n := by
  unfold isStructB Node.isStruct
  cases h : n.kind <;> simp

theorem isGroupB_iff {n : Node} : isGroupB n = true ↔ Node.isGroup n := by
  unfold isGroupB Node.isGroup
  cases h : n.kind <;> simp

theorem isEnumB_iff {n : Node} : isEnumB n = true ↔ Node.isEnum n := by
  unfold isEnumB Node.isEnum
  cases h : n.kind <;> simp

theorem isTypeB_iff {n : Node} : isTypeB n = true ↔ Node.isType n := by
  unfold isTypeB Node.isType
  rw [Bool.or_eq_true, Bool.and_eq_true, isStructB_iff, isEnumB_iff, Bool.not_eq_true', ← isGroupB_iff,
    Bool.not_eq_true]

theorem upperB_spec : ∀ {s : Str}, upperB s = true → UpperFirst s
  | c :: r, h => ⟨c, r, rfl, h⟩

theorem lowerB_spec : ∀ {s : Str}, lowerB s = true → LowerFirst s
  | c :: r, h => ⟨c, r, rfl, h⟩

theorem plainB_spec {s : Str} (h : plainB s = true) : Ident s := by
  unfold plainB at h
  rw [Bool.and_eq_true] at h
  refine ⟨?_, fun c hc => List.all_eq_true.mp h.2 c hc⟩
  rintro rfl
  exact absurd h.1 (by decide)

def structB (t : Tree) : Bool :=
  match t.node.kind with
  | .struct _ count fields _ =>
    (match fields with
     | none => count == 0
     | some fs => (List.range count).all (fun i => fs.any fun f => f.disc == some i) &&
        fs.all (fun f => match f.disc with | some d => decide (d < count) || count == 0 | none => true)) &&
    (match fields with | some fs => fs.all fun f => lowerB f.pyname | none => true)
  | .enum ms => ms.all lowerB
  | _ => true

def nodeB (g : Gen) (t : Tree) : Bool :=
  decide (g.children t.node.id = t.kids.map Spec.Tree.node) &&
  nodupB (t.kids.map fun k => k.node.short) &&
  plainB t.node.short &&
  (!isTypeB t.node || upperB t.node.short) &&
  (!(decide (t.node.kind = .annotation) || isConstB t.node) || lowerB t.node.short) &&
  decide (t.node.kind ≠ .file) && decide (t.node.kind ≠ .interface) &&
  (isStructB t.node || t.kids.isEmpty) &&
  (!isGroupB t.node || t.kids.all fun k => isGroupB k.node) &&
  structB t

def fileB (g : Gen) (file : Tree) : Bool :=
  decide (g.nodes.map (·.id)).Nodup && g.nodes.all (fun n => n.id != 0) && decide (file.node ∈ g.nodes) &&
  decide (g.current = file.node.id) && decide (file.node.kind = .file) && decide (file.node.scopeId = 0) &&
  decide (g.children file.node.id = file.kids.map Spec.Tree.node) &&
  nodupB (file.kids.map fun k => k.node.short) &&
  (file.kids.all fun k => !isGroupB k.node) &&
  (file.all.all fun x => nodeB g x.2)

theorem structB_unions {t : Tree} (h : structB t = true) {gr : Bool} {count : Nat}
    {fields : Option (List Module.Field)} {key : Bool} (e : t.node.kind = .struct gr count fields key) (hc : 0 < count) :
    ∃ fs, fields = some fs ∧ (∀ i, i < count → ∃ f ∈ fs, f.disc = some i) ∧
      ∀ f ∈ fs, ∀ d, f.disc = some d → d < count := by
  unfold structB at h
  rw [e] at h
  cases fields with
  | none => simp at h; omega
  | some fs =>
    simp only [Bool.and_eq_true, List.all_eq_true, List.mem_range] at h
    obtain ⟨⟨h1, h2⟩, -⟩ := h
    refine ⟨fs, rfl, ?_, ?_⟩
    · intro i hi
      obtain ⟨f, hf, hd⟩ := List.any_eq_true.mp (h1 i hi)
      exact ⟨f, hf, by simpa using hd⟩
    · intro f hf d hd
      have := h2 f hf
      rw [hd] at this
      simp at this
      omega

theorem structB_fields {t : Tree} (h : structB t = true) {gr : Bool} {count : Nat}
    {fs : List Module.Field} {key : Bool} (e : t.node.kind = .struct gr count (some fs) key) :
    ∀ f ∈ fs, LowerFirst f.pyname := by
  unfold structB at h
  rw [e] at h
  simp only [Bool.and_eq_true, List.all_eq_true] at h
  exact fun f hf => lowerB_spec (h.2 f hf)

theorem structB_members {t : Tree} (h : structB t = true) {ms : List Str} (e : t.node.kind = .enum ms) :
    ∀ m ∈ ms, LowerFirst m := by
  unfold structB at h
  rw [e] at h
  exact fun m hm => lowerB_spec (List.all_eq_true.mp h m hm)

theorem or_of_notB {a b : Bool} (h : (!a || b) = true) (ha : a = true) : b = true := by
  cases a <;> simp_all

theorem fileB_spec {g : Gen} {file : Tree} (h : fileB g file = true) : FileOK g file := by
  unfold fileB at h
  simp only [Bool.and_eq_true] at h
  obtain ⟨⟨⟨⟨⟨⟨⟨⟨⟨h1, h2⟩, h3⟩, h4⟩, h5⟩, h6⟩, h7⟩, h8⟩, h9⟩, h10⟩ := h
  have hn : ∀ p t, Sub file p t → nodeB g t = true := fun p t ht => List.all_eq_true.mp h10 (p, t) (sub_all ht)
  have hx : ∀ p t, Sub file p t → _ := fun p t ht => by
    have := hn p t ht
    unfold nodeB at this
    simp only [Bool.and_eq_true] at this
    exact this
  exact {
    ids := of_decide_eq_true h1
    nonzero := fun n hm => by
      have := List.all_eq_true.mp h2 n hm
      simpa using this
    mem := of_decide_eq_true h3
    current := of_decide_eq_true h4
    isFile := of_decide_eq_true h5
    root := of_decide_eq_true h6
    topKids := of_decide_eq_true h7
    kids := fun p t ht => of_decide_eq_true (hx p t ht).1.1.1.1.1.1.1.1.1
    topNames := of_decide_eq_true h8
    names := fun p t ht => of_decide_eq_true (hx p t ht).1.1.1.1.1.1.1.1.2
    plain := fun p t ht => plainB_spec (hx p t ht).1.1.1.1.1.1.1.2
    upper := fun p t ht hT => upperB_spec (or_of_notB (hx p t ht).1.1.1.1.1.1.2 (isTypeB_iff.mpr hT))
    lower := fun p t ht hT => lowerB_spec (or_of_notB (hx p t ht).1.1.1.1.1.2 (by
      rcases hT with hT | ⟨c, hT⟩
      · simp [hT]
      · simp [isConstB, hT]))
    kinds := fun p t ht => ⟨of_decide_eq_true (hx p t ht).1.1.1.1.2, of_decide_eq_true (hx p t ht).1.1.1.2⟩
    leaves := fun p t ht hns => by
      have := (hx p t ht).1.1.2
      rw [Bool.or_eq_true, isStructB_iff] at this
      rcases this with h | h
      · exact absurd h hns
      · simpa using h
    topGroups := fun k hk hg => by
      have := List.all_eq_true.mp h9 k hk
      rw [isGroupB_iff.mpr hg] at this
      cases this
    groups := fun p t ht hg k hk =>
      isGroupB_iff.mp (List.all_eq_true.mp (or_of_notB (hx p t ht).1.2 (isGroupB_iff.mpr hg)) k hk)
    unions := fun p t ht gr count fields key e hc => structB_unions (hx p t ht).2 e hc
    fields := fun p t ht gr count fs key e => structB_fields (hx p t ht).2 e
    members := fun p t ht ms e => structB_members (hx p t ht).2 e }

def elemB (file : Tree) (structs : Bool) : Ty → Bool
  | .builtin => true
  | .struct i => structs && file.all.any fun x => x.2.node.id == i && isStructB x.2.node
  | .enum i => file.all.any fun x => x.2.node.id == i && isEnumB x.2.node
  | .list e => elemB file structs e
  | .other => false

def constB (g : Gen) (file : Tree) (siblings : Option (List Tree)) : ConstTy → Bool
  | .plain => true
  | .struct i => file.all.any fun x => x.2.node.id == i && isStructB x.2.node &&
      (match siblings with | none => true | some ks => ks.all fun k => x.1 != [k.node.short])
  | .list e => g.reflection && elemB file siblings.isNone e

theorem elemB_spec {file : Tree} {structs : Bool} : ∀ {e : Ty}, elemB file structs e = true → ElemOK file structs e
  | .builtin, _ => trivial
  | .struct i, h => by
    simp only [elemB, Bool.and_eq_true, List.any_eq_true, beq_iff_eq] at h
    obtain ⟨h1, x, hx, h2, h3⟩ := h
    exact ⟨h1, _, _, all_sub hx, h2, isStructB_iff.mp h3⟩
  | .enum i, h => by
    simp only [elemB, Bool.and_eq_true, List.any_eq_true, beq_iff_eq] at h
    obtain ⟨x, hx, h2, h3⟩ := h
    exact ⟨_, _, all_sub hx, h2, isEnumB_iff.mp h3⟩
  | .list e, h => elemB_spec (e := e) h

theorem constB_spec {g : Gen} {file : Tree} {siblings : Option (List Tree)} {c : ConstTy}
    (h : constB g file siblings c = true) : ConstOK g file siblings c := by
  cases c with
  | plain => trivial
  | struct i =>
    simp only [constB, Bool.and_eq_true, List.any_eq_true, beq_iff_eq] at h
    obtain ⟨x, hx, ⟨h2, h3⟩, h4⟩ := h
    refine ⟨_, _, all_sub hx, h2, isStructB_iff.mp h3, ?_⟩
    rintro ks rfl k hk
    have := List.all_eq_true.mp h4 k hk
    simpa using this
  | list e =>
    simp only [constB, Bool.and_eq_true] at h
    exact ⟨h.1, elemB_spec h.2⟩

def groupNamesB (t : Tree) : Bool :=
  match t.node.kind with
  | .struct _ _ (some fs) _ => fs.all fun f => t.kids.all fun k =>
      !(decide (f.shape = .group false) && isTypeB k.node) || decide (capitalize f.pyname ≠ k.node.short)
  | _ => true

def constKidB (g : Gen) (file : Tree) (siblings : Option (List Tree)) (k : Tree) : Bool :=
  match k.node.kind with
  | .const c => constB g file siblings c
  | _ => true

def supportedB (g : Gen) (file : Tree) : Bool :=
  (file.kids.all (constKidB g file none)) &&
  file.all.all fun x => groupNamesB x.2 && decide (x.2.node.kind ≠ .enum []) &&
    x.2.kids.all (constKidB g file (some x.2.kids))

theorem constKidB_spec {g : Gen} {file : Tree} {siblings : Option (List Tree)} {k : Tree} {c : ConstTy}
    (h : constKidB g file siblings k = true) (e : k.node.kind = .const c) : ConstOK g file siblings c := by
  unfold constKidB at h
  rw [e] at h
  exact constB_spec h

theorem supportedB_spec {g : Gen} {file : Tree} (h : supportedB g file = true) : Supported g file := by
  unfold supportedB at h
  simp only [Bool.and_eq_true] at h
  obtain ⟨h1, h2⟩ := h
  have hx : ∀ p t, Sub file p t → _ := fun p t ht => by
    have := List.all_eq_true.mp h2 (p, t) (sub_all ht)
    simp only [Bool.and_eq_true] at this
    exact this
  exact {
    groupNames := fun p t ht gr count fs key e f hf hs k hk hT => by
      have := (hx p t ht).1.1
      unfold groupNamesB at this
      rw [e] at this
      have := List.all_eq_true.mp (List.all_eq_true.mp this f hf) k hk
      exact of_decide_eq_true (or_of_notB this (by rw [isTypeB_iff.mpr hT]; simp [hs]))
    enums := fun p t ht => of_decide_eq_true (hx p t ht).1.2
    topConsts := fun k hk c e => constKidB_spec (List.all_eq_true.mp h1 k hk) e
    consts := fun p t ht k hk c e => constKidB_spec (List.all_eq_true.mp (hx p t ht).2 k hk) e }

theorem deepB_spec {file : Tree} {F : Nat} (h : (file.all.all fun x => decide (2 * x.1.length ≤ F)) = true) :
    Deep file F := fun p t ht => of_decide_eq_true (List.all_eq_true.mp h (p, t) (sub_all ht))

/-! ## Concrete files -/

/-- The nodes of a tree, and the request with these nodes. -/
def nodesOf : Spec.Tree → List Node
  | .mk n ks => n :: kidsOf ks
where
  kidsOf : List Spec.Tree → List Node
    | [] => []
    | k :: ks => nodesOf k ++ kidsOf ks

def genOf (file : Spec.Tree) (reflection : Bool := true) : Gen := ⟨nodesOf file, file.node.id, fun _ => none, reflection⟩

def nd (id scope : Nat) (s : String) (k : Kind) : Node := ⟨id, scope, s.toList, k⟩
def fld (s : String) (disc : Option Nat) (sh : Shape) : Module.Field := ⟨s.toList, disc, sh⟩
def leaf (n : Node) : Spec.Tree := .mk n []
def fileOf (ks : List Spec.Tree) : Spec.Tree := .mk (nd 1 0 "x.capnp" .file) ks

/-- The state before the import. -/
def fresh : State := ⟨[], []⟩

/-- A value read from the module after the import. -/
def afterImport (file : Spec.Tree) (s : String) (reflection : Bool := true) : Py Obj := do
  (← importModule (genOf file reflection) 10 fresh).evalPath [] s.toList

/-- ```
struct Outer {
  struct Inner {}
  enum Color { red; green; }
  const origin :Inner = ();
  pos :group { ... }
  union { a :Text; b :Int32; }
}
annotation note(struct) :Text;
const all :List(Outer) = [];
``` -/
def exFile : Spec.Tree := fileOf [
  .mk (nd 2 1 "Outer" (.struct false 2 (some [fld "pos" none (.group false), fld "a" (some 0) .pointer,
      fld "b" (some 1) .plain]) false)) [
    leaf (nd 3 2 "Inner" (.struct false 0 (some []) false)),
    leaf (nd 4 2 "Color" (.enum ["red".toList, "green".toList])),
    leaf (nd 5 2 "origin" (.const (.struct 3))),
    leaf (nd 6 2 "pos" (.struct true 0 (some [fld "x" none .plain]) false))],
  leaf (nd 7 1 "note" .annotation),
  leaf (nd 8 1 "all" (.const (.list (.struct 2))))]

/-- C52: the hypotheses of the theorems are met by a file with nested types, a group, a union,
an annotation and constants. -/
theorem exFile_ok : FileOK (genOf exFile) exFile ∧ Supported (genOf exFile) exFile ∧ Deep exFile 10 :=
  ⟨fileB_spec (by decide +kernel), supportedB_spec (by decide +kernel), deepB_spec (by decide +kernel)⟩

example : ∃ σ, importModule (genOf exFile) 10 fresh = .ok σ :=
  C52_imports exFile_ok.1 exFile_ok.2.1 exFile_ok.2.2 fresh

example : afterImport exFile "Outer.Inner.__capnpy_id__" = .ok (.int 3) := by decide +kernel
example : afterImport exFile "Outer_Inner.__name__" = .ok (.str "Outer.Inner".toList) := by decide +kernel
example : afterImport exFile "Outer.Color.green" = .ok (.int 1) := by decide +kernel
example : afterImport exFile "Outer.__tag__.b" = .ok (.int 1) := by decide +kernel
example : afterImport exFile "Outer_pos.__capnpy_id__" = .ok (.int 6) := by decide +kernel
example : afterImport exFile "Outer.b" = .ok .value := by decide +kernel
example : afterImport exFile "note.__capnpy_id__" = .ok (.int 7) := by decide +kernel

/-! ## Where it fails

Each of the following files is accepted by the Cap'n Proto compiler (`FileOK`); it is not
`Supported`. -/

/-- ```
struct Outer {
  struct Foo {}
  foo :group { x @0 :Int32; }
}
``` -/
def groupFile : Spec.Tree := fileOf [
  .mk (nd 2 1 "Outer" (.struct false 0 (some [fld "foo" none (.group false)]) false)) [
    leaf (nd 3 2 "Foo" (.struct false 0 (some []) false)),
    leaf (nd 4 2 "foo" (.struct true 0 (some [fld "x" none .plain]) false))]]

/-- C52, negative: a group `foo` hides the nested struct `Foo`: `Outer.Foo` is the function that
makes the argument for the group, not the class. -/
theorem C52_group_hides_type : FileOK (genOf groupFile) groupFile ∧ afterImport groupFile "Outer.Foo" = .ok .value ∧
    afterImport groupFile "Outer_Foo.__capnpy_id__" = .ok (.int 3) :=
  ⟨fileB_spec (by decide +kernel), by decide +kernel, by decide +kernel⟩

/-- ```
struct Foo { n @0 :Int32; }
struct Outer {
  struct Foo { t @0 :Text; }
  const c :.Foo = (n = 1);
}
``` -/
def siblingFile : Spec.Tree := fileOf [
  leaf (nd 2 1 "Foo" (.struct false 0 (some [fld "n" none .plain]) false)),
  .mk (nd 3 1 "Outer" (.struct false 0 (some []) false)) [
    leaf (nd 4 3 "Foo" (.struct false 0 (some [fld "t" none .pointer]) false)),
    leaf (nd 5 3 "c" (.const (.struct 2)))]]

/-- C52, negative: a constant in a struct whose type is the top-level struct `Foo` is an
instance of the wrong class if the struct also has a nested struct `Foo`: the class body
looks up `Foo` among its own names first. -/
theorem C52_const_wrong_class : FileOK (genOf siblingFile) siblingFile ∧
    ∃ a, afterImport siblingFile "Outer.c" = .ok (.instance_ a) ∧
      afterImport siblingFile "Outer.Foo" = .ok (.ref a) ∧ afterImport siblingFile "Foo" ≠ .ok (.ref a) :=
  ⟨fileB_spec (by decide +kernel), 1, by decide +kernel, by decide +kernel, by decide +kernel⟩

/-- `struct Outer { const c :List(Outer) = []; }` -/
def listConstFile : Spec.Tree := fileOf [
  .mk (nd 2 1 "Outer" (.struct false 0 (some []) false)) [leaf (nd 3 2 "c" (.const (.list (.struct 2))))]]

/-- C52, negative: a list constant in a struct whose items are the struct itself: the import
raises NameError. -/
theorem C52_nested_list_const : FileOK (genOf listConstFile) listConstFile ∧
    importModule (genOf listConstFile) 10 fresh = .error .nameError :=
  ⟨fileB_spec (by decide +kernel), by decide +kernel⟩

/-- `const c :List(Int32) = [];` -/
def plainListFile : Spec.Tree := fileOf [leaf (nd 2 1 "c" (.const (.list .builtin)))]

/-- C52, negative: a list constant without reflection data raises NotImplementedError already in
the generator; with reflection data it works. -/
theorem C52_list_const_reflection : FileOK (genOf plainListFile false) plainListFile ∧
    importModule (genOf plainListFile false) 10 fresh = .error .notImplemented ∧
    afterImport plainListFile "c" = .ok (.list .builtin) :=
  ⟨fileB_spec (by decide +kernel), by decide +kernel, by decide +kernel⟩

/-- `enum E {}` -/
def emptyEnumFile : Spec.Tree := fileOf [leaf (nd 2 1 "E" (.enum []))]

/-- C52, negative: an enum without enumerants: the generated module has a syntax error. -/
theorem C52_empty_enum : FileOK (genOf emptyEnumFile) emptyEnumFile ∧
    importModule (genOf emptyEnumFile) 10 fresh = .error .syntaxError :=
  ⟨fileB_spec (by decide +kernel), by decide +kernel⟩

/-- `struct A { annotation note(struct) :Text; }  struct B { annotation note(struct) :Text; }` -/
def annotationFile : Spec.Tree := fileOf [
  .mk (nd 2 1 "A" (.struct false 0 (some []) false)) [leaf (nd 3 2 "note" .annotation)],
  .mk (nd 4 1 "B" (.struct false 0 (some []) false)) [leaf (nd 5 4 "note" .annotation)]]

/-- C52, negative: nested annotations are declared at module level with their short names, so
that annotations of the same name in different structs replace each other. -/
theorem C52_annotations_collide : FileOK (genOf annotationFile) annotationFile ∧
    Supported (genOf annotationFile) annotationFile ∧
    afterImport annotationFile "note.__capnpy_id__" = .ok (.int 5) ∧
    afterImport annotationFile "A.note" = .error .attributeError :=
  ⟨fileB_spec (by decide +kernel), supportedB_spec (by decide +kernel), by decide +kernel, by decide +kernel⟩

/-- `n` is a node of the current file: at top level, or nested in structs. -/
inductive Within (g : Gen) : Node → Prop
  | top {n : Node} (h : n ∈ g.children g.current) : Within g n
  | kid {m n : Node} (hm : Within g m) (hs : Node.isStruct m) (h : n ∈ g.children m.id) : Within g n

theorem mapPy_not_ok {α β : Type} {f : α → Py β} {x : α} (hx : ∀ y, f x ≠ .ok y) :
    ∀ {l : List α}, x ∈ l → ∀ r, ListObj.mapPy f l ≠ .ok r := by
  intro l
  induction l with
  | nil => intro h; cases h
  | cons a l ih =>
    intro h r e
    unfold ListObj.mapPy at e
    cases ha : f a with
    | error er => rw [ha] at e; cases e
    | ok y =>
      rw [bind_okP ha] at e
      rcases List.mem_cons.mp h with rfl | h
      · exact hx y ha
      · cases hr : ListObj.mapPy f l with
        | error er => rw [hr] at e; cases e
        | ok ys => exact ih h ys hr

/-- C52, negative: a file with an interface, at top level or nested in structs, cannot be
compiled at all. -/
theorem C52_interface {g : Gen} {n f : Node} (h : Within g n) (hk : n.kind = .interface) (hf : g.node g.current = .ok f)
    (hid : f.id = g.current) (fuel : Nat) (σ0 : State) : ∀ σ, importModule g fuel σ0 ≠ .ok σ := by
  have key : ∀ n, Within g n → (∀ fuel r, g.emitDecl fuel n ≠ .ok r) → ∀ σ, importModule g fuel σ0 ≠ .ok σ := by
    intro n h
    induction h with
    | top h =>
      intro hb σ e
      unfold importModule Gen.emitModule at e
      rw [bind_okP hf, hid] at e
      simp only at e
      cases hd : ListObj.mapPy (g.emitDecl fuel) (g.children g.current) with
      | ok r => exact mapPy_not_ok (hb fuel) h r hd
      | error er => rw [hd] at e; cases e
    | @kid m n hm hs h ih =>
      intro hb
      apply ih
      intro fuel r e
      obtain ⟨gr, c, fs, key, hkind⟩ := hs
      cases fuel with
      | zero => cases e
      | succ fuel =>
        unfold Gen.emitDecl at e
        rw [hkind] at e
        simp only at e
        cases hd : ListObj.mapPy (g.emitDecl fuel) (g.children m.id) with
        | ok r => exact mapPy_not_ok (hb fuel) h r hd
        | error er => rw [hd] at e; cases e
  refine key n h ?_
  intro fuel r e
  cases fuel with
  | zero => cases e
  | succ fuel =>
    unfold Gen.emitDecl at e
    rw [hk] at e
    cases e

/-- `struct Outer { interface I {} }` -/
def interfaceFile : Spec.Tree := fileOf [
  .mk (nd 2 1 "Outer" (.struct false 0 (some []) false)) [leaf (nd 3 2 "I" .interface)]]

example : ∀ σ, importModule (genOf interfaceFile) 10 fresh ≠ .ok σ :=
  C52_interface (g := genOf interfaceFile) (n := nd 3 2 "I" .interface) (f := nd 1 0 "x.capnp" .file)
    (.kid (m := nd 2 1 "Outer" (.struct false 0 (some []) false)) (.top (by decide +kernel)) ⟨_, _, _, _, rfl⟩
      (by decide +kernel)) rfl (by decide +kernel) rfl 10 fresh

/-- The request for `const c :List(<other>.Outer.Inner) = [];`, where `<other>` is an imported
file with the import name `imp`, and for `const d :List(<other>.Outer) = [];`. -/
def importGen (id : Nat) : Gen :=
  { nodes := [nd 1 0 "x.capnp" .file, nd 2 1 "c" (.const (.list (.struct id))), nd 10 0 "imp.capnp" .file,
      nd 11 10 "Outer" (.struct false 0 (some []) false), nd 12 11 "Inner" (.struct false 0 (some []) false)],
    current := 1, importname := fun i => if i = 10 then some "imp".toList else none, reflection := true }

/-- The imported module: `struct Outer { struct Inner {} }`. -/
def impFile : Spec.Tree := fileOf [.mk (nd 11 1 "Outer" (.struct false 0 (some []) false)) [
  leaf (nd 12 11 "Inner" (.struct false 0 (some []) false))]]

/-- The state after `imp = __compiler.load_schema(...)`: the module object is at the end of the
heap. -/
def withImport (file : Spec.Tree) : Py State := do
  let σ ← importModule (genOf file) 10 fresh
  pure ⟨[("imp".toList, .ref σ.heap.length)], σ.heap ++ [σ.globals]⟩

/-- C52, negative: a list constant whose items are a *nested* struct of another file: the
generator writes `imp._Outer._Inner_list_item_type`, which does not exist.  For a top-level
struct it is `imp._Outer_list_item_type`, which does. -/
theorem C52_imported_nested_item : FileOK (genOf impFile) impFile ∧ Supported (genOf impFile) impFile ∧
    (do importModule (importGen 12) 10 (← withImport impFile)) = .error .attributeError ∧
    (do (← importModule (importGen 11) 10 (← withImport impFile)).evalPath [] "c".toList)
      = .ok (.list (.itemType 1)) ∧
    (do (← withImport impFile).evalPath [] "imp.Outer".toList) = .ok (.ref 1) := by
  refine ⟨fileB_spec (by decide +kernel), supportedB_spec (by decide +kernel), ?_, ?_, ?_⟩ <;> decide +kernel

end Capnpy.Props
