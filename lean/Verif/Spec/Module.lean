import Verif.Model.Module

/-!
# Specification: schema files as trees, and the names of their types

A schema file is a tree of nodes.  `Sub file p t` says that `t` is a node of the file (not
the file itself) and that `p` is the list of the names from the top level down to it, e.g.
`["Outer", "Inner"]`.  The user writes `Outer.Inner` for it, i.e. `dotted p`.
-/

namespace Capnpy.Spec

open Capnpy.Module

/-- A node with the nodes nested in it. -/
inductive Tree
  | mk (node : Node) (kids : List Tree)

def Tree.node : Tree → Node
  | .mk n _ => n

def Tree.kids : Tree → List Tree
  | .mk _ ks => ks

/-- `t` is a node of the file, with path `p`. -/
inductive Sub (file : Tree) : List Str → Tree → Prop
  | top {k : Tree} (h : k ∈ file.kids) : Sub file [k.node.short] k
  | kid {p : List Str} {t k : Tree} (ht : Sub file p t) (h : k ∈ t.kids) : Sub file (p ++ [k.node.short]) k

/-- Joining names with a separator. -/
def joinWith (c : Char) : List Str → Str
  | [] => []
  | [x] => x
  | x :: y :: r => x ++ [c] ++ joinWith c (y :: r)

/-- `Outer.Inner` -/
def dotted (p : List Str) : Str := joinWith '.' p

/-- `Outer_Inner`: the name of the class in the generated module. -/
def under (p : List Str) : Str := joinWith '_' p

/-- Is it a struct or a group? -/
def Node.isStruct (n : Node) : Prop := ∃ g c f k, n.kind = .struct g c f k

/-- Is it a group? -/
def Node.isGroup (n : Node) : Prop := ∃ c f k, n.kind = .struct true c f k

/-- Is it an enum? -/
def Node.isEnum (n : Node) : Prop := ∃ ms, n.kind = .enum ms

/-- Is it a struct that is not a group, or an enum? -/
def Node.isType (n : Node) : Prop := (Node.isStruct n ∧ ¬ Node.isGroup n) ∨ Node.isEnum n

/-- The identifiers of Cap'n Proto: letters and digits, not empty. -/
def Ident (s : Str) : Prop := s ≠ [] ∧ ∀ c ∈ s, c.isAlphanum = true

/-- The first character is an uppercase letter. -/
def UpperFirst (s : Str) : Prop := ∃ c r, s = c :: r ∧ c.isUpper = true

/-- The first character is a lowercase letter. -/
def LowerFirst (s : Str) : Prop := ∃ c r, s = c :: r ∧ c.isLower = true

/-- The element types of a list constant are in the file; `structs = false`: they are not
structs. -/
def ElemOK (file : Tree) (structs : Bool) : Ty → Prop
  | .builtin => True
  | .struct i => structs = true ∧ ∃ p t, Sub file p t ∧ t.node.id = i ∧ Node.isStruct t.node
  | .enum i => ∃ p t, Sub file p t ∧ t.node.id = i ∧ Node.isEnum t.node
  | .list e => ElemOK file structs e
  | .other => False

/-- The constants that can be emitted: at top level (`siblings = none`) all whose types are in
the file; in a struct, not those whose type is a top-level struct with the name of a
sibling, and not lists of structs. -/
def ConstOK (g : Gen) (file : Tree) (siblings : Option (List Tree)) : ConstTy → Prop
  | .plain => True
  | .struct i => ∃ p t, Sub file p t ∧ t.node.id = i ∧ Node.isStruct t.node ∧
      ∀ ks, siblings = some ks → ∀ k ∈ ks, p ≠ [k.node.short]
  | .list e => g.reflection = true ∧ ElemOK file siblings.isNone e

/-- What the Cap'n Proto compiler guarantees for the nodes of a file: distinct nonzero ids,
the tree structure, plain identifiers that are distinct in each scope, types with
uppercase and constants and annotations with lowercase names, complete unions, lowercase
fields and enumerants; groups are not at top level and contain only groups.  Interfaces
are excluded. -/
structure FileOK (g : Gen) (file : Tree) : Prop where
  ids : (g.nodes.map (·.id)).Nodup
  nonzero : ∀ n ∈ g.nodes, n.id ≠ 0
  mem : file.node ∈ g.nodes
  current : g.current = file.node.id
  isFile : file.node.kind = .file
  root : file.node.scopeId = 0
  topKids : g.children file.node.id = file.kids.map Tree.node
  kids : ∀ p t, Sub file p t → g.children t.node.id = t.kids.map Tree.node
  topNames : (file.kids.map fun k => k.node.short).Nodup
  names : ∀ p t, Sub file p t → (t.kids.map fun k => k.node.short).Nodup
  plain : ∀ p t, Sub file p t → Ident t.node.short
  upper : ∀ p t, Sub file p t → Node.isType t.node → UpperFirst t.node.short
  lower : ∀ p t, Sub file p t → t.node.kind = .annotation ∨ (∃ c, t.node.kind = .const c) → LowerFirst t.node.short
  kinds : ∀ p t, Sub file p t → t.node.kind ≠ .file ∧ t.node.kind ≠ .interface
  leaves : ∀ p t, Sub file p t → ¬ Node.isStruct t.node → t.kids = []
  topGroups : ∀ k ∈ file.kids, ¬ Node.isGroup k.node
  groups : ∀ p t, Sub file p t → Node.isGroup t.node → ∀ k ∈ t.kids, Node.isGroup k.node
  unions : ∀ p t, Sub file p t → ∀ gr count fields key, t.node.kind = .struct gr count fields key → 0 < count →
    ∃ fs, fields = some fs ∧ (∀ i, i < count → ∃ f ∈ fs, f.disc = some i) ∧ ∀ f ∈ fs, ∀ d, f.disc = some d → d < count
  fields : ∀ p t, Sub file p t → ∀ gr count fs key, t.node.kind = .struct gr count (some fs) key →
    ∀ f ∈ fs, LowerFirst f.pyname
  members : ∀ p t, Sub file p t → ∀ ms, t.node.kind = .enum ms → ∀ m ∈ ms, LowerFirst m

/-- What capnpy needs in addition: no group has, after capitalization, the name of a type that
is nested in the same struct; enums have members; and constants of the supported kinds. -/
structure Supported (g : Gen) (file : Tree) : Prop where
  groupNames : ∀ p t, Sub file p t → ∀ gr count fs key, t.node.kind = .struct gr count (some fs) key →
    ∀ f ∈ fs, f.shape = .group false → ∀ k ∈ t.kids, Node.isType k.node → capitalize f.pyname ≠ k.node.short
  enums : ∀ p t, Sub file p t → t.node.kind ≠ .enum []
  topConsts : ∀ k ∈ file.kids, ∀ c, k.node.kind = .const c → ConstOK g file none c
  consts : ∀ p t, Sub file p t → ∀ k ∈ t.kids, ∀ c, k.node.kind = .const c → ConstOK g file (some t.kids) c

/-- The node `n` of another file `f`: `p` is the list of the names down to it. -/
inductive Chain (g : Gen) (f : Node) : List Str → Node → Prop
  | file : Chain g f [] f
  | kid {p : List Str} {m n : Node} (h : Chain g f p m) (hs : n.scopeId = m.id) (h0 : m.id ≠ 0)
      (hm : g.node m.id = .ok m) (hc : m.id ≠ g.current) (hf : n.isFile = false) : Chain g f (p ++ [n.short]) n

/-- `o.p₁.p₂…` -/
def attrs (σ : State) (o : Obj) (p : List Str) : Py Obj := p.foldlM (fun o a => σ.getattr o a) o

/-- `o` is a class (or another heap object) whose `__capnpy_id__` is `i`. -/
def HasId (σ : State) (o : Obj) (i : Nat) : Prop := σ.getattr o "__capnpy_id__".toList = .ok (.int i)

/-- The item type of a list constant. -/
def IsItem (σ : State) : Ty → Obj → Prop
  | .builtin, .builtin => True
  | .struct i, .itemType a => HasId σ (.ref a) i
  | .enum i, .itemType a => HasId σ (.ref a) i
  | .list e, .listItem o => IsItem σ e o
  | _, _ => False

/-- The value of a constant: for a struct, an instance of the class with the id of its type;
for a list, a list with the item type. -/
def IsConst (σ : State) : ConstTy → Obj → Prop
  | .plain, .value => True
  | .struct i, .instance_ a => HasId σ (.ref a) i
  | .list e, .list o => IsItem σ e o
  | _, _ => False

end Capnpy.Spec
