import Verif.Model.Reflection
import Verif.Spec.Options

/-!
# Specification: a schema file with its annotations

A file is a tree of nodes; the fields of structs and the enumerants of enums are the members of
a node.  `AnnPath file i path` says that the entity `i` (a node or a member) is in the file, and
that `path` are the annotations (the whole list, at each level) on the way down from the file to
the entity itself.
-/

namespace Capnpy.Spec

open Capnpy.Reflection (Req Member Annotation EntId)

/-- A node with the nodes nested in it. -/
inductive RTree
  | mk (node : Reflection.Node) (kids : List RTree)

def RTree.node : RTree → Reflection.Node
  | .mk n _ => n

def RTree.kids : RTree → List RTree
  | .mk _ ks => ks

/-- The tree has this subtree (possibly itself). -/
inductive RTree.Has : RTree → RTree → Prop
  | self (t : RTree) : RTree.Has t t
  | kid {n : Reflection.Node} {ks : List RTree} {k t : RTree} (h : k ∈ ks) (ht : RTree.Has k t) : RTree.Has (.mk n ks) t

mutual

/-- The ids of the nodes. -/
def RTree.ids : RTree → List Nat
  | .mk n ks => n.id :: RTree.idsOf ks

def RTree.idsOf : List RTree → List Nat
  | [] => []
  | k :: ks => k.ids ++ RTree.idsOf ks

end

mutual

/-- The number of levels. -/
def RTree.height : RTree → Nat
  | .mk _ ks => RTree.heightOf ks + 1

def RTree.heightOf : List RTree → Nat
  | [] => 0
  | k :: ks => max k.height (RTree.heightOf ks)

end

/-- The fields or enumerants of a node. -/
def membersOf (n : Reflection.Node) : List Member :=
  match n.kind with
  | .struct _ _ (some fs) => fs
  | .enum (some es) => es
  | _ => []

/-- The entity `i` and the annotations from the file down to it. -/
inductive AnnPath : RTree → EntId → List (Option (List Annotation)) → Prop
  | here (n : Reflection.Node) (ks : List RTree) : AnnPath (.mk n ks) (.inl n.id) [n.annotations]
  | member {n : Reflection.Node} {ks : List RTree} {m : Member} (h : m ∈ membersOf n) :
      AnnPath (.mk n ks) (.inr (n.id, m.name)) [n.annotations, m.annotations]
  | kid {n : Reflection.Node} {ks : List RTree} {k : RTree} {i : EntId} {path : List (Option (List Annotation))} (h : k ∈ ks)
      (hp : AnnPath k i path) : AnnPath (.mk n ks) i (n.annotations :: path)

/-- `t` is a node of the file, `p` are the names from the top level down to it (as `Sub` of
Spec/Module.lean). -/
inductive RSub (file : RTree) : List Module.Str → RTree → Prop
  | top {k : RTree} (h : k ∈ file.kids) : RSub file [k.node.short] k
  | kid {p : List Module.Str} {t k : RTree} (ht : RSub file p t) (h : k ∈ t.kids) : RSub file (p ++ [k.node.short]) k

/-- The `options` annotation at one level, if there is one. -/
def firstOptions (anns : Option (List Annotation)) : Option Annotation := (anns.getD []).find? fun a => a.id == optionsAnnId

/-- The value of the annotation is the struct `o`: the value has the tag of `struct`, and its pointer
points to `o`. -/
def AnnStruct (a : Annotation) (o : StructObj) : Prop :=
  a.value.tag = 16 ∧ ∃ p, a.value.payload = .anyPointer p ∧ p.asStruct = .ok (some o)

/-- The value of option `k` for an entity with this path: the innermost one that is set explicitly,
otherwise the default. -/
def OptionIs (dflt : OptVals) (path : List (Option (List Annotation))) (k : OptName) (x : Int) : Prop :=
  ∃ ws, List.Forall₂ (fun (a : Annotation) w => ∃ o, AnnStruct a o ∧ OptReads o w) (path.filterMap firstOptions) ws ∧
    x = resolved k (dflt k) ws

/-- The values of `options` annotations are readable. -/
def OptionsReadable (anns : Option (List Annotation)) : Prop :=
  ∀ a ∈ anns.getD [], a.id = optionsAnnId → ∃ o w, AnnStruct a o ∧ OptReads o w

/-- What the Cap'n Proto compiler guarantees for a request and its file: the tree structure, different
ids, different ASCII names for the members of a node, values of the right type for `options`. -/
structure RequestOK (r : Req) (file : RTree) : Prop where
  requested : r.requested = [file.node.id]
  mem : file.node ∈ r.nodes
  ids : (r.nodes.map (·.id)).Nodup
  kids : ∀ t, file.Has t → r.children t.node.id = t.kids.map RTree.node
  distinct : file.ids.Nodup
  names : ∀ t, file.Has t → ((membersOf t.node).map (·.name)).Nodup
  ascii : ∀ t, file.Has t → ∀ m ∈ membersOf t.node, ∀ c ∈ m.name, c.toNat < 128
  enums : ∀ t, file.Has t → t.node.kind ≠ .enum none
  nodeOptions : ∀ t, file.Has t → OptionsReadable t.node.annotations
  memberOptions : ∀ t, file.Has t → ∀ m ∈ membersOf t.node, OptionsReadable m.annotations

/-- A `ReflectionData` of the request: fresh, or with the generator that an earlier call made. -/
def IsData (r : Req) (dflt : StructObj) (fuel : Nat) (rd : Reflection.ReflectionData) : Prop :=
  rd.request = r ∧ rd.default = dflt ∧ ∀ g, rd.m = some g → Reflection.Generator.new r dflt fuel = .ok g

/-- The calls of the API.  The last argument of `has` and `get` is the id of the annotation class. -/
inductive Call
  | node (a : Reflection.Arg)
  | has (a : Reflection.Arg) (anncls : Nat)
  | get (a : Reflection.Arg) (anncls : Nat)
  | name (f : Member)

/-- What they return. -/
inductive Answer
  | node (n : Reflection.Node)
  | bool (b : Bool)
  | val (v : Reflection.PyVal)
  | str (s : Module.Str)

/-- A call: the answer, and the object afterwards (if there is an exception, it may still be the
old one or have the generator already). -/
def Call.run (kwlist : List Module.Str) (fuel : Nat) (rd : Reflection.ReflectionData) : Call → Py (Answer × Reflection.ReflectionData)
  | .node a => do let (x, rd) ← rd.getNode fuel a; pure (.node x, rd)
  | .has a i => do let (x, rd) ← rd.hasAnnotation fuel a i; pure (.bool x, rd)
  | .get a i => do let (x, rd) ← rd.getAnnotation fuel a i; pure (.val x, rd)
  | .name f => do let (x, rd) ← rd.fieldName kwlist fuel f; pure (.str x, rd)

/-- The objects that calls can lead to. -/
inductive Reached (kwlist : List Module.Str) (fuel : Nat) (rd : Reflection.ReflectionData) : Reflection.ReflectionData → Prop
  | fresh : Reached kwlist fuel rd rd
  | call {rd1 rd2 : Reflection.ReflectionData} {c : Call} {x : Answer} (h : Reached kwlist fuel rd rd1)
      (hc : c.run kwlist fuel rd1 = .ok (x, rd2)) : Reached kwlist fuel rd rd2
  | failed {rd1 rd2 : Reflection.ReflectionData} {c : Call} {e : PyErr} {g : Reflection.Generator} (h : Reached kwlist fuel rd rd1)
      (hc : c.run kwlist fuel rd1 = .error e) (hm : rd1.getM fuel = .ok (g, rd2)) : Reached kwlist fuel rd rd2

end Capnpy.Spec
