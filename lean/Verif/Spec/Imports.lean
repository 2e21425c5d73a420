import Verif.Model.Imports
import Verif.Spec.Module

/-!
# Specification: schema files that import each other
-/

namespace Capnpy.Spec

open Capnpy.Module

/-- The import is used: the request has a node with its id. -/
def UsedImport (r : Request) (i : Import) : Prop := ∃ n ∈ r.nodes, n.id = i.id

/-- The import is used, and it is not the C++ annotations, which capnpy ignores. -/
def RealImport (r : Request) (i : Import) : Prop := UsedImport r i ∧ i.name ≠ "/capnp/c++.capnp".toList

/-- `s` is made of letters, digits and underscores. -/
def Word (s : Str) : Prop := ∀ c ∈ s, c.isAlphanum = true ∨ c = '_'

/-- A file of a project, with the tree of its nodes. -/
structure FileInProject (P : Project) (files : List Nat) (tree : Nat → Tree) (rank : Nat → Nat) (f : Nat) (r : Request) :
    Prop where
  /-- the compiled file is what the request says -/
  request : P.request f = .ok r
  /-- the file itself is fine: see FileOK -/
  ok : FileOK (r.gen []) (tree f)
  supported : Supported (r.gen []) (tree f)
  /-- the imports: the request names other files -/
  imports : ∃ is, r.imports = some is ∧
    /- the names that the module gives to the imported files are all different -/
    ((is.filter fun i => r.nodes.any fun n => n.id == i.id).map fun i => importName (r.display i.id)).Nodup ∧
    /- and each import which is used leads to another file of the project, without cycles -/
    ∀ i ∈ is, RealImport r i → Word (importName (r.display i.id)) ∧ i.id ≠ r.file ∧
      ∃ g, P.resolve i.name = .ok g ∧ g ∈ files ∧ rank g < rank f ∧ (tree g).node.id = i.id ∧ (tree g).node ∈ r.nodes

/-- A project: every file is fine. -/
structure ProjectOK (P : Project) (files : List Nat) (tree : Nat → Tree) (rank : Nat → Nat) : Prop where
  each : ∀ f ∈ files, ∃ r, FileInProject P files tree rank f r

/-- The namespace of the module at address `a`, as the code of the module sees it. -/
def viewOf (w : World) (a : Nat) : State := ⟨(w.heap[a]?).getD [], w.heap⟩

end Capnpy.Spec
