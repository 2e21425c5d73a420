import Verif.Model.StructEmit
import Verif.Spec.FieldEmit

/-!
# Specification: what a struct node of the request describes

A struct node and the nodes of its groups, which are found by id, describe a tree of fields: `Schema` of
Model/Ctor.lean, for which Spec/Ctor.lean says what a constructor and its properties have to do.
-/

namespace Capnpy.Spec

open StructEmit (SField SNode Env)

/-- schema.capnp: a discriminant of 0xffff means that the field is not in a union. -/
def discOf (f : SField) : Option Nat := if f.disc = 65535 then none else some f.disc

/-- schema.capnp: the struct has a union if it has discriminants; the offset is in units of 16 bits. -/
def unionOf (n : SNode) : Option Nat := if n.discCount = 0 then none else some n.discOffset

mutual

/-- The field of the request is the field of the tree. -/
def IsField (e : Env) (cls : Nat → Option Const.Cls) (f : SField) : Field → Prop
  | .slot name code disc ty off dflt =>
    ∃ s, f.kind = .slot s ∧ name = f.pyname ∧ code = f.code ∧ disc = discOf f ∧ slotTypeOf cls f.tt s.ty = some ty ∧
      off = s.off ∧ dflt = explicitDefault s
  | .group name code disc nullable union children =>
    ∃ id n, f.kind = .group id ∧ e.nodes id = some n ∧ name = f.pyname ∧ code = f.code ∧ disc = discOf f ∧
      nullable = f.nullable ∧ union = unionOf n ∧ IsFields e cls n.fields children

/-- The fields of a node, in order. -/
def IsFields (e : Env) (cls : Nat → Option Const.Cls) (fs : List SField) : List Field → Prop
  | [] => fs = []
  | g :: gs =>
    match fs with
    | [] => False
    | f :: fs => IsField e cls f g ∧ IsFields e cls fs gs

end

/-- The struct node describes the schema. -/
def IsSchema (e : Env) (cls : Nat → Option Const.Cls) (n : SNode) (S : Schema) : Prop :=
  S.dataWords = n.dataWords ∧ S.ptrs = n.ptrs ∧ S.union = unionOf n ∧ IsFields e cls n.fields S.fields

end Capnpy.Spec
