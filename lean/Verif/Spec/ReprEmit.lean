import Verif.Model.ReprEmit
import Verif.Spec.StructEmit
import Verif.Spec.Repr

/-!
# Specification: what the fields of a struct node of the request are for the text format

Spec/Repr.lean says what text an object of a class has; a class is a list of fields with names, discriminants and kinds.
Here: the class which a struct node of the request describes.
-/

namespace Capnpy.Spec

open Const (STy TextType)
open StructEmit (SField SNode Env)
open Capnpy.Repr (RItem Kind RField)

/-- The elements of a list of `ty`: `members` are the names of the enum classes and of their enumerants. -/
def ritemOf (members : Nat → Option (Repr.Str × List String)) (tt : TextType) : STy → Option RItem
  | .void => some .void
  | .bool => some .bool
  | .prim .f => some (.float .f)
  | .prim .d => some (.float .d)
  | .prim fmt => some (.prim fmt)
  | .text =>
    match tt with
    | .bytes => some .textBytes
    | .unicode => some .textUnicode
    | .notset => none
  | .data => some .data
  | .list e => (ritemOf members tt e).map .list
  | .enum i => (members i).map fun m => .enum m.1 m.2
  | .struct i => some (.struct i)
  | .interface => none
  | .anyPointer => none

/-- The kind of a slot. -/
def slotKind (members : Nat → Option (Repr.Str × List String)) (tt : TextType) (s : FieldEmit.Slot) : Option Kind :=
  match s.ty with
  | .void => some .void
  | .bool => some (.bool s.off (explicitDefault s))
  | .prim .f => some (.float .f s.off (explicitDefault s))
  | .prim .d => some (.float .d s.off (explicitDefault s))
  | .prim fmt => some (.prim fmt s.off (explicitDefault s))
  | .text =>
    match tt with
    | .bytes => some (.textBytes s.off)
    | .unicode => some (.textUnicode s.off)
    | .notset => none
  | .data => some (.data s.off)
  | .list e => (ritemOf members tt e).map fun it => .list it s.off
  | .enum i => (members i).map fun m => .enum m.2 s.off (explicitDefault s)
  | .struct i => some (.struct i s.off)
  | .interface => none
  | .anyPointer => some (.anyPointer s.off)

/-- The kind of a field: classes are given by the ids of their nodes. -/
def fieldKind (members : Nat → Option (Repr.Str × List String)) (f : SField) : Option Kind :=
  match f.kind with
  | .slot s => slotKind members f.tt s
  | .group id => some (.group id f.nullable)

/-- The field of the text is the field of the request. -/
def IsReprField (members : Nat → Option (Repr.Str × List String)) (f : SField) (r : RField) : Prop :=
  r.capname = f.cname.toList ∧ r.disc = discOf f ∧ fieldKind members f = some r.kind

/-- The class of the text is the one which the node describes: all fields, in order. -/
def IsReprClass (members : Nat → Option (Repr.Str × List String)) (n : SNode) (c : Repr.Cls) : Prop :=
  c.dataWords = n.dataWords ∧ c.ptrs = n.ptrs ∧ c.union = unionOf n ∧ List.Forall₂ (IsReprField members) n.fields c.fields

end Capnpy.Spec
