import Verif.Model.List
import Verif.Spec.Reach
import Verif.Spec.Ctor

/-!
# Specification: the values with which the compiled version can be trusted

The compiled builder checks less than the pure one.  These are the conditions under which
the two agree; C45, C49 and C55 show what happens without them.
-/

namespace Capnpy

/-- The static sizes of a struct item type are sizes. -/
def ItemType.Sized : ItemType → Prop
  | .struct d p => 0 ≤ d ∧ 0 ≤ p
  | .list inner => inner.Sized
  | _ => True

namespace Pyx

open Spec

/-- Where a far pointer at `o` leads. -/
def FarLeads (S : Seg) (o o' : Int) (w' : Nat) : Prop :=
  ∃ p', S.readFarPtr o = .ok (o', p') ∧ p' % 2 ^ 64 = (w' : Int)

/-- No pointer which can be reached from the object leads to before the start of its
buffer. -/
def ObjOk (o : StructObj) : Prop :=
  ∃ w : Nat, o.asPointer 0 % 2 ^ 64 = (w : Int) ∧ NoneBefore o.seg.buf (FarLeads o.seg) 0 w

/-- The items with which the compiled version can be trusted: no bools; a struct has no
reachable pointers to before its buffer, and its data section is not larger than an item. -/
def ItemOk : ItemType → PyItem → Prop
  | .bool, _ => False
  | .struct d p, .struct o => ∃ w : Nat, o.asPointer 0 % 2 ^ 64 = (w : Int) ∧ kind w = 0 ∧
      NoneBefore o.seg.buf (FarLeads o.seg) 0 w ∧ (dataSize w : Int) ≤ d + p
  | .list inner, .list l => ∀ x ∈ l, ItemOk inner x
  | _, _ => True

/-- No item type is `bool`, at any depth. -/
def NoBool : ItemType → Prop
  | .bool => False
  | .list inner => NoBool inner
  | _ => True

/-- The argument of a slot is converted to the C type as the pure version takes it: a bool
field gets `False`, `True`, 0 or 1; the pointers of a struct do not lead to before the
start of its buffer; the items of a list are as above.  Nothing is asked of the others. -/
def ArgOk : SlotType → Arg → Prop
  | .bool, a => a.toInt? = some 0 ∨ a.toInt? = some 1
  | .struct, .struct o => ObjOk o
  | .list it, .list xs => it.Sized ∧ NoBool it ∧ ∀ x ∈ xs, ItemOk it x
  | _, _ => True

mutual

/-- The arguments of the slots of a field which is given, also inside groups. -/
def FieldArgOk : Field → Arg → Prop
  | .slot _ _ disc ty _ _, a => (disc.isSome && a.isUndefined) = true ∨ ArgOk ty a
  | .group _ _ disc nullable _ children, a =>
    (disc.isSome && a.isUndefined) = true ∨
    if nullable then FieldsArgOk children (nullablePair children a)
    else ∀ as, a = .tuple as → FieldsArgOk children as

def FieldsArgOk : List Field → List Arg → Prop
  | [], _ => True
  | f :: fs, as =>
    if f.skipped then FieldsArgOk fs as
    else
      match as with
      | [] => True
      | a :: as => FieldArgOk f a ∧ FieldsArgOk fs as

end

mutual

/-- The list fields have item types which capnpy supports. -/
def ListsOk : Field → Prop
  | .slot _ _ _ ty _ _ => ∀ it, ty = .list it → it.Sized ∧ NoBool it
  | .group _ _ _ _ _ children => AllListsOk children

def AllListsOk : List Field → Prop
  | [] => True
  | f :: fs => ListsOk f ∧ AllListsOk fs

end

end Pyx

end Capnpy
