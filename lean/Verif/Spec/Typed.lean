import Verif.Spec.Ctor

/-!
# Specification: arguments of the right type

The arguments which a constructor may store: ints in the range of the field, floats, text and
data as bytes, objects and lists; at most one member of each union.  Unlike `AccFields` this does
not ask that the objects are well formed, nor that there is room for them.
-/

namespace Capnpy.Spec

open Props (InRange)

/-- `a` has the type of the slot.  A bool field takes any number. -/
def TypedArg : SlotType → Arg → Prop
  | .void, _ => True
  | .prim fmt, a => ∃ i, a.toInt? = some i ∧ InRange fmt i
  | .enum, a => ∃ i, a.toInt? = some i ∧ InRange .h i
  | .float fmt, a => ∃ bits, a = .float bits ∧ InRange fmt bits
  | .bool, _ => True
  | .text, a => a = .none ∨ ∃ s, a = .bytes s
  | .data, a => a = .none ∨ ∃ s, a = .bytes s
  | .struct, a => a = .none ∨ ∃ o, a = .struct o
  | .list _, a => a = .none ∨ ∃ l, a = .list l
  | .anyPointer, _ => False

mutual

/-- The argument of a field which is given; that of a group is a tuple (of a nullable group,
`None` or the value). -/
def TypedField : Field → Arg → Prop
  | .slot _ _ _ ty _ _, a => TypedArg ty a
  | .group _ _ _ nullable _ children, a =>
    if nullable then TypedFields children (nullablePair children a)
    else ∃ as, a = .tuple as ∧ as.length = (children.filter (!·.skipped)).length ∧
      TypedFields children as ∧ (members children as).length ≤ 1

/-- All the arguments; members of a union which are not given are left out. -/
def TypedFields : List Field → List Arg → Prop
  | [], _ => True
  | f :: fs, as =>
    if f.skipped then TypedFields fs as
    else
      match as with
      | [] => False
      | a :: as => (absent f a = true ∨ TypedField f a) ∧ TypedFields fs as

end

end Capnpy.Spec
