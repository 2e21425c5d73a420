import Verif.Spec.Ctor

/-!
# Specification: what a constructor stores behind its pointers, and in what order

`FieldsPtrs fs as W`: given the arguments `as`, the constructor of a struct with fields
`fs` stores the values listed in `W` in the pointer slots paired with them, in the
order of the list (the fields in the order of the schema; the fields of a group in
the place of the group).
-/

namespace Capnpy.Spec

mutual

/-- The pointer slots a given field sets, with the values (`None` is the null
pointer), in the order of the fields of the schema. -/
def FieldPtrs : Field → Arg → List (Nat × Val) → Prop
  | .slot _ _ _ ty off _, a, W => if ty.isPointer then ∃ v, PtrArg ty a v ∧ W = [(off, v)] else W = []
  | .group _ _ _ nullable _ children, a, W =>
    if nullable then FieldsPtrs children (nullablePair children a) W
    else ∃ as, a = .tuple as ∧ FieldsPtrs children as W

def FieldsPtrs : List Field → List Arg → List (Nat × Val) → Prop
  | [], _, W => W = []
  | f :: fs, as, W =>
    if f.skipped then FieldsPtrs fs as W
    else
      match as with
      | [] => False
      | a :: as => ∃ W1 W2, W = W1 ++ W2 ∧ (if absent f a then W1 = [] else FieldPtrs f a W1) ∧
          FieldsPtrs fs as W2

end

/-- Whenever two of the values are stored behind pointers, the pointers are in the
order of the values; the exception are values that take no room at all, such as
empty lists. -/
def InSlotOrder (W : List (Nat × Val)) : Prop :=
  W.Pairwise fun x y => x.2 = .null ∨ y.2 = .null ∨ x.1 < y.1 ∨ (x.2.size = 0 ∧ y.2.size = 0)

mutual

/-- The pointer slots of a field, union members included. -/
def ptrSlots : Field → List Nat
  | .slot _ _ _ ty off _ => if ty.isPointer then [off] else []
  | .group _ _ _ _ _ children => ptrSlotsAll children

def ptrSlotsAll : List Field → List Nat
  | [] => []
  | f :: fs => ptrSlots f ++ ptrSlotsAll fs

end

mutual

/-- The pointer slots inside a field are in the order of the schema. -/
def SlotsOrdered : Field → Prop
  | .slot .. => True
  | .group _ _ _ _ _ children => AllSlotsOrdered children

/-- The pointer slots of the fields are in the order of the schema, members of the
same union excepted. -/
def AllSlotsOrdered : List Field → Prop
  | [] => True
  | f :: fs =>
    SlotsOrdered f ∧
    (∀ g ∈ fs, (f.disc.isSome ∧ g.disc.isSome) ∨ ∀ i ∈ ptrSlots f, ∀ j ∈ ptrSlots g, i < j) ∧
    AllSlotsOrdered fs

end

end Capnpy.Spec
