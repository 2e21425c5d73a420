import Verif.Model.Const
import Verif.Spec.Module
import Verif.Spec.ListSpec
import Verif.Props.Fields

/-!
# Specification: constants and item types

schema.capnp says where a `Value` has its members: the tag in the first two bytes, bools, 8- and 16-bit numbers and
enums from byte 2 on, 32-bit numbers at byte 4, 64-bit numbers at byte 8, everything else behind the only pointer.
-/

namespace Capnpy.Spec

open Capnpy.Const
open Capnpy.Module (Str Gen State)
open Capnpy.Props (valueOf byteZ bytesZ child)

/-- The number of the member of `Value` for a type (schema.capnp). -/
def tagOf : STy → Nat
  | .void => 0
  | .bool => 1
  | .prim .b => 2
  | .prim .h => 3
  | .prim .i => 4
  | .prim .q => 5
  | .prim .B => 6
  | .prim .H => 7
  | .prim .I => 8
  | .prim .Q => 9
  | .prim .f => 10
  | .prim .d => 11
  | .text => 12
  | .data => 13
  | .list _ => 14
  | .enum _ => 15
  | .struct _ => 16
  | .interface => 17
  | .anyPointer => 18

/-- The tag of a `Value` whose data section is `data`. -/
def valueTag (data : Bytes) : Int := valueOf .h (bytesZ data 0 2)

/-- Is the type one of the integers? -/
def isInt : Fmt → Bool
  | .f => false
  | .d => false
  | _ => true

/-- The Python object for the constant in a `Value` with the sections `data` and `ptrs`, for the types that are
neither structs nor lists. -/
inductive PlainConst (data : Bytes) (ptrs : List Val) : STy → Obj → Prop
  | void : PlainConst data ptrs .void .none
  | bool : PlainConst data ptrs .bool (.bool ((byteZ data 2).toNat.testBit 0))
  | int (fmt : Fmt) (h : isInt fmt = true) :
      PlainConst data ptrs (.prim fmt) (.int (valueOf fmt (bytesZ data (max 2 fmt.size) fmt.size)))
  | text (s : Bytes) (h : child ptrs 0 = .listPrim 2 (s.length + 1) (s ++ [0])) : PlainConst data ptrs .text (.bytes s)
  | noText (h : child ptrs 0 = .null) : PlainConst data ptrs .text .none
  | data (n : Nat) (b : Bytes) (h : child ptrs 0 = .listPrim 2 n b) : PlainConst data ptrs .data (.bytes b)
  | noData (h : child ptrs 0 = .null) : PlainConst data ptrs .data .none
  | enum (id : Nat) : PlainConst data ptrs (.enum id) (.int (valueOf .H (bytesZ data 2 2)))
  | interface : PlainConst data ptrs .interface .none

/-- The item type that a list of `ty` should have. -/
def itemOf (cls : Nat → Option Cls) (tt : TextType) : STy → Option Const.Item
  | .void => some .void
  | .bool => some .bool
  | .prim fmt => some (.prim fmt)
  | .text =>
    match tt with
    | .bytes => some .text
    | .unicode => some .textUnicode
    | .notset => none
  | .data => some .data
  | .list e => (itemOf cls tt e).map .list
  | .enum i =>
    match cls i with
    | some (.enum c) => some (.enum c)
    | _ => none
  | .struct i =>
    match cls i with
    | some (.struct c d p) => some (.struct c d p)
    | _ => none
  | .interface => none
  | .anyPointer => none

/-- What the user gives to `as_list` or `from_type` for a list of `ty`: a member of `Types`, `bytes` or `str` for
texts, a class, `[t]` for a list of lists. -/
def ptOf (cls : Nat → Option Cls) (tt : TextType) : STy → Option PT
  | .text =>
    match tt with
    | .bytes => some .bytes
    | .unicode => some .unicode
    | .notset => none
  | .list e => (ptOf cls tt e).map fun t => .list [t]
  | .enum i =>
    match cls i with
    | some (.enum c) => some (.enum c)
    | _ => none
  | .struct i =>
    match cls i with
    | some (.struct c d p) => some (.struct c d p)
    | _ => none
  | .interface => none
  | .anyPointer => none
  | .void => some (.builtin .void)
  | .bool => some (.builtin .bool)
  | .prim fmt => some (.builtin (.prim fmt))
  | .data => some (.builtin .data)

/-- The class at an address of the heap; `cls` knows the classes by the ids of their types. -/
def classAt (σ : State) (cls : Nat → Option Cls) (a : Nat) : Option Cls :=
  match σ.getattr (.ref a) "__capnpy_id__".toList with
  | .ok (.int i) => cls i
  | _ => none

/-- The names of an imported module with the state `σ`: its classes are known by their ids, `header` has the classes that
the first lines of the module import.  In pyx mode there are also the item types of capnpy.list. -/
def envOf (σ : State) (cls : Nat → Option Cls) (header : Str → Option Cls) (pyx : Bool) (refl : Option Seg) : Env where
  cls s :=
    match σ.evalPath [] s with
    | .ok (.ref a) => classAt σ cls a
    | _ => header s
  items s :=
    match if pyx then prebuilt s else none with
    | some i => some i
    | none =>
      match σ.evalPath [] s with
      | .ok (.itemType a) =>
        match classAt σ cls a with
        | some (.struct c d p) => some (.struct c d p)
        | some (.enum c) => some (.enum c)
        | none => none
      | _ => none
  refl := refl

/-- `cls` has the structs and enums of the file. -/
def ClassesOK (file : Tree) (cls : Nat → Option Cls) : Prop :=
  ∀ p t, Sub file p t →
    (Node.isStruct t.node → ∃ c d p, cls t.node.id = some (.struct c d p)) ∧
    (Node.isEnum t.node → ∃ c, cls t.node.id = some (.enum c))

/-- The structs and enums in a type belong to the file. -/
def OwnType (file : Tree) : STy → Prop
  | .list e => OwnType file e
  | .struct i => ∃ p t, Sub file p t ∧ t.node.id = i ∧ Node.isStruct t.node ∧ ¬ Node.isGroup t.node
  | .enum i => ∃ p t, Sub file p t ∧ t.node.id = i ∧ Node.isEnum t.node
  | _ => True

/-- The type has no interfaces and no AnyPointers. -/
def Concrete : STy → Prop
  | .list e => Concrete e
  | .interface => False
  | .anyPointer => False
  | _ => True

end Capnpy.Spec
