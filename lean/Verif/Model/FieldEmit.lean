import Verif.Model.Const
import Verif.Model.Ctor
import Verif.Model.Text

/-!
# Model of how the compiler turns the slots of the schema into code

capnpy/compiler/field.py and capnpy/compiler/structor.py emit, for a slot of the request (its type, its offset,
its default value), the property that reads it and the statement of the constructor that writes it.  The forest
of conditions on the type is that of capnpy/schema_extended.py.  Model/Accessor.lean and Model/Ctor.lean start
from a slot whose type, format and size have been chosen already; here they are chosen.
-/

namespace Capnpy.FieldEmit

open Const (STy TextType PyVal)
open Module (Str Gen)

/-! ## capnpy/schema_extended.py -/

/-- `t.which()`: the discriminants in schema.capnp, struct Type (capnpy/schema.py:163-165). -/
def tag : STy → Nat
  | .void => 0
  | .bool => 1
  | .prim .b => 2
  | .prim .h => 3
  | .prim .i => 4
  | .prim .q => 5
  | .prim .B => 6
  | .prim .H => 7
  | .prim .I => 8
  | .prim .Q => 9
  | .prim .f => 10
  | .prim .d => 11
  | .text => 12
  | .data => 13
  | .list _ => 14
  | .enum _ => 15
  | .struct _ => 16
  | .interface => 17
  | .anyPointer => 18

/-- The members of `Type.__tag__`, in order (capnpy/schema.py:163-165). -/
def tagNames : List String :=
  ["void", "bool", "int8", "int16", "int32", "int64", "uint8", "uint16", "uint32", "uint64", "float32", "float64",
   "text", "data", "list", "enum", "struct", "interface", "anyPointer"]

/-- `str(t.which())` -/
def whichName (t : STy) : String := tagNames.getD (tag t) ""

/-- capnpy/schema_extended.py:16-19 `is_primitive` -/
def isPrimitive (t : STy) : Bool := decide (2 ≤ tag t) && decide (tag t ≤ 11)

/-- capnpy/schema_extended.py:24-29 `is_pointer` -/
def isPointer (t : STy) : Bool := [12, 13, 16, 14, 18].contains (tag t)

/-- capnpy/type.py:33-46: the members of `Types` and their formats -/
def types : List (String × Option Char) :=
  [("void", none), ("bool", none), ("int8", some 'b'), ("uint8", some 'B'), ("int16", some 'h'), ("uint16", some 'H'),
   ("int32", some 'i'), ("uint32", some 'I'), ("int64", some 'q'), ("uint64", some 'Q'), ("float32", some 'f'),
   ("float64", some 'd'), ("text", none), ("data", none)]

/-- `self.type.as_type().fmt` (capnpy/schema_extended.py:8-14): `getattr(_Types, typename).fmt` -/
def asTypeFmt (t : STy) : Py (Option Char) :=
  match types.lookup (whichName t) with
  | some fmt => .ok fmt
  | none => .error .attributeError

/-- capnpy/schema_extended.py:135-143 `get_fmt` -/
def getFmt (t : STy) : Py (Option Char) :=
  if isPrimitive t then asTypeFmt t
  else if isPointer t then .ok (some 'q')
  else if tag t = 15 then .ok (some 'h')
  else .ok none

/-- capnpy/schema_extended.py:145-151 `get_typename`; a format string with `None` prints it. -/
def getTypename (t : STy) : String :=
  if isPrimitive t then whichName t
  else if isPointer t then "int64"
  else if tag t = 15 then "int16"
  else "None"

/-- The format characters of the `struct` module which are used. -/
def fmtOf : Char → Option Fmt
  | 'b' => some .b | 'B' => some .B | 'h' => some .h | 'H' => some .H | 'i' => some .i | 'I' => some .I
  | 'q' => some .q | 'Q' => some .Q | 'f' => some .f | 'd' => some .d
  | _ => none

/-- `struct.calcsize(fmt)`; the native sizes of these formats are the standard ones. -/
def calcsize : Option Char → Py Nat
  | none => .error .typeError
  | some c =>
    match fmtOf c with
    | some fmt => .ok fmt.size
    | none => .error .structError

/-- capnpy/schema_extended.py:153-161 `get_size` -/
def getSize (t : STy) : Py Nat :=
  if tag t = 0 then .ok 0
  else if tag t = 1 then .ok 0
  else do calcsize (← getFmt t)

/-- schema.capnp `Field.slot`; `dflt` is `defaultValue.as_pyobj()` (`Const.asPyobj`). -/
structure Slot where
  ty : STy
  off : Nat
  dflt : PyVal
  explicit : Bool

/-- What emitting needs of the `ModuleGenerator`; `tt` is `m.options(field).text_type`, `fuel` the recursion limit. -/
structure Ctx where
  g : Gen
  pyx : Bool
  tt : TextType
  fuel : Nat

/-! ## The property -/

/-- The body of the property after `{ensure_union}`, by the `_emit_` method that wrote it. -/
inductive Getter
  | none
  | primitive (offset : Nat) (fmt : Option Char) (dflt : PyVal)
  | bit (offset bitmask : Nat) (dflt : PyVal)
  | enum (cls : Str) (offset : Nat) (dflt : PyVal)
  | textBytes (offset : Nat)
  | textUnicode (offset : Nat)
  | data (offset : Nat)
  | struct (cls : Str) (offset : Nat)
  | list (item : Str) (offset : Nat)
  | any (offset : Nat)

/-- `hadExplicitDefault` is accepted (capnpy/compiler/field.py:27-31). -/
def defaultSupported (t : STy) : Bool := isPrimitive t || tag t == 15 || tag t == 1

/-- The elements of a list, `type.list.elementType`. -/
def elementType : STy → STy
  | .list e => e
  | t => t

/-- The id of a struct or an enum, `type.struct.typeId` (capnpy/schema_extended.py:31-37 `get_node`). -/
def typeId : STy → Nat
  | .struct i => i
  | .enum i => i
  | _ => 0

/-- capnpy/compiler/field.py:26-57 `_emit`, with 69-74, 81-86, 94-97, 106-109, 119-122, 132-135, 143-148, 181-189 and
200-206.  A void field which stands for a virtual group (`field_override`) is in Model/Group.lean. -/
def emitGetter (c : Ctx) (s : Slot) : Py Getter := do
  if s.explicit && !defaultSupported s.ty then .error .valueError
  else do
    let offset := s.off * (← getSize s.ty)
    if tag s.ty = 0 then pure .none
    else if isPrimitive s.ty then do pure (.primitive offset (← getFmt s.ty) s.dflt)
    else if tag s.ty = 1 then pure (.bit (s.off / 8) (1 <<< (s.off % 8)) s.dflt)
    else if tag s.ty = 15 then do pure (.enum (← Const.nodeName c.g c.fuel (typeId s.ty) []) offset s.dflt)
    else if tag s.ty = 12 && c.tt == .bytes then pure (.textBytes offset)
    else if tag s.ty = 12 && c.tt == .unicode then pure (.textUnicode offset)
    else if tag s.ty = 13 then pure (.data offset)
    else if tag s.ty = 16 then do
      pure (.struct (← c.g.runtimeName c.fuel (← c.g.node (typeId s.ty))) offset)
    else if tag s.ty = 14 then do
      pure (.list (← Const.listItemType c.g c.pyx c.tt c.fuel (elementType s.ty)) offset)
    else if tag s.ty = 18 then pure (.any offset)
    else .error .notImplemented

/-- `{default_} != 0`, with the repr of the default in the text: `inf` and `nan` are not defined.  (The repr of an
AnyPointer is a syntax error; it is never the default of a number.) -/
def defaultNonZero : PyVal → Py Bool
  | .none => .ok true
  | .bool b => .ok b
  | .int i => .ok (i != 0)
  | .float fmt bits =>
    let (e, f) := if fmt = .f then (8, 23) else (11, 52)
    if bits.toNat / 2 ^ f % 2 ^ e = 2 ^ e - 1 then .error .nameError
    else .ok (bits.toNat % 2 ^ (e + f) != 0)
  | .bytes _ => .ok true
  | .anyPointer _ => .error .nameError

/-- `value ^ {default_}` for ints and bools -/
def xorInt (value : Int) : PyVal → Py Int
  | .int d => .ok (Int.xor value d)
  | .bool d => .ok (Int.xor value (if d then 1 else 0))
  | _ => .error .typeError

/-- `value ^ {default_}` for a bool, which is a bool only if both are. -/
def xorBool (value : Bool) : PyVal → Py RVal
  | .bool d => .ok (.bool (value ^^ d))
  | .int d => .ok (.int (Int.xor (if value then 1 else 0) d))
  | _ => .error .typeError

/-- `if {default_} != 0: value = value ^ {default_}` for an int -/
def applyDefault (value : Int) (d : PyVal) : Py Int := do
  if (← defaultNonZero d) then xorInt value d else pure value

/-- Running the property (without `{ensure_union}`) of an instance.  `items` are the item types which the module
defines (`Const.Env`).  Simplifications: the classes of structs and enums are found; a unicode text is given by
its bytes, before decoding (Model/Text.lean). -/
def Getter.run (items : Str → Option ItemType) (o : StructObj) : Getter → Py RVal
  | .none => .ok .none
  -- `ord(None)`
  | .primitive _ Option.none _ => .error .typeError
  | .primitive offset (some ch) d =>
    match fmtOf ch with
    | Option.none => .error .structError
    | some fmt => do
      let value ← o.readPrimitive (offset : Int) fmt
      if fmt = .f ∨ fmt = .d then do
        -- `value ^ default` on floats
        if (← defaultNonZero d) then .error .typeError else pure (.float value)
      else do pure (.int (← applyDefault value d))
  | .bit offset bitmask d => do
    let value ← o.readBit (offset : Int) (bitmask : Int)
    if (← defaultNonZero d) then xorBool value d else pure (.bool value)
  | .enum _ offset d => do
    let value ← o.readInt16 (offset : Int)
    pure (.int (← applyDefault value d))
  | .textBytes offset => do pure (((← o.textField (offset : Int)).map RVal.bytes).getD .none)
  | .textUnicode offset => do pure (((← o.textField (offset : Int)).map RVal.bytes).getD .none)
  | .data offset => do pure (((← o.dataField (offset : Int)).map RVal.bytes).getD .none)
  | .struct _ offset => do pure (((← o.readStruct (offset : Int)).map RVal.struct).getD .none)
  | .list item offset =>
    match items item with
    | Option.none => .error .nameError
    | some it => do pure (((← o.readList (offset : Int) it).map RVal.list).getD .none)
  | .any offset => do
    if (← o.hasField (offset : Int)) then pure (.any o offset) else pure .none

/-! ## The constructor -/

/-- The statements of `__new` for a slot, by the `handle_` method that wrote them.  `xor` is the default in
`{arg} ^= {default_}`. -/
inductive Setter
  | textBytes (offset : Nat)
  | textUnicode (offset : Nat)
  | data (offset : Nat)
  | struct (cls : Str) (offset : Nat)
  | list (item : Str) (offset : Nat)
  | number (xor : Option PyVal) (method : String) (offset : Nat)
  | bit (xor : Option PyVal) (byteoffset bitoffset : Nat)
  | pass
  | notImplemented

/-- capnpy/compiler/structor.py:27-31 `slot_offset`; `ds` is `dataWordCount` -/
def slotOffset (ds : Nat) (s : Slot) : Py Nat := do
  let offset := s.off * (← getSize s.ty)
  pure (if isPointer s.ty then offset + ds * 8 else offset)

/-- The default that is XORed (capnpy/compiler/structor.py:190-192, 202-204) -/
def xorDefault (s : Slot) : Option PyVal := if s.explicit then some s.dflt else none

/-- capnpy/compiler/structor.py:79-103 `_handle_node` for a slot, with 151-205.  The type of the field is looked at
through capnpy/schema_extended.py:75-125. -/
def emitSetter (c : Ctx) (ds : Nat) (s : Slot) : Py Setter :=
  if tag s.ty = 12 && c.tt == .bytes then do pure (.textBytes (← slotOffset ds s))
  else if tag s.ty = 12 && c.tt == .unicode then do pure (.textUnicode (← slotOffset ds s))
  else if tag s.ty = 13 then do pure (.data (← slotOffset ds s))
  else if tag s.ty = 16 then do
    let offset ← slotOffset ds s
    pure (.struct (← c.g.runtimeName c.fuel (← c.g.node (typeId s.ty))) offset)
  else if tag s.ty = 14 then do
    let offset ← slotOffset ds s
    pure (.list (← Const.listItemType c.g c.pyx c.tt c.fuel (elementType s.ty)) offset)
  else if isPrimitive s.ty || tag s.ty == 15 then do
    pure (.number (xorDefault s) (getTypename s.ty) (← slotOffset ds s))
  else if tag s.ty = 1 then pure (.bit (xorDefault s) (s.off / 8) (s.off % 8))
  else if tag s.ty = 0 then pure .pass
  else pure .notImplemented

/-- capnpy/segment/builder.py:25-53: the methods `write_...` of the builder -/
def writeMethod : String → Option Fmt
  | "int8" => some .b
  | "uint8" => some .B
  | "int16" => some .h
  | "uint16" => some .H
  | "int32" => some .i
  | "uint32" => some .I
  | "int64" => some .q
  | "uint64" => some .Q
  | "float32" => some .f
  | "float64" => some .d
  | _ => none

/-- `arg ^ {default_}` -/
def xorArg (a : Arg) (d : PyVal) : Py Arg :=
  match d, a with
  | .int d, .int i => .ok (.int (Int.xor i d))
  | .int d, .bool b => .ok (.int (Int.xor (if b then 1 else 0) d))
  | .bool d, .int i => .ok (.int (Int.xor i (if d then 1 else 0)))
  | .bool d, .bool b => .ok (.bool (b ^^ d))
  | d, _ => do
    -- the operands are evaluated first
    let _ ← defaultNonZero d
    .error .typeError

/-- `{arg} ^= {default_}` -/
def xorVar (var : String) (d : Option PyVal) (fr : Frame) : Py Frame :=
  match d with
  | none => pure fr
  | some d => do pure (fr.set var (← xorArg (← fr.get var) d))

/-- `builder.write_float32(i, arg)` takes the bit pattern of a float, see `writeFloatArg`. -/
def writeNumber (fmt : Fmt) (i : Int) (a : Arg) : BM Unit :=
  if fmt = .f ∨ fmt = .d then writeFloatArg fmt i a else writeArg fmt i a

/-- `builder.write_bool(byteoffset, bitoffset, arg)` -/
def writeBit (byteoffset bitoffset : Nat) (a : Arg) : BM Unit :=
  match a.toInt? with
  | some v => writeBool (byteoffset : Int) bitoffset v
  | none => BM.lift (.error .typeError)

/-- Running the statements in the frame of `__new`.  A unicode text is given by its encoding (Model/Text.lean). -/
def Setter.run (items : Str → Option ItemType) (fuel : Nat) (var : String) (fr : Frame) : Setter → Py Frame
  | .textBytes offset => do fr.call (allocBytesArg (← fr.posPlus offset) (← fr.get var) 1)
  | .textUnicode offset => do fr.call (allocBytesArg (← fr.posPlus offset) (← fr.get var) 1)
  | .data offset => do fr.call (allocBytesArg (← fr.posPlus offset) (← fr.get var) 0)
  | .struct _ offset => do fr.call (copyStructArg fuel (← fr.posPlus offset) (← fr.get var))
  | .list item offset => do
    let i ← fr.posPlus offset
    match items item with
    | none => .error .nameError
    | some it => fr.call (copyListArg fuel it i (← fr.get var))
  | .number d method offset => do
    let fr ← xorVar var d fr
    match writeMethod method with
    | none => .error .attributeError
    | some fmt => fr.call (writeNumber fmt (← fr.posPlus offset) (← fr.get var))
  | .bit d byteoffset bitoffset => do
    let fr ← xorVar var d fr
    fr.call (writeBit byteoffset bitoffset (← fr.get var))
  | .pass => pure fr
  | .notImplemented => .error .notImplemented

end Capnpy.FieldEmit
