import Verif.Model.PyExpr
import Verif.Model.Reflection
import Verif.Model.Repr

/-!
# Model of the constants and item types of generated modules

capnpy/compiler/node.py:147-189 (`Node__Const`), module.py:190-214 `declare_const`, request.py:152-168
`_emit_reflection_data`, misc.py:25-86 (`Type.list_item_type`, `Value.as_pyobj`), the accessors of
schema.capnp `Value` (capnpy/schema.py:2407-2612), and what the generated text means when the module is
imported.  The right-hand sides are modelled as texts.

Simplifications.  Python 3.  The `repr` of floats is a parameter.  The names of the module are looked up in an
`Env`, whose part that concerns classes comes from Model/Module.lean (see Props/Const.lean).  The schema
types are given as trees (`STy`), the value as the `Value` struct in the request.
-/

namespace Capnpy.Const

open Capnpy.Module (Str Gen)
open Capnpy.Repr (bytesRepr intRepr)
open Capnpy.PyExpr (Expr)

/-- schema.capnp `Type`: the numbers by their struct format. -/
inductive STy
  | void
  | bool
  | prim (fmt : Fmt)
  | text
  | data
  | list (elem : STy)
  | enum (id : Nat)
  | struct (id : Nat)
  | interface
  | anyPointer
  deriving DecidableEq

/-- capnpy/annotate.py:93-99 `TextType` -/
inductive TextType | notset | bytes | unicode
  deriving DecidableEq

/-! ## The accessors of `Value` -/

/-- What an accessor of `Value` returns; floats are raw bit patterns. -/
inductive PyVal
  | none
  | bool (b : Bool)
  | int (i : Int)
  | float (fmt : Fmt) (bits : Int)
  | bytes (b : Bytes)
  | anyPointer (p : AnyPtr)

/-- `None` or bytes -/
def PyVal.ofBytes : Option Bytes → PyVal
  | some b => .bytes b
  | Option.none => .none

/-- capnpy/schema.py:2562-2567, 2583-2588, 2595-2600: the accessors `list`, `struct`, `anyPointer`. -/
def valuePtr (v : StructObj) : Py PyVal := do
  if (← v.hasField 0) then pure (.anyPointer ⟨v, 0⟩) else pure .none

/-- capnpy/schema.py:2455-2600: the accessor of the member with the given tag. -/
def valueGet (v : StructObj) (tag : Nat) : Py PyVal := do
  v.ensureUnion (some 0) tag
  match tag with
  | 0 => pure .none
  | 1 => do pure (.bool (← v.boolField 16 false))
  | 2 => do pure (.int (← v.primField 2 .b 0))
  | 3 => do pure (.int (← v.primField 2 .h 0))
  | 4 => do pure (.int (← v.primField 4 .i 0))
  | 5 => do pure (.int (← v.primField 8 .q 0))
  | 6 => do pure (.int (← v.primField 2 .B 0))
  | 7 => do pure (.int (← v.primField 2 .H 0))
  | 8 => do pure (.int (← v.primField 4 .I 0))
  | 9 => do pure (.int (← v.primField 8 .Q 0))
  | 10 => do pure (.float .f (← v.primField 4 .f 0))
  | 11 => do pure (.float .d (← v.primField 8 .d 0))
  | 12 => do pure (.ofBytes (← v.readTextBytes 0))
  | 13 => do pure (.ofBytes (← v.readData 0 none 0))
  | 14 => valuePtr v
  | 15 => do pure (.int (← v.primField 2 .H 0))
  | 16 => valuePtr v
  | 17 => pure .none
  | _ => valuePtr v

/-- capnpy/compiler/misc.py:83-86 `as_pyobj`: `getattr(self, str(self.which()))` -/
def asPyobj (v : StructObj) : Py PyVal := do
  let name ← Names.enumStr Reflection.valueMembers (← v.whichRaw (some 0))
  match Reflection.valueMembers.idxOf? name with
  | some i => valueGet v i
  | none => .error .attributeError

/-- `repr(val)`; `fr` gives the repr of a float. -/
def PyVal.repr (fr : Fmt → Int → Str) : PyVal → Str
  | .none => "None".toList
  | .bool true => "True".toList
  | .bool false => "False".toList
  | .int i => intRepr i
  | .float fmt bits => fr fmt bits
  | .bytes b => bytesRepr b
  | .anyPointer _ => "<capnpy.anypointer.AnyPointer object at 0x7f0000000000>".toList

/-! ## Item types -/

/-- The names of the number types (`Type.__tag__` in capnpy/schema.py:163-165, i.e. schema.capnp). -/
def primName : Fmt → String
  | .b => "int8" | .B => "uint8" | .h => "int16" | .H => "uint16" | .i => "int32" | .I => "uint32"
  | .q => "int64" | .Q => "uint64" | .f => "float32" | .d => "float64"

/-- `str(self.which())` for the builtin types -/
def builtinName : STy → Option String
  | .void => some "void"
  | .bool => some "bool"
  | .prim fmt => some (primName fmt)
  | .text => some "text"
  | .data => some "data"
  | _ => none

/-- `str(options.text_type)` -/
def TextType.str : TextType → String
  | .notset => "notset"
  | .bytes => "bytes"
  | .unicode => "unicode"

/-- capnpy/compiler/misc.py:25-31 `_get_prebuilt_compile_name` of a builtin type -/
def prebuiltName (tt : TextType) (t : STy) (which : String) : Str :=
  if t = .text then "_text_".toList ++ tt.str.toList else '_' :: which.toList

/-- `self.compile_name(m, prefix)` of a struct or enum (capnpy/compiler/misc.py:7-14) -/
def nodeName (g : Gen) (fuel : Nat) (id : Nat) (prefix_ : Str) : Py Str := do
  g.compileName fuel (← g.node id) prefix_

def itemSuffix : Str := "_list_item_type".toList

/-- `name(arg)` -/
def callText (f : Str) (arg : Str) : Str := f ++ ['('] ++ arg ++ [')']

/-- capnpy/compiler/misc.py:33-78 `list_item_type` -/
def listItemType (g : Gen) (pyx : Bool) (tt : TextType) (fuel : Nat) : STy → Py Str
  | .list elem => do
    pure (callText "_ListItemType".toList (← listItemType g pyx tt fuel elem))
  | .struct id => do
    let name ← nodeName g fuel id ['_']
    if pyx && (← g.isImported fuel (← g.node id)) then
      pure (callText "_StructItemType".toList (← nodeName g fuel id []))
    else pure (name ++ itemSuffix)
  | .enum id => do
    let name ← nodeName g fuel id ['_']
    if pyx && (← g.isImported fuel (← g.node id)) then
      pure (callText "_EnumItemType".toList (← nodeName g fuel id []))
    else pure (name ++ itemSuffix)
  | .interface => .error .notImplemented
  | .anyPointer => .error .notImplemented
  | .void => if pyx then .ok (prebuiltName tt .void "void" ++ itemSuffix) else .ok "_VoidItemType()".toList
  | .bool => if pyx then .ok (prebuiltName tt .bool "bool" ++ itemSuffix) else .ok "_BoolItemType()".toList
  | .prim fmt =>
    if pyx then .ok (prebuiltName tt (.prim fmt) (primName fmt) ++ itemSuffix)
    else .ok (callText "_PrimitiveItemType".toList ("_Types.".toList ++ (primName fmt).toList))
  | .text =>
    if pyx then .ok (prebuiltName tt .text "text" ++ itemSuffix)
    else
      match tt with
      | .bytes => .ok (callText "_TextItemType".toList "_Types.text".toList)
      | .unicode => .ok (callText "_TextUnicodeItemType".toList "_Types.text".toList)
      | .notset => .error .notImplemented
  | .data =>
    if pyx then .ok (prebuiltName tt .data "data" ++ itemSuffix)
    else .ok (callText "_TextItemType".toList "_Types.data".toList)

/-! ## The right-hand sides -/

/-- `repr` of a tuple of ints -/
def tupleRepr (xs : List Int) : Str :=
  match xs with
  | [] => "()".toList
  | [x] => ['('] ++ intRepr x ++ [',', ')']
  | xs => ['('] ++ Repr.join (xs.map intRepr) ++ [')']

/-- The text of the segment (capnpy/compiler/module.py:199-208). -/
def segText (s : Seg) : Str :=
  match s.offs with
  | some offs => "_MultiSegment(".toList ++ bytesRepr s.buf ++ [',', ' '] ++ tupleRepr offs ++ [')']
  | none => "_Segment(".toList ++ bytesRepr s.buf ++ [')']

/-- capnpy/compiler/module.py:190-214 `declare_const` -/
def declareConst (clsname : Str) (s : StructObj) (segment : Option Str) : Str :=
  let segment := match segment with
    | some t => t
    | none => segText s.seg
  clsname ++ ".from_buffer(".toList ++ segment ++ [',', ' '] ++ intRepr s.dataOffset ++ [',', ' '] ++
    intRepr s.dataSize ++ [',', ' '] ++ intRepr s.ptrsSize ++ [')']

/-- The segment of the reflection data (capnpy/compiler/node.py:160, 182). -/
def reflSeg : Str := "_reflection_data.request._seg".toList

/-- capnpy/compiler/node.py:181-189 `_declare_list_const` -/
def declareListConst (val : ListObj) (itemType : Str) : Str :=
  "_List.from_buffer(".toList ++ reflSeg ++ [',', ' '] ++ intRepr val.offset ++ [',', ' '] ++ intRepr val.sizeTag ++
    [',', ' '] ++ intRepr val.itemCount ++ [',', ' '] ++ itemType ++ [')']

/-- `x.as_struct(Struct)` and then an attribute of the result; `x` or the result may be None. -/
def PyVal.asStruct : PyVal → Py StructObj
  | .anyPointer p => do
    match (← p.asStruct) with
    | some o => .ok o
    | Option.none => .error .attributeError
  | _ => .error .attributeError

/-- `x.as_list(VoidItemType())` and then an attribute of the result. -/
def PyVal.asList : PyVal → Py ListObj
  | .anyPointer p => do
    match (← p.asList .void) with
    | some l => .ok l
    | Option.none => .error .attributeError
  | _ => .error .attributeError

/-- capnpy/compiler/node.py:152-179 `Node__Const.emit_reference_as_child`: the text of the right-hand side.
`fuel` is the recursion limit. -/
def constDecl (g : Gen) (pyx : Bool) (tt : TextType) (fr : Fmt → Int → Str) (fuel : Nat) (ty : STy) (v : StructObj) :
    Py Str :=
  match ty with
  | .struct id => do
    let clsname ← nodeName g fuel id []
    let val ← (← valueGet v 16).asStruct
    if g.reflection then pure (declareConst clsname val (some reflSeg))
    else
      let val ← val.compact fuel
      pure (declareConst clsname val none)
  | .list elem => do
    if !g.reflection then .error .notImplemented
    else do
      let val ← (← valueGet v 14).asList
      let itemType ← listItemType g pyx tt fuel elem
      pure (declareListConst val itemType)
  | _ => do
    let val ← asPyobj v
    pure (val.repr fr)

/-- capnpy/compiler/request.py:155: the text of `_reflection_data.request`. -/
def requestDecl (request : StructObj) : Str := declareConst "_CodeGeneratorRequest".toList request none

/-- capnpy/compiler/request.py:156: the text of `_reflection_data.default_options`. -/
def optionsDecl (options : StructObj) : Str := declareConst "_Options".toList options none

/-! ## What the text means when the module is imported -/

/-- Classes: a struct class with its static sizes, an enum class. -/
inductive Cls
  | struct (id : Nat) (dataSize ptrsSize : Int)
  | enum (id : Nat)
  deriving DecidableEq

/-- Item types with the class of the items (capnpy/list.py:181-387). -/
inductive Item
  | void
  | bool
  | prim (fmt : Fmt)
  | enum (cls : Nat)
  | struct (cls : Nat) (dataSize ptrsSize : Int)
  | text
  | textUnicode
  | data
  | list (inner : Item)
  deriving DecidableEq

/-- The item type as Model/List.lean has it (a unicode text is read as bytes and then decoded). -/
def Item.toItemType : Item → ItemType
  | .void => .void
  | .bool => .bool
  | .prim fmt => .prim fmt
  | .enum _ => .enum
  | .struct _ d p => .struct d p
  | .text => .text
  | .textUnicode => .text
  | .data => .data
  | .list i => .list i.toItemType

/-- The names of the module: classes, item types, and the segment `_reflection_data.request._seg`. -/
structure Env where
  cls : Str → Option Cls
  items : Str → Option Item
  refl : Option Seg

/-- What a right-hand side gives. -/
inductive Obj
  | none
  | bool (b : Bool)
  | int (i : Int)
  | bytes (b : Bytes)
  | struct (cls : Nat) (o : StructObj)
  | list (item : Item) (l : ListObj)
  deriving DecidableEq

/-- The ints of a tuple -/
def ints : List Expr → Py (List Int)
  | [] => .ok []
  | .int i :: r => do pure (i :: (← ints r))
  | _ => .error .typeError

/-- A segment: `_Segment(b)`, `_MultiSegment(b, offsets)` (capnpy/segment/segment.py:7-15, 66-80). -/
def evalSeg (env : Env) : Expr → Py Seg
  | .name s =>
    if s = reflSeg then
      match env.refl with
      | some seg => .ok seg
      | none => .error .nameError
    else .error .nameError
  | .call f [.bytes b] => if f = "_Segment".toList then .ok ⟨b, none⟩ else .error .nameError
  | .call f [.bytes b, .tuple offs] =>
    if f = "_MultiSegment".toList then do pure ⟨b, some (← ints offs)⟩ else .error .nameError
  | _ => .error .typeError

/-- capnpy/type.py:36-45: the number types and their formats -/
def typesTable : List (String × Fmt) :=
  [("int8", .b), ("uint8", .B), ("int16", .h), ("uint16", .H), ("int32", .i), ("uint32", .I), ("int64", .q), ("uint64", .Q),
   ("float32", .f), ("float64", .d)]

/-- `_Types.x` -/
def evalType (s : Str) : Py STy :=
  if s = "_Types.text".toList then .ok .text
  else if s = "_Types.data".toList then .ok .data
  else if s = "_Types.void".toList then .ok .void
  else if s = "_Types.bool".toList then .ok .bool
  else
    match typesTable.find? fun x => s == "_Types.".toList ++ x.1.toList with
    | some x => .ok (.prim x.2)
    | none => .error .nameError

/-- The item types that capnpy.list has for Cython (capnpy/list.py:399-413), under the names which a pyx module
cimports (capnpy/compiler/request.py:81-87). -/
def prebuilt (s : Str) : Option Item :=
  if s = "_void_list_item_type".toList then some .void
  else if s = "_bool_list_item_type".toList then some .bool
  else if s = "_text_bytes_list_item_type".toList then some .text
  else if s = "_text_unicode_list_item_type".toList then some .textUnicode
  else if s = "_data_list_item_type".toList then some .data
  else
    match typesTable.find? fun x => s == '_' :: (x.1.toList ++ itemSuffix) with
    | some x => some (.prim x.2)
    | none => none

/-- The constructors of the item types (capnpy/list.py:183-185, 205-207, 228-241, 259-263, 277-282, 311-317,
343-347, 362-365) -/
def evalItem (env : Env) : Expr → Py Item
  | .name s =>
    match env.items s with
    | some i => .ok i
    | none => .error .nameError
  | .call f [] =>
    if f = "_VoidItemType".toList then .ok .void
    else if f = "_BoolItemType".toList then .ok .bool
    else .error .nameError
  | .call f [e] =>
    if f = "_ListItemType".toList then do pure (.list (← evalItem env e))
    else
      match e with
      | .name s =>
        if f = "_PrimitiveItemType".toList then do
          match (← evalType s) with
          | .prim fmt => pure (.prim fmt)
          | _ => .error .typeError
        else if f = "_TextItemType".toList then do
          match (← evalType s) with
          | .text => pure .text
          | .data => pure .data
          | _ => .error .assertionError
        else if f = "_TextUnicodeItemType".toList then do
          match (← evalType s) with
          | .text => pure .textUnicode
          | _ => .error .assertionError
        else if f = "_StructItemType".toList then
          match env.cls s with
          | some (.struct c d p) => .ok (.struct c d p)
          | some (.enum _) => .error .attributeError
          | none => .error .nameError
        else if f = "_EnumItemType".toList then
          match env.cls s with
          | some (.enum c) => .ok (.enum c)
          | some (.struct c _ _) => .ok (.enum c)
          | none => .error .nameError
        else .error .nameError
      | _ => .error .typeError
  | _ => .error .typeError

def fromBuffer : Str := ".from_buffer".toList

/-- `x` for `x.from_buffer` -/
def stripFromBuffer (f : Str) : Option Str :=
  if f.drop (f.length - fromBuffer.length) = fromBuffer then some (f.take (f.length - fromBuffer.length)) else none

/-- The arguments of `Struct.from_buffer` (capnpy/struct_.py:53-60, 75-77) -/
def structArgs (env : Env) (c : Nat) : List Expr → Py Obj
  | [seg, .int offset, .int dataSize, .int ptrsSize] => do
    let o ← StructObj.initFromBuffer (← evalSeg env seg) offset dataSize ptrsSize
    pure (.struct c o)
  | _ => .error .typeError

/-- The arguments of `List.from_buffer` (capnpy/list.py:16-52) -/
def listArgs (env : Env) : List Expr → Py Obj
  | [seg, .int offset, .int sizeTag, .int itemCount, item] => do
    let seg ← evalSeg env seg
    let it ← evalItem env item
    let l ← ListObj.init seg offset sizeTag itemCount it.toItemType
    pure (.list it l)
  | _ => .error .typeError

/-- The value of an expression.  `_List` is capnpy.list.List (the module's own names do not begin like this).  An unknown name raises NameError (AttributeError, if it is dotted and only the
last part is unknown). -/
def evalExpr (env : Env) : Expr → Py Obj
  | .int i => .ok (.int i)
  | .bytes b => .ok (.bytes b)
  | .name s =>
    if s = "None".toList then .ok .none
    else if s = "True".toList then .ok (.bool true)
    else if s = "False".toList then .ok (.bool false)
    else .error .nameError
  | .tuple _ => .error .typeError
  | .call f args =>
    match stripFromBuffer f with
    | none => .error .nameError
    | some base =>
      if base = "_List".toList then listArgs env args
      else
        match env.cls base with
        | some (.struct c _ _) => structArgs env c args
        | some (.enum _) => .error .attributeError
        | none => .error .nameError

/-- The value of a text. -/
def evalText (env : Env) (s : Str) : Py Obj :=
  match PyExpr.parse s with
  | some e => evalExpr env e
  | none => .error .syntaxError

/-- The value of an item type text. -/
def evalItemText (env : Env) (s : Str) : Py Item :=
  match PyExpr.parse s with
  | some e => evalItem env e
  | none => .error .syntaxError

/-- The environment after `_reflection_data` (capnpy/compiler/request.py:158-167): if there is no reflection data, the
name is not defined. -/
def withReflection (env : Env) : Option Str → Py Env
  | none => .ok { env with refl := none }
  | some request => do
    match (← evalText env request) with
    | .struct _ o => pure { env with refl := some o.seg }
    | _ => .error .attributeError

/-! ## `ItemType.from_type` -/

/-- What can be given to `ItemType.from_type`: a member of `Types`, a Python type, a class, a list. -/
inductive PT
  | builtin (t : STy)
  | int
  | float
  | bytes
  | unicode
  | struct (cls : Nat) (dataSize ptrsSize : Int)
  | enum (cls : Nat)
  | list (items : List PT)
  | other

/-- capnpy/list.py:105-160 `ItemType.from_type` -/
def fromType : PT → Py Item
  | .builtin .void => .ok .void
  | .builtin .bool => .ok .bool
  | .builtin .text => .error .notImplemented
  | .builtin .data => .ok .data
  | .builtin (.prim fmt) => .ok (.prim fmt)
  | .builtin _ => .error .notImplemented
  | .int => .ok (.prim .q)
  | .float => .ok (.prim .d)
  | .bytes => .ok .text
  | .unicode => .ok .textUnicode
  | .struct c d p => .ok (.struct c d p)
  | .enum c => .ok (.enum c)
  | .list [t] => do pure (.list (← fromType t))
  | .list _ => .error .valueError
  | .other => .error .notImplemented

end Capnpy.Const
