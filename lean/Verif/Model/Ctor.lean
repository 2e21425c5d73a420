import Verif.Model.List
import Verif.Model.Accessor

/-!
# Model of the generated constructors

`capnpy/compiler/structor.py` emits, for every struct, a Python function
`__new(x=..., y=...)`.  The model is an interpreter of the emitted code: the state is
the frame of that function (its local variables and the builder's buffer), and
every step is one emitted statement.  Local variables are looked up by name, so
that collisions between names are visible.
-/

namespace Capnpy

/-- The Python objects a constructor handles.  A `float` is its bit pattern (in the
width of the field it is meant for); `text`/`data` are `bytes`; a Python list is
the model of Model/List.lean; `undefined` is `capnpy.struct_.undefined`; `builder`
is the `SegmentBuilder`; `str` is a union tag name. -/
inductive Arg
  | undefined
  | none
  | int (i : Int)
  | bool (b : Bool)
  | float (bits : Int)
  | bytes (b : Bytes)
  | struct (o : StructObj)
  | list (l : List PyItem)
  | tuple (l : List Arg)
  | builder
  | str (s : String)

namespace Arg

/-- `x is _undefined` -/
def isUndefined : Arg → Bool
  | undefined => true
  | _ => false

/-- `x is None` -/
def isNone : Arg → Bool
  | none => true
  | _ => false

/-- A Python int or bool as the integer it is (`True` is 1); everything else is
rejected by `struct.pack` and by the bit operators. -/
def toInt? : Arg → Option Int
  | int i => some i
  | bool b => some (if b then 1 else 0)
  | _ => Option.none

end Arg

/-- The types of slot fields.  `float fmt` is a float whose bit pattern has the
format `fmt` (`I` for float32, `Q` for float64).  Text fields with
`textType = unicode` are the same code after encoding, see Model/Text.lean. -/
inductive SlotType
  | void
  | prim (fmt : Fmt)
  | float (fmt : Fmt)
  | bool
  | enum
  | text
  | data
  | struct
  | list (it : ItemType)
  | anyPointer
  deriving DecidableEq, Repr

/-- capnpy/schema_extended.py:24-29 `is_pointer` -/
def SlotType.isPointer : SlotType → Bool
  | .text | .data | .struct | .list _ | .anyPointer => true
  | _ => false

/-- capnpy/schema_extended.py:153-161 `get_size` -/
def SlotType.size : SlotType → Nat
  | .void => 0
  | .bool => 0
  | .prim fmt => fmt.size
  | .float fmt => fmt.size
  | .enum => 2
  | _ => 8

/-- A field of the compiled schema: a slot, or a group with its fields.
`name` is the Python-side name (`m.py_field_name`), `code` is `codeOrder`, `disc` the
discriminant of a union member, `dflt` the explicit default (`none` when
`hadExplicitDefault` is false; the default is then zero; bools are 0/1).  For a
group, `union` is the group's `discriminantOffset` if it has a union. -/
inductive Field
  | slot (name : String) (code : Nat) (disc : Option Nat) (ty : SlotType) (off : Nat) (dflt : Option Int)
  | group (name : String) (code : Nat) (disc : Option Nat) (nullable : Bool) (union : Option Nat)
      (children : List Field)

namespace Field

def name : Field → String
  | slot n .. => n
  | group n .. => n

def code : Field → Nat
  | slot _ c .. => c
  | group _ c .. => c

def disc : Field → Option Nat
  | slot _ _ d .. => d
  | group _ _ d .. => d

/-- capnpy/compiler/fieldtree.py:27-34: void fields outside unions are not part of
the field tree. -/
def skipped : Field → Bool
  | slot _ _ Option.none .void _ _ => true
  | _ => false

end Field

/-- `slot.defaultValue.as_pyobj()` (capnpy/compiler/misc.py:84-86): `None` for void
and for pointers without explicit default. -/
def slotDefault (ty : SlotType) (dflt : Option Int) : Arg :=
  match ty with
  | .prim _ => .int (dflt.getD 0)
  | .enum => .int (dflt.getD 0)
  | .float _ => .float (dflt.getD 0)
  | .bool => .bool (dflt.getD 0 != 0)
  | _ => .none

/-- Truth value of the default of the `isNull` field.  (A default of negative zero is not modelled.) -/
def Arg.truthy : Arg → Bool
  | .int i => i != 0
  | .bool b => b
  | .float bits => bits != 0
  | _ => false

/-- `f == field_force_default` (capnpy/schema_extended.py:56-61, 72-73: fields are
equal when name and codeOrder are). -/
def forced (force : Option (String × Nat)) (name : String) (code : Nat) : Bool :=
  match force with
  | none => false
  | some (n, c) => n == name && c == code

mutual

/-- capnpy/compiler/fieldtree.py:113-132 `_get_default`: the default value of the
parameter of a field. -/
def defaultArg (force : Option (String × Nat)) : Field → Arg
  | .slot name code disc ty _ dflt =>
    if disc.isSome && !forced force name code then .undefined else slotDefault ty dflt
  | .group name code disc nullable _ children =>
    if disc.isSome && !forced force name code then .undefined
    else if nullable then
      match defaultArgs force children with
      | [isNull, value] => if isNull.truthy then .none else value
      | _ => .none
    else .tuple (defaultArgs force children)

def defaultArgs (force : Option (String × Nat)) : List Field → List Arg
  | [] => []
  | f :: fs => if f.skipped then defaultArgs force fs else defaultArg force f :: defaultArgs force fs

end

/-! ## The frame of the generated function -/

/-- The local variables of `__new` and the buffer of the builder. -/
structure Frame where
  vars : String → Option Arg
  buf : Bytes

namespace Frame

/-- Read a local variable; an unbound one raises `NameError`
(`UnboundLocalError`). -/
def get (fr : Frame) (x : String) : Py Arg :=
  match fr.vars x with
  | some a => .ok a
  | none => .error .nameError

/-- `x = a` -/
def set (fr : Frame) (x : String) (a : Arg) : Frame :=
  { fr with vars := fun y => if y = x then some a else fr.vars y }

/-- `builder.method(...)`: the name `builder` must still be the builder. -/
def call {α} (fr : Frame) (m : BM α) : Py Frame :=
  match fr.vars "builder" with
  | some .builder =>
    match m fr.buf with
    | .ok _ b => .ok { fr with buf := b }
    | .error e _ => .error e
  | some _ => .error .attributeError
  | none => .error .nameError

/-- `pos + offset` -/
def posPlus (fr : Frame) (offset : Nat) : Py Int := do
  let p ← fr.get "pos"
  match p.toInt? with
  | some p => pure (p + offset)
  | none => .error .typeError

end Frame

/-- capnpy/compiler/fieldtree.py:95-97: the variable of a node. -/
def varname (pfx : String) (name : String) : String :=
  if pfx = "" then name else pfx ++ "_" ++ name

/-- The variable holding the tag name already set for a union
(capnpy/compiler/structor.py:57-58). -/
def curtagVar (unionVar : String) : String := unionVar ++ "__curtag"

/-- `{arg} ^= {default_}` (capnpy/compiler/structor.py:190-192, 202-204), on ints and
bools; anything else (floats included) raises `TypeError`. -/
def xorArg (dflt : Option Int) (ty : SlotType) (a : Arg) : Py Arg :=
  match dflt with
  | none => pure a
  | some d =>
    match ty, a with
    | .bool, .bool b => pure (.bool (b ^^ (d != 0)))
    | .bool, .int i => pure (.int (Int.xor i (if d != 0 then 1 else 0)))
    | .float _, _ => .error .typeError
    | _, .int i => pure (.int (Int.xor i d))
    | _, .bool b => pure (.int (Int.xor (if b then 1 else 0) d))
    | _, _ => .error .typeError

/-- `{arg} ^= {default_}`, emitted if there is an explicit default. -/
def xorInto (dflt : Option Int) (ty : SlotType) (var : String) (fr : Frame) : Py Frame :=
  match dflt with
  | none => pure fr
  | some d => do pure (fr.set var (← xorArg (some d) ty (← fr.get var)))

/-- `builder.write_{type}(i, arg)`: `struct.pack_into` of an int or bool. -/
def writeArg (fmt : Fmt) (i : Int) (a : Arg) : BM Unit :=
  match a.toInt? with
  | some v => writeFmt fmt i v
  | none => BM.lift (.error .structError)

/-- `builder.write_float32/64(i, arg)` with the bit pattern of the float.  (Python
also converts ints; that is not modelled.) -/
def writeFloatArg (fmt : Fmt) (i : Int) (a : Arg) : BM Unit :=
  match a with
  | .float v => writeFmt fmt i v
  | _ => BM.lift (.error .structError)

/-- `builder.write_bool(byteoffset, bitoffset, arg)` -/
def writeBoolArg (slot : Nat) (a : Arg) : BM Unit :=
  match a.toInt? with
  | some v => writeBool ((slot / 8 : Nat) : Int) (slot % 8) v
  | none => BM.lift (.error .typeError)

/-- `builder.alloc_text(i, arg)` / `alloc_data`: `len(arg)` raises `TypeError` on
anything else. -/
def allocBytesArg (i : Int) (a : Arg) (tz : Int) : BM Unit :=
  match a with
  | .none => do let _ ← allocText i none tz
  | .bytes s => do let _ ← allocText i (some s) tz
  | _ => BM.lift (.error .typeError)

/-- `builder.copy_from_struct(i, cls, arg)`; an argument which is not an instance
raises `TypeError` (capnpy/segment/builder.py:112-114). -/
def copyStructArg (fuel : Nat) (i : Int) (a : Arg) : BM Unit :=
  match a with
  | .none => copyFromStruct fuel i none
  | .struct o => copyFromStruct fuel i (some o)
  | _ => BM.lift (.error .typeError)

/-- `builder.copy_from_list(i, item_type, arg)` -/
def copyListArg (fuel : Nat) (it : ItemType) (i : Int) (a : Arg) : BM Unit :=
  match a with
  | .none => copyFromList fuel it i none
  | .list l => copyFromList fuel it i (some l)
  | _ => BM.lift (.error .typeError)

/-- capnpy/compiler/structor.py:27-31 `slot_offset` -/
def slotOffset (ds : Nat) (ty : SlotType) (off : Nat) : Nat :=
  off * ty.size + (if ty.isPointer then ds * 8 else 0)

/-- capnpy/compiler/structor.py:79-103 `_handle_node` for slots, and lines 151-205:
the statements emitted for one slot field held in the variable `var`. -/
def handleSlot (fuel ds : Nat) (var : String) (ty : SlotType) (off : Nat) (dflt : Option Int)
    (fr : Frame) : Py Frame :=
  match ty with
  | .void => pure fr
  | .text => do fr.call (allocBytesArg (← fr.posPlus (slotOffset ds ty off)) (← fr.get var) 1)
  | .data => do fr.call (allocBytesArg (← fr.posPlus (slotOffset ds ty off)) (← fr.get var) 0)
  | .struct => do fr.call (copyStructArg fuel (← fr.posPlus (slotOffset ds ty off)) (← fr.get var))
  | .list it => do fr.call (copyListArg fuel it (← fr.posPlus (slotOffset ds ty off)) (← fr.get var))
  | .anyPointer => .error .notImplemented
  | .prim fmt => do
    let fr ← xorInto dflt ty var fr
    fr.call (writeArg fmt (← fr.posPlus (slotOffset ds ty off)) (← fr.get var))
  | .enum => do
    let fr ← xorInto dflt ty var fr
    fr.call (writeArg .h (← fr.posPlus (slotOffset ds ty off)) (← fr.get var))
  | .float fmt => do
    let fr ← xorInto dflt ty var fr
    fr.call (writeFloatArg fmt (← fr.posPlus (slotOffset ds ty off)) (← fr.get var))
  | .bool => do
    let fr ← xorInto dflt ty var fr
    fr.call (writeBoolArg off (← fr.get var))

/-- capnpy/compiler/structor.py:63-77 `handle_node`: the union check around the
statements of a node.  `uni` is the union of the parent: its variable and its
`discriminantOffset` (`node.parent.union` being `None` is an error of the
compiler). -/
def guarded (uni : Option (String × Nat)) (var name : String) (disc : Option Nat)
    (body : Frame → Py Frame) (fr : Frame) : Py Frame :=
  match disc with
  | none => body fr
  | some tag =>
    match uni with
    | none => .error .attributeError
    | some (u, off) => do
      let v ← fr.get var
      if v.isUndefined then pure fr
      else
        let cur ← fr.get (curtagVar u)
        if cur.isNone then
          let fr := fr.set (curtagVar u) (.str name)
          let fr ← fr.call (writeFmt .h ((off * 2 : Nat) : Int) tag)
          body fr
        else .error .typeError

/-- `a, b, = tup` (capnpy/compiler/structor.py:113-118).  Only tuples are modelled
as the right-hand side. -/
def unpack : List String → List Arg → Frame → Py Frame
  | [], [], fr => pure fr
  | x :: xs, a :: as, fr => unpack xs as (fr.set x a)
  | _, _, _ => .error .valueError

/-- capnpy/compiler/structor.py:124-149: the assignments for a nullable group.  They
use the literal suffixes `_is_null` and `_value`. -/
def nullableVars (var : String) (valueDefault : Arg) (fr : Frame) : Py Frame := do
  let v ← fr.get var
  if v.isNone then pure ((fr.set (var ++ "_is_null") (.int 1)).set (var ++ "_value") valueDefault)
  else pure ((fr.set (var ++ "_is_null") (.int 0)).set (var ++ "_value") v)

/-- The union of a group node: its variable is the group's. -/
def groupUnion (var : String) (union : Option Nat) : Option (String × Nat) :=
  union.map fun off => (var, off)

mutual

/-- capnpy/compiler/structor.py:63-77 `handle_node`, with lines 79-149 -/
def handleNode (fuel ds : Nat) (uni : Option (String × Nat)) (pfx : String) : Field → Frame → Py Frame
  | .slot name _ disc ty off dflt, fr =>
    guarded uni (varname pfx name) name disc
      (handleSlot fuel ds (varname pfx name) ty off dflt) fr
  | .group name _ disc nullable union children, fr =>
    guarded uni (varname pfx name) name disc
      (fun fr =>
        if nullable then do
          let fr ← nullableVars (varname pfx name)
            (((defaultArgs none children)[1]?).getD .none) fr
          handleNodes fuel ds (groupUnion (varname pfx name) union) (varname pfx name) children fr
        else do
          let v ← fr.get (varname pfx name)
          match v with
          | .tuple as =>
            let fr ← unpack ((children.filter (!·.skipped)).map fun f => varname (varname pfx name) f.name) as fr
            handleNodes fuel ds (groupUnion (varname pfx name) union) (varname pfx name) children fr
          | _ => .error .typeError) fr

/-- The nodes of a list of fields, in order. -/
def handleNodes (fuel ds : Nat) (uni : Option (String × Nat)) (pfx : String) : List Field → Frame → Py Frame
  | [], fr => pure fr
  | f :: fs, fr =>
    if f.skipped then handleNodes fuel ds uni pfx fs fr
    else do
      let fr ← handleNode fuel ds uni pfx f fr
      handleNodes fuel ds uni pfx fs fr

end

mutual

/-- capnpy/compiler/fieldtree.py:63-68 `all_unions`: the `__curtag` variables. -/
def curtags (pfx : String) : Field → List String
  | .slot .. => []
  | .group name _ _ _ union children =>
    (match union with
      | some _ => [curtagVar (varname pfx name)]
      | none => []) ++ curtagsAll (varname pfx name) children

def curtagsAll (pfx : String) : List Field → List String
  | [] => []
  | f :: fs => curtags pfx f ++ curtagsAll pfx fs

end

/-- A struct node of the schema: its section sizes in words, its fields and, if it
has a union, its `discriminantOffset`. -/
structure Schema where
  dataWords : Nat
  ptrs : Nat
  union : Option Nat
  fields : List Field

namespace Schema

/-- The parameters of the constructor (capnpy/compiler/fieldtree.py:70-87). -/
def params (S : Schema) : List Field := S.fields.filter (!·.skipped)

/-- The union of the root of the field tree (capnpy/compiler/fieldtree.py:53-54). -/
def rootUnion (S : Schema) : Option (String × Nat) := S.union.map fun off => ("anonymous", off)

/-- Bind the parameters: a positional call of `__new`. -/
def bindParams : List Field → List Arg → Frame → Py Frame
  | [], [], fr => pure fr
  | f :: fs, a :: as, fr => bindParams fs as (fr.set f.name a)
  | _, _, _ => .error .typeError

/-- Set every `__curtag` to `None`. -/
def initCurtags : List String → Frame → Frame
  | [], fr => fr
  | x :: xs, fr => initCurtags xs (fr.set x .none)

/-- capnpy/compiler/structor.py:33-61 `emit`: the generated `__new`. -/
def new (fuel : Nat) (S : Schema) (args : List Arg) : Py Bytes := do
  let fr ← bindParams S.params args ⟨fun _ => none, []⟩
  -- builder = _SegmentBuilder()
  let fr : Frame := { fr.set "builder" .builder with buf := newBuilder }
  -- pos = builder.allocate({length})
  let fr : Frame := match allocate (((S.dataWords + S.ptrs) * 8 : Nat) : Int) fr.buf with
    | .ok r b => { fr.set "pos" (.int r) with buf := b }
    | .error _ _ => fr
  let fr := initCurtags
    ((match S.union with | some _ => [curtagVar "anonymous"] | none => []) ++ curtagsAll "" S.fields) fr
  let fr ← handleNodes fuel S.dataWords S.rootUnion "" S.fields fr
  -- return builder.as_string()
  pure fr.buf

/-- capnpy/compiler/struct_.py:160-169 `_emit_init`: `__init__` -/
def construct (fuel : Nat) (S : Schema) (args : List Arg) : Py StructObj := do
  let buf ← S.new fuel args
  StructObj.initFromBuffer ⟨buf, none⟩ 0 S.dataWords S.ptrs

/-- The arguments of a call with keywords: the given ones, defaults for the
others; an unknown keyword raises `TypeError`. -/
def kwargs (S : Schema) (kw : List (String × Arg)) : Py (List Arg) :=
  if kw.all (fun x => S.params.any fun f => f.name == x.1) then
    pure (S.params.map fun f => (kw.lookup f.name).getD (defaultArg none f))
  else .error .typeError

/-- `Cls(**kw)` -/
def call (fuel : Nat) (S : Schema) (kw : List (String × Arg)) : Py StructObj := do
  S.construct fuel (← S.kwargs kw)

/-- capnpy/compiler/struct_.py:171-204 `new_foo(**kw)` for the union member `tag`:
the parameters are `tag` (default forced) and the fields outside the union; the
other members are passed as `_undefined`. -/
def newMember (fuel : Nat) (S : Schema) (tag : Field) (kw : List (String × Arg)) : Py StructObj :=
  let fields := S.params.filter fun f => f.disc.isNone || (f.name == tag.name && f.code == tag.code)
  if kw.all (fun x => fields.any fun f => f.name == x.1) then
    S.construct fuel (S.params.map fun f =>
      if f.disc.isNone || (f.name == tag.name && f.code == tag.code) then
        (kw.lookup f.name).getD (defaultArg (some (tag.name, tag.code)) f)
      else .undefined)
  else .error .typeError

end Schema

/-! ## The accessors -/

/-- What an accessor returns.  `group` is an instance of the class of a group;
`any` is an `AnyPointer`. -/
inductive RVal
  | none
  | int (i : Int)
  | bool (b : Bool)
  | float (bits : Int)
  | bytes (b : Bytes)
  | struct (o : StructObj)
  | list (l : ListObj)
  | group (o : StructObj)
  | any (o : StructObj) (offset : Nat)

/-- Truth value, for the results the `isNull` field can have. -/
def RVal.truthy : RVal → Bool
  | .none => false
  | .int i => i != 0
  | .bool b => b
  | _ => true

/-- `{ensure_union}` (capnpy/compiler/field.py:16-20); `union` is the
`discriminantOffset` of the class. -/
def ensureMember (o : StructObj) (union : Option Nat) : Option Nat → Py Unit
  | none => pure ()
  | some tag => o.ensureUnion (union.map fun off => ((off * 2 : Nat) : Int)) tag

/-- capnpy/compiler/field.py:26-210: the property of a slot, after the union
check. -/
def getSlot (o : StructObj) (ty : SlotType) (off : Nat) (dflt : Option Int) : Py RVal :=
  match ty with
  | .void => pure .none
  | .prim fmt => do pure (.int (← o.primField ((off * ty.size : Nat) : Int) fmt (dflt.getD 0)))
  | .float fmt => do
    let v ← o.readPrimitive ((off * ty.size : Nat) : Int) fmt
    -- `value ^ default` on floats
    if dflt.getD 0 ≠ 0 then .error .typeError else pure (.float v)
  | .bool => do pure (.bool (← o.boolField off (dflt.getD 0 != 0)))
  | .enum => do pure (.int (← o.enumField ((off * ty.size : Nat) : Int) (dflt.getD 0)))
  | .text => do pure (((← o.textField ((off * 8 : Nat) : Int)).map RVal.bytes).getD .none)
  | .data => do pure (((← o.dataField ((off * 8 : Nat) : Int)).map RVal.bytes).getD .none)
  | .struct => do pure (((← o.readStruct ((off * 8 : Nat) : Int)).map RVal.struct).getD .none)
  | .list it => do pure (((← o.readList ((off * 8 : Nat) : Int) it).map RVal.list).getD .none)
  | .anyPointer => do
    if (← o.hasField ((off * 8 : Nat) : Int)) then pure (.any o (off * 8)) else pure .none

mutual

/-- The property of a field (capnpy/compiler/field.py:13-20, 26-57, 224-250) on the
instance `o` of a class whose union has the given offset.  For a nullable group
the property evaluates `g.is_null` and `g.value` on the group. -/
def getField (o : StructObj) (union : Option Nat) : Field → Py RVal
  | .slot _ _ disc ty off dflt => do
    ensureMember o union disc
    getSlot o ty off dflt
  | .group _ _ disc nullable gunion children => do
    ensureMember o union disc
    let g ← StructObj.initFromBuffer o.seg o.dataOffset o.dataSize o.ptrsSize
    if nullable then
      match getAttr g gunion "is_null" children with
      | none => .error .attributeError
      | some r => do
        if (← r).truthy then pure .none
        else
          match getAttr g gunion "value" children with
          | none => .error .attributeError
          | some r => r
    else pure (.group g)

/-- `getattr(o, x)` for the properties defined by the fields; a later definition
overrides an earlier one. -/
def getAttr (o : StructObj) (union : Option Nat) (x : String) : List Field → Option (Py RVal)
  | [] => none
  | f :: fs =>
    match getAttr o union x fs with
    | some r => some r
    | none => if f.name = x then some (getField o union f) else none

end

/-- capnpy/struct_.py:160-170, capnpy/compiler/struct_.py:142-148: `is_x()`. -/
def isMember (o : StructObj) (union : Nat) (i : Nat) : Py Bool := do
  pure ((← o.readInt16 ((union * 2 : Nat) : Int)) == i)

end Capnpy
