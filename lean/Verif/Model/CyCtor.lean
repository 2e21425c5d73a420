import Verif.Model.Ctor
import Verif.Model.PyxList

/-!
# Model of the compiled constructors

With `pyx=True` the code emitted by capnpy/compiler/structor.py is compiled by Cython:
`__new` is a `cdef` function, `builder` is a C variable of the type `_SegmentBuilder`
(Model/PyxBuilder.lean) and `pos` a C long; everything else is a Python object, as in
Model/Ctor.lean.  The methods of the builder are typed: the arguments are converted at
each call, and then stored without any check.

A parameter which is called `builder` or `pos` is rejected by Cython ("redeclared"): here the
two C variables are not among the named ones.
-/

namespace Capnpy

/-- How compiled code fails: a Python exception, or undefined behaviour. -/
inductive Fail
  | exc (e : PyErr)
  | ub
  deriving DecidableEq, Repr

/-- The frame of the compiled `__new`: the Python variables, and the C variables `pos` and
`builder`. -/
structure FrameC where
  vars : String → Option Arg
  pos : Int
  buf : Pyx.Builder

namespace FrameC

/-- Read a Python variable; an unbound one raises `UnboundLocalError`. -/
def get (fr : FrameC) (x : String) : Except Fail Arg :=
  match fr.vars x with
  | some a => .ok a
  | none => .error (.exc .nameError)

/-- `x = a` -/
def set (fr : FrameC) (x : String) (a : Arg) : FrameC :=
  { fr with vars := fun y => if y = x then some a else fr.vars y }

/-- `builder.method(...)` -/
def call {α} (fr : FrameC) (m : Pyx.PM α) : Except Fail FrameC :=
  match m fr.buf with
  | .ok _ s => .ok { fr with buf := s }
  | .exc e _ => .error (.exc e)
  | .ub => .error .ub

end FrameC

/-- The truth value of a Python object, as the conversion to `bint` computes it.  A float is
its bit pattern: false are the two zeros (of either width); `undefined`, `builder` and struct
objects have no `__bool__`. -/
def Arg.bint : Arg → Bool
  | .none => false
  | .int i => i != 0
  | .bool b => b
  | .float bits => bits != 0 && bits != 2 ^ 63 && bits != 2 ^ 31
  | .bytes b => !b.isEmpty
  | .list l => !l.isEmpty
  | .tuple l => !l.isEmpty
  | .str s => s != ""
  | .undefined | .struct _ | .builder => true

/-- `builder.write_{type}(i, arg)` with an integer type (capnpy/segment/builder.pyx:81-103): the
conversion to the C type raises OverflowError when the value does not fit and TypeError when
the object is not an int (floats: as in Cython 3; earlier versions truncate them). -/
def writeArgC (fmt : Fmt) (i : Int) (a : Arg) : Pyx.PM Unit :=
  match a.toInt? with
  | some v => Pyx.writeGenericC fmt i v
  | none => Pyx.PM.lift (.error .typeError)

/-- `builder.write_float32/64(i, arg)` (capnpy/segment/builder.pyx:105-109) with the bit pattern
of the float.  (Ints are converted as well; that is not modelled.) -/
def writeFloatArgC (fmt : Fmt) (i : Int) (a : Arg) : Pyx.PM Unit :=
  match a with
  | .float v => Pyx.writeGenericC fmt i v
  | _ => Pyx.PM.lift (.error .typeError)

/-- `builder.write_bool(byteoffset, bitoffset, arg)` (capnpy/segment/builder.pyx:111-114): any
object is converted to a C truth value. -/
def writeBoolArgC (slot : Nat) (a : Arg) : Pyx.PM Unit :=
  Pyx.PM.ofOption fun s => Pyx.writeBool s ((slot / 8 : Nat) : Int) (slot % 8) a.bint

section

-- `junk s` is what uninitialised memory contains when the builder is in state `s`
variable (junk : Pyx.Builder → Nat → UInt8)

/-- `builder.alloc_text(i, arg)` / `alloc_data` (capnpy/segment/builder.pyx:158-172): the argument
is a `bytes` or `None`. -/
def allocBytesArgC (i : Int) (a : Arg) (tz : Int) : Pyx.PM Unit :=
  match a with
  | .none => do let _ ← Pyx.allocTextC junk i none tz
  | .bytes s => do let _ ← Pyx.allocTextC junk i (some s) tz
  | _ => Pyx.PM.lift (.error .typeError)

/-- `builder.copy_from_struct(i, cls, arg)` (capnpy/segment/builder.pyx:174-181) -/
def copyStructArgC (fuel : Nat) (i : Int) (a : Arg) : Pyx.PM Unit :=
  match a with
  | .none => Pyx.copyFromStructC junk fuel i none
  | .struct o => Pyx.copyFromStructC junk fuel i (some o)
  | _ => Pyx.PM.lift (.error .typeError)

/-- `builder.copy_from_list(i, item_type, arg)` (capnpy/segment/builder.pyx:200-201) -/
def copyListArgC (fuel : Nat) (it : ItemType) (i : Int) (a : Arg) : Pyx.PM Unit :=
  match a with
  | .none => Pyx.copyFromListC junk fuel it i none
  | .list l => Pyx.copyFromListC junk fuel it i (some l)
  | _ => Pyx.PM.lift (.error .typeError)

/-- Python code which is the same in the compiled function. -/
def ofPy {α} : Py α → Except Fail α
  | .ok a => .ok a
  | .error e => .error (.exc e)

/-- capnpy/compiler/structor.py:79-103 `_handle_node` for slots, and lines 151-205: the
statements emitted for one slot field held in the variable `var`. -/
def handleSlotC (fuel ds : Nat) (var : String) (ty : SlotType) (off : Nat) (dflt : Option Int)
    (fr : FrameC) : Except Fail FrameC :=
  match ty with
  | .void => pure fr
  | .text => do fr.call (allocBytesArgC junk (fr.pos + (slotOffset ds ty off : Nat)) (← fr.get var) 1)
  | .data => do fr.call (allocBytesArgC junk (fr.pos + (slotOffset ds ty off : Nat)) (← fr.get var) 0)
  | .struct => do fr.call (copyStructArgC junk fuel (fr.pos + (slotOffset ds ty off : Nat)) (← fr.get var))
  | .list it => do fr.call (copyListArgC junk fuel it (fr.pos + (slotOffset ds ty off : Nat)) (← fr.get var))
  | .anyPointer => .error (.exc .notImplemented)
  | .prim fmt => do
    let a ← ofPy (xorArg dflt ty (← fr.get var))
    let fr := if dflt.isSome then fr.set var a else fr
    fr.call (writeArgC fmt (fr.pos + (slotOffset ds ty off : Nat)) (← fr.get var))
  | .enum => do
    let a ← ofPy (xorArg dflt ty (← fr.get var))
    let fr := if dflt.isSome then fr.set var a else fr
    fr.call (writeArgC .h (fr.pos + (slotOffset ds ty off : Nat)) (← fr.get var))
  | .float fmt => do
    let a ← ofPy (xorArg dflt ty (← fr.get var))
    let fr := if dflt.isSome then fr.set var a else fr
    fr.call (writeFloatArgC fmt (fr.pos + (slotOffset ds ty off : Nat)) (← fr.get var))
  | .bool => do
    let a ← ofPy (xorArg dflt ty (← fr.get var))
    let fr := if dflt.isSome then fr.set var a else fr
    fr.call (writeBoolArgC off (← fr.get var))

/-- capnpy/compiler/structor.py:63-77 `handle_node`: the union check around the statements of
a node. -/
def guardedC (uni : Option (String × Nat)) (var name : String) (disc : Option Nat)
    (body : FrameC → Except Fail FrameC) (fr : FrameC) : Except Fail FrameC :=
  match disc with
  | none => body fr
  | some tag =>
    match uni with
    | none => .error (.exc .attributeError)
    | some (u, off) => do
      let v ← fr.get var
      if v.isUndefined then pure fr
      else
        let cur ← fr.get (curtagVar u)
        if cur.isNone then
          let fr := fr.set (curtagVar u) (.str name)
          let fr ← fr.call (Pyx.writeGenericC .h ((off * 2 : Nat) : Int) tag)
          body fr
        else .error (.exc .typeError)

/-- `a, b, = tup` (capnpy/compiler/structor.py:113-118) -/
def unpackC : List String → List Arg → FrameC → Except Fail FrameC
  | [], [], fr => pure fr
  | x :: xs, a :: as, fr => unpackC xs as (fr.set x a)
  | _, _, _ => .error (.exc .valueError)

/-- capnpy/compiler/structor.py:124-149: the assignments for a nullable group. -/
def nullableVarsC (var : String) (valueDefault : Arg) (fr : FrameC) : Except Fail FrameC := do
  let v ← fr.get var
  if v.isNone then pure ((fr.set (var ++ "_is_null") (.int 1)).set (var ++ "_value") valueDefault)
  else pure ((fr.set (var ++ "_is_null") (.int 0)).set (var ++ "_value") v)

mutual

/-- capnpy/compiler/structor.py:63-77 `handle_node`, with lines 79-149 -/
def handleNodeC (fuel ds : Nat) (uni : Option (String × Nat)) (pfx : String) : Field → FrameC → Except Fail FrameC
  | .slot name _ disc ty off dflt, fr =>
    guardedC uni (varname pfx name) name disc
      (handleSlotC junk fuel ds (varname pfx name) ty off dflt) fr
  | .group name _ disc nullable union children, fr =>
    guardedC uni (varname pfx name) name disc
      (fun fr =>
        if nullable then do
          let fr ← nullableVarsC (varname pfx name)
            (((defaultArgs none children)[1]?).getD .none) fr
          handleNodesC fuel ds (groupUnion (varname pfx name) union) (varname pfx name) children fr
        else do
          let v ← fr.get (varname pfx name)
          match v with
          | .tuple as =>
            let fr ← unpackC ((children.filter (!·.skipped)).map fun f => varname (varname pfx name) f.name) as fr
            handleNodesC fuel ds (groupUnion (varname pfx name) union) (varname pfx name) children fr
          | _ => .error (.exc .typeError)) fr

/-- The nodes of a list of fields, in order. -/
def handleNodesC (fuel ds : Nat) (uni : Option (String × Nat)) (pfx : String) :
    List Field → FrameC → Except Fail FrameC
  | [], fr => pure fr
  | f :: fs, fr =>
    if f.skipped then handleNodesC fuel ds uni pfx fs fr
    else do
      let fr ← handleNodeC fuel ds uni pfx f fr
      handleNodesC fuel ds uni pfx fs fr

end

namespace Schema

/-- Bind the parameters: a positional call of `__new`. -/
def bindParamsC : List Field → List Arg → FrameC → Except Fail FrameC
  | [], [], fr => pure fr
  | f :: fs, a :: as, fr => bindParamsC fs as (fr.set f.name a)
  | _, _, _ => .error (.exc .typeError)

/-- Set every `__curtag` to `None`. -/
def initCurtagsC : List String → FrameC → FrameC
  | [], fr => fr
  | x :: xs, fr => initCurtagsC xs (fr.set x .none)

/-- capnpy/compiler/structor.py:33-61 `emit`: the compiled `__new`; the result is the buffer
or a failure. -/
def newC (fuel : Nat) (S : Schema) (args : List Arg) : Except Fail Bytes := do
  -- builder = _SegmentBuilder()
  let fr ← bindParamsC S.params args ⟨fun _ => none, 0, Pyx.new 512⟩
  -- pos = builder.allocate({length})
  let fr ← match Pyx.allocateC junk (((S.dataWords + S.ptrs) * 8 : Nat) : Int) fr.buf with
    | .ok r b => (.ok { fr with pos := r, buf := b } : Except Fail FrameC)
    | .exc e _ => .error (.exc e)
    | .ub => .error .ub
  let fr := initCurtagsC
    ((match S.union with | some _ => [curtagVar "anonymous"] | none => []) ++ curtagsAll "" S.fields) fr
  let fr ← handleNodesC junk fuel S.dataWords S.rootUnion "" S.fields fr
  -- return builder.as_string()
  pure (Pyx.asString fr.buf)

/-- capnpy/compiler/struct_.py:160-169 `_emit_init`: `__init__`; `_init_from_buffer` with C types is
Model/CyReader.lean, here the sizes are those of the schema. -/
def constructC (fuel : Nat) (S : Schema) (args : List Arg) : Except Fail StructObj := do
  let buf ← S.newC junk fuel args
  ofPy (StructObj.initFromBuffer ⟨buf, none⟩ 0 S.dataWords S.ptrs)

/-- capnpy/compiler/struct_.py:160-169 `Cls(**kw)`: the parameters are bound as in Python. -/
def callC (fuel : Nat) (S : Schema) (kw : List (String × Arg)) : Except Fail StructObj := do
  S.constructC junk fuel (← ofPy (S.kwargs kw))

/-- capnpy/compiler/struct_.py:171-204 `new_foo(**kw)` for the union member `tag`, compiled. -/
def newMemberC (fuel : Nat) (S : Schema) (tag : Field) (kw : List (String × Arg)) : Except Fail StructObj :=
  let fields := S.params.filter fun f => f.disc.isNone || (f.name == tag.name && f.code == tag.code)
  if kw.all (fun x => fields.any fun f => f.name == x.1) then
    S.constructC junk fuel (S.params.map fun f =>
      if f.disc.isNone || (f.name == tag.name && f.code == tag.code) then
        (kw.lookup f.name).getD (defaultArg (some (tag.name, tag.code)) f)
      else .undefined)
  else .error (.exc .typeError)

end Schema

end

end Capnpy
