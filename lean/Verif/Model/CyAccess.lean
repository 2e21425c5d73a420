import Verif.Model.CyReader
import Verif.Model.CyMessage
import Verif.Model.CyCtor

/-!
# Model of the compiled accessors and of the compiled `dumps` as a whole

With `pyx=True` the compiler emits `property x: def __get__(self): ...` with the same body as
in Python (capnpy/compiler/module.py:217-226); `self` is the C class, so that the calls go to
the compiled readers (Model/CyReader.lean).
-/

namespace Capnpy.Cy

/-- `{ensure_union}` (capnpy/compiler/field.py:16-20) -/
def ensureMember (o : StructObj) (union : Option Nat) : Option Nat → CRes Unit
  | none => pure ()
  | some tag => ensureUnion o (union.map fun off => ((off * 2 : Nat) : Int)) tag

/-- capnpy/compiler/field.py:26-210: the property of a slot, after the union check.
`_read_primitive` returns an object (capnpy/struct_.pxd:25) and propagates exceptions; so does
`_read_bit`. -/
def getSlot (o : StructObj) (ty : SlotType) (off : Nat) (dflt : Option Int) : CRes RVal :=
  match ty with
  | .void => pure .none
  | .prim fmt => do
    pure (.int (← CRes.lift (o.primField ((off * ty.size : Nat) : Int) fmt (dflt.getD 0))))
  | .float fmt => do
    let v ← CRes.lift (o.readPrimitive ((off * ty.size : Nat) : Int) fmt)
    if dflt.getD 0 ≠ 0 then CRes.lift (.error .typeError) else pure (.float v)
  | .bool => do pure (.bool (← CRes.lift (o.boolField off (dflt.getD 0 != 0))))
  | .enum => do pure (.int (← enumField o ((off * ty.size : Nat) : Int) (dflt.getD 0)))
  | .text => do pure (((← readData o ((off * 8 : Nat) : Int) none (-1)).map RVal.bytes).getD .none)
  | .data => do pure (((← readData o ((off * 8 : Nat) : Int) none 0).map RVal.bytes).getD .none)
  | .struct => do pure (((← readStruct o ((off * 8 : Nat) : Int)).map RVal.struct).getD .none)
  | .list it => do pure (((← readList o ((off * 8 : Nat) : Int) it).map RVal.list).getD .none)
  | .anyPointer => do
    if (← hasField o ((off * 8 : Nat) : Int)) then pure (.any o (off * 8)) else pure .none

mutual

/-- The property of a field (capnpy/compiler/field.py:13-20, 26-57, 224-250). -/
def getField (o : StructObj) (union : Option Nat) : Field → CRes RVal
  | .slot _ _ disc ty off dflt => do
    ensureMember o union disc
    getSlot o ty off dflt
  | .group _ _ disc nullable gunion children => do
    ensureMember o union disc
    let g ← CRes.lift (StructObj.initFromBuffer o.seg o.dataOffset o.dataSize o.ptrsSize)
    if nullable then
      match getAttr g gunion "is_null" children with
      | none => CRes.lift (.error .attributeError)
      | some r => do
        if (← r).truthy then pure .none
        else
          match getAttr g gunion "value" children with
          | none => CRes.lift (.error .attributeError)
          | some r => r
    else pure (.group g)

/-- `getattr(o, x)` for the properties defined by the fields. -/
def getAttr (o : StructObj) (union : Option Nat) (x : String) : List Field → Option (CRes RVal)
  | [] => none
  | f :: fs =>
    match getAttr o union x fs with
    | some r => some r
    | none => if f.name = x then some (getField o union f) else none

end

/-- Iteration: the class has no `__iter__`, so that `__getitem__` is called with 0, 1, 2...
until it raises IndexError (capnpy/list.py:60-68); `n` bounds the number of calls. -/
def iterFrom (l : ListObj) : Nat → Int → CRes (List Item)
  | 0, _ => pure []
  | n + 1, i =>
    match getItem l i with
    | .crash => .crash
    | .ret (.error .indexError) w => .ret (.ok []) w
    | .ret (.error e) w => .ret (.error e) w
    | .ret (.ok x) w => CRes.ret (.ok x) w >>= fun x => do
      let xs ← iterFrom l n (i + 1)
      pure (x :: xs)

/-- `list(l)` -/
def toList (l : ListObj) : CRes (List Item) := iterFrom l (l.itemCount.toNat + 1) 0

/-- capnpy/message.py:132-171 `dumps`, with the compiled `copy_from_struct` in the slow path.
`none` is an access outside of the memory of the builder. -/
def dumpsC (junk : Pyx.Builder → Nat → UInt8) (o : StructObj) (fastpath : Bool) (fuel : Nat) : Option (CRes Bytes) :=
  match dumpsEnd o fastpath fuel with
  | .crash => some .crash
  | .ret (.error e) w => some (.ret (.error e) w)
  | .ret (.ok end_) w =>
    if end_ ≠ -1 then
      some (.ret (Pyx.dumpMessageC o.seg.buf (Ptr.newStruct 0 o.dataSize o.ptrsSize) o.dataOffset end_) w)
    else (Pyx.runC (Pyx.dumpsSlowC junk fuel o)).map fun r => .ret r w

end Capnpy.Cy
