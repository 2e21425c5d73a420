import Verif.Model.Struct

/-!
# Model of the accessors generated by capnpy/compiler/field.py

Each accessor is the code of the property that the compiler emits, without the
union check (`{ensure_union}`, see `StructObj.ensureUnion` in Model/Struct.lean),
which is modelled separately.
-/

namespace Capnpy.StructObj

/-- capnpy/compiler/field.py:69-79 `_emit_primitive`: integer fields. -/
def primField (self : StructObj) (offset : Int) (fmt : Fmt) (default_ : Int) : Py Int := do
  let value ← self.readPrimitive offset fmt
  if default_ ≠ 0 then pure (Int.xor value default_)
  else pure value

/-- capnpy/compiler/field.py:81-92 `_emit_bool`: `slotOffset` is in bits. -/
def boolField (self : StructObj) (slotOffset : Nat) (default_ : Bool) : Py Bool := do
  let value ← self.readBit ((slotOffset / 8 : Nat) : Int) (shl 1 (slotOffset % 8))
  if default_ then pure (Bool.xor value default_)
  else pure value

/-- capnpy/compiler/field.py:94-104 `_emit_enum`: the int value of the enum. -/
def enumField (self : StructObj) (offset : Int) (default_ : Int) : Py Int := do
  let value ← self.readInt16 offset
  if default_ ≠ 0 then pure (Int.xor value default_)
  else pure value

/-- capnpy/compiler/field.py:212-218 `_emit_has_method` -/
def hasField (self : StructObj) (offset : Int) : Py Bool := do
  let p ← self.readFastPtr offset
  pure (p ≠ 0)

/-- capnpy/compiler/field.py:106-117 `_emit_text_bytes`: `self.x` -/
def textField (self : StructObj) (offset : Int) : Py (Option Bytes) := self.readTextBytes offset

/-- capnpy/compiler/field.py:112-115: `self.get_x()` for text. -/
def getText (self : StructObj) (offset : Int) : Py (Option Bytes) :=
  self.readTextBytes offset (some [])

/-- capnpy/compiler/field.py:132-137 `_emit_data`: `self.x` -/
def dataField (self : StructObj) (offset : Int) : Py (Option Bytes) := self.readData offset none 0

/-- capnpy/compiler/field.py:138-141: `self.get_x()` for data. -/
def getData (self : StructObj) (offset : Int) : Py (Option Bytes) := self.readData offset (some []) 0

/-- capnpy/compiler/field.py:173-178: `self.get_x()` for a struct; the empty
struct is `from_buffer(b'', 0, data_size=0, ptrs_size=0)`. -/
def getStruct (self : StructObj) (offset : Int) : Py StructObj := do
  let res ← self.readStruct offset
  match res with
  | none => initFromBuffer ⟨[], none⟩ 0 0 0
  | some o => pure o

end Capnpy.StructObj
