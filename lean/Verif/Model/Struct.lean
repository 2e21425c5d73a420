import Verif.Model.Copy
import Verif.Model.Endof

/-!
# Model of capnpy/struct_.py (pure Python mode)

A `Struct` object is a segment plus the position and sizes of its sections.  The
Python class of the object (which decides the accessors) is not part of the
model; the `isinstance` checks of `copy_from_struct` are assumed to succeed.
-/

namespace Capnpy

/-- The attributes of a `Struct` instance (capnpy/struct_.py:53-60). -/
structure StructObj where
  seg : Seg
  dataOffset : Int
  ptrsOffset : Int
  dataSize : Int
  ptrsSize : Int
  deriving DecidableEq, Repr

namespace StructObj

/-- capnpy/struct_.py:53-60 `_init_from_buffer` (and 26-33, 75-77:
`struct_from_buffer`, `from_buffer`).  The assertions only bound the sections
from above. -/
def initFromBuffer (seg : Seg) (offset dataSize ptrsSize : Int) : Py StructObj :=
  let self : StructObj := ⟨seg, offset, offset + dataSize * 8, dataSize, ptrsSize⟩
  if ¬ (self.dataOffset + dataSize * 8 ≤ seg.buf.length) then .error .assertionError
  else if ¬ (self.ptrsOffset + ptrsSize * 8 ≤ seg.buf.length) then .error .assertionError
  else .ok self

/-- capnpy/struct_.py:62-67 `_init_from_pointer` -/
def initFromPointer (seg : Seg) (offset p : Int) : Py StructObj :=
  if ¬ (Ptr.kind p = Ptr.STRUCT) then .error .assertionError
  else initFromBuffer seg (Ptr.deref p offset) (Ptr.structDataSize p) (Ptr.structPtrsSize p)

/-- capnpy/struct_.py:172-178 `_as_pointer` -/
def asPointer (self : StructObj) (offset : Int) : Int :=
  Ptr.newStruct ((self.dataOffset - offset - 8) / 8) self.dataSize self.ptrsSize

/-- capnpy/struct_.py:180-184 `_read_fast_ptr` -/
def readFastPtr (self : StructObj) (offset : Int) : Py Int :=
  if offset ≥ self.ptrsSize * 8 then .ok 0
  else self.seg.readPtr (self.ptrsOffset + offset)

/-- capnpy/struct_.py:186-189 `_read_far_ptr` -/
def readFarPtr (self : StructObj) (offset : Int) : Py (Int × Int) :=
  if offset ≥ self.ptrsSize * 8 then .ok (offset, 0)
  else self.seg.readFarPtr (self.ptrsOffset + offset)

/-- capnpy/struct_.py:191-195 `_read_primitive` -/
def readPrimitive (self : StructObj) (offset : Int) (fmt : Fmt) : Py Int :=
  if offset ≥ self.dataSize * 8 then .ok 0
  else Capnpy.readPrimitive self.seg.buf (self.dataOffset + offset) fmt

/-- capnpy/struct_.py:197-201 `_read_int16` -/
def readInt16 (self : StructObj) (offset : Int) : Py Int :=
  if offset ≥ self.dataSize * 8 then .ok 0
  else Capnpy.readInt16 self.seg.buf (self.dataOffset + offset)

/-- capnpy/struct_.py:203-205 `_read_bit` -/
def readBit (self : StructObj) (offset bitmask : Int) : Py Bool := do
  let val ← self.readPrimitive offset .B
  pure (Int.land val bitmask ≠ 0)

/-- The common prologue of `_read_struct`, `_read_list`, `_read_data`
(capnpy/struct_.py:212-216, 225-229, 262-266) and of the generated struct
accessors (capnpy/compiler/field.py:161-166): the pointer in the slot `offset`,
after following a far pointer, and the position it is relative to. -/
def resolve (self : StructObj) (offset : Int) : Py (Int × Int) := do
  let p ← self.readFastPtr offset
  if Ptr.kind p = Ptr.FAR then self.readFarPtr offset
  else pure (offset + self.ptrsOffset, p)

/-- capnpy/struct_.py:207-222 `_read_struct`; the accessors generated by
capnpy/compiler/field.py:159-172 are the same code (the assertion on the kind
is in `_init_from_pointer`). -/
def readStruct (self : StructObj) (offset : Int) : Py (Option StructObj) := do
  let (offset, p) ← self.resolve offset
  if p = 0 then pure none
  else if ¬ (Ptr.kind p = Ptr.STRUCT) then throw .assertionError
  else
    let obj ← initFromPointer self.seg offset p
    pure (some obj)

/-- capnpy/struct_.py:261-267 `_read_data` -/
def readData (self : StructObj) (offset : Int) (default_ : Option Bytes) (additionalSize : Int) :
    Py (Option Bytes) := do
  let (offset, p) ← self.resolve offset
  self.seg.readStr p offset default_ additionalSize

/-- capnpy/struct_.py:244-245 `_read_text_bytes` -/
def readTextBytes (self : StructObj) (offset : Int) (default_ : Option Bytes := none) :
    Py (Option Bytes) := self.readData offset default_ (-1)

/-- capnpy/struct_.py:167-170 `__which__` -/
def whichRaw (self : StructObj) (tagOffset : Option Int) : Py Int :=
  match tagOffset with
  | none => .error .typeError
  | some off => self.readInt16 off

/-- capnpy/struct_.py:277-281 `_ensure_union` -/
def ensureUnion (self : StructObj) (tagOffset : Option Int) (expectedTag : Int) : Py Unit := do
  let w ← self.whichRaw tagOffset
  if w ≠ expectedTag then throw .valueError
  else pure ()

/-- capnpy/struct_.py:284-286 `_get_end` -/
def getEnd (self : StructObj) (fuel : Nat) : Py Int :=
  endof self.seg fuel (Ptr.newStruct 0 self.dataSize self.ptrsSize) (self.dataOffset - 8)

/-- capnpy/struct_.py:288-289 `_is_compact` -/
def isCompact (self : StructObj) (fuel : Nat) : Py Bool := do
  let e ← self.getEnd fuel
  pure (e ≠ -1)

end StructObj

/-- capnpy/segment/builder.py:108-115 `copy_from_struct` for an instance of the
right class; `none` is Python's `None`. -/
def copyFromStruct (fuel : Nat) (dstPos : Int) (value : Option StructObj) : BM Unit :=
  match value with
  | none => writeInt64 dstPos 0
  | some value => copyPointer value.seg fuel (value.asPointer 0) 0 dstPos

/-- capnpy/struct_.py:291-304 `compact` -/
def StructObj.compact (self : StructObj) (fuel : Nat) : Py StructObj :=
  let run : BM Unit := do
    let pos ← allocate 8
    copyFromStruct fuel pos (some self)
  match run newBuilder with
  | .error e _ => .error e
  | .ok () buf => StructObj.initFromBuffer ⟨buf, none⟩ 8 self.dataSize self.ptrsSize

end Capnpy
