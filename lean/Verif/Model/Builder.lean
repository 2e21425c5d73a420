import Verif.Model.Segment

/-!
# Model of capnpy/segment/builder.py (pure Python `SegmentBuilder`)

The builder's only state is `self.buf`, a bytearray.  A method is a function
from the buffer to a result *and* the new buffer, also when it raises
(`EStateM.Result.error e buf`): an exception does not undo earlier writes.
-/

namespace Capnpy

/-- Builder methods. -/
abbrev BM (α : Type) := EStateM PyErr Bytes α

deriving instance DecidableEq for EStateM.Result
deriving instance DecidableEq for Except

/-- Raise whatever a pure computation raises. -/
def BM.lift {α} (x : Py α) : BM α := fun s =>
  match x with
  | .ok a => .ok a s
  | .error e => .error e s

/-- `if c: x` -/
def BM.when (c : Prop) [Decidable c] (x : BM Unit) : BM Unit := if c then x else pure ()

/-- capnpy/segment/builder.py:10-11 `__init__` -/
def newBuilder : Bytes := []

/-- capnpy/segment/builder.py:22-53 `write_generic`, `write_int8` ...
`write_float64`: `struct.pack_into(fmt, self.buf, i, value)`. -/
def writeFmt (fmt : Fmt) (i : Int) (value : Int) : BM Unit := fun buf =>
  match packInto fmt buf i value with
  | .ok buf' => .ok () buf'
  | .error e => .error e buf

/-- capnpy/segment/builder.py:43-44 `write_int64` -/
def writeInt64 (i value : Int) : BM Unit := writeFmt .q i value

/-- capnpy/segment/builder.py:55-58 `write_bool`; `value` is the Python
argument as an int (`True` is 1). -/
def writeBool (byteoffset : Int) (bitoffset : Nat) (value : Int) : BM Unit := fun buf =>
  match unpackFrom .B buf byteoffset with
  | .error e => .error e buf
  | .ok current => writeFmt .B byteoffset (Int.lor current (shl value bitoffset)) buf

/-- capnpy/segment/builder.py:60-61 `write_slice` -/
def writeSlice (i : Int) (src : Seg) (start n : Int) : BM Unit := fun buf =>
  .ok () (pySliceAssign buf i (i + n) (pySlice src.buf start (start + n)))

/-- capnpy/segment/builder.py:63-67 `allocate` -/
def allocate (length : Int) : BM Int := fun buf =>
  .ok (buf.length : Int) (buf ++ List.replicate length.toNat 0)

/-- capnpy/segment/builder.py:69-79 `alloc_struct` -/
def allocStruct (pos dataSize ptrsSize : Int) : BM Int := do
  let length := (dataSize + ptrsSize) * 8
  let result ← allocate length
  let offet := result - (pos + 8)
  let p := Ptr.newStruct (offet / 8) dataSize ptrsSize
  writeInt64 pos p
  pure result

/-- capnpy/segment/builder.py:81-91 `alloc_list` -/
def allocList (pos sizeTag itemCount bodyLength : Int) : BM Int := do
  let bodyLength := Ptr.roundUpToWord bodyLength
  let result ← allocate bodyLength
  let offet := result - (pos + 8)
  let p := Ptr.newList (offet / 8) sizeTag itemCount
  writeInt64 pos p
  pure result

/-- capnpy/segment/builder.py:93-103 `alloc_text` -/
def allocText (pos : Int) (s : Option Bytes) (trailingZero : Int := 1) : BM Int :=
  match s with
  | none => do
    writeInt64 pos 0
    pure (-1)
  | some s => do
    let n : Int := s.length
    let nn := n + trailingZero
    let result ← allocList pos Ptr.LIST_SIZE_8 nn nn
    modify fun buf => pySliceAssign buf result (result + n) s
    pure result

/-- capnpy/segment/builder.py:105-106 `alloc_data` -/
def allocData (pos : Int) (s : Option Bytes) : BM Int := allocText pos s 0

end Capnpy
