import Verif.Model.Segment

/-!
# Model of capnpy/packing.py, capnpy/packing.pyx and capnpy/segment/base.pyx

In the compiled versions a Python int which does not fit the C type of a parameter raises
OverflowError; `none` is undefined behaviour: the overflow of a signed C `int` or an access
out of bounds.  `Py_ssize_t` is 64 bits, `int` is 32 bits.
-/

namespace Capnpy.Packing

open Spec (slice leBytes)

/-! ## packing.py -/

/-- capnpy/packing.py:23-27 `unpack_primitive` -/
def unpackPrimitive (fmt : Fmt) (buf : Bytes) (offset : Int) : Py Int :=
  if offset < 0 ∨ offset + fmt.size > buf.length then .error .indexError
  else unpackFrom fmt buf offset

/-- capnpy/packing.py:38-43 `pack_message_header`; the native format `iiQ` has no padding. -/
def packMessageHeader (segmentCount segmentSize p : Int) : Py Bytes := do
  if ¬ (segmentCount = 1) then throw .assertionError
  let a ← Fmt.i.encode (segmentCount - 1)
  let b ← Fmt.i.encode segmentSize
  let c ← Fmt.Q.encode p
  pure (a ++ b ++ c)

/-- capnpy/packing.py:45-46 `pack_int64` -/
def packInt64 (value : Int) : Py Bytes := Fmt.q.encode value

/-- capnpy/packing.py:48-53 `pack_into`: a `struct.error` becomes an `IndexError`. -/
def packInto (fmt : Fmt) (buf : Bytes) (offset value : Int) : Py Bytes :=
  match Capnpy.packInto fmt buf offset value with
  | .error .structError => .error .indexError
  | r => r

end Capnpy.Packing

namespace Capnpy.Pyx

open Spec (slice leBytes)

/-! ## packing.pyx -/

/-- The value is in the range of a C `int`. -/
def isInt (x : Int) : Prop := -2147483648 ≤ x ∧ x < 2147483648

instance (x : Int) : Decidable (isInt x) := by unfold isInt; infer_instance

/-- The value is in the range of a C `long` and a `Py_ssize_t`. -/
def isLong (x : Int) : Prop := -9223372036854775808 ≤ x ∧ x < 9223372036854775808

instance (x : Int) : Decidable (isLong x) := by unfold isLong; infer_instance

/-- capnpy/packing.pyx:38-40 `checkbound`: `offset + size` is computed as an `int`. -/
def checkbound (size length offset : Int) : Option (Py Unit) :=
  if offset < 0 then some (.error .indexError)
  else if ¬ isInt (offset + size) then none
  else if offset + size > length then some (.error .indexError)
  else some (.ok ())

/-- capnpy/packing.pyx:42-86 `unpack_primitive`; likewise 89-114 `unpack_int64`,
`unpack_int16` and `unpack_uint32` (which, declared without `except`, may lose the
exception, depending on the version of Cython). -/
def unpackPrimitiveC (fmt : Fmt) (buf : Bytes) (offset : Int) : Option (Py Int) :=
  if ¬ isInt offset then some (.error .overflowError)
  else match checkbound fmt.size buf.length offset with
    | none => none
    | some (.error e) => some (.error e)
    | some (.ok ()) => some (.ok (fmt.decode (slice buf offset.toNat fmt.size)))

/-- capnpy/packing.pyx:116-125 `pack_message_header`; `segment_count - 1` is 0. -/
def packMessageHeaderC (segmentCount segmentSize p : Int) : Py Bytes :=
  if ¬ (isInt segmentCount ∧ isInt segmentSize ∧ isLong p) then .error .overflowError
  else if ¬ (segmentCount = 1) then .error .assertionError
  else .ok (leBytes 4 ((segmentCount - 1) % 2 ^ 32).toNat ++ leBytes 4 (segmentSize % 2 ^ 32).toNat ++
    leBytes 8 (p % 2 ^ 64).toNat)

/-- capnpy/packing.pyx:128-134 `pack_int64` -/
def packInt64C (value : Int) : Py Bytes :=
  if ¬ isLong value then .error .overflowError else .ok (leBytes 8 (value % 2 ^ 64).toNat)

/-- capnpy/packing.pyx:136-174 `pack_into` on a bytearray: the bounds are checked before
the value is converted. -/
def packIntoC (fmt : Fmt) (buf : Bytes) (offset value : Int) : Option (Py Bytes) :=
  if ¬ isInt offset then some (.error .overflowError)
  else match checkbound fmt.size buf.length offset with
    | none => none
    | some (.error e) => some (.error e)
    | some (.ok ()) =>
      if fmt.lo ≤ value ∧ value < fmt.hi then
        some (.ok (overwrite buf offset.toNat (leBytes fmt.size (value % fmt.card).toNat)))
      else some (.error .overflowError)

/-! ## base.pyx -/

/-- capnpy/segment/base.pyx:36-46 `check_bounds`, with `Py_ssize_t` arithmetic. -/
def checkBoundsSeg (length size offset : Int) : Option (Py Unit) :=
  if offset < 0 then some (.error .indexError)
  else if ¬ isLong (offset + size) then none
  else if offset + size > length then some (.error .indexError)
  else some (.ok ())

/-- capnpy/segment/base.pyx:49-132: `read_primitive`, `read_int64` ... `read_float`, for an
offset which is a `Py_ssize_t`. -/
def readPrimitiveC (buf : Bytes) (offset : Int) (fmt : Fmt) : Option (Py Int) :=
  match checkBoundsSeg buf.length fmt.size offset with
  | none => none
  | some (.error e) => some (.error e)
  | some (.ok ()) => some (.ok (fmt.decode (slice buf offset.toNat fmt.size)))

/-- capnpy/segment/base.pyx:134-150 `dump_message` for arguments which fit `long`; the
number of words is stored as an `int32_t`. -/
def dumpMessageC (buf : Bytes) (p start end_ : Int) : Py Bytes :=
  if start < 0 ∨ start > end_ ∨ end_ > buf.length then .error .valueError
  else
    .ok (leBytes 4 0 ++ leBytes 4 (((end_ - start) / 8 + 1) % 2 ^ 32).toNat ++ leBytes 8 (p % 2 ^ 64).toNat ++
      slice buf start.toNat (end_ - start).toNat)

end Capnpy.Pyx
