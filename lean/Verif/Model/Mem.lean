import Verif.Model.Py
import Verif.Spec.Bytes

/-!
# The `struct` module on byte buffers

Model of the subset of Python's `struct` module that capnpy uses.  Floats are
represented by their raw bit pattern (an unsigned integer): the model says
nothing about float arithmetic, only about which bits move where.  The host is
assumed little-endian, as capnpy itself assumes (native formats in
capnpy/segment/builder.py:22-53, capnpy/segment/base.py:84).
-/

namespace Capnpy

open Spec (slice leNat leBytes)

/-- The one-letter formats of capnpy/type.py:33-46. -/
inductive Fmt | b | B | h | H | i | I | q | Q | f | d
  deriving DecidableEq, Repr

/-- `struct.calcsize` -/
def Fmt.size : Fmt → Nat
  | .b | .B => 1
  | .h | .H => 2
  | .i | .I | .f => 4
  | .q | .Q | .d => 8

/-- Number of distinct values: `2^(8*size)`. -/
def Fmt.card : Fmt → Nat
  | .b | .B => 256
  | .h | .H => 65536
  | .i | .I | .f => 4294967296
  | .q | .Q | .d => 18446744073709551616

/-- Smallest value `struct.pack` accepts. -/
def Fmt.lo : Fmt → Int
  | .b => -128
  | .h => -32768
  | .i => -2147483648
  | .q => -9223372036854775808
  | _ => 0

/-- One more than the largest value `struct.pack` accepts. -/
def Fmt.hi : Fmt → Int
  | .b => 128
  | .B => 256
  | .h => 32768
  | .H => 65536
  | .i => 2147483648
  | .I | .f => 4294967296
  | .q => 9223372036854775808
  | .Q | .d => 18446744073709551616

/-- `struct.unpack` of exactly `fmt.size` bytes: two's complement for the signed
formats. -/
def Fmt.decode (fmt : Fmt) (bs : Bytes) : Int :=
  let v : Int := leNat bs
  if v < fmt.hi then v else v - fmt.card

/-- `struct.pack`: `struct.error` when the value is out of range. -/
def Fmt.encode (fmt : Fmt) (v : Int) : Py Bytes :=
  if fmt.lo ≤ v ∧ v < fmt.hi then .ok (leBytes fmt.size (v % fmt.card).toNat)
  else .error .structError

/-- The offset rule of `struct.pack_into` / `struct.unpack_from`: a negative
offset counts from the end; anything not entirely inside is `struct.error`. -/
def structOffset (len : Nat) (i : Int) (n : Nat) : Py Nat :=
  if i < 0 then
    if i + n > 0 then .error .structError
    else if i + len < 0 then .error .structError
    else .ok (i + len).toNat
  else if i + n > len then .error .structError
  else .ok i.toNat

/-- Replace `s.length` bytes of `b` at `i`. -/
def overwrite (b : Bytes) (i : Nat) (s : Bytes) : Bytes :=
  b.take i ++ s ++ b.drop (i + s.length)

/-- `struct.pack_into(fmt, buf, i, v)` -/
def packInto (fmt : Fmt) (buf : Bytes) (i : Int) (v : Int) : Py Bytes :=
  match fmt.encode v with
  | .error e => .error e
  | .ok bs =>
    match structOffset buf.length i fmt.size with
    | .error e => .error e
    | .ok k => .ok (overwrite buf k bs)

/-- `struct.unpack_from(fmt, buf, i)[0]` -/
def unpackFrom (fmt : Fmt) (buf : Bytes) (i : Int) : Py Int :=
  match structOffset buf.length i fmt.size with
  | .error e => .error e
  | .ok k => .ok (fmt.decode (slice buf k fmt.size))

end Capnpy
