import Verif.Model.Builder

/-!
# Model of capnpy/segment/builder.pyx (the compiled `SegmentBuilder`)

`cbuf` is a C array of `length` bytes of which the first `end` are in use.  A
memory access outside of the array is undefined behaviour in C: here it is
`none`.  An argument that does not fit its C type raises OverflowError before
the method runs: also `none`.  C integers are modelled as unbounded (the sizes
stay far below `2^63`).  `write_generic` dispatches to the methods below.
-/

namespace Capnpy.Pyx

open Spec (slice leBytes)

/-- The attributes of the class (capnpy/segment/builder.pxd:9-15); `length` is
the length of `buf`. -/
structure Builder where
  buf : Bytes
  end_ : Int
  deriving DecidableEq, Repr

/-- `self.length` -/
def Builder.length (self : Builder) : Int := self.buf.length

/-- capnpy/segment/builder.pyx:26-30 `__cinit__` with the length hint. -/
def new (length : Nat) : Builder := ⟨List.replicate length 0, 0⟩

/-- capnpy/segment/builder.pyx:20-21 `round_to_word` -/
def roundToWord (pos : Int) : Int := Int.land (pos + (8 - 1)) (-8)

/-- `memset`/`memcpy`/stores of the bytes `s` at `cbuf + i`. -/
def store (cbuf : Bytes) (i : Int) (s : Bytes) : Option Bytes :=
  if 0 ≤ i ∧ i + s.length ≤ cbuf.length then some (overwrite cbuf i.toNat s) else none

/-- capnpy/segment/builder.pyx:32-49 `_resize`.  `PyByteArray_Resize` leaves the
new bytes uninitialised: they are `junk`. -/
def resize (junk : Nat → UInt8) (self : Builder) (minlen : Int) : Option Builder :=
  let newlen := self.length + self.length / 2 + 512
  let newlen := max minlen newlen
  let newlen := roundToWord newlen
  let curlen := self.length
  let grown := self.buf ++ (List.range (newlen - curlen).toNat).map junk
  match store grown curlen (List.replicate (newlen - curlen).toNat 0) with
  | some buf => some { self with buf := buf }
  | none => none

/-- capnpy/segment/builder.pyx:51-52 `get_length` -/
def getLength (self : Builder) : Int := self.end_

/-- capnpy/segment/builder.pyx:54-55 `as_string` -/
def asString (self : Builder) : Bytes := self.buf.take self.end_.toNat

/-- capnpy/segment/builder.pyx:81-109 `write_int8` ... `write_float64` -/
def writeFmt (self : Builder) (fmt : Fmt) (i value : Int) : Option Builder :=
  match fmt.encode value with
  | .ok bs =>
    match store self.buf i bs with
    | some buf => some { self with buf := buf }
    | none => none
  | .error _ => none

/-- `self.write_int64(pos, p)` with a C `long` computed by `new_struct`/`new_list`
(capnpy/segment/builder.pyx:141-142, 154-155): the value wraps to 64 bits. -/
def writePtr (self : Builder) (i p : Int) : Option Builder :=
  match store self.buf i (leBytes 8 (p % 2 ^ 64).toNat) with
  | some buf => some { self with buf := buf }
  | none => none

/-- capnpy/segment/builder.pyx:111-114 `write_bool`; the C type of `value` makes
every true argument 1. -/
def writeBool (self : Builder) (byteoffset : Int) (bitoffset : Nat) (value : Bool) : Option Builder :=
  if 0 ≤ byteoffset ∧ byteoffset < self.buf.length then
    let current : Nat := ((self.buf[byteoffset.toNat]?).getD 0).toNat
    let current := Int.lor current (shl (if value then 1 else 0) bitoffset) % 256
    match store self.buf byteoffset (leBytes 1 current.toNat) with
    | some buf => some { self with buf := buf }
    | none => none
  else none

/-- capnpy/segment/builder.pyx:116-120 `write_slice`: `memcpy` of `n` bytes. -/
def writeSlice (self : Builder) (i : Int) (src : Bytes) (start n : Int) : Option Builder :=
  if 0 ≤ start ∧ 0 ≤ n ∧ start + n ≤ src.length then
    match store self.buf i (slice src start.toNat n.toNat) with
    | some buf => some { self with buf := buf }
    | none => none
  else none

/-- capnpy/segment/builder.pyx:122-131 `allocate` -/
def allocate (junk : Nat → UInt8) (self : Builder) (length : Int) : Option (Int × Builder) :=
  let result := self.end_
  let self := { self with end_ := self.end_ + length }
  if self.end_ > self.length then
    match resize junk self self.end_ with
    | some self => some (result, self)
    | none => none
  else some (result, self)

/-- capnpy/segment/builder.pyx:133-143 `alloc_struct` -/
def allocStruct (junk : Nat → UInt8) (self : Builder) (pos dataSize ptrsSize : Int) :
    Option (Int × Builder) := do
  let length := (dataSize + ptrsSize) * 8
  let (result, self) ← allocate junk self length
  let offet := result - (pos + 8)
  let p := Ptr.newStruct (offet / 8) dataSize ptrsSize
  let self ← writePtr self pos p
  some (result, self)

/-- capnpy/segment/builder.pyx:145-156 `alloc_list` -/
def allocList (junk : Nat → UInt8) (self : Builder) (pos sizeTag itemCount bodyLength : Int) :
    Option (Int × Builder) := do
  let bodyLength := roundToWord bodyLength
  let (result, self) ← allocate junk self bodyLength
  let offet := result - (pos + 8)
  let p := Ptr.newList (offet / 8) sizeTag itemCount
  let self ← writePtr self pos p
  some (result, self)

/-- capnpy/segment/builder.pyx:158-169 `alloc_text` -/
def allocText (junk : Nat → UInt8) (self : Builder) (pos : Int) (s : Option Bytes) (trailingZero : Int) :
    Option (Int × Builder) :=
  match s with
  | none => do
    let self ← writeFmt self .q pos 0
    some (-1, self)
  | some s => do
    let n : Int := s.length
    let nn := n + trailingZero
    let (result, self) ← allocList junk self pos Ptr.LIST_SIZE_8 nn nn
    let buf ← store self.buf result s
    some (result, { self with buf := buf })

/-- capnpy/segment/builder.pyx:171-172 `alloc_data` -/
def allocData (junk : Nat → UInt8) (self : Builder) (pos : Int) (s : Option Bytes) :
    Option (Int × Builder) := allocText junk self pos s 0

/-! ## Sequences of calls -/

/-- A call of a method of the builder. -/
inductive Op
  | write (fmt : Fmt) (i value : Int)
  | writeBool (byteoffset : Int) (bitoffset : Nat) (value : Bool)
  | writeSlice (i : Int) (src : Bytes) (start n : Int)
  | allocate (length : Int)
  | allocStruct (pos dataSize ptrsSize : Int)
  | allocList (pos sizeTag itemCount bodyLength : Int)
  | allocText (pos : Int) (s : Option Bytes)
  | allocData (pos : Int) (s : Option Bytes)
  deriving DecidableEq

/-- A call on the compiled builder; methods without a result return 0.  `junk` is
what uninitialised memory holds during this call. -/
def Op.run (junk : Nat → UInt8) (self : Builder) : Op → Option (Int × Builder)
  | .write fmt i v => (Pyx.writeFmt self fmt i v).map fun s => (0, s)
  | .writeBool i k v => (Pyx.writeBool self i k v).map fun s => (0, s)
  | .writeSlice i src start n => (Pyx.writeSlice self i src start n).map fun s => (0, s)
  | .allocate n => Pyx.allocate junk self n
  | .allocStruct pos ds ps => Pyx.allocStruct junk self pos ds ps
  | .allocList pos tag n body => Pyx.allocList junk self pos tag n body
  | .allocText pos s => Pyx.allocText junk self pos s 1
  | .allocData pos s => Pyx.allocData junk self pos s

/-- The same call on the pure-Python builder. -/
def Op.runPy : Op → BM Int
  | .write fmt i v => do Capnpy.writeFmt fmt i v; pure 0
  | .writeBool i k v => do Capnpy.writeBool i k (if v then 1 else 0); pure 0
  | .writeSlice i src start n => do Capnpy.writeSlice i ⟨src, none⟩ start n; pure 0
  | .allocate n => Capnpy.allocate n
  | .allocStruct pos ds ps => Capnpy.allocStruct pos ds ps
  | .allocList pos tag n body => Capnpy.allocList pos tag n body
  | .allocText pos s => Capnpy.allocText pos s
  | .allocData pos s => Capnpy.allocData pos s

/-- A program which calls the builder: each next call may depend on the results
so far. -/
inductive Prog
  | done
  | call (op : Op) (k : Int → Prog)

/-- Run a program on the compiled builder: the results in order, and the final
state.  `junk n` is what uninitialised memory holds at the `n`-th call. -/
def run (junk : Nat → Nat → UInt8) : Builder → Prog → Option (List Int × Builder)
  | self, .done => some ([], self)
  | self, .call op k =>
    match op.run (junk 0) self with
    | none => none
    | some (r, self) =>
      match run (fun n => junk (n + 1)) self (k r) with
      | none => none
      | some (rs, self) => some (r :: rs, self)

/-- The same on the pure-Python builder; `none` if a call raises. -/
def runPy : Bytes → Prog → Option (List Int × Bytes)
  | buf, .done => some ([], buf)
  | buf, .call op k =>
    match op.runPy buf with
    | .error _ _ => none
    | .ok r buf =>
      match runPy buf (k r) with
      | none => none
      | some (rs, buf) => some (r :: rs, buf)

end Capnpy.Pyx
