import Verif.Model.Py

/-!
# Model of capnpy/_hash.pyx and capnpy/_hash_cpython.c

C `long` / `unsigned long` / `Py_uhash_t` are `BitVec 64` (the 64-bit ABI the
constants of `_hash.h` are written for); signed operations are `BitVec.slt`,
`sshiftRight`, `toInt`.  CPython's `_Py_HashBytes` is a parameter: the model
says on which region of memory it is called, not what it computes.
-/

namespace Capnpy.Hash

/-- A C `long` (two's complement, 64 bits). -/
abbrev CLong := BitVec 64

/-- capnpy/_hash.h: `HASH_MASK` is `_PyHASH_MODULUS`, `2^61 - 1`. -/
def HASH_MASK : CLong := 0x1fffffffffffffff#64

/-- capnpy/_hash.h: `MINLONG`. -/
def MINLONG : CLong := 0x8000000000000000#64

/-- capnpy/_hash.pyx:91-108 `_inthash_3`.  `v >> 61` is an arithmetic shift on a
C `long`; after the negation `v` is never negative, so the comparison
`v >= HASH_MASK` means the same signed or unsigned. -/
def inthash3 (v0 : CLong) : CLong :=
  if v0 = MINLONG then BitVec.ofInt 64 (-4)
  else
    let neg := v0.slt 0#64
    let v := if neg then -v0 else v0
    let v := (v &&& HASH_MASK) + v.sshiftRight 61
    let v := if HASH_MASK.sle v then v - HASH_MASK else v
    if neg then
      let v := -v
      if v = BitVec.ofInt 64 (-1) then BitVec.ofInt 64 (-2) else v
    else v

/-- capnpy/_hash.pyx:110-114 `_longhash_3` (the argument is unsigned). -/
def longhash3 (v0 : BitVec 64) : CLong :=
  let v := (v0 &&& HASH_MASK) + v0 >>> 61
  if HASH_MASK.ule v then v - HASH_MASK else v

/-- capnpy/_hash.pyx:74-77 `_inthash_2` -/
def inthash2 (v : CLong) : CLong :=
  if v = BitVec.ofInt 64 (-1) then BitVec.ofInt 64 (-2) else v

/-- capnpy/_hash.pyx:79-80 `_longhash_2`: the argument is reinterpreted as a
signed long. -/
def longhash2 (v : BitVec 64) : CLong := inthash2 v

/-- The bytes a C function sees when it is given the pointer `&a[start]` and the
length `size`.  `none`: the region is not inside the bytes object, so the read
is undefined behaviour. -/
def region (a : Bytes) (start size : Int) : Option Bytes :=
  if 0 ≤ start ∧ 0 ≤ size ∧ start + size ≤ a.length then
    some ((a.drop start.toNat).take size.toNat)
  else none

/-- capnpy/_hash.pyx:24-36 `strhash` on Python 3.  `hashBytes` is CPython's
`_Py_HashBytes`. -/
def strhash3 (hashBytes : Bytes → Int) (a : Bytes) (start size0 : Int) : Option Int :=
  let maxlen : Int := a.length
  if start ≥ maxlen ∨ size0 = 0 then some 0
  else
    let size := if size0 > maxlen then maxlen - start else size0
    (region a start size).map hashBytes

/-- capnpy/_hash.pyx:55-72 `_strhash_2`: the loop body
`x = (1000003*x) ^ p[0]; p += 1`, on C longs. -/
def strhash2Loop : CLong → Bytes → CLong
  | x, [] => x
  | x, c :: p => strhash2Loop ((1000003#64 * x) ^^^ BitVec.ofNat 64 c.toNat) p

/-- capnpy/_hash.pyx:55-72 `_strhash_2` on a non-empty region (`strhash` returns
early when the size is 0); `size` is the number of bytes. -/
def strhash2Body (pre suf : CLong) (p : Bytes) : CLong :=
  let x := pre ^^^ (BitVec.ofNat 64 (p.headD 0).toNat <<< 7)
  let x := strhash2Loop x p
  let x := x ^^^ BitVec.ofNat 64 p.length
  let x := x ^^^ suf
  if x = BitVec.ofInt 64 (-1) then BitVec.ofInt 64 (-2) else x

/-- capnpy/_hash.pyx:24-36 `strhash` on Python 2. -/
def strhash2 (pre suf : CLong) (a : Bytes) (start size0 : Int) : Option CLong :=
  let maxlen : Int := a.length
  if start ≥ maxlen ∨ size0 = 0 then some 0#64
  else
    let size := if size0 > maxlen then maxlen - start else size0
    (region a start size).map (strhash2Body pre suf)

/-- capnpy/_hash.py:5-6 `strhash`, the pure Python version. -/
def strhashPy (hashBytes : Bytes → Int) (s : Bytes) (start size : Int) : Int :=
  hashBytes (pySlice s start (start + size))

/-! ## tuplehash, Python ≥ 3.8 -/

/-- capnpy/_hash_cpython.c:9 -/
def XXPRIME_1 : BitVec 64 := 11400714785074694791#64
/-- capnpy/_hash_cpython.c:10 -/
def XXPRIME_2 : BitVec 64 := 14029467366897019727#64
/-- capnpy/_hash_cpython.c:11 -/
def XXPRIME_5 : BitVec 64 := 2870177450012600261#64

/-- capnpy/_hash_cpython.c:12 `_PyHASH_XXROTATE` -/
def xxrotate (x : BitVec 64) : BitVec 64 := (x <<< 31) ||| (x >>> 33)

/-- capnpy/_hash_cpython.c:24-33: the loop; `none` is the early `return -1`. -/
def tuplehashLoop : BitVec 64 → List CLong → Option (BitVec 64)
  | acc, [] => some acc
  | acc, lane :: rest =>
    if lane = BitVec.ofInt 64 (-1) then none
    else tuplehashLoop (xxrotate (acc + lane * XXPRIME_2) * XXPRIME_1) rest

/-- capnpy/_hash_cpython.c:20-42 `_cpython_tuplehash` on Python ≥ 3.8. -/
def tuplehash (hashes : List CLong) : CLong :=
  match tuplehashLoop XXPRIME_5 hashes with
  | none => BitVec.ofInt 64 (-1)
  | some acc =>
    let acc := acc + (BitVec.ofNat 64 hashes.length ^^^ (XXPRIME_5 ^^^ 3527539#64))
    if acc = BitVec.ofInt 64 (-1) then 1546275796#64 else acc

/-! ## tuplehash, Python < 3.8 -/

/-- capnpy/_hash_cpython.c:56-61: the loop, with `len` already decremented. -/
def tuplehashOldLoop : BitVec 64 → BitVec 64 → List CLong → BitVec 64
  | x, _, [] => x
  | x, mult, y :: rest =>
    let len : BitVec 64 := BitVec.ofNat 64 rest.length
    tuplehashOldLoop ((x ^^^ y) * mult) (mult + (82520#64 + len + len)) rest

/-- capnpy/_hash_cpython.c:49-66 -/
def tuplehashOld (hashes : List CLong) : CLong :=
  let x := tuplehashOldLoop 0x345678#64 1000003#64 hashes
  let x := x + 97531#64
  if x = BitVec.ofInt 64 (-1) then BitVec.ofInt 64 (-2) else x

end Capnpy.Hash
