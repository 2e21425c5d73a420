import Verif.Model.Hash
import Verif.Spec.Hash

/-!
# Model of equality and hashing of structs with a `$Py.key` annotation

capnpy/struct_.py:309-324, capnpy/blob.py:76-126, and the code generated by
capnpy/compiler/struct_.py:274-354.

The objects are the Python values the generated accessors return for key fields:
`None`, ints (bools and enums are ints), bytes, unicode strings (represented by
their utf-8 encoding), and structs or groups.  A keyed struct is represented by
the list of values its `_key()` returns; the reading of these values from the
buffer is modelled in Model/Accessor.lean and not repeated here.  Not modelled:
floats and lists as key fields, and the identity shortcut of CPython's tuple
comparison (accessors return fresh objects).
-/

namespace Capnpy.Key
open Hash

inductive PyObj
  | none
  | int (i : Int)
  | bytes (b : Bytes)
  | str (utf8 : Bytes)
  | tuple (xs : List PyObj)
  /-- a struct whose class defines `_key()` -/
  | keyed (key : List PyObj)
  /-- a struct without `$Py.key`: `_key()` raises, capnpy/struct_.py:313-315 -/
  | unkeyed
  deriving Inhabited

/-- `self._key()`: capnpy/compiler/struct_.py:294-301, capnpy/struct_.py:313-315 -/
def getKey : PyObj → Py PyObj
  | .keyed k => .ok (.tuple k)
  | _ => .error .typeError

mutual
/-- Python's `a == b`.  `fuel` is the recursion limit. -/
def pyEq : Nat → PyObj → PyObj → Py Bool
  | 0, _, _ => .error .recursionError
  | fuel + 1, a, b =>
    match a, b with
    -- capnpy/blob.py:109: `Blob.__eq__` is `_cmp_eq`, which calls `_equals`
    | .keyed k, o => structEquals fuel (.keyed k) o
    | .unkeyed, o => structEquals fuel .unkeyed o
    -- the left operand does not know structs: Python tries the reflected `__eq__`
    | o, .keyed k => structEquals fuel (.keyed k) o
    | o, .unkeyed => structEquals fuel .unkeyed o
    | .none, .none => .ok true
    | .int i, .int j => .ok (i == j)
    | .bytes x, .bytes y => .ok (x == y)
    | .str x, .str y => .ok (x == y)
    | .tuple xs, .tuple ys => tupleEq fuel xs ys
    | _, _ => .ok false
/-- CPython's `tuplerichcompare` for `==`: the first differing pair decides, and
only if there is none the lengths are compared. -/
def tupleEq : Nat → List PyObj → List PyObj → Py Bool
  | _, [], [] => .ok true
  | _, [], _ :: _ => .ok false
  | _, _ :: _, [] => .ok false
  | fuel, x :: xs, y :: ys =>
    match pyEq fuel x y with
    | .error e => .error e
    | .ok false => .ok false
    | .ok true => tupleEq fuel xs ys
/-- capnpy/struct_.py:320-324 `_equals` -/
def structEquals : Nat → PyObj → PyObj → Py Bool
  | 0, _, _ => .error .recursionError
  | fuel + 1, self, other =>
    match other with
    | .keyed _ | .unkeyed | .tuple _ =>
      match getKey self with
      | .error e => .error e
      | .ok key => pyEq fuel other key
    | _ => .ok false
end

/-- What `hash()` depends on in the interpreter: the hash of `None` (an address
before Python 3.12), and the hash functions of bytes and str. -/
structure HashEnv where
  hashNone : CLong
  hashBytes : Bytes → CLong
  hashStr : Bytes → CLong

mutual
/-- Python's `hash(x)`; `Struct.__hash__` is capnpy/struct_.py:317-318.  The hash of a
tuple is the one of the interpreter (`Spec.pyTupleHash`), not capnpy's reimplementation. -/
def pyHash (E : HashEnv) : PyObj → Py CLong
  | .none => .ok E.hashNone
  | .int i => .ok (BitVec.ofInt 64 (Spec.pyIntHash i))
  | .bytes b => .ok (E.hashBytes b)
  | .str s => .ok (E.hashStr s)
  | .tuple xs => do
    let hs ← pyHashes E xs
    pure (BitVec.ofNat 64 (Spec.pyTupleHash (hs.map BitVec.toNat)))
  | .keyed k => do
    let hs ← pyHashes E k
    pure (BitVec.ofNat 64 (Spec.pyTupleHash (hs.map BitVec.toNat)))
  | .unkeyed => .error .typeError
/-- The hashes of the items of a tuple, left to right. -/
def pyHashes (E : HashEnv) : List PyObj → Py (List CLong)
  | [] => .ok []
  | x :: xs => do
    let h ← pyHash E x
    let hs ← pyHashes E xs
    pure (h :: hs)
end

/-! ## The specialised `__hash__` generated in pyx mode -/

/-- A key field as seen by capnpy/compiler/struct_.py:306-339
`_emit_fash_hash`: which kind of field it is and the value its accessor
returns. -/
inductive KeyField
  /-- int8 … uint32 in the order of `Type.__tag__`, which includes int64
  (capnpy/compiler/struct_.py:346-348) -/
  | smallInt (v : Int)
  /-- uint64 (lines 349-351) -/
  | uint64 (v : Int)
  /-- Text with `text_type = bytes` -/
  | textBytes (v : PyObj)
  /-- Text with `text_type = unicode` -/
  | textUnicode (v : PyObj)
  /-- everything else -/
  | other (v : PyObj)

/-- The value in `_key()` of a key field. -/
def KeyField.value : KeyField → PyObj
  | .smallInt v => .int v
  | .uint64 v => .int v
  | .textBytes v => v
  | .textUnicode v => v
  | .other v => v

/-- capnpy/compiler/struct_.py:314-325: `h[i]`.  For a text_bytes field two
assignments are emitted, `_hash_text_bytes` and then (the second `if` has an
`else`) `hash(self.x)`: the second one is what counts, so only it is modelled.
For a text_unicode field `_hash_text_unicode` (capnpy/struct_.py:255-259) reads
the text with default `b''`, so a null text is hashed as the empty string. -/
def KeyField.fastHash (E : HashEnv) : KeyField → Py CLong
  | .smallInt v => .ok (inthash3 (BitVec.ofInt 64 v))
  | .uint64 v => .ok (longhash3 (BitVec.ofInt 64 v))
  | .textBytes v => pyHash E v
  | .textUnicode .none => .ok (E.hashStr [])
  | .textUnicode v => pyHash E v
  | .other v => pyHash E v

def fastHashes (E : HashEnv) : List KeyField → Py (List CLong)
  | [] => .ok []
  | f :: fs => do
    let h ← f.fastHash E
    let hs ← fastHashes E fs
    pure (h :: hs)

/-- capnpy/compiler/struct_.py:306-328: the generated `__hash__`. -/
def fastHash (E : HashEnv) (fs : List KeyField) : Py CLong := do
  let hs ← fastHashes E fs
  pure (tuplehash hs)

end Capnpy.Key
