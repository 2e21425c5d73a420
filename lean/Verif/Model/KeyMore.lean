import Verif.Model.KeyRead
import Verif.Model.List

/-!
# Model of `$Py.key` with floats and lists among the key fields

Model/Key.lean and Model/KeyRead.lean leave out floats and lists.  Both are objects whose
behaviour depends on their identity: the hash of a `List` (pure Python version) is that of
`object`, and so is the hash of a NaN since Python 3.10.  Every evaluation of a property makes
a new object; identities are numbers, given out in the order of creation.

Python's comparison of tuples takes the same object for equal; no object occurs in two keys, so
that this never matters here.
-/

namespace Capnpy.KeyMore

open Key Hash

/-- The value of a Python float: NaN, an infinity, or `m * 2^e`. -/
inductive FVal
  | nan
  | inf (neg : Bool)
  | num (m e : Int)
  deriving DecidableEq, Repr

/-- IEEE 754: the value of a bit pattern. -/
def fval (expBits fracBits bits : Nat) : FVal :=
  let frac := bits % 2 ^ fracBits
  let ex := bits / 2 ^ fracBits % 2 ^ expBits
  let neg := decide (bits / 2 ^ (fracBits + expBits) % 2 = 1)
  let bias : Int := 2 ^ (expBits - 1) - 1
  let sign (m : Nat) : Int := if neg then -(m : Int) else m
  if ex = 2 ^ expBits - 1 then (if frac = 0 then .inf neg else .nan)
  else if ex = 0 then .num (sign frac) (1 - bias - fracBits)
  else .num (sign (2 ^ fracBits + frac)) (ex - bias - fracBits)

/-- What `struct.unpack` with the format `f` or `d` returns for a bit pattern: the conversion of
single to double precision is exact. -/
def floatOf : Fmt → Int → FVal
  | .f, bits => fval 8 23 bits.toNat
  | _, bits => fval 11 52 bits.toNat

/-- `==` of floats: exact, and False for NaN.  Ints are compared with floats exactly. -/
def FVal.eq : FVal → FVal → Bool
  | .num m e, .num m' e' =>
    let k := min e e'
    m * 2 ^ (e - k).toNat == m' * 2 ^ (e' - k).toNat
  | .inf b, .inf b' => b == b'
  | _, _ => false

inductive Obj
  | none
  | int (i : Int)
  | float (v : FVal) (ident : Nat)
  | bytes (b : Bytes)
  | str (utf8 : Bytes)
  /-- a capnpy `List` -/
  | list (l : ListObj) (ident : Nat)
  /-- a Python list -/
  | pylist (xs : List Item)
  | tuple (xs : List Obj)
  | keyed (key : List Obj)
  | unkeyed

/-- Are the inner item types of lists read by this accessor the same object?  See `ListObj.innerIsGlobal`. -/
def innerSame : ItemType → Bool
  | .list i => ListObj.innerIsGlobal i
  | _ => true

/-- capnpy/list.py:87-96 `_equals`; `n` is the recursion limit of `_get_end`. -/
def listEq (n : Nat) (l : ListObj) (other : Obj) : Py Bool :=
  match other with
  | .pylist xs => l.equalsPy xs
  | .list l' _ => l.equals l' (innerSame l.itemType) n
  | _ => if l.itemType.canCompare = false then .error .typeError else .ok false

/-- `self._key()`: capnpy/compiler/struct_.py:294-301, capnpy/struct_.py:313-315 -/
def getKey : Obj → Py Obj
  | .keyed k => .ok (.tuple k)
  | _ => .error .typeError

mutual
/-- Python's `a == b`.  `fuel` is the recursion limit. -/
def pyEq (n : Nat) : Nat → Obj → Obj → Py Bool
  | 0, _, _ => .error .recursionError
  | fuel + 1, a, b =>
    match a, b with
    -- capnpy/blob.py:109: `Blob.__eq__` is `_cmp_eq`, which calls `_equals`
    | .keyed k, o => structEquals n fuel (.keyed k) o
    | .unkeyed, o => structEquals n fuel .unkeyed o
    | .list l _, o => listEq n l o
    -- the left operand does not know capnpy objects: Python tries the reflected `__eq__`
    | o, .keyed k => structEquals n fuel (.keyed k) o
    | o, .unkeyed => structEquals n fuel .unkeyed o
    | o, .list l _ => listEq n l o
    | .none, .none => .ok true
    | .int i, .int j => .ok (i == j)
    | .int i, .float v _ => .ok ((FVal.num i 0).eq v)
    | .float v _, .int i => .ok (v.eq (.num i 0))
    | .float v _, .float w _ => .ok (v.eq w)
    | .bytes x, .bytes y => .ok (x == y)
    | .str x, .str y => .ok (x == y)
    | .pylist xs, .pylist ys => .ok (decide (xs = ys))
    | .tuple xs, .tuple ys => tupleEq n fuel xs ys
    | _, _ => .ok false
/-- CPython's `tuplerichcompare` for `==` -/
def tupleEq (n : Nat) : Nat → List Obj → List Obj → Py Bool
  | _, [], [] => .ok true
  | _, [], _ :: _ => .ok false
  | _, _ :: _, [] => .ok false
  | fuel, x :: xs, y :: ys =>
    match pyEq n fuel x y with
    | .error e => .error e
    | .ok false => .ok false
    | .ok true => tupleEq n fuel xs ys
/-- capnpy/struct_.py:320-324 `_equals` -/
def structEquals (n : Nat) : Nat → Obj → Obj → Py Bool
  | 0, _, _ => .error .recursionError
  | fuel + 1, self, other =>
    match other with
    | .keyed _ | .unkeyed | .tuple _ =>
      match getKey self with
      | .error e => .error e
      | .ok key => pyEq n fuel other key
    | _ => .ok false
end

/-- The hash of a float which is not NaN: Python documentation, "Hashing of numeric types"; the inverse of
2 modulo `2^61 - 1` is `2^60`. -/
def floatHash : FVal → Int
  | .nan => 0
  | .inf neg => if neg then -314159 else 314159
  | .num m e =>
    let r : Nat := m.natAbs * 2 ^ (e % 61).toNat % Spec.hashModulus
    let h : Int := if m < 0 then -(r : Int) else r
    if h = -1 then -2 else h

/-- What `hash()` depends on: also on the identity of objects (`object.__hash__`), and on whether `List` is
compiled: a C class that defines comparisons and no hash is not hashable, whereas capnpy/blob.py:108-114 adds
the comparisons to an existing Python class, which keeps the hash of `object`. -/
structure HashEnv extends Key.HashEnv where
  hashIdent : Nat → CLong
  compiled : Bool

mutual
/-- Python's `hash(x)`; `Struct.__hash__` is capnpy/struct_.py:317-318. -/
def pyHash (E : HashEnv) : Obj → Py CLong
  | .none => .ok E.hashNone
  | .int i => .ok (BitVec.ofInt 64 (Spec.pyIntHash i))
  | .float .nan ident => .ok (E.hashIdent ident)
  | .float v _ => .ok (BitVec.ofInt 64 (floatHash v))
  | .bytes b => .ok (E.hashBytes b)
  | .str s => .ok (E.hashStr s)
  | .list _ ident => if E.compiled then .error .typeError else .ok (E.hashIdent ident)
  | .pylist _ => .error .typeError
  | .tuple xs => do
    let hs ← pyHashes E xs
    pure (BitVec.ofNat 64 (Spec.pyTupleHash (hs.map BitVec.toNat)))
  | .keyed k => do
    let hs ← pyHashes E k
    pure (BitVec.ofNat 64 (Spec.pyTupleHash (hs.map BitVec.toNat)))
  | .unkeyed => .error .typeError
/-- The hashes of the items of a tuple, left to right. -/
def pyHashes (E : HashEnv) : List Obj → Py (List CLong)
  | [] => .ok []
  | x :: xs => do
    let h ← pyHash E x
    let hs ← pyHashes E xs
    pure (h :: hs)
end

/-! ## Reading the key from a message -/

open Capnpy.Repr (Env RField Kind RItem)

/-- The objects of Model/Key.lean which are neither structs nor tuples. -/
def ofPy : PyObj → Obj
  | .none => .none
  | .int i => .int i
  | .bytes b => .bytes b
  | .str s => .str s
  | _ => .unkeyed

/-- The property of a field which is not a nullable group, and the next identity.  Floats and lists:
capnpy/compiler/field.py:69-79, 183-191 (`Model/Accessor.lean`); structs and groups: `rec`; others as in
Model/KeyRead.lean. -/
def prop0 (E : Env) (rec : Nat → StructObj → Nat → Py (Obj × Nat)) (o : StructObj) (union : Option Nat) (f : RField) (k : Nat) :
    Py (Obj × Nat) :=
  match f.kind with
  | .float fmt off d => do
    ensureMember o union f.disc
    let v ← o.readPrimitive ((off * fmt.size : Nat) : Int) fmt
    if d.getD 0 ≠ 0 then .error .typeError else pure (.float (floatOf fmt v) k, k + 1)
  | .list it off => do
    ensureMember o union f.disc
    match (← o.readList ((off * 8 : Nat) : Int) (it.toItemType E)) with
    | none => pure (.none, k)
    | some l => pure (.list l k, k + 1)
  | .struct c off => do
    ensureMember o union f.disc
    match (← o.readStruct ((off * 8 : Nat) : Int)) with
    | none => pure (.none, k)
    | some o' => rec c o' k
  | .group c false => do
    ensureMember o union f.disc
    let g ← StructObj.initFromBuffer o.seg o.dataOffset o.dataSize o.ptrsSize
    rec c g k
  | _ => do
    let x ← KeyRead.prop0 (fun _ _ => .error .notImplemented) o union f
    pure (ofPy x, k)

/-- Truth value of the `isNull` field. -/
def truthy : Obj → Bool
  | .none => false
  | .int i => i != 0
  | _ => true

/-- The property of a field (capnpy/compiler/field.py:224-246, capnpy/annotate_extended.py:7-25). -/
def prop (E : Env) (rec : Nat → StructObj → Nat → Py (Obj × Nat)) (o : StructObj) (union : Option Nat) (f : RField) (k : Nat) :
    Py (Obj × Nat) :=
  match f.kind with
  | .group c true => do
    ensureMember o union f.disc
    let g ← StructObj.initFromBuffer o.seg o.dataOffset o.dataSize o.ptrsSize
    match (E.cls c).fields with
    | [isNull, value] => do
      let (x, k) ← prop0 E rec g (E.cls c).union isNull k
      if truthy x then pure (.none, k)
      else prop0 E rec g (E.cls c).union value k
    | _ => .error .valueError
  | _ => prop0 E rec o union f k

/-- The tuple of `_key()`, capnpy/compiler/struct_.py:296-301 -/
def keyValues (E : Env) (rec : Nat → StructObj → Nat → Py (Obj × Nat)) (o : StructObj) (union : Option Nat) :
    List RField → Nat → Py (List Obj × Nat)
  | [], k => pure ([], k)
  | f :: fs, k => do
    let (x, k) ← prop E rec o union f k
    let (xs, k) ← keyValues E rec o union fs k
    pure (x :: xs, k)

/-- An instance of the class `c`, with its key, and the next identity. -/
def objectOf (E : Env) (ks : Nat → Option (List RField)) : Nat → Nat → StructObj → Nat → Py (Obj × Nat)
  | 0, _, _, _ => .error .recursionError
  | n + 1, c, o, k =>
    match ks c with
    | none => .ok (.unkeyed, k)
    | some fs => do
      let (xs, k) ← keyValues E (objectOf E ks n) o (E.cls c).union fs k
      pure (.keyed xs, k)

/-- `o1 == o2` for instances of the classes `c1` and `c2`, when `k` objects have been created before. -/
def eqObjects (E : Env) (ks : Nat → Option (List RField)) (m n fuel : Nat) (c1 : Nat) (o1 : StructObj) (c2 : Nat) (o2 : StructObj)
    (k : Nat) : Py Bool := do
  let (a, k) ← objectOf E ks m c1 o1 k
  let (b, _) ← objectOf E ks m c2 o2 k
  pyEq n fuel a b

/-- `hash(o)` when `k` objects have been created before. -/
def hashObject (E : Env) (H : HashEnv) (ks : Nat → Option (List RField)) (m c : Nat) (o : StructObj) (k : Nat) : Py CLong := do
  let (a, _) ← objectOf E ks m c o k
  pyHash H a

end Capnpy.KeyMore
