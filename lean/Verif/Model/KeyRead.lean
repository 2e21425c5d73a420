import Verif.Model.Repr
import Verif.Model.Key
import Verif.Model.Group
import Verif.Model.CyReader
import Verif.Model.HashStr

/-!
# Model of `$Py.key`: the generated `_key()` and `__hash__` on messages

Model/Key.lean compares and hashes keys that are already there; here they are read from a buffer,
by the code which capnpy/compiler/struct_.py:274-354 emits.  The classes are those of
Model/Repr.lean.  `ks c` are the key fields of the class `c`, if it has a key (also a group gets one
by an annotation on its field, compiler/struct_.py:32-41).

Simplifications: a key is read completely before it is compared (Python reads the keys of nested
structs when it gets to them; there is no difference if no exception is raised).  Python 3.8 or
later.  Key fields that are floats, lists or `AnyPointer`s are not modelled (`notImplemented`).
-/

namespace Capnpy.KeyRead

open Key Hash Capnpy.Repr

/-- `f.name`, a bytes object -/
def nameBytes (f : RField) : Bytes := f.capname.flatMap String.utf8EncodeChar

/-- capnpy/compiler/struct_.py:279-292: the names in the annotation; `all` are those of all fields. -/
def keyNames (text : Bytes) (all : List Bytes) : Py (List Bytes) :=
  let txt := stripB text
  let names := if txt = [42] then all else (splitB txt).map stripB
  if names.all (fun x => all.contains x) then .ok names else .error .valueError

/-- `fieldmap[name]` (capnpy/compiler/struct_.py:279, 295): a dict, the last field with the name counts. -/
def fieldNamed (x : Bytes) : List RField → Option RField
  | [] => none
  | f :: fs =>
    match fieldNamed x fs with
    | some g => some g
    | none => if nameBytes f = x then some f else none

/-- capnpy/compiler/struct_.py:295 -/
def pick (all : List RField) : List Bytes → Py (List RField)
  | [] => pure []
  | x :: xs => do
    match fieldNamed x all with
    | none => .error .keyError
    | some f => do pure (f :: (← pick all xs))

/-- capnpy/compiler/struct_.py:274-301 `_emit_key_maybe`: the key fields.  `return (,)` is a syntax error. -/
def keyFields (text : Bytes) (all : List RField) : Py (List RField) := do
  let names ← keyNames text (all.map nameBytes)
  let fs ← pick all names
  if fs = [] then .error .syntaxError else pure fs

/-! ## The pure-Python version -/

/-- A text or data value -/
def optBytes : Option Bytes → PyObj
  | none => .none
  | some b => .bytes b

/-- A decoded text; the model keeps its UTF-8 encoding. -/
def optStr : Option Bytes → Py PyObj
  | none => .ok .none
  | some b =>
    match decodeUtf8 b with
    | some _ => .ok (.str b)
    | none => .error .unicodeError

/-- Truth value of the `isNull` field. -/
def truthy : PyObj → Bool
  | .none => false
  | .int i => i != 0
  | _ => true

/-- The property of a field which is not a nullable group (capnpy/compiler/field.py:13-210, 240-246); `rec` makes the
object for a struct of the given class. -/
def prop0 (rec : Nat → StructObj → Py PyObj) (o : StructObj) (union : Option Nat) (f : RField) : Py PyObj := do
  ensureMember o union f.disc
  match f.kind with
  | .void => pure .none
  | .prim fmt off d => do pure (.int (← o.primField ((off * fmt.size : Nat) : Int) fmt (d.getD 0)))
  | .bool off d => do pure (.int (if (← o.boolField off (d.getD 0 != 0)) then 1 else 0))
  | .enum _ off d => do pure (.int (← o.enumField ((off * 2 : Nat) : Int) (d.getD 0)))
  | .textBytes off => do pure (optBytes (← o.textField ((off * 8 : Nat) : Int)))
  | .textUnicode off => do optStr (← o.textField ((off * 8 : Nat) : Int))
  | .data off => do pure (optBytes (← o.dataField ((off * 8 : Nat) : Int)))
  | .struct c off => do
    match (← o.readStruct ((off * 8 : Nat) : Int)) with
    | none => pure .none
    | some o' => rec c o'
  | .group c false => do rec c (← StructObj.initFromBuffer o.seg o.dataOffset o.dataSize o.ptrsSize)
  | _ => .error .notImplemented

/-- The property of a field (capnpy/compiler/field.py:224-246).  A nullable group has exactly the two fields
`isNull` and `value` (capnpy/annotate_extended.py:7-25 `check`). -/
def prop (E : Env) (rec : Nat → StructObj → Py PyObj) (o : StructObj) (union : Option Nat) (f : RField) : Py PyObj :=
  match f.kind with
  | .group c true => do
    ensureMember o union f.disc
    let g ← StructObj.initFromBuffer o.seg o.dataOffset o.dataSize o.ptrsSize
    match (E.cls c).fields with
    | [isNull, value] => do
      if truthy (← prop0 rec g (E.cls c).union isNull) then pure .none
      else prop0 rec g (E.cls c).union value
    | _ => .error .valueError
  | _ => prop0 rec o union f

/-- The tuple of `_key()`, capnpy/compiler/struct_.py:296-301 -/
def keyValues (E : Env) (rec : Nat → StructObj → Py PyObj) (o : StructObj) (union : Option Nat) :
    List RField → Py (List PyObj)
  | [] => pure []
  | f :: fs => do
    let x ← prop E rec o union f
    let xs ← keyValues E rec o union fs
    pure (x :: xs)

/-- An instance of the class `c`, as far as comparisons and hashes are concerned.  `n` bounds the nesting. -/
def objectOf (E : Env) (ks : Nat → Option (List RField)) : Nat → Nat → StructObj → Py PyObj
  | 0, _, _ => .error .recursionError
  | n + 1, c, o =>
    match ks c with
    | none => .ok .unkeyed
    | some fs => do
      let xs ← keyValues E (objectOf E ks n) o (E.cls c).union fs
      pure (.keyed xs)

/-- `o1 == o2` for instances of the classes `c1` and `c2` -/
def eqObjects (E : Env) (ks : Nat → Option (List RField)) (n fuel : Nat) (c1 : Nat) (o1 : StructObj) (c2 : Nat) (o2 : StructObj) :
    Py Bool := do
  let a ← objectOf E ks n c1 o1
  let b ← objectOf E ks n c2 o2
  pyEq fuel a b

/-- `o1 != o2`, capnpy/blob.py:89-90 `_cmp_ne` -/
def neObjects (E : Env) (ks : Nat → Option (List RField)) (n fuel : Nat) (c1 : Nat) (o1 : StructObj) (c2 : Nat) (o2 : StructObj) :
    Py Bool := do
  let a ← objectOf E ks n c1 o1
  let b ← objectOf E ks n c2 o2
  let r ← structEquals fuel a b
  pure (!r)

/-- `hash(o)`, capnpy/struct_.py:317-318 -/
def hashObject (E : Env) (H : HashEnv) (ks : Nat → Option (List RField)) (n c : Nat) (o : StructObj) : Py CLong := do
  pyHash H (← objectOf E ks n c o)

/-! ## The compiled version -/

open Cy in
/-- A function that returns a hash as a `long` and has no `except` clause. -/
def noexceptHash : CRes CLong → CRes CLong
  | .ret (.ok v) w => .ret (.ok v) w
  | .ret (.error _) _ => .ret (.ok 0#64) true
  | .crash => .crash

open Cy in
/-- `{ensure_union}` -/
def ensureMemberC (o : StructObj) (union : Option Nat) : Option Nat → CRes Unit
  | none => pure ()
  | some tag => Cy.ensureUnion o (union.map fun off => ((off * 2 : Nat) : Int)) tag

open Cy in
/-- capnpy/struct_.py:247-248, 269-275 `_hash_text_bytes`, declared `cpdef long` in capnpy/struct_.pxd:47-48, 53-54;
`hash_str` is capnpy/segment/segment.pxd:15.  Undefined behaviour is `crash`. -/
def hashTextBytes (H : HashEnv) (o : StructObj) (offset : Int) : CRes CLong :=
  noexceptHash (do
    let (offset, p) ← Cy.resolve o offset
    match o.seg.hashStrPyx (fun b => (H.hashBytes b).toInt) p offset H.hashNone.toInt (-1) with
    | none => .crash
    | some r => do pure (BitVec.ofInt 64 (← CRes.lift r)))

open Cy in
/-- capnpy/struct_.py:255-259 `_hash_text_unicode`, declared `cpdef long` in capnpy/struct_.pxd:50-51: a null text is
hashed as the empty one. -/
def hashTextUnicode (H : HashEnv) (o : StructObj) (offset : Int) : CRes CLong :=
  noexceptHash (do
    let s ← Cy.readData o offset (some []) (-1)
    let u ← CRes.lift (optStr s)
    CRes.lift (pyHash H u))

open Cy in
/-- `hash(self.x)` for a field which is not a nullable group; `rec` is the hash of a struct of the given class. -/
def hashProp0 (H : HashEnv) (rec : Nat → StructObj → CRes CLong) (o : StructObj) (union : Option Nat) (f : RField) :
    CRes CLong := do
  ensureMemberC o union f.disc
  match f.kind with
  | .void => CRes.lift (pyHash H .none)
  | .prim fmt off d => do
    CRes.lift (pyHash H (.int (← CRes.lift (o.primField ((off * fmt.size : Nat) : Int) fmt (d.getD 0)))))
  | .bool off d => do
    CRes.lift (pyHash H (.int (if (← CRes.lift (o.boolField off (d.getD 0 != 0))) then 1 else 0)))
  | .enum _ off d => do CRes.lift (pyHash H (.int (← Cy.enumField o ((off * 2 : Nat) : Int) (d.getD 0))))
  | .textBytes off => do CRes.lift (pyHash H (optBytes (← Cy.readData o ((off * 8 : Nat) : Int) none (-1))))
  | .textUnicode off => do
    CRes.lift (pyHash H (← CRes.lift (optStr (← Cy.readData o ((off * 8 : Nat) : Int) none (-1)))))
  | .data off => do CRes.lift (pyHash H (optBytes (← Cy.readData o ((off * 8 : Nat) : Int) none 0)))
  | .struct c off => do
    match (← Cy.readStruct o ((off * 8 : Nat) : Int)) with
    | none => CRes.lift (pyHash H .none)
    | some o' => rec c o'
  | .group c false => do
    rec c (← CRes.lift (StructObj.initFromBuffer o.seg o.dataOffset o.dataSize o.ptrsSize))
  | _ => CRes.lift (.error .notImplemented)

open Cy in
/-- Truth value of `g.is_null` in the compiled version: a field of type int or bool. -/
def isNullC (g : StructObj) (union : Option Nat) (f : RField) : CRes Bool := do
  ensureMemberC g union f.disc
  match f.kind with
  | .void => pure false
  | .prim fmt off d => do pure ((← CRes.lift (g.primField ((off * fmt.size : Nat) : Int) fmt (d.getD 0))) != 0)
  | .bool off d => do CRes.lift (g.boolField off (d.getD 0 != 0))
  | .enum _ off d => do pure ((← Cy.enumField g ((off * 2 : Nat) : Int) (d.getD 0)) != 0)
  | _ => CRes.lift (.error .notImplemented)

open Cy in
/-- `hash(self.x)` -/
def hashProp (E : Env) (H : HashEnv) (rec : Nat → StructObj → CRes CLong) (o : StructObj) (union : Option Nat)
    (f : RField) : CRes CLong :=
  match f.kind with
  | .group c true => do
    ensureMemberC o union f.disc
    let g ← CRes.lift (StructObj.initFromBuffer o.seg o.dataOffset o.dataSize o.ptrsSize)
    match (E.cls c).fields with
    | [isNull, value] => do
      if (← isNullC g (E.cls c).union isNull) then CRes.lift (pyHash H .none)
      else hashProp0 H rec g (E.cls c).union value
    | _ => CRes.lift (.error .valueError)
  | _ => hashProp0 H rec o union f

open Cy in
/-- capnpy/compiler/struct_.py:313-325: what is computed for `h[i]`; 341-354 `_fasthash_for_field`.  For a Text
field with `text_type = bytes` two statements are emitted (the second `if` has an `else`). -/
def fastField (E : Env) (H : HashEnv) (rec : Nat → StructObj → CRes CLong) (o : StructObj) (union : Option Nat)
    (f : RField) : CRes CLong :=
  match f.kind with
  | .textBytes off => do
    let _ ← hashTextBytes H o ((off * 8 : Nat) : Int)
    hashProp E H rec o union f
  | .textUnicode off => hashTextUnicode H o ((off * 8 : Nat) : Int)
  | .prim fmt off d => do
    ensureMemberC o union f.disc
    let v ← CRes.lift (o.primField ((off * fmt.size : Nat) : Int) fmt (d.getD 0))
    if fmt = .Q then pure (longhash3 (BitVec.ofInt 64 v)) else pure (inthash3 (BitVec.ofInt 64 v))
  | _ => hashProp E H rec o union f

open Cy in
def fastHashesC (E : Env) (H : HashEnv) (rec : Nat → StructObj → CRes CLong) (o : StructObj) (union : Option Nat) :
    List RField → CRes (List CLong)
  | [] => pure []
  | f :: fs => do
    let x ← fastField E H rec o union f
    let xs ← fastHashesC E H rec o union fs
    pure (x :: xs)

open Cy in
/-- The `__hash__` generated in pyx mode, capnpy/compiler/struct_.py:306-328. -/
def hashObjectC (E : Env) (H : HashEnv) (ks : Nat → Option (List RField)) : Nat → Nat → StructObj → CRes CLong
  | 0, _, _ => .crash
  | n + 1, c, o =>
    match ks c with
    | none => CRes.lift (.error .typeError)
    | some fs => do
      let hs ← fastHashesC E H (hashObjectC E H ks n) o (E.cls c).union fs
      pure (tuplehash hs)

end Capnpy.KeyRead
