import Verif.Model.List
import Verif.Model.Ctor
import Verif.Model.Names

/-!
# Model of `shortrepr()`

capnpy/compiler/struct_.py:206-272 emits, for every struct and group, a method
`shortrepr` that prints the object in the text format of the `capnp` tool.  The
model is an interpreter of the emitted code.  A Python `str` is a list of
characters.  Python 3 is assumed (`repr` of a big Python 2 `long` has a trailing
`L`); the attributes the emitted code uses (`self.x`, `self.is_x`...) are assumed
to be those of the field, i.e. no other field overrides them.
-/

namespace Capnpy.Repr

/-- A Python `str`. -/
abbrev Str := List Char

/-- Python `s.decode('utf-8')` (strict); `none` is UnicodeDecodeError. -/
def decodeUtf8 (b : Bytes) : Option Str := b.toByteArray.utf8Decode?.map (·.toList)

/-- `s.replace(c, r'\c')` for a one-character string `c`. -/
def backslash (c : Char) (s : Str) : Str := s.flatMap fun x => if x = c then ['\\', c] else [x]

/-- capnpy/util.py:91-94 `text_unicode_repr`; `None` has no attribute `replace`. -/
def textUnicodeRepr : Option Str → Py Str
  | none => .error .attributeError
  | some s =>
    let s := backslash '"' s
    let s := backslash '\'' s
    .ok (['"'] ++ s ++ ['"'])

/-- capnpy/util.py:29-32 `decode_maybe` -/
def decodeMaybe : Option Bytes → Py (Option Str)
  | none => .ok none
  | some b =>
    match decodeUtf8 b with
    | some s => .ok (some s)
    | none => .error .unicodeError

/-- capnpy/util.py:88-89 `text_bytes_repr` -/
def textBytesRepr (s : Option Bytes) : Py Str := do textUnicodeRepr (← decodeMaybe s)

/-- The hexadecimal digit of CPython's `Py_hexdigits`. -/
def hexDigit (n : Nat) : Char := if n < 10 then Char.ofNat (48 + n) else Char.ofNat (87 + n)

/-- One byte of `repr(bytes)` in CPython (`PyBytes_Repr`). -/
def bytesReprByte (quote : UInt8) (c : UInt8) : Str :=
  if c = quote ∨ c = 92 then ['\\', Char.ofNat c.toNat]
  else if c = 9 then ['\\', 't']
  else if c = 10 then ['\\', 'n']
  else if c = 13 then ['\\', 'r']
  else if c.toNat < 32 ∨ 127 ≤ c.toNat then ['\\', 'x', hexDigit (c.toNat / 16), hexDigit (c.toNat % 16)]
  else [Char.ofNat c.toNat]

/-- `repr(b)` for bytes, Python 3: double quotes iff there is a single quote and no
double quote. -/
def bytesRepr (b : Bytes) : Str :=
  let quote : UInt8 := if 39 ∈ b ∧ 34 ∉ b then 34 else 39
  ['b', Char.ofNat quote.toNat] ++ b.flatMap (bytesReprByte quote) ++ [Char.ofNat quote.toNat]

/-- capnpy/util.py:96-106 `data_repr` (not called with `None`). -/
def dataRepr (b : Bytes) : Str :=
  let s := (bytesRepr b).dropWhile (· = 'b')
  if s.head? = some '"' then backslash '\'' s
  else
    let s := backslash '"' s
    ['"'] ++ pySlice s 1 (-1) ++ ['"']

/-- `str(i)` and `repr(i)` of a Python 3 int. -/
def intRepr (i : Int) : Str := (toString i).toList

/-- `", ".join(parts)` -/
def join : List Str → Str
  | [] => []
  | [x] => x
  | x :: y :: r => x ++ [',', ' '] ++ join (y :: r)

/-- What the `item_repr` of a list needs: the classes of capnpy/list.py:181-387.
`enum` has the class name and the members, `struct` the index of the class, `float`
the format of the bit pattern. -/
inductive RItem
  | void
  | bool
  | prim (fmt : Fmt)
  | float (fmt : Fmt)
  | enum (cls : Str) (members : List String)
  | struct (cls : Nat)
  | textBytes
  | textUnicode
  | data
  | list (inner : RItem)
  deriving DecidableEq

/-- The types of fields. -/
inductive Kind
  | void
  | prim (fmt : Fmt) (off : Nat) (dflt : Option Int)
  | float (fmt : Fmt) (off : Nat) (dflt : Option Int)
  | bool (off : Nat) (dflt : Option Int)
  | enum (members : List String) (off : Nat) (dflt : Option Int)
  | textBytes (off : Nat)
  | textUnicode (off : Nat)
  | data (off : Nat)
  | struct (cls : Nat) (off : Nat)
  | list (item : RItem) (off : Nat)
  | anyPointer (off : Nat)
  | group (cls : Nat) (nullable : Bool)

/-- A field: its Cap'n Proto name, its discriminant, its type. -/
structure RField where
  capname : Str
  disc : Option Nat
  kind : Kind

/-- A struct or group: section sizes, `discriminantOffset`, fields in code order. -/
structure Cls where
  dataWords : Nat
  ptrs : Nat
  union : Option Nat
  fields : List RField

/-- The generated module: its classes, and the `repr` of a float given by its bit
pattern (`float32_repr` and `float64_repr`, capnpy/util.py:109-112). -/
structure Env where
  cls : Nat → Cls
  floatRepr : Fmt → Int → Str

/-- The item type of Model/List.lean. -/
def RItem.toItemType (E : Env) : RItem → ItemType
  | .void => .void
  | .bool => .bool
  | .prim fmt => .prim fmt
  | .float fmt => .prim fmt
  | .enum _ _ => .enum
  | .struct c => .struct (E.cls c).dataWords (E.cls c).ptrs
  | .textBytes | .textUnicode => .text
  | .data => .data
  | .list i => .list (i.toItemType E)

/-- The offset of a pointer field in its section, in words. -/
def Kind.ptrOff : Kind → Option Nat
  | .textBytes off | .textUnicode off | .data off | .struct _ off | .list _ off | .anyPointer off => some off
  | _ => none

/-- capnpy/enum.py:14-15 `__repr__`: `'<%s.%s: %d>'` -/
def enumRepr (cls : Str) (members : List String) (i : Int) : Py Str :=
  match Names.enumName members i with
  | .str n => .ok (['<'] ++ cls ++ ['.'] ++ n.toList ++ [':', ' '] ++ intRepr i ++ ['>'])
  -- `%s` of a member calls its `__str__`, which raises
  | .member _ => .error .typeError

/-- `item_repr` (capnpy/list.py:196-197, 221-222, 249-255, 297-298, 331-332, 353-354,
383-384), `List.shortrepr` (98-100) for a list item; `rec` is `shortrepr` of the struct
classes.  `TextUnicodeItemType.read_item` (349-351) decodes the item.  An item of
another Python type than the one `read_item` returns is not possible. -/
def itemRepr (E : Env) (rec : Nat → StructObj → Py Str) : RItem → Item → Py Str
  | .void, _ => .ok ['v', 'o', 'i', 'd']
  | .bool, .bool b => .ok (if b then ['t', 'r', 'u', 'e'] else ['f', 'a', 'l', 's', 'e'])
  | .prim _, .int i => .ok (intRepr i)
  | .float fmt, .int bits => .ok (E.floatRepr fmt bits)
  | .enum cls members, .int i => enumRepr cls members i
  | .struct c, .struct o => rec c o
  | .textBytes, .bytes b => textBytesRepr (some b)
  | .textBytes, .none => textBytesRepr none
  | .textUnicode, .bytes b => do textUnicodeRepr (← decodeMaybe (some b))
  | .textUnicode, .none => do textUnicodeRepr (← decodeMaybe none)
  | .data, .bytes b => textBytesRepr (some b)
  | .data, .none => textBytesRepr none
  | .list inner, .list l => do
    let items ← l.toList
    let parts ← ListObj.mapPy (itemRepr E rec inner) items
    pure (['['] ++ join parts ++ [']'])
  | _, _ => .error .typeError

/-- capnpy/list.py:98-100 `List.shortrepr` -/
def listRepr (E : Env) (rec : Nat → StructObj → Py Str) (it : RItem) (l : ListObj) : Py Str := do
  let items ← l.toList
  let parts ← ListObj.mapPy (itemRepr E rec it) items
  pure (['['] ++ join parts ++ [']'])

/-- The condition under which a field is printed
(capnpy/compiler/struct_.py:216-247).  For a nullable group the name is prefixed
with an underscore, so that the method called is `is__x`, which does not exist. -/
def reprGuard (o : StructObj) (union : Option Nat) (f : RField) : Py Bool :=
  match f.disc, f.kind.ptrOff with
  | some d, some off =>
    match union with
    | none => .error .attributeError
    | some u => do
      if (← isMember o u d) then
        if (← o.hasField ((off * 8 : Nat) : Int)) then pure true
        else pure (d != 0)
      else pure false
  | some d, none =>
    match union, f.kind with
    | _, .group _ true => .error .attributeError
    | some u, _ => isMember o u d
    | none, _ => .error .attributeError
  | none, some off => o.hasField ((off * 8 : Nat) : Int)
  | none, none => pure true

/-- capnpy/compiler/struct_.py:250-272 `_shortrepr_for_field`; the properties of
capnpy/compiler/field.py check the union (`ensureMember`), `get_x` of text and data
does not. -/
def reprField (E : Env) (rec : Nat → StructObj → Py Str) (o : StructObj) (union : Option Nat)
    (f : RField) : Py Str :=
  match f.kind with
  | .float fmt off d => do
    ensureMember o union f.disc
    match (← getSlot o (.float fmt) off d) with
    | .float v => pure (E.floatRepr fmt v)
    | _ => .error .typeError
  | .prim fmt off d => do
    ensureMember o union f.disc
    match (← getSlot o (.prim fmt) off d) with
    | .int v => pure (intRepr v)
    | _ => .error .typeError
  | .enum members off d => do
    ensureMember o union f.disc
    match (← getSlot o .enum off d) with
    | .int v => do pure (← Names.enumStr members v).toList
    | _ => .error .typeError
  | .bool off d => do
    ensureMember o union f.disc
    match (← getSlot o .bool off d) with
    | .bool b => pure (if b then ['t', 'r', 'u', 'e'] else ['f', 'a', 'l', 's', 'e'])
    | _ => .error .typeError
  | .void => pure ['v', 'o', 'i', 'd']
  | .textBytes off => do textBytesRepr (← o.getText ((off * 8 : Nat) : Int))
  | .textUnicode off => do
    -- get_x() decodes: capnpy/struct_.py:250-253
    textUnicodeRepr (← decodeMaybe (← o.getText ((off * 8 : Nat) : Int)))
  | .data off => do
    match (← o.getData ((off * 8 : Nat) : Int)) with
    | some b => pure (dataRepr b)
    | none => .error .attributeError
  | .struct c off => do
    ensureMember o union f.disc
    rec c (← o.getStruct ((off * 8 : Nat) : Int))
  | .list it off => do
    ensureMember o union f.disc
    listRepr E rec it (← o.getList ((off * 8 : Nat) : Int) (it.toItemType E))
  | .group c _ => do
    ensureMember o union f.disc
    rec c (← StructObj.initFromBuffer o.seg o.dataOffset o.dataSize o.ptrsSize)
  | .anyPointer _ => pure ['?', '?', '?']

/-- The statements of capnpy/compiler/struct_.py:213-248, one field after the other:
`parts`. -/
def reprFields (E : Env) (rec : Nat → StructObj → Py Str) (o : StructObj) (union : Option Nat) :
    List RField → Py (List Str)
  | [] => pure []
  | f :: fs => do
    if (← reprGuard o union f) then
      let s ← reprField E rec o union f
      let rest ← reprFields E rec o union fs
      pure ((f.capname ++ [' ', '=', ' '] ++ s) :: rest)
    else reprFields E rec o union fs

/-- `self.shortrepr()` on an instance `o` of the class `c`
(capnpy/compiler/struct_.py:206-248).  `fuel` is the recursion limit, counted in nested
structs and groups. -/
def shortrepr (E : Env) : Nat → Nat → StructObj → Py Str
  | 0, _, _ => .error .recursionError
  | n + 1, c, o => do
    let parts ← reprFields E (shortrepr E n) o (E.cls c).union (E.cls c).fields
    pure (['('] ++ join parts ++ [')'])

end Capnpy.Repr
