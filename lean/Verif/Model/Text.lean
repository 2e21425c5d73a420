import Verif.Model.Repr
import Verif.Model.AnyPointer

/-!
# Model of Text fields with `textType = unicode`

capnpy/struct_.py:250-260, capnpy/list.py:341-359, capnpy/util.py:24-32, capnpy/anypointer.py:35-36, and the code
emitted by capnpy/compiler/field.py:119-130 and capnpy/compiler/structor.py:155-159.

Python 3 is assumed: a `str` is a sequence of code points 0 … 0x10ffff, lone surrogates included; `bytes` has
no method `encode` (in Python 2 it has one, which decodes as ascii first).
-/

namespace Capnpy.Text

open Capnpy.Repr (decodeUtf8)

/-- A Python 3 `str`. -/
abbrev PyStr := List (Fin 0x110000)

/-- The surrogates, which are code points but not characters. -/
def isSurrogate (c : Fin 0x110000) : Bool := 0xd800 ≤ c.val && c.val ≤ 0xdfff

/-- CPython's strict utf-8 encoder on one code point; `none` is UnicodeEncodeError. -/
def encodePoint (c : Fin 0x110000) : Option Bytes :=
  let n := c.val
  if n < 0x80 then some [UInt8.ofNat n]
  else if n < 0x800 then some [UInt8.ofNat (0xc0 + n / 64), UInt8.ofNat (0x80 + n % 64)]
  else if isSurrogate c then none
  else if n < 0x10000 then
    some [UInt8.ofNat (0xe0 + n / 4096), UInt8.ofNat (0x80 + n / 64 % 64), UInt8.ofNat (0x80 + n % 64)]
  else
    some [UInt8.ofNat (0xf0 + n / 262144), UInt8.ofNat (0x80 + n / 4096 % 64), UInt8.ofNat (0x80 + n / 64 % 64),
      UInt8.ofNat (0x80 + n % 64)]

/-- `s.encode('utf-8')` -/
def encode : PyStr → Py Bytes
  | [] => .ok []
  | c :: s =>
    match encodePoint c with
    | none => .error .unicodeError
    | some b => do pure (b ++ (← encode s))

/-- The code point of a character. -/
def ofChar (c : Char) : Fin 0x110000 := ⟨c.toNat, by
  have := c.valid
  rcases this with h | h
  · exact Nat.lt_trans h (by decide)
  · exact h.2⟩

/-- `b.decode('utf-8')` -/
def decode (b : Bytes) : Py PyStr :=
  match decodeUtf8 b with
  | some cs => .ok (cs.map ofChar)
  | none => .error .unicodeError

/-- The Python objects that can be given for a unicode text: `None`, a `str`, `bytes`, a list of such objects, or
anything else without a method `encode`. -/
inductive UItem
  | none
  | str (s : PyStr)
  | bytes (b : Bytes)
  | list (l : List UItem)
  | other

/-- capnpy/util.py:24-27 `encode_maybe`; an object without `encode` raises AttributeError. -/
def encodeMaybe : UItem → Py (Option Bytes)
  | .none => .ok Option.none
  | .str s => do pure (some (← encode s))
  | _ => .error .attributeError

/-- capnpy/util.py:29-32 `decode_maybe` on `None` or bytes -/
def decodeMaybe : Option Bytes → Py (Option PyStr)
  | none => .ok none
  | some b => do pure (some (← decode b))

/-- capnpy/struct_.py:251-253 `_read_text_unicode` -/
def readTextUnicode (o : StructObj) (offset : Int) (default_ : Option Bytes := none) : Py (Option PyStr) := do
  decodeMaybe (← o.readData offset default_ (-1))

/-- capnpy/compiler/field.py:121-124: `self.x` (after the union check, which is `ensureMember`) -/
def unicodeField (o : StructObj) (offset : Int) : Py (Option PyStr) := readTextUnicode o offset

/-- capnpy/compiler/field.py:125-128: `self.get_x()` -/
def getUnicode (o : StructObj) (offset : Int) : Py (Option PyStr) := readTextUnicode o offset (some [])

/-- capnpy/anypointer.py:35-36 `as_text_unicode` -/
def asTextUnicode (p : AnyPtr) : Py (Option PyStr) := readTextUnicode p.struct_ p.offset

/-- capnpy/struct_.py:255-259 `_hash_text_unicode`, given `hash()` of a str -/
def hashTextUnicode {H : Type} (hash : Option PyStr → H) (o : StructObj) (offset : Int) : Py H := do
  pure (hash (← readTextUnicode o offset (some [])))

/-! ## Lists -/

/-- The item types `TextUnicodeItemType` (capnpy/list.py:341-359) and `ListItemType` around it. -/
inductive UType
  | text
  | list (inner : UType)
  deriving DecidableEq

/-- The class `TextUnicodeItemType` derives from `TextItemType`: what it inherits (capnpy/list.py:308-329) is that of
`ItemType.text`. -/
def UType.base : UType → ItemType
  | .text => .text
  | .list u => .list u.base

/-- What an item of such a list is. -/
inductive UObj
  | none
  | str (s : PyStr)
  | list (l : ListObj)

/-- capnpy/list.py:349-351 `read_item`: `decode_maybe` after the method of `TextItemType`; lists are not changed. -/
def decodeItem : UType → Item → Py UObj
  | .text, .none => .ok .none
  | .text, .bytes b => do pure (.str (← decode b))
  | .list _, .list l => .ok (.list l)
  | _, _ => .error .attributeError

/-- `lst[i]` for an int (capnpy/list.py:60-68) -/
def getItemU (u : UType) (l : ListObj) (i : Int) : Py UObj := do decodeItem u (← l.getItem i)

/-- Iteration, see `ListObj.iterFrom`: UnicodeDecodeError is not IndexError, so it propagates. -/
def iterU (u : UType) (l : ListObj) : Nat → Int → Py (List UObj)
  | 0, _ => .ok []
  | n + 1, i =>
    match getItemU u l i with
    | .error .indexError => .ok []
    | .error e => .error e
    | .ok x => do pure (x :: (← iterU u l n (i + 1)))

/-- `list(lst)` -/
def toListU (u : UType) (l : ListObj) : Py (List UObj) := iterU u l (l.itemCount.toNat + 1) 0

/-- `for item in lst: item_type.write_item(builder, pos, item); pos += item_length`
(capnpy/segment/_copy_list.py:46-48), see `writeItems`. -/
def writeItemsU (write : Int → UItem → BM Unit) : Int → List UItem → BM Unit
  | _, [] => pure ()
  | pos, x :: xs => do
    write pos x
    writeItemsU write (pos + 8) xs

/-- capnpy/segment/_copy_list.py:22-48 `copy_from_list` for the item types here, after the check for `None` -/
def copyListU (write : Int → UItem → BM Unit) (pos : Int) (lst : List UItem) : BM Unit := do
  let pos ← allocList pos Ptr.LIST_SIZE_PTR lst.length (8 * (lst.length : Int))
  writeItemsU write pos lst

/-- `write_item`: capnpy/list.py:356-358 and 386-387.  (`copy_from_list` calls `len()` on its argument, which
raises TypeError; that a `str` or `bytes` given for a list is iterated over is not modelled.) -/
def writeItemU : UType → Int → UItem → BM Unit
  | .text, pos, x => do
    let b ← BM.lift (encodeMaybe x)
    let _ ← allocText pos b
  | .list _, pos, .none => writeInt64 pos 0
  | .list inner, pos, .list l => copyListU (writeItemU inner) pos l
  | .list _, _, _ => BM.lift (.error .typeError)

/-- capnpy/segment/_copy_list.py:22-48 `copy_from_list` -/
def copyFromListU (u : UType) (pos : Int) : Option (List UItem) → BM Unit
  | none => writeInt64 pos 0
  | some l => copyListU (writeItemU u) pos l

/-! ## Constructors -/

/-- capnpy/compiler/structor.py:155-159: `builder.alloc_text(pos + {offset}, _encode_maybe({arg}))` -/
def handleTextUnicode (pos : Int) (arg : UItem) : BM Unit := do
  let b ← BM.lift (encodeMaybe arg)
  let _ ← allocText pos b

/-- An argument of a constructor: an object for a unicode field, or one for any other field. -/
inductive UArg
  | unicode (u : UItem)
  | plain (a : Arg)

/-- What the statements of Model/Ctor.lean are given for the argument.  Simplification: in the emitted code the
encoding is part of the statement of the field; here all arguments are encoded first, which makes no difference to the
result, only to which exception is raised when several are due. -/
def encodeArg : UArg → Py Arg
  | .unicode u => do
    match (← encodeMaybe u) with
    | some b => pure (.bytes b)
    | none => pure .none
  | .plain a => .ok a

/-- `Cls(*args)` for a struct with unicode fields: its constructor is that of `S` (where the unicode fields are
`SlotType.text`) on the encoded arguments. -/
def construct (fuel : Nat) (S : Schema) (args : List UArg) : Py StructObj := do
  S.construct fuel (← ListObj.mapPy encodeArg args)

/-- The property of a unicode text field (capnpy/compiler/field.py:119-124) -/
def getUnicodeField (o : StructObj) (union : Option Nat) (disc : Option Nat) (off : Nat) : Py (Option PyStr) := do
  ensureMember o union disc
  unicodeField o ((off * 8 : Nat) : Int)

end Capnpy.Text
