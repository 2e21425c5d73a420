import Verif.Model.Repr
import Verif.Spec.ListSpec
import Verif.Props.Fields

/-!
# Specification: the text format of `shortrepr()`

Two independent parts.

* The *grammar* of the text format (`parse`): structs `(a = v, b = v)`, lists
  `[v, v]`, string literals with C escapes, and atoms (numbers, names, `void`, `???`).
  A string literal stands for bytes: characters are encoded in UTF-8, `\xNN` is a
  byte.  A raw newline is not allowed in a literal (as in the `capnp` tool).
* The *tree* that a value of a given struct class should be printed as (`treeOf`).
-/

namespace Capnpy.Spec.Short

open Capnpy.Repr (Env RItem Kind RField Cls)
open Capnpy.Props (valueOf byteZ bytesZ child)

/-- A parsed text. -/
inductive Tree
  | atom (s : List Char)
  | str (b : Bytes)
  | struct (fields : List (List Char × Tree))
  | list (items : List Tree)

/-! ## The grammar -/

/-- Characters of field names. -/
def isIdent (c : Char) : Bool := c.isAlphanum

/-- Characters of atoms. -/
def isAtom (c : Char) : Bool := c.isAlphanum || "+-.?<>_".toList.contains c

/-- The value of a hexadecimal digit. -/
def hexVal (c : Char) : Option Nat :=
  if '0' ≤ c ∧ c ≤ '9' then some (c.toNat - 48)
  else if 'a' ≤ c ∧ c ≤ 'f' then some (c.toNat - 87)
  else none

/-- The byte for a one-letter escape. -/
def escapeVal (c : Char) : Option UInt8 :=
  match c with
  | 'n' => some 10
  | 't' => some 9
  | 'r' => some 13
  | '\\' => some 92
  | '\'' => some 39
  | '"' => some 34
  | _ => none

/-- The rest of a string literal, after the opening quote: its bytes and what
follows the closing quote. -/
def parseStr : List Char → Option (Bytes × List Char)
  | '"' :: r => some ([], r)
  | '\\' :: 'x' :: h :: l :: r =>
    match hexVal h, hexVal l, parseStr r with
    | some a, some b, some (bs, r') => some (UInt8.ofNat (16 * a + b) :: bs, r')
    | _, _, _ => none
  | '\\' :: c :: r =>
    match escapeVal c, parseStr r with
    | some a, some (bs, r') => some (a :: bs, r')
    | _, _ => none
  | '\n' :: _ => none
  | c :: r =>
    match parseStr r with
    | some (bs, r') => some (String.utf8EncodeChar c ++ bs, r')
    | none => none
  | [] => none

mutual

/-- One value and what follows it.  The first argument bounds the number of steps. -/
def parseVal : Nat → List Char → Option (Tree × List Char)
  | 0, _ => none
  | n + 1, s =>
    match s with
    | '(' :: ')' :: r => some (.struct [], r)
    | '(' :: r => (parseFields n r).map fun x => (.struct x.1, x.2)
    | '[' :: ']' :: r => some (.list [], r)
    | '[' :: r => (parseItems n r).map fun x => (.list x.1, x.2)
    | '"' :: r => (parseStr r).map fun x => (.str x.1, x.2)
    | s =>
      if s.takeWhile isAtom = [] then none
      else some (.atom (s.takeWhile isAtom), s.dropWhile isAtom)

/-- `name = value, name = value)` -/
def parseFields : Nat → List Char → Option (List (List Char × Tree) × List Char)
  | 0, _ => none
  | n + 1, s =>
    if s.takeWhile isIdent = [] then none
    else
      match s.dropWhile isIdent with
      | ' ' :: '=' :: ' ' :: r =>
        match parseVal n r with
        | some (v, ')' :: r') => some ([(s.takeWhile isIdent, v)], r')
        | some (v, ',' :: ' ' :: r') =>
          (parseFields n r').map fun x => ((s.takeWhile isIdent, v) :: x.1, x.2)
        | _ => none
      | _ => none

/-- `value, value]` -/
def parseItems : Nat → List Char → Option (List Tree × List Char)
  | 0, _ => none
  | n + 1, s =>
    match parseVal n s with
    | some (v, ']' :: r') => some ([v], r')
    | some (v, ',' :: ' ' :: r') => (parseItems n r').map fun x => (v :: x.1, x.2)
    | _ => none

end

/-- The tree of a whole text. -/
def parse (s : List Char) : Option Tree :=
  match parseVal (s.length + 1) s with
  | some (t, []) => some t
  | _ => none

/-- The value of a decimal number. -/
def readNat (s : List Char) : Nat := s.foldl (fun n c => 10 * n + (c.toNat - 48)) 0

/-- The value of a decimal number with an optional sign. -/
def readInt : List Char → Int
  | '-' :: s => -(readNat s : Int)
  | s => readNat s

/-! ## The tree of a value -/

/-- A number in decimal. -/
def decimal (i : Int) : List Char := (toString i).toList

/-- A text value is printable: it is valid UTF-8 and, with `faithful`, it contains
no backslash and no newline. -/
def textTree (faithful : Bool) (s : Bytes) : Option Tree :=
  if (s.toByteArray.utf8Decode?).isSome ∧ (faithful = true → 92 ∉ s ∧ 10 ∉ s) then some (.str s) else none

/-- The bytes of a text field; the default is empty. -/
def textOf : Val → Option Bytes
  | .null => some []
  | .listPrim 2 _ bs => if bs.getLast? = some 0 then some bs.dropLast else none
  | _ => none

/-- The bytes of a data field; the default is empty. -/
def dataOf : Val → Option Bytes
  | .null => some []
  | .listPrim 2 _ bs => some bs
  | _ => none

/-- The elements of a list value; the empty list can have any element size. -/
def itemsOf (it : ItemType) (v : Val) : Option (List Elem) :=
  match v with
  | .listPrim 0 0 _ => some []
  | v => elems it v

/-- The name of an enumerant. -/
def enumTree (members : List String) (i : Int) : Option Tree :=
  if 0 ≤ i ∧ "name" ∉ members then (members[i.toNat]?).map fun m => .atom m.toList else none

/-- `true` or `false` -/
def boolTree (b : Bool) : Tree := .atom (if b then "true".toList else "false".toList)

/-- The tree of an element of a list.  With `faithful`, lists of enums are excluded. -/
def itemTree (faithful : Bool) (E : Env) (rec : Nat → Val → Option Tree) : RItem → Elem → Option Tree
  | .void, .none => some (.atom "void".toList)
  | .bool, .bool b => some (boolTree b)
  | .prim _, .int i => some (.atom (decimal i))
  | .float fmt, .int bits => some (.atom (E.floatRepr fmt bits))
  | .enum _ members, .int i => if faithful then none else enumTree members i
  | .struct c, .val v => rec c v
  | .textBytes, .bytes b => textTree faithful b
  | .textUnicode, .bytes b => textTree faithful b
  | .data, .bytes b => textTree faithful b
  | .list inner, .val v =>
    match itemsOf (inner.toItemType E) v with
    | some es => (allSome (itemTree faithful E rec inner) es).map .list
    | none => none
  | _, _ => none

/-- The tree of a list. -/
def listTree (faithful : Bool) (E : Env) (rec : Nat → Val → Option Tree) (it : RItem) (v : Val) : Option Tree :=
  match itemsOf (it.toItemType E) v with
  | some es => (allSome (itemTree faithful E rec it) es).map .list
  | none => none

/-- The tag of the union at 16-bit offset `u`. -/
def tagOf (data : Bytes) (u : Nat) : Nat := leNat (bytesZ data (2 * u) 2)

/-- Is it the null pointer? -/
def isNull : Val → Bool
  | .null => true
  | _ => false

/-- Is the field shown?  A field outside the union is shown unless it is a null
pointer; a member of the union is shown iff it is the active one, except for a
null pointer member whose discriminant is 0, the state of an all-zero struct. -/
def shown (data : Bytes) (ptrs : List Val) (u : Option Nat) (f : RField) : Option Bool :=
  let null : Bool :=
    match f.kind.ptrOff with
    | some j => isNull (child ptrs j)
    | none => false
  match f.disc, u with
  | none, _ => some (!null)
  | some d, some u => some (decide (tagOf data u = d) && (!null || decide (d ≠ 0)))
  | some _, none => none

/-- The tree of a field. -/
def kindTree (faithful : Bool) (E : Env) (rec : Nat → Val → Option Tree) (data : Bytes) (ptrs : List Val) :
    Kind → Option Tree
  | .void => some (.atom "void".toList)
  | .prim fmt off d =>
    some (.atom (decimal (Int.xor (valueOf fmt (bytesZ data (off * fmt.size) fmt.size)) (d.getD 0))))
  | .float fmt off d =>
    if d.getD 0 = 0 then some (.atom (E.floatRepr fmt (valueOf fmt (bytesZ data (off * fmt.size) fmt.size))))
    else none
  | .bool off d => some (boolTree ((byteZ data (off / 8)).toNat.testBit (off % 8) ^^ (d.getD 0 != 0)))
  | .enum members off d =>
    enumTree members (Int.xor (valueOf .h (bytesZ data (off * 2) 2)) (d.getD 0))
  | .textBytes j | .textUnicode j => (textOf (child ptrs j)).bind (textTree faithful)
  | .data j => (dataOf (child ptrs j)).map .str
  | .struct c j =>
    match child ptrs j with
    | .null => rec c (.struct [] [])
    | .struct d p => rec c (.struct d p)
    | _ => none
  | .list it j =>
    match child ptrs j with
    | .null => some (.list [])
    | .struct _ _ => none
    | v => listTree faithful E rec it v
  | .anyPointer _ => some (.atom "???".toList)
  | .group c _ => rec c (.struct data ptrs)

/-- The fields that are shown, with their trees.  Members of unions must have a
discriminant below 2^15 and not be nullable groups. -/
def fieldTrees (faithful : Bool) (E : Env) (rec : Nat → Val → Option Tree) (data : Bytes) (ptrs : List Val)
    (u : Option Nat) : List RField → Option (List (List Char × Tree))
  | [] => some []
  | f :: fs =>
    match f.disc, f.kind with
    | some _, .group _ true => none
    | _, _ =>
      if (∃ d ∈ f.disc, 2 ^ 15 ≤ d) then none
      else
        match shown data ptrs u f, fieldTrees faithful E rec data ptrs u fs with
        | some true, some r => (kindTree faithful E rec data ptrs f.kind).map fun t => (f.capname, t) :: r
        | some false, some r => some r
        | _, _ => none

/-- The tree of a value of class `c`, nested at most `n` deep (structs and groups).
It is undefined if the value does not match the class. -/
def treeOf (faithful : Bool) (E : Env) : Nat → Nat → Val → Option Tree
  | 0, _, _ => none
  | n + 1, c, .struct data ptrs =>
    (fieldTrees faithful E (treeOf faithful E n) data ptrs (E.cls c).union (E.cls c).fields).map .struct
  | _ + 1, _, _ => none

/-- The names of the schema and the floats consist of the right characters. -/
def Named (E : Env) : Prop :=
  (∀ c, ∀ f ∈ (E.cls c).fields, f.capname ≠ [] ∧ (∀ x ∈ f.capname, isIdent x = true) ∧
    ∀ members off d, f.kind = .enum members off d → ∀ m ∈ members, m.toList ≠ [] ∧ ∀ x ∈ m.toList, isIdent x = true) ∧
  ∀ fmt i, E.floatRepr fmt i ≠ [] ∧ ∀ x ∈ E.floatRepr fmt i, isAtom x = true

end Capnpy.Spec.Short
