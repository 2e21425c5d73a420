import Verif.Model.Py

/-!
# The Python expressions that the compiler writes

The part of Python's expression grammar which the generated modules use for constants and item
types: dotted names, decimal integers, bytes literals, calls with positional arguments, tuples.
Other texts (among them float literals) are not expressions of this grammar; a text of this grammar means
what it means in Python (https://docs.python.org/3/reference/expressions.html, lexical_analysis.html).
-/

namespace Capnpy.PyExpr

/-- The syntax trees. -/
inductive Expr
  | name (s : List Char)
  | int (i : Int)
  | bytes (b : Bytes)
  | call (f : List Char) (args : List Expr)
  | tuple (items : List Expr)

/-- The value of a hexadecimal digit. -/
def hexVal (c : Char) : Option Nat :=
  if '0' ≤ c ∧ c ≤ '9' then some (c.toNat - 48)
  else if 'a' ≤ c ∧ c ≤ 'f' then some (c.toNat - 87)
  else if 'A' ≤ c ∧ c ≤ 'F' then some (c.toNat - 55)
  else none

/-- The byte for a one-letter escape. -/
def escapeVal (c : Char) : Option UInt8 :=
  match c with
  | 'n' => some 10
  | 't' => some 9
  | 'r' => some 13
  | '\\' => some 92
  | '\'' => some 39
  | '"' => some 34
  | _ => none

/-- The rest of a bytes literal, after the opening quote `q`: its bytes, and what follows the closing
quote.  Only ASCII characters are allowed, and no line break. -/
def literal (q : Char) : List Char → Option (Bytes × List Char)
  | [] => none
  | '\\' :: 'x' :: h :: l :: r =>
    match hexVal h, hexVal l, literal q r with
    | some a, some b, some (bs, r') => some (UInt8.ofNat (16 * a + b) :: bs, r')
    | _, _, _ => none
  | '\\' :: c :: r =>
    match escapeVal c, literal q r with
    | some a, some (bs, r') => some (a :: bs, r')
    | _, _ => none
  | c :: r =>
    if c = q then some ([], r)
    else if c = '\n' ∨ c = '\r' ∨ c = '\\' ∨ 128 ≤ c.toNat then none
    else
      match literal q r with
      | some (bs, r') => some (UInt8.ofNat c.toNat :: bs, r')
      | none => none

/-- Characters of dotted names and of numbers. -/
def isWord (c : Char) : Bool := c.isAlphanum || c == '_' || c == '.'

/-- The value of decimal digits. -/
def decimal (s : List Char) : Nat := s.foldl (fun n c => 10 * n + (c.toNat - 48)) 0

mutual

/-- An expression, and what follows it.  The first argument bounds the number of steps. -/
def expr : Nat → List Char → Option (Expr × List Char)
  | 0, _ => none
  | n + 1, s =>
    match s with
    | 'b' :: '\'' :: r => (literal '\'' r).map fun x => (.bytes x.1, x.2)
    | 'b' :: '"' :: r => (literal '"' r).map fun x => (.bytes x.1, x.2)
    | '-' :: r =>
      let w := r.takeWhile isWord
      if w ≠ [] ∧ w.all Char.isDigit then some (.int (-(decimal w : Int)), r.dropWhile isWord) else none
    | '(' :: ')' :: r => some (.tuple [], r)
    | '(' :: r =>
      match args n r with
      | some ([e], false, r') => some (e, r')
      | some (es, _, r') => some (.tuple es, r')
      | none => none
    | s =>
      let w := s.takeWhile isWord
      match w with
      | [] => none
      | c :: _ =>
        if c.isDigit then if w.all Char.isDigit then some (.int (decimal w), s.dropWhile isWord) else none
        else
          match s.dropWhile isWord with
          | '(' :: ')' :: r => some (.call w [], r)
          | '(' :: r => (args n r).map fun x => (.call w x.1, x.2.2)
          | r => some (.name w, r)

/-- `a, b, c)` or `a, b, c,)`, and whether there is a comma at the end. -/
def args : Nat → List Char → Option (List Expr × Bool × List Char)
  | 0, _ => none
  | n + 1, s =>
    match expr n s with
    | some (e, ')' :: r) => some ([e], false, r)
    | some (e, ',' :: ')' :: r) => some ([e], true, r)
    | some (e, ',' :: ' ' :: r) => (args n r).map fun x => (e :: x.1, x.2)
    | _ => none

end

/-- The expression that a whole text is; `none` is a SyntaxError. -/
def parse (s : List Char) : Option Expr :=
  match expr (s.length + 1) s with
  | some (e, []) => some e
  | _ => none

end Capnpy.PyExpr
