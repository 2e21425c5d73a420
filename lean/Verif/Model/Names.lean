import Verif.Model.Py
import Mathlib.Data.List.Nodup

/-!
# Model of capnpy/convert_case.py, capnpy/enum.py and the name mangling of
capnpy/compiler/module.py

A Python `str` is a list of characters; only ASCII names are considered (Cap'n
Proto identifiers are ASCII), for which `str.lower` is `Names.lower`.
-/

namespace Capnpy.Names

def isUpper (c : Char) : Bool := 'A'.toNat ≤ c.toNat && c.toNat ≤ 'Z'.toNat
def isLower (c : Char) : Bool := 'a'.toNat ≤ c.toNat && c.toNat ≤ 'z'.toNat
def isDigit (c : Char) : Bool := '0'.toNat ≤ c.toNat && c.toNat ≤ '9'.toNat

/-- `c.lower()` for ASCII -/
def lowerChar (c : Char) : Char := if isUpper c then Char.ofNat (c.toNat + 32) else c

/-- `s.lower()` for ASCII -/
def lower (s : List Char) : List Char := s.map lowerChar

/-- capnpy/convert_case.py:4,7: `A.sub(r'\1_\2', name)` with the pattern
`(.)([A-Z][a-z]+)`.  `re.sub` replaces leftmost non-overlapping matches; a match
at the current position is any character but a newline, an uppercase letter and a
maximal non-empty run of lowercase letters. -/
def subA : List Char → List Char
  | c :: u :: l :: rest =>
    if c ≠ '\n' ∧ isUpper u ∧ isLower l then
      c :: '_' :: u :: l :: (rest.takeWhile isLower ++ subA (rest.dropWhile isLower))
    else c :: subA (u :: l :: rest)
  | [c, d] => [c, d]
  | [c] => [c]
  | [] => []
termination_by s => s.length
decreasing_by
  all_goals
    have h := (List.dropWhile_sublist isLower (l := rest)).length_le
    simp only [List.length_cons]
    omega

/-- capnpy/convert_case.py:5,8: `B.sub(r'\1_\2', s1)` with the pattern
`([a-z0-9])([A-Z])`. -/
def subB : List Char → List Char
  | c :: u :: rest =>
    if (isLower c || isDigit c) && isUpper u then c :: '_' :: u :: subB rest
    else c :: subB (u :: rest)
  | [c] => [c]
  | [] => []

/-- capnpy/convert_case.py:6-8 `from_camel_case` -/
def fromCamelCase (name : List Char) : List Char := lower (subB (subA name))

/-- capnpy/compiler/module.py:167-170 `_mangle_name`; `kwlist` is
`keyword.kwlist` of the running Python. -/
def mangleName (kwlist : List (List Char)) (name : List Char) : List Char :=
  if name ∈ kwlist then name ++ ['_'] else name

/-- capnpy/compiler/module.py:148-158 `py_field_name`.  `convertCase` is the
truth value of the option. -/
def pyFieldName (kwlist : List (List Char)) (convertCase : Bool) (name : List Char) : List Char :=
  mangleName kwlist (if convertCase then fromCamelCase name else name)

/-! ## Enums -/

/-- Python's `t[i]` on a tuple. -/
def tupleGet {α} (t : List α) (i : Int) : Option α :=
  let j := if i < 0 then i + t.length else i
  if j < 0 then none else t[j.toNat]?

/-- What an attribute of an enum class holds: the `name` property of `BaseEnum`
or a member. -/
inductive Attr
  | nameProperty
  | member (value : Int)
  deriving DecidableEq, Repr

/-- capnpy/enum.py:20-23 `fill_enum`: the assignments, in order. -/
def fillEnum (members : List String) : List (String × Attr) :=
  members.zipIdx.map fun (m, i) => (m, Attr.member (i : Nat))

/-- The class attributes: `BaseEnum.name` (capnpy/enum.py:7-12), overridden by what
`fill_enum` sets on the subclass; a later assignment replaces an earlier one.
Other inherited attributes (those of `int`) are not modelled. -/
def classAttr (members : List String) (k : String) : Option Attr :=
  match (fillEnum members).reverse.lookup k with
  | some a => some a
  | none => if k = "name" then some .nameProperty else none

/-- capnpy/enum.py:7-12 the body of the `name` property. -/
def nameOf (members : List String) (value : Int) : String :=
  match tupleGet members value with
  | some m => m
  | none => "unknown<" ++ toString value ++ ">"

/-- The result of `e.name`: a str, or (if the class has a member called "name") the
member. -/
inductive NameResult
  | str (s : String)
  | member (value : Int)
  deriving DecidableEq, Repr

/-- `e.name` -/
def enumName (members : List String) (value : Int) : NameResult :=
  match classAttr members "name" with
  | some (.member v) => .member v
  | _ => .str (nameOf members value)

/-- capnpy/enum.py:17-18 `__str__`: Python raises TypeError if the result is not
a str. -/
def enumStr (members : List String) (value : Int) : Py String :=
  match enumName members value with
  | .str s => .ok s
  | .member _ => .error .typeError

end Capnpy.Names
