import Verif.Model.Ctor
import Verif.Spec.ListBuild

/-!
# Specification: constructing a struct and reading it back

* `fieldBits`: the bits of the struct that belong to a field;
* `Schema.WF`: the layouts produced by the capnp compiler (fields in bounds, no two
  fields share a bit unless they are members of the same union);
* `AccField f a n`: the Python object `a` is acceptable for the field `f`, and
  needs `n` bytes besides the struct itself;
* `ReadsVal r o f a`: the result `r` of reading the field `f` of `o` is the object
  `a` that was given to the constructor.
-/

namespace Capnpy.Spec

open Props (InRange)

/-! ## Layout -/

/-- The bits of the struct (data section, then pointer section) used by a slot. -/
def slotBits (ds : Nat) (ty : SlotType) (off : Nat) (i : Nat) : Prop :=
  match ty with
  | .void => False
  | .bool => i = off
  | .prim fmt => 8 * (off * fmt.size) ≤ i ∧ i < 8 * (off * fmt.size) + 8 * fmt.size
  | .float fmt => 8 * (off * fmt.size) ≤ i ∧ i < 8 * (off * fmt.size) + 8 * fmt.size
  | .enum => 16 * off ≤ i ∧ i < 16 * off + 16
  | _ => 64 * (ds + off) ≤ i ∧ i < 64 * (ds + off) + 64

/-- The bits of a discriminant. -/
def tagBits (union : Option Nat) (i : Nat) : Prop :=
  match union with
  | none => False
  | some u => 16 * u ≤ i ∧ i < 16 * u + 16

mutual

/-- The bits used by a field; a group uses those of its fields and its own
discriminant. -/
def fieldBits (ds : Nat) : Field → Nat → Prop
  | .slot _ _ _ ty off _, i => slotBits ds ty off i
  | .group _ _ _ _ union children, i => tagBits union i ∨ fieldsBits ds children i

def fieldsBits (ds : Nat) : List Field → Nat → Prop
  | [], _ => False
  | f :: fs, i => fieldBits ds f i ∨ fieldsBits ds fs i

end

/-- A slot is inside its section and its default is a value of its type; pointers
have no explicit default (the compiler rejects them), floats neither (see
`C30_float_default`). -/
def SlotWF (ds ps : Nat) (ty : SlotType) (off : Nat) (dflt : Option Int) : Prop :=
  match ty with
  | .void => True
  | .bool => off < 64 * ds
  | .prim fmt => off * fmt.size + fmt.size ≤ 8 * ds ∧ ∀ d, dflt = some d → InRange fmt d
  | .enum => off * 2 + 2 ≤ 8 * ds ∧ ∀ d, dflt = some d → InRange .h d
  | .float fmt => off * fmt.size + fmt.size ≤ 8 * ds ∧ dflt = none
  | _ => off < ps ∧ dflt = none

/-- A discriminant is inside the data section. -/
def TagWF (ds : Nat) (union : Option Nat) : Prop := ∀ u, union = some u → 2 * u + 2 ≤ 8 * ds

/-- The type of the `isNull` field of a nullable group. -/
def IsNullType : SlotType → Prop
  | .bool => True
  | .prim _ => True
  | _ => False

mutual

def FieldWF (ds ps : Nat) : Field → Prop
  | .slot _ _ _ ty off dflt => SlotWF ds ps ty off dflt
  | .group name _ _ nullable union children =>
    TagWF ds union ∧ FieldsWF ds ps union children ∧
    (nullable = true → union = none ∧ name ≠ "" ∧ ∃ c o ty d c2,
      children = [.slot "is_null" c none ty o d, c2] ∧ IsNullType ty ∧ c2.name = "value" ∧ c2.disc = none ∧
        c2.skipped = false)

/-- The fields of a struct or group: two fields share bits only if both are members
of the union; no field shares bits with the discriminant. -/
def FieldsWF (ds ps : Nat) (union : Option Nat) : List Field → Prop
  | [] => True
  | f :: fs =>
    FieldWF ds ps f ∧
    (∀ tag, f.disc = some tag → union.isSome ∧ tag < 2 ^ 15) ∧
    (∀ i, tagBits union i → ¬ fieldBits ds f i) ∧
    (∀ g ∈ fs, (f.disc.isSome ∧ g.disc.isSome) ∨ ∀ i, ¬ (fieldBits ds f i ∧ fieldBits ds g i)) ∧
    FieldsWF ds ps union fs

end

/-! ## Acceptable arguments -/

/-- What an argument for a pointer field stands for. -/
def PtrArg : SlotType → Arg → Val → Prop
  | .text, .none, v => v = .null
  | .text, .bytes s, v => v = .listPrim 2 (s.length + 1) (s ++ [0])
  | .data, .none, v => v = .null
  | .data, .bytes s, v => v = .listPrim 2 s.length s
  | .struct, .none, v => v = .null
  | .struct, .struct o, v => Denotes o v ∧ o.seg.buf.length ≤ 2 ^ 32
  | .list _, .none, v => v = .null
  | .list it, .list xs, v => ListVal it xs v
  | _, _, _ => False

/-- `a` is acceptable for a slot of type `ty` (with recursion limit `fuel`), and takes
`n` extra bytes.  A bool field also takes the ints 0 and 1, an integer or enum field
also takes a Python bool (`True` is 1). -/
def SlotArg (fuel : Nat) (ty : SlotType) (a : Arg) (n : Nat) : Prop :=
  match ty with
  | .void => n = 0
  | .prim fmt => ∃ i, a.toInt? = some i ∧ InRange fmt i ∧ n = 0
  | .enum => ∃ i, a.toInt? = some i ∧ InRange .h i ∧ n = 0
  | .float fmt => ∃ i, a = .float i ∧ InRange fmt i ∧ n = 0
  | .bool => ∃ b : Bool, (a = .bool b ∨ a = .int (if b then 1 else 0)) ∧ n = 0
  | .anyPointer => False
  | ty => ∃ v, PtrArg ty a v ∧ v.Fits ∧ 2 * v.depth ≤ fuel + 1 ∧ n = v.size

/-- A union member that is not given. -/
def absent (f : Field) (a : Arg) : Bool := f.disc.isSome && a.isUndefined

/-- The discriminants of the union members that are given. -/
def members : List Field → List Arg → List Nat
  | [], _ => []
  | f :: fs, as =>
    if f.skipped then members fs as
    else
      match as with
      | [] => []
      | a :: as =>
        (match f.disc with
          | some tag => if a.isUndefined then [] else [tag]
          | none => []) ++ members fs as

/-- The objects stored in the `isNull` and `value` fields of a nullable group: `None`
is stored as 1 and the default, anything else as 0 and itself. -/
def nullablePair (children : List Field) (a : Arg) : List Arg :=
  if a.isNone then
    [.int 1, match children with
      | [_, c] => defaultArg none c
      | _ => .none]
  else [.int 0, a]

mutual

def AccField (fuel : Nat) : Field → Arg → Nat → Prop
  | .slot _ _ _ ty _ _, a, n => SlotArg fuel ty a n
  | .group _ _ _ nullable _ children, a, n =>
    if nullable then AccFields fuel children (nullablePair children a) n
    else ∃ as, a = .tuple as ∧ AccFields fuel children as n ∧ (members children as).length ≤ 1

def AccFields (fuel : Nat) : List Field → List Arg → Nat → Prop
  | [], as, n => as = [] ∧ n = 0
  | f :: fs, as, n =>
    if f.skipped then AccFields fuel fs as n
    else
      match as with
      | [] => False
      | a :: as => ∃ n1 n2, n = n1 + n2 ∧
          (if absent f a then n1 = 0 else AccField fuel f a n1) ∧ AccFields fuel fs as n2

end

/-! ## Reading back -/

/-- The result of reading a slot is the argument that was stored. -/
def SlotReads (ty : SlotType) (a : Arg) (r : Py RVal) : Prop :=
  match ty with
  | .void => r = .ok .none
  | .prim _ => ∃ i, a.toInt? = some i ∧ r = .ok (.int i)
  | .enum => ∃ i, a.toInt? = some i ∧ r = .ok (.int i)
  | .float _ => ∃ i, a = .float i ∧ r = .ok (.float i)
  | .bool => ∃ b : Bool, (a = .bool b ∨ a = .int (if b then 1 else 0)) ∧ r = .ok (.bool b)
  | .text => (a = .none ∧ r = .ok .none) ∨ ∃ s, a = .bytes s ∧ r = .ok (.bytes s)
  | .data => (a = .none ∧ r = .ok .none) ∨ ∃ s, a = .bytes s ∧ r = .ok (.bytes s)
  | .struct => (a = .none ∧ r = .ok .none) ∨
      ∃ o o' v, a = .struct o ∧ r = .ok (.struct o') ∧ Denotes o v ∧ Denotes o' v
  | .list it => (a = .none ∧ r = .ok .none) ∨
      ∃ xs l ys, a = .list xs ∧ r = .ok (.list l) ∧ l.len = xs.length ∧ l.toList = .ok ys ∧
        List.Forall₂ (SameItem it) xs ys
  | .anyPointer => False

mutual

/-- The result `r` of reading a field of `o` is the object `a`: for a group, the fields
of the group read as the elements of the tuple; for a nullable group, `None` or the
value. -/
def ReadsVal (o : StructObj) : Field → Arg → Py RVal → Prop
  | .slot _ _ _ ty _ _, a, r => SlotReads ty a r
  | .group _ _ _ nullable gunion children, a, r =>
    if nullable then
      if a.isNone then r = .ok .none else ReadsLast o children a r
    else r = .ok (.group o) ∧ ∃ as, a = .tuple as ∧ ReadsFields o gunion children as

/-- The last of the fields, the `value` of a nullable group, reads as `a`. -/
def ReadsLast (o : StructObj) : List Field → Arg → Py RVal → Prop
  | [], _, _ => False
  | f :: fs, a, r =>
    match fs with
    | [] => ReadsVal o f a r
    | _ :: _ => ReadsLast o fs a r

/-- Every field that was given reads as its argument; void fields outside the union
read as `None`. -/
def ReadsFields (o : StructObj) (union : Option Nat) : List Field → List Arg → Prop
  | [], _ => True
  | f :: fs, as =>
    if f.skipped then getField o union f = .ok .none ∧ ReadsFields o union fs as
    else
      match as with
      | [] => False
      | a :: as => (absent f a = false → ReadsVal o f a (getField o union f)) ∧ ReadsFields o union fs as

end

/-! ## Defaults -/

/-- What a slot reads as when nothing was stored: the default declared in the
schema, or zero, or `None`. -/
def declaredDefault (ty : SlotType) (dflt : Option Int) : RVal :=
  match ty with
  | .prim _ => .int (dflt.getD 0)
  | .enum => .int (dflt.getD 0)
  | .float _ => .float (dflt.getD 0)
  | .bool => .bool (dflt.getD 0 != 0)
  | _ => .none

mutual

/-- A field outside unions reads as its declared default; a group, as an object whose
fields outside unions do; a nullable group, as `None` if `isNull` defaults to true
and as the default of its value otherwise. -/
def ReadsDefault (o : StructObj) (union : Option Nat) : Field → Prop
  | .slot name code disc ty off dflt =>
    disc = none → getField o union (.slot name code disc ty off dflt) = .ok (declaredDefault ty dflt)
  | .group name code disc nullable gunion children =>
    disc = none →
      if nullable then
        ∀ n1 c1 t1 o1 d1 n2 c2 t2 o2 d2, children = [.slot n1 c1 none t1 o1 d1, .slot n2 c2 none t2 o2 d2] →
          getField o union (.group name code disc nullable gunion children) =
            .ok (if d1.getD 0 ≠ 0 then .none else declaredDefault t2 d2)
      else getField o union (.group name code disc nullable gunion children) = .ok (.group o) ∧
        ReadsDefaults o gunion children

def ReadsDefaults (o : StructObj) (union : Option Nat) : List Field → Prop
  | [] => True
  | f :: fs => ReadsDefault o union f ∧ ReadsDefaults o union fs

end

mutual

/-- There is no AnyPointer among the fields outside unions (the constructor does not
support them). -/
def NoAny : Field → Prop
  | .slot _ _ disc ty _ _ => disc = none → ty ≠ .anyPointer
  | .group _ _ disc _ _ children => disc = none → NoAnys children

def NoAnys : List Field → Prop
  | [] => True
  | f :: fs => NoAny f ∧ NoAnys fs

end

end Capnpy.Spec

namespace Capnpy

open Spec

/-- The layout of a struct: the sections fit a struct pointer, the fields are laid out
as the capnp compiler does, and the local variables of the generated constructor
are distinct. -/
structure Schema.WF (S : Schema) : Prop where
  data : S.dataWords < 2 ^ 16
  ptrs : S.ptrs < 2 ^ 16
  tag : TagWF S.dataWords S.union
  fields : FieldsWF S.dataWords S.ptrs S.union S.fields

end Capnpy
