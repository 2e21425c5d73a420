import Verif.Spec.Ctor
import Verif.Props.Fields

/-!
# Specification: changing a schema

* `Cell`: a bit of the data section or a pointer of the pointer section; the cells a
  field occupies do not depend on the sizes of the sections;
* `Leads S path G s`: the attribute path `path` (`x.group.y`) leads, through groups, to
  the slot `s`, and is readable when the unions passed on the way have the tags `G`;
* `Evolves S S'`: every slot of `S'` is a slot of `S` (maybe with another name, moved
  in or out of groups, or now the first member of a new union), or it is in cells
  `S` does not use, or it belongs to a new member of a union.  These are the changes of
  https://capnproto.org/language.html#evolving-your-protocol.
-/

namespace Capnpy.Spec

open Props (byteZ child)

inductive Cell
  | bit (i : Nat)
  | ptr (k : Nat)

/-- The cells of a slot. -/
def slotCells (ty : SlotType) (off : Nat) (c : Cell) : Prop :=
  match ty with
  | .void => False
  | .bool => c = .bit off
  | .prim fmt => ∃ i, c = .bit i ∧ 8 * (off * fmt.size) ≤ i ∧ i < 8 * (off * fmt.size) + 8 * fmt.size
  | .float fmt => ∃ i, c = .bit i ∧ 8 * (off * fmt.size) ≤ i ∧ i < 8 * (off * fmt.size) + 8 * fmt.size
  | .enum => ∃ i, c = .bit i ∧ 16 * off ≤ i ∧ i < 16 * off + 16
  | _ => c = .ptr off

/-- The cells of the tag of a union. -/
def tagCells (u : Nat) (c : Cell) : Prop := ∃ i, c = .bit i ∧ 16 * u ≤ i ∧ i < 16 * u + 16

mutual

/-- The cells of a field; those of a group are the cells of its fields and of its
tag. -/
def fieldCells : Field → Cell → Prop
  | .slot _ _ _ ty off _, c => slotCells ty off c
  | .group _ _ _ _ union children, c => (∃ u, union = some u ∧ tagCells u c) ∨ fieldsCells children c

def fieldsCells : List Field → Cell → Prop
  | [], _ => False
  | f :: fs, c => fieldCells f c ∨ fieldsCells fs c

end

/-- The cells a struct uses. -/
def schemaCells (S : Schema) (c : Cell) : Prop :=
  (∃ u, S.union = some u ∧ tagCells u c) ∨ fieldsCells S.fields c

/-- The struct value has nothing in the cell: the bit is zero, the pointer is null
(sections are extended with zeros). -/
def Unset (data : Bytes) (ptrs : List Val) : Cell → Prop
  | .bit i => (byteZ data (i / 8)).toNat.testBit (i % 8) = false
  | .ptr k => child ptrs k = .null

/-! ## Attribute paths -/

/-- A slot, without its name. -/
structure SlotOf where
  ty : SlotType
  off : Nat
  dflt : Option Int

/-- The property `x` of the class with these fields; a later one overrides an earlier
one. -/
def findField (x : String) : List Field → Option Field
  | [] => none
  | f :: fs =>
    match findField x fs with
    | some g => some g
    | none => if f.name = x then some f else none

/-- `o.x.y.z`: the properties are read one after the other; all but the last are
(plain) groups. -/
def getPath (o : StructObj) (union : Option Nat) (fields : List Field) : List String → Py RVal
  | [] => .ok (.group o)
  | x :: xs =>
    match findField x fields with
    | none => .error .attributeError
    | some f => do
      let r ← getField o union f
      match xs, f, r with
      | [], _, r => pure r
      | _ :: _, .group _ _ _ _ gunion children, .group g => getPath g gunion children xs
      | _, _, _ => .error .attributeError

/-- A tag that must be set: the position of the union and the number of the member. -/
abbrev Guard := Nat × Nat

/-- The guard of a member. -/
def guardOf : Option Nat → Option Nat → List Guard
  | some u, some tag => [(u, tag)]
  | _, _ => []

/-- `path` leads to the slot `s` under the guards `G`. -/
inductive Leads : Option Nat → List Field → List String → List Guard → SlotOf → Prop
  | slot {union : Option Nat} {fields : List Field} {x : String} {code : Nat} {disc : Option Nat} {ty : SlotType}
      {off : Nat} {dflt : Option Int} :
      findField x fields = some (.slot x code disc ty off dflt) →
      (disc.isSome → union.isSome) →
      Leads union fields [x] (guardOf union disc) ⟨ty, off, dflt⟩
  | group {union : Option Nat} {fields : List Field} {x y : String} {xs : List String} {code : Nat} {disc : Option Nat}
      {gunion : Option Nat} {children : List Field} {G : List Guard} {s : SlotOf} :
      findField x fields = some (.group x code disc false gunion children) →
      (disc.isSome → union.isSome) →
      Leads gunion children (y :: xs) G s →
      Leads union fields (x :: y :: xs) (guardOf union disc ++ G) s

/-- The slot `s'` of the new schema, reached under the guards `G'`, is the slot `s` of the
old one, reached under `G`: same type, position and default; and the unions
around it are the same, except that it may have become the first member of a union
that the old schema did not have. -/
def Moved (S : Schema) (G G' : List Guard) (s s' : SlotOf) : Prop :=
  s' = s ∧ (∀ g ∈ G, g ∈ G') ∧
    ∀ g ∈ G', g ∈ G ∨ (g.2 = 0 ∧ ∀ c, tagCells g.1 c → ¬ schemaCells S c)

/-- Cells that the old schema does not use. -/
def Fresh (S : Schema) (s : SlotOf) : Prop := ∀ c, slotCells s.ty s.off c → ¬ schemaCells S c

/-- The groups of a schema (and the struct itself), with the guards of the group, its
union and its fields. -/
inductive HasGroup : Option Nat → List Field → List Guard → Option Nat → List Field → Prop
  | self {union : Option Nat} {fields : List Field} : HasGroup union fields [] union fields
  | group {union : Option Nat} {fields : List Field} {x : String} {code : Nat} {disc : Option Nat}
      {gunion gunion' : Option Nat} {children children' : List Field} {G : List Guard} :
      Field.group x code disc false gunion children ∈ fields →
      HasGroup gunion children G gunion' children' →
      HasGroup union fields (guardOf union disc ++ G) gunion' children'

/-- A member, not the first one, of a union that the old schema does not have. -/
def InNewUnion (S : Schema) (G' : List Guard) : Prop :=
  ∃ g ∈ G', g.2 ≠ 0 ∧ ∀ c, tagCells g.1 c → ¬ schemaCells S c

/-- A new member of a union of the old schema. -/
def NewMember (S : Schema) (G' : List Guard) : Prop :=
  ∃ G u fields tag, HasGroup S.union S.fields G (some u) fields ∧ (∀ g ∈ G, g ∈ G') ∧ (u, tag) ∈ G' ∧ tag ≠ 0 ∧
    ∀ f ∈ fields, f.disc ≠ some tag

/-- `S'` is a newer version of `S`: every slot is an old one, or is in unused cells, or
belongs to a new member of a union. -/
def Evolves (S S' : Schema) : Prop :=
  ∀ path' G' s', Leads S'.union S'.fields path' G' s' →
    (∃ path G s, Leads S.union S.fields path G s ∧ Moved S G G' s s') ∨ Fresh S s' ∨ InNewUnion S G' ∨ NewMember S G'

mutual

/-- The members of each union have different numbers. -/
def fieldTags : Field → Prop
  | .slot .. => True
  | .group _ _ _ _ _ children => DistinctTags children

def DistinctTags (fs : List Field) : Prop := (fs.filterMap Field.disc).Nodup ∧ fieldsTags fs

def fieldsTags : List Field → Prop
  | [] => True
  | f :: fs => fieldTags f ∧ fieldsTags fs

end

/-- A guard holds: the tag of the union at `u` is the number of the member. -/
def Holds (o : StructObj) (g : Guard) : Prop := o.whichRaw (some ((g.1 * 2 : Nat) : Int)) = .ok (g.2 : Int)

end Capnpy.Spec
