import Verif.Model.KeyRead
import Verif.Spec.Key
import Verif.Spec.Repr
import Verif.Spec.VirtualGroup
import Verif.Props.Memory

/-!
# Specification: the key of a value

What the key of a struct with a given content is, without buffers: a tuple with one entry for each key
field.  It is undefined if a key field is a member of a union which is not the active one, if a
nested struct has no key, if a text is not valid (UTF-8, for unicode texts), and for floats, lists and
`AnyPointer`s.
-/

namespace Capnpy.Spec

open Capnpy.Repr (Env Kind RField)
open Capnpy.Props (valueOf byteZ bytesZ child InRange)
open Short (textOf dataOf tagOf)

/-- A text: null, or valid. -/
def textKey : Val → Option (Option Bytes)
  | .null => some none
  | v => (textOf v).map some

/-- Data: null, or bytes. -/
def dataKey : Val → Option (Option Bytes)
  | .null => some none
  | v => (dataOf v).map some

/-- An integer field. -/
def intKey (data : Bytes) : Kind → Option Int
  | .prim fmt off d => some (Int.xor (valueOf fmt (bytesZ data (off * fmt.size) fmt.size)) (d.getD 0))
  | .bool off d => some (if (byteZ data (off / 8)).toNat.testBit (off % 8) ^^ (d.getD 0 != 0) then 1 else 0)
  | .enum _ off d => some (Int.xor (valueOf .h (bytesZ data (off * 2) 2)) (d.getD 0))
  | _ => none

/-- The entry for a field which is not a nullable group.  With `strict`, it is undefined for a null unicode text. -/
def kindKey (strict : Bool) (rec : Nat → Val → Option KeyVal) (data : Bytes) (ptrs : List Val) (k : Kind) : Option KeyVal :=
  match k with
  | .void => some .none
  | .textBytes j =>
    match textKey (child ptrs j) with
    | some none => some .none
    | some (some b) => some (.bytes b)
    | none => none
  | .textUnicode j =>
    match textKey (child ptrs j) with
    | some none => if strict then none else some .none
    | some (some b) => if (b.toByteArray.utf8Decode?).isSome then some (.str b) else none
    | none => none
  | .data j =>
    match dataKey (child ptrs j) with
    | some none => some .none
    | some (some b) => some (.bytes b)
    | none => none
  | .struct c j =>
    match child ptrs j with
    | .null => some .none
    | .struct d p => rec c (.struct d p)
    | _ => none
  | .group c false => rec c (.struct data ptrs)
  | k => (intKey data k).map .int

/-- The field is not a member of a union, or the active one. -/
def Active (data : Bytes) (u disc : Option Nat) : Prop :=
  ∀ d ∈ disc, d < 2 ^ 15 ∧ ∃ u' ∈ u, tagOf data u' = d

open Classical in
/-- The entry for a field. -/
noncomputable def fieldKey (strict : Bool) (E : Env) (rec : Nat → Val → Option KeyVal) (data : Bytes) (ptrs : List Val)
    (u : Option Nat) (f : RField) : Option KeyVal :=
  if Active data u f.disc then
    match f.kind with
    | .group c true =>
      match (E.cls c).fields with
      | [isNull, value] =>
        if Active data (E.cls c).union isNull.disc ∧ Active data (E.cls c).union value.disc then
          match intKey data isNull.kind with
          | none => none
          | some 0 => kindKey strict rec data ptrs value.kind
          | some _ => some .none
        else none
      | _ => none
    | k => kindKey strict rec data ptrs k
  else none

/-- The key of a value of class `c` with the key fields `ks c`. -/
noncomputable def keyOf (strict : Bool) (E : Env) (ks : Nat → Option (List RField)) : Nat → Nat → Val → Option KeyVal
  | 0, _, _ => none
  | n + 1, c, .struct data ptrs =>
    match ks c with
    | none => none
    | some fs => (allSome (fieldKey strict E (keyOf strict E ks n) data ptrs (E.cls c).union) fs).map .tuple
  | _ + 1, _, _ => none

/-- Integer fields have one of the integer formats and their defaults are values of their type. -/
def IntegersFit (fs : List RField) : Prop :=
  ∀ f ∈ fs, ∀ fmt off d, f.kind = .prim fmt off d → fmt ≠ .f ∧ fmt ≠ .d ∧ ∀ x ∈ d, InRange fmt x

end Capnpy.Spec
