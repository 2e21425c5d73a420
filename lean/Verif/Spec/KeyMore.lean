import Mathlib.Algebra.Order.Field.Rat
import Mathlib.Data.ZMod.Basic
import Verif.Model.KeyMore
import Verif.Spec.KeyRead
import Verif.Spec.ListEq

/-!
# Specification: the key of a value, floats and lists included

A number is a rational number, whether it was an integer or a float in the message; there is no key
with a NaN.  A list is its item type and its content.
-/

namespace Capnpy.Spec

open Capnpy.Repr (Env Kind RField RItem)
open Capnpy.Props (child bytesZ)

inductive KVal
  | none
  | num (q : ℚ)
  | inf (neg : Bool)
  | bytes (b : Bytes)
  | str (utf8 : Bytes)
  | list (it : ItemType) (v : Val)
  | tuple (xs : List KVal)

/-- The number with the given bits in IEEE 754 interchange format; `none` for NaN. -/
def ieee (expBits fracBits bits : Nat) : Option KVal :=
  let f : ℚ := ((bits % 2 ^ fracBits : Nat) : ℚ) / 2 ^ fracBits
  let ex : Nat := bits / 2 ^ fracBits % 2 ^ expBits
  let s : Nat := bits / 2 ^ (fracBits + expBits) % 2
  let bias : Int := 2 ^ (expBits - 1) - 1
  if ex = 2 ^ expBits - 1 then (if f = 0 then some (.inf (decide (s = 1))) else Option.none)
  else if ex = 0 then some (.num ((-1) ^ s * f * 2 ^ (1 - bias)))
  else some (.num ((-1) ^ s * (1 + f) * 2 ^ ((ex : Int) - bias)))

/-- binary32 and binary64 -/
def floatKey : Fmt → Nat → Option KVal
  | .f, bits => ieee 8 23 bits
  | .d, bits => ieee 11 52 bits
  | _, _ => Option.none

/-- The bits are those of a NaN. -/
def IsNaN (fmt : Fmt) (bits : Nat) : Prop :=
  (fmt = .f ∧ bits / 2 ^ 23 % 2 ^ 8 = 255 ∧ bits % 2 ^ 23 ≠ 0) ∨ (fmt = .d ∧ bits / 2 ^ 52 % 2 ^ 11 = 2047 ∧ bits % 2 ^ 52 ≠ 0)

/-- A key without floats and lists. -/
def KVal.of : KeyVal → KVal
  | .none => .none
  | .int i => .num i
  | .bytes b => .bytes b
  | .str b => .str b
  | .tuple _ => .none

/-- Lists of numbers (not enums), texts and data. -/
def FlatItem : ItemType → Prop
  | .void | .bool | .prim _ | .text | .data => True
  | _ => False

open Classical in
/-- The list `v` as an entry of a key. -/
noncomputable def listKey (it : ItemType) : Val → Option KVal
  | .null => some .none
  | v => if FlatItem it ∧ (elems it v).isSome then some (.list it v) else Option.none

/-- The entry for a field which is not a nullable group.  Without `lists`, it is undefined for lists. -/
noncomputable def kindKeyM (lists : Bool) (E : Env) (rec : Nat → Val → Option KVal) (data : Bytes) (ptrs : List Val) (k : Kind) :
    Option KVal :=
  match k with
  | .float fmt off d =>
    if d.getD 0 = 0 then floatKey fmt (leNat (bytesZ data (off * fmt.size) fmt.size)) else Option.none
  | .list it j => if lists then listKey (it.toItemType E) (child ptrs j) else Option.none
  | .struct c j =>
    match child ptrs j with
    | .null => some .none
    | .struct d p => rec c (.struct d p)
    | _ => Option.none
  | .group c false => rec c (.struct data ptrs)
  | k => (kindKey false (fun _ _ => Option.none) data ptrs k).map .of

open Classical in
/-- The entry for a field. -/
noncomputable def fieldKeyM (lists : Bool) (E : Env) (rec : Nat → Val → Option KVal) (data : Bytes) (ptrs : List Val)
    (u : Option Nat) (f : RField) : Option KVal :=
  if Active data u f.disc then
    match f.kind with
    | .group c true =>
      match (E.cls c).fields with
      | [isNull, value] =>
        if Active data (E.cls c).union isNull.disc ∧ Active data (E.cls c).union value.disc then
          match intKey data isNull.kind with
          | Option.none => Option.none
          | some 0 => kindKeyM lists E rec data ptrs value.kind
          | some _ => some .none
        else Option.none
      | _ => Option.none
    | k => kindKeyM lists E rec data ptrs k
  else Option.none

/-- The key of a value of class `c` with the key fields `ks c`. -/
noncomputable def keyOfM (lists : Bool) (E : Env) (ks : Nat → Option (List RField)) : Nat → Nat → Val → Option KVal
  | 0, _, _ => Option.none
  | n + 1, c, .struct data ptrs =>
    match ks c with
    | Option.none => Option.none
    | some fs => (allSome (fieldKeyM lists E (keyOfM lists E ks n) data ptrs (E.cls c).union) fs).map .tuple
  | _ + 1, _, _ => Option.none

/-- A message without far pointers whose objects are laid out one after the other, in pre-order, with zeros as
padding: like the ones which `compact()` returns. -/
def Tidy (o : StructObj) (v : Val) : Prop :=
  ∃ (B : Bytes) (t ds ps : Nat) (data : Bytes) (ptrs : List Val),
    o = objAt B none t ds ps ∧ v = .struct data ptrs ∧ 8 ∣ t ∧ ds < 2 ^ 16 ∧ ps < 2 ^ 16 ∧ ObjDen B none t ds ps data ptrs ∧
    ∀ (j : Nat) u, ptrs[j]? = some u → ∃ s e, 8 ≤ s ∧ e ≤ B.length ∧
      Lay true B (t + 8 * ds + 8 * j) (wordAt B (t + 8 * ds + 8 * j)) u s e

/-- Python's hash of a rational number whose denominator is not a multiple of `P = 2^61 - 1` ("Hashing of numeric
types" in the documentation): `|m|` times the inverse of `n` modulo `P`, with the sign of `m`, and never -1. -/
noncomputable def pyRatHash (q : ℚ) : Int :=
  let r : Nat := ((q.num.natAbs : ZMod hashModulus) * (q.den : ZMod hashModulus)⁻¹).val
  let h : Int := if q < 0 then -(r : Int) else r
  if h = -1 then -2 else h

end Capnpy.Spec
