import Verif.Model.FieldEmit
import Verif.Spec.Const
import Verif.Spec.Ctor

/-!
# Specification: where the Cap'n Proto encoding puts a field, and what its bits mean

The encoding document: a field of a number type of `w` bits with offset `k` in the schema is at the bits
`k w, …, k w + w - 1` of the data section, a bool at bit `k`, an enum is like a number of 16 bits; a pointer field
with offset `k` is the `k`-th word of the pointer section.  What is stored is the value XOR the default value of the
schema; integers are in two's complement.
-/

namespace Capnpy.Spec

open Const (STy TextType PyVal)
open FieldEmit (Slot)

/-- The types of fields which are in the data section: the width in bits; is it signed? -/
def numberType : STy → Option (Nat × Bool)
  | .prim .b => some (8, true)      -- Int8
  | .prim .B => some (8, false)     -- UInt8
  | .prim .h => some (16, true)     -- Int16
  | .prim .H => some (16, false)    -- UInt16
  | .prim .i => some (32, true)     -- Int32
  | .prim .I => some (32, false)    -- UInt32
  | .prim .q => some (64, true)     -- Int64
  | .prim .Q => some (64, false)    -- UInt64
  | .prim .f => some (32, false)    -- Float32, as bit pattern
  | .prim .d => some (64, false)    -- Float64, as bit pattern
  | .enum _ => some (16, true)      -- what capnpy takes the UInt16 of an enum for
  | _ => none

/-- The bits of the data section which belong to a field. -/
def dataBits (ty : STy) (k : Nat) (i : Nat) : Prop :=
  match numberType ty with
  | some (w, _) => w * k ≤ i ∧ i < w * k + w
  | none => ty = .bool ∧ i = k

/-- Bit `i` of a section of a message: bit 0 is the least significant one of the first byte; a section is
continued with zeros. -/
def sectionBit (data : Bytes) (i : Nat) : Bool := (data.getD (i / 8) 0).toNat.testBit (i % 8)

/-- `v` is the number of `w` bits with the bits `bit`. -/
def IsNumber (w : Nat) (signed : Bool) (bit : Nat → Bool) (v : Int) : Prop :=
  (if signed then -2 ^ (w - 1) ≤ v ∧ v < 2 ^ (w - 1) else 0 ≤ v ∧ v < 2 ^ w) ∧ ∀ i, i < w → Int.testBit v i = bit i

/-- The default value in the schema is one of the type of the field.  Floats: the default is zero, see
`C76_float_default`. -/
def DefaultOK (s : Slot) : Prop :=
  match s.ty with
  | .bool => ∃ d, s.dflt = .bool d
  | .prim .f => s.dflt = .float .f 0
  | .prim .d => s.dflt = .float .d 0
  | ty =>
    match numberType ty with
    | some (w, signed) => ∃ d, s.dflt = .int d ∧
        if signed then -2 ^ (w - 1) ≤ d ∧ d < 2 ^ (w - 1) else 0 ≤ d ∧ d < 2 ^ w
    | none => True

/-- Bit `i` of the default value. -/
def defaultBit (s : Slot) (i : Nat) : Bool :=
  match s.dflt with
  | .int d => Int.testBit d i
  | .bool d => d && decide (i = 0)
  | _ => false

/-- The value of a field of a struct whose data section is `data` and whose pointers are `ptrs`. -/
def ReadsSlot (cls : Nat → Option Const.Cls) (tt : TextType) (data : Bytes) (ptrs : List Val) (o : StructObj) (s : Slot)
    (r : Py RVal) : Prop :=
  match s.ty with
  | .void => r = .ok .none
  | .bool => r = .ok (.bool (sectionBit data s.off ^^ defaultBit s 0))
  | .prim .f => ∃ v, r = .ok (.float v) ∧ IsNumber 32 false (fun i => sectionBit data (32 * s.off + i)) v
  | .prim .d => ∃ v, r = .ok (.float v) ∧ IsNumber 64 false (fun i => sectionBit data (64 * s.off + i)) v
  | .text | .data =>
    match Props.child ptrs s.off with
    | .null => r = .ok .none
    | .listPrim 2 _ bs => (s.ty = .data → r = .ok (.bytes bs)) ∧ ∀ t, s.ty = .text → bs = t ++ [0] → r = .ok (.bytes t)
    | _ => True
  | .struct _ =>
    match Props.child ptrs s.off with
    | .null => r = .ok .none
    | .struct d p => ∃ o', r = .ok (.struct o') ∧ Denotes o' (.struct d p)
    | _ => r = .error .assertionError
  | .list e =>
    match Props.child ptrs s.off with
    | .null => r = .ok .none
    | .struct _ _ => r = .error .assertionError
    | v => ∃ l it, r = .ok (.list l) ∧ ListDenotes l v ∧ itemOf cls tt e = some it ∧ l.itemType = it.toItemType
  | .anyPointer =>
    (Props.child ptrs s.off = .null → r = .ok .none) ∧ (Props.child ptrs s.off ≠ .null → r = .ok (.any o (8 * s.off)))
  | .interface => False
  | ty =>
    match numberType ty with
    | some (w, signed) => ∃ v, r = .ok (.int v) ∧
        IsNumber w signed (fun i => sectionBit data (w * s.off + i) ^^ defaultBit s i) v
    | none => False

/-! ## The same slot in the terms of Spec/Ctor.lean -/

/-- The type of a slot of Model/Ctor.lean: floats are bit patterns of 32 and 64 bits. -/
def slotTypeOf (cls : Nat → Option Const.Cls) (tt : TextType) : STy → Option SlotType
  | .void => some .void
  | .bool => some .bool
  | .prim .f => some (.float .I)
  | .prim .d => some (.float .Q)
  | .prim fmt => some (.prim fmt)
  | .enum _ => some .enum
  | .text => some .text
  | .data => some .data
  | .struct _ => some .struct
  | .list e => (itemOf cls tt e).map fun it => .list it.toItemType
  | .anyPointer => some .anyPointer
  | .interface => none

/-- A default value as a number: bools as 0 and 1, floats as bit patterns. -/
def defaultNumber : PyVal → Option Int
  | .int d => some d
  | .bool d => some (if d then 1 else 0)
  | .float _ bits => some bits.toNat
  | _ => none

/-- The explicit default. -/
def explicitDefault (s : Slot) : Option Int := if s.explicit then defaultNumber s.dflt else none

/-- The default of a field which has no explicit default is zero: what `capnp` 0.5 and later say. -/
def ZeroDefault (s : Slot) : Prop :=
  s.explicit = false →
    match s.dflt with
    | .int d => d = 0
    | .bool d => d = false
    | _ => True

/-- The bits of a struct with `ds` words of data which belong to a field of type `ty` and offset `k`. -/
def placeBits (ds : Nat) (ty : STy) (k : Nat) (i : Nat) : Prop :=
  match ty with
  | .void | .interface => False
  | .text | .data | .struct _ | .list _ | .anyPointer => 64 * (ds + k) ≤ i ∧ i < 64 * (ds + k) + 64
  | ty => dataBits ty k i

/-- The place of the field is inside its section. -/
def PlaceOK (ds ps : Nat) (ty : STy) (k : Nat) : Prop :=
  match ty with
  | .void | .interface => True
  | .text | .data | .struct _ | .list _ | .anyPointer => k < ps
  | ty => ∀ i, dataBits ty k i → i < 64 * ds

end Capnpy.Spec
