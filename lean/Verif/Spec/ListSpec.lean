import Verif.Model.List
import Verif.Spec.Object
import Verif.Props.Memory

/-!
# Specification: the elements of a list

`ListDenotes l v`: the Python object `l` stands for the list value `v`.
`elems it v`: the sequence of elements that the value `v` has when it is read as
a list of `it`.
-/

namespace Capnpy.Spec

/-- Bytes per element for each element-size tag (-1 for bits). -/
def elemLen (tag : Nat) : Int :=
  match tag with
  | 0 => 0
  | 1 => -1
  | 2 => 1
  | 3 => 2
  | 4 => 4
  | 5 => 8
  | 6 => 8
  | _ => -1

/-- The list object over the buffer `B` with segment table `offs`, for the list
pointer `w` whose target is the byte `t`.  For inline-composite lists the number
and the size of the elements are in the tag word at `t`. -/
def listAt (B : Bytes) (offs : Option (List Nat)) (t w : Nat) (it : ItemType) : ListObj :=
  if listTag w = 7 then
    ⟨Seg.of B offs, t, it, 7, signed64 (wordAt B t), offset (wordAt B t),
      ((8 * (dataSize (wordAt B t) + ptrsSize (wordAt B t)) : Nat) : Int), 8⟩
  else ⟨Seg.of B offs, t, it, listTag w, -1, listCount w, elemLen (listTag w), 0⟩

/-- `l` is a list of the buffer which holds `v`. -/
def ListDenotes (l : ListObj) (v : Val) : Prop :=
  ∃ (B : Bytes) (offs : Option (List Nat)) (q : Int) (w t : Nat) (it : ItemType),
    l = listAt B offs t w it ∧ TableAligned offs ∧ w < 2 ^ 64 ∧ (8 : Int) ∣ q ∧ kind w = 1 ∧
    target q w = t ∧ Den B offs q w v

/-- What an element is, as a value. -/
inductive Elem
  | none
  | bool (b : Bool)
  | int (i : Int)
  | bytes (b : Bytes)
  /-- a struct or a list -/
  | val (v : Val)

/-- Element-size tag for a numeric format. -/
def fmtTag (fmt : Fmt) : Nat :=
  match fmt.size with
  | 1 => 2
  | 2 => 3
  | 4 => 4
  | _ => 5

/-- A text is stored as a list of bytes with a trailing zero. -/
def textElem : Val → Option Elem
  | .null => some .none
  | .listPrim 2 n bs => if 0 < n then some (.bytes bs.dropLast) else Option.none
  | _ => Option.none

/-- Data is stored as a list of bytes. -/
def dataElem : Val → Option Elem
  | .null => some .none
  | .listPrim 2 _ bs => some (.bytes bs)
  | _ => Option.none

/-- A nested list; a null one reads as an empty list. -/
def listElem : Val → Option Elem
  | .null => some (.val (.listPrim 0 0 []))
  | .struct _ _ => Option.none
  | v => some (.val v)

/-- Element `i` of a list of bits. -/
def bitElem (bs : Bytes) (i : Nat) : Bool := ((bs[i / 8]?).getD 0).toNat.testBit (i % 8)

/-- All results if there is a result for each. -/
def allSome {α β} (f : α → Option β) : List α → Option (List β)
  | [] => some []
  | a :: as =>
    match f a, allSome f as with
    | some b, some bs => some (b :: bs)
    | _, _ => Option.none

/-- The elements of the value `v` read as a list of `it`, if `v` is such a list. -/
def elems (it : ItemType) (v : Val) : Option (List Elem) :=
  match it, v with
  | .void, .listPrim tag n _ => if tag = 0 then some (List.replicate n .none) else Option.none
  | .bool, .listPrim tag n bs =>
    if tag = 1 then some ((List.range n).map fun i => .bool (bitElem bs i)) else Option.none
  | .prim fmt, .listPrim tag n bs =>
    if tag = fmtTag fmt then
      some ((List.range n).map fun i => .int (Props.valueOf fmt (slice bs (fmt.size * i) fmt.size)))
    else Option.none
  | .enum, .listPrim tag n bs =>
    if tag = 3 then some ((List.range n).map fun i => .int (Props.valueOf .h (slice bs (2 * i) 2)))
    else Option.none
  | .struct _ _, .listComp _ _ items => some (items.map fun x => .val (.struct x.1 x.2))
  | .text, .listPtr items => allSome textElem items
  | .data, .listPtr items => allSome dataElem items
  | .list _, .listPtr items => allSome listElem items
  | _, _ => Option.none

/-- The Python object `x` is the element `e`. -/
def ItemDenotes : Item → Elem → Prop
  | .none, .none => True
  | .bool b, .bool b' => b = b'
  | .int i, .int i' => i = i'
  | .bytes b, .bytes b' => b = b'
  | .struct o, .val v => Denotes o v
  | .list l, .val v => ListDenotes l v
  | _, _ => False

end Capnpy.Spec
