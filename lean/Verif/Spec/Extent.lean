import Verif.Spec.Object

/-!
# Specification: the objects of a message

`Extents B offs o w L`: following the pointer word `w` at the position `o`, and all the
pointers below it, meets the objects (structs and lists) at the places `L`, pairs
(first byte, number of bytes, whole words), in this order.  An object to which two
pointers lead is met twice.  Landing pads of far pointers are not objects.
-/

namespace Capnpy.Spec

inductive Extents (B : List UInt8) (offs : Option (List Nat)) : Int → Nat → List (Nat × Nat) → Prop
  | null (o : Int) : Extents B offs o 0 []
  | struct (o : Int) (w t : Nat) (Ls : Nat → List (Nat × Nat)) (hw : w ≠ 0) (hk : kind w = 0) (ht : target o w = t)
      (hp : ∀ j, j < ptrsSize w →
        Extents B offs ((t + 8 * dataSize w + 8 * j : Nat) : Int) (wordAt B (t + 8 * dataSize w + 8 * j)) (Ls j)) :
      Extents B offs o w ((t, 8 * (dataSize w + ptrsSize w)) :: (List.range (ptrsSize w)).flatMap Ls)
  | listPrim (o : Int) (w t : Nat) (hk : kind w = 1) (hg : listTag w ≤ 5) (ht : target o w = t) :
      Extents B offs o w [(t, wordAlign (primLen (listTag w) (listCount w)))]
  | listPtr (o : Int) (w t : Nat) (Ls : Nat → List (Nat × Nat)) (hk : kind w = 1) (hg : listTag w = 6)
      (ht : target o w = t)
      (hp : ∀ j, j < listCount w → Extents B offs ((t + 8 * j : Nat) : Int) (wordAt B (t + 8 * j)) (Ls j)) :
      Extents B offs o w ((t, 8 * listCount w) :: (List.range (listCount w)).flatMap Ls)
  | listComp (o : Int) (w t n ds ps : Nat) (Ls : Nat → Nat → List (Nat × Nat)) (hk : kind w = 1) (hg : listTag w = 7)
      (ht : target o w = t) (hn : offset (wordAt B t) = n) (hds : ds = dataSize (wordAt B t))
      (hps : ps = ptrsSize (wordAt B t))
      (hp : ∀ i, i < n → ∀ j, j < ps →
        Extents B offs ((t + 8 + i * (8 * (ds + ps)) + 8 * ds + 8 * j : Nat) : Int)
          (wordAt B (t + 8 + i * (8 * (ds + ps)) + 8 * ds + 8 * j)) (Ls i j)) :
      Extents B offs o w ((t, 8 + n * (8 * (ds + ps))) ::
        (List.range n).flatMap fun i => (List.range ps).flatMap fun j => Ls i j)
  | far (o w pos st : Nat) (tbl : List Nat) (L : List (Nat × Nat)) (hk : kind w = 2) (hf : farPad w = 0)
      (htbl : offs = some tbl) (hst : tbl[farTarget w]? = some st) (hpos : pos = st + 8 * farOffset w)
      (h : Extents B offs (pos : Int) (wordAt B pos) L) : Extents B offs (o : Int) w L
  | far2 (o w pos st st2 : Nat) (tbl : List Nat) (L : List (Nat × Nat)) (hk : kind w = 2) (hf : farPad w = 1)
      (htbl : offs = some tbl) (hst : tbl[farTarget w]? = some st) (hpos : pos = st + 8 * farOffset w)
      (hst2 : tbl[farTarget (wordAt B pos)]? = some st2)
      (h : Extents B offs (((st2 + 8 * farOffset (wordAt B pos) : Nat) : Int) - 8) (wordAt B (pos + 8)) L) :
      Extents B offs (o : Int) w L

/-- The objects of a struct object: its sections, and what its pointers lead to. -/
def ObjectsOf (o : StructObj) (L : List (Nat × Nat)) : Prop :=
  ∃ (B : Bytes) (offs : Option (List Nat)) (t ds ps : Nat) (Ls : Nat → List (Nat × Nat)),
    o = objAt B offs t ds ps ∧
    (∀ j, j < ps → Extents B offs ((t + 8 * ds + 8 * j : Nat) : Int) (wordAt B (t + 8 * ds + 8 * j)) (Ls j)) ∧
    L = (t, 8 * (ds + ps)) :: (List.range ps).flatMap Ls

/-- No two objects have a byte in common: in particular, no object is met twice. -/
def NoSharing (L : List (Nat × Nat)) : Prop :=
  L.Pairwise fun a b => ∀ i, ¬ (a.1 ≤ i ∧ i < a.1 + a.2 ∧ b.1 ≤ i ∧ i < b.1 + b.2)

/-- The bytes of all the objects. -/
def totalBytes (L : List (Nat × Nat)) : Nat := (L.map (·.2)).sum

end Capnpy.Spec
