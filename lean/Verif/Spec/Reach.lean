import Verif.Spec.Value
import Mathlib.Logic.Relation

/-!
# Specification: the pointers of an arbitrary message

`Child B far o w o' w'`: the object which the pointer word `w`, at the position `o`, points
to contains the pointer word `w'` at the position `o'`.  Nothing is assumed about the
buffer; sizes and counts are what the words say.  `far o o' w'` says where the far pointer
at `o` leads.
-/

namespace Capnpy.Spec

inductive Child (B : List UInt8) (far : Int → Int → Nat → Prop) : Int × Nat → Int × Nat → Prop
  | struct (o : Int) (w t j : Nat) (hk : kind w = 0) (ht : target o w = t) (hj : j < ptrsSize w)
      (hb : t + 8 * dataSize w + 8 * j + 8 ≤ B.length) :
      Child B far (o, w) (((t + 8 * dataSize w + 8 * j : Nat) : Int), wordAt B (t + 8 * dataSize w + 8 * j))
  | listPtr (o : Int) (w t j : Nat) (hk : kind w = 1) (hg : listTag w = 6) (ht : target o w = t)
      (hj : j < listCount w) (hb : t + 8 * j + 8 ≤ B.length) :
      Child B far (o, w) (((t + 8 * j : Nat) : Int), wordAt B (t + 8 * j))
  | listComp (o : Int) (w t i j pos : Nat) (hk : kind w = 1) (hg : listTag w = 7) (ht : target o w = t)
      (hi : (i : Int) < offset (wordAt B t)) (hj : j < ptrsSize (wordAt B t))
      (hpos : pos = t + 8 + i * (8 * (dataSize (wordAt B t) + ptrsSize (wordAt B t))) + 8 * dataSize (wordAt B t) + 8 * j)
      (hb : pos + 8 ≤ B.length) :
      Child B far (o, w) ((pos : Int), wordAt B pos)
  | far (o o' : Int) (w w' : Nat) (hk : kind w = 2) (h : far o o' w') : Child B far (o, w) (o', w')

/-- Every object which can be reached from the pointer `w` at `o`, through pointers which
are not null, starts at a position which is not negative. -/
def NoneBefore (B : List UInt8) (far : Int → Int → Nat → Prop) (o : Int) (w : Nat) : Prop :=
  ∀ x, Relation.ReflTransGen (fun a b => Child B far a b ∧ b.2 ≠ 0) (o, w) x → kind x.2 < 2 → 0 ≤ target x.1 x.2

end Capnpy.Spec
