import Verif.Spec.ListBuild

/-!
# Specification: lists that can be compared by their bytes
-/

namespace Capnpy.Spec

/-- The list object `l` holds `v` and is *clean*: the objects inside it are laid
out contiguously in pre-order, without far pointers (as in the output of a
constructor or of `compact()`), and the padding is zero.  For a list of numbers
only the padding matters.  The body of the list does not start at byte 0. -/
def CleanList (l : ListObj) (v : Val) : Prop :=
  ∃ (B : Bytes) (offs : Option (List Nat)) (pos w t e : Nat), l = listAt B offs t w l.itemType ∧
    kind w = 1 ∧ 8 ∣ t ∧ 8 ≤ t ∧ Lay true B pos w v t e ∧ e ≤ B.length

/-- The same without the condition on the padding. -/
def CompactList (l : ListObj) (v : Val) : Prop :=
  ∃ (B : Bytes) (offs : Option (List Nat)) (pos w t e : Nat), l = listAt B offs t w l.itemType ∧
    kind w = 1 ∧ 8 ∣ t ∧ 8 ≤ t ∧ Lay false B pos w v t e ∧ e ≤ B.length

/-- Lists of numbers, enums, texts, data, and lists of such lists. -/
def Plain : ItemType → Prop
  | .prim _ | .enum | .text | .data => True
  | .list inner => Plain inner
  | _ => False

end Capnpy.Spec
