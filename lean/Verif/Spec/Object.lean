import Verif.Spec.Value
import Verif.Model.Struct

/-!
# Specification: the value a capnpy object stands for

`Denotes o v`: the Python object `o` (a segment, a position and the two section
sizes) stands for the struct value `v` according to the wire format.
-/

namespace Capnpy.Spec

/-- The object over the buffer `B` with segment table `offs` whose sections start
at byte `t` and take `ds` and `ps` words. -/
def objAt (B : Bytes) (offs : Option (List Nat)) (t ds ps : Nat) : StructObj :=
  ⟨Seg.of B offs, t, ((t + 8 * ds : Nat) : Int), ds, ps⟩

/-- Every segment starts at a word boundary. -/
def TableAligned (offs : Option (List Nat)) : Prop :=
  ∀ tbl, offs = some tbl → ∀ st ∈ tbl, 8 ∣ st

/-- `o` is a word-aligned struct of the buffer and its sections hold `v`. -/
def Denotes (o : StructObj) (v : Val) : Prop :=
  ∃ (B : Bytes) (offs : Option (List Nat)) (t ds ps : Nat) (data : Bytes) (ptrs : List Val),
    o = objAt B offs t ds ps ∧ TableAligned offs ∧ 8 ∣ t ∧ ds < 2 ^ 16 ∧ ps < 2 ^ 16 ∧
    ObjDen B offs t ds ps data ptrs ∧ v = .struct data ptrs

/-- The objects of a struct (sections at `t`, of `ds` and `ps` words, pointers
denoting `ptrs`) are laid out contiguously, in pre-order and without far
pointers, in the bytes `[t, e)`: first the sections, then what each pointer
points to, one after the other. -/
def CompactAt (B : Bytes) (t ds ps : Nat) (ptrs : List Val) (e : Nat) : Prop :=
  ∃ ends : Nat → Nat, ends 0 = t + 8 * (ds + ps) ∧ ends ptrs.length = e ∧
    ∀ j v, ptrs[j]? = some v →
      Lay false B (t + 8 * ds + 8 * j) (wordAt B (t + 8 * ds + 8 * j)) v (ends j) (ends (j + 1))

/-- `o`, which stands for `v`, is compact. -/
def Compact (o : StructObj) (v : Val) : Prop :=
  ∃ (B : Bytes) (offs : Option (List Nat)) (t ds ps : Nat) (data : Bytes) (ptrs : List Val) (e : Nat),
    o = objAt B offs t ds ps ∧ v = .struct data ptrs ∧ CompactAt B t ds ps ptrs e

end Capnpy.Spec
