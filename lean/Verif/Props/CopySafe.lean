import Verif.Proof.CopySafe
import Verif.Props.Copy

/-! # C39: copies from malformed messages

The source is any object over any buffer with any table of segments: nothing is assumed
about it.  `finalBuf` is the buffer of the builder after the call, whether it returned or
raised. -/

namespace Capnpy.Props

open Spec

/-- What the copy into the pointer at `dst` may do to a builder: make it longer and
change the 8 bytes at `dst`; all other bytes which were there before stay. -/
def OnlyDst (dst : Nat) (before after : Bytes) : Prop :=
  before.length ≤ after.length ∧
  ∀ i, i < before.length → i < dst ∨ dst + 8 ≤ i → after[i]? = before[i]?

theorem keeps_onlyDst {α} {x : BM α} {dst : Nat}
    (h : ∀ L, Keeps L (fun i => ¬ (dst ≤ i ∧ i < dst + 8)) x fun _ => True) (b : Bytes) :
    OnlyDst dst b (finalBuf (x b)) := by
  obtain ⟨h1, h2, _⟩ := h b.length b (Nat.le_refl _)
  exact ⟨h1, fun i hi hd => h2 i hi (by omega)⟩

theorem free_dst (L dst : Nat) : Free L (fun i => ¬ (dst ≤ i ∧ i < dst + 8)) (dst : Int) :=
  ⟨by omega, fun i _ h => by omega⟩

/-- C39: `copy_pointer` from an arbitrary buffer, with an arbitrary pointer, to any
position, whether it succeeds or raises. -/
theorem C39_copy_pointer (src : Seg) (fuel : Nat) (p srcPos : Int) (dst : Nat) (b : Bytes) :
    OnlyDst dst b (finalBuf (copyPointer src fuel p srcPos dst b)) :=
  keeps_onlyDst (fun L => Keeps.copyPointer fuel (free_dst L dst)) b

/-- C39: the copy of a struct object (in constructors, `compact()` and `dumps()`). -/
theorem C39_copy_struct (o : Option StructObj) (fuel : Nat) (dst : Nat) (b : Bytes) :
    OnlyDst dst b (finalBuf (copyFromStruct fuel dst o b)) :=
  keeps_onlyDst (fun _ => Keeps.copyFromStruct (free_dst _ dst)) b

/-- C39: the construction of a list from any Python values, among them arbitrary struct
objects. -/
theorem C39_copy_list (it : ItemType) (hit : it.Sized) (l : Option (List PyItem)) (fuel : Nat) (dst : Nat) (b : Bytes) :
    OnlyDst dst b (finalBuf (copyFromList fuel it dst l b)) :=
  keeps_onlyDst (fun _ => Keeps.copyFromList hit (free_dst _ dst)) b

/-! Malformed sources for which this says something.  A struct pointer to before the
start of the buffer: the copy raises, after it wrote the pointer and allocated. -/

example : copyPointer ⟨[1, 2, 3, 4, 5, 6, 7, 8], none⟩ 5 (Ptr.newStruct (-3) 1 1) 0 0 (List.replicate 8 0 ++ [9, 9]) =
    .error .indexError (leBytes 8 (structWord 0 1 1) ++ [9, 9] ++ List.replicate 8 0) := by decide +kernel

/-- A negative position is not always an error: Python's slices count from the end, so the
copy returns normally with the wrong bytes, and the builder is 8 bytes shorter than its
pointers say. -/
example : copyPointer ⟨[1, 2, 3, 4, 5, 6, 7, 8], none⟩ 5 (Ptr.newStruct (-2) 1 0) 0 0 (List.replicate 8 0) =
    .ok () (leBytes 8 (structWord 0 1 0)) := by decide +kernel

/-- A composite list which claims more items (one, a pointer) than it has words for
(none). -/
def overlongList : Bytes :=
  leBytes 8 (listWord 0 7 0) ++ leBytes 8 (structWord 1 0 1) ++ leBytes 8 (structWord 0 1 0) ++
    [1, 2, 3, 4, 5, 6, 7, 8]

/-- The pointer of the item is written outside of the allocated list, and then overwritten
by the data of the struct which was allocated there: the copy returns normally, with
`01 02 .. 08` in the place of the item's pointer.  What was there before is intact. -/
example : copyPointer ⟨overlongList, none⟩ 5 (listWord 0 7 0) 0 0 (List.replicate 8 0 ++ [9, 9, 9, 9, 9, 9, 9, 9]) =
    .ok () (leBytes 8 (listWord 1 7 0) ++ [9, 9, 9, 9, 9, 9, 9, 9] ++ leBytes 8 (structWord 1 0 1) ++
      [1, 2, 3, 4, 5, 6, 7, 8]) := by decide +kernel

end Capnpy.Props
