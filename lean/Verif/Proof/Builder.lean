import Verif.Proof.Mem
import Verif.Spec.Value

/-! # Lemmas about the allocation methods -/

namespace Capnpy

open Spec

theorem BM.bind_ok {α β} {x : BM α} {f : α → BM β} {s s' : Bytes} {a : α} (h : x s = .ok a s') :
    (x >>= f) s = f a s' := by
  change EStateM.bind x f s = _
  unfold EStateM.bind; rw [h]

theorem BM.bind_error {α β} {x : BM α} {f : α → BM β} {s s' : Bytes} {e : PyErr}
    (h : x s = .error e s') : (x >>= f) s = .error e s' := by
  change EStateM.bind x f s = _
  unfold EStateM.bind; rw [h]

theorem BM.pure_run {α} (a : α) (s : Bytes) : (pure a : BM α) s = .ok a s := rfl

theorem BM.lift_ok {α} {x : Py α} {a : α} (h : x = .ok a) (s : Bytes) : BM.lift x s = .ok a s := by
  unfold BM.lift; rw [h]

theorem allocate_nat (n : Nat) (b : Bytes) :
    allocate (n : Int) b = .ok (b.length : Int) (b ++ List.replicate n 0) := by
  unfold allocate; simp

/-! ## Words -/

theorem kind_structWord (off : Int) (ds ps : Nat) : kind (structWord off ds ps) = 0 := by
  unfold kind structWord; omega
theorem dataSize_structWord (off : Int) (ds ps : Nat) (hd : ds < 2 ^ 16) :
    dataSize (structWord off ds ps) = ds := by
  unfold dataSize structWord; omega
theorem ptrsSize_structWord (off : Int) (ds ps : Nat) (hd : ds < 2 ^ 16) (hp : ps < 2 ^ 16) :
    ptrsSize (structWord off ds ps) = ps := by
  unfold ptrsSize structWord; omega
theorem offset_structWord (off : Int) (ds ps : Nat) (h1 : -2 ^ 29 ≤ off) (h2 : off < 2 ^ 29) :
    offset (structWord off ds ps) = off := by
  unfold offset structWord signed30
  split <;> omega
theorem structWord_lt (off : Int) (ds ps : Nat) (hd : ds < 2 ^ 16) (hp : ps < 2 ^ 15) :
    structWord off ds ps < 2 ^ 63 := by
  unfold structWord; omega
theorem newStruct_word (off : Int) (ds ps : Nat) (hd : ds < 2 ^ 16) :
    Ptr.newStruct off ds ps = ((structWord off ds ps : Nat) : Int) := by
  rw [Ptr.newStruct_eq]; unfold structWord; omega

theorem kind_listWord (off : Int) (tag n : Nat) : kind (listWord off tag n) = 1 := by
  unfold kind listWord; omega
theorem listTag_listWord (off : Int) (tag n : Nat) (ht : tag < 8) :
    listTag (listWord off tag n) = tag := by
  unfold listTag listWord; omega
theorem listCount_listWord (off : Int) (tag n : Nat) (ht : tag < 8) (hn : n < 2 ^ 29) :
    listCount (listWord off tag n) = n := by
  unfold listCount listWord; omega
theorem offset_listWord (off : Int) (tag n : Nat) (h1 : -2 ^ 29 ≤ off) (h2 : off < 2 ^ 29) :
    offset (listWord off tag n) = off := by
  unfold offset listWord signed30
  split <;> omega
theorem listWord_lt (off : Int) (tag n : Nat) (ht : tag < 8) (hn : n < 2 ^ 28) :
    listWord off tag n < 2 ^ 63 := by
  unfold listWord; omega
theorem newList_word (off : Int) (tag n : Nat) (ht : tag < 8) :
    Ptr.newList off tag n = ((listWord off tag n : Nat) : Int) := by
  rw [Ptr.newList_eq]; unfold listWord; omega

/-! ## Allocation -/

/-- What `alloc_struct`/`alloc_list` do to the buffer: append `n` zero bytes and
store the word `w` at `pos`. -/
structure AllocPost (b b' : Bytes) (pos n w : Nat) : Prop where
  len : b'.length = b.length + n
  word : wordAt b' pos = w
  frame : ∀ i, i < b.length → ¬ (pos ≤ i ∧ i < pos + 8) → b'[i]? = b[i]?
  zero : ∀ i, b.length ≤ i → i < b'.length → b'[i]? = some 0

theorem alloc_post {b : Bytes} {pos n w : Nat} (hw : w < 2 ^ 63) (hpos : pos + 8 ≤ b.length) :
    AllocPost b (overwrite (b ++ List.replicate n 0) pos (leBytes 8 w)) pos n w := by
  have h8 : (leBytes 8 w).length = 8 := leBytes_length 8 w
  have hl : pos + (leBytes 8 w).length ≤ (b ++ List.replicate n (0 : UInt8)).length := by
    simp; omega
  refine ⟨?_, ?_, ?_, ?_⟩
  · rw [overwrite_length hl]; simp
  · apply wordAt_overwrite (by omega); simp; omega
  · intro i hi hni
    rw [overwrite_getElem? hl, h8]
    have : (b ++ List.replicate n (0 : UInt8))[i]? = b[i]? := List.getElem?_append_left hi
    split
    · exact this
    · rw [if_neg (by omega)]; exact this
  · intro i hi hi2
    rw [overwrite_length hl] at hi2
    rw [overwrite_getElem? hl, h8, if_neg (by omega), if_neg (by omega),
      List.getElem?_append_right hi]
    rw [List.length_append, List.length_replicate] at hi2
    rw [List.getElem?_replicate, if_pos (by omega)]

theorem allocStruct_spec {b : Bytes} {pos ds ps : Nat} (hpos : pos + 8 ≤ b.length)
    (hd : ds < 2 ^ 16) (hp : ps < 2 ^ 15) :
    ∃ b', allocStruct (pos : Int) ds ps b = .ok (b.length : Int) b' ∧
      AllocPost b b' pos (8 * (ds + ps))
        (structWord (((b.length : Int) - (pos + 8)) / 8) ds ps) := by
  refine ⟨_, ?_, alloc_post (structWord_lt _ _ _ hd hp) hpos⟩
  unfold allocStruct
  have e : (((ds : Int) + ps) * 8) = ((8 * (ds + ps) : Nat) : Int) := by push_cast; ring
  simp only [e]
  rw [BM.bind_ok (allocate_nat _ _)]
  rw [newStruct_word _ _ _ hd]
  rw [BM.bind_ok (writeInt64_nat (structWord_lt _ _ _ hd hp) (by simp; omega))]
  rfl

theorem roundUp_nat (n : Nat) : Ptr.roundUpToWord (n : Int) = ((wordAlign n : Nat) : Int) := by
  rw [Ptr.roundUpToWord_eq]; unfold wordAlign; omega

theorem allocList_spec {b : Bytes} {pos tag n body : Nat} (hpos : pos + 8 ≤ b.length)
    (ht : tag < 8) (hn : n < 2 ^ 28) :
    ∃ b', allocList (pos : Int) tag n body b = .ok (b.length : Int) b' ∧
      AllocPost b b' pos (wordAlign body)
        (listWord (((b.length : Int) - (pos + 8)) / 8) tag n) := by
  refine ⟨_, ?_, alloc_post (listWord_lt _ _ _ ht hn) hpos⟩
  unfold allocList
  simp only [roundUp_nat]
  rw [BM.bind_ok (allocate_nat _ _)]
  rw [newList_word _ _ _ ht]
  rw [BM.bind_ok (writeInt64_nat (listWord_lt _ _ _ ht hn) (by simp; omega))]
  rfl

/-- The pointer written by an allocation points to the allocated region. -/
theorem target_struct {L pos ds ps : Nat} (h8 : 8 ∣ L) (hp8 : 8 ∣ pos) (hpos : pos + 8 ≤ L)
    (hL : L ≤ 2 ^ 32) :
    target (pos : Int) (structWord (((L : Int) - (pos + 8)) / 8) ds ps) = (L : Int) := by
  unfold target
  rw [offset_structWord _ _ _ (by omega) (by omega)]
  omega

theorem target_list {L pos tag n : Nat} (h8 : 8 ∣ L) (hp8 : 8 ∣ pos) (hpos : pos + 8 ≤ L)
    (hL : L ≤ 2 ^ 32) :
    target (pos : Int) (listWord (((L : Int) - (pos + 8)) / 8) tag n) = (L : Int) := by
  unfold target
  rw [offset_listWord _ _ _ (by omega) (by omega)]
  omega

/-- The effect of an in-bounds `write_slice`. -/
theorem writeSlice_nat {b : Bytes} {S : Seg} {i s n : Nat} (hi : i + n ≤ b.length)
    (hs : s + n ≤ S.buf.length) :
    writeSlice (i : Int) S (s : Int) (n : Int) b = .ok () (overwrite b i (slice S.buf s n)) := by
  unfold writeSlice
  rw [show ((s : Int) + n) = ((s + n : Nat) : Int) by push_cast; rfl, pySlice_nat,
    Nat.add_sub_cancel_left, pySliceAssign_nat (slice_length_of_le hs) hi]

end Capnpy
