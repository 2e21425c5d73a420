import Verif.Proof.Ptr
import Verif.Proof.Mem

/-!
# C01, C02: pointer words

`Ptr.*` are the functions of capnpy/ptr.py; `Spec.*` are the bit fields of the
wire specification.
-/

namespace Capnpy.Props

open Capnpy

/-! ## C01 -/

/-- C01, struct pointers: packing in-range components and unpacking them gives
them back. -/
theorem C01_struct_roundtrip (off ds ps : Int) (ho : -2 ^ 29 ≤ off ∧ off < 2 ^ 29)
    (hd : 0 ≤ ds ∧ ds < 2 ^ 16) (hp : 0 ≤ ps ∧ ps < 2 ^ 16) :
    Ptr.kind (Ptr.newStruct off ds ps) = Ptr.STRUCT ∧
    Ptr.offset (Ptr.newStruct off ds ps) = off ∧
    Ptr.structDataSize (Ptr.newStruct off ds ps) = ds ∧
    Ptr.structPtrsSize (Ptr.newStruct off ds ps) = ps := by
  rw [Ptr.newStruct_eq, Ptr.kind_eq, Ptr.offset_eq, Ptr.structDataSize_eq, Ptr.structPtrsSize_eq]
  unfold Ptr.STRUCT asSigned
  refine ⟨by omega, ?_, by omega, by omega⟩
  split <;> omega

/-- C01, list pointers. -/
theorem C01_list_roundtrip (off tag count : Int) (ho : -2 ^ 29 ≤ off ∧ off < 2 ^ 29)
    (ht : 0 ≤ tag ∧ tag < 8) (hc : 0 ≤ count ∧ count < 2 ^ 29) :
    Ptr.kind (Ptr.newList off tag count) = Ptr.LIST ∧
    Ptr.offset (Ptr.newList off tag count) = off ∧
    Ptr.listSizeTag (Ptr.newList off tag count) = tag ∧
    Ptr.listItemCount (Ptr.newList off tag count) = count := by
  rw [Ptr.newList_eq, Ptr.kind_eq, Ptr.offset_eq, Ptr.listSizeTag_eq, Ptr.listItemCount_eq]
  unfold Ptr.LIST asSigned
  refine ⟨by omega, ?_, by omega, by omega⟩
  split <;> omega

/-- C01, far pointers. -/
theorem C01_far_roundtrip (pad off target : Int) (hp : 0 ≤ pad ∧ pad < 2)
    (ho : 0 ≤ off ∧ off < 2 ^ 29) (ht : 0 ≤ target ∧ target < 2 ^ 32) :
    Ptr.kind (Ptr.newFar pad off target) = Ptr.FAR ∧
    Ptr.farLandingPad (Ptr.newFar pad off target) = pad ∧
    Ptr.farOffset (Ptr.newFar pad off target) = off ∧
    Ptr.farTarget (Ptr.newFar pad off target) = target := by
  rw [Ptr.newFar_eq, Ptr.kind_eq, Ptr.farLandingPad_eq, Ptr.farOffset_eq, Ptr.farTarget_eq]
  unfold Ptr.FAR
  omega

/-- C01, no leak: whatever the offset and the data size (negative or too large
included), each field of a struct pointer only depends on its own argument: the
low 30 bits of the offset, the low 16 bits of the sizes. -/
theorem C01_struct_fields_independent (off ds ps : Int) :
    Ptr.kind (Ptr.newStruct off ds ps) = Ptr.STRUCT ∧
    Ptr.offset (Ptr.newStruct off ds ps) % 2 ^ 30 = off % 2 ^ 30 ∧
    Ptr.structDataSize (Ptr.newStruct off ds ps) = ds % 2 ^ 16 ∧
    Ptr.structPtrsSize (Ptr.newStruct off ds ps) = ps % 2 ^ 16 := by
  rw [Ptr.newStruct_eq, Ptr.kind_eq, Ptr.offset_eq, Ptr.structDataSize_eq, Ptr.structPtrsSize_eq]
  unfold Ptr.STRUCT asSigned
  refine ⟨by omega, ?_, by omega, by omega⟩
  split <;> omega

/-- C01, no leak, list pointers. -/
theorem C01_list_fields_independent (off tag count : Int) :
    Ptr.kind (Ptr.newList off tag count) = Ptr.LIST ∧
    Ptr.offset (Ptr.newList off tag count) % 2 ^ 30 = off % 2 ^ 30 ∧
    Ptr.listSizeTag (Ptr.newList off tag count) = tag % 8 ∧
    Ptr.listItemCount (Ptr.newList off tag count) = count % 2 ^ 29 := by
  rw [Ptr.newList_eq, Ptr.kind_eq, Ptr.offset_eq, Ptr.listSizeTag_eq, Ptr.listItemCount_eq]
  unfold Ptr.LIST asSigned
  refine ⟨by omega, ?_, by omega, by omega⟩
  split <;> omega

/-- C01, no leak, far pointers. -/
theorem C01_far_fields_independent (pad off target : Int) :
    Ptr.kind (Ptr.newFar pad off target) = Ptr.FAR ∧
    Ptr.farLandingPad (Ptr.newFar pad off target) = pad % 2 ∧
    Ptr.farOffset (Ptr.newFar pad off target) = off % 2 ^ 29 ∧
    Ptr.farTarget (Ptr.newFar pad off target) = target % 2 ^ 32 := by
  rw [Ptr.newFar_eq, Ptr.kind_eq, Ptr.farLandingPad_eq, Ptr.farOffset_eq, Ptr.farTarget_eq]
  unfold Ptr.FAR
  omega

/-- C01: a packed pointer with in-range components is the 64-bit word of the wire
format with these fields (so what is written to the buffer is right, not only
what capnpy itself reads back). -/
theorem C01_words (off : Int) (ds ps tag count : Nat) (hd : ds < 2 ^ 16) (ht : tag < 8) :
    Ptr.newStruct off ds ps = (Spec.structWord off ds ps : Nat) ∧
    Ptr.newList off tag count = (Spec.listWord off tag count : Nat) := by
  constructor
  · rw [Ptr.newStruct_eq]; unfold Spec.structWord; omega
  · rw [Ptr.newList_eq]; unfold Spec.listWord; omega

/-- `round_up_to_word(n)` is the smallest multiple of 8 which is not below `n`. -/
theorem C01_round_up (n m : Int) :
    8 ∣ Ptr.roundUpToWord n ∧ n ≤ Ptr.roundUpToWord n ∧
    (8 ∣ m → n ≤ m → Ptr.roundUpToWord n ≤ m) := by
  rw [Ptr.roundUpToWord_eq]; omega

/-- The hypotheses of the round-trips are met by non-trivial values, and the
values are what the functions compute. -/
example : Ptr.offset (Ptr.newStruct (-3) 2 65535) = -3 ∧
    Ptr.structPtrsSize (Ptr.newStruct (-3) 2 65535) = 65535 :=
  let h := C01_struct_roundtrip (-3) 2 65535 (by norm_num) (by norm_num) (by norm_num)
  ⟨h.2.1, h.2.2.2⟩
example : Ptr.listItemCount (Ptr.newList (-536870912) 7 536870911) = 536870911 :=
  (C01_list_roundtrip (-536870912) 7 536870911 (by norm_num) (by norm_num) (by norm_num)).2.2.2
example : Ptr.farTarget (Ptr.newFar 1 77 4294967295) = 4294967295 :=
  (C01_far_roundtrip 1 77 4294967295 (by norm_num) (by norm_num) (by norm_num)).2.2.2

/-! ## C02 -/

/-- C02: for every 64-bit word `w`, read from the buffer as a signed number, the
pointer helpers return exactly the bit fields of the wire specification. -/
theorem C02_decode (w : Nat) (hw : w < 2 ^ 64) :
    Ptr.kind (Spec.signed64 w) = (Spec.kind w : Nat) ∧
    Ptr.offset (Spec.signed64 w) = Spec.offset w ∧
    Ptr.structDataSize (Spec.signed64 w) = (Spec.dataSize w : Nat) ∧
    Ptr.structPtrsSize (Spec.signed64 w) = (Spec.ptrsSize w : Nat) ∧
    Ptr.listSizeTag (Spec.signed64 w) = (Spec.listTag w : Nat) ∧
    Ptr.listItemCount (Spec.signed64 w) = (Spec.listCount w : Nat) ∧
    Ptr.farLandingPad (Spec.signed64 w) = (Spec.farPad w : Nat) ∧
    Ptr.farOffset (Spec.signed64 w) = (Spec.farOffset w : Nat) ∧
    Ptr.farTarget (Spec.signed64 w) = (Spec.farTarget w : Nat) := by
  have h := signed64_mod w hw
  exact ⟨Ptr.kind_spec h, Ptr.offset_spec h, Ptr.dataSize_spec h, Ptr.ptrsSize_spec h,
    Ptr.listTag_spec h, Ptr.listCount_spec h, Ptr.farPad_spec h, Ptr.farOffset_spec h,
    Ptr.farTarget_spec h⟩

/-- C02: what `read_ptr` returns at an in-bounds position is that signed
number, for every buffer. -/
theorem C02_read_ptr (s : Seg) (i : Nat) (h : i + 8 ≤ s.buf.length) :
    s.readPtr (i : Int) = .ok (Spec.signed64 (Spec.wordAt s.buf i)) ∧ Spec.wordAt s.buf i < 2 ^ 64 :=
  ⟨readPtr_nat h, wordAt_lt _ _⟩

/-- C02: the address a pointer stored at `o` leads to. -/
theorem C02_deref (w : Nat) (hw : w < 2 ^ 64) (o : Int) :
    Ptr.deref (Spec.signed64 w) o = o + 8 + 8 * Spec.offset w := by
  unfold Ptr.deref
  rw [(C02_decode w hw).2.1]; ring

/-- A word with the sign bit set: a struct pointer with 65535 pointer words. -/
example : Ptr.structPtrsSize (Spec.signed64 (65535 * 2 ^ 48 + 2 ^ 32)) = (65535 : Nat) :=
  (C02_decode (65535 * 2 ^ 48 + 2 ^ 32) (by norm_num)).2.2.2.1.trans (by norm_num [Spec.ptrsSize])

end Capnpy.Props
