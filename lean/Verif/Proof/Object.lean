import Verif.Proof.Struct

/-! # copy_from_struct, compact, _get_end on objects -/

namespace Capnpy

open Spec

theorem asPointer_mod {B : Bytes} {offs : Option (List Nat)} {t ds ps : Nat}
    (hd : ds < 2 ^ 16) (hp : ps < 2 ^ 16) :
    (objAt B offs t ds ps).asPointer 0 % 2 ^ 64
      = ((structWord (((t : Int) - 8) / 8) ds ps : Nat) : Int) := by
  unfold StructObj.asPointer objAt
  simp only [Int.sub_zero]
  rw [newStruct_word _ _ _ hd]
  unfold structWord
  omega

theorem initFromBuffer_nat {B : Bytes} {offs : Option (List Nat)} {t ds ps : Nat}
    (h : t + 8 * (ds + ps) ≤ B.length) :
    StructObj.initFromBuffer (Seg.of B offs) t ds ps = .ok (objAt B offs t ds ps) := by
  unfold StructObj.initFromBuffer objAt
  have hb : (Seg.of B offs).buf = B := rfl
  simp only [hb]
  rw [if_neg (by omega), if_neg (by omega)]
  congr 2
  push_cast; ring

/-- `copy_from_struct` of any object, into any aligned builder. -/
theorem copyFromStruct_spec {o : StructObj} {v : Val} (ho : Denotes o v) (hf : v.Fits)
    (hlen : o.seg.buf.length ≤ 2 ^ 32) {fuel : Nat} (hfuel : 2 * v.depth ≤ fuel + 1)
    {b : Bytes} {dst : Nat} (h1 : dst + 8 ≤ b.length) (h2 : 8 ∣ dst) (h3 : 8 ∣ b.length)
    (h4 : b.length + v.size ≤ 2 ^ 32) :
    ∃ b', copyFromStruct fuel dst (some o) b = .ok () b' ∧ CopyPost b b' dst v := by
  obtain ⟨B, offs, t, ds, ps, data, ptrs, rfl, hta, h8, hds, hps, ⟨hb, hd, hl, hp⟩, rfl⟩ := ho
  change B.length ≤ 2 ^ 32 at hlen
  have hdep : 0 < (Val.struct data ptrs).depth := by simp only [Val.depth]; omega
  have hpm := asPointer_mod (B := B) (offs := offs) (t := t) hds hps
  have hsd := dataSize_structWord (((t : Int) - 8) / 8) ds ps hds
  have hsp := ptrsSize_structWord (((t : Int) - 8) / 8) ds ps hds hps
  have hsk := kind_structWord (((t : Int) - 8) / 8) ds ps
  have hso := offset_structWord (((t : Int) - 8) / 8) ds ps (by omega) (by omega)
  have htar : target 0 (structWord (((t : Int) - 8) / 8) ds ps) = (t : Int) := by
    unfold target; rw [hso]; omega
  obtain ⟨f, rfl⟩ : ∃ f, fuel = f + 1 := ⟨fuel - 1, by omega⟩
  unfold copyFromStruct
  change ∃ b', copyPointer (Seg.of B offs) (f + 1) _ 0 _ b = _ ∧ _
  have n1 : (((0 : Nat) : Int) = Ptr.STRUCT) := by decide
  simp only [copyPointer, Ptr.kind_spec hpm, hsk]
  rw [if_pos n1]
  -- every child is copied correctly
  simp only [Val.Fits] at hf
  simp only [Val.depth] at hfuel
  have hsrc : SrcPtrs (copyPointer (Seg.of B offs) f) B
      (t + 8 * dataSize (structWord (((t : Int) - 8) / 8) ds ps)) ptrs := by
    rw [hsd]
    apply srcPtrs_of_ih (S := Seg.of B offs) hp (by omega)
    intro j v hj fuel p h0 hff hp'
    exact copyPointer_spec (hp j v hj) fuel p h0 (Val.allFits_get hf.2 hj) hff hp'
  have key := copyStruct_spec (copyPointer (Seg.of B offs) f) (Seg.of B offs) hpm htar
    (by rw [hsd, hsp]; exact hb) (by rw [hsp]; exact hl) (by rw [hsp]; omega) hsrc
  have hd' : slice (Seg.of B offs).buf t (8 * dataSize (structWord (((t : Int) - 8) / 8) ds ps)) = data := by
    rw [hsd, hd]; rfl
  rw [hd'] at key
  exact key b dst h1 h2 h3 h4

theorem objDen_of_lay {ae : Bool} {B : Bytes} {offs : Option (List Nat)} {pos w s e ds ps : Nat}
    {data : Bytes} {ptrs : List Val} (h : Lay ae B pos w (.struct data ptrs) s e)
    (hs : s ≤ B.length) (hd : data.length = 8 * ds) (hp : ptrs.length = ps) :
    ObjDen B offs s ds ps data ptrs ∧ ObjLay ae B s ds ps ptrs e := by
  cases h with
  | empty _ _ _ =>
    have h1 : ds = 0 := by simp at hd; omega
    have h2 : ps = 0 := by simpa using hp.symm
    subst h1 h2
    refine ⟨⟨by omega, by simp [slice], rfl, by intro j v h; simp at h⟩, ?_⟩
    simp [ObjLay, PtrsLay]
  | struct _ _ _ _ _ _ ends hw hk ht hb hdd hl _ h0 he hpp =>
    have hdl : data.length = 8 * dataSize w := by rw [hdd]; exact slice_length_of_le (by omega)
    obtain rfl : ds = dataSize w := by omega
    obtain rfl : ps = ptrsSize w := by omega
    refine ⟨⟨hb, hdd, hl, ?_⟩, ?_⟩
    · intro j v hj
      have := getElem?_lt hj
      exact Lay.den offs (by omega) (hpp j v hj)
    · unfold ObjLay
      have := ptrsLay_of_ends ends hpp
      rw [h0, he] at this
      exact this

theorem denotes_data_length {o : StructObj} {data : Bytes} {ptrs : List Val}
    (h : Denotes o (.struct data ptrs)) :
    (data.length : Int) = 8 * o.dataSize ∧ (ptrs.length : Int) = o.ptrsSize := by
  obtain ⟨B, offs, t, ds, ps, data', ptrs', rfl, hta, h8, hds, hps, ⟨hb, hd, hl, hp⟩, hv⟩ := h
  injection hv with h1 h2
  subst h1 h2
  have : data.length = 8 * ds := by rw [hd]; exact slice_length_of_le (by omega)
  simp only [objAt]; omega

/-- What `compact()` returns: an object of a fresh buffer which holds the root
pointer and the value, nothing else. -/
theorem compact_spec {o : StructObj} {data : Bytes} {ptrs : List Val}
    (ho : Denotes o (.struct data ptrs)) (hf : (Val.struct data ptrs).Fits)
    (hlen : o.seg.buf.length ≤ 2 ^ 32) (hsz : 8 + (Val.struct data ptrs).size ≤ 2 ^ 32)
    {fuel : Nat} (hfuel : 2 * (Val.struct data ptrs).depth ≤ fuel + 1) :
    ∃ (B : Bytes) (ds ps : Nat), o.dataSize = ds ∧ o.ptrsSize = ps ∧
      o.compact fuel = .ok (objAt B none 8 ds ps) ∧
      B.length = 8 + (Val.struct data ptrs).size ∧ 8 ∣ B.length ∧ ds < 2 ^ 16 ∧ ps < 2 ^ 16 ∧
      ObjDen B none 8 ds ps data ptrs ∧ ObjLay true B 8 ds ps ptrs B.length ∧
      Lay true B 0 (wordAt B 0) (.struct data ptrs) 8 B.length := by
  obtain ⟨b', hb', post⟩ := copyFromStruct_spec ho hf hlen hfuel
    (b := List.replicate 8 0) (dst := 0) (by simp) (by simp) (by simp) (by simpa using hsz)
  have hl' := post.len
  simp only [List.length_replicate] at hl'
  have hlay := post.lay b' (le_refl _) (fun _ _ _ => rfl)
  simp only [List.length_replicate] at hlay
  obtain ⟨hdl, hpl⟩ := denotes_data_length ho
  obtain ⟨B, offs, t, ds, ps, data', ptrs', rfl, hta, h8, hds, hps, ⟨hb, hd, hl, hp⟩, hv⟩ := ho
  injection hv with h1 h2
  subst h1 h2
  simp only [objAt] at hdl hpl
  have hdl' : data.length = 8 * ds := by omega
  obtain ⟨hden, hol⟩ := objDen_of_lay (offs := none) hlay (by omega) hdl' hl
  refine ⟨b', ds, ps, rfl, rfl, ?_, hl', post.al, hds, hps, hden, hol, hlay⟩
  unfold StructObj.compact
  have hrun : (do
      let pos ← allocate 8
      copyFromStruct fuel pos (some (objAt B offs t ds ps)) : BM Unit) newBuilder = .ok () b' := by
    rw [BM.bind_ok (s' := List.replicate 8 0) (a := 0) (by rfl)]
    exact hb'
  simp only [hrun]
  exact initFromBuffer_nat (offs := none) hden.1

/-- `_get_end` of an object. -/
theorem getEnd_spec {B : Bytes} {offs : Option (List Nat)} {t ds ps : Nat} {data : Bytes}
    {ptrs : List Val} (h8 : 8 ∣ t) (hds : ds < 2 ^ 16) (hps : ps < 2 ^ 16)
    (ho : ObjDen B offs t ds ps data ptrs) {fuel : Nat}
    (hfuel : (Val.struct data ptrs).depth ≤ fuel) :
    ∃ r, (objAt B offs t ds ps).getEnd fuel = .ok r ∧
      ((r = -1 ∧ ∀ e, ¬ ObjLay false B t ds ps ptrs e) ∨
        ∃ e : Nat, r = e ∧ ObjLay false B t ds ps ptrs e) := by
  obtain ⟨hb, hd, hl, hp⟩ := ho
  simp only [Val.depth] at hfuel
  obtain ⟨f, rfl⟩ : ∃ f, fuel = f + 1 := ⟨fuel - 1, by omega⟩
  have hpm : Ptr.newStruct 0 (ds : Int) ps % 2 ^ 64 = ((structWord 0 ds ps : Nat) : Int) := by
    rw [newStruct_word _ _ _ hds]; unfold structWord; omega
  have n1 : (((0 : Nat) : Int) = Ptr.STRUCT) := by decide
  have htar : target ((t : Int) - 8) (structWord 0 ds ps) = t := by
    unfold target; rw [offset_structWord _ _ _ (by omega) (by omega)]; omega
  unfold StructObj.getEnd objAt
  simp only [endof, Ptr.kind_spec hpm, kind_structWord, deref_spec hpm, htar, Ptr.dataSize_spec hpm,
    Ptr.ptrsSize_spec hpm, dataSize_structWord _ _ _ hds, ptrsSize_structWord _ _ _ hds hps]
  rw [if_pos n1]
  apply endofStruct_spec (endof (Seg.of B offs) f) (Seg.of B offs) h8 hb hl
  intro j v hj
  refine ⟨?_, ?_⟩
  · intro h0
    have := hp j v hj
    change wordAt B _ = 0 at h0
    rw [h0] at this; exact den_zero this
  · intro h0
    have := Val.depth_le hj
    exact endof_spec (hp j v hj) f _ _ rfl (by omega) h0 (by omega) (signed64_mod _ (wordAt_lt _ _))

end Capnpy
