import Verif.Spec.Compiled
import Verif.Proof.Mem
import Verif.Model.List

/-! # What a copy from an arbitrary source can change in the builder -/

namespace Capnpy

open Spec

/-- The buffer after a call, also after an exception. -/
def finalBuf {α} : EStateM.Result PyErr Bytes α → Bytes
  | .ok _ b => b
  | .error _ b => b

/-- On buffers of at least `L` bytes, `x` does not make the buffer shorter than `L`, does
not change the bytes below `L` which satisfy `P`, and its result satisfies `Q`. -/
def Keeps {α} (L : Nat) (P : Nat → Prop) (x : BM α) (Q : α → Prop) : Prop :=
  ∀ b, L ≤ b.length → L ≤ (finalBuf (x b)).length ∧
    (∀ i, i < L → P i → (finalBuf (x b))[i]? = b[i]?) ∧ ∀ a s, x b = .ok a s → Q a

variable {L : Nat} {P : Nat → Prop}

theorem Keeps.pure {α} {a : α} {Q : α → Prop} (h : Q a) : Keeps L P (Pure.pure a) Q := by
  intro b hb
  refine ⟨hb, fun _ _ _ => rfl, ?_⟩
  intro a' s e
  have e : EStateM.Result.ok a b = .ok a' s := e
  injection e with e1 e2
  subst e1; exact h

theorem Keeps.throw {α} {e : PyErr} {Q : α → Prop} : Keeps L P (MonadExcept.throw e : BM α) Q := by
  intro b hb
  refine ⟨hb, fun _ _ _ => rfl, ?_⟩
  intro a' s h
  have h : (EStateM.Result.error e b : EStateM.Result PyErr Bytes α) = .ok a' s := h
  cases h

theorem Keeps.lift {α} {x : Py α} {Q : α → Prop} (h : ∀ a, x = .ok a → Q a) : Keeps L P (BM.lift x) Q := by
  intro b hb
  unfold BM.lift
  cases x with
  | ok a =>
    refine ⟨hb, fun _ _ _ => rfl, ?_⟩
    intro a' s e
    injection e with e1 e2
    subst e1; exact h _ rfl
  | error e =>
    refine ⟨hb, fun _ _ _ => rfl, ?_⟩
    intro a' s h; cases h

theorem Keeps.bind {α β} {x : BM α} {f : α → BM β} {Q : α → Prop} {R : β → Prop}
    (hx : Keeps L P x Q) (hf : ∀ a, Q a → Keeps L P (f a) R) : Keeps L P (x >>= f) R := by
  intro b hb
  obtain ⟨h1, h2, h3⟩ := hx b hb
  change L ≤ (finalBuf (EStateM.bind x f b)).length ∧ (∀ i, i < L → P i → (finalBuf (EStateM.bind x f b))[i]? = b[i]?) ∧
    ∀ a s, EStateM.bind x f b = .ok a s → R a
  unfold EStateM.bind
  cases hr : x b with
  | ok a s =>
    rw [hr] at h1 h2
    obtain ⟨g1, g2, g3⟩ := hf a (h3 a s hr) s h1
    exact ⟨g1, fun i hi hp => (g2 i hi hp).trans (h2 i hi hp), g3⟩
  | error e s =>
    rw [hr] at h1 h2
    exact ⟨h1, h2, fun _ _ h => by cases h⟩

theorem Keeps.mono {α} {x : BM α} {Q R : α → Prop} (hx : Keeps L P x Q) (h : ∀ a, Q a → R a) : Keeps L P x R :=
  fun b hb => ⟨(hx b hb).1, (hx b hb).2.1, fun a s e => h a ((hx b hb).2.2 a s e)⟩

theorem Keeps.weaken {α} {P' : Nat → Prop} {x : BM α} {Q : α → Prop} (hx : Keeps L P x Q)
    (h : ∀ i, i < L → P' i → P i) : Keeps L P' x Q :=
  fun b hb => ⟨(hx b hb).1, fun i hi hp => (hx b hb).2.1 i hi (h i hi hp), (hx b hb).2.2⟩

theorem Keeps.when {c : Prop} [Decidable c] {x : BM Unit} (hx : Keeps L P x fun _ => True) :
    Keeps L P (BM.when c x) fun _ => True := by
  unfold BM.when
  split
  · exact hx
  · exact .pure trivial

theorem structOffset_ok {len k n : Nat} {i : Int} (h : structOffset len i n = .ok k) :
    k + n ≤ len ∧ (0 ≤ i → (k : Int) = i) := by
  unfold structOffset at h
  split at h
  · split at h
    · cases h
    · split at h
      · cases h
      · injection h with h; omega
  · split at h
    · cases h
    · injection h with h; omega

theorem Fmt.encode_length {fmt : Fmt} {v : Int} {bs : Bytes} (h : fmt.encode v = .ok bs) : bs.length = fmt.size := by
  unfold Fmt.encode at h
  split at h
  · injection h with h
    rw [← h, leBytes_length]
  · cases h

/-- A write at a position all of whose bytes below `L` are not protected. -/
theorem Keeps.writeFmt {fmt : Fmt} {pos v : Int} (h0 : 0 ≤ pos)
    (h : ∀ i : Nat, i < L → P i → ¬ (pos ≤ i ∧ (i : Int) < pos + fmt.size)) :
    Keeps L P (writeFmt fmt pos v) fun _ => True := by
  intro b hb
  unfold Capnpy.writeFmt packInto
  cases he : fmt.encode v with
  | error e => exact ⟨hb, fun _ _ _ => rfl, fun _ _ _ => trivial⟩
  | ok bs =>
    simp only
    have hl := Fmt.encode_length he
    cases hs : structOffset b.length pos fmt.size with
    | error e => exact ⟨hb, fun _ _ _ => rfl, fun _ _ _ => trivial⟩
    | ok k =>
      obtain ⟨hk, hk'⟩ := structOffset_ok hs
      have hk' := hk' h0
      simp only [finalBuf]
      refine ⟨by rw [overwrite_length (by omega)]; exact hb, ?_, fun _ _ _ => trivial⟩
      intro i hi hp
      rw [overwrite_getElem? (by omega)]
      have := h i hi hp
      split
      · rfl
      · rw [if_neg (by omega)]

theorem Keeps.writeInt64 {pos v : Int} (h0 : 0 ≤ pos)
    (h : ∀ i : Nat, i < L → P i → ¬ (pos ≤ i ∧ (i : Int) < pos + 8)) :
    Keeps L P (writeInt64 pos v) fun _ => True :=
  Keeps.writeFmt h0 h

theorem sliceAssign_keeps {b s : Bytes} {pos j : Int} (hpos : (L : Int) ≤ pos) (hb : L ≤ b.length) :
    L ≤ (pySliceAssign b pos j s).length ∧ ∀ i, i < L → (pySliceAssign b pos j s)[i]? = b[i]? := by
  have hlo : L ≤ pyClamp b.length pos := by
    unfold pyClamp; rw [if_neg (by omega)]; omega
  have hle : pyClamp b.length pos ≤ b.length := by
    unfold pyClamp; rw [if_neg (by omega)]; omega
  unfold pySliceAssign
  simp only
  refine ⟨by simp only [List.length_append, List.length_take]; omega, ?_⟩
  intro i hi
  rw [List.append_assoc, List.getElem?_append_left (by simp only [List.length_take]; omega), List.getElem?_take,
    if_pos (by omega)]

theorem Keeps.writeSlice {pos start n : Int} {src : Seg} (hpos : (L : Int) ≤ pos) :
    Keeps L P (writeSlice pos src start n) fun _ => True := by
  intro b hb
  obtain ⟨h1, h2⟩ := sliceAssign_keeps (s := pySlice src.buf start (start + n)) (j := pos + n) hpos hb
  exact ⟨h1, fun i hi _ => h2 i hi, fun _ _ _ => trivial⟩

theorem Keeps.allocate {n : Int} : Keeps L P (allocate n) fun r => (L : Int) ≤ r := by
  intro b hb
  unfold Capnpy.allocate
  simp only [finalBuf]
  refine ⟨by simp; omega, ?_, ?_⟩
  · intro i hi _
    rw [List.getElem?_append_left (by omega)]
  · intro a s e
    injection e with e1 e2
    omega

/-- The word at `pos` is not protected. -/
def Free (L : Nat) (P : Nat → Prop) (pos : Int) : Prop :=
  0 ≤ pos ∧ ∀ i : Nat, i < L → P i → ¬ (pos ≤ i ∧ (i : Int) < pos + 8)

theorem Free.above {pos : Int} (h : (L : Int) ≤ pos) : Free L P pos := ⟨by omega, fun i hi _ => by omega⟩

theorem Keeps.allocStruct {pos ds ps : Int} (h : Free L P pos) :
    Keeps L P (allocStruct pos ds ps) fun r => (L : Int) ≤ r := by
  unfold Capnpy.allocStruct
  refine Keeps.allocate.bind fun r hr => ?_
  exact (Keeps.writeInt64 h.1 h.2).bind fun _ _ => .pure hr

theorem Keeps.allocList {pos tag n body : Int} (h : Free L P pos) :
    Keeps L P (allocList pos tag n body) fun r => (L : Int) ≤ r := by
  unfold Capnpy.allocList
  refine Keeps.allocate.bind fun r hr => ?_
  exact (Keeps.writeInt64 h.1 h.2).bind fun _ _ => .pure hr

theorem Keeps.allocText {pos tz : Int} {s : Option Bytes} (h : Free L P pos) :
    Keeps L P (allocText pos s tz) fun _ => True := by
  unfold Capnpy.allocText
  cases s with
  | none => exact (Keeps.writeInt64 h.1 h.2).bind fun _ _ => .pure trivial
  | some s =>
    refine (Keeps.allocList h).bind fun r hr => ?_
    refine Keeps.bind (Q := fun _ => True) ?_ fun _ _ => .pure trivial
    intro b hb
    have h2 := sliceAssign_keeps (s := s) (j := r + s.length) hr hb
    exact ⟨h2.1, fun i hi _ => h2.2 i hi, fun _ _ _ => trivial⟩

theorem Keeps.checkBounds {src : Seg} {size offset : Int} : Keeps L P (checkBounds src size offset) fun _ => True := by
  unfold Capnpy.checkBounds
  split
  · exact .throw
  · exact .pure trivial

/-- The recursive call is safe on the words above `L`. -/
def RecSafe (L : Nat) (P : Nat → Prop) (rec : CopyRec) : Prop :=
  ∀ p sp dp, (L : Int) ≤ dp → Keeps L P (rec p sp dp) fun _ => True

theorem Keeps.copyPtrsLoop {rec : CopyRec} (hrec : RecSafe L P rec) {src : Seg} {sp dp : Int} (hdp : (L : Int) ≤ dp) :
    ∀ k i, Keeps L P (copyPtrsLoop rec src sp dp k i) fun _ => True
  | 0, _ => .pure trivial
  | k + 1, i => by
    unfold Capnpy.copyPtrsLoop
    refine (Keeps.lift (Q := fun _ => True) fun _ _ => trivial).bind fun p _ => ?_
    refine (Keeps.when (hrec _ _ _ (by omega))).bind fun _ _ => ?_
    exact Keeps.copyPtrsLoop hrec hdp k (i + 1)

theorem Keeps.copyManyPtrs {rec : CopyRec} (hrec : RecSafe L P rec) {src : Seg} {n sp dp : Int} (hdp : (L : Int) ≤ dp) :
    Keeps L P (copyManyPtrs rec n src sp dp) fun _ => True := by
  unfold Capnpy.copyManyPtrs
  exact Keeps.checkBounds.bind fun _ _ => Keeps.copyPtrsLoop hrec hdp _ _

theorem structDataSize_nonneg (p : Int) : 0 ≤ Ptr.structDataSize p := by
  rw [Ptr.structDataSize_eq]; omega
theorem structPtrsSize_nonneg (p : Int) : 0 ≤ Ptr.structPtrsSize p := by
  rw [Ptr.structPtrsSize_eq]; omega

theorem Keeps.copyStruct {rec : CopyRec} (hrec : RecSafe L P rec) {src : Seg} {p sp dp : Int} (hdp : Free L P dp) :
    Keeps L P (copyStruct rec src p sp dp) fun _ => True := by
  unfold Capnpy.copyStruct
  simp only
  split
  · exact Keeps.writeInt64 hdp.1 hdp.2
  · refine (Keeps.allocStruct hdp).bind fun r hr => ?_
    refine Keeps.checkBounds.bind fun _ _ => (Keeps.writeSlice hr).bind fun _ _ => ?_
    exact Keeps.copyManyPtrs hrec (by have := structDataSize_nonneg p; omega)

theorem Keeps.copyStructInline {rec : CopyRec} (hrec : RecSafe L P rec) {src : Seg} {p sp dp : Int} (hdp : (L : Int) ≤ dp) :
    Keeps L P (copyStructInline rec src p sp dp) fun _ => True := by
  unfold Capnpy.copyStructInline
  simp only
  refine Keeps.checkBounds.bind fun _ _ => (Keeps.writeSlice hdp).bind fun _ _ => ?_
  exact Keeps.copyManyPtrs hrec (by have := structDataSize_nonneg p; omega)

theorem Keeps.copyListPrimitive {src : Seg} {p sp dp : Int} (hdp : Free L P dp) :
    Keeps L P (copyListPrimitive src p sp dp) fun _ => True := by
  unfold Capnpy.copyListPrimitive
  simp only
  exact (Keeps.allocList hdp).bind fun r hr => Keeps.checkBounds.bind fun _ _ => Keeps.writeSlice hr

theorem Keeps.copyListPtr {rec : CopyRec} (hrec : RecSafe L P rec) {src : Seg} {p sp dp : Int} (hdp : Free L P dp) :
    Keeps L P (copyListPtr rec src p sp dp) fun _ => True := by
  unfold Capnpy.copyListPtr
  simp only
  exact (Keeps.allocList hdp).bind fun r hr => Keeps.checkBounds.bind fun _ _ => Keeps.copyManyPtrs hrec hr

theorem Keeps.copyItemsLoop {rec : CopyRec} (hrec : RecSafe L P rec) {src : Seg} {sp dp ds ps il : Int}
    (hdp : (L : Int) ≤ dp) (hds : 0 ≤ ds) (hil : 0 ≤ il) :
    ∀ k i, Keeps L P (copyItemsLoop rec src sp dp ds ps il k i) fun _ => True
  | 0, _ => .pure trivial
  | k + 1, i => by
    unfold Capnpy.copyItemsLoop
    simp only
    refine (Keeps.copyManyPtrs hrec ?_).bind fun _ _ => Keeps.copyItemsLoop hrec hdp hds hil k (i + 1)
    have : 0 ≤ il * (i : Int) := mul_nonneg hil (by omega)
    omega

theorem Keeps.copyListComposite {rec : CopyRec} (hrec : RecSafe L P rec) {src : Seg} {p sp dp : Int}
    (hdp : Free L P dp) : Keeps L P (copyListComposite rec src p sp dp) fun _ => True := by
  unfold Capnpy.copyListComposite
  simp only
  refine Keeps.checkBounds.bind fun _ _ => ?_
  refine (Keeps.lift (Q := fun _ => True) fun _ _ => trivial).bind fun tag _ => ?_
  refine (Keeps.allocList hdp).bind fun r hr => (Keeps.writeSlice hr).bind fun _ _ => ?_
  have h1 := structDataSize_nonneg tag
  have h2 := structPtrsSize_nonneg tag
  exact Keeps.copyItemsLoop hrec hr h1 (by omega) _ _

/-- `copy_pointer` from any source: only the destination word and new bytes change. -/
theorem Keeps.copyPointer {src : Seg} : ∀ (fuel : Nat) {p sp dp : Int}, Free L P dp →
    Keeps L P (copyPointer src fuel p sp dp) fun _ => True
  | 0, _, _, _, _ => .throw
  | fuel + 1, p, sp, dp, hdp => by
    have hrec : RecSafe L P (Capnpy.copyPointer src fuel) := fun p sp dp h => Keeps.copyPointer fuel (Free.above h)
    unfold Capnpy.copyPointer
    simp only
    split
    · exact Keeps.copyStruct hrec hdp
    · split
      · split
        · exact Keeps.copyListComposite hrec hdp
        · split
          · exact Keeps.copyListPtr hrec hdp
          · exact Keeps.copyListPrimitive hdp
      · split
        · refine (Keeps.lift (Q := fun _ => True) fun _ _ => trivial).bind fun r _ => ?_
          exact Keeps.copyPointer fuel hdp
        · exact .pure trivial

theorem Keeps.copyFromStruct {fuel : Nat} {dp : Int} {o : Option StructObj} (hdp : Free L P dp) :
    Keeps L P (copyFromStruct fuel dp o) fun _ => True := by
  unfold Capnpy.copyFromStruct
  cases o with
  | none => exact Keeps.writeInt64 hdp.1 hdp.2
  | some o => exact Keeps.copyPointer fuel hdp

/-! ## Lists of Python values -/

theorem Keeps.writeItems {write : Int → PyItem → BM Unit} {il : Int} (hil : 0 ≤ il)
    (hw : ∀ pos x, (L : Int) ≤ pos → Keeps L P (write pos x) fun _ => True) :
    ∀ (l : List PyItem) (pos : Int), (L : Int) ≤ pos → Keeps L P (writeItems write il pos l) fun _ => True
  | [], _, _ => .pure trivial
  | x :: xs, pos, h => by
    unfold Capnpy.writeItems
    exact (hw pos x h).bind fun _ _ => Keeps.writeItems hil hw xs _ (by omega)

theorem Keeps.writeItemBase {fuel : Nat} {it : ItemType} {pos : Int} {x : PyItem} (h : (L : Int) ≤ pos) :
    Keeps L P (writeItemBase fuel it pos x) fun _ => True := by
  have hf : ∀ fmt v, Keeps L P (Capnpy.writeFmt fmt pos v) fun _ => True := fun fmt v =>
    Keeps.writeFmt (by omega) fun i hi _ => by omega
  unfold Capnpy.writeItemBase
  split
  · exact .pure trivial
  · exact .throw
  · exact hf _ _
  · exact hf _ _
  · exact Keeps.copyStructInline (fun p sp dp hd => Keeps.copyPointer _ (Free.above hd)) h
  · exact (Keeps.allocText (Free.above h)).bind fun _ _ => .pure trivial
  · exact (Keeps.allocText (Free.above h)).bind fun _ _ => .pure trivial
  · exact (Keeps.allocText (Free.above h)).bind fun _ _ => .pure trivial
  · exact (Keeps.allocText (Free.above h)).bind fun _ _ => .pure trivial
  all_goals exact .throw

theorem Keeps.copyListWith {it : ItemType} (hit : it.Sized) {write : Int → PyItem → BM Unit} {pos : Int} {l : List PyItem}
    (hpos : Free L P pos) (hbool : it = .bool → ∀ pos x, write pos x = MonadExcept.throw .notImplemented)
    (hw : ∀ pos x, (L : Int) ≤ pos → Keeps L P (write pos x) fun _ => True) :
    Keeps L P (copyListWith it write pos l) fun _ => True := by
  unfold Capnpy.copyListWith
  simp only
  have gen : it ≠ .bool → 0 ≤ it.itemLength → ∀ tag n body, Keeps L P (do
      let pos ← Capnpy.allocList pos tag n body
      Capnpy.writeItems write it.itemLength pos l) fun _ => True := fun _ hl tag n body =>
    (Keeps.allocList hpos).bind fun r hr => Keeps.writeItems hl hw l r hr
  cases it with
  | struct d p =>
    refine (Keeps.allocList hpos).bind fun r hr => ?_
    refine (Keeps.writeInt64 (by omega) fun i hi _ => by omega).bind fun _ _ => ?_
    exact Keeps.writeItems (by have := hit.1; have := hit.2; show 0 ≤ (d + p) * 8; omega) hw l _ (by omega)
  | bool =>
    refine (Keeps.allocList hpos).bind fun r hr => ?_
    cases l with
    | nil => exact .pure trivial
    | cons x xs =>
      unfold Capnpy.writeItems
      rw [hbool rfl]
      exact Keeps.bind (Q := fun _ => False) .throw fun _ h => h.elim
  | void => exact gen (by simp) (by decide) _ _ _
  | prim fmt => exact gen (by simp) (by show (0 : Int) ≤ fmt.size; omega) _ _ _
  | enum => exact gen (by simp) (by decide) _ _ _
  | text => exact gen (by simp) (by decide) _ _ _
  | data => exact gen (by simp) (by decide) _ _ _
  | list inner => exact gen (by simp) (by show (0 : Int) ≤ 8; omega) _ _ _

theorem Keeps.writeItem {fuel : Nat} : ∀ {it : ItemType}, it.Sized → ∀ (pos : Int) (x : PyItem), Free L P pos →
    ((L : Int) ≤ pos ∨ ∃ inner, it = .list inner) → Keeps L P (writeItem fuel it pos x) fun _ => True
  | .list inner, hit, pos, x, hpos, h => by
    unfold Capnpy.writeItem
    cases x with
    | none => exact Keeps.writeInt64 hpos.1 hpos.2
    | list l =>
      refine Keeps.copyListWith (it := inner) hit hpos ?_ fun pos x h => Keeps.writeItem (it := inner) hit pos x (Free.above h) (.inl h)
      rintro rfl pos x
      unfold Capnpy.writeItem
      cases x <;> rfl
    | int i => exact .throw
    | bytes b => exact .throw
    | struct o => exact .throw
  | .void, _, pos, x, _, h => by
    have h := h.resolve_right (by simp)
    unfold Capnpy.writeItem; cases x <;> exact Keeps.writeItemBase h
  | .bool, _, pos, x, _, h => by
    have h := h.resolve_right (by simp)
    unfold Capnpy.writeItem; cases x <;> exact Keeps.writeItemBase h
  | .prim _, _, pos, x, _, h => by
    have h := h.resolve_right (by simp)
    unfold Capnpy.writeItem; cases x <;> exact Keeps.writeItemBase h
  | .enum, _, pos, x, _, h => by
    have h := h.resolve_right (by simp)
    unfold Capnpy.writeItem; cases x <;> exact Keeps.writeItemBase h
  | .struct _ _, _, pos, x, _, h => by
    have h := h.resolve_right (by simp)
    unfold Capnpy.writeItem; cases x <;> exact Keeps.writeItemBase h
  | .text, _, pos, x, _, h => by
    have h := h.resolve_right (by simp)
    unfold Capnpy.writeItem; cases x <;> exact Keeps.writeItemBase h
  | .data, _, pos, x, _, h => by
    have h := h.resolve_right (by simp)
    unfold Capnpy.writeItem; cases x <;> exact Keeps.writeItemBase h

/-- `copy_from_list` of any Python list with any struct objects in it. -/
theorem Keeps.copyFromList {fuel : Nat} {it : ItemType} (hit : it.Sized) {pos : Int} {l : Option (List PyItem)}
    (hpos : Free L P pos) : Keeps L P (copyFromList fuel it pos l) fun _ => True := by
  unfold Capnpy.copyFromList
  cases l with
  | none => exact Keeps.writeInt64 hpos.1 hpos.2
  | some l =>
    refine Keeps.copyListWith hit hpos ?_ fun pos x h => Keeps.writeItem hit pos x (Free.above h) (.inl h)
    rintro rfl pos x
    unfold Capnpy.writeItem
    cases x <;> rfl

end Capnpy
