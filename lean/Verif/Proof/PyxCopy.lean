import Verif.Model.PyxCopy
import Verif.Spec.Reach
import Verif.Proof.CopySafe
import Verif.Proof.Copy
import Verif.Props.Builder

/-! # The compiled copy simulates the pure one -/

namespace Capnpy.Pyx

open Spec Capnpy.Props

/-- The outcome of the pure version and the outcome of the compiled one.  Nothing is said
when the pure version raises `struct.error` (a write out of bounds) or exceeds the recursion
limit. -/
def OutRel {α} (Q : α → Bytes → Prop) : EStateM.Result PyErr Bytes α → PRes α → Prop
  | .ok a b, y => ∃ s, y = .ok a s ∧ Repr s b ∧ Q a b
  | .error e b, y => e = .structError ∨ e = .recursionError ∨ ∃ s, y = .exc e s ∧ Repr s b

/-- From the pure state `b` and any compiled state which represents it. -/
def SimAt {α} (b : Bytes) (x : BM α) (y : PM α) (Q : α → Bytes → Prop) : Prop :=
  ∀ s, Repr s b → OutRel Q (x b) (y s)

theorem SimAt.bind {α β} {b : Bytes} {x : BM α} {y : PM α} {f : α → BM β} {g : α → PM β}
    {Q : α → Bytes → Prop} {R : β → Bytes → Prop} (h : SimAt b x y Q)
    (hf : ∀ a b', Q a b' → SimAt b' (f a) (g a) R) : SimAt b (x >>= f) (y >>= g) R := by
  intro s hs
  have h1 := h s hs
  change OutRel R (EStateM.bind x f b) (match y s with
    | .ok a s => g a s
    | .exc e s => .exc e s
    | .ub => .ub)
  unfold EStateM.bind
  cases hx : x b with
  | ok a b' =>
    rw [hx] at h1
    obtain ⟨s', e1, e2, e3⟩ := h1
    simp only [e1]
    exact hf a b' e3 s' e2
  | error e b' =>
    rw [hx] at h1
    rcases h1 with h1 | h1 | ⟨s', e1, e2⟩
    · exact .inl h1
    · exact .inr (.inl h1)
    · simp only [e1]; exact .inr (.inr ⟨s', rfl, e2⟩)

theorem SimAt.pure {α} {b : Bytes} {a : α} {Q : α → Bytes → Prop} (h : Q a b) :
    SimAt b (Pure.pure a) (Pure.pure a) Q := fun s hs => ⟨s, rfl, hs, h⟩

theorem SimAt.lift {α} {b : Bytes} {x : Py α} {Q : α → Bytes → Prop} (h : ∀ a, x = .ok a → Q a b) :
    SimAt b (BM.lift x) (PM.lift x) Q := by
  intro s hs
  unfold BM.lift PM.lift
  cases x with
  | ok a => exact ⟨s, rfl, hs, h a rfl⟩
  | error e => exact .inr (.inr ⟨s, rfl, hs⟩)

theorem SimAt.mono {α} {b : Bytes} {x : BM α} {y : PM α} {Q R : α → Bytes → Prop}
    (h : SimAt b x y Q) (hQ : ∀ a b', Q a b' → R a b') : SimAt b x y R := by
  intro s hs
  have h1 := h s hs
  cases hx : x b with
  | ok a b' =>
    rw [hx] at h1
    obtain ⟨s', e1, e2, e3⟩ := h1
    exact ⟨s', e1, e2, hQ _ _ e3⟩
  | error e b' => rw [hx] at h1; exact h1

theorem SimAt.checkBounds {b : Bytes} {src : Seg} {size offset : Int} :
    SimAt b (checkBounds src size offset) (checkBoundsC src size offset)
      fun _ b' => b' = b ∧ offset + size ≤ src.buf.length := by
  intro s hs
  unfold Capnpy.checkBounds checkBoundsC
  by_cases h : offset + size > src.buf.length
  · rw [if_pos h, if_pos h]
    exact .inr (.inr ⟨s, rfl, hs⟩)
  · rw [if_neg h, if_neg h]
    exact ⟨s, rfl, hs, rfl, by omega⟩

/-- A read in bounds. -/
theorem SimAt.readFast {b : Bytes} {src : Seg} {i : Nat} (h : i + 8 ≤ src.buf.length) :
    SimAt b (BM.lift (readInt64 src.buf (i : Int))) (readInt64Fast src (i : Int))
      fun p b' => b' = b ∧ p = signed64 (wordAt src.buf i) := by
  intro s hs
  rw [readInt64_nat h]
  unfold readInt64Fast BM.lift
  rw [if_pos (by omega)]
  have := readInt64_nat h
  unfold readInt64 at this
  rw [readPrimitive_nat (show i + Fmt.size .q ≤ src.buf.length from h)] at this
  have this := Except.ok.inj this
  have e8 : Fmt.size .q = 8 := rfl
  rw [e8] at this
  rw [Int.toNat_natCast, this]
  exact ⟨s, rfl, hs, rfl, rfl⟩

/-- `write_int64` at a position which is not negative. -/
theorem SimAt.writeInt64 {b : Bytes} {i : Nat} {p : Int} :
    SimAt b (Capnpy.writeInt64 (i : Int) p) (writeInt64C (i : Int) p) fun _ b' => b'.length = b.length := by
  intro s hs
  cases hx : Capnpy.writeInt64 (i : Int) p b with
  | error e b' =>
    left
    unfold Capnpy.writeInt64 Capnpy.writeFmt packInto at hx
    cases he : Fmt.q.encode p with
    | error e1 =>
      rw [he] at hx
      unfold Fmt.encode at he
      split at he
      · cases he
      · cases he; cases hx; rfl
    | ok bs =>
      rw [he] at hx
      simp only at hx
      cases hso : structOffset b.length (i : Int) (Fmt.size .q) with
      | ok k => rw [hso] at hx; cases hx
      | error e1 =>
        rw [hso] at hx
        cases hx
        unfold structOffset at hso
        rw [if_neg (by omega)] at hso
        split at hso
        · cases hso; rfl
        · cases hso
  | ok a b' =>
    have hi : i + 8 ≤ b.length := by
      unfold Capnpy.writeInt64 Capnpy.writeFmt packInto at hx
      cases he : Fmt.q.encode p with
      | error e1 => rw [he] at hx; cases hx
      | ok bs =>
        rw [he] at hx
        simp only at hx
        cases hs : structOffset b.length (i : Int) (Fmt.size .q) with
        | error e1 => rw [hs] at hx; cases hx
        | ok k =>
          obtain ⟨h1, h2⟩ := structOffset_ok hs
          have h2 := h2 (by omega)
          have : Fmt.size .q = 8 := rfl
          omega
    obtain ⟨s', e1, e2⟩ := repr_writePtr hs hi hx
    obtain ⟨bs, f1, f2, f3⟩ := writeFmt_run hi hx
    have f2 : bs.length = 8 := f2
    refine ⟨s', ?_, e2, (by rw [f3]; exact overwrite_length (by omega))⟩
    unfold writeInt64C PM.ofOption
    simp only [e1]

/-- A `write_slice` in bounds. -/
theorem SimAt.writeSlice {b : Bytes} {src : Seg} {i start n : Nat} (hi : i + n ≤ b.length)
    (hs : start + n ≤ src.buf.length) :
    SimAt b (Capnpy.writeSlice (i : Int) src (start : Int) (n : Int)) (writeSliceC (i : Int) src (start : Int) (n : Int))
      fun _ b' => b'.length = b.length := by
  intro s hr
  rw [writeSlice_nat hi hs]
  have hl : (slice src.buf start n).length = n := slice_length_of_le hs
  obtain ⟨b', e1, e2⟩ := repr_store hr (i := i) (bs := slice src.buf start n) (by omega)
  refine ⟨{ s with buf := b' }, ?_, e2, overwrite_length (by omega)⟩
  unfold writeSliceC PM.ofOption Pyx.writeSlice
  simp only [Int.toNat_natCast]
  rw [if_pos (by omega), e1]

section

variable (junk : Builder → Nat → UInt8)

theorem SimAt.allocate {b : Bytes} {n : Nat} :
    SimAt b (Capnpy.allocate (n : Int)) (allocateC junk (n : Int)) fun r b' => r = (b.length : Int) ∧ b'.length = b.length + n := by
  intro s hs
  rw [allocate_nat]
  obtain ⟨s', e1, e2⟩ := repr_allocate hs (junk s) n
  refine ⟨s', ?_, e2, rfl, by simp⟩
  unfold allocateC PM.ofOptionR
  simp only [e1]

theorem allocStructC_eq (pos ds ps : Int) : allocStructC junk pos ds ps = (do
    let r ← allocateC junk ((ds + ps) * 8)
    writeInt64C pos (Ptr.newStruct ((r - (pos + 8)) / 8) ds ps)
    Pure.pure r) := by
  funext s
  unfold allocStructC PM.ofOptionR Pyx.allocStruct
  simp only [bind, Option.bind, allocateC, PM.ofOptionR, writeInt64C, PM.ofOption]
  cases h : Pyx.allocate (junk s) s ((ds + ps) * 8) with
  | none => rfl
  | some x =>
    obtain ⟨r, s1⟩ := x
    simp only
    cases h2 : writePtr s1 pos (Ptr.newStruct ((r - (pos + 8)) / 8) ds ps) with
    | none => rfl
    | some s2 => rfl

theorem allocListC_eq (pos tag n body : Int) : allocListC junk pos tag n body = (do
    let r ← allocateC junk (Ptr.roundUpToWord body)
    writeInt64C pos (Ptr.newList ((r - (pos + 8)) / 8) tag n)
    Pure.pure r) := by
  funext s
  unfold allocListC PM.ofOptionR Pyx.allocList
  simp only [bind, Option.bind, allocateC, PM.ofOptionR, writeInt64C, PM.ofOption]
  rw [roundToWord_eq]
  cases h : Pyx.allocate (junk s) s (Ptr.roundUpToWord body) with
  | none => rfl
  | some x =>
    obtain ⟨r, s1⟩ := x
    simp only
    cases h2 : writePtr s1 pos (Ptr.newList ((r - (pos + 8)) / 8) tag n) with
    | none => rfl
    | some s2 => rfl

theorem SimAt.allocStruct {b : Bytes} {pos ds ps : Nat} :
    SimAt b (Capnpy.allocStruct (pos : Int) ds ps) (allocStructC junk (pos : Int) ds ps)
      fun r b' => r = (b.length : Int) ∧ b'.length = b.length + 8 * (ds + ps) := by
  rw [allocStructC_eq]
  unfold Capnpy.allocStruct
  have e : (((ds : Int) + ps) * 8) = ((8 * (ds + ps) : Nat) : Int) := by push_cast; ring
  simp only [e]
  refine (SimAt.allocate junk).bind fun r b1 h1 => ?_
  refine SimAt.writeInt64.bind fun _ b2 h2 => SimAt.pure ⟨h1.1, by omega⟩

theorem SimAt.allocList {b : Bytes} {pos body : Nat} {tag n : Int} :
    SimAt b (Capnpy.allocList (pos : Int) tag n (body : Int)) (allocListC junk (pos : Int) tag n (body : Int))
      fun r b' => r = (b.length : Int) ∧ b'.length = b.length + wordAlign body := by
  rw [allocListC_eq]
  unfold Capnpy.allocList
  simp only [roundUp_nat]
  refine (SimAt.allocate junk).bind fun r b1 h1 => ?_
  refine SimAt.writeInt64.bind fun _ b2 h2 => SimAt.pure ⟨h1.1, by omega⟩

/-! ## Reachable pointers -/

theorem NoneBefore.start {B : Bytes} {far} {o : Int} {w : Nat} (h : NoneBefore B far o w) (hk : kind w < 2) :
    ∃ t : Nat, target o w = t := by
  have := h (o, w) .refl hk
  exact ⟨(target o w).toNat, by simp only at this; omega⟩

theorem NoneBefore.child {B : Bytes} {far} {o o' : Int} {w w' : Nat} (h : NoneBefore B far o w)
    (hc : Child B far (o, w) (o', w')) (h0 : w' ≠ 0) : NoneBefore B far o' w' := by
  intro x hx hk
  exact h x (.head ⟨hc, h0⟩ hx) hk

/-- The recursive calls of the two versions agree. -/
def RecSim (S : Seg) (rec : CopyRec) (prec : PCopyRec) : Prop :=
  ∀ (p o : Int) (w dst : Nat) (b : Bytes), p % 2 ^ 64 = (w : Int) → NoneBefore S.buf (FarLeads S) o w →
    SimAt b (rec p o (dst : Int)) (prec p o (dst : Int)) fun _ _ => True

variable {S : Seg} {rec : CopyRec} {prec : PCopyRec}

theorem SimAt.copyPtrsLoop (hrec : RecSim S rec prec) (sp dp n : Nat) (hs : sp + 8 * n ≤ S.buf.length)
    (hc : ∀ j, j < n → wordAt S.buf (sp + 8 * j) ≠ 0 →
      NoneBefore S.buf (FarLeads S) ((sp + 8 * j : Nat) : Int) (wordAt S.buf (sp + 8 * j))) :
    ∀ (k i : Nat) (b : Bytes), i + k = n →
      SimAt b (copyPtrsLoop rec S (sp : Int) (dp : Int) k i) (copyPtrsLoopC prec S (sp : Int) (dp : Int) k i)
        fun _ _ => True := by
  intro k
  induction k with
  | zero => intro i b _; exact SimAt.pure trivial
  | succ k ih =>
    intro i b hik
    have e1 : ((sp : Int) + (i : Int) * 8) = ((sp + 8 * i : Nat) : Int) := by push_cast; ring
    have e2 : ((dp : Int) + (i : Int) * 8) = ((dp + 8 * i : Nat) : Int) := by push_cast; ring
    unfold Capnpy.copyPtrsLoop copyPtrsLoopC
    simp only [e1, e2]
    refine (SimAt.readFast (by omega)).bind fun p b1 h1 => ?_
    obtain ⟨rfl, rfl⟩ := h1
    unfold BM.when
    by_cases h0 : wordAt S.buf (sp + 8 * i) = 0
    · have hz : signed64 (wordAt S.buf (sp + 8 * i)) = 0 := by rw [h0]; decide
      rw [if_neg (not_not.mpr hz), if_neg (not_not.mpr hz)]
      exact ih (i + 1) _ (by omega)
    · have hz : signed64 (wordAt S.buf (sp + 8 * i)) ≠ 0 := by
        rw [Ne, signed64_eq_zero (wordAt_lt _ _)]; exact h0
      rw [if_pos hz, if_pos hz]
      refine (hrec _ _ _ _ _ (signed64_mod _ (wordAt_lt _ _)) (hc i (by omega) h0)).bind fun _ b2 _ => ?_
      exact ih (i + 1) _ (by omega)

theorem SimAt.copyManyPtrs (hrec : RecSim S rec prec) (sp dp n : Nat) (b : Bytes)
    (hc : ∀ j, j < n → sp + 8 * j + 8 ≤ S.buf.length → wordAt S.buf (sp + 8 * j) ≠ 0 →
      NoneBefore S.buf (FarLeads S) ((sp + 8 * j : Nat) : Int) (wordAt S.buf (sp + 8 * j))) :
    SimAt b (copyManyPtrs rec (n : Int) S (sp : Int) (dp : Int)) (copyManyPtrsC prec (n : Int) S (sp : Int) (dp : Int))
      fun _ _ => True := by
  unfold Capnpy.copyManyPtrs copyManyPtrsC
  refine SimAt.checkBounds.bind fun _ b1 h1 => ?_
  obtain ⟨rfl, h1⟩ := h1
  rw [Int.toNat_natCast]
  exact SimAt.copyPtrsLoop hrec sp dp n (by omega) (fun j hj => hc j hj (by omega)) n 0 _ (by omega)

/-- The data and pointer sections of a struct at `t`. -/
theorem SimAt.sections (hrec : RecSim S rec prec) {o : Int} {w t dst : Nat} {b : Bytes}
    (hn : NoneBefore S.buf (FarLeads S) o w) (hk : kind w = 0) (ht : target o w = t)
    (hd : dst + 8 * dataSize w ≤ b.length) :
    SimAt b
      (do Capnpy.checkBounds S ((dataSize w : Int) * 8) (t : Int)
          Capnpy.writeSlice (dst : Int) S (t : Int) ((dataSize w : Int) * 8)
          Capnpy.copyManyPtrs rec (ptrsSize w : Int) S ((t : Int) + (dataSize w : Int) * 8) ((dst : Int) + (dataSize w : Int) * 8))
      (do checkBoundsC S ((dataSize w : Int) * 8) (t : Int)
          writeSliceC (dst : Int) S (t : Int) ((dataSize w : Int) * 8)
          copyManyPtrsC prec (ptrsSize w : Int) S ((t : Int) + (dataSize w : Int) * 8) ((dst : Int) + (dataSize w : Int) * 8))
      fun _ _ => True := by
  have e8 : ((dataSize w : Nat) : Int) * 8 = ((8 * dataSize w : Nat) : Int) := by push_cast; ring
  rw [e8, ← Int.natCast_add, ← Int.natCast_add]
  refine SimAt.checkBounds.bind fun _ b1 h1 => ?_
  obtain ⟨rfl, h1⟩ := h1
  refine (SimAt.writeSlice (by omega) (by omega)).bind fun _ b2 h2 => ?_
  refine SimAt.copyManyPtrs hrec _ _ _ _ fun j hj hb h0 => ?_
  exact NoneBefore.child hn (.struct o w t j hk ht hj hb) h0

theorem SimAt.copyStruct (hrec : RecSim S rec prec) {p o : Int} {w dst : Nat} {b : Bytes}
    (hpw : p % 2 ^ 64 = (w : Int)) (hn : NoneBefore S.buf (FarLeads S) o w) (hk : kind w = 0) :
    SimAt b (copyStruct rec S p o (dst : Int)) (copyStructC junk prec S p o (dst : Int)) fun _ _ => True := by
  obtain ⟨t, ht⟩ := NoneBefore.start hn (by omega)
  unfold Capnpy.copyStruct copyStructC
  simp only [deref_spec hpw, ht, Ptr.dataSize_spec hpw, Ptr.ptrsSize_spec hpw]
  by_cases hz : ((dataSize w : Nat) : Int) + ((ptrsSize w : Nat) : Int) = 0
  · rw [if_pos hz, if_pos hz]
    generalize Ptr.newStruct (-1) 0 0 = q
    exact (SimAt.writeInt64 (p := q)).mono fun _ _ _ => trivial
  · rw [if_neg hz, if_neg hz]
    refine (SimAt.allocStruct junk).bind fun r b1 h1 => ?_
    obtain ⟨rfl, h1⟩ := h1
    exact SimAt.sections hrec hn hk ht (by omega)

theorem SimAt.copyStructInline (hrec : RecSim S rec prec) {p o : Int} {w dst : Nat} {b : Bytes}
    (hpw : p % 2 ^ 64 = (w : Int)) (hn : NoneBefore S.buf (FarLeads S) o w) (hk : kind w = 0)
    (hd : dst + 8 * dataSize w ≤ b.length) :
    SimAt b (copyStructInline rec S p o (dst : Int)) (copyStructInlineC prec S p o (dst : Int)) fun _ _ => True := by
  obtain ⟨t, ht⟩ := NoneBefore.start hn (by omega)
  unfold Capnpy.copyStructInline copyStructInlineC
  simp only [deref_spec hpw, ht, Ptr.dataSize_spec hpw, Ptr.ptrsSize_spec hpw]
  exact SimAt.sections hrec hn hk ht hd

theorem SimAt.copyListPrimitive {p o : Int} {w dst : Nat} {b : Bytes}
    (hpw : p % 2 ^ 64 = (w : Int)) (hn : NoneBefore S.buf (FarLeads S) o w) (hk : kind w = 1) (hg : listTag w ≤ 5) :
    SimAt b (copyListPrimitive S p o (dst : Int)) (copyListPrimitiveC junk S p o (dst : Int)) fun _ _ => True := by
  obtain ⟨t, ht⟩ := NoneBefore.start hn (by omega)
  unfold Capnpy.copyListPrimitive copyListPrimitiveC
  simp only [deref_spec hpw, ht, Ptr.listTag_spec hpw, Ptr.listCount_spec hpw, bodyLength_eq hg]
  refine (SimAt.allocList junk).bind fun r b1 h1 => ?_
  obtain ⟨rfl, h1⟩ := h1
  refine SimAt.checkBounds.bind fun _ b2 h2 => ?_
  obtain ⟨rfl, h2⟩ := h2
  have : primLen (listTag w) (listCount w) ≤ wordAlign (primLen (listTag w) (listCount w)) := by
    unfold wordAlign; omega
  exact (SimAt.writeSlice (by omega) (by omega)).mono fun _ _ _ => trivial

theorem SimAt.copyListPtr (hrec : RecSim S rec prec) {p o : Int} {w dst : Nat} {b : Bytes}
    (hpw : p % 2 ^ 64 = (w : Int)) (hn : NoneBefore S.buf (FarLeads S) o w) (hk : kind w = 1) (hg : listTag w = 6) :
    SimAt b (copyListPtr rec S p o (dst : Int)) (copyListPtrC junk prec S p o (dst : Int)) fun _ _ => True := by
  obtain ⟨t, ht⟩ := NoneBefore.start hn (by omega)
  unfold Capnpy.copyListPtr copyListPtrC
  have e : ((listCount w : Nat) : Int) * 8 = ((8 * listCount w : Nat) : Int) := by push_cast; ring
  simp only [deref_spec hpw, ht, Ptr.listCount_spec hpw, e]
  refine (SimAt.allocList junk).bind fun r b1 h1 => ?_
  obtain ⟨rfl, h1⟩ := h1
  refine SimAt.checkBounds.bind fun _ b2 h2 => ?_
  refine SimAt.copyManyPtrs hrec _ _ _ _ fun j hj hb h0 => ?_
  exact NoneBefore.child hn (.listPtr o w t j hk hg ht hj hb) h0

theorem SimAt.copyItemsLoop (hrec : RecSim S rec prec) (sp dp ds ps n : Nat)
    (hc : ∀ i j, i < n → j < ps → sp + 8 + i * (8 * (ds + ps)) + 8 * ds + 8 * j + 8 ≤ S.buf.length →
      wordAt S.buf (sp + 8 + i * (8 * (ds + ps)) + 8 * ds + 8 * j) ≠ 0 →
      NoneBefore S.buf (FarLeads S) ((sp + 8 + i * (8 * (ds + ps)) + 8 * ds + 8 * j : Nat) : Int)
        (wordAt S.buf (sp + 8 + i * (8 * (ds + ps)) + 8 * ds + 8 * j))) :
    ∀ (k i : Nat) (b : Bytes), i + k = n →
      SimAt b (copyItemsLoop rec S (sp : Int) (dp : Int) ds ps (((ds : Int) + ps) * 8) k i)
        (copyItemsLoopC prec S (sp : Int) (dp : Int) ds ps (((ds : Int) + ps) * 8) k i) fun _ _ => True := by
  intro k
  induction k with
  | zero => intro i b _; exact SimAt.pure trivial
  | succ k ih =>
    intro i b hik
    unfold Capnpy.copyItemsLoop copyItemsLoopC
    have e1 : ((sp : Int) + (8 + ((ds : Int) + ps) * 8 * (i : Int) + (ds : Int) * 8)) =
        ((sp + 8 + i * (8 * (ds + ps)) + 8 * ds : Nat) : Int) := by push_cast; ring
    have e2 : ((dp : Int) + (8 + ((ds : Int) + ps) * 8 * (i : Int) + (ds : Int) * 8)) =
        ((dp + 8 + i * (8 * (ds + ps)) + 8 * ds : Nat) : Int) := by push_cast; ring
    simp only [e1, e2]
    refine (SimAt.copyManyPtrs hrec _ _ _ _ fun j hj hb h0 => hc i j (by omega) hj hb h0).bind fun _ b1 _ => ?_
    exact ih (i + 1) _ (by omega)

theorem SimAt.copyListComposite (hrec : RecSim S rec prec) {p o : Int} {w dst : Nat} {b : Bytes}
    (hpw : p % 2 ^ 64 = (w : Int)) (hn : NoneBefore S.buf (FarLeads S) o w) (hk : kind w = 1) (hg : listTag w = 7) :
    SimAt b (copyListComposite rec S p o (dst : Int)) (copyListCompositeC junk prec S p o (dst : Int))
      fun _ _ => True := by
  obtain ⟨t, ht⟩ := NoneBefore.start hn (by omega)
  unfold Capnpy.copyListComposite copyListCompositeC
  have e : (((listCount w : Nat) : Int) + 1) * 8 = ((8 * (listCount w + 1) : Nat) : Int) := by push_cast; ring
  simp only [deref_spec hpw, ht, Ptr.listCount_spec hpw, e]
  refine SimAt.checkBounds.bind fun _ b1 h1 => ?_
  obtain ⟨rfl, h1⟩ := h1
  refine (SimAt.readFast (by omega)).bind fun tag b2 h2 => ?_
  obtain ⟨rfl, rfl⟩ := h2
  have hm := signed64_mod _ (wordAt_lt S.buf t)
  simp only [Ptr.offset_spec hm, Ptr.dataSize_spec hm, Ptr.ptrsSize_spec hm]
  refine (SimAt.allocList junk).bind fun r b3 h3 => ?_
  obtain ⟨rfl, h3⟩ := h3
  have : 8 * (listCount w + 1) ≤ wordAlign (8 * (listCount w + 1)) := by unfold wordAlign; omega
  refine (SimAt.writeSlice (by omega) (by omega)).bind fun _ b4 h4 => ?_
  refine SimAt.copyItemsLoop hrec _ _ _ _ (offset (wordAt S.buf t)).toNat (fun i j hi hj hb h0 => ?_) _ _ _ (by omega)
  exact NoneBefore.child hn (.listComp o w t i j _ hk hg ht (by omega) hj rfl hb) h0

/-- A null pointer is copied as an empty struct. -/
theorem SimAt.copyPointer_null (S : Seg) {p o : Int} {dst : Nat} {b : Bytes} (hp : p % 2 ^ 64 = ((0 : Nat) : Int)) :
    ∀ fuel, SimAt b (copyPointer S fuel p o (dst : Int)) (copyPointerC junk S fuel p o (dst : Int)) fun _ _ => True := by
  intro fuel
  cases fuel with
  | zero => intro s _; exact .inr (.inl rfl)
  | succ fuel =>
    unfold Capnpy.copyPointer copyPointerC
    have hk : Ptr.kind p = Ptr.STRUCT := by rw [Ptr.kind_spec hp]; decide
    simp only [hk]
    rw [if_pos trivial, if_pos trivial]
    unfold Capnpy.copyStruct copyStructC
    have hz : Ptr.structDataSize p + Ptr.structPtrsSize p = 0 := by
      rw [Ptr.dataSize_spec hp, Ptr.ptrsSize_spec hp]; decide
    simp only [hz]
    rw [if_pos trivial, if_pos trivial]
    generalize Ptr.newStruct (-1) 0 0 = q
    exact (SimAt.writeInt64 (p := q)).mono fun _ _ _ => trivial

/-- The main simulation: from any message. -/
theorem SimAt.copyPointer (S : Seg) : ∀ fuel, RecSim S (copyPointer S fuel) (copyPointerC junk S fuel) := by
  intro fuel
  induction fuel with
  | zero =>
    intro p o w dst b _ _ s _
    exact .inr (.inl rfl)
  | succ fuel ih =>
    intro p o w dst b hpw hn
    unfold Capnpy.copyPointer copyPointerC
    simp only [Ptr.kind_spec hpw, Ptr.listTag_spec hpw]
    by_cases h0 : ((kind w : Nat) : Int) = Ptr.STRUCT
    · rw [if_pos h0, if_pos h0]
      exact SimAt.copyStruct junk ih hpw hn (by unfold Ptr.STRUCT at h0; omega)
    rw [if_neg h0, if_neg h0]
    by_cases h1 : ((kind w : Nat) : Int) = Ptr.LIST
    · rw [if_pos h1, if_pos h1]
      have h1 : kind w = 1 := by unfold Ptr.LIST at h1; omega
      have h8 : listTag w < 8 := by unfold listTag; omega
      by_cases h2 : ((listTag w : Nat) : Int) = Ptr.LIST_SIZE_COMPOSITE
      · rw [if_pos h2, if_pos h2]
        exact SimAt.copyListComposite junk ih hpw hn h1 (by unfold Ptr.LIST_SIZE_COMPOSITE at h2; omega)
      rw [if_neg h2, if_neg h2]
      by_cases h3 : ((listTag w : Nat) : Int) = Ptr.LIST_SIZE_PTR
      · rw [if_pos h3, if_pos h3]
        exact SimAt.copyListPtr junk ih hpw hn h1 (by unfold Ptr.LIST_SIZE_PTR at h3; omega)
      rw [if_neg h3, if_neg h3]
      exact SimAt.copyListPrimitive junk hpw hn h1 (by
        unfold Ptr.LIST_SIZE_PTR at h3; unfold Ptr.LIST_SIZE_COMPOSITE at h2; omega)
    rw [if_neg h1, if_neg h1]
    by_cases h2 : ((kind w : Nat) : Int) = Ptr.FAR
    · rw [if_pos h2, if_pos h2]
      refine (SimAt.lift (Q := fun a b' => b' = b ∧ S.readFarPtr o = .ok a) fun a ha => ⟨rfl, ha⟩).bind fun a b1 h3 => ?_
      obtain ⟨o', p'⟩ := a
      obtain ⟨rfl, h3⟩ := h3
      simp only
      obtain ⟨w', hw'⟩ := Int.eq_ofNat_of_zero_le (Int.emod_nonneg p' (by norm_num : (2 : Int) ^ 64 ≠ 0))
      by_cases hz : w' = 0
      · -- a null landing pad: a struct of size zero
        subst hz
        exact SimAt.copyPointer_null junk S hw' fuel
      · exact ih p' o' w' dst _ hw' (NoneBefore.child hn (.far o o' w w' (by unfold Ptr.FAR at h2; omega) ⟨p', h3, hw'⟩) hz)
    · rw [if_neg h2, if_neg h2]
      exact SimAt.pure trivial

end

/-! ## Well-formed messages -/

theorem den_noneBefore {B : Bytes} {offs : Option (List Nat)} {o : Int} {w : Nat} {v : Val}
    (h : Den B offs o w v) : w ≠ 0 → NoneBefore B (FarLeads (Seg.of B offs)) o w := by
  induction h with
  | null o => intro h; exact absurd rfl h
  | struct o w t data ptrs hw hk ht hb hd hl hp ih =>
    intro _ x hx hkx
    rcases Relation.ReflTransGen.cases_head hx with rfl | ⟨c, ⟨hc, hc0⟩, hcx⟩
    · simp only; omega
    · cases hc with
      | struct _ _ t' j hk' ht' hj hb' =>
        obtain rfl : t = t' := by omega
        have hj' : j < ptrs.length := by omega
        exact ih j _ (List.getElem?_eq_getElem hj') hc0 x hcx hkx
      | listPtr _ _ _ _ hk' => omega
      | listComp _ _ _ _ _ _ hk' => omega
      | far _ _ _ _ hk' => omega
  | listPrim o w t hk hg ht hb =>
    intro _ x hx hkx
    rcases Relation.ReflTransGen.cases_head hx with rfl | ⟨c, ⟨hc, hc0⟩, hcx⟩
    · simp only; omega
    · cases hc with
      | struct _ _ _ _ hk' => omega
      | listPtr _ _ _ _ hk' hg' => omega
      | listComp _ _ _ _ _ _ hk' hg' => omega
      | far _ _ _ _ hk' => omega
  | listPtr o w t items hk hg ht hb hl hp ih =>
    intro _ x hx hkx
    rcases Relation.ReflTransGen.cases_head hx with rfl | ⟨c, ⟨hc, hc0⟩, hcx⟩
    · simp only; omega
    · cases hc with
      | struct _ _ _ _ hk' => omega
      | listPtr _ _ t' j hk' hg' ht' hj hb' =>
        obtain rfl : t = t' := by omega
        have hj' : j < items.length := by omega
        exact ih j _ (List.getElem?_eq_getElem hj') hc0 x hcx hkx
      | listComp _ _ _ _ _ _ hk' hg' => omega
      | far _ _ _ _ hk' => omega
  | listComp o w t tag ds ps items hk hg ht hb htag hkt hds hps hn htot hi hp ih =>
    intro _ x hx hkx
    rcases Relation.ReflTransGen.cases_head hx with rfl | ⟨c, ⟨hc, hc0⟩, hcx⟩
    · simp only; omega
    · cases hc with
      | struct _ _ _ _ hk' => omega
      | listPtr _ _ _ _ hk' hg' => omega
      | listComp _ _ t' i j pos hk' hg' ht' hi' hj hpos hb' =>
        obtain rfl : t = t' := by omega
        subst htag hds hps
        have hi1 : i < items.length := by omega
        have e1 : items[i]? = some (items[i].1, items[i].2) := List.getElem?_eq_getElem hi1
        obtain ⟨_, e2⟩ := hi i _ _ e1
        have hj' : j < items[i].2.length := by omega
        subst hpos
        exact ih i _ _ e1 j _ (List.getElem?_eq_getElem hj') hc0 x hcx hkx
      | far _ _ _ _ hk' => omega
  | far o w pos st tbl v ho how hk hf htbl hst hpos hb hpk hp0 hd ih =>
    intro _ x hx hkx
    rcases Relation.ReflTransGen.cases_head hx with rfl | ⟨c, ⟨hc, hc0⟩, hcx⟩
    · simp only at hkx; omega
    · cases hc with
      | struct _ _ _ _ hk' => omega
      | listPtr _ _ _ _ hk' hg' => omega
      | listComp _ _ _ _ _ _ hk' hg' => omega
      | far _ o' _ w' _ hf' =>
        obtain ⟨p', e1, e2⟩ := hf'
        subst htbl how
        rw [readFarPtr_single ho hf hst hpos hb] at e1
        have e1 := Except.ok.inj e1
        obtain ⟨rfl, rfl⟩ := Prod.mk.inj e1
        have e3 := (signed64_mod (wordAt B pos) (wordAt_lt _ _)).symm.trans e2
        have e3 : wordAt B pos = w' := Int.ofNat.inj e3
        subst e3
        exact ih hp0 x hcx hkx
  | far2 o w pos st st2 tbl v ho how hk hf htbl hst hpos hb hfk hff hst2 htk ht0 hto hd ih =>
    intro _ x hx hkx
    rcases Relation.ReflTransGen.cases_head hx with rfl | ⟨c, ⟨hc, hc0⟩, hcx⟩
    · simp only at hkx; omega
    · cases hc with
      | struct _ _ _ _ hk' => omega
      | listPtr _ _ _ _ hk' hg' => omega
      | listComp _ _ _ _ _ _ hk' hg' => omega
      | far _ o' _ w' _ hf' =>
        obtain ⟨p', e1, e2⟩ := hf'
        subst htbl how
        rw [readFarPtr_double ho hf hst hpos hb hfk hff hst2 hto] at e1
        have e1 := Except.ok.inj e1
        obtain ⟨rfl, rfl⟩ := Prod.mk.inj e1
        have e3 := (signed64_mod (wordAt B (pos + 8)) (wordAt_lt _ _)).symm.trans e2
        have e3 : wordAt B (pos + 8) = w' := Int.ofNat.inj e3
        subst e3
        exact ih ht0 x hcx hkx

/-- The pointer which `copy_from_struct` makes to the object itself. -/
theorem denotes_noneBefore {o : StructObj} {v : Val} (ho : Denotes o v) (hlen : o.seg.buf.length ≤ 2 ^ 32) :
    ∃ w : Nat, o.asPointer 0 % 2 ^ 64 = (w : Int) ∧ NoneBefore o.seg.buf (FarLeads o.seg) 0 w := by
  obtain ⟨B, offs, t, ds, ps, data, ptrs, rfl, hta, h8, hds, hps, ⟨hb, hd, hl, hp⟩, rfl⟩ := ho
  change B.length ≤ 2 ^ 32 at hlen
  have hpm := asPointer_mod (B := B) (offs := offs) (t := t) hds hps
  have hsd := dataSize_structWord (((t : Int) - 8) / 8) ds ps hds
  have hsp := ptrsSize_structWord (((t : Int) - 8) / 8) ds ps hds hps
  have hsk := kind_structWord (((t : Int) - 8) / 8) ds ps
  have hso := offset_structWord (((t : Int) - 8) / 8) ds ps (by omega) (by omega)
  have htar : target 0 (structWord (((t : Int) - 8) / 8) ds ps) = (t : Int) := by
    unfold target; rw [hso]; omega
  refine ⟨_, hpm, ?_⟩
  clear hpm hso
  generalize structWord (((t : Int) - 8) / 8) ds ps = w at hsd hsp hsk htar ⊢
  intro x hx hkx
  rcases Relation.ReflTransGen.cases_head hx with rfl | ⟨c, ⟨hc, hc0⟩, hcx⟩
  · simp only; omega
  · cases hc with
    | struct _ _ t' j hk' ht' hj hb' =>
      obtain rfl : t = t' := by omega
      have hj' : j < ptrs.length := by omega
      rw [hsd] at hc0 hcx
      exact den_noneBefore (hp j _ (List.getElem?_eq_getElem hj')) hc0 x hcx hkx
    | listPtr _ _ _ _ hk' => omega
    | listComp _ _ _ _ _ _ hk' => omega
    | far _ _ _ _ hk' => omega

end Capnpy.Pyx
