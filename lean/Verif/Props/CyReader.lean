import Verif.Proof.CyReader
import Verif.Props.Message
import Verif.Props.Packing

/-!
# C53: the compiled readers

In the compiled version some exceptions are printed and ignored.  C53: as long as this does
not happen, every accessor, list access, compactness check and `dumps` does what the pure
version does; and it does not happen if the pure version does not raise.
-/

namespace Capnpy.Props

open Spec Capnpy.Cy

/-- If the pure code returns a value, the compiled code returns the same and ignores no
exception; if the compiled code ignores no exception, its outcome (a value or an exception) is
that of the pure code. -/
def Follows {α} (compiled : CRes α) (pure_ : Py α) : Prop :=
  (∀ v, pure_ = .ok v → compiled = .ret (.ok v) false) ∧ ∀ r, compiled = .ret r false → pure_ = r

theorem _root_.Capnpy.Cy.Agree.follows {α} {p : Py α} {c : CRes α} (h : Agree p c) : Follows c p := by
  rcases h with rfl | ⟨⟨e, rfl⟩, rfl | ⟨r, rfl⟩⟩
  · exact ⟨fun v h => (by rw [h]), fun r h => (by injection h)⟩
  · exact ⟨fun v h => (by cases h), fun r h => (by cases h)⟩
  · exact ⟨fun v h => (by cases h), fun r h => (by injection h with _ h; cases h)⟩

/-- C53: the accessors of pointer fields and enums. -/
theorem C53_fields (o : StructObj) (offset : Int) :
    Follows (Cy.readStruct o offset) (o.readStruct offset) ∧
    (∀ default_ additionalSize, Follows (Cy.readData o offset default_ additionalSize)
      (o.readData offset default_ additionalSize)) ∧
    (∀ itemType default_, Follows (Cy.readList o offset itemType default_) (o.readList offset itemType default_)) ∧
    Follows (Cy.hasField o offset) (o.hasField offset) ∧
    ∀ default_, Follows (Cy.enumField o offset default_) (o.enumField offset default_) :=
  ⟨(readStruct_agree o offset).follows, fun _ _ => (readData_agree o offset _ _).follows,
    fun _ _ => (readList_agree o offset _ _).follows, (hasField_agree o offset).follows,
    fun _ => (enumField_agree o offset _).follows⟩

/-- C53: list items. -/
theorem C53_items (l : ListObj) (i : Int) : Follows (Cy.getItem l i) (l.getItem i) := (getItem_agree l i).follows

/-- C53: the union tag and the check of it, unless the tag is 65535, i.e. -1 as an `int16_t`. -/
theorem C53_union (o : StructObj) (tagOffset : Option Int) (h : o.whichRaw tagOffset ≠ .ok (-1)) :
    Follows (Cy.whichRaw o tagOffset) (o.whichRaw tagOffset) ∧
    ∀ expected, Follows (Cy.ensureUnion o tagOffset expected) (o.ensureUnion tagOffset expected) :=
  ⟨(whichRaw_agree o tagOffset h).follows, fun _ => (ensureUnion_agree o tagOffset _ h).follows⟩

/-- C53: with the tag 65535 the compiled `which()` raises SystemError. -/
theorem C53_tag_65535 (o : StructObj) (tagOffset : Option Int) (h : o.whichRaw tagOffset = .ok (-1)) :
    Cy.whichRaw o tagOffset = .ret (.error .systemError) false := by
  cases tagOffset with
  | none => cases h
  | some off =>
    have h : o.readInt16 off = .ok (-1) := h
    show exceptVal (-1) (noexcept (.lift (o.readInt16 off))) = _
    rw [h]
    rfl

theorem getEnd_agree (o : StructObj) (fuel : Nat) (h : (8 : Int) ∣ o.dataOffset) :
    Agree (o.getEnd fuel) (Cy.getEnd o fuel) :=
  (endof_agree o.seg fuel _ _ (by omega)).noexcept

/-- C53: the compactness checks of structs and lists, at positions that are multiples of 8. -/
theorem C53_compact (fuel : Nat) :
    (∀ o : StructObj, (8 : Int) ∣ o.dataOffset →
      Follows (Cy.getEnd o fuel) (o.getEnd fuel) ∧ Follows (Cy.isCompact o fuel) (o.isCompact fuel)) ∧
    ∀ l : ListObj, (8 : Int) ∣ l.offset → Follows (Cy.listGetEnd l fuel) (l.getEnd fuel) :=
  ⟨fun o h => ⟨(getEnd_agree o fuel h).follows,
      ((getEnd_agree o fuel h).bind fun _ _ => Agree.pure _).follows⟩,
    fun l h => (endof_agree l.seg fuel _ _ (by omega)).follows⟩

/-- C53: `dumps`, for structs with less than 2^15 pointers in messages of less than 16 GiB. -/
theorem C53_dumps (o : StructObj) (fastpath : Bool) (fuel : Nat) (h : (8 : Int) ∣ o.dataOffset)
    (h1 : 0 ≤ o.ptrsSize) (h2 : o.ptrsSize < 2 ^ 15)
    (h3 : (o.seg.buf.length : Int) < 2 ^ 34) : Follows (Cy.dumps o fastpath fuel) (Capnpy.dumps o fastpath fuel) := by
  apply Agree.follows
  have e : Capnpy.dumps o fastpath fuel = (do
      let end_ ← Capnpy.dumpsEnd o fastpath fuel
      if end_ ≠ -1 then dumpMessage o.seg.buf (Ptr.newStruct 0 o.dataSize o.ptrsSize) o.dataOffset end_
      else runBuilder (dumpsSlow o fuel)) := by
    unfold Capnpy.dumps
    cases Capnpy.dumpsEnd o fastpath fuel <;> rfl
  rw [e]
  refine Agree.bind ?_ fun end_ _ => ?_
  · exact Agree.ite (fun _ => getEnd_agree o fuel h) fun _ => Agree.pure _
  · refine Agree.ite (fun _ => ?_) fun _ => Agree.lift _
    have : Pyx.dumpMessageC o.seg.buf (Ptr.newStruct 0 o.dataSize o.ptrsSize) o.dataOffset end_
        = dumpMessage o.seg.buf (Ptr.newStruct 0 o.dataSize o.ptrsSize) o.dataOffset end_ := by
      by_cases hb : o.dataOffset < 0 ∨ o.dataOffset > end_ ∨ end_ > o.seg.buf.length
      · unfold Pyx.dumpMessageC dumpMessage
        rw [if_pos hb, if_pos hb]
      · have hp := Ptr.newStruct_eq 0 o.dataSize o.ptrsSize
        apply C47_dump_message
        · omega
        · omega
        · omega
    rw [this]
    exact Agree.lift _

/-! ## When no exception can be ignored -/

/-- Same outcome, nothing ignored. -/
def Same {α} (p : Py α) (c : CRes α) : Prop := c = .ret p false

theorem Same.bind {α β} {p : Py α} {c : CRes α} {f : α → Py β} {g : α → CRes β} (h : Same p c)
    (hf : ∀ a, p = .ok a → Same (f a) (g a)) : Same (p >>= f) (c >>= g) := by
  subst h
  cases p with
  | error e => exact rfl
  | ok a =>
    show (match g a with | .crash => CRes.crash | .ret r w' => CRes.ret r (false || w')) = _
    rw [hf a rfl]
    rfl

theorem Same.ite {α} {P : Prop} [Decidable P] {p q : Py α} {c d : CRes α} (h : P → Same p c) (h' : ¬ P → Same q d) :
    Same (if P then p else q) (if P then c else d) := by
  by_cases hp : P
  · rw [if_pos hp, if_pos hp]; exact h hp
  · rw [if_neg hp, if_neg hp]; exact h' hp

theorem Same.of_ok {α} {p : Py α} {c : CRes α} {v : α} (h : Agree p c) (hv : p = .ok v) : Same p c := by
  rcases h with h | ⟨⟨e, h⟩, _⟩
  · exact h
  · rw [h] at hv; cases hv

theorem readPrimitive_ok (b : Bytes) (fmt : Fmt) (off : Int) (h : 0 ≤ off) (h' : off + fmt.size ≤ b.length) :
    ∃ p, Capnpy.readPrimitive b off fmt = .ok p := by
  obtain ⟨k, rfl⟩ := Int.eq_ofNat_of_zero_le h
  exact ⟨_, readPrimitive_nat (by omega)⟩

/-- C53: for a struct which was accepted by the constructor from a buffer and does not begin
before the buffer, no exception is ignored by `has_x()`, by enum fields, and, in a message of
one segment, by struct, text and data fields: the result or exception is that of the pure
version, even if the message is malformed. -/
theorem C53_in_buffer (seg : Seg) (start dataSize ptrsSize : Int) (o : StructObj)
    (ho : StructObj.initFromBuffer seg start dataSize ptrsSize = .ok o) (h0 : 0 ≤ start) (h1 : 0 ≤ dataSize)
    (slot : Int) (h2 : 0 ≤ slot) :
    (∀ default_, Cy.enumField o (slot * 2) default_ = .ret (o.enumField (slot * 2) default_) false) ∧
    Cy.hasField o (slot * 8) = .ret (o.hasField (slot * 8)) false ∧
    (seg.offs = none →
      Cy.readStruct o (slot * 8) = .ret (o.readStruct (slot * 8)) false ∧
      ∀ default_ additionalSize, Cy.readData o (slot * 8) default_ additionalSize
        = .ret (o.readData (slot * 8) default_ additionalSize) false) := by
  unfold StructObj.initFromBuffer at ho
  simp only at ho
  split at ho
  · cases ho
  · split at ho
    · cases ho
    · injection ho with ho
      subst ho
      rename_i hd hp
      generalize hO : (⟨seg, start, start + dataSize * 8, dataSize, ptrsSize⟩ : StructObj) = O
      have e1 : O.seg = seg := by rw [← hO]
      have e2 : O.dataOffset = start := by rw [← hO]
      have e3 : O.ptrsOffset = start + dataSize * 8 := by rw [← hO]
      have e4 : O.dataSize = dataSize := by rw [← hO]
      have e5 : O.ptrsSize = ptrsSize := by rw [← hO]
      clear hO
      have key : ∃ p, O.readFastPtr (slot * 8) = .ok p := by
        unfold StructObj.readFastPtr
        by_cases h : slot * 8 ≥ O.ptrsSize * 8
        · exact ⟨_, if_pos h⟩
        · rw [if_neg h]
          apply readPrimitive_ok _ .q <;> rw [e3] <;> rw [e5] at h
          · omega
          · rw [e1]; simp only [Fmt.size]; omega
      have key2 : ∃ v, O.readInt16 (slot * 2) = .ok v := by
        unfold StructObj.readInt16
        by_cases h : slot * 2 ≥ O.dataSize * 8
        · exact ⟨_, if_pos h⟩
        · rw [if_neg h]
          apply readPrimitive_ok _ .h <;> rw [e2] <;> rw [e4] at h
          · omega
          · rw [e1]; simp only [Fmt.size]; omega
      obtain ⟨p, hp⟩ := key
      obtain ⟨v, hv⟩ := key2
      have hres : seg.offs = none → Same (O.resolve (slot * 8)) (Cy.resolve O (slot * 8)) := by
        intro hs
        refine (Same.of_ok (readFastPtr_agree O (slot * 8)) hp).bind fun q _ => Same.ite (fun _ => ?_) fun _ => rfl
        refine Same.ite (fun _ => rfl) fun _ => ?_
        unfold readFarPtr Seg.readFarPtr
        rw [e1, hs]
        rfl
      refine ⟨fun d => ?_, ?_, fun hs => ⟨?_, fun d a => ?_⟩⟩
      · exact (Same.of_ok (readInt16_agree O (slot * 2)) hv).bind fun _ _ => Same.ite (fun _ => rfl) fun _ => rfl
      · exact (Same.of_ok (readFastPtr_agree O (slot * 8)) hp).bind fun _ _ => rfl
      · exact (hres hs).bind fun x _ => Same.ite (fun _ => rfl) fun _ =>
          Same.ite (fun _ => rfl) fun _ => Same.bind rfl fun _ _ => rfl
      · exact (hres hs).bind fun _ _ => rfl

/-! ## Cases which meet the hypotheses -/

/-- The bytes of words. -/
def words (ws : List Nat) : Bytes := ws.flatMap (leBytes 8)

/-- A struct pointer. -/
def sp (offset : Int) (dataSize ptrsSize : Nat) : Nat :=
  (offset % 2 ^ 30).toNat * 4 + dataSize * 2 ^ 32 + ptrsSize * 2 ^ 48

/-- A struct with a word of data (7) and two pointers: the text "hi" and a struct with the word 9. -/
def cyObj : StructObj :=
  ⟨⟨words [7, 1 + 1 * 4 + 2 * 2 ^ 32 + 3 * 2 ^ 35, sp 1 1 0, 0x6968, 9], none⟩, 0, 8, 1, 2⟩

example : cyObj.readData 0 none (-1) = .ok (some [0x68, 0x69]) ∧
    Cy.readData cyObj 0 none (-1) = .ret (.ok (some [0x68, 0x69])) false ∧
    Cy.readStruct cyObj 8 = .ret (.ok (some ⟨cyObj.seg, 32, 40, 1, 0⟩)) false ∧
    Cy.readStruct cyObj 0 = .ret (.error .assertionError) false ∧
    Cy.hasField cyObj 8 = .ret (.ok true) false ∧ Cy.enumField cyObj 0 2 = .ret (.ok 5) false := by decide +kernel

example : Cy.getEnd cyObj 10 = .ret (.ok 40) false ∧ cyObj.getEnd 10 = .ok 40 ∧
    Cy.isCompact cyObj 10 = .ret (.ok true) false ∧
    (Cy.dumps cyObj true 10) = .ret (.ok (words [6 * 2 ^ 32, sp 0 1 2] ++ cyObj.seg.buf)) false := by decide +kernel

example : StructObj.initFromBuffer cyObj.seg 0 1 2 = .ok cyObj := by decide +kernel

example : cyObj.whichRaw (some 0) = .ok 7 ∧ Cy.whichRaw cyObj (some 0) = .ret (.ok 7) false ∧
    Cy.ensureUnion cyObj (some 0) 6 = .ret (.error .valueError) false := by decide +kernel

/-- A list of two texts, the second is null. -/
def cyList : ListObj := ⟨⟨words [1 + 1 * 4 + 2 * 2 ^ 32 + 2 * 2 ^ 35, 0, 0x78], none⟩, 0, .text, 6, -1, 2, 8, 0⟩

example : Cy.getItem cyList 0 = .ret (.ok (.bytes [0x78])) false ∧ Cy.getItem cyList (-1) = .ret (.ok .none) false ∧
    Cy.getItem cyList 2 = .ret (.error .indexError) false := by decide +kernel

/-! ## What happens when an exception is ignored -/

/-- A message with the words `ws`. -/
def cyMsg (ws : List Nat) : Bytes := words ((ws.length * 2 ^ 32) :: ws)

/-- C53: a message whose root struct begins before the buffer: the pure version raises
IndexError for its text field, the compiled version prints the exception and returns None. -/
theorem C53_ignored_text : ∃ o, loads (cyMsg [sp (-2) 0 1]) = .ok (some o) ∧
    o.readData 0 none (-1) = .error .indexError ∧ Cy.readData o 0 none (-1) = .ret (.ok none) true := by
  refine ⟨⟨⟨words [sp (-2) 0 1], none⟩, -8, -8, 0, 1⟩, ?_⟩
  decide +kernel

/-- C53: a list of structs whose tag is outside of the buffer: IndexError in the pure version,
an empty list in the compiled one. -/
theorem C53_ignored_list : ∃ o, loads (cyMsg [sp 0 0 1, 1 + 5 * 4 + 7 * 2 ^ 32 + 2 ^ 35]) = .ok (some o) ∧
    o.readList 0 (.struct 1 1) = .error .indexError ∧
    ∃ l, Cy.readList o 0 (.struct 1 1) = .ret (.ok (some l)) true ∧ l.itemCount = 0 := by
  refine ⟨⟨⟨words [sp 0 0 1, 1 + 5 * 4 + 7 * 2 ^ 32 + 2 ^ 35], none⟩, 8, 8, 0, 1⟩, ?_, ?_, ?_⟩
  · decide +kernel
  · decide +kernel
  · refine ⟨⟨⟨words [sp 0 0 1, 1 + 5 * 4 + 7 * 2 ^ 32 + 2 ^ 35], none⟩, 56, .struct 1 1, 7, 0, 0, 0, 8⟩, ?_, rfl⟩
    decide +kernel

/-- C53: a union whose tag is 65535. -/
theorem C53_tag_example : ∃ o, loads (cyMsg [sp 0 1 0, 0xffff]) = .ok (some o) ∧
    o.whichRaw (some 0) = .ok (-1) ∧ Cy.whichRaw o (some 0) = .ret (.error .systemError) false := by
  refine ⟨⟨⟨words [sp 0 1 0, 0xffff], none⟩, 8, 16, 1, 0⟩, ?_⟩
  decide +kernel

/-- C53: a far pointer to a segment that ends before the landing pad: IndexError in the pure
version, None in the compiled one. -/
theorem C53_ignored_far : ∃ o : StructObj, o.seg.offs = some [0] ∧
    o.readData 0 none (-1) = .error .indexError ∧ Cy.readData o 0 none (-1) = .ret (.ok none) true := by
  refine ⟨⟨⟨words [2 + 5 * 8], some [0]⟩, 0, 0, 0, 1⟩, ?_⟩
  decide +kernel

/-- The words of a message: the root has two pointers, to a struct B with one pointer and to a
struct that begins at the word 0.  The pointer of B is malformed. -/
def crashWords : List Nat := [sp 0 0 2, sp 1 0 1, sp (-3) 1 2, 3]

def crashSeg : Seg := ⟨words crashWords, none⟩

theorem ret_bind {α β} (a : α) (g : α → CRes β) : (CRes.ret (.ok a) false >>= g) = g a := by
  show (match g a with | .crash => CRes.crash | .ret r w' => CRes.ret r (false || w')) = _
  cases g a <;> rfl

theorem bind_crash {α β} {a : α} {w : Bool} {g : α → CRes β} (h : g a = .crash) :
    (CRes.ret (.ok a) w >>= g) = .crash := by
  show (match g a with | .crash => CRes.crash | .ret r w' => CRes.ret r (w || w')) = _
  rw [h]

/-- A pointer to the current end. -/
theorem endofPtrsBody_step {rec : Int → Int → CRes Int} {seg : Seg} {off e p : Int} {k i : Nat} (x : Int)
    (hx : off + (i : Int) * 8 = x) (h : Cy.readPtr seg x = .ret (.ok p) false) (hp : p ≠ 0) (hd : Ptr.deref p x = e) :
    Cy.endofPtrsBody rec seg off (k + 1) i e = (rec p x >>= fun e' => Cy.endofPtrsBody rec seg off k (i + 1) e') := by
  conv => lhs; unfold Cy.endofPtrsBody
  simp only [hx]
  rw [h, ret_bind, if_neg hp, if_neg (fun h => h hd)]

/-- A struct. -/
theorem endof_struct_eq {seg : Seg} {f : Nat} {p off : Int} (h : Ptr.kind p = Ptr.STRUCT) :
    Cy.endof seg (f + 1) p off = exceptVal (-2) (Cy.endofStruct (Cy.endof seg f) seg (Ptr.deref p off)
      (Ptr.structDataSize p) (Ptr.structPtrsSize p)) := by
  conv => lhs; unfold Cy.endof
  simp only [if_pos h]

/-- The malformed pointer of B. -/
theorem crashSeg_bad (f : Nat) : Cy.endof crashSeg f 3 24 = .crash ∨
    Cy.endof crashSeg f 3 24 = .ret (.error .assertionError) false := by
  cases f with
  | zero => exact .inl rfl
  | succ f =>
    right
    unfold Cy.endof
    simp only [if_neg (by decide +kernel : ¬ Ptr.kind 3 = Ptr.STRUCT), if_neg (by decide +kernel : ¬ Ptr.kind 3 = Ptr.LIST),
      if_neg (by decide +kernel : ¬ Ptr.kind 3 = Ptr.FAR)]
    rfl

theorem crashSeg_b (f : Nat) : Cy.endof crashSeg f (sp 1 0 1 : Nat) 8 = .crash ∨
    Cy.endof crashSeg f (sp 1 0 1 : Nat) 8 = .ret (.ok 0) true := by
  cases f with
  | zero => exact .inl rfl
  | succ f =>
    rw [endof_struct_eq (by decide +kernel), (by decide +kernel : Ptr.deref (sp 1 0 1 : Nat) 8 = 24),
      (by decide +kernel : Ptr.structDataSize (sp 1 0 1 : Nat) = 0),
      (by decide +kernel : Ptr.structPtrsSize (sp 1 0 1 : Nat) = 1)]
    have : Cy.endofPtrsBody (Cy.endof crashSeg f) crashSeg (24 + 0 * 8) 1 0 (24 + 0 * 8 + 1 * 8) = _ :=
      endofPtrsBody_step 24 (by decide) (by decide +kernel) (by decide : (3 : Int) ≠ 0) (by decide +kernel)
    unfold Cy.endofStruct Cy.endofPtrs
    simp only [Int.toNat_one]
    rw [this]
    rcases crashSeg_bad f with h | h <;> rw [h]
    · left; rfl
    · right; rfl

theorem crashSeg_root (f : Nat) : Cy.endof crashSeg f (sp (-3) 1 2 : Nat) 16 = .crash := by
  induction f with
  | zero => rfl
  | succ f ih =>
    rw [endof_struct_eq (by decide +kernel), (by decide +kernel : Ptr.deref (sp (-3) 1 2 : Nat) 16 = 0),
      (by decide +kernel : Ptr.structDataSize (sp (-3) 1 2 : Nat) = 1),
      (by decide +kernel : Ptr.structPtrsSize (sp (-3) 1 2 : Nat) = 2)]
    have s1 : Cy.endofPtrsBody (Cy.endof crashSeg f) crashSeg (0 + 1 * 8) 2 0 (0 + 1 * 8 + 2 * 8) = _ :=
      endofPtrsBody_step 8 (by decide) (by decide +kernel : Cy.readPtr crashSeg 8 = .ret (.ok (sp 1 0 1 : Nat)) false) (by decide +kernel)
        (by decide +kernel)
    have s2 : Cy.endofPtrsBody (Cy.endof crashSeg f) crashSeg (0 + 1 * 8) 1 1 0 = _ :=
      endofPtrsBody_step 16 (by decide) (by decide +kernel : Cy.readPtr crashSeg 16 = .ret (.ok (sp (-3) 1 2 : Nat)) false)
        (by decide +kernel) (by decide +kernel)
    unfold Cy.endofStruct Cy.endofPtrs
    rw [show (2 : Int).toNat = 2 from rfl]
    simp only
    rw [s1]
    rcases crashSeg_b f with h | h <;> rw [h]
    · rfl
    · rw [bind_crash (by rw [s2, ih]; rfl)]
      rfl

/-- The root struct of `crashWords`. -/
def crashObj : StructObj := ⟨crashSeg, 8, 8, 0, 2⟩

/-- C53: a message of 5 words on which the compiled `dumps` exhausts every stack: the process
crashes.  The pure version raises AssertionError.  (A struct pointer may point back to the
beginning of the message if the end of the preceding object is reported as 0, which is what
the compiled `endof` does after an ignored exception.) -/
theorem C53_crash : loads (cyMsg crashWords) = .ok (some crashObj) ∧
    Capnpy.dumps crashObj true 3 = .error .assertionError ∧
    ∀ fuel, Cy.dumps crashObj true fuel = .crash := by
  refine ⟨by decide +kernel, by decide +kernel, fun fuel => ?_⟩
  have : Cy.getEnd crashObj fuel = .crash := by
    unfold Cy.getEnd
    cases fuel with
    | zero => rfl
    | succ f =>
      rw [(by decide +kernel : Ptr.newStruct 0 crashObj.dataSize crashObj.ptrsSize = (sp 0 0 2 : Nat)),
        (by decide +kernel : crashObj.dataOffset - 8 = 0),
        endof_struct_eq (by decide +kernel), (by decide +kernel : Ptr.deref (sp 0 0 2 : Nat) 0 = 8),
        (by decide +kernel : Ptr.structDataSize (sp 0 0 2 : Nat) = 0),
        (by decide +kernel : Ptr.structPtrsSize (sp 0 0 2 : Nat) = 2)]
      show noexcept (exceptVal (-2) (Cy.endofStruct (Cy.endof crashSeg f) crashSeg 8 0 2)) = _
      have s1 : Cy.endofPtrsBody (Cy.endof crashSeg f) crashSeg (8 + 0 * 8) 2 0 (8 + 0 * 8 + 2 * 8) = _ :=
        endofPtrsBody_step 8 (by decide) (by decide +kernel : Cy.readPtr crashSeg 8 = .ret (.ok (sp 1 0 1 : Nat)) false) (by decide +kernel)
          (by decide +kernel)
      have s2 : Cy.endofPtrsBody (Cy.endof crashSeg f) crashSeg (8 + 0 * 8) 1 1 0 = _ :=
        endofPtrsBody_step 16 (by decide) (by decide +kernel : Cy.readPtr crashSeg 16 = .ret (.ok (sp (-3) 1 2 : Nat)) false)
          (by decide +kernel) (by decide +kernel)
      unfold Cy.endofStruct Cy.endofPtrs
      rw [show (2 : Int).toNat = 2 from rfl]
      simp only
      rw [s1]
      rcases crashSeg_b f with h | h <;> rw [h]
      · rfl
      · rw [bind_crash (by rw [s2, crashSeg_root]; rfl)]
        rfl
  show (Cy.getEnd crashObj fuel >>= _) = _
  rw [this]
  rfl

/-- C53: a message on which the compiled `dumps` returns a message without the contents of the
root, which `loads` rejects; the pure version raises AssertionError. -/
theorem C53_garbage : ∃ o d, loads (cyMsg [sp 0 0 2, sp 1 0 1, sp (-3) 1 0, 3]) = .ok (some o) ∧
    Capnpy.dumps o true 3 = .error .assertionError ∧
    Cy.dumps o true 3 = .ret (.ok d) true ∧ d = cyMsg [sp 0 0 2] ∧ loads d = .error .assertionError := by
  refine ⟨⟨⟨words [sp 0 0 2, sp 1 0 1, sp (-3) 1 0, 3], none⟩, 8, 8, 0, 2⟩, cyMsg [sp 0 0 2], ?_⟩
  decide +kernel

end Capnpy.Props
