import Verif.Model.Pickle
import Verif.Props.Fields

/-! # C38: pickling and raw dumps

`o.reduce cls` is what `pickle.dumps` writes for an instance `o` of the class `cls`,
`PVal.load` is `pickle.loads`. -/

namespace Capnpy.Props

open Spec

mutual

/-- The struct objects which the API can give to a user, for whatever message (also a
malformed one). -/
inductive ObtainedStruct : StructObj → Prop
  | loads {buf o} : loads buf = .ok (some o) → ObtainedStruct o
  | load {σ} {F : FileLike σ} {s s' o} : load F s = .ok (some o) s' → ObtainedStruct o
  | fromBuffer {seg offset ds ps o} : StructObj.initFromBuffer seg offset ds ps = .ok o → ObtainedStruct o
  | construct {fuel S kw o} : Schema.call fuel S kw = .ok o → ObtainedStruct o
  | newMember {fuel S tag kw o} : Schema.newMember fuel S tag kw = .ok o → ObtainedStruct o
  | field {o k o'} : ObtainedStruct o → o.readStruct k = .ok (some o') → ObtainedStruct o'
  | getField {o k o'} : ObtainedStruct o → o.getStruct k = .ok o' → ObtainedStruct o'
  | item {l i o} : ObtainedList l → l.getItem i = .ok (.struct o) → ObtainedStruct o
  | compact {o fuel o'} : ObtainedStruct o → o.compact fuel = .ok o' → ObtainedStruct o'

/-- The lists. -/
inductive ObtainedList : ListObj → Prop
  | field {o k it l} : ObtainedStruct o → o.readList k it = .ok (some l) → ObtainedList l
  | item {l i l'} : ObtainedList l → l.getItem i = .ok (.list l') → ObtainedList l'

end

/-- The object came out of `_init_from_buffer`. -/
def Made (o : StructObj) : Prop := ∃ seg off ds ps, StructObj.initFromBuffer seg off ds ps = .ok o

theorem made_readStruct {o o' : StructObj} {k : Int} (h : o.readStruct k = .ok (some o')) : Made o' := by
  unfold StructObj.readStruct at h
  cases hr : o.resolve k with
  | error e => rw [hr] at h; cases h
  | ok r =>
    obtain ⟨off, p⟩ := r
    rw [hr] at h
    simp only [bind, Except.bind, pure, Except.pure] at h
    split at h
    · cases h
    · split at h
      · cases h
      · cases hi : StructObj.initFromPointer o.seg off p with
        | error e => rw [hi] at h; cases h
        | ok x =>
          rw [hi] at h
          simp only [Except.ok.injEq, Option.some.injEq] at h
          subst h
          unfold StructObj.initFromPointer at hi
          split at hi
          · cases hi
          · exact ⟨_, _, _, _, hi⟩

theorem made_getItem {l : ListObj} {i : Int} {o : StructObj} (h : l.getItem i = .ok (.struct o)) : Made o := by
  unfold ListObj.getItem at h
  simp only at h
  generalize (if i < 0 then i + l.itemCount else i) = j at h
  split at h
  · unfold ListObj.readItem at h
    split at h
    · cases h
    · cases hx : Capnpy.readPrimitive l.seg.buf (l.offset + j / 8) .b <;> rw [hx] at h <;> cases h
    · rename_i fmt _
      cases hx : Capnpy.readPrimitive l.seg.buf (l.offset + j * l.itemLength) fmt <;> rw [hx] at h <;> cases h
    · cases hx : Capnpy.readPrimitive l.seg.buf (l.offset + j * l.itemLength) .h <;> rw [hx] at h <;> cases h
    · cases hx : StructObj.initFromBuffer l.seg (l.offsetForItem j) (Ptr.structDataSize l.tag)
        (Ptr.structPtrsSize l.tag) with
      | error e => rw [hx] at h; cases h
      | ok x =>
        rw [hx] at h
        simp only [bind, Except.bind, pure, Except.pure, Except.ok.injEq, Item.struct.injEq] at h
        subst h
        exact ⟨_, _, _, _, hx⟩
    · cases hx : l.itemPtr (l.offsetForItem j) with
      | error e => rw [hx] at h; cases h
      | ok r =>
        obtain ⟨a, b⟩ := r
        rw [hx] at h
        simp only [bind, Except.bind] at h
        cases hy : l.seg.readStr b a none (-1) with
        | error e => rw [hy] at h; cases h
        | ok s => rw [hy] at h; cases s <;> cases h
    · cases hx : l.itemPtr (l.offsetForItem j) with
      | error e => rw [hx] at h; cases h
      | ok r =>
        obtain ⟨a, b⟩ := r
        rw [hx] at h
        simp only [bind, Except.bind] at h
        cases hy : l.seg.readStr b a none 0 with
        | error e => rw [hy] at h; cases h
        | ok s => rw [hy] at h; cases s <;> cases h
    · rename_i inner _
      cases hx : l.itemPtr (l.offset + j * 8) with
      | error e => rw [hx] at h; cases h
      | ok r =>
        obtain ⟨a, b⟩ := r
        rw [hx] at h
        simp only [bind, Except.bind] at h
        cases hy : ListObj.init l.seg (Ptr.deref b a) (Ptr.listSizeTag b) (Ptr.listItemCount b) inner with
        | error e => rw [hy] at h; cases h
        | ok s => rw [hy] at h; cases h
  · cases h

theorem made_load {σ} {F : FileLike σ} {s s' : σ} {o : StructObj} (h : load F s = .ok (some o) s') : Made o := by
  unfold load at h
  change EStateM.bind _ _ s = _ at h
  unfold EStateM.bind at h
  cases hm : loadMessage F s with
  | error e s1 => rw [hm] at h; cases h
  | ok msg s1 =>
    rw [hm] at h
    simp only [FM.lift] at h
    cases hr : msg.readStruct 0 with
    | error e => rw [hr] at h; cases h
    | ok r =>
      rw [hr] at h
      simp only [EStateM.Result.ok.injEq] at h
      rw [h.1] at hr
      exact made_readStruct hr

theorem made_construct {fuel : Nat} {S : Schema} {args : List Arg} {o : StructObj}
    (h : S.construct fuel args = .ok o) : Made o := by
  unfold Schema.construct at h
  cases hn : S.new fuel args with
  | error e => rw [hn] at h; cases h
  | ok b => rw [hn] at h; exact ⟨_, _, _, _, h⟩

theorem obtained_made {o : StructObj} (h : ObtainedStruct o) : Made o := by
  cases h with
  | @loads buf _ h =>
    unfold Capnpy.loads at h
    cases hl : Capnpy.load SBuffer.file (SBuffer.init buf) with
    | error e f => rw [hl] at h; cases h
    | ok r f =>
      rw [hl] at h
      simp only at h
      split at h
      · cases h
      · injection h with h
        rw [h] at hl
        exact made_load hl
  | load h => exact made_load h
  | fromBuffer h => exact ⟨_, _, _, _, h⟩
  | @construct fuel S kw _ h =>
    unfold Schema.call at h
    cases hk : S.kwargs kw with
    | error e => rw [hk] at h; cases h
    | ok a => rw [hk] at h; exact made_construct h
  | newMember h =>
    unfold Schema.newMember at h
    simp only at h
    split at h
    · exact made_construct h
    · cases h
  | field _ h => exact made_readStruct h
  | @getField o k _ _ h =>
    unfold StructObj.getStruct at h
    cases hr : o.readStruct k with
    | error e => rw [hr] at h; cases h
    | ok r =>
      rw [hr] at h
      cases r with
      | none => exact ⟨⟨[], none⟩, 0, 0, 0, h⟩
      | some x =>
        simp only [bind, Except.bind, pure, Except.pure, Except.ok.injEq] at h
        subst h
        exact made_readStruct hr
  | item _ h => exact made_getItem h
  | @compact o fuel _ _ h =>
    unfold StructObj.compact at h
    simp only at h
    split at h
    · cases h
    · exact ⟨_, _, _, _, h⟩

theorem made_rebuild {o : StructObj} (h : Made o) :
    StructObj.initFromBuffer o.seg o.dataOffset o.dataSize o.ptrsSize = .ok o := by
  obtain ⟨seg, off, ds, ps, h⟩ := h
  unfold StructObj.initFromBuffer at h
  simp only at h
  split at h
  · cases h
  · rename_i h1
    split at h
    · cases h
    · rename_i h2
      injection h with h
      subst h
      unfold StructObj.initFromBuffer
      simp only
      rw [if_neg h1, if_neg h2]

theorem reduce_load (s : Seg) : s.reduce.load = .ok (.seg s) := by
  obtain ⟨buf, offs⟩ := s
  cases offs <;> rfl

/-- C38: for every struct a user can hold, of a single or multi segment message,
unpickling a pickle gives an object of the same class with the same segment (bytes and
table of segments), position and sizes: it is the same value, and every accessor gives
the same result. -/
theorem C38_pickle {o : StructObj} (h : ObtainedStruct o) (cls : String) :
    (o.reduce cls).load = .ok (.struct cls o) := by
  have hr := made_rebuild (obtained_made h)
  unfold StructObj.reduce
  unfold PVal.load
  simp only [PVal.loadAll, PVal.load, reduce_load, bind, Except.bind, pure, Except.pure]
  unfold PickleFun.apply
  simp only [hr, bind, Except.bind, pure, Except.pure]

/-- C38: `_raw_loads` of a raw dump gives the same object, and warns exactly when it is
loaded as another class. -/
theorem C38_raw {o : StructObj} (h : ObtainedStruct o) (cls cls' : String) :
    rawLoads cls' (o.rawDumps cls) = .ok (o, cls != cls') := by
  have hr := made_rebuild (obtained_made h)
  obtain ⟨⟨buf, offs⟩, a, b, c, d⟩ := o
  unfold StructObj.rawDumps rawLoads
  cases offs <;> simp only [] at hr ⊢ <;> rw [hr] <;> rfl

/-- C38: only raw dumps are accepted. -/
theorem C38_raw_header (cls : String) (args : List PVal) (o : StructObj) (w : Bool)
    (h : rawLoads cls args = .ok (o, w)) : args.length = 7 ∧ args.head? matches some (.str "capnpy raw dump") := by
  unfold rawLoads at h
  split at h
  · split at h
    · exact ⟨rfl, rfl⟩
    · cases h
  · cases h

/-- C38: what is not a raw dump is refused: with ValueError if it is not a 7-tuple, with
AssertionError if the header is a different one. -/
theorem C38_raw_refused (cls : String) (args : List PVal) :
    (args.length ≠ 7 → rawLoads cls args = .error .valueError) ∧
    (args.length = 7 → (∀ s, args.head? = some (.str s) → s ≠ "capnpy raw dump") →
      rawLoads cls args = .error .assertionError) := by
  constructor
  · intro h
    unfold rawLoads
    split
    · exact absurd rfl h
    · rfl
  · intro h hs
    unfold rawLoads
    split
    · split
      · exact absurd rfl (hs _ rfl)
      · rfl
    · rename_i hx
      match args, h with
      | [a, b, c, d, e, f, g], _ => exact absurd rfl (hx a b c d e f g)

/-- C38: a list can not be pickled. -/
theorem C38_list (l : ListObj) : l.reduce = .error .typeError := rfl

/-! The sample object of a two-segment message. -/

example : ObtainedStruct sampleObj := .fromBuffer (seg := sampleObj.seg) (offset := 8) (ds := 1) (ps := 2) (by decide +kernel)

example : sampleObj.seg.offs = some [0, 40] := rfl

/-- A struct which is not the root of its message. -/
example : ∃ o, ObtainedStruct o ∧ o.dataOffset = 16 ∧ o.seg = sampleObj.seg :=
  ⟨⟨sampleObj.seg, 16, 16, 0, 0⟩, .field (o := sampleObj) (k := 0)
    (.fromBuffer (seg := sampleObj.seg) (offset := 8) (ds := 1) (ps := 2) (by decide +kernel)) (by decide +kernel), rfl, rfl⟩

end Capnpy.Props
