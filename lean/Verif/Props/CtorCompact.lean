import Verif.Proof.CtorCompact
import Verif.Props.CyCtor

/-!
# C57: "Messages created by capnpy are always compact"

docs/source/usage.rst:652-680.  The specification is in Spec/CtorCompact.lean: `W` lists the
values the constructor stores behind pointers, in the order of the fields.
-/

namespace Capnpy.Props

open Spec

/-- Acceptable arguments determine the values stored behind pointers. -/
theorem C57_stored_values (fuel : Nat) (S : Schema) (args : List Arg) (n : Nat) (hS : S.WF)
    (ha : AccFields fuel S.fields args n) (hm : (members S.fields args).length ≤ 1)
    (hsz : 8 * (S.dataWords + S.ptrs) + n ≤ 2 ^ 32) :
    ∃! W, FieldsPtrs S.fields args W := by
  obtain ⟨W, hW⟩ := accFields_ptrs hS.tag hS.fields ha hm hsz
  exact ⟨W, hW, fun W' hW' => fieldsPtrs_unique _ _ _ _ hW' hW⟩

/-- C57: for every schema laid out by the capnp compiler and all acceptable arguments,
`_is_compact()` of the constructed object is true exactly when no empty struct is stored
and the fields that are given come in the order of their pointer slots.  (The
documentation claims it always is: see `C57_group_not_compact` and
`C57_union_not_compact`.) -/
theorem C57_compact_iff (fuel : Nat) (S : Schema) (args : List Arg) (n : Nat) (W : List (Nat × Val)) (hS : S.WF)
    (hl : S.locals.Nodup) (ha : AccFields fuel S.fields args n) (hm : (members S.fields args).length ≤ 1)
    (hsz : 8 * (S.dataWords + S.ptrs) + n ≤ 2 ^ 32) (hW : FieldsPtrs S.fields args W)
    {fuel' : Nat} (hfuel : ∀ x ∈ W, x.2.depth < fuel') (hf0 : 0 < fuel') :
    ∃ o r, S.construct fuel args = .ok o ∧ o.isCompact fuel' = .ok r ∧
      (r = true ↔ (∀ x ∈ W, x.2.NoEmpty) ∧ InSlotOrder W) :=
  construct_compact fuel S args n W hS hl ha hm hsz hW hfuel hf0

/-- C57: a struct whose pointer slots are in the order of its fields (as they are in every
struct without groups and unions): what the constructor returns is compact, whatever the
arguments, as long as they contain no empty struct. -/
theorem C57_always_compact (fuel : Nat) (S : Schema) (args : List Arg) (n : Nat) (W : List (Nat × Val)) (hS : S.WF)
    (hl : S.locals.Nodup) (hord : AllSlotsOrdered S.fields) (ha : AccFields fuel S.fields args n)
    (hm : (members S.fields args).length ≤ 1) (hsz : 8 * (S.dataWords + S.ptrs) + n ≤ 2 ^ 32)
    (hW : FieldsPtrs S.fields args W) (hne : ∀ x ∈ W, x.2.NoEmpty)
    {fuel' : Nat} (hfuel : ∀ x ∈ W, x.2.depth < fuel') (hf0 : 0 < fuel') :
    ∃ o, S.construct fuel args = .ok o ∧ o.isCompact fuel' = .ok true := by
  obtain ⟨o, r, h1, h2, h3⟩ := construct_compact fuel S args n W hS hl ha hm hsz hW hfuel hf0
  have hs := allSlotsOrdered_sorted fuel _ _ _ _ _ n W hS.fields hord ha hm hW
  have : r = true := h3.mpr ⟨hne, hs.imp (fun h => .inr (.inr (.inl h)))⟩
  subst this
  exact ⟨o, h1, h2⟩

/-- C57 for the compiled version: its constructor returns the same object. -/
theorem C57_compiled (junk : Pyx.Builder → Nat → UInt8) (fuel : Nat) (S : Schema) (args : List Arg) (n : Nat)
    (W : List (Nat × Val)) (hS : S.WF) (hl : S.locals.Nodup) (hli : Pyx.AllListsOk S.fields)
    (ha : AccFields fuel S.fields args n) (hm : (members S.fields args).length ≤ 1)
    (hsz : 8 * (S.dataWords + S.ptrs) + n ≤ 2 ^ 32) (hW : FieldsPtrs S.fields args W)
    {fuel' : Nat} (hfuel : ∀ x ∈ W, x.2.depth < fuel') (hf0 : 0 < fuel') :
    ∃ o r, S.constructC junk fuel args = .ok o ∧ o.isCompact fuel' = .ok r ∧
      (r = true ↔ (∀ x ∈ W, x.2.NoEmpty) ∧ InSlotOrder W) := by
  obtain ⟨o, r, h1, h2, h3⟩ := construct_compact fuel S args n W hS hl ha hm hsz hW hfuel hf0
  obtain ⟨o', g1, g2, -⟩ := C55_roundtrip junk fuel S args n hS hl hli ha hm hsz
  rw [h1] at g2
  injection g2 with g2
  subst g2
  exact ⟨o, r, g1, h2, h3⟩

/-! ## Examples and counterexamples -/

/-- `struct Two { a @0 :Text; n @1 :Int64; b @2 :Data; }` -/
def flatSchema : Schema := ⟨1, 2, none,
  [.slot "a" 0 none .text 0 none, .slot "n" 1 none (.prim .q) 0 none, .slot "b" 2 none .data 1 none]⟩

theorem flatSchema_wf : flatSchema.WF := by
  refine ⟨by decide, by decide, ?_, ?_⟩
  · intro u hu; cases hu
  · unfold flatSchema
    simp only [FieldsWF, FieldWF, TagWF, SlotWF, Field.disc, fieldBits, fieldsBits, slotBits, tagBits, Fmt.size,
      List.mem_cons, List.not_mem_nil, or_false, forall_eq_or_imp, forall_eq,
      Option.isSome_some, Option.isSome_none, true_and, and_true, Bool.false_eq_true, false_and, false_or]
    simp [InRange, isSigned, Fmt.size]
    repeat' apply And.intro
    all_goals
      intros
      omega

def flatArgs : List Arg := [.bytes [104, 105], .int 7, .bytes [1, 2, 3]]

def flatW : List (Nat × Val) := [(0, .listPrim 2 3 [104, 105, 0]), (1, .listPrim 2 3 [1, 2, 3])]

theorem flatArgs_ok : AccFields 10 flatSchema.fields flatArgs 16 := by
  show AccFields 10 [.slot "a" 0 none .text 0 none, .slot "n" 1 none (.prim .q) 0 none,
    .slot "b" 2 none .data 1 none] flatArgs 16
  simp only [flatArgs, AccFields, AccField, SlotArg, Field.skipped, absent, Field.disc, PtrArg]
  refine ⟨8, 8, rfl, ⟨_, rfl, by simp [Val.Fits], by simp [Val.depth], by simp [Val.size]; decide⟩,
    0, 8, rfl, ⟨7, rfl, by simp [InRange, isSigned, Fmt.size], rfl⟩,
    8, 0, rfl, ⟨_, rfl, by simp [Val.Fits], by simp [Val.depth], by simp [Val.size]; decide⟩, trivial, rfl⟩

theorem flatArgs_ptrs : FieldsPtrs flatSchema.fields flatArgs flatW := by
  show FieldsPtrs [.slot "a" 0 none .text 0 none, .slot "n" 1 none (.prim .q) 0 none,
    .slot "b" 2 none .data 1 none] flatArgs flatW
  simp only [flatArgs, FieldsPtrs, FieldPtrs, Field.skipped, absent, Field.disc, SlotType.isPointer]
  exact ⟨[_], [_], rfl, ⟨_, rfl, rfl⟩, [], [_], rfl, rfl, [_], [], rfl, ⟨_, rfl, rfl⟩, rfl⟩

/-- The hypotheses of `C57_always_compact` are met. -/
example : ∃ o, flatSchema.construct 10 flatArgs = .ok o ∧ o.isCompact 10 = .ok true :=
  C57_always_compact 10 flatSchema flatArgs 16 flatW flatSchema_wf (by decide +kernel)
    (by simp [flatSchema, AllSlotsOrdered, SlotsOrdered, ptrSlots, SlotType.isPointer])
    flatArgs_ok (by simp [flatSchema, flatArgs, members, Field.skipped, Field.disc]) (by decide) flatArgs_ptrs
    (by simp [flatW, Val.NoEmpty]) (by simp [flatW, Val.depth]) (by decide)

/-- Is the object returned by a constructor compact? -/
def compact? (r : Py StructObj) (fuel : Nat) : Py Bool := do (← r).isCompact fuel

/-- ```
struct G {
  g :group { x @0 :Text; z @2 :Text; }
  y @1 :Text;
}
``` -/
def groupSchema : Schema := ⟨0, 3, none,
  [.group "g" 0 none false none [.slot "x" 0 none .text 0 none, .slot "z" 2 none .text 2 none],
   .slot "y" 1 none .text 1 none]⟩

theorem groupSchema_wf : groupSchema.WF := by
  refine ⟨by decide, by decide, ?_, ?_⟩
  · intro u hu; cases hu
  · unfold groupSchema
    simp only [FieldsWF, FieldWF, TagWF, SlotWF, Field.disc, fieldBits, fieldsBits, slotBits, tagBits, Fmt.size,
      List.mem_cons, List.not_mem_nil, or_false, forall_eq_or_imp, forall_eq,
      Option.isSome_some, Option.isSome_none, true_and, and_true, Bool.false_eq_true, false_and, false_or]
    simp
    repeat' apply And.intro
    all_goals
      intros
      omega

/-- Finding (the documentation's claim is false): `G(g=G.G(x="a", z="c"), y="b")` is not
compact, because the constructor writes `z` before `y`; without `y` it is. -/
theorem C57_group_not_compact :
    groupSchema.WF ∧
    compact? (groupSchema.construct 10 [.tuple [.bytes [97], .bytes [99]], .bytes [98]]) 10 = .ok false ∧
    compact? (groupSchema.construct 10 [.tuple [.bytes [97], .bytes [99]], .none]) 10 = .ok true :=
  ⟨groupSchema_wf, by decide +kernel, by decide +kernel⟩

/-- ```
struct U {
  union { a @0 :Text; b @2 :Text; }
  c @1 :Text;
}
```
The members of the union share slot 0. -/
def unionSchema : Schema := ⟨1, 2, some 0,
  [.slot "a" 0 (some 0) .text 0 none, .slot "c" 1 none .text 1 none, .slot "b" 2 (some 1) .text 0 none]⟩

theorem unionSchema_wf : unionSchema.WF := by
  refine ⟨by decide, by decide, ?_, ?_⟩
  · intro u hu
    cases hu
    decide
  · unfold unionSchema
    simp only [FieldsWF, FieldWF, TagWF, SlotWF, Field.disc, fieldBits, fieldsBits, slotBits, tagBits, Fmt.size,
      List.mem_cons, List.not_mem_nil, or_false, forall_eq_or_imp, forall_eq,
      Option.isSome_some, Option.isSome_none, true_and, and_true, Bool.false_eq_true, false_and, false_or]
    simp
    repeat' apply And.intro
    all_goals
      intros
      omega

/-- Finding: a member of a union declared after another field: `U.new_b(b="x", c="y")` is not
compact, `U.new_a(a="x", c="y")` is. -/
theorem C57_union_not_compact :
    unionSchema.WF ∧
    compact? (unionSchema.construct 10 [.undefined, .bytes [121], .bytes [120]]) 10 = .ok false ∧
    compact? (unionSchema.construct 10 [.bytes [120], .bytes [121], .undefined]) 10 = .ok true :=
  ⟨unionSchema_wf, by decide +kernel, by decide +kernel⟩

/-- Finding: an argument which is an empty struct: `Outer(child=Empty())` is not compact. -/
theorem C57_empty_child_not_compact :
    compact? (Schema.construct 10 ⟨0, 1, none, [.slot "child" 0 none .struct 0 none]⟩
      [.struct (objAt [] none 0 0 0)]) 10 = .ok false := by
  decide +kernel

end Capnpy.Props
