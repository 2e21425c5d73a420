import Verif.Proof.CyCtor
import Verif.Props.Ctor
import Verif.Props.PyxList

/-!
# C55: the compiled constructors

With the C extensions the constructors are compiled: `Schema.constructC`, `Schema.callC`,
`Schema.newMemberC` (Model/CyCtor.lean) against `Schema.construct`, `Schema.call`,
`Schema.newMember` (Model/Ctor.lean).  `junk` is the content of uninitialised memory, `Fail.ub`
an access outside of the memory of the builder.
-/

namespace Capnpy.Props

open Spec Pyx

/-- C55: for every well-formed schema and all arguments which the C types take as the pure
version does (`FieldsArgOk`, Spec/Compiled.lean), when the pure constructor returns an object the
compiled one returns the same object. -/
theorem C55_same_result (junk : Builder → Nat → UInt8) (fuel : Nat) (S : Schema) (args : List Arg) (hS : S.WF)
    (hl : S.locals.Nodup) (hlen : args.length = S.params.length) (hok : FieldsArgOk S.fields args) {o : StructObj}
    (h : S.construct fuel args = .ok o) : S.constructC junk fuel args = .ok o := by
  have hs := new_sim junk fuel S args hl (nullablesOK_of_wf _ _ _ _ hS.fields) hlen hok
  unfold Schema.construct at h
  unfold Schema.constructC
  cases hn : S.new fuel args with
  | error e => rw [hn] at h; cases h
  | ok C =>
    rw [hn] at h hs
    simp only at hs
    rw [hs]
    change StructObj.initFromBuffer _ _ _ _ = _ at h
    change ofPy (StructObj.initFromBuffer _ _ _ _) = _
    rw [h]
    rfl

/-- C55: and when the pure constructor raises anything but a `struct.error` (or the recursion
limit), the compiled one raises the same exception. -/
theorem C55_same_exception (junk : Builder → Nat → UInt8) (fuel : Nat) (S : Schema) (args : List Arg) (hS : S.WF)
    (hl : S.locals.Nodup) (hlen : args.length = S.params.length) (hok : FieldsArgOk S.fields args) {e : PyErr}
    (he1 : e ≠ .structError) (he2 : e ≠ .recursionError)
    (h : S.construct fuel args = .error e) : S.constructC junk fuel args = .error (.exc e) := by
  have hs := new_sim junk fuel S args hl (nullablesOK_of_wf _ _ _ _ hS.fields) hlen hok
  unfold Schema.construct at h
  unfold Schema.constructC
  cases hn : S.new fuel args with
  | error e' =>
    rw [hn] at h hs
    injection h with h
    subst h
    rcases hs with hs | hs | hs
    · exact absurd hs he1
    · exact absurd hs he2
    · rw [hs]; rfl
  | ok C =>
    rw [hn] at h hs
    simp only at hs
    rw [hs]
    change StructObj.initFromBuffer _ _ _ _ = _ at h
    change ofPy (StructObj.initFromBuffer _ _ _ _) = _
    rw [h]
    rfl

/-! ## Acceptable arguments -/

theorem argOk_of_slotArg {fuel : Nat} {ty : SlotType} {a : Arg} {n : Nat} (h : SlotArg fuel ty a n)
    (hl : ∀ it, ty = .list it → it.Sized ∧ NoBool it) : ArgOk ty a := by
  cases ty with
  | bool =>
    obtain ⟨b, h, -⟩ := h
    unfold ArgOk
    rcases h with rfl | rfl <;> cases b <;> simp [Arg.toInt?]
  | struct =>
    obtain ⟨v, h, -⟩ := h
    cases a <;> first | trivial | skip
    exact denotes_noneBefore h.1 h.2
  | list it =>
    obtain ⟨v, h, -⟩ := h
    cases a <;> first | trivial | skip
    exact ⟨(hl it rfl).1, (hl it rfl).2, itemOk_of_listVal it _ v h⟩
  | _ => cases a <;> trivial

mutual

theorem fieldArgOk_of_acc (fuel : Nat) : ∀ (f : Field) (a : Arg) (n : Nat), AccField fuel f a n → ListsOk f →
    FieldArgOk f a
  | .slot _ _ _ ty _ _, a, n, h, hl => by
    unfold AccField at h
    unfold ListsOk at hl
    unfold FieldArgOk
    exact .inr (argOk_of_slotArg h hl)
  | .group _ _ _ nullable _ children, a, n, h, hl => by
    unfold AccField at h
    unfold ListsOk at hl
    unfold FieldArgOk
    refine .inr ?_
    by_cases hn : nullable = true
    · rw [if_pos hn] at h ⊢
      exact fieldsArgOk_of_acc fuel children _ n h hl
    · rw [if_neg hn] at h ⊢
      obtain ⟨as, rfl, h, -⟩ := h
      intro bs hb
      injection hb with hb
      subst hb
      exact fieldsArgOk_of_acc fuel children _ n h hl

theorem fieldsArgOk_of_acc (fuel : Nat) : ∀ (fs : List Field) (as : List Arg) (n : Nat), AccFields fuel fs as n →
    AllListsOk fs → FieldsArgOk fs as
  | [], _, _, _, _ => by unfold FieldsArgOk; trivial
  | f :: fs, as, n, h, hl => by
    unfold AccFields at h
    unfold AllListsOk at hl
    unfold FieldsArgOk
    by_cases hs : f.skipped = true
    · rw [if_pos hs] at h ⊢
      exact fieldsArgOk_of_acc fuel fs as n h hl.2
    · rw [if_neg hs] at h ⊢
      cases as with
      | nil => trivial
      | cons a as =>
        obtain ⟨n1, n2, -, h1, h2⟩ := h
        refine ⟨?_, fieldsArgOk_of_acc fuel fs as n2 h2 hl.2⟩
        by_cases ha : absent f a = true
        · unfold absent at ha
          cases f with
          | slot nm c d ty off df => unfold FieldArgOk; exact .inl ha
          | group nm c d nl u ch => unfold FieldArgOk; exact .inl ha
        · rw [if_neg ha] at h1
          exact fieldArgOk_of_acc fuel f a n1 h1 hl.1

end

/-- C55: for every schema laid out by the capnp compiler (without lists of bools) and all
acceptable arguments, the compiled constructor succeeds, the object is that of the pure
constructor, and each field that was given reads back as its argument. -/
theorem C55_roundtrip (junk : Builder → Nat → UInt8) (fuel : Nat) (S : Schema) (args : List Arg) (n : Nat) (hS : S.WF)
    (hl : S.locals.Nodup) (hli : AllListsOk S.fields) (ha : AccFields fuel S.fields args n)
    (hm : (members S.fields args).length ≤ 1) (hsz : 8 * (S.dataWords + S.ptrs) + n ≤ 2 ^ 32) :
    ∃ o, S.constructC junk fuel args = .ok o ∧ S.construct fuel args = .ok o ∧
      (∃ data ptrs, Denotes o (.struct data ptrs)) ∧
      (∀ (k : Nat) (f : Field) (a : Arg), S.params[k]? = some f → args[k]? = some a → absent f a = false →
        ReadsVal o f a (getField o S.union f)) ∧
      (∀ f ∈ S.fields, f.skipped = true → getField o S.union f = .ok .none) := by
  obtain ⟨o, e, h1, -, -, -, h2, h3⟩ := C30_roundtrip fuel S args n hS hl ha hm hsz
  exact ⟨o, C55_same_result junk fuel S args hS hl (accFields_length fuel _ _ _ ha)
    (fieldsArgOk_of_acc fuel _ _ _ ha hli) e, e, h1, h2, h3⟩

/-- C55: two members of a union: `TypeError`. -/
theorem C55_two_members (junk : Builder → Nat → UInt8) (fuel : Nat) (S : Schema) (args : List Arg) (n : Nat) (hS : S.WF)
    (hl : S.locals.Nodup) (hli : AllListsOk S.fields) (ha : AccFields fuel S.fields args n)
    (hm : 2 ≤ (members S.fields args).length) (hsz : 8 * (S.dataWords + S.ptrs) + n ≤ 2 ^ 32) :
    S.constructC junk fuel args = .error (.exc .typeError) :=
  C55_same_exception junk fuel S args hS hl (accFields_length fuel _ _ _ ha) (fieldsArgOk_of_acc fuel _ _ _ ha hli)
    (by decide) (by decide) (C31_two_members fuel S args n hS hl ha hm hsz)

/-- C55, keyword calls: `Cls(**kw)`. -/
theorem C55_call (junk : Builder → Nat → UInt8) (fuel : Nat) (S : Schema) (kw : List (String × Arg)) (n : Nat)
    (hS : S.WF) (hl : S.locals.Nodup) (hli : AllListsOk S.fields)
    (hk : ∀ x ∈ kw, ∃ f ∈ S.params, f.name = x.1)
    (ha : AccFields fuel S.fields (S.params.map fun f => (kw.lookup f.name).getD (defaultArg none f)) n)
    (hm : (members S.fields (S.params.map fun f => (kw.lookup f.name).getD (defaultArg none f))).length ≤ 1)
    (hsz : 8 * (S.dataWords + S.ptrs) + n ≤ 2 ^ 32) :
    ∃ o, S.callC junk fuel kw = .ok o ∧ S.call fuel kw = .ok o ∧
      (∀ f ∈ S.params, ∀ a, kw.lookup f.name = some a → absent f a = false →
        ReadsVal o f a (getField o S.union f)) ∧
      (∀ f ∈ S.params, kw.lookup f.name = none → f.disc = none → ReadsDefault o S.union f) := by
  obtain ⟨o, e, h1, h2⟩ := C30_call fuel S kw n hS hl hk ha hm hsz
  refine ⟨o, ?_, e, h1, h2⟩
  have e1 := kwargs_ok S kw hk
  unfold Schema.call at e
  rw [bind_okP e1] at e
  unfold Schema.callC
  rw [e1]
  exact C55_same_result junk fuel S _ hS hl (accFields_length fuel _ _ _ ha) (fieldsArgOk_of_acc fuel _ _ _ ha hli) e

/-- C55, `new_foo(**kw)`. -/
theorem C55_new_member (junk : Builder → Nat → UInt8) (fuel : Nat) (S : Schema) (g : Field) (tag : Nat)
    (kw : List (String × Arg)) (n u : Nat)
    (hS : S.WF) (hl : S.locals.Nodup) (hli : AllListsOk S.fields) (hu : S.union = some u) (hg : g ∈ S.params)
    (hd : g.disc = some tag) (hk : ∀ x ∈ kw, ∃ f ∈ S.params, (f.disc = none ∨ f = g) ∧ f.name = x.1)
    (hgu : kw.lookup g.name ≠ some .undefined)
    (ha : AccFields fuel S.fields (newMemberArgs S g kw) n)
    (hsz : 8 * (S.dataWords + S.ptrs) + n ≤ 2 ^ 32) :
    ∃ o, S.newMemberC junk fuel g kw = .ok o ∧ S.newMember fuel g kw = .ok o ∧
      o.whichRaw (some ((u * 2 : Nat) : Int)) = .ok tag ∧
      ∀ f ∈ S.params, (f.disc = none ∨ f = g) → ∀ a, kw.lookup f.name = some a → absent f a = false →
        ReadsVal o f a (getField o S.union f) := by
  obtain ⟨o, e, h1, h2⟩ := C31_new_member fuel S g tag kw n u hS hl hu hg hd hk hgu ha hsz
  refine ⟨o, ?_, e, h1, h2⟩
  unfold Schema.newMember at e
  unfold Schema.newMemberC
  by_cases hc : (kw.all fun x => (S.params.filter fun f => f.disc.isNone || (f.name == g.name && f.code == g.code)).any
      fun f => f.name == x.1) = true
  · simp only [if_pos hc] at e ⊢
    exact C55_same_result junk fuel S _ hS hl (accFields_length fuel _ _ _ ha) (fieldsArgOk_of_acc fuel _ _ _ ha hli) e
  · simp only [if_neg hc] at e
    cases e

/-- C55: an unknown keyword is a `TypeError`. -/
theorem C55_unknown_keyword (junk : Builder → Nat → UInt8) (fuel : Nat) (S : Schema) (kw : List (String × Arg))
    (x : String × Arg) (hx : x ∈ kw) (h : ∀ f ∈ S.params, f.name ≠ x.1) :
    S.callC junk fuel kw = .error (.exc .typeError) := by
  have e : S.kwargs kw = .error .typeError := by
    unfold Schema.kwargs
    rw [if_neg]
    rw [List.all_eq_true]
    intro hc
    have := hc x hx
    rw [List.any_eq_true] at this
    obtain ⟨f, hf, he⟩ := this
    exact h f hf (by simpa using he)
  unfold Schema.callC
  rw [e]
  rfl

/-! ## The hypotheses are met -/

theorem sampleSchema_lists : AllListsOk sampleSchema.fields := by
  show AllListsOk sampleFields
  simp [sampleFields, AllListsOk, ListsOk]

/-- The sample schema of Props/Ctor.lean, with a union, a group and a nullable group. -/
example (junk : Builder → Nat → UInt8) : ∃ o, sampleSchema.constructC junk 10 sampleArgs = .ok o ∧
    getField o (some 9) (.slot "name" 3 none .text 0 none) = .ok (.bytes [104, 105]) := by
  obtain ⟨o, e, -, -, h, -⟩ := C55_roundtrip junk 10 sampleSchema sampleArgs 8 sampleSchema_wf sampleSchema_locals
    sampleSchema_lists sampleArgs_ok (by rw [sampleArgs_members]; simp) (by decide)
  refine ⟨o, e, ?_⟩
  have := h 3 _ _ rfl rfl rfl
  unfold ReadsVal at this
  rcases this with ⟨hn, _⟩ | ⟨t, ht, hr⟩
  · cases hn
  · cases ht
    exact hr

/-- A struct with a list of structs:  `struct L { xs @0 :List(Item); }`. -/
def listSchema : Schema := ⟨0, 1, none, [.slot "xs" 0 none (.list (.struct 1 0)) 0 none]⟩

def itemObj (b : UInt8) : StructObj := objAt [b, 2, 3, 4, 5, 6, 7, 8] none 0 1 0

theorem itemObj_val (b : UInt8) : StructVal 1 0 (.struct (itemObj b)) ([b, 2, 3, 4, 5, 6, 7, 8], []) :=
  ⟨⟨_, none, 0, 1, 0, _, [], rfl, (by intro l h; cases h), by decide, by decide, by decide,
    ⟨by simp, rfl, rfl, by simp⟩, rfl⟩, rfl, rfl, by simp [itemObj, objAt, Seg.of]⟩

/-- The hypotheses of `C55_same_result` are met by two structs in a list. -/
example (junk : Builder → Nat → UInt8) :
    ∃ o, listSchema.constructC junk 10 [.list [.struct (itemObj 1), .struct (itemObj 9)]] = .ok o := by
  obtain ⟨o, e, -⟩ := C55_roundtrip junk 10 listSchema [.list [.struct (itemObj 1), .struct (itemObj 9)]] 24
    ⟨by decide, by decide, (by intro u hu; cases hu), by
      simp [listSchema, FieldsWF, FieldWF, SlotWF, Field.disc, tagBits]⟩
    (by decide +kernel)
    (by simp [listSchema, AllListsOk, ListsOk, ItemType.Sized, NoBool])
    (by
      simp only [listSchema, AccFields, AccField, SlotArg, Field.skipped, absent, Field.disc, PtrArg]
      refine ⟨24, 0, rfl, ⟨_, ⟨1, 0, _, rfl, rfl, by norm_num, by norm_num, by norm_num,
        .cons (itemObj_val 1) (.cons (itemObj_val 9) .nil), rfl⟩, ?_, ?_, ?_⟩, by simp⟩
      · simp [Val.Fits, Val.AllFits, Val.ItemsFit]
      · decide
      · decide)
    (by decide) (by decide)
  exact ⟨o, e⟩

/-! ## Where the versions differ -/

def intSchema : Schema := ⟨1, 0, none, [.slot "x" 0 none (.prim .b) 0 none]⟩

/-- Finding: an int which does not fit: `struct.error` from the pure version, `OverflowError` from
the compiled one. -/
theorem C55_out_of_range :
    intSchema.construct 5 [.int 200] = .error .structError ∧
    intSchema.constructC (fun _ _ => 0) 5 [.int 200] = .error (.exc .overflowError) := by
  refine ⟨by decide +kernel, by decide +kernel⟩

def boolSchema : Schema := ⟨1, 0, none, [.slot "b" 0 none .bool 0 none, .slot "c" 1 none .bool 1 none]⟩

/-- The buffer of an object, if there is one. -/
def bufOf? {ε} : Except ε StructObj → Option Bytes
  | .ok o => some o.seg.buf
  | .error _ => none

/-- Finding: a bool field given an int which is neither 0 nor 1: the pure version shifts it into
the bits of the next fields, `Cls(b=2, c=False)` has `b == False` and `c == True`; the compiled
version stores `True`. -/
theorem C55_bool_field_given_two :
    bufOf? (boolSchema.construct 5 [.int 2, .bool false]) = some [2, 0, 0, 0, 0, 0, 0, 0] ∧
    bufOf? (boolSchema.constructC (fun _ _ => 0) 5 [.int 2, .bool false]) = some [1, 0, 0, 0, 0, 0, 0, 0] :=
  ⟨by decide +kernel, by decide +kernel⟩

/-- A bool field given `None`: `TypeError` from the pure version, the compiled one stores `False`. -/
theorem C55_bool_field_given_none :
    boolSchema.construct 5 [.none, .bool false] = .error .typeError ∧
    bufOf? (boolSchema.constructC (fun _ _ => 0) 5 [.none, .bool false]) = some [0, 0, 0, 0, 0, 0, 0, 0] :=
  ⟨by decide +kernel, by decide +kernel⟩

/-- Finding: a list field given structs which were read from a message made with a newer schema
(one more data word): the compiled constructor overwrites each item with the next one and writes
the last one outside of the memory of the builder, which here, with 62 items, is a heap overflow;
the pure one returns, with a buffer which does not have the length the list announces. -/
theorem C55_heap_overflow :
    listSchema.constructC (fun _ _ => 0) 5 [.list (List.replicate 62 (.struct newerObj))] = .error .ub ∧
    (bufOf? (listSchema.construct 5 [.list (List.replicate 62 (.struct newerObj))])).map List.length = some 520 :=
  ⟨by decide +kernel, by decide +kernel⟩

end Capnpy.Props
