import Verif.Proof.CtorTyped
import Verif.Props.CyCtor

/-!
# C56: a constructor stores what it is given, or raises

Whatever the arguments are, an object is only returned when each of them has the type of
its field (`TypedFields`, Spec/Typed.lean).  No hypothesis is made about the arguments.
-/

namespace Capnpy.Props

open Spec

/-- C56: the pure constructor returns an object only if every argument has the type of its
field (ints in its range), also inside groups, and no two members of a union are given. -/
theorem C56_typed (fuel : Nat) (S : Schema) (args : List Arg) (hS : S.WF) (hl : S.locals.Nodup) {o : StructObj}
    (h : S.construct fuel args = .ok o) :
    args.length = S.params.length ∧ TypedFields S.fields args ∧ (members S.fields args).length ≤ 1 := by
  unfold Schema.construct at h
  cases hn : S.new fuel args with
  | error e => rw [hn] at h; cases h
  | ok C => exact new_typed hS hl hn

/-- C56: the same with the compiled constructor, whatever uninitialised memory contains. -/
theorem C56_typed_compiled (junk : Pyx.Builder → Nat → UInt8) (fuel : Nat) (S : Schema) (args : List Arg) (hS : S.WF)
    (hl : S.locals.Nodup) {o : StructObj} (h : S.constructC junk fuel args = .ok o) :
    args.length = S.params.length ∧ TypedFields S.fields args ∧ (members S.fields args).length ≤ 1 := by
  unfold Schema.constructC at h
  cases hn : S.newC junk fuel args with
  | error e => rw [hn] at h; cases h
  | ok C => exact newC_typed hS hl hn

theorem typedFields_get {fs : List Field} : ∀ {args : List Arg}, TypedFields fs args →
    ∀ (k : Nat) (f : Field) (a : Arg), (fs.filter (!·.skipped))[k]? = some f → args[k]? = some a →
      absent f a = true ∨ TypedField f a := by
  induction fs with
  | nil => intro args _ k f a hf; simp at hf
  | cons g gs ih =>
    intro args h k f a hf ha
    unfold TypedFields at h
    by_cases hs : g.skipped = true
    · rw [if_pos hs] at h
      rw [List.filter_cons_of_neg (by simp [hs])] at hf
      exact ih h k f a hf ha
    · rw [if_neg hs] at h
      rw [List.filter_cons_of_pos (by simp [hs])] at hf
      cases args with
      | nil => simp at ha
      | cons b bs =>
        cases k with
        | zero =>
          simp only [List.getElem?_cons_zero, Option.some.injEq] at hf ha
          subst hf ha
          exact h.1
        | succ k =>
          simp only [List.getElem?_cons_succ] at hf ha
          exact ih h.2 k f a hf ha

/-- C56: an int field (outside of unions) which is given anything but an int of its range: neither
version returns an object. -/
theorem C56_int_field (fuel : Nat) (S : Schema) (args : List Arg) (hS : S.WF) (hl : S.locals.Nodup)
    {k : Nat} {name : String} {code off : Nat} {dflt : Option Int} {fmt : Fmt} {a : Arg}
    (hf : S.params[k]? = some (.slot name code none (.prim fmt) off dflt)) (ha : args[k]? = some a)
    (hbad : ∀ i, a.toInt? = some i → ¬ InRange fmt i) :
    (∀ o, S.construct fuel args ≠ .ok o) ∧ (∀ junk o, S.constructC junk fuel args ≠ .ok o) := by
  have key : ¬ TypedFields S.fields args := by
    intro h
    rcases typedFields_get h k _ a hf ha with h | h
    · simp [absent, Field.disc] at h
    · unfold TypedField at h
      obtain ⟨i, h1, h2⟩ := h
      exact hbad i h1 h2
  exact ⟨fun o h => key (C56_typed fuel S args hS hl h).2.1,
    fun junk o h => key (C56_typed_compiled junk fuel S args hS hl h).2.1⟩

/-- C56: two members of a union, whatever the other arguments are. -/
theorem C56_two_members (fuel : Nat) (S : Schema) (args : List Arg) (hS : S.WF) (hl : S.locals.Nodup)
    (hm : 2 ≤ (members S.fields args).length) :
    (∀ o, S.construct fuel args ≠ .ok o) ∧ (∀ junk o, S.constructC junk fuel args ≠ .ok o) := by
  refine ⟨fun o h => ?_, fun junk o h => ?_⟩
  · have := (C56_typed fuel S args hS hl h).2.2
    omega
  · have := (C56_typed_compiled junk fuel S args hS hl h).2.2
    omega

/-- C56: a wrong number of arguments is a `TypeError`. -/
theorem C56_count (fuel : Nat) (S : Schema) (args : List Arg) (h : args.length ≠ S.params.length) :
    S.construct fuel args = .error .typeError ∧ ∀ junk, S.constructC junk fuel args = .error (.exc .typeError) := by
  unfold Schema.construct Schema.constructC
  refine ⟨?_, fun junk => ?_⟩
  · rw [new_count h]; rfl
  · rw [newC_count h]; rfl

/-- The sample schema (Props/Ctor.lean) with 2^31 for `x :Int32`. -/
example (o : StructObj) : sampleSchema.construct 10
    [.int (2 ^ 31), .bool false, .int 2, .bytes [104, 105], .tuple [.int 3, .undefined, .none], .none, .undefined, .int 9] ≠
      .ok o :=
  (C56_int_field 10 sampleSchema _ sampleSchema_wf sampleSchema_locals (k := 0) rfl rfl
    (by intro i h; cases h; simp [InRange, isSigned, Fmt.size])).1 o

/-- ... and with both `foo` and `bar`, although `x` is a struct. -/
example (o : StructObj) : sampleSchema.construct 10
    [.struct (itemObj 1), .bool false, .int 2, .none, .none, .none, .int 1, .int 9] ≠ .ok o :=
  (C56_two_members 10 sampleSchema _ sampleSchema_wf sampleSchema_locals (by
    show 2 ≤ (members sampleFields _).length
    simp [members, sampleFields, Field.skipped, Field.disc, Arg.isUndefined])).1 o

/-- A returned object implies typed arguments: the hypothesis of `C56_typed` is met by the sample. -/
example : TypedFields sampleSchema.fields sampleArgs := by
  obtain ⟨o, e, -⟩ := C30_roundtrip 10 sampleSchema sampleArgs 8 sampleSchema_wf sampleSchema_locals
    sampleArgs_ok (by rw [sampleArgs_members]; simp) (by decide)
  exact (C56_typed 10 sampleSchema sampleArgs sampleSchema_wf sampleSchema_locals e).2.1

/-- Bool fields are the exception: `TypedArg` asks nothing of them (`C55_bool_field_given_two`). -/
theorem C56_bool_not_checked : TypedArg .bool (.int 2) ∧ ¬ TypedArg (.prim .b) (.int 128) := by
  refine ⟨trivial, ?_⟩
  rintro ⟨i, h1, h2⟩
  cases h1
  simp [InRange, isSigned, Fmt.size] at h2

end Capnpy.Props
