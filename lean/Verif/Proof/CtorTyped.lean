import Verif.Spec.Typed
import Verif.Proof.CyCtor

/-! # What a constructor accepts -/

namespace Capnpy

open Spec Props

theorem BM.bind_okE {α β} {x : BM α} {f : α → BM β} {b b' : Bytes} {r : β} (h : (x >>= f) b = .ok r b') :
    ∃ a b1, x b = .ok a b1 ∧ f a b1 = .ok r b' := by
  cases hx : x b with
  | ok a b1 => rw [BM.bind_ok hx] at h; exact ⟨a, b1, rfl, h⟩
  | error e b1 => rw [BM.bind_error hx] at h; cases h

theorem KM.bind_okE {α β} {x : KM α} {f : α → KM β} {b b' : Pyx.Builder} {r : β} (h : (x >>= f) b = .ok r b') :
    ∃ a b1, x b = .ok a b1 ∧ f a b1 = .ok r b' := by
  cases hx : x b with
  | ok a b1 => rw [KM.bind_ok hx] at h; exact ⟨a, b1, rfl, h⟩
  | error e b1 => rw [KM.bind_error hx] at h; cases h

theorem BM.lift_okE {α} {x : Py α} {b b' : Bytes} {a : α} (h : (BM.lift x) b = .ok a b') : x = .ok a := by
  unfold BM.lift at h
  cases x with
  | ok a => cases h; rfl
  | error e => cases h

theorem KM.lift_okE {α} {x : Py α} {b b' : Pyx.Builder} {a : α} (h : (KM.lift x) b = .ok a b') : x = .ok a := by
  unfold KM.lift at h
  cases x with
  | ok a => cases h; rfl
  | error e => cases h

theorem KM.of_okE {α} {x : Pyx.PM α} {b b' : Pyx.Builder} {a : α} (h : (KM.of x) b = .ok a b') : x b = .ok a b' := by
  unfold KM.of at h
  cases hx : x b with
  | ok a s => rw [hx] at h; cases h; rfl
  | exc e s => rw [hx] at h; cases h
  | ub => rw [hx] at h; cases h

theorem encode_okE {fmt : Fmt} {v : Int} {bs : Bytes} (h : fmt.encode v = .ok bs) : InRange fmt v := by
  unfold Fmt.encode at h
  split at h
  · exact (inRange_iff _ _).mpr (by assumption)
  · cases h

theorem writeFmt_okE {fmt : Fmt} {i v : Int} {b b' : Bytes} (h : writeFmt fmt i v b = .ok () b') : InRange fmt v := by
  unfold writeFmt packInto at h
  cases he : fmt.encode v with
  | ok bs => exact encode_okE he
  | error e => rw [he] at h; cases h

theorem writeGenericC_okE {fmt : Fmt} {i v : Int} {b b' : Pyx.Builder} (h : Pyx.writeGenericC fmt i v b = .ok () b') :
    InRange fmt v := by
  unfold Pyx.writeGenericC at h
  cases he : fmt.encode v with
  | ok bs => exact encode_okE he
  | error e => rw [he] at h; cases h

/-- The argument before the `^=` is in range if it is so afterwards. -/
theorem xorArg_int_okE {fmt : Fmt} {ty : SlotType} (hty : ty = .prim fmt ∨ (ty = .enum ∧ fmt = .h)) {dflt : Option Int}
    (hd : ∀ d, dflt = some d → InRange fmt d) {a a' : Arg} (h : xorArg dflt ty a = .ok a') {i : Int}
    (hi : a'.toInt? = some i) (hr : InRange fmt i) : ∃ i, a.toInt? = some i ∧ InRange fmt i := by
  cases dflt with
  | none => cases h; exact ⟨i, hi, hr⟩
  | some d =>
    have hd := hd d rfl
    have key : ∀ j : Int, xorArg (some d) ty a = .ok (.int (Int.xor j d)) → a.toInt? = some j →
        ∃ i, a.toInt? = some i ∧ InRange fmt i := by
      intro j e ej
      rw [e] at h
      cases h
      cases hi
      refine ⟨j, ej, ?_⟩
      have := inRange_xor hr hd
      rwa [int_xor_cancel] at this
    cases a with
    | int j => refine key j ?_ rfl; rcases hty with rfl | ⟨rfl, -⟩ <;> rfl
    | bool b => refine key (if b then 1 else 0) ?_ rfl; rcases hty with rfl | ⟨rfl, -⟩ <;> rfl
    | _ => rcases hty with rfl | ⟨rfl, -⟩ <;> cases h

theorem writeArg_okE {fmt : Fmt} {i : Int} {a : Arg} {b b' : Bytes} (h : writeArg fmt i a b = .ok () b') :
    ∃ i, a.toInt? = some i ∧ InRange fmt i := by
  unfold writeArg at h
  cases ha : a.toInt? with
  | none => rw [ha] at h; cases h
  | some v => rw [ha] at h; exact ⟨v, rfl, writeFmt_okE h⟩

theorem writeArgC_okE {fmt : Fmt} {i : Int} {a : Arg} {b b' : Pyx.Builder} (h : writeArgC fmt i a b = .ok () b') :
    ∃ i, a.toInt? = some i ∧ InRange fmt i := by
  unfold writeArgC at h
  cases ha : a.toInt? with
  | none => rw [ha] at h; cases h
  | some v => rw [ha] at h; exact ⟨v, rfl, writeGenericC_okE h⟩

theorem buildSlot_typed {fuel ds ps : Nat} {ty : SlotType} {off : Nat} {dflt : Option Int} {a : Arg} {b b' : Bytes}
    (hwf : SlotWF ds ps ty off dflt) (h : buildSlot fuel ds ty off dflt a b = .ok () b') : TypedArg ty a := by
  unfold buildSlot at h
  cases ty with
  | void => trivial
  | bool => trivial
  | text =>
    cases a <;> first | exact .inl rfl | exact .inr ⟨_, rfl⟩ | cases h
  | data =>
    cases a <;> first | exact .inl rfl | exact .inr ⟨_, rfl⟩ | cases h
  | struct =>
    cases a <;> first | exact .inl rfl | exact .inr ⟨_, rfl⟩ | cases h
  | list it =>
    cases a <;> first | exact .inl rfl | exact .inr ⟨_, rfl⟩ | cases h
  | anyPointer => cases h
  | prim fmt =>
    obtain ⟨a', b1, e1, e2⟩ := BM.bind_okE h
    obtain ⟨i, e3, e4⟩ := writeArg_okE e2
    exact xorArg_int_okE (.inl rfl) hwf.2 (BM.lift_okE e1) e3 e4
  | enum =>
    obtain ⟨a', b1, e1, e2⟩ := BM.bind_okE h
    obtain ⟨i, e3, e4⟩ := writeArg_okE e2
    exact xorArg_int_okE (.inr ⟨rfl, rfl⟩) hwf.2 (BM.lift_okE e1) e3 e4
  | float fmt =>
    obtain ⟨a', b1, e1, e2⟩ := BM.bind_okE h
    obtain ⟨-, hd⟩ := hwf
    subst hd
    have e1 := BM.lift_okE e1
    cases e1
    cases a <;> first | exact ⟨_, rfl, writeFmt_okE e2⟩ | cases e2

theorem buildSlotC_typed {junk : Pyx.Builder → Nat → UInt8} {fuel ds ps : Nat} {ty : SlotType} {off : Nat}
    {dflt : Option Int} {a : Arg} {b b' : Pyx.Builder}
    (hwf : SlotWF ds ps ty off dflt) (h : buildSlotC junk fuel ds ty off dflt a b = .ok () b') : TypedArg ty a := by
  unfold buildSlotC at h
  cases ty with
  | void => trivial
  | bool => trivial
  | text =>
    cases a <;> first | exact .inl rfl | exact .inr ⟨_, rfl⟩ | cases h
  | data =>
    cases a <;> first | exact .inl rfl | exact .inr ⟨_, rfl⟩ | cases h
  | struct =>
    cases a <;> first | exact .inl rfl | exact .inr ⟨_, rfl⟩ | cases h
  | list it =>
    cases a <;> first | exact .inl rfl | exact .inr ⟨_, rfl⟩ | cases h
  | anyPointer => cases h
  | prim fmt =>
    obtain ⟨a', b1, e1, e2⟩ := KM.bind_okE h
    obtain ⟨i, e3, e4⟩ := writeArgC_okE (KM.of_okE e2)
    exact xorArg_int_okE (.inl rfl) hwf.2 (KM.lift_okE e1) e3 e4
  | enum =>
    obtain ⟨a', b1, e1, e2⟩ := KM.bind_okE h
    obtain ⟨i, e3, e4⟩ := writeArgC_okE (KM.of_okE e2)
    exact xorArg_int_okE (.inr ⟨rfl, rfl⟩) hwf.2 (KM.lift_okE e1) e3 e4
  | float fmt =>
    obtain ⟨a', b1, e1, e2⟩ := KM.bind_okE h
    obtain ⟨-, hd⟩ := hwf
    subst hd
    have e1 := KM.lift_okE e1
    cases e1
    have e2 := KM.of_okE e2
    cases a <;> first | exact ⟨_, rfl, writeGenericC_okE e2⟩ | cases e2

/-- One if a member of the union is set by the node. -/
def given (f : Field) (a : Arg) : List Nat :=
  match f.disc with
  | some tag => if a.isUndefined then [] else [tag]
  | none => []

theorem guardedB_okE {union : Option Nat} {cur : Bool} {f : Field} {a : Arg} {x : BM Unit} {b b' : Bytes}
    {c : Bool} (h : guardedB union cur f.disc a x b = .ok c b') :
    (absent f a = true ∨ ∃ b1 b2, x b1 = .ok () b2) ∧
      (given f a).length + (if cur then 1 else 0) = (if c then 1 else 0) := by
  unfold guardedB at h
  unfold absent given
  cases hd : f.disc with
  | none =>
    rw [hd] at h
    obtain ⟨u, b1, e1, e2⟩ := BM.bind_okE h
    cases e2
    exact ⟨.inr ⟨_, _, e1⟩, by simp⟩
  | some tag =>
    rw [hd] at h
    cases union with
    | none => cases h
    | some off =>
      simp only at h ⊢
      by_cases hu : a.isUndefined = true
      · rw [if_pos hu] at h
        cases h
        exact ⟨.inl (by simp [hu]), by simp [hu]⟩
      · rw [if_neg hu] at h
        cases cur with
        | true => rw [if_pos rfl] at h; cases h
        | false =>
          rw [if_neg (by simp)] at h
          obtain ⟨v, hv⟩ : ∃ v : Int, v = tag := ⟨_, rfl⟩
          rw [← hv] at h
          obtain ⟨_, b1, -, h⟩ := BM.bind_okE h
          obtain ⟨_, b2, e1, h⟩ := BM.bind_okE h
          cases h
          exact ⟨.inr ⟨_, _, e1⟩, by simp [hu]⟩

theorem guardedBC_okE {union : Option Nat} {cur : Bool} {f : Field} {a : Arg} {x : KM Unit} {b b' : Pyx.Builder}
    {c : Bool} (h : guardedBC union cur f.disc a x b = .ok c b') :
    (absent f a = true ∨ ∃ b1 b2, x b1 = .ok () b2) ∧
      (given f a).length + (if cur then 1 else 0) = (if c then 1 else 0) := by
  unfold guardedBC at h
  unfold absent given
  cases hd : f.disc with
  | none =>
    rw [hd] at h
    obtain ⟨u, b1, e1, e2⟩ := KM.bind_okE h
    cases e2
    exact ⟨.inr ⟨_, _, e1⟩, by simp⟩
  | some tag =>
    rw [hd] at h
    cases union with
    | none => cases h
    | some off =>
      simp only at h ⊢
      by_cases hu : a.isUndefined = true
      · rw [if_pos hu] at h
        cases h
        exact ⟨.inl (by simp [hu]), by simp [hu]⟩
      · rw [if_neg hu] at h
        cases cur with
        | true => rw [if_pos rfl] at h; cases h
        | false =>
          rw [if_neg (by simp)] at h
          obtain ⟨v, hv⟩ : ∃ v : Int, v = tag := ⟨_, rfl⟩
          rw [← hv] at h
          obtain ⟨_, b1, -, h⟩ := KM.bind_okE h
          obtain ⟨_, b2, e1, h⟩ := KM.bind_okE h
          cases h
          exact ⟨.inr ⟨_, _, e1⟩, by simp [hu]⟩

theorem nullablePair_eq {children : List Field} {a : Arg}
    (h : ∃ c1 c2, children = [c1, c2] ∧ c1.skipped = false ∧ c2.skipped = false) :
    nullableArgs children a = nullablePair children a := by
  obtain ⟨c1, c2, rfl, s1, s2⟩ := h
  unfold nullableArgs nullablePair
  by_cases ha : a.isNone = true
  · rw [if_pos ha, if_pos ha]
    simp [defaultArgs, s1, s2]
  · rw [if_neg ha, if_neg ha]

theorem nullable_children {ds ps : Nat} {name : String} {c : Nat} {d : Option Nat} {u : Option Nat} {ch : List Field}
    (h : FieldWF ds ps (.group name c d true u ch)) :
    ∃ c1 c2, ch = [c1, c2] ∧ c1.skipped = false ∧ c2.skipped = false := by
  unfold FieldWF at h
  obtain ⟨_, _, c1, o1, ty, d1, c2, e, hty, hname, hdisc, hsk⟩ := h.2.2 rfl
  exact ⟨_, c2, e, by cases ty <;> first | rfl | simp [IsNullType] at hty, hsk⟩

mutual

theorem buildNode_typed (fuel ds ps : Nat) (union : Option Nat) (cur : Bool) : ∀ (f : Field) (a : Arg) (b b' : Bytes)
    (c : Bool), FieldWF ds ps f → buildNode fuel ds union cur f a b = .ok c b' →
    (absent f a = true ∨ TypedField f a) ∧ (given f a).length + (if cur then 1 else 0) = (if c then 1 else 0)
  | .slot nm cd disc ty off dflt, a, b, b', c, hwf, h => by
    unfold buildNode at h
    obtain ⟨h1, h2⟩ := guardedB_okE (f := .slot nm cd disc ty off dflt) h
    refine ⟨h1.imp id ?_, h2⟩
    rintro ⟨b1, b2, e⟩
    unfold FieldWF at hwf
    unfold TypedField
    exact buildSlot_typed hwf e
  | .group nm cd disc nullable gunion children, a, b, b', c, hwf, h => by
    unfold buildNode at h
    obtain ⟨h1, h2⟩ := guardedB_okE (f := .group nm cd disc nullable gunion children) h
    refine ⟨h1.imp id ?_, h2⟩
    rintro ⟨b1, b2, e⟩
    unfold TypedField
    by_cases hn : nullable = true
    · subst hn
      have hch := nullable_children hwf
      unfold FieldWF at hwf
      rw [if_pos rfl]
      rw [if_pos rfl, nullablePair_eq hch] at e
      obtain ⟨c', b3, e1, -⟩ := BM.bind_okE e
      exact (buildNodes_typed fuel ds ps gunion false children _ _ _ _ hwf.2.1 e1).1
    · unfold FieldWF at hwf
      rw [if_neg hn] at e ⊢
      cases a with
      | tuple as =>
        simp only at e
        by_cases hl : as.length = (children.filter (!·.skipped)).length
        · rw [if_pos hl] at e
          obtain ⟨c', b3, e1, -⟩ := BM.bind_okE e
          obtain ⟨h3, h4⟩ := buildNodes_typed fuel ds ps gunion false children _ _ _ _ hwf.2.1 e1
          refine ⟨as, rfl, hl, h3, ?_⟩
          simp only [Bool.false_eq_true, if_false] at h4
          split at h4 <;> omega
        · rw [if_neg hl] at e; cases e
      | _ => cases e

theorem buildNodes_typed (fuel ds ps : Nat) (union : Option Nat) (cur : Bool) : ∀ (fs : List Field) (as : List Arg)
    (b b' : Bytes) (c : Bool), FieldsWF ds ps union fs → buildNodes fuel ds union cur fs as b = .ok c b' →
    TypedFields fs as ∧ (members fs as).length + (if cur then 1 else 0) = (if c then 1 else 0)
  | [], as, b, b', c, _, h => by
    unfold buildNodes at h
    cases h
    unfold TypedFields members
    exact ⟨trivial, by simp⟩
  | f :: fs, as, b, b', c, hwf, h => by
    unfold FieldsWF at hwf
    unfold buildNodes at h
    unfold TypedFields members
    by_cases hs : f.skipped = true
    · rw [if_pos hs] at h ⊢
      rw [if_pos hs]
      exact buildNodes_typed fuel ds ps union cur fs as _ _ _ hwf.2.2.2.2 h
    · rw [if_neg hs] at h ⊢
      rw [if_neg hs]
      cases as with
      | nil => cases h
      | cons a as =>
        obtain ⟨c', b1, e1, e2⟩ := BM.bind_okE h
        obtain ⟨h1, h2⟩ := buildNode_typed fuel ds ps union cur f a _ _ _ hwf.1 e1
        obtain ⟨h3, h4⟩ := buildNodes_typed fuel ds ps union c' fs as _ _ _ hwf.2.2.2.2 e2
        refine ⟨⟨h1, h3⟩, ?_⟩
        show (given f a ++ members fs as).length + _ = _
        rw [List.length_append]
        omega

end

mutual

theorem buildNodeC_typed (junk : Pyx.Builder → Nat → UInt8) (fuel ds ps : Nat) (union : Option Nat) (cur : Bool) :
    ∀ (f : Field) (a : Arg) (b b' : Pyx.Builder)
    (c : Bool), FieldWF ds ps f → buildNodeC junk fuel ds union cur f a b = .ok c b' →
    (absent f a = true ∨ TypedField f a) ∧ (given f a).length + (if cur then 1 else 0) = (if c then 1 else 0)
  | .slot nm cd disc ty off dflt, a, b, b', c, hwf, h => by
    unfold buildNodeC at h
    obtain ⟨h1, h2⟩ := guardedBC_okE (f := .slot nm cd disc ty off dflt) h
    refine ⟨h1.imp id ?_, h2⟩
    rintro ⟨b1, b2, e⟩
    unfold FieldWF at hwf
    unfold TypedField
    exact buildSlotC_typed hwf e
  | .group nm cd disc nullable gunion children, a, b, b', c, hwf, h => by
    unfold buildNodeC at h
    obtain ⟨h1, h2⟩ := guardedBC_okE (f := .group nm cd disc nullable gunion children) h
    refine ⟨h1.imp id ?_, h2⟩
    rintro ⟨b1, b2, e⟩
    unfold TypedField
    by_cases hn : nullable = true
    · subst hn
      have hch := nullable_children hwf
      unfold FieldWF at hwf
      rw [if_pos rfl]
      rw [if_pos rfl, nullablePair_eq hch] at e
      obtain ⟨c', b3, e1, -⟩ := KM.bind_okE e
      exact (buildNodesC_typed junk fuel ds ps gunion false children _ _ _ _ hwf.2.1 e1).1
    · unfold FieldWF at hwf
      rw [if_neg hn] at e ⊢
      cases a with
      | tuple as =>
        simp only at e
        by_cases hl : as.length = (children.filter (!·.skipped)).length
        · rw [if_pos hl] at e
          obtain ⟨c', b3, e1, -⟩ := KM.bind_okE e
          obtain ⟨h3, h4⟩ := buildNodesC_typed junk fuel ds ps gunion false children _ _ _ _ hwf.2.1 e1
          refine ⟨as, rfl, hl, h3, ?_⟩
          simp only [Bool.false_eq_true, if_false] at h4
          split at h4 <;> omega
        · rw [if_neg hl] at e; cases e
      | _ => cases e

theorem buildNodesC_typed (junk : Pyx.Builder → Nat → UInt8) (fuel ds ps : Nat) (union : Option Nat) (cur : Bool) :
    ∀ (fs : List Field) (as : List Arg)
    (b b' : Pyx.Builder) (c : Bool), FieldsWF ds ps union fs → buildNodesC junk fuel ds union cur fs as b = .ok c b' →
    TypedFields fs as ∧ (members fs as).length + (if cur then 1 else 0) = (if c then 1 else 0)
  | [], as, b, b', c, _, h => by
    unfold buildNodesC at h
    cases h
    unfold TypedFields members
    exact ⟨trivial, by simp⟩
  | f :: fs, as, b, b', c, hwf, h => by
    unfold FieldsWF at hwf
    unfold buildNodesC at h
    unfold TypedFields members
    by_cases hs : f.skipped = true
    · rw [if_pos hs] at h ⊢
      rw [if_pos hs]
      exact buildNodesC_typed junk fuel ds ps union cur fs as _ _ _ hwf.2.2.2.2 h
    · rw [if_neg hs] at h ⊢
      rw [if_neg hs]
      cases as with
      | nil => cases h
      | cons a as =>
        obtain ⟨c', b1, e1, e2⟩ := KM.bind_okE h
        obtain ⟨h1, h2⟩ := buildNodeC_typed junk fuel ds ps union cur f a _ _ _ hwf.1 e1
        obtain ⟨h3, h4⟩ := buildNodesC_typed junk fuel ds ps union c' fs as _ _ _ hwf.2.2.2.2 e2
        refine ⟨⟨h1, h3⟩, ?_⟩
        show (given f a ++ members fs as).length + _ = _
        rw [List.length_append]
        omega

end

theorem bindParams_count : ∀ (fs : List Field) (as : List Arg) (fr fr' : Frame),
    Schema.bindParams fs as fr = .ok fr' → as.length = fs.length
  | [], [], _, _, _ => rfl
  | [], _ :: _, _, _, h => by cases h
  | _ :: _, [], _, _, h => by cases h
  | f :: fs, a :: as, fr, fr', h => by
    have := bindParams_count fs as _ fr' h
    simp [this]

theorem bindParamsC_count : ∀ (fs : List Field) (as : List Arg) (fr fr' : FrameC),
    Schema.bindParamsC fs as fr = .ok fr' → as.length = fs.length
  | [], [], _, _, _ => rfl
  | [], _ :: _, _, _, h => by cases h
  | _ :: _, [], _, _, h => by cases h
  | f :: fs, a :: as, fr, fr', h => by
    have := bindParamsC_count fs as _ fr' h
    simp [this]

theorem bindParams_error : ∀ (fs : List Field) (as : List Arg) (fr : Frame), as.length ≠ fs.length →
    Schema.bindParams fs as fr = .error .typeError
  | [], [], _, h => absurd rfl h
  | [], _ :: _, _, h => rfl
  | _ :: _, [], _, h => rfl
  | f :: fs, a :: as, fr, h => by
    unfold Schema.bindParams
    exact bindParams_error fs as _ (by simpa using h)

theorem bindParamsC_error : ∀ (fs : List Field) (as : List Arg) (fr : FrameC), as.length ≠ fs.length →
    Schema.bindParamsC fs as fr = .error (.exc .typeError)
  | [], [], _, h => absurd rfl h
  | [], _ :: _, _, h => rfl
  | _ :: _, [], _, h => rfl
  | f :: fs, a :: as, fr, h => by
    unfold Schema.bindParamsC
    exact bindParamsC_error fs as _ (by simpa using h)

theorem new_count {fuel : Nat} {S : Schema} {args : List Arg} (h : args.length ≠ S.params.length) :
    S.new fuel args = .error .typeError := by
  unfold Schema.new
  rw [bindParams_error _ _ _ h]
  rfl

theorem newC_count {junk : Pyx.Builder → Nat → UInt8} {fuel : Nat} {S : Schema} {args : List Arg}
    (h : args.length ≠ S.params.length) : S.newC junk fuel args = .error (.exc .typeError) := by
  unfold Schema.newC
  rw [bindParamsC_error _ _ _ h]
  rfl

/-- What the pure constructor accepts. -/
theorem new_typed {fuel : Nat} {S : Schema} {args : List Arg} (hS : S.WF) (hl : S.locals.Nodup) {C : Bytes}
    (h : S.new fuel args = .ok C) :
    args.length = S.params.length ∧ TypedFields S.fields args ∧ (members S.fields args).length ≤ 1 := by
  by_cases hlen : args.length = S.params.length
  · rw [new_eq_build fuel S args hl (nullablesOK_of_wf _ _ _ _ hS.fields) hlen] at h
    unfold buildNew at h
    cases hx : buildNodes fuel S.dataWords S.union false S.fields args (List.replicate ((S.dataWords + S.ptrs) * 8) 0) with
    | error e b => rw [hx] at h; cases h
    | ok c b =>
      obtain ⟨h1, h2⟩ := buildNodes_typed fuel _ _ _ _ _ _ _ _ _ hS.fields hx
      refine ⟨hlen, h1, ?_⟩
      simp only [Bool.false_eq_true, if_false] at h2
      split at h2 <;> omega
  · rw [new_count hlen] at h; cases h

/-- What the compiled constructor accepts. -/
theorem newC_typed {junk : Pyx.Builder → Nat → UInt8} {fuel : Nat} {S : Schema} {args : List Arg} (hS : S.WF)
    (hl : S.locals.Nodup) {C : Bytes} (h : S.newC junk fuel args = .ok C) :
    args.length = S.params.length ∧ TypedFields S.fields args ∧ (members S.fields args).length ≤ 1 := by
  by_cases hlen : args.length = S.params.length
  · rw [new_eq_buildC junk fuel S args hl (nullablesOK_of_wf _ _ _ _ hS.fields) hlen] at h
    unfold buildNewC at h
    obtain ⟨s, ea, hr⟩ := allocateC_new junk ((S.dataWords + S.ptrs) * 8)
    have ek : KM.of (Pyx.allocateC junk (((S.dataWords + S.ptrs) * 8 : Nat) : Int)) (Pyx.new 512) = .ok 0 s := by
      unfold KM.of; rw [ea]
    rw [KM.bind_ok ek] at h
    cases hx : buildNodesC junk fuel S.dataWords S.union false S.fields args s with
    | error e b => rw [hx] at h; cases h
    | ok c b =>
      obtain ⟨h1, h2⟩ := buildNodesC_typed junk fuel _ _ _ _ _ _ _ _ _ hS.fields hx
      refine ⟨hlen, h1, ?_⟩
      simp only [Bool.false_eq_true, if_false] at h2
      split at h2 <;> omega
  · rw [newC_count hlen] at h; cases h

end Capnpy
