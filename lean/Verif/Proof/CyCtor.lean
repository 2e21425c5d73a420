import Verif.Proof.CyCtorBuild
import Verif.Proof.PyxList
import Verif.Proof.Ctor

/-! # The compiled constructor simulates the pure one -/

namespace Capnpy

open Spec Props Pyx

/-- The outcomes, as `OutRel`. -/
def KOut {α} : EStateM.Result PyErr Bytes α → EStateM.Result Fail Builder α → Prop
  | .ok a b, y => ∃ s, y = .ok a s ∧ Props.Repr s b
  | .error e b, y => e = .structError ∨ e = .recursionError ∨ ∃ s, y = .error (.exc e) s ∧ Props.Repr s b

def KSim {α} (x : BM α) (y : KM α) : Prop := ∀ b s, Props.Repr s b → KOut (x b) (y s)

theorem KSim.bind {α β} {x : BM α} {y : KM α} {f : α → BM β} {g : α → KM β} (h : KSim x y)
    (hf : ∀ a, KSim (f a) (g a)) : KSim (x >>= f) (y >>= g) := by
  intro b s hs
  have h1 := h b s hs
  cases hx : x b with
  | ok a b' =>
    rw [hx] at h1
    obtain ⟨s', e1, e2⟩ := h1
    rw [BM.bind_ok hx, KM.bind_ok e1]
    exact hf a b' s' e2
  | error e b' =>
    rw [hx] at h1
    rw [BM.bind_error hx]
    rcases h1 with h1 | h1 | ⟨s', e1, e2⟩
    · exact .inl h1
    · exact .inr (.inl h1)
    · rw [KM.bind_error e1]; exact .inr (.inr ⟨s', rfl, e2⟩)

theorem KSim.pure {α} {a : α} : KSim (Pure.pure a) (Pure.pure a) := fun _ s hs => ⟨s, rfl, hs⟩

theorem KSim.lift {α} (x : Py α) : KSim (BM.lift x) (KM.lift x) := by
  intro b s hs
  unfold BM.lift KM.lift
  cases x with
  | ok a => exact ⟨s, rfl, hs⟩
  | error e => exact .inr (.inr ⟨s, rfl, hs⟩)

theorem KSim.of {α} {x : BM α} {y : PM α} {Q : α → Bytes → Bytes → Prop} (h : ∀ b, SimAt b x y (Q · b)) :
    KSim x (KM.of y) := by
  intro b s hs
  have h1 := h b s hs
  unfold KM.of
  cases hx : x b with
  | ok a b' =>
    rw [hx] at h1
    obtain ⟨s', e1, e2, -⟩ := h1
    exact ⟨s', by rw [e1], e2⟩
  | error e b' =>
    rw [hx] at h1
    rcases h1 with h1 | h1 | ⟨s', e1, e2⟩
    · exact .inl h1
    · exact .inr (.inl h1)
    · exact .inr (.inr ⟨s', by rw [e1], e2⟩)

theorem SimAt.error {α} {b : Bytes} {e : PyErr} : SimAt b (BM.lift (.error e) : BM α) (PM.lift (.error e)) fun _ _ => True :=
  fun s hs => .inr (.inr ⟨s, rfl, hs⟩)

theorem SimAt.struct_error {α} {b : Bytes} {y : PM α} : SimAt b (BM.lift (.error .structError) : BM α) y fun _ _ => True :=
  fun _ _ => .inl rfl

theorem SimAt.writeBool (junk : Builder → Nat → UInt8) {b : Bytes} {off : Nat} {v : Bool} :
    SimAt b (Capnpy.writeBool ((off / 8 : Nat) : Int) (off % 8) (if v then 1 else 0))
      (PM.ofOption fun s => Pyx.writeBool s ((off / 8 : Nat) : Int) (off % 8) v) fun _ _ => True := by
  intro s hs
  by_cases hi : off / 8 < b.length
  · cases hx : Capnpy.writeBool ((off / 8 : Nat) : Int) (off % 8) (if v then 1 else 0) b with
    | error e b' =>
      left
      unfold Capnpy.writeBool at hx
      rw [unpackFrom_nat (by simp [Fmt.size]; omega)] at hx
      simp only at hx
      rcases writeFmt_cases (fmt := .B) (i := off / 8) (v := Int.lor (Fmt.decode .B (slice b (off / 8) (Fmt.size .B)))
        (shl (if v = true then 1 else 0) (off % 8))) b with ⟨b1, h⟩ | ⟨b1, h, -⟩
      · rw [h] at hx; cases hx; rfl
      · rw [h] at hx; cases hx
    | ok u b' =>
      obtain ⟨s', e1, e2⟩ := repr_step hs (junk s) (op := .writeBool ((off / 8 : Nat) : Int) (off % 8) v) (r := 0)
        (buf' := b') ⟨by omega, by omega, by omega⟩ (by
          show (do Capnpy.writeBool ((off / 8 : Nat) : Int) (off % 8) (if v then 1 else 0); Pure.pure 0 : BM Int) b = _
          rw [BM.bind_ok hx]; rfl)
      refine ⟨s', ?_, e2, trivial⟩
      change (Pyx.writeBool s ((off / 8 : Nat) : Int) (off % 8) v).map (fun s => ((0 : Int), s)) = some (0, s') at e1
      unfold PM.ofOption
      cases hw : Pyx.writeBool s ((off / 8 : Nat) : Int) (off % 8) v with
      | none => rw [hw] at e1; cases e1
      | some s2 => rw [hw] at e1; cases e1; simp only [hw]
  · have : Capnpy.writeBool ((off / 8 : Nat) : Int) (off % 8) (if v then 1 else 0) b = .error .structError b := by
      unfold Capnpy.writeBool unpackFrom structOffset
      rw [if_neg (by omega), if_pos (by simp [Fmt.size]; omega)]
    rw [this]
    exact .inl rfl

variable (junk : Builder → Nat → UInt8)

theorem writeArg_sim (fmt : Fmt) (i : Nat) (a : Arg) : KSim (writeArg fmt (i : Int) a) (KM.of (writeArgC fmt (i : Int) a)) := by
  refine KSim.of (Q := fun _ _ _ => True) fun b => ?_
  unfold writeArg writeArgC
  cases a.toInt? with
  | none => exact SimAt.struct_error
  | some v => exact SimAt.writeGeneric.mono fun _ _ _ => trivial

theorem writeFloatArg_sim (fmt : Fmt) (i : Nat) (a : Arg) :
    KSim (writeFloatArg fmt (i : Int) a) (KM.of (writeFloatArgC fmt (i : Int) a)) := by
  refine KSim.of (Q := fun _ _ _ => True) fun b => ?_
  unfold writeFloatArg writeFloatArgC
  cases a with
  | float v => exact SimAt.writeGeneric.mono fun _ _ _ => trivial
  | _ => exact SimAt.struct_error

theorem bint_of_toInt {a : Arg} {v : Bool} (h : a.toInt? = some (if v then 1 else 0)) : a.bint = v := by
  cases a with
  | int i =>
    simp only [Arg.toInt?, Option.some.injEq] at h
    subst h
    cases v <;> rfl
  | bool b =>
    cases b <;> cases v <;> simp [Arg.toInt?, Arg.bint] at h ⊢
  | _ => cases h

include junk in
theorem writeBoolArg_sim (off : Nat) (a : Arg) (v : Bool) (h : a.toInt? = some (if v then 1 else 0)) :
    KSim (writeBoolArg off a) (KM.of (writeBoolArgC off a)) := by
  refine KSim.of (Q := fun _ _ _ => True) fun b => ?_
  unfold writeBoolArg writeBoolArgC
  rw [h, bint_of_toInt h]
  exact SimAt.writeBool junk

theorem allocBytesArg_sim (i tz : Nat) (a : Arg) :
    KSim (allocBytesArg (i : Int) a (tz : Int)) (KM.of (allocBytesArgC junk (i : Int) a (tz : Int))) := by
  refine KSim.of (Q := fun _ _ _ => True) fun b => ?_
  unfold allocBytesArg allocBytesArgC
  cases a with
  | none => exact (SimAt.allocText junk).bind fun _ _ _ => SimAt.pure trivial
  | bytes t => exact (SimAt.allocText junk).bind fun _ _ _ => SimAt.pure trivial
  | _ => exact SimAt.error

theorem copyStructArg_sim (fuel i : Nat) (a : Arg) (h : ArgOk .struct a) :
    KSim (copyStructArg fuel (i : Int) a) (KM.of (copyStructArgC junk fuel (i : Int) a)) := by
  refine KSim.of (Q := fun _ _ _ => True) fun b => ?_
  unfold copyStructArg copyStructArgC
  cases a with
  | none =>
    unfold copyFromStruct copyFromStructC
    exact SimAt.writeInt64.mono fun _ _ _ => trivial
  | struct o =>
    obtain ⟨w, e1, e2⟩ := h
    unfold copyFromStruct copyFromStructC
    exact SimAt.copyPointer junk o.seg fuel _ _ w i b e1 e2
  | _ => exact SimAt.error

theorem copyListArg_sim (fuel : Nat) (it : ItemType) (i : Nat) (a : Arg) (h : ArgOk (.list it) a) :
    KSim (copyListArg fuel it (i : Int) a) (KM.of (copyListArgC junk fuel it (i : Int) a)) := by
  refine KSim.of (Q := fun _ _ _ => True) fun b => ?_
  unfold copyListArg copyListArgC
  cases a with
  | none =>
    unfold copyFromList copyFromListC
    exact SimAt.writeInt64.mono fun _ _ _ => trivial
  | list l =>
    obtain ⟨h1, h2, h3⟩ := h
    exact (SimAt.copyFromList junk fuel it h1 h2 (some l) (by intro xs e; cases e; exact h3) b i).mono fun _ _ _ => trivial
  | _ => exact SimAt.error

/-- A bool argument after the `^=`. -/
theorem xorArg_bool {dflt : Option Int} {a : Arg} (h : ArgOk .bool a) :
    ∃ a' v, xorArg dflt .bool a = .ok a' ∧ a'.toInt? = some (if v = true then (1 : Int) else 0) := by
  cases dflt with
  | none =>
    rcases h with h | h
    · exact ⟨a, false, rfl, h⟩
    · exact ⟨a, true, rfl, h⟩
  | some d =>
    cases a with
    | bool b => exact ⟨_, b ^^ (d != 0), rfl, rfl⟩
    | int i =>
      simp only [ArgOk, Arg.toInt?, Option.some.injEq] at h
      by_cases hd : d = 0
      · rcases h with rfl | rfl
        · exact ⟨.int 0, false, by simp [xorArg, hd]; rfl, rfl⟩
        · exact ⟨.int 1, true, by simp [xorArg, hd]; rfl, rfl⟩
      · rcases h with rfl | rfl
        · exact ⟨.int 1, true, by simp [xorArg, hd]; rfl, rfl⟩
        · exact ⟨.int 0, false, by simp [xorArg, hd]; rfl, rfl⟩
    | _ => rcases h with h | h <;> cases h

theorem buildSlot_sim (fuel ds : Nat) (ty : SlotType) (off : Nat) (dflt : Option Int) (a : Arg) (h : ArgOk ty a) :
    KSim (buildSlot fuel ds ty off dflt a) (buildSlotC junk fuel ds ty off dflt a) := by
  unfold buildSlot buildSlotC
  cases ty with
  | void => exact KSim.pure
  | text => exact allocBytesArg_sim junk _ 1 a
  | data => exact allocBytesArg_sim junk _ 0 a
  | struct => exact copyStructArg_sim junk fuel _ a h
  | list it => exact copyListArg_sim junk fuel it _ a h
  | anyPointer => exact KSim.lift _
  | prim fmt => exact (KSim.lift _).bind fun a => writeArg_sim fmt _ a
  | enum => exact (KSim.lift _).bind fun a => writeArg_sim .h _ a
  | float fmt => exact (KSim.lift _).bind fun a => writeFloatArg_sim fmt _ a
  | bool =>
    obtain ⟨a', v, e1, e2⟩ := xorArg_bool (dflt := dflt) h
    simp only [e1]
    intro b s hs
    exact writeBoolArg_sim junk off a' v e2 b s hs

theorem writeTag_sim (i : Nat) (v : Int) : KSim (writeFmt .h (i : Int) v) (KM.of (Pyx.writeGenericC .h (i : Int) v)) :=
  KSim.of (Q := fun _ _ _ => True) fun _ => SimAt.writeGeneric.mono fun _ _ _ => trivial

theorem guarded_sim (union : Option Nat) (cur : Bool) (disc : Option Nat) (a : Arg) (x : BM Unit) (y : KM Unit)
    (h : (disc.isSome && a.isUndefined) = true ∨ KSim x y) :
    KSim (guardedB union cur disc a x) (guardedBC union cur disc a y) := by
  unfold guardedB guardedBC
  cases disc with
  | none => exact (h.resolve_left (by simp)).bind fun _ => KSim.pure
  | some tag =>
    cases union with
    | none => exact KSim.lift _
    | some off =>
      simp only
      by_cases hu : a.isUndefined = true
      · rw [if_pos hu, if_pos hu]; exact KSim.pure
      · rw [if_neg hu, if_neg hu]
        have h := h.resolve_left (by simpa using hu)
        cases cur with
        | true => rw [if_pos rfl, if_pos rfl]; exact KSim.lift _
        | false =>
          rw [if_neg (by simp), if_neg (by simp)]
          obtain ⟨i, hi⟩ : ∃ i : Nat, i = off * 2 := ⟨_, rfl⟩
          rw [← hi]
          obtain ⟨v, hv⟩ : ∃ v : Int, v = tag := ⟨_, rfl⟩
          rw [← hv]
          have h1 := writeTag_sim i v
          exact KSim.bind h1 fun _ => KSim.bind h fun _ => KSim.pure

mutual

theorem buildNode_sim (fuel ds : Nat) (union : Option Nat) (cur : Bool) : ∀ (f : Field) (a : Arg), NullableOK f →
    FieldArgOk f a → KSim (buildNode fuel ds union cur f a) (buildNodeC junk fuel ds union cur f a)
  | .slot _ _ disc ty off dflt, a, _, h => by
    unfold FieldArgOk at h
    unfold buildNode buildNodeC
    exact guarded_sim _ _ _ _ _ _ (h.imp id fun h => buildSlot_sim junk fuel ds ty off dflt a h)
  | .group _ _ disc nullable gunion children, a, hnu, h => by
    unfold FieldArgOk at h
    unfold buildNode buildNodeC
    refine guarded_sim _ _ _ _ _ _ (h.imp id fun h => ?_)
    by_cases hn : nullable = true
    · rw [if_pos hn] at h
      simp only [if_pos hn]
      have e : nullablePair children a = nullableArgs children a := by
        obtain ⟨-, c1, c2, rfl, -, -, s1, s2⟩ := hnu.1 hn
        unfold nullableArgs nullablePair
        by_cases ha : a.isNone = true
        · rw [if_pos ha, if_pos ha]
          simp [defaultArgs, s1, s2]
        · rw [if_neg ha, if_neg ha]
      rw [e] at h
      exact (buildNodes_sim fuel ds gunion false children _ hnu.2 h).bind fun _ => KSim.pure
    · rw [if_neg hn] at h
      simp only [if_neg hn]
      cases a with
      | tuple as =>
        simp only
        by_cases hl : as.length = (children.filter (!·.skipped)).length
        · rw [if_pos hl, if_pos hl]
          exact (buildNodes_sim fuel ds gunion false children _ hnu.2 (h as rfl)).bind fun _ => KSim.pure
        · rw [if_neg hl, if_neg hl]; exact KSim.lift _
      | _ => exact KSim.lift _

theorem buildNodes_sim (fuel ds : Nat) (union : Option Nat) (cur : Bool) : ∀ (fs : List Field) (as : List Arg),
    NullablesOK fs → FieldsArgOk fs as → KSim (buildNodes fuel ds union cur fs as) (buildNodesC junk fuel ds union cur fs as)
  | [], _, _, _ => by unfold buildNodes buildNodesC; exact KSim.pure
  | f :: fs, as, hnu, h => by
    unfold FieldsArgOk at h
    unfold buildNodes buildNodesC
    by_cases hs : f.skipped = true
    · rw [if_pos hs] at h ⊢
      rw [if_pos hs]
      exact buildNodes_sim fuel ds union cur fs as hnu.2 h
    · rw [if_neg hs] at h ⊢
      rw [if_neg hs]
      cases as with
      | nil => exact KSim.lift _
      | cons a as =>
        exact (buildNode_sim fuel ds union cur f a hnu.1 h.1).bind fun c => buildNodes_sim fuel ds union c fs as hnu.2 h.2

end

/-- The whole constructor. -/
theorem new_sim (fuel : Nat) (S : Schema) (args : List Arg) (hl : S.locals.Nodup) (hnull : NullablesOK S.fields)
    (hlen : args.length = S.params.length) (hok : FieldsArgOk S.fields args) :
    match S.new fuel args with
    | .ok C => S.newC junk fuel args = .ok C
    | .error e => e = .structError ∨ e = .recursionError ∨ S.newC junk fuel args = .error (.exc e) := by
  rw [new_eq_build fuel S args hl hnull hlen, new_eq_buildC junk fuel S args hl hnull hlen]
  obtain ⟨s, ea, hr⟩ := allocateC_new junk ((S.dataWords + S.ptrs) * 8)
  have ek : KM.of (Pyx.allocateC junk (((S.dataWords + S.ptrs) * 8 : Nat) : Int)) (Pyx.new 512) = .ok 0 s := by
    unfold KM.of; rw [ea]
  have h := buildNodes_sim junk fuel S.dataWords S.union false S.fields args hnull hok _ s hr
  unfold buildNew buildNewC
  rw [KM.bind_ok ek]
  cases hx : buildNodes fuel S.dataWords S.union false S.fields args (List.replicate ((S.dataWords + S.ptrs) * 8) 0) with
  | ok c C =>
    rw [hx] at h
    obtain ⟨s', e1, e2⟩ := h
    simp only [e1]
    rw [repr_asString e2]
  | error e C =>
    rw [hx] at h
    simp only
    rcases h with h | h | ⟨s', e1, e2⟩
    · exact .inl h
    · exact .inr (.inl h)
    · refine .inr (.inr ?_)
      rw [e1]

end Capnpy
