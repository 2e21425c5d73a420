import Verif.Props.FieldEmit
import Verif.Proof.CtorSlot
import Verif.Props.Ctor

/-!
# C76, second part: the code which is emitted for a slot is that of Model/Ctor.lean; writing
-/

namespace Capnpy.Props

open Spec FieldEmit
open Const (STy TextType PyVal)
open Module (Str Gen)

theorem int_getter (o : StructObj) (off : Int) (fmt : Fmt) (d : Int) :
    (do pure (RVal.int (← applyDefault (← o.readPrimitive off fmt) (.int d))) : Py RVal) =
      (do pure (RVal.int (← o.primField off fmt d))) := by
  unfold StructObj.primField
  cases o.readPrimitive off fmt with
  | error e => rfl
  | ok v =>
    show (do pure (RVal.int (← applyDefault v (.int d))) : Py RVal) =
      (do pure (RVal.int (← (if d ≠ 0 then pure (Int.xor v d) else pure v : Py Int))))
    rw [applyDefault_int]
    by_cases hd : d = 0
    · subst hd
      rw [if_neg (by decide), xor_zero_right]; rfl
    · rw [if_pos hd]; rfl

theorem enum_getter (o : StructObj) (off : Int) (d : Int) :
    (do pure (RVal.int (← applyDefault (← o.readInt16 off) (.int d))) : Py RVal) =
      (do pure (RVal.int (← o.enumField off d))) := by
  unfold StructObj.enumField
  cases o.readInt16 off with
  | error e => rfl
  | ok v =>
    show (do pure (RVal.int (← applyDefault v (.int d))) : Py RVal) =
      (do pure (RVal.int (← (if d ≠ 0 then pure (Int.xor v d) else pure v : Py Int))))
    rw [applyDefault_int]
    by_cases hd : d = 0
    · subst hd
      rw [if_neg (by decide), xor_zero_right]; rfl
    · rw [if_pos hd]; rfl

theorem bool_getter (o : StructObj) (off : Nat) (d : Bool) :
    (do
      let value ← o.readBit ((off / 8 : Nat) : Int) ((1 <<< (off % 8) : Nat) : Int)
      if (← defaultNonZero (.bool d)) then xorBool value (.bool d) else pure (.bool value) : Py RVal) =
      (do pure (RVal.bool (← o.boolField off d))) := by
  unfold StructObj.boolField
  have e : shl 1 (off % 8) = ((1 <<< (off % 8) : Nat) : Int) := by
    unfold shl
    simp [Nat.shiftLeft_eq]
  rw [e]
  cases o.readBit ((off / 8 : Nat) : Int) ((1 <<< (off % 8) : Nat) : Int) with
  | error e => rfl
  | ok v => cases d <;> rfl

theorem float_read (o : StructObj) (off : Int) : o.readPrimitive off .f = o.readPrimitive off .I ∧
    o.readPrimitive off .d = o.readPrimitive off .Q := ⟨rfl, rfl⟩

theorem explicitDefault_int {s : Slot} {d : Int} (h : s.dflt = .int d) (hz : ZeroDefault s) : (explicitDefault s).getD 0 = d := by
  obtain ⟨ty, off, df, ex⟩ := s
  have h : df = .int d := h
  subst h
  cases ex with
  | true => rfl
  | false => exact (show d = 0 from hz rfl).symm

theorem explicitDefault_bool {s : Slot} {d : Bool} (h : s.dflt = .bool d) (hz : ZeroDefault s) :
    ((explicitDefault s).getD 0 != 0) = d := by
  obtain ⟨ty, off, df, ex⟩ := s
  have h : df = .bool d := h
  subst h
  cases ex with
  | true => cases d <;> rfl
  | false => rw [show d = false from hz rfl]; rfl

/-- C76: the property which is emitted for a slot is the one which Model/Ctor.lean runs: what is proved of `getSlot`
(C30, C31, …) is true of it. -/
theorem C76_same_getter (c : Ctx) (items : Str → Option ItemType) (cls : Nat → Option Const.Cls) (s : Slot) (hd : DefaultOK s)
    (hz : ZeroDefault s) (hi : ItemsOK c items cls s.ty) {code : Getter} (h : emitGetter c s = .ok code) (o : StructObj) :
    ∃ ty, slotTypeOf cls c.tt s.ty = some ty ∧ code.run items o = getSlot o ty s.off (explicitDefault s) := by
  have hc := (C76_compiles c s).mp ⟨code, h⟩
  have di := @explicitDefault_int s
  have db := @explicitDefault_bool s
  generalize hx : explicitDefault s = x at di db ⊢
  have hf : s.dflt = .float .f 0 ∨ s.dflt = .float .d 0 → x.getD 0 = 0 := by
    rintro (e | e)
    · rw [← hx]; unfold explicitDefault; rw [e]; cases s.explicit <;> rfl
    · rw [← hx]; unfold explicitDefault; rw [e]; cases s.explicit <;> rfl
  clear hx
  obtain ⟨ty, off, d, ex⟩ := s
  obtain ⟨hex, hni, htt, -⟩ := hc
  have hg : (ex && !defaultSupported ty) = false := by
    cases ex with
    | false => rfl
    | true => rw [(defaultSupported_iff ty).mpr (hex rfl)]; rfl
  unfold emitGetter at h
  simp only at h
  rw [hg] at h
  have int : ∀ (fmt : Fmt) (v : Int), d = .int v →
      (do pure (RVal.int (← applyDefault (← o.readPrimitive ((off * fmt.size : Nat) : Int) fmt) d)) : Py RVal) =
        getSlot o (.prim fmt) off x := by
    intro fmt v hv
    rw [hv, int_getter, ← di hv hz]
    rfl
  cases ty with
  | interface => exact absurd rfl hni
  | void => have h := Except.ok.inj h; subst h; exact ⟨_, rfl, rfl⟩
  | bool =>
    have h := Except.ok.inj h; subst h
    obtain ⟨b, hb⟩ := hd
    have hb : d = .bool b := hb
    refine ⟨_, rfl, ?_⟩
    subst hb
    refine (bool_getter o off b).trans ?_
    rw [← db rfl hz]
    rfl
  | prim fmt =>
    cases fmt with
    | f =>
      have h := Except.ok.inj h; subst h
      have hd : d = .float .f 0 := hd
      refine ⟨_, rfl, ?_⟩
      have hx := hf (.inl hd)
      subst hd
      show (do
        let value ← o.readPrimitive ((off * 4 : Nat) : Int) .I
        pure (RVal.float value) : Py RVal) = (do
        let v ← o.readPrimitive ((off * 4 : Nat) : Int) .I
        if x.getD 0 ≠ 0 then Except.error PyErr.typeError else pure (.float v) : Py RVal)
      cases o.readPrimitive ((off * 4 : Nat) : Int) .I with
      | error e => rfl
      | ok v =>
        show _ = (if x.getD 0 ≠ 0 then Except.error PyErr.typeError else pure (.float v) : Py RVal)
        rw [if_neg (not_not.mpr hx)]
        rfl
    | d =>
      have h := Except.ok.inj h; subst h
      have hd : d = .float .d 0 := hd
      refine ⟨_, rfl, ?_⟩
      have hx := hf (.inr hd)
      subst hd
      show (do
        let value ← o.readPrimitive ((off * 8 : Nat) : Int) .Q
        pure (RVal.float value) : Py RVal) = (do
        let v ← o.readPrimitive ((off * 8 : Nat) : Int) .Q
        if x.getD 0 ≠ 0 then Except.error PyErr.typeError else pure (.float v) : Py RVal)
      cases o.readPrimitive ((off * 8 : Nat) : Int) .Q with
      | error e => rfl
      | ok v =>
        show _ = (if x.getD 0 ≠ 0 then Except.error PyErr.typeError else pure (.float v) : Py RVal)
        rw [if_neg (not_not.mpr hx)]
        rfl
    | b => have h := Except.ok.inj h; subst h; obtain ⟨v, hv, -⟩ := hd; exact ⟨_, rfl, int .b v hv⟩
    | B => have h := Except.ok.inj h; subst h; obtain ⟨v, hv, -⟩ := hd; exact ⟨_, rfl, int .B v hv⟩
    | h => have h := Except.ok.inj h; subst h; obtain ⟨v, hv, -⟩ := hd; exact ⟨_, rfl, int .h v hv⟩
    | H => have h := Except.ok.inj h; subst h; obtain ⟨v, hv, -⟩ := hd; exact ⟨_, rfl, int .H v hv⟩
    | i => have h := Except.ok.inj h; subst h; obtain ⟨v, hv, -⟩ := hd; exact ⟨_, rfl, int .i v hv⟩
    | I => have h := Except.ok.inj h; subst h; obtain ⟨v, hv, -⟩ := hd; exact ⟨_, rfl, int .I v hv⟩
    | q => have h := Except.ok.inj h; subst h; obtain ⟨v, hv, -⟩ := hd; exact ⟨_, rfl, int .q v hv⟩
    | Q => have h := Except.ok.inj h; subst h; obtain ⟨v, hv, -⟩ := hd; exact ⟨_, rfl, int .Q v hv⟩
  | enum i =>
    obtain ⟨v, hv, -⟩ := hd
    have h : (do pure (Getter.enum (← Const.nodeName c.g c.fuel i []) (off * 2) d) : Py Getter) = .ok code := h
    refine ⟨_, rfl, ?_⟩
    cases hn : Const.nodeName c.g c.fuel i [] with
    | error e => rw [hn] at h; cases h
    | ok name =>
      rw [hn] at h
      have h := Except.ok.inj h; subst h
      show (do pure (RVal.int (← applyDefault (← o.readInt16 ((off * 2 : Nat) : Int)) d)) : Py RVal) = _
      rw [show d = .int v from hv, enum_getter, ← di hv hz]
      rfl
  | text =>
    obtain ⟨g, pyx, tt, fuel⟩ := c
    cases tt with
    | notset => exact absurd rfl (htt rfl)
    | bytes => have h := Except.ok.inj h; subst h; exact ⟨_, rfl, rfl⟩
    | unicode => have h := Except.ok.inj h; subst h; exact ⟨_, rfl, rfl⟩
  | data => have h := Except.ok.inj h; subst h; exact ⟨_, rfl, rfl⟩
  | struct i =>
    have h : (do pure (Getter.struct (← c.g.runtimeName c.fuel (← c.g.node i)) (off * 8)) : Py Getter) = .ok code := h
    refine ⟨_, rfl, ?_⟩
    cases hn : c.g.node i with
    | error e => rw [hn] at h; cases h
    | ok n =>
      rw [hn] at h
      have h : (do pure (Getter.struct (← c.g.runtimeName c.fuel n) (off * 8)) : Py Getter) = .ok code := h
      cases hs : c.g.runtimeName c.fuel n with
      | error e => rw [hs] at h; cases h
      | ok name =>
        rw [hs] at h
        have h := Except.ok.inj h; subst h
        rfl
  | list e =>
    have h : (do pure (Getter.list (← Const.listItemType c.g c.pyx c.tt c.fuel e) (off * 8)) : Py Getter) = .ok code := h
    cases hs : Const.listItemType c.g c.pyx c.tt c.fuel e with
    | error e => rw [hs] at h; cases h
    | ok name =>
      rw [hs] at h
      have h := Except.ok.inj h; subst h
      obtain ⟨it, hit, hit'⟩ := hi e rfl name hs
      refine ⟨.list it.toItemType, ?_, ?_⟩
      · show (itemOf cls c.tt e).map _ = _
        rw [hit]; rfl
      · show (match items name with
          | Option.none => .error .nameError
          | some it => do pure (((← o.readList ((off * 8 : Nat) : Int) it).map RVal.list).getD .none) : Py RVal) = _
        rw [hit']
        rfl
  | anyPointer => have h := Except.ok.inj h; subst h; exact ⟨_, rfl, rfl⟩

/-! ## Writing -/

theorem float_arg (off : Int) (a : Arg) : writeFloatArg .f off a = writeFloatArg .I off a ∧
    writeFloatArg .d off a = writeFloatArg .Q off a := ⟨rfl, rfl⟩

/-- The XOR of the constructor is that of Model/Ctor.lean. -/
theorem xor_same {ty : STy} {st : SlotType} {s : Slot} {cls : Nat → Option Const.Cls} {tt : TextType} (hty : s.ty = ty)
    (hn : Numeric ty) (hst : slotTypeOf cls tt ty = some st) (hd : DefaultOK s) (a : Arg) :
    (match xorDefault s with
      | none => pure a
      | some d => FieldEmit.xorArg a d) = Capnpy.xorArg (explicitDefault s) st a := by
  obtain ⟨ty', off, d, ex⟩ := s
  cases hty
  cases ex with
  | false => rfl
  | true =>
    show FieldEmit.xorArg a d = Capnpy.xorArg (defaultNumber d) st a
    cases ty' with
    | bool =>
      cases hst
      obtain ⟨b, hb⟩ := hd
      have hb : d = .bool b := hb
      subst hb
      cases a with
      | bool x => cases b <;> rfl
      | int i => cases b <;> rfl
      | _ => rfl
    | enum i =>
      cases hst
      obtain ⟨v, hv, -⟩ := hd
      have hv : d = .int v := hv
      subst hv
      cases a <;> rfl
    | prim fmt =>
      cases fmt with
      | f =>
        cases hst
        have hd : d = .float .f 0 := hd
        subst hd
        cases a <;> rfl
      | d =>
        cases hst
        have hd : d = .float .d 0 := hd
        subst hd
        cases a <;> rfl
      | _ =>
        cases hst
        obtain ⟨v, hv, -⟩ := hd
        have hv : d = .int v := hv
        subst hv
        cases a <;> rfl
    | _ => exact hn.elim

/-- The XOR statement of the constructor is that of Model/Ctor.lean. -/
theorem xorVar_same {s : Slot} {st : SlotType} {var : String} {fr : Frame}
    (hx : ∀ a, (match xorDefault s with
      | none => pure a
      | some d => FieldEmit.xorArg a d) = Capnpy.xorArg (explicitDefault s) st a)
    (hs : (explicitDefault s).isSome = (xorDefault s).isSome) :
    xorVar var (xorDefault s) fr = xorInto (explicitDefault s) st var fr := by
  cases hd : xorDefault s with
  | none =>
    rw [hd] at hs
    cases he : explicitDefault s with
    | none => rfl
    | some e => rw [he] at hs; cases hs
  | some d =>
    rw [hd] at hs hx
    cases he : explicitDefault s with
    | none => rw [he] at hs; cases hs
    | some e =>
      rw [he] at hx
      unfold xorVar xorInto
      show (do pure (fr.set var (← FieldEmit.xorArg (← fr.get var) d)) : Py Frame) =
        (do pure (fr.set var (← Capnpy.xorArg (some e) st (← fr.get var))) : Py Frame)
      cases fr.get var with
      | error er => rfl
      | ok a =>
        show (do pure (fr.set var (← FieldEmit.xorArg a d)) : Py Frame) =
          (do pure (fr.set var (← Capnpy.xorArg (some e) st a)) : Py Frame)
        rw [← hx a]

theorem explicit_isSome {s : Slot} (hn : Numeric s.ty) (hd : DefaultOK s) : (explicitDefault s).isSome = (xorDefault s).isSome := by
  obtain ⟨ty, off, d, ex⟩ := s
  cases ex with
  | false => rfl
  | true =>
    show (defaultNumber d).isSome = true
    cases ty with
    | bool => obtain ⟨b, hb⟩ := hd; have hb : d = .bool b := hb; subst hb; rfl
    | enum i => obtain ⟨b, hb, -⟩ := hd; have hb : d = .int b := hb; subst hb; rfl
    | prim fmt =>
      cases fmt with
      | f => have hd : d = .float .f 0 := hd; subst hd; rfl
      | d => have hd : d = .float .d 0 := hd; subst hd; rfl
      | _ => obtain ⟨b, hb, -⟩ := hd; have hb : d = .int b := hb; subst hb; rfl
    | _ => exact hn.elim

/-- C76: the statements which are emitted for a slot in a constructor are those which Model/Ctor.lean runs: what is
proved of constructors there (C30, C31, …) is true of them. -/
theorem C76_same_setter (c : Ctx) (items : Str → Option ItemType) (cls : Nat → Option Const.Cls) (s : Slot) (hd : DefaultOK s)
    (hi : ItemsOK c items cls s.ty) (ds : Nat) {code : Setter} (h : emitSetter c ds s = .ok code) (hni : s.ty ≠ .interface)
    (htt : s.ty = .text → c.tt ≠ .notset) (fuel : Nat) (var : String) (fr : Frame) :
    ∃ ty, slotTypeOf cls c.tt s.ty = some ty ∧
      code.run items fuel var fr = handleSlot fuel ds var ty s.off (explicitDefault s) fr := by
  have xs := fun st (hn : Numeric s.ty) hst => @xor_same s.ty st s cls c.tt rfl hn hst hd
  have is := fun (hn : Numeric s.ty) => explicit_isSome hn hd
  obtain ⟨ty, off, d, ex⟩ := s
  generalize hx : explicitDefault ⟨ty, off, d, ex⟩ = x at xs is ⊢
  have num : ∀ (st : SlotType) (w w' : Frame → Py Frame), Numeric ty → slotTypeOf cls c.tt ty = some st → (∀ fr, w fr = w' fr) →
      (do w (← xorVar var (xorDefault ⟨ty, off, d, ex⟩) fr) : Py Frame) = (do w' (← xorInto x st var fr) : Py Frame) := by
    intro st w w' hn hst hw
    subst hx
    rw [xorVar_same (xs st hn hst) (is hn), funext hw]
  clear xs is hx
  unfold emitSetter at h
  cases ty with
  | interface => exact absurd rfl hni
  | void => have h := Except.ok.inj h; subst h; exact ⟨_, rfl, rfl⟩
  | bool =>
    have h := Except.ok.inj h; subst h
    exact ⟨_, rfl, num .bool (fun fr => do fr.call (writeBit (off / 8) (off % 8) (← fr.get var)))
      (fun fr => do fr.call (writeBoolArg off (← fr.get var))) trivial rfl fun _ => rfl⟩
  | enum i =>
    have h := Except.ok.inj h; subst h
    exact ⟨_, rfl, num .enum (fun fr => do fr.call (writeNumber .h (← fr.posPlus (off * 2)) (← fr.get var)))
      (fun fr => do fr.call (writeArg .h (← fr.posPlus (off * 2 + 0)) (← fr.get var))) trivial rfl fun _ => rfl⟩
  | prim fmt =>
    cases fmt with
    | f =>
      have h := Except.ok.inj h; subst h
      exact ⟨_, rfl, num (.float .I) (fun fr => do fr.call (writeNumber .f (← fr.posPlus (off * 4)) (← fr.get var)))
        (fun fr => do fr.call (writeFloatArg .I (← fr.posPlus (off * 4 + 0)) (← fr.get var))) trivial rfl fun _ => rfl⟩
    | d =>
      have h := Except.ok.inj h; subst h
      exact ⟨_, rfl, num (.float .Q) (fun fr => do fr.call (writeNumber .d (← fr.posPlus (off * 8)) (← fr.get var)))
        (fun fr => do fr.call (writeFloatArg .Q (← fr.posPlus (off * 8 + 0)) (← fr.get var))) trivial rfl fun _ => rfl⟩
    | b =>
      have h := Except.ok.inj h; subst h
      exact ⟨_, rfl, num (.prim .b) (fun fr => do fr.call (writeNumber .b (← fr.posPlus (off * 1)) (← fr.get var)))
        (fun fr => do fr.call (writeArg .b (← fr.posPlus (off * 1 + 0)) (← fr.get var))) trivial rfl fun _ => rfl⟩
    | B =>
      have h := Except.ok.inj h; subst h
      exact ⟨_, rfl, num (.prim .B) (fun fr => do fr.call (writeNumber .B (← fr.posPlus (off * 1)) (← fr.get var)))
        (fun fr => do fr.call (writeArg .B (← fr.posPlus (off * 1 + 0)) (← fr.get var))) trivial rfl fun _ => rfl⟩
    | h =>
      have h := Except.ok.inj h; subst h
      exact ⟨_, rfl, num (.prim .h) (fun fr => do fr.call (writeNumber .h (← fr.posPlus (off * 2)) (← fr.get var)))
        (fun fr => do fr.call (writeArg .h (← fr.posPlus (off * 2 + 0)) (← fr.get var))) trivial rfl fun _ => rfl⟩
    | H =>
      have h := Except.ok.inj h; subst h
      exact ⟨_, rfl, num (.prim .H) (fun fr => do fr.call (writeNumber .H (← fr.posPlus (off * 2)) (← fr.get var)))
        (fun fr => do fr.call (writeArg .H (← fr.posPlus (off * 2 + 0)) (← fr.get var))) trivial rfl fun _ => rfl⟩
    | i =>
      have h := Except.ok.inj h; subst h
      exact ⟨_, rfl, num (.prim .i) (fun fr => do fr.call (writeNumber .i (← fr.posPlus (off * 4)) (← fr.get var)))
        (fun fr => do fr.call (writeArg .i (← fr.posPlus (off * 4 + 0)) (← fr.get var))) trivial rfl fun _ => rfl⟩
    | I =>
      have h := Except.ok.inj h; subst h
      exact ⟨_, rfl, num (.prim .I) (fun fr => do fr.call (writeNumber .I (← fr.posPlus (off * 4)) (← fr.get var)))
        (fun fr => do fr.call (writeArg .I (← fr.posPlus (off * 4 + 0)) (← fr.get var))) trivial rfl fun _ => rfl⟩
    | q =>
      have h := Except.ok.inj h; subst h
      exact ⟨_, rfl, num (.prim .q) (fun fr => do fr.call (writeNumber .q (← fr.posPlus (off * 8)) (← fr.get var)))
        (fun fr => do fr.call (writeArg .q (← fr.posPlus (off * 8 + 0)) (← fr.get var))) trivial rfl fun _ => rfl⟩
    | Q =>
      have h := Except.ok.inj h; subst h
      exact ⟨_, rfl, num (.prim .Q) (fun fr => do fr.call (writeNumber .Q (← fr.posPlus (off * 8)) (← fr.get var)))
        (fun fr => do fr.call (writeArg .Q (← fr.posPlus (off * 8 + 0)) (← fr.get var))) trivial rfl fun _ => rfl⟩
  | text =>
    obtain ⟨g, pyx, tt, fu⟩ := c
    cases tt with
    | notset => exact absurd rfl (htt rfl)
    | bytes => have h := Except.ok.inj h; subst h; exact ⟨_, rfl, rfl⟩
    | unicode => have h := Except.ok.inj h; subst h; exact ⟨_, rfl, rfl⟩
  | data => have h := Except.ok.inj h; subst h; exact ⟨_, rfl, rfl⟩
  | struct i =>
    have h : (do pure (Setter.struct (← c.g.runtimeName c.fuel (← c.g.node i)) (off * 8 + ds * 8)) : Py Setter) = .ok code := h
    refine ⟨_, rfl, ?_⟩
    cases hn : c.g.node i with
    | error e => rw [hn] at h; cases h
    | ok n =>
      rw [hn] at h
      have h : (do pure (Setter.struct (← c.g.runtimeName c.fuel n) (off * 8 + ds * 8)) : Py Setter) = .ok code := h
      cases hs : c.g.runtimeName c.fuel n with
      | error e => rw [hs] at h; cases h
      | ok name =>
        rw [hs] at h
        have h := Except.ok.inj h; subst h
        rfl
  | list e =>
    have h : (do pure (Setter.list (← Const.listItemType c.g c.pyx c.tt c.fuel e) (off * 8 + ds * 8)) : Py Setter) = .ok code := h
    cases hs : Const.listItemType c.g c.pyx c.tt c.fuel e with
    | error e => rw [hs] at h; cases h
    | ok name =>
      rw [hs] at h
      have h := Except.ok.inj h; subst h
      obtain ⟨it, hit, hit'⟩ := hi e rfl name hs
      refine ⟨.list it.toItemType, ?_, ?_⟩
      · show (itemOf cls c.tt e).map _ = _
        rw [hit]; rfl
      · show (do
          let i ← fr.posPlus (off * 8 + ds * 8)
          match items name with
          | none => .error .nameError
          | some it => fr.call (copyListArg fuel it i (← fr.get var)) : Py Frame) = _
        rw [hit']
        rfl
  | anyPointer => have h := Except.ok.inj h; subst h; exact ⟨_, rfl, rfl⟩

/-- The place of a slot in its section, in the terms of Spec/Ctor.lean. -/
theorem place_same {cls : Nat → Option Const.Cls} {tt : TextType} {s : Slot} {st : SlotType} (hst : slotTypeOf cls tt s.ty = some st)
    (hd : DefaultOK s) {ds ps : Nat} (hp : PlaceOK ds ps s.ty s.off) (hna : s.ty ≠ .anyPointer)
    (hex : s.explicit = true → Numeric s.ty ∧ s.ty ≠ .prim .f ∧ s.ty ≠ .prim .d) :
    SlotWF ds ps st s.off (explicitDefault s) ∧ ∀ i, slotBits ds st s.off i ↔ placeBits ds s.ty s.off i := by
  obtain ⟨ty, off, d, ex⟩ := s
  have none_of : ¬ (Numeric ty ∧ ty ≠ .prim .f ∧ ty ≠ .prim .d) → explicitDefault ⟨ty, off, d, ex⟩ = none := by
    intro hn
    cases ex with
    | false => rfl
    | true => exact absurd (hex rfl) hn
  have num : ∀ (fmt : Fmt), (∃ v, d = .int v ∧ InRange fmt v) → ∀ v', explicitDefault ⟨ty, off, d, ex⟩ = some v' → InRange fmt v' := by
    rintro fmt ⟨v, rfl, hv⟩ v' h
    cases ex with
    | false => cases h
    | true => cases h; exact hv
  have room : ∀ w, 0 < w → (∀ i, w * off ≤ i ∧ i < w * off + w → i < 64 * ds) → off * w + w ≤ 64 * ds := by
    intro w hw h
    have := h (w * off + w - 1) ⟨by omega, by omega⟩
    rw [Nat.mul_comm off w]
    omega
  cases ty with
  | void => cases hst; exact ⟨trivial, fun _ => Iff.rfl⟩
  | interface => cases hst
  | anyPointer => exact absurd rfl hna
  | bool =>
    cases hst
    refine ⟨hp off ⟨rfl, rfl⟩, fun i => ?_⟩
    show i = off ↔ STy.bool = .bool ∧ i = off
    exact ⟨fun h => ⟨rfl, h⟩, fun h => h.2⟩
  | enum e =>
    cases hst
    have := room 16 (by decide) hp
    refine ⟨⟨by show off * 2 + 2 ≤ _; omega, num .h hd⟩, fun i => Iff.rfl⟩
  | text => cases hst; exact ⟨⟨hp, none_of (fun h => h.1)⟩, fun i => Iff.rfl⟩
  | data => cases hst; exact ⟨⟨hp, none_of (fun h => h.1)⟩, fun i => Iff.rfl⟩
  | struct _ => cases hst; exact ⟨⟨hp, none_of (fun h => h.1)⟩, fun i => Iff.rfl⟩
  | list e =>
    cases hit : itemOf cls tt e with
    | none => rw [show slotTypeOf cls tt (.list e) = (itemOf cls tt e).map _ from rfl, hit] at hst; cases hst
    | some it =>
      rw [show slotTypeOf cls tt (.list e) = (itemOf cls tt e).map _ from rfl, hit] at hst
      cases hst
      exact ⟨⟨hp, none_of (fun h => h.1)⟩, fun i => Iff.rfl⟩
  | prim fmt =>
    cases fmt with
    | f =>
      cases hst
      have := room 32 (by decide) hp
      refine ⟨⟨by show off * 4 + 4 ≤ _; omega, none_of (fun h => h.2.1 rfl)⟩, fun i => ?_⟩
      show 8 * (off * 4) ≤ i ∧ i < 8 * (off * 4) + 8 * 4 ↔ 32 * off ≤ i ∧ i < 32 * off + 32
      omega
    | d =>
      cases hst
      have := room 64 (by decide) hp
      refine ⟨⟨by show off * 8 + 8 ≤ _; omega, none_of (fun h => h.2.2 rfl)⟩, fun i => ?_⟩
      show 8 * (off * 8) ≤ i ∧ i < 8 * (off * 8) + 8 * 8 ↔ 64 * off ≤ i ∧ i < 64 * off + 64
      omega
    | b =>
      cases hst
      have := room 8 (by decide) hp
      refine ⟨⟨by show off * 1 + 1 ≤ _; omega, num .b hd⟩, fun i => ?_⟩
      show 8 * (off * 1) ≤ i ∧ i < 8 * (off * 1) + 8 * 1 ↔ 8 * off ≤ i ∧ i < 8 * off + 8
      omega
    | B =>
      cases hst
      have := room 8 (by decide) hp
      refine ⟨⟨by show off * 1 + 1 ≤ _; omega, num .B hd⟩, fun i => ?_⟩
      show 8 * (off * 1) ≤ i ∧ i < 8 * (off * 1) + 8 * 1 ↔ 8 * off ≤ i ∧ i < 8 * off + 8
      omega
    | h =>
      cases hst
      have := room 16 (by decide) hp
      refine ⟨⟨by show off * 2 + 2 ≤ _; omega, num .h hd⟩, fun i => ?_⟩
      show 8 * (off * 2) ≤ i ∧ i < 8 * (off * 2) + 8 * 2 ↔ 16 * off ≤ i ∧ i < 16 * off + 16
      omega
    | H =>
      cases hst
      have := room 16 (by decide) hp
      refine ⟨⟨by show off * 2 + 2 ≤ _; omega, num .H hd⟩, fun i => ?_⟩
      show 8 * (off * 2) ≤ i ∧ i < 8 * (off * 2) + 8 * 2 ↔ 16 * off ≤ i ∧ i < 16 * off + 16
      omega
    | i =>
      cases hst
      have := room 32 (by decide) hp
      refine ⟨⟨by show off * 4 + 4 ≤ _; omega, num .i hd⟩, fun i => ?_⟩
      show 8 * (off * 4) ≤ i ∧ i < 8 * (off * 4) + 8 * 4 ↔ 32 * off ≤ i ∧ i < 32 * off + 32
      omega
    | I =>
      cases hst
      have := room 32 (by decide) hp
      refine ⟨⟨by show off * 4 + 4 ≤ _; omega, num .I hd⟩, fun i => ?_⟩
      show 8 * (off * 4) ≤ i ∧ i < 8 * (off * 4) + 8 * 4 ↔ 32 * off ≤ i ∧ i < 32 * off + 32
      omega
    | q =>
      cases hst
      have := room 64 (by decide) hp
      refine ⟨⟨by show off * 8 + 8 ≤ _; omega, num .q hd⟩, fun i => ?_⟩
      show 8 * (off * 8) ≤ i ∧ i < 8 * (off * 8) + 8 * 8 ↔ 64 * off ≤ i ∧ i < 64 * off + 64
      omega
    | Q =>
      cases hst
      have := room 64 (by decide) hp
      refine ⟨⟨by show off * 8 + 8 ≤ _; omega, num .Q hd⟩, fun i => ?_⟩
      show 8 * (off * 8) ≤ i ∧ i < 8 * (off * 8) + 8 * 8 ↔ 64 * off ≤ i ∧ i < 64 * off + 64
      omega

theorem sectionBit_of {b : Bytes} {i : Nat} {x : Bool} (h : bitAt b i = some x) : sectionBit b i = x := by
  unfold bitAt bitOf at h
  unfold sectionBit
  rw [List.getD_eq_getElem?_getD]
  cases hb : b[i / 8]? with
  | none => rw [hb] at h; cases h
  | some y => rw [hb] at h; exact Option.some.inj h

theorem sectionBit_congr {b b' : Bytes} {i : Nat} (h : bitAt b i = bitAt b' i) (hi : i < 8 * b.length) :
    sectionBit b i = sectionBit b' i := by
  have hl : i / 8 < b.length := by omega
  have : bitAt b i = some (sectionBit b i) := by
    unfold bitAt bitOf sectionBit
    rw [List.getD_eq_getElem?_getD, List.getElem?_eq_getElem hl]
    rfl
  rw [this] at h
  exact (sectionBit_of h.symm).symm

/-- The number which an argument stands for: an int, a bool, or the bit pattern of a float. -/
def argNumber : Arg → Option Int
  | .float v => some v
  | a => a.toInt?

/-- The bits of a number in a buffer. -/
theorem stored_bits {C : Bytes} {fmt : Fmt} {off : Nat} {v : Int}
    (h : readPrimitive C ((off * fmt.size : Nat) : Int) fmt = .ok v) (hC : off * fmt.size + fmt.size ≤ C.length) {i : Nat}
    (hi : i < 8 * fmt.size) : sectionBit C (8 * fmt.size * off + i) = Int.testBit v i := by
  rw [readPrimitive_nat hC] at h
  have h := Except.ok.inj h
  rw [← h, decode_eq_valueOf _ _ (slice_length_of_le hC), ← bytesZ_inside hC, valueOf_section fmt C off hi]

/-- What is in the data section after a number or a bool is written: the value XOR the explicit default. -/
def StoresData (s : Slot) (a : Arg) (C : Bytes) : Prop :=
  (∀ w signed, numberType s.ty = some (w, signed) → ∃ v, argNumber a = some v ∧
    ∀ i, i < w → sectionBit C (w * s.off + i) = (Int.testBit v i ^^ (s.explicit && defaultBit s i))) ∧
  (s.ty = .bool → ∃ b : Bool, (a = .bool b ∨ a = .int (if b then 1 else 0)) ∧
    sectionBit C s.off = (b ^^ (s.explicit && defaultBit s 0)))

theorem holds_data {cls : Nat → Option Const.Cls} {tt : TextType} {s : Slot} {st : SlotType} (hst : slotTypeOf cls tt s.ty = some st)
    (hd : DefaultOK s) {ds ps : Nat} (hwf : SlotWF ds ps st s.off (explicitDefault s)) {C : Bytes} (hC : 8 * ds ≤ C.length) {a : Arg}
    (h : HoldsSlot ds C st s.off (explicitDefault s) a) : StoresData s a C := by
  obtain ⟨ty, off, d, ex⟩ := s
  have int : ∀ fmt : Fmt, (∃ v, d = .int v ∧ InRange fmt v) → off * fmt.size + fmt.size ≤ 8 * ds →
      (∃ i, a.toInt? = some i ∧ readPrimitive C ((off * fmt.size : Nat) : Int) fmt =
        .ok (Int.xor i ((explicitDefault ⟨ty, off, d, ex⟩).getD 0))) →
      ∃ v, argNumber a = some v ∧ ∀ i, i < 8 * fmt.size →
        sectionBit C (8 * fmt.size * off + i) = (Int.testBit v i ^^ (ex && defaultBit ⟨ty, off, d, ex⟩ i)) := by
    rintro fmt ⟨v, rfl, -⟩ hr ⟨i, hai, h⟩
    refine ⟨i, ?_, fun j hj => ?_⟩
    · cases a with
      | float _ => cases hai
      | _ => exact hai
    · rw [stored_bits h (by omega) hj, Int.testBit_lxor]
      cases ex with
      | true => rfl
      | false =>
        show (_ ^^ Int.testBit 0 j) = _
        rw [show Int.testBit 0 j = false from Nat.zero_testBit j]
        rfl
  cases ty with
  | void => exact ⟨nofun, nofun⟩
  | interface => exact ⟨nofun, nofun⟩
  | anyPointer => exact ⟨nofun, nofun⟩
  | text => exact ⟨nofun, nofun⟩
  | data => exact ⟨nofun, nofun⟩
  | struct _ => exact ⟨nofun, nofun⟩
  | list _ => exact ⟨nofun, nofun⟩
  | bool =>
    cases hst
    obtain ⟨v, hv⟩ := hd
    have hv : d = .bool v := hv
    subst hv
    obtain ⟨b, hb, hbit⟩ := h
    refine ⟨nofun, fun _ => ⟨b, hb, (sectionBit_of hbit).trans ?_⟩⟩
    cases ex with
    | false => rfl
    | true => cases v <;> rfl
  | enum e =>
    cases hst
    refine ⟨fun w sg hw => ?_, nofun⟩
    cases hw
    exact int .h hd hwf.1 h
  | prim fmt =>
    refine ⟨fun w sg hw => ?_, nofun⟩
    cases fmt with
    | f =>
      cases hst; cases hw
      obtain ⟨i, rfl, h⟩ := h
      have hd : d = .float .f 0 := hd
      subst hd
      refine ⟨i, rfl, fun j hj => (stored_bits (fmt := .I) h (by have h : off * 4 + 4 ≤ 8 * ds := hwf.1; show off * 4 + 4 ≤ _; omega) hj).trans ?_⟩
      cases ex <;> exact (Bool.xor_false _).symm
    | d =>
      cases hst; cases hw
      obtain ⟨i, rfl, h⟩ := h
      have hd : d = .float .d 0 := hd
      subst hd
      refine ⟨i, rfl, fun j hj => (stored_bits (fmt := .Q) h (by have h : off * 8 + 8 ≤ 8 * ds := hwf.1; show off * 8 + 8 ≤ _; omega) hj).trans ?_⟩
      cases ex <;> exact (Bool.xor_false _).symm
    | b => cases hst; cases hw; exact int .b hd hwf.1 h
    | B => cases hst; cases hw; exact int .B hd hwf.1 h
    | h => cases hst; cases hw; exact int .h hd hwf.1 h
    | H => cases hst; cases hw; exact int .H hd hwf.1 h
    | i => cases hst; cases hw; exact int .i hd hwf.1 h
    | I => cases hst; cases hw; exact int .I hd hwf.1 h
    | q => cases hst; cases hw; exact int .q hd hwf.1 h
    | Q => cases hst; cases hw; exact int .Q hd hwf.1 h

/-- C76: the statements which the compiler emits in the constructor for a slot, run with an acceptable argument on a
buffer in which the place of the slot is zero: they succeed; they change only the bits which belong to the field, and
append; the bits of a number are its two's complement (a float's pattern) XOR the explicit default; and if the
default which is not explicit is zero, the property which the compiler emits for the slot reads the argument, from
this buffer and from every later one which has the same bits there. -/
theorem C76_writes (c : Ctx) (items : Str → Option ItemType) (cls : Nat → Option Const.Cls) (s : Slot) (hd : DefaultOK s)
    (hi : ItemsOK c items cls s.ty) {ds ps : Nat} (hp : PlaceOK ds ps s.ty s.off) {getter : Getter} {setter : Setter}
    (hg : emitGetter c s = .ok getter) (hs : emitSetter c ds s = .ok setter)
    (hfl : s.explicit = true → s.ty ≠ .prim .f ∧ s.ty ≠ .prim .d) {st : SlotType} (hst : slotTypeOf cls c.tt s.ty = some st)
    {fuel : Nat} {var : String} {fr : Frame} {a : Arg} {n : Nat} (ha : SlotArg fuel st a n) (hbase : BaseOK fr.vars)
    (hv : fr.vars var = some a) (h1 : var ≠ "builder") (h2 : var ≠ "pos") (h8 : 8 ∣ fr.buf.length)
    (hR : 8 * (ds + ps) ≤ fr.buf.length) (hL : fr.buf.length + n ≤ 2 ^ 32)
    (hz : ∀ i, placeBits ds s.ty s.off i → sectionBit fr.buf i = false) :
    ∃ fr', setter.run items fuel var fr = .ok fr' ∧ fr'.buf.length = fr.buf.length + n ∧
      (∀ i, i < 8 * fr.buf.length → ¬ placeBits ds s.ty s.off i → sectionBit fr'.buf i = sectionBit fr.buf i) ∧
      (∀ x, x ≠ var → fr'.vars x = fr.vars x) ∧ StoresData s a fr'.buf ∧
      (ZeroDefault s → ∀ C : Bytes, fr'.buf.length ≤ C.length →
        (∀ i, placeBits ds s.ty s.off i ∨ 8 * fr.buf.length ≤ i ∧ i < 8 * fr'.buf.length → sectionBit C i = sectionBit fr'.buf i) →
        ∀ data ptrs, Denotes (objAt C none 0 ds ps) (.struct data ptrs) →
          SlotReads st a (getter.run items (objAt C none 0 ds ps))) := by
  obtain ⟨hex, hni, htt, -⟩ := (C76_compiles c s).mp ⟨getter, hg⟩
  have hna : s.ty ≠ .anyPointer := by
    intro e
    rw [e] at hst
    cases hst
    exact ha
  obtain ⟨hwf, hbits⟩ := place_same hst hd hp hna (fun h => ⟨hex h, hfl h⟩)
  have hin : ∀ i, placeBits ds s.ty s.off i → i < 8 * fr.buf.length := by
    intro i hi
    generalize hty : s.ty = ty at hp hi
    cases ty with
    | void => exact hi.elim
    | interface => exact hi.elim
    | text => have h1 := hi.2; have h2 : s.off < ps := hp; omega
    | data => have h1 := hi.2; have h2 : s.off < ps := hp; omega
    | struct _ => have h1 := hi.2; have h2 : s.off < ps := hp; omega
    | list _ => have h1 := hi.2; have h2 : s.off < ps := hp; omega
    | anyPointer => have h1 := hi.2; have h2 : s.off < ps := hp; omega
    | bool => have := hp i hi; omega
    | enum _ => have := hp i hi; omega
    | prim fmt => have := hp i hi; omega
  have hbz : ∀ i, slotBits ds st s.off i → bitAt fr.buf i = some false := by
    intro i hb
    have hb := (hbits i).mp hb
    have h := hz i hb
    have hl : i / 8 < fr.buf.length := by have := hin i hb; omega
    unfold sectionBit at h
    unfold bitAt bitOf
    rw [List.getD_eq_getElem?_getD, List.getElem?_eq_getElem hl] at h
    rw [List.getElem?_eq_getElem hl]
    exact congrArg some h
  obtain ⟨b', hb', post⟩ := buildSlot_spec hwf ha h8 hR hL hbz
  have hsim := handleSlot_build fuel ds var st s.off (explicitDefault s) fr a hbase hv h1 h2
  rw [hb'] at hsim
  obtain ⟨vars, hrun, hvars⟩ := hsim
  obtain ⟨st', hst', hset⟩ := C76_same_setter c items cls s hd hi ds hs hni htt fuel var fr
  rw [hst] at hst'
  cases Option.some.inj hst'
  have hlen : b'.length = fr.buf.length + n := post.len
  refine ⟨⟨vars, b'⟩, hset.trans hrun, hlen, ?_, hvars, ?_, ?_⟩
  · intro i hi hn
    have := post.frame i hi (fun h => hn ((hbits i).mp h))
    exact sectionBit_congr this (by show i < 8 * b'.length; omega)
  · exact holds_data hst hd hwf (by show _ ≤ b'.length; omega) (post.holds b' le_rfl (fun _ _ => rfl) (fun _ _ _ => rfl))
  · intro hzero C hC hsame data ptrs hden
    have hC : b'.length ≤ C.length := hC
    have hbitC : ∀ i, placeBits ds s.ty s.off i ∨ 8 * fr.buf.length ≤ i ∧ i < 8 * b'.length → bitAt C i = bitAt b' i := by
      intro i hi
      have h := hsame i hi
      have hlt : i / 8 < b'.length := by
        rcases hi with hi | hi
        · have := hin i hi; omega
        · omega
      unfold sectionBit at h
      rw [List.getD_eq_getElem?_getD, List.getD_eq_getElem?_getD] at h
      unfold bitAt bitOf
      have e1 := List.getElem?_eq_getElem (l := C) (show i / 8 < C.length by omega)
      have e2 := List.getElem?_eq_getElem (l := b') hlt
      have h : (C[i / 8]?.getD 0).toNat.testBit (i % 8) = (b'[i / 8]?.getD 0).toNat.testBit (i % 8) := h
      rw [e1, e2] at h ⊢
      exact congrArg some h
    have hh := post.holds C hC (fun i hi => hbitC i (.inl ((hbits i).mp hi))) (fun k hk hk' => by
      apply byte_of_bits
      intro m hm
      exact hbitC _ (.inr ⟨by omega, by omega⟩))
    obtain ⟨st2, hst2, hget⟩ := C76_same_getter c items cls s hd hzero hi hg (objAt C none 0 ds ps)
    rw [hst] at hst2
    cases Option.some.inj hst2
    rw [hget]
    exact reads_slot hden hwf hh

/-- C76: if the property of a slot can be compiled, so can the constructor; an AnyPointer compiles to a `raise`. -/
theorem C76_setter_compiles (c : Ctx) (s : Slot) (ds : Nat) (h : ∃ code, emitGetter c s = .ok code) :
    ∃ code, emitSetter c ds s = .ok code ∧ (s.ty = .anyPointer → code = .notImplemented) := by
  obtain ⟨-, hni, htt, hn⟩ := (C76_compiles c s).mp h
  obtain ⟨ty, off, d, ex⟩ := s
  cases ty with
  | interface => exact absurd rfl hni
  | prim fmt => cases fmt <;> exact ⟨_, rfl, nofun⟩
  | void => exact ⟨_, rfl, nofun⟩
  | bool => exact ⟨_, rfl, nofun⟩
  | enum i => exact ⟨_, rfl, nofun⟩
  | data => exact ⟨_, rfl, nofun⟩
  | anyPointer => exact ⟨_, rfl, fun _ => rfl⟩
  | text =>
    obtain ⟨g, pyx, tt, fuel⟩ := c
    cases tt with
    | notset => exact absurd rfl (htt rfl)
    | bytes => exact ⟨_, rfl, nofun⟩
    | unicode => exact ⟨_, rfl, nofun⟩
  | struct i =>
    obtain ⟨n, name, h1, h2⟩ := hn
    refine ⟨.struct name (off * 8 + ds * 8), ?_, nofun⟩
    show (do pure (Setter.struct (← c.g.runtimeName c.fuel (← c.g.node i)) (off * 8 + ds * 8)) : Py Setter) = _
    rw [bind_okP h1, bind_okP h2]
    rfl
  | list e =>
    obtain ⟨name, h1⟩ := hn
    refine ⟨.list name (off * 8 + ds * 8), ?_, nofun⟩
    show (do pure (Setter.list (← Const.listItemType c.g c.pyx c.tt c.fuel e) (off * 8 + ds * 8)) : Py Setter) = _
    rw [bind_okP h1]
    rfl

section
open Module (State)
open Const
variable {g : Gen} {file : Tree}

/-- C76: in a module which was compiled from a file of the schema and imported, for every slot whose type belongs to the
file: the property and the statement of the constructor are compiled; the item types of lists are those of their
elements, so that `C76_reads` and `C76_writes` apply; and the names of structs and enums in the property are those of
the classes of these structs and enums. -/
theorem C76_in_module (ok : FileOK g file) (sup : Supported g file) {F : Nat} (hF : Deep file F) {σ0 σ : State}
    (hi : Module.importModule g F σ0 = .ok σ) {cls : Nat → Option Cls} (hcl : ClassesOK file cls)
    (header : Str → Option Cls) (pyx : Bool) (refl : Option Seg) {tt : TextType} (htt : tt ≠ .notset) (s : Slot)
    (own : OwnType file s.ty) (hni : s.ty ≠ .interface) (hcon : ∀ e, s.ty = .list e → Concrete e)
    (hex : s.explicit = true → Numeric s.ty) (ds : Nat) :
    ∃ getter setter, emitGetter ⟨g, pyx, tt, F⟩ s = .ok getter ∧ emitSetter ⟨g, pyx, tt, F⟩ ds s = .ok setter ∧
      ItemsOK ⟨g, pyx, tt, F⟩
        (fun n => ((evalItemText (envOf σ cls header pyx refl) n).toOption.map Const.Item.toItemType)) cls s.ty ∧
      (∀ i, s.ty = .struct i → ∃ name x, getter = .struct name (s.off * 8) ∧ setter = .struct name (s.off * 8 + ds * 8) ∧
        cls i = some x ∧
        (envOf σ cls header pyx refl).cls name = some x) ∧
      (∀ i, s.ty = .enum i → ∃ name x, getter = .enum name (s.off * 2) s.dflt ∧ cls i = some x ∧
        (envOf σ cls header pyx refl).cls name = some x) := by
  have hitem : ∀ e, s.ty = .list e → ∃ n it, listItemType g pyx tt F e = .ok n ∧ itemOf cls tt e = some it ∧
      evalItemText (envOf σ cls header pyx refl) n = .ok it := fun e he =>
    C71_item ok sup hF hi hcl header pyx refl htt (by rw [he] at own; exact own) (hcon e he)
  have hex' : ∀ ty, s.ty = ty → ¬ Numeric ty → s.explicit = false := by
    intro ty hty hn
    cases hx : s.explicit with
    | false => rfl
    | true => exact absurd (hty ▸ hex hx) hn
  have hw : NamesWritable ⟨g, pyx, tt, F⟩ s.ty := by
    generalize hty : s.ty = ty at own
    cases ty with
    | struct i =>
      obtain ⟨p, t, h, rfl, ht, hgr⟩ := own
      exact ⟨t.node, _, node_eq ok (h.mem ok), h.runtimeName ok (show p.length ≤ F by have := length_lt hF h; omega)⟩
    | enum i =>
      obtain ⟨p, t, h, rfl, ht⟩ := own
      exact ⟨_, nodeName_own ok hF h []⟩
    | list e =>
      obtain ⟨n, it, h1, -⟩ := hitem e hty
      exact ⟨n, h1⟩
    | _ => trivial
  obtain ⟨getter, hg⟩ := (C76_compiles ⟨g, pyx, tt, F⟩ s).mpr ⟨hex, hni, fun _ => htt, hw⟩
  obtain ⟨setter, hs, -⟩ := C76_setter_compiles ⟨g, pyx, tt, F⟩ s ds ⟨getter, hg⟩
  refine ⟨getter, setter, hg, hs, ?_, ?_, ?_⟩
  · intro e he n hn
    obtain ⟨n', it, h1, h2, h3⟩ := hitem e he
    rw [show listItemType g pyx tt F e = .ok n from hn] at h1
    cases Except.ok.inj h1
    refine ⟨it, h2, ?_⟩
    show (evalItemText (envOf σ cls header pyx refl) n).toOption.map _ = _
    rw [h3]
    rfl
  · intro i he
    obtain ⟨ty, off, d, ex⟩ := s
    have he : ty = .struct i := he
    subst he
    have hx := hex' _ rfl (by exact id)
    have hx : ex = false := hx
    subst hx
    obtain ⟨p, t, h, rfl, ht, hgr⟩ := own
    have e1 := node_eq ok (h.mem ok)
    have e2 := h.runtimeName ok (fuel := F) (by have := length_lt hF h; omega)
    obtain ⟨a, h1, -, hid, -⟩ := C52_types ok sup hF hi h (.inl ⟨ht, hgr⟩)
    obtain ⟨c, k, q, k3⟩ := (hcl p t h).1 ht
    refine ⟨_, _, ?_, ?_, k3, cls_own h1 ((classAt_of hid cls).trans k3)⟩
    · have hg : (do pure (Getter.struct (← g.runtimeName F (← g.node t.node.id)) (off * 8)) : Py Getter) = .ok getter := hg
      rw [bind_okP e1, bind_okP e2] at hg
      exact (Except.ok.inj hg).symm
    · have hs : (do pure (Setter.struct (← g.runtimeName F (← g.node t.node.id)) (off * 8 + ds * 8)) : Py Setter) = .ok setter := hs
      rw [bind_okP e1, bind_okP e2] at hs
      exact (Except.ok.inj hs).symm
  · intro i he
    obtain ⟨ty, off, d, ex⟩ := s
    have he : ty = .enum i := he
    subst he
    obtain ⟨p, t, h, rfl, ht⟩ := own
    have e1 := nodeName_own ok hF h []
    obtain ⟨a, -, h2, hid, -⟩ := C52_types ok sup hF hi h (.inr ht)
    obtain ⟨c, k3⟩ := (hcl p t h).2 ht
    refine ⟨_, _, ?_, k3, cls_own h2 ((classAt_of hid cls).trans k3)⟩
    have hsup : defaultSupported (.enum t.node.id) = true := rfl
    unfold emitGetter at hg
    simp only at hg
    rw [hsup, Bool.not_true, Bool.and_false] at hg
    have hg : (do pure (Getter.enum (← Const.nodeName g F t.node.id []) (off * 2) d) : Py Getter) = .ok getter := hg
    rw [bind_okP e1] at hg
    exact (Except.ok.inj hg).symm

end

/-! ## What is not true -/

/-- C76, a limit: a legitimate explicit default of a pointer or of a Void field is rejected by the compiler. -/
theorem C76_default_rejected (c : Ctx) (s : Slot) (h : s.explicit = true) (hn : ¬ Numeric s.ty) :
    emitGetter c s = .error .valueError := by
  have hd : defaultSupported s.ty = false := by
    rw [Bool.eq_false_iff, Ne, defaultSupported_iff]; exact hn
  unfold emitGetter
  rw [h, hd]
  rfl

/-- C76, a limit: a file with a field of an interface type cannot be compiled. -/
theorem C76_interface_rejected (c : Ctx) (off : Nat) (d : PyVal) : emitGetter c ⟨.interface, off, d, false⟩ = .error .typeError := rfl

/-- C76, a defect: a float field with a default other than zero can be compiled, but reading it always fails, unless the
read itself does. -/
theorem C76_float_default (c : Ctx) (items : Str → Option ItemType) (s : Slot) {bits : Int}
    (hs : s.ty = .prim .f ∧ s.dflt = .float .f bits ∧ bits.toNat % 2 ^ 31 ≠ 0 ∨
      s.ty = .prim .d ∧ s.dflt = .float .d bits ∧ bits.toNat % 2 ^ 63 ≠ 0) :
    ∃ code, emitGetter c s = .ok code ∧ ∀ o, ∃ e, code.run items o = .error e := by
  obtain ⟨ty, off, d, ex⟩ := s
  have fin : ∀ fmt, bits.toNat % 2 ^ (if fmt = Fmt.f then 31 else 63) ≠ 0 → ∀ v : Int, ∃ e,
      (do if (← defaultNonZero (.float fmt bits)) then .error .typeError else pure (RVal.float v) : Py RVal) = .error e := by
    intro fmt hb v
    unfold defaultNonZero
    by_cases hf : fmt = .f
    · subst hf
      simp only [if_true]
      by_cases hi : bits.toNat / 2 ^ 23 % 2 ^ 8 = 2 ^ 8 - 1
      · rw [if_pos hi]; exact ⟨_, rfl⟩
      · rw [if_neg hi]
        refine ⟨.typeError, ?_⟩
        show (if (bits.toNat % 2 ^ (8 + 23) != 0) = true then Except.error PyErr.typeError else pure (RVal.float v) : Py RVal) = _
        rw [if_pos (by simpa using hb)]
    · simp only [if_neg hf] at hb ⊢
      by_cases hi : bits.toNat / 2 ^ 52 % 2 ^ 11 = 2 ^ 11 - 1
      · rw [if_pos hi]; exact ⟨_, rfl⟩
      · rw [if_neg hi]
        refine ⟨.typeError, ?_⟩
        show (if (bits.toNat % 2 ^ (11 + 52) != 0) = true then Except.error PyErr.typeError else pure (RVal.float v) : Py RVal) = _
        rw [if_pos (by simpa using hb)]
  rcases hs with ⟨hty, hd, hb⟩ | ⟨hty, hd, hb⟩
  · have hty : ty = .prim .f := hty
    have hd : d = .float .f bits := hd
    subst hty hd
    refine ⟨.primitive (off * 4) (some 'f') (.float .f bits), by cases ex <;> rfl, fun o => ?_⟩
    show ∃ e, (do
      let value ← o.readPrimitive ((off * 4 : Nat) : Int) .f
      if (← defaultNonZero (.float .f bits)) then .error .typeError else pure (RVal.float value) : Py RVal) = .error e
    cases o.readPrimitive ((off * 4 : Nat) : Int) .f with
    | error e => exact ⟨e, rfl⟩
    | ok v => exact fin .f hb v
  · have hty : ty = .prim .d := hty
    have hd : d = .float .d bits := hd
    subst hty hd
    refine ⟨.primitive (off * 8) (some 'd') (.float .d bits), by cases ex <;> rfl, fun o => ?_⟩
    show ∃ e, (do
      let value ← o.readPrimitive ((off * 8 : Nat) : Int) .d
      if (← defaultNonZero (.float .d bits)) then .error .typeError else pure (RVal.float value) : Py RVal) = .error e
    cases o.readPrimitive ((off * 8 : Nat) : Int) .d with
    | error e => exact ⟨e, rfl⟩
    | ok v => exact fin .d hb v

/-- C76, a defect: a float field with an explicit default, also zero, makes the constructor fail for every float. -/
theorem C76_float_default_ctor (c : Ctx) (items : Str → Option ItemType) (s : Slot) (ds : Nat) {bits : Int}
    (hs : s.ty = .prim .f ∧ s.dflt = .float .f bits ∨ s.ty = .prim .d ∧ s.dflt = .float .d bits) (hex : s.explicit = true) :
    ∃ code, emitSetter c ds s = .ok code ∧ ∀ (fuel : Nat) (var : String) (fr : Frame) (v : Int), fr.vars var = some (.float v) →
      ∃ e, code.run items fuel var fr = .error e := by
  have fin : ∀ fmt v, ∃ e, FieldEmit.xorArg (.float v) (.float fmt bits) = .error e := by
    intro fmt v
    show ∃ e, (do let _ ← defaultNonZero (.float fmt bits); .error .typeError : Py Arg) = .error e
    cases defaultNonZero (.float fmt bits) with
    | error e => exact ⟨e, rfl⟩
    | ok _ => exact ⟨_, rfl⟩
  have run : ∀ (fmt : Fmt) (m : String) (off fuel : Nat) (var : String) (fr : Frame) (v : Int), fr.vars var = some (.float v) →
      ∃ e, (Setter.number (some (.float fmt bits)) m off).run items fuel var fr = .error e := by
    intro fmt m off fuel var fr v hv
    obtain ⟨e, he⟩ := fin fmt v
    refine ⟨e, ?_⟩
    show (do let fr ← (do pure (fr.set var (← FieldEmit.xorArg (← fr.get var) (.float fmt bits)))); _ : Py Frame) = _
    rw [Frame.get_ok hv]
    show (do let fr ← (do pure (fr.set var (← FieldEmit.xorArg (.float v) (.float fmt bits)))); _ : Py Frame) = _
    rw [he]
    rfl
  obtain ⟨ty, off, d, ex⟩ := s
  have hex : ex = true := hex
  subst hex
  rcases hs with ⟨hty, hd⟩ | ⟨hty, hd⟩
  · have hty : ty = .prim .f := hty
    have hd : d = .float .f bits := hd
    subst hty hd
    exact ⟨_, rfl, run .f "float32" (off * 4)⟩
  · have hty : ty = .prim .d := hty
    have hd : d = .float .d bits := hd
    subst hty hd
    exact ⟨_, rfl, run .d "float64" (off * 8)⟩

/-- The frame of a constructor with an argument `x`. -/
def exFrameOf (x : Arg) (buf : Bytes) : Frame :=
  ⟨fun y => if y = "builder" then some .builder else if y = "pos" then some (.int 0) else if y = "x" then some x else none, buf⟩

/-- C76, why the compiler wants `capnp` 0.5: an older one does not say that a default is explicit; then the property
applies the default, and the constructor does not: `5 ^ 5 = 0` is read where 5 was given. -/
theorem C76_old_capnp (c : Ctx) (items : Str → Option ItemType) :
    ∃ getter setter, emitGetter c ⟨.prim .q, 0, .int 5, false⟩ = .ok getter ∧
      emitSetter c 1 ⟨.prim .q, 0, .int 5, false⟩ = .ok setter ∧
      setter.run items 0 "x" (exFrameOf (.int 5) (List.replicate 8 0)) = .ok (exFrameOf (.int 5) [5, 0, 0, 0, 0, 0, 0, 0]) ∧
      getter.run items (objAt [5, 0, 0, 0, 0, 0, 0, 0] none 0 1 0) = .ok (.int 0) :=
  by
  refine ⟨_, _, rfl, rfl, ?_, ?_⟩
  · show (exFrameOf (.int 5) (List.replicate 8 0)).call (writeFmt .q (0 + ((0 * 8 : Nat) : Int)) 5) = _
    rw [Frame.call_eq ⟨rfl, rfl⟩]
    have h : writeFmt .q (0 + ((0 * 8 : Nat) : Int)) 5 (List.replicate 8 0) = .ok () [5, 0, 0, 0, 0, 0, 0, 0] := by decide +kernel
    show (match writeFmt .q (0 + ((0 * 8 : Nat) : Int)) 5 (List.replicate 8 0) with
      | .ok _ b => Except.ok { exFrameOf (.int 5) (List.replicate 8 0) with buf := b }
      | .error e _ => Except.error e) = _
    rw [h]
    rfl
  · show (do pure (RVal.int (← applyDefault (← (objAt [5, 0, 0, 0, 0, 0, 0, 0] none 0 1 0).readPrimitive ((0 * 8 : Nat) : Int) .q)
      (.int 5))) : Py RVal) = _
    have h : (objAt [5, 0, 0, 0, 0, 0, 0, 0] none 0 1 0).readPrimitive ((0 * 8 : Nat) : Int) .q = .ok 5 := by decide +kernel
    rw [bind_okP h, bind_okP (applyDefault_int _ _)]
    rfl

/-! ## Examples -/

/-- A bool at bit 13 with the default true, read from a struct whose bit 13 is set: false. -/
example (c : Ctx) (items : Str → Option ItemType) (o : StructObj) (ptrs : List Val) (ho : Denotes o (.struct [0, 0x20, 0, 0, 0, 0, 0, 0] ptrs)) :
    ∃ getter, emitGetter c ⟨.bool, 13, .bool true, true⟩ = .ok getter ∧ getter.run items o = .ok (.bool false) :=
  ⟨_, rfl, C76_reads c items (fun _ => none) ⟨.bool, 13, .bool true, true⟩ ⟨true, rfl⟩ nofun rfl o _ ptrs ho⟩

/-- An `Int16` at offset 3 with the default -3, in a struct with two words of data and a pointer. -/
def exSlot : Slot := ⟨.prim .h, 3, .int (-3), true⟩

/-- `C76_writes` for it: -1000 is stored as `-1000 ^ -3`, and is read back. -/
example (c : Ctx) (items : Str → Option ItemType) (cls : Nat → Option Const.Cls) :
    ∃ getter setter, emitGetter c exSlot = .ok getter ∧ emitSetter c 2 exSlot = .ok setter ∧
      ∃ fr', setter.run items 0 "x" (exFrameOf (.int (-1000)) (List.replicate 24 0)) = .ok fr' ∧ StoresData exSlot (.int (-1000)) fr'.buf ∧
      ∀ data ptrs, Denotes (objAt fr'.buf none 0 2 1) (.struct data ptrs) →
        SlotReads (.prim .h) (.int (-1000)) (getter.run items (objAt fr'.buf none 0 2 1)) := by
  obtain ⟨fr', h1, h2, h3, h4, h5, h6⟩ := C76_writes c items cls exSlot ⟨-3, rfl, by decide⟩ (fun _ h => by cases h) (ds := 2) (ps := 1)
    (by
      show ∀ i, 16 * 3 ≤ i ∧ i < 16 * 3 + 16 → i < 64 * 2
      omega)
    (getter := .primitive 6 (some 'h') (.int (-3))) (setter := .number (some (.int (-3))) "int16" 6) rfl rfl
    (fun _ => ⟨by simp [exSlot], by simp [exSlot]⟩) (st := .prim .h) rfl (fuel := 0) (var := "x")
    (fr := exFrameOf (.int (-1000)) (List.replicate 24 0)) (a := .int (-1000)) (n := 0)
    ⟨-1000, rfl, (by show (-2 : Int) ^ 15 ≤ -1000 ∧ (-1000 : Int) < 2 ^ 15; decide), rfl⟩ ⟨rfl, rfl⟩ rfl (by decide) (by decide) (by decide) (by decide) (by decide) (by
      intro i _
      show sectionBit (List.replicate 24 0) i = false
      unfold sectionBit
      rw [List.getD_eq_getElem?_getD, List.getElem?_replicate]
      split <;> simp)
  exact ⟨_, _, rfl, rfl, fr', h1, h5, fun data ptrs hd =>
    h6 (fun h => by cases h) fr'.buf le_rfl (fun _ _ => rfl) data ptrs hd⟩

example : Int.xor (-1000) (-3) = 997 := by decide +kernel

/-- `C76_in_module` for a field of the type `Outer.Inner`, and `C76_reads` for it. -/
example (s : Slot) (hs : s = ⟨.struct 3, 1, .none, false⟩) : ∃ σ getter name x, Module.importModule (genOf exFile) 10 fresh = .ok σ ∧
    emitGetter ⟨genOf exFile, false, .bytes, 10⟩ s = .ok getter ∧ getter = .struct name 8 ∧ exCls 3 = some x ∧
    (envOf σ exCls (fun _ => none) false none).cls name = some x := by
  subst hs
  obtain ⟨σ, hi⟩ := C52_imports exFile_ok.1 exFile_ok.2.1 exFile_ok.2.2 fresh
  obtain ⟨getter, setter, h1, h2, h3, h4, h5⟩ := C76_in_module exFile_ok.1 exFile_ok.2.1 exFile_ok.2.2 hi exCls_ok (fun _ => none) false
    none (tt := .bytes) (by decide) ⟨.struct 3, 1, .none, false⟩
    (show OwnType exFile (.struct 3) from ⟨_, _, exInner, rfl, ⟨_, _, _, _, rfl⟩, by rintro ⟨_, _, _, h⟩; cases h⟩) nofun nofun nofun 0
  obtain ⟨name, x, e1, e2, e3, e4⟩ := h4 3 rfl
  exact ⟨σ, getter, name, x, hi, h1, e1, e3, e4⟩

end Capnpy.Props
