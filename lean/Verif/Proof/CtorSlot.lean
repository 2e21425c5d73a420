import Verif.Proof.CtorBits

/-! # One slot of a constructor -/

namespace Capnpy

open Spec Props

theorem xorArg_int {ty : SlotType} (hty1 : ∀ i d, xorArg (some d) ty (.int i) = .ok (.int (Int.xor i d)))
    (hty2 : ∀ b d, xorArg (some d) ty (.bool b) = .ok (.int (Int.xor (if b then 1 else 0) d)))
    (dflt : Option Int) (a : Arg) (i : Int) (ha : a.toInt? = some i) :
    ∃ a', xorArg dflt ty a = .ok a' ∧ a'.toInt? = some (Int.xor i (dflt.getD 0)) := by
  cases dflt with
  | none =>
    refine ⟨a, rfl, ?_⟩
    rw [Option.getD_none, xor_zero_right, ha]
  | some d =>
    cases a with
    | int j =>
      injection ha with ha
      subst ha
      exact ⟨_, hty1 j d, rfl⟩
    | bool b =>
      injection ha with ha
      subst ha
      exact ⟨_, hty2 b d, rfl⟩
    | _ => simp [Arg.toInt?] at ha

theorem BM.lift_bind {α β} {x : Py α} {a : α} (h : x = .ok a) (f : α → BM β) (b : Bytes) :
    (do f (← BM.lift x) : BM β) b = f a b := by
  rw [h]; rfl

theorem inRange_dflt {fmt : Fmt} {dflt : Option Int} (h : ∀ d, dflt = some d → InRange fmt d)  :
    InRange fmt (dflt.getD 0) := by
  cases dflt with
  | none =>
    unfold InRange
    split <;> refine ⟨?_, ?_⟩ <;> simp
  | some d => exact h d rfl

/-- Integers and enums. -/
theorem write_int_slot {b : Bytes} {fmt : Fmt} {ty : SlotType} {off : Nat} {dflt : Option Int} {a : Arg} {i : Int}
    {k : Nat} (hx : ∃ a', xorArg dflt ty a = .ok a' ∧ a'.toInt? = some (Int.xor i (dflt.getD 0)))
    (hi : InRange fmt i) (hd : ∀ d, dflt = some d → InRange fmt d) (hk : k + fmt.size ≤ b.length) (h8 : 8 ∣ b.length)
    (hoff : slotOffset ds ty off = k) :
    ∃ b', (do writeArg fmt ((slotOffset ds ty off : Nat) : Int) (← BM.lift (xorArg dflt ty a)) : BM Unit) b
        = .ok () b' ∧
      NodePost b b' 0 (fun j => 8 * k ≤ j ∧ j < 8 * k + 8 * fmt.size)
        (fun C => readPrimitive C k fmt = .ok (Int.xor i (dflt.getD 0))) := by
  obtain ⟨a', hx, ha'⟩ := hx
  rw [BM.lift_bind hx, hoff]
  unfold writeArg
  rw [ha']
  exact write_num (inRange_xor hi (inRange_dflt hd)) hk h8

theorem write_bool_slot {b : Bytes} {off : Nat} {x : Bool} (ho : off < 8 * b.length) (h8 : 8 ∣ b.length)
    (hz : bitAt b off = some false) :
    ∃ b', writeBool ((off / 8 : Nat) : Int) (off % 8) (if x then 1 else 0) b = .ok () b' ∧
      NodePost b b' 0 (fun j => j = off) (fun C => bitAt C off = some x) := by
  obtain ⟨b', e, hl, hf, hv⟩ := C03_write_bool b (off / 8) (off % 8) x (by omega) (by omega)
  refine ⟨b', e, by omega, by omega, ?_, ?_⟩
  · intro i _ hi
    exact hf _ _ (by omega) (by omega)
  · intro C _ hb _
    rw [hb off rfl]
    show bitOf _ _ _ = _
    have hz' : bitOf b (off / 8) (off % 8) = some false := hz
    rw [hv, hz']
    simp

theorem ptr_slot_bits (ds off i : Nat) : (8 * (8 * (ds + off)) ≤ i ∧ i < 8 * (8 * (ds + off)) + 64) ↔
    (64 * (ds + off) ≤ i ∧ i < 64 * (ds + off) + 64) := by omega

/-- A slot given an acceptable argument. -/
theorem buildSlot_spec {fuel ds ps : Nat} {ty : SlotType} {off : Nat} {dflt : Option Int} {a : Arg} {n : Nat}
    (hwf : SlotWF ds ps ty off dflt) (ha : SlotArg fuel ty a n) {b : Bytes} (h8 : 8 ∣ b.length)
    (hR : 8 * (ds + ps) ≤ b.length) (hL : b.length + n ≤ 2 ^ 32)
    (hz : ∀ i, slotBits ds ty off i → bitAt b i = some false) :
    ∃ b', buildSlot fuel ds ty off dflt a b = .ok () b' ∧
      NodePost b b' n (slotBits ds ty off) (fun C => HoldsSlot ds C ty off dflt a) := by
  have ptrs : ∀ (v : Val) (m : Int → BM Unit), off < ps →
      (∀ (dst : Nat), dst + 8 ≤ b.length → 8 ∣ dst → ∃ b', m dst b = .ok () b' ∧ CopyPost b b' dst v) →
      ∃ b', m ((off * 8 + ds * 8 : Nat) : Int) b = .ok () b' ∧
        NodePost b b' v.size (fun i => 64 * (ds + off) ≤ i ∧ i < 64 * (ds + off) + 64)
          (fun C => Den C none ((8 * (ds + off) : Nat) : Int) (wordAt C (8 * (ds + off))) v) := by
    intro v m ho h
    obtain ⟨b', e, hp⟩ := h (8 * (ds + off)) (by omega) (by omega)
    refine ⟨b', ?_, (write_ptr hp (by omega)).mono (fun i hi => (ptr_slot_bits _ _ _).mp hi) (fun C h => h)⟩
    rw [show off * 8 + ds * 8 = 8 * (ds + off) by ring]
    exact e
  cases ty with
  | void =>
    have : n = 0 := ha
    subst this
    exact ⟨b, rfl, (NodePost.refl h8).mono (fun _ h => h.elim) (fun _ _ => trivial)⟩
  | anyPointer => exact ha.elim
  | prim fmt =>
    obtain ⟨i, hai, hi, rfl⟩ := ha
    obtain ⟨hw1, hw2⟩ := hwf
    obtain ⟨b', e, hp⟩ := write_int_slot (ds := ds) (ty := .prim fmt) (off := off) (k := off * fmt.size) (b := b)
      (xorArg_int (fun _ _ => rfl) (fun _ _ => rfl) dflt a i hai) hi hw2 (by omega) h8 (by
        unfold slotOffset; rw [if_neg (by simp [SlotType.isPointer])]; rfl)
    exact ⟨b', e, hp.mono (fun _ h => h) (fun C h => ⟨i, hai, h⟩)⟩
  | enum =>
    obtain ⟨i, hai, hi, rfl⟩ := ha
    obtain ⟨hw1, hw2⟩ := hwf
    obtain ⟨b', e, hp⟩ := write_int_slot (ds := ds) (ty := .enum) (off := off) (k := off * 2) (b := b) (fmt := .h)
      (xorArg_int (fun _ _ => rfl) (fun _ _ => rfl) dflt a i hai) hi hw2 (by show _ + 2 ≤ _; omega) h8 (by
        unfold slotOffset; rw [if_neg (by simp [SlotType.isPointer])]; rfl)
    refine ⟨b', e, hp.mono (fun j h => ?_) (fun C h => ⟨i, hai, h⟩)⟩
    have h : 8 * (off * 2) ≤ j ∧ j < 8 * (off * 2) + 16 := h
    show 16 * off ≤ j ∧ j < 16 * off + 16
    omega
  | float fmt =>
    obtain ⟨i, rfl, hi, rfl⟩ := ha
    obtain ⟨hw1, rfl⟩ := hwf
    obtain ⟨b', e, hp⟩ := write_num (b := b) (k := off * fmt.size) hi (by omega) h8
    refine ⟨b', ?_, hp.mono (fun _ h => h) (fun C h => ⟨i, rfl, h⟩)⟩
    rw [← e]
    rfl
  | bool =>
    obtain ⟨x, hx, rfl⟩ := ha
    have hw : off < 64 * ds := hwf
    obtain ⟨b', e, hp⟩ := write_bool_slot (b := b) (off := off) (x := x ^^ (dflt.getD 0 != 0)) (by omega) h8
      (hz off rfl)
    refine ⟨b', ?_, hp.mono (fun _ h => h) (fun C h => ⟨x, hx, h⟩)⟩
    rw [← e]
    cases dflt with
    | none => rcases hx with rfl | rfl <;> cases x <;> rfl
    | some d =>
      show (do writeBoolArg off (← BM.lift (xorArg (some d) .bool a)) : BM Unit) b = _
      rw [Option.getD_some]
      rcases hx with rfl | rfl
      · rw [BM.lift_bind (show xorArg (some d) .bool (.bool x) = .ok (.bool (x ^^ (d != 0))) from rfl)]
        rfl
      · rw [BM.lift_bind (show xorArg (some d) .bool (.int (if x then 1 else 0)) =
          .ok (.int (Int.xor (if x then 1 else 0) (if (d != 0) = true then 1 else 0))) from rfl)]
        cases x <;> cases (d != 0) <;> rfl
  | text =>
    obtain ⟨v, hv, hf, hd, rfl⟩ := ha
    obtain ⟨ho, -⟩ := hwf
    cases a with
    | none =>
      cases hv
      obtain ⟨b', e, hp⟩ := ptrs .null (fun i => allocBytesArg i .none 1) ho (fun dst h1 h2 => by
        obtain ⟨b', e, hp⟩ := writeNull_post (b := b) h1 h8
        refine ⟨b', ?_, hp⟩
        have e2 : ∀ tz, allocText (dst : Int) none tz b = .ok (-1) b' := fun tz => by
          show (do writeInt64 (dst : Int) 0; pure (-1) : BM Int) b = _
          rw [BM.bind_ok e]; rfl
        show (do let _ ← allocText (dst : Int) none _ : BM Unit) b = _
        rw [BM.bind_ok (e2 _)]; rfl)
      exact ⟨b', e, hp.mono (fun _ h => h) (fun C h => ⟨_, rfl, h⟩)⟩
    | bytes s =>
      cases hv
      have hfit : s.length + 1 < 2 ^ 28 := by simpa [Val.Fits] using hf
      obtain ⟨b', e, hp⟩ := ptrs (.listPrim 2 (s.length + 1) (s ++ [0])) (fun i => allocBytesArg i (.bytes s) 1) ho
        (fun dst h1 h2 => by
          obtain ⟨b', e, hp⟩ := allocText_post (b := b) s 1 h8 h2 h1 hfit (by omega)
          refine ⟨b', ?_, hp⟩
          show (do let _ ← allocText (dst : Int) (some s) 1 : BM Unit) b = _
          rw [BM.bind_ok (show allocText (dst : Int) (some s) 1 b = _ from e)]; rfl)
      exact ⟨b', e, hp.mono (fun _ h => h) (fun C h => ⟨_, rfl, h⟩)⟩
    | _ => exact hv.elim
  | data =>
    obtain ⟨v, hv, hf, hd, rfl⟩ := ha
    obtain ⟨ho, -⟩ := hwf
    cases a with
    | none =>
      cases hv
      obtain ⟨b', e, hp⟩ := ptrs .null (fun i => allocBytesArg i .none 0) ho (fun dst h1 h2 => by
        obtain ⟨b', e, hp⟩ := writeNull_post (b := b) h1 h8
        refine ⟨b', ?_, hp⟩
        have e2 : ∀ tz, allocText (dst : Int) none tz b = .ok (-1) b' := fun tz => by
          show (do writeInt64 (dst : Int) 0; pure (-1) : BM Int) b = _
          rw [BM.bind_ok e]; rfl
        show (do let _ ← allocText (dst : Int) none _ : BM Unit) b = _
        rw [BM.bind_ok (e2 _)]; rfl)
      exact ⟨b', e, hp.mono (fun _ h => h) (fun C h => ⟨_, rfl, h⟩)⟩
    | bytes s =>
      cases hv
      have hfit : s.length + 0 < 2 ^ 28 := by simpa [Val.Fits] using hf
      obtain ⟨b', e, hp⟩ := ptrs (.listPrim 2 s.length s) (fun i => allocBytesArg i (.bytes s) 0) ho
        (fun dst h1 h2 => by
          obtain ⟨b', e, hp⟩ := allocText_post (b := b) s 0 h8 h2 h1 hfit (by omega)
          refine ⟨b', ?_, ?_⟩
          · show (do let _ ← allocText (dst : Int) (some s) 0 : BM Unit) b = _
            rw [BM.bind_ok (show allocText (dst : Int) (some s) 0 b = _ from e)]; rfl
          · simpa using hp)
      exact ⟨b', e, hp.mono (fun _ h => h) (fun C h => ⟨_, rfl, h⟩)⟩
    | _ => exact hv.elim
  | struct =>
    obtain ⟨v, hv, hf, hd, rfl⟩ := ha
    obtain ⟨ho, -⟩ := hwf
    cases a with
    | none =>
      cases hv
      obtain ⟨b', e, hp⟩ := ptrs .null (fun i => copyStructArg fuel i .none) ho (fun dst h1 h2 =>
        writeNull_post (b := b) h1 h8)
      exact ⟨b', e, hp.mono (fun _ h => h) (fun C h => ⟨_, rfl, h⟩)⟩
    | struct o =>
      obtain ⟨b', e, hp⟩ := ptrs v (fun i => copyStructArg fuel i (.struct o)) ho
        (fun dst h1 h2 => copyFromStruct_spec hv.1 hf hv.2 hd h1 h2 h8 hL)
      exact ⟨b', e, hp.mono (fun _ h => h) (fun C h => ⟨_, hv, h⟩)⟩
    | _ => exact hv.elim
  | list it =>
    obtain ⟨v, hv, hf, hd, rfl⟩ := ha
    obtain ⟨ho, -⟩ := hwf
    cases a with
    | none =>
      cases hv
      obtain ⟨b', e, hp⟩ := ptrs .null (fun i => copyListArg fuel it i .none) ho (fun dst h1 h2 =>
        writeNull_post (b := b) h1 h8)
      exact ⟨b', e, hp.mono (fun _ h => h) (fun C h => ⟨_, rfl, h⟩)⟩
    | list xs =>
      obtain ⟨b', e, hp⟩ := ptrs v (fun i => copyListArg fuel it i (.list xs)) ho
        (fun dst h1 h2 => copyList_spec fuel it xs v hv hf (by omega) b dst h1 h2 h8 hL)
      exact ⟨b', e, hp.mono (fun _ h => h) (fun C h => ⟨_, hv, h⟩)⟩
    | _ => exact hv.elim

end Capnpy
