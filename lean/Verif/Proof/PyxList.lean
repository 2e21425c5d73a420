import Verif.Model.PyxList
import Verif.Proof.PyxCopy

/-! # The compiled `copy_from_list` simulates the pure one -/

namespace Capnpy.Pyx

open Spec Capnpy.Props

theorem SimAt.and {α} {b : Bytes} {x : BM α} {y : PM α} {Q : α → Bytes → Prop} {R : α → Bytes → Prop}
    (h : SimAt b x y Q) (hp : ∀ a b', x b = .ok a b' → R a b') : SimAt b x y fun a b' => Q a b' ∧ R a b' := by
  intro s hs
  have h1 := h s hs
  cases hx : x b with
  | ok a b' =>
    rw [hx] at h1
    obtain ⟨s', e1, e2, e3⟩ := h1
    exact ⟨s', e1, e2, e3, hp a b' hx⟩
  | error e b' => rw [hx] at h1; exact h1

/-! ## The pure version does not make the buffer shorter -/

/-- Nothing is protected. -/
abbrev none_ : Nat → Prop := fun _ => False

theorem free_none {L : Nat} {pos : Int} (h : 0 ≤ pos) : Free L none_ pos := ⟨h, fun _ _ h => h.elim⟩

theorem keeps_loop {L : Nat} {src : Seg} {fuel : Nat} {sp dp : Int} (hdp : 0 ≤ dp) :
    ∀ k i, Keeps L none_ (copyPtrsLoop (copyPointer src fuel) src sp dp k i) fun _ => True
  | 0, _ => .pure trivial
  | k + 1, i => by
    unfold Capnpy.copyPtrsLoop
    refine (Keeps.lift (Q := fun _ => True) fun _ _ => trivial).bind fun p _ => ?_
    refine (Keeps.when (Keeps.copyPointer fuel (free_none (by omega)))).bind fun _ _ => ?_
    exact keeps_loop hdp k (i + 1)

theorem keeps_many {L : Nat} {src : Seg} {fuel : Nat} {n sp dp : Int} (hdp : 0 ≤ dp) :
    Keeps L none_ (copyManyPtrs (copyPointer src fuel) n src sp dp) fun _ => True := by
  unfold Capnpy.copyManyPtrs
  exact Keeps.checkBounds.bind fun _ _ => keeps_loop hdp _ _

theorem Keeps.grows {α} {x : BM α} {b : Bytes} {Q : α → Prop} (h : Keeps b.length none_ x Q) {a : α} {b' : Bytes}
    (hx : x b = .ok a b') : b.length ≤ b'.length := by
  have := (h b (Nat.le_refl _)).1
  rw [hx] at this
  exact this

theorem copyStructInline_grows {S : Seg} {fuel : Nat} {p o : Int} {t dst : Nat} {b b' : Bytes}
    (ht : Ptr.deref p o = (t : Int)) {n : Nat} (hn : Ptr.structDataSize p = (n : Int)) (hd : dst + 8 * n ≤ b.length)
    (h : copyStructInline (copyPointer S fuel) S p o (dst : Int) b = .ok () b') : b.length ≤ b'.length := by
  unfold Capnpy.copyStructInline at h
  simp only [ht, hn] at h
  have e8 : (n : Int) * 8 = ((8 * n : Nat) : Int) := by push_cast; ring
  rw [e8] at h
  obtain ⟨_, b1, h1, h2⟩ := BM.bind_ok_inv h
  have hb : (t : Int) + ((8 * n : Nat) : Int) ≤ S.buf.length ∧ b1 = b := by
    unfold Capnpy.checkBounds at h1
    split at h1
    · cases h1
    · cases h1; exact ⟨by omega, rfl⟩
  obtain ⟨hb, rfl⟩ := hb
  obtain ⟨_, b2, h3, h4⟩ := BM.bind_ok_inv h2
  rw [writeSlice_nat hd (by omega)] at h3
  cases h3
  have h5 := Keeps.grows (keeps_many (by omega)) h4
  have hl : (slice S.buf t (8 * n)).length = 8 * n := slice_length_of_le (by omega)
  rw [overwrite_length (by omega)] at h5
  exact h5

/-! ## The steps -/

theorem writeFmt_cases {fmt : Fmt} {i : Nat} {v : Int} (b : Bytes) :
    (∃ b', Capnpy.writeFmt fmt (i : Int) v b = .error .structError b') ∨
      (∃ b', Capnpy.writeFmt fmt (i : Int) v b = .ok () b' ∧ i + fmt.size ≤ b.length) := by
  unfold Capnpy.writeFmt packInto
  cases he : fmt.encode v with
  | error e =>
    unfold Fmt.encode at he
    split at he
    · cases he
    · cases he; exact .inl ⟨b, rfl⟩
  | ok bs =>
    simp only
    cases hs : structOffset b.length (i : Int) fmt.size with
    | error e =>
      unfold structOffset at hs
      rw [if_neg (by omega)] at hs
      split at hs
      · cases hs; exact .inl ⟨b, rfl⟩
      · cases hs
    | ok k =>
      obtain ⟨h1, h2⟩ := structOffset_ok hs
      have h2 := h2 (by omega)
      exact .inr ⟨_, rfl, by omega⟩

theorem SimAt.writeGeneric {b : Bytes} {fmt : Fmt} {i : Nat} {v : Int} :
    SimAt b (Capnpy.writeFmt fmt (i : Int) v) (writeGenericC fmt (i : Int) v) fun _ b' => b.length ≤ b'.length := by
  intro s hs
  rcases writeFmt_cases (fmt := fmt) (i := i) (v := v) b with ⟨b', h⟩ | ⟨b', h, hi⟩
  · rw [h]; exact .inl rfl
  · rw [h]
    obtain ⟨s', e1, e2⟩ := repr_writeFmt hs hi h
    obtain ⟨bs, f1, f2, f3⟩ := writeFmt_run hi h
    refine ⟨s', ?_, e2, ?_⟩
    · unfold writeGenericC
      rw [f1, e1]
    · show b.length ≤ b'.length
      rw [f3, overwrite_length (by omega)]

section

variable (junk : Builder → Nat → UInt8)

theorem allocTextC_none (pos tz : Int) : allocTextC junk pos none tz = (do
    writeInt64C pos 0
    Pure.pure (-1)) := by
  funext s
  have e : Pyx.writeFmt s .q pos 0 = writePtr s pos 0 := rfl
  unfold allocTextC PM.ofOptionR Pyx.allocText
  simp only [bind, Option.bind, writeInt64C, PM.ofOption, e]
  cases writePtr s pos 0 with
  | none => rfl
  | some s2 => rfl

/-- `memcpy(self.cbuf+result, src, n)` -/
def storeC (r : Int) (t : Bytes) : PM Unit := PM.ofOption fun s =>
  match store s.buf r t with
  | some buf => some { s with buf := buf }
  | none => none

theorem allocTextC_some (pos tz : Int) (t : Bytes) : allocTextC junk pos (some t) tz = (do
    let r ← allocListC junk pos Ptr.LIST_SIZE_8 ((t.length : Int) + tz) ((t.length : Int) + tz)
    storeC r t
    Pure.pure r) := by
  funext s
  unfold allocTextC allocListC storeC PM.ofOptionR Pyx.allocText
  simp only [bind, Option.bind, PM.ofOption]
  generalize Ptr.LIST_SIZE_8 = tag
  cases Pyx.allocList (junk s) s pos tag ((t.length : Int) + tz) ((t.length : Int) + tz) with
  | none => rfl
  | some x =>
    obtain ⟨r, s2⟩ := x
    simp only
    cases store s2.buf r t with
    | none => rfl
    | some b => rfl

theorem SimAt.store {b : Bytes} {r : Nat} {t : Bytes} (h : r + t.length ≤ b.length) :
    SimAt b (modify fun buf => pySliceAssign buf (r : Int) ((r : Int) + (t.length : Int)) t) (storeC (r : Int) t)
      fun _ b' => b'.length = b.length := by
  intro s hs
  obtain ⟨b', k1, k2⟩ := repr_store hs h
  have ea : pySliceAssign b (r : Int) ((r : Int) + (t.length : Int)) t = overwrite b r t := pySliceAssign_nat rfl h
  change OutRel _ (EStateM.Result.ok () (pySliceAssign b (r : Int) ((r : Int) + (t.length : Int)) t)) _
  rw [ea]
  refine ⟨{ s with buf := b' }, ?_, k2, overwrite_length h⟩
  unfold storeC PM.ofOption
  simp only [k1]

theorem SimAt.allocText {b : Bytes} {pos tz : Nat} {x : Option Bytes} :
    SimAt b (Capnpy.allocText (pos : Int) x (tz : Int)) (allocTextC junk (pos : Int) x (tz : Int))
      fun _ b' => b.length ≤ b'.length := by
  cases x with
  | none =>
    rw [allocTextC_none]
    unfold Capnpy.allocText
    exact SimAt.writeInt64.bind fun _ b1 h1 => SimAt.pure (by omega)
  | some t =>
    rw [allocTextC_some]
    unfold Capnpy.allocText
    simp only
    rw [show ((t.length : Int) + (tz : Int)) = ((t.length + tz : Nat) : Int) by push_cast; rfl]
    refine (SimAt.allocList junk).bind fun r b1 h1 => ?_
    obtain ⟨rfl, h1⟩ := h1
    have hle : t.length ≤ wordAlign (t.length + tz) := by unfold wordAlign; omega
    exact (SimAt.store (by omega)).bind fun _ b2 h2 => SimAt.pure (by omega)

/-! ## Items -/

/-- Writing one item. -/
def WriteSim (il : Nat) (w : Int → PyItem → BM Unit) (wc : Int → PyItem → PM Unit) (x : PyItem) : Prop :=
  ∀ (b : Bytes) (pos : Nat), pos + il ≤ b.length →
    SimAt b (w (pos : Int) x) (wc (pos : Int) x) fun _ b' => b.length ≤ b'.length

theorem SimAt.writeItems {il : Nat} {w : Int → PyItem → BM Unit} {wc : Int → PyItem → PM Unit} :
    ∀ (xs : List PyItem) (b : Bytes) (pos : Nat), (∀ x ∈ xs, WriteSim il w wc x) → pos + il * xs.length ≤ b.length →
      SimAt b (Capnpy.writeItems w (il : Int) (pos : Int) xs) (writeItemsC wc (il : Int) (pos : Int) xs)
        fun _ b' => b.length ≤ b'.length
  | [], _, _, _, _ => SimAt.pure (Nat.le_refl _)
  | x :: xs, b, pos, h, hb => by
    unfold Capnpy.writeItems writeItemsC
    rw [List.length_cons, Nat.mul_add, Nat.mul_one] at hb
    refine (h x (List.mem_cons_self ..) b pos (by omega)).bind fun _ b1 h1 => ?_
    rw [show (pos : Int) + (il : Int) = ((pos + il : Nat) : Int) by push_cast; rfl]
    refine (SimAt.writeItems xs b1 (pos + il) (fun y hy => h y (List.mem_cons_of_mem _ hy)) (by omega)).mono
      fun _ b2 h2 => by omega

theorem SimAt.throw {α} {b : Bytes} {e : PyErr} {Q : α → Bytes → Prop} :
    SimAt b (MonadExcept.throw e : BM α) (PM.lift (.error e)) Q :=
  fun s hs => .inr (.inr ⟨s, rfl, hs⟩)

theorem SimAt.structError {α} {b : Bytes} {y : PM α} {Q : α → Bytes → Prop} :
    SimAt b (MonadExcept.throw .structError : BM α) y Q :=
  fun _ _ => .inl rfl

theorem writeItemBase_sim (fuel : Nat) (it : ItemType) (hsz : it.Sized) (x : PyItem) (hok : ItemOk it x) (il : Nat)
    (hil : it.itemLength = (il : Int)) :
    WriteSim il (writeItemBase fuel it) (writeItemBaseC junk fuel it) x := by
  intro b pos hpos
  have hl : b.length ≤ b.length := Nat.le_refl _
  have text : ∀ (y : Option Bytes) (tz : Nat), SimAt b (do let _ ← Capnpy.allocText (pos : Int) y (tz : Int))
      (do let _ ← allocTextC junk (pos : Int) y (tz : Int)) fun _ b' => b.length ≤ b'.length := by
    intro y tz
    exact (SimAt.allocText junk).bind fun _ b1 h1 => SimAt.pure h1
  cases it with
  | void =>
    have e : (writeItemBase fuel .void (pos : Int) x) = Pure.pure () := by cases x <;> rfl
    have e' : (writeItemBaseC junk fuel .void (pos : Int) x) = Pure.pure () := by cases x <;> rfl
    rw [e, e']
    exact SimAt.pure hl
  | bool => exact hok.elim
  | prim fmt =>
    cases x with
    | int i => exact SimAt.writeGeneric
    | _ => exact SimAt.structError
  | enum =>
    cases x with
    | int i => exact SimAt.writeGeneric
    | _ => exact SimAt.structError
  | text =>
    cases x with
    | none => exact text none 1
    | bytes t => exact text (some t) 1
    | _ => exact SimAt.throw
  | data =>
    cases x with
    | none => exact text none 0
    | bytes t => exact text (some t) 0
    | _ => exact SimAt.throw
  | list inner => cases x <;> exact SimAt.throw
  | struct d p =>
    cases x with
    | struct o =>
      obtain ⟨w, e1, hk, e2, e3⟩ := hok
      obtain ⟨t, ht⟩ := NoneBefore.start e2 (by omega)
      have hd : pos + 8 * dataSize w ≤ b.length := by
        have : (d + p) * 8 = (il : Int) := hil
        omega
      have hs := SimAt.copyStructInline (SimAt.copyPointer junk o.seg fuel) (dst := pos) (b := b) e1 e2 hk hd
      refine (hs.and (R := fun _ b' => b.length ≤ b'.length) fun a b' h => ?_).mono fun _ _ h => h.2
      exact copyStructInline_grows (t := t) (by rw [deref_spec e1, ht]) (Ptr.dataSize_spec e1) hd h
    | _ => exact SimAt.throw

theorem SimAt.copyListWith (it : ItemType) (hsz : it.Sized) (hb : it ≠ .bool) (w : Int → PyItem → BM Unit)
    (wc : Int → PyItem → PM Unit) (il : Nat) (hil : it.itemLength = (il : Int)) (xs : List PyItem)
    (h : ∀ x ∈ xs, WriteSim il w wc x) (b : Bytes) (pos : Nat) :
    SimAt b (Capnpy.copyListWith it w (pos : Int) xs) (copyListWithC junk it wc (pos : Int) xs)
      fun _ b' => b.length ≤ b'.length := by
  have gen : ∀ tag n : Int, SimAt b
      (do let pos ← Capnpy.allocList (pos : Int) tag n ((il : Int) * (xs.length : Int))
          Capnpy.writeItems w (il : Int) pos xs)
      (do let pos ← allocListC junk (pos : Int) tag n ((il : Int) * (xs.length : Int))
          writeItemsC wc (il : Int) pos xs) fun _ b' => b.length ≤ b'.length := by
    intro tag n
    rw [← Int.natCast_mul]
    refine (SimAt.allocList junk).bind fun r b1 h1 => ?_
    obtain ⟨rfl, h1⟩ := h1
    have : il * xs.length ≤ wordAlign (il * xs.length) := by unfold wordAlign; omega
    exact (SimAt.writeItems xs b1 b.length h (by omega)).mono fun _ b2 h2 => by omega
  unfold Capnpy.copyListWith copyListWithC
  rw [hil]
  cases it with
  | bool => exact absurd rfl hb
  | struct d p =>
    simp only
    rw [← Int.natCast_mul, show ((il * xs.length : Nat) : Int) + 8 = ((il * xs.length + 8 : Nat) : Int) by push_cast; rfl]
    generalize Ptr.newStruct (xs.length : Int) d p = tag
    refine (SimAt.allocList junk).bind fun r b1 h1 => ?_
    obtain ⟨rfl, h1⟩ := h1
    refine SimAt.writeInt64.bind fun _ b2 h2 => ?_
    have : il * xs.length + 8 ≤ wordAlign (il * xs.length + 8) := by unfold wordAlign; omega
    rw [show (b.length : Int) + 8 = ((b.length + 8 : Nat) : Int) by push_cast; rfl]
    exact (SimAt.writeItems xs b2 (b.length + 8) h (by omega)).mono fun _ b3 h3 => by omega
  | void => exact gen _ _
  | prim fmt => exact gen _ _
  | enum => exact gen _ _
  | text => exact gen _ _
  | data => exact gen _ _
  | list inner => exact gen _ _

theorem itemLength_nat (it : ItemType) (hsz : it.Sized) (hb : it ≠ .bool) : ∃ il : Nat, it.itemLength = (il : Int) := by
  cases it with
  | bool => exact absurd rfl hb
  | struct d p =>
    obtain ⟨h1, h2⟩ := hsz
    exact ⟨((d + p) * 8).toNat, by rw [Int.toNat_of_nonneg (by omega)]; rfl⟩
  | prim fmt => exact ⟨fmt.size, rfl⟩
  | void => exact ⟨0, rfl⟩
  | enum => exact ⟨2, rfl⟩
  | _ => exact ⟨8, rfl⟩

theorem NoBool.ne {it : ItemType} (h : NoBool it) : it ≠ .bool := by rintro rfl; exact h

theorem writeItem_sim (fuel : Nat) : ∀ (it : ItemType), it.Sized → NoBool it → ∀ (x : PyItem), ItemOk it x →
    ∀ il : Nat, it.itemLength = (il : Int) → WriteSim il (writeItem fuel it) (writeItemC junk fuel it) x
  | .list inner, hsz, hnb, x, hok, il, hil => by
    intro b pos hpos
    cases x with
    | none =>
      unfold Capnpy.writeItem writeItemC
      exact SimAt.writeInt64.mono fun _ _ h => by omega
    | list l =>
      unfold Capnpy.writeItem writeItemC
      obtain ⟨il', hil'⟩ := itemLength_nat inner hsz (NoBool.ne hnb)
      exact SimAt.copyListWith junk inner hsz (NoBool.ne hnb) _ _ il' hil' l
        (fun x hx => writeItem_sim fuel inner hsz hnb x (hok x hx) il' hil') b pos
    | int i => exact writeItemBase_sim junk fuel (.list inner) hsz _ hok il hil b pos hpos
    | bytes i => exact writeItemBase_sim junk fuel (.list inner) hsz _ hok il hil b pos hpos
    | struct i => exact writeItemBase_sim junk fuel (.list inner) hsz _ hok il hil b pos hpos
  | .void, hsz, _, x, hok, il, hil => by
    intro b pos hpos
    unfold Capnpy.writeItem writeItemC
    exact writeItemBase_sim junk fuel _ hsz x hok il hil b pos hpos
  | .bool, _, hnb, _, _, _, _ => hnb.elim
  | .prim _, hsz, _, x, hok, il, hil => by
    intro b pos hpos
    unfold Capnpy.writeItem writeItemC
    exact writeItemBase_sim junk fuel _ hsz x hok il hil b pos hpos
  | .enum, hsz, _, x, hok, il, hil => by
    intro b pos hpos
    unfold Capnpy.writeItem writeItemC
    exact writeItemBase_sim junk fuel _ hsz x hok il hil b pos hpos
  | .struct _ _, hsz, _, x, hok, il, hil => by
    intro b pos hpos
    unfold Capnpy.writeItem writeItemC
    exact writeItemBase_sim junk fuel _ hsz x hok il hil b pos hpos
  | .text, hsz, _, x, hok, il, hil => by
    intro b pos hpos
    unfold Capnpy.writeItem writeItemC
    exact writeItemBase_sim junk fuel _ hsz x hok il hil b pos hpos
  | .data, hsz, _, x, hok, il, hil => by
    intro b pos hpos
    unfold Capnpy.writeItem writeItemC
    exact writeItemBase_sim junk fuel _ hsz x hok il hil b pos hpos

theorem SimAt.copyFromList (fuel : Nat) (it : ItemType) (hsz : it.Sized) (hnb : NoBool it) (l : Option (List PyItem))
    (hok : ∀ xs, l = some xs → ∀ x ∈ xs, ItemOk it x) (b : Bytes) (pos : Nat) :
    SimAt b (Capnpy.copyFromList fuel it (pos : Int) l) (copyFromListC junk fuel it (pos : Int) l)
      fun _ b' => b.length ≤ b'.length := by
  cases l with
  | none =>
    unfold Capnpy.copyFromList copyFromListC
    exact SimAt.writeInt64.mono fun _ _ h => by omega
  | some xs =>
    unfold Capnpy.copyFromList copyFromListC
    obtain ⟨il, hil⟩ := itemLength_nat it hsz (NoBool.ne hnb)
    exact SimAt.copyListWith junk it hsz (NoBool.ne hnb) _ _ il hil xs
      (fun x hx => writeItem_sim junk fuel it hsz hnb x (hok xs rfl x hx) il hil) b pos

end

end Capnpy.Pyx
