import Verif.Model.CyReader
import Verif.Proof.List

/-!
# The compiled readers follow the pure ones as long as no exception is ignored
-/

namespace Capnpy.Cy

/-- The compiled code does the same as the pure code; or the pure code raises, and the
compiled code ignores an exception or crashes. -/
def Agree {α} (p : Py α) (c : CRes α) : Prop :=
  c = .ret p false ∨ ((∃ e, p = .error e) ∧ (c = .crash ∨ ∃ r, c = .ret r true))

theorem Agree.lift {α} (x : Py α) : Agree x (.lift x) := .inl rfl

theorem Agree.pure {α} (a : α) : Agree (.ok a) (Pure.pure a : CRes α) := .inl rfl

theorem Agree.bind {α β} {p : Py α} {c : CRes α} {f : α → Py β} {g : α → CRes β} (h : Agree p c)
    (hf : ∀ a, p = .ok a → Agree (f a) (g a)) : Agree (p >>= f) (c >>= g) := by
  rcases h with rfl | ⟨⟨e, rfl⟩, rfl | ⟨r, rfl⟩⟩
  · cases p with
    | error e => exact .inl rfl
    | ok a =>
      have := hf a rfl
      rcases this with h | ⟨⟨e, h1⟩, h2⟩
      · refine .inl ?_
        show (match g a with | .crash => CRes.crash | .ret r w' => CRes.ret r (false || w')) = _
        rw [h]
        rfl
      · refine .inr ⟨⟨e, h1⟩, ?_⟩
        rcases h2 with h2 | ⟨r, h2⟩
        · left
          show (match g a with | .crash => CRes.crash | .ret r w' => CRes.ret r (false || w')) = _
          rw [h2]
        · right
          refine ⟨r, ?_⟩
          show (match g a with | .crash => CRes.crash | .ret r w' => CRes.ret r (false || w')) = _
          rw [h2]
          rfl
  · exact .inr ⟨⟨e, rfl⟩, .inl rfl⟩
  · refine .inr ⟨⟨e, rfl⟩, ?_⟩
    cases r with
    | error e' => exact .inr ⟨_, rfl⟩
    | ok a =>
      cases hg : g a with
      | crash =>
        left
        show (match g a with | .crash => CRes.crash | .ret r w' => CRes.ret r (true || w')) = _
        rw [hg]
      | ret r' w' =>
        right
        refine ⟨r', ?_⟩
        show (match g a with | .crash => CRes.crash | .ret r w' => CRes.ret r (true || w')) = _
        rw [hg]
        rfl

theorem Agree.noexcept {p : Py Int} {c : CRes Int} (h : Agree p c) : Agree p (noexcept c) := by
  rcases h with rfl | ⟨he, rfl | ⟨r, rfl⟩⟩
  · cases p with
    | ok v => exact .inl rfl
    | error e => exact .inr ⟨⟨e, rfl⟩, .inr ⟨_, rfl⟩⟩
  · exact .inr ⟨he, .inl rfl⟩
  · refine .inr ⟨he, .inr ?_⟩
    cases r with
    | ok v => exact ⟨_, rfl⟩
    | error e => exact ⟨_, rfl⟩

theorem Agree.exceptVal {p : Py Int} {c : CRes Int} {v : Int} (h : Agree p c) (hv : p ≠ .ok v) :
    Agree p (exceptVal v c) := by
  rcases h with rfl | ⟨he, rfl | ⟨r, rfl⟩⟩
  · cases p with
    | ok w =>
      left
      have : w ≠ v := fun e => hv (by rw [e])
      show (if w = v then CRes.ret (.error .systemError) false else CRes.ret (.ok w) false) = _
      rw [if_neg this]
    | error e => exact .inl rfl
  · exact .inr ⟨he, .inl rfl⟩
  · refine .inr ⟨he, .inr ?_⟩
    cases r with
    | ok w =>
      by_cases hw : w = v
      · exact ⟨_, (if_pos hw : (if w = v then CRes.ret (.error .systemError) true else CRes.ret (.ok w) true) = _)⟩
      · exact ⟨_, (if_neg hw : (if w = v then CRes.ret (.error .systemError) true else CRes.ret (.ok w) true) = _)⟩
    | error e => exact ⟨_, rfl⟩

/-- `if` on both sides. -/
theorem Agree.ite {α} {P : Prop} [Decidable P] {p q : Py α} {c d : CRes α} (h : P → Agree p c) (h' : ¬ P → Agree q d) :
    Agree (if P then p else q) (if P then c else d) := by
  by_cases hp : P
  · rw [if_pos hp, if_pos hp]; exact h hp
  · rw [if_neg hp, if_neg hp]; exact h' hp

theorem readPtr_agree (s : Seg) (off : Int) : Agree (s.readPtr off) (readPtr s off) := (Agree.lift _).noexcept

theorem readFarPtr_agree (s : Seg) (off : Int) : Agree (s.readFarPtr off) (readFarPtr s off) := by
  unfold Seg.readFarPtr readFarPtr
  cases s.offs with
  | none => exact Agree.lift _
  | some offs =>
    refine (readPtr_agree s off).bind fun p _ => ?_
    refine (Agree.lift _).bind fun st _ => ?_
    refine Agree.ite (fun _ => ?_) (fun _ => ?_)
    · exact (readPtr_agree _ _).bind fun p _ => Agree.pure _
    · refine (readPtr_agree _ _).bind fun p _ => ?_
      refine (readPtr_agree _ _).bind fun ptag _ => ?_
      by_cases h1 : Ptr.kind p = Ptr.FAR
      · by_cases h2 : Ptr.farLandingPad p = 0
        · by_cases h3 : Ptr.offset ptag = 0
          · simp only [h1, h2, h3, not_true, if_false]
            exact (Agree.lift _).bind fun _ _ => Agree.pure _
          · simp only [h1, h2, h3, not_true, not_false_eq_true, if_false, if_true]
            exact .inl rfl
        · simp only [h1, h2, not_true, not_false_eq_true, if_false, if_true]
          exact .inl rfl
      · simp only [h1, not_false_eq_true, if_true]
        exact .inl rfl

theorem readFastPtr_agree (o : StructObj) (off : Int) : Agree (o.readFastPtr off) (readFastPtr o off) :=
  Agree.noexcept (Agree.ite (fun _ => Agree.pure _) fun _ => readPtr_agree _ _)

theorem readFar_agree (o : StructObj) (off : Int) : Agree (o.readFarPtr off) (readFar o off) :=
  Agree.ite (fun _ => Agree.pure _) fun _ => readFarPtr_agree _ _

theorem readInt16_agree (o : StructObj) (off : Int) : Agree (o.readInt16 off) (readInt16 o off) := (Agree.lift _).noexcept

theorem resolve_agree (o : StructObj) (off : Int) : Agree (o.resolve off) (resolve o off) :=
  (readFastPtr_agree o off).bind fun _ _ => Agree.ite (fun _ => readFar_agree _ _) fun _ => Agree.pure _

theorem readStruct_agree (o : StructObj) (off : Int) : Agree (o.readStruct off) (readStruct o off) :=
  (resolve_agree o off).bind fun x _ => Agree.ite (fun _ => Agree.pure _) fun _ =>
    Agree.ite (fun _ => Agree.lift _) fun _ => (Agree.lift _).bind fun _ _ => Agree.pure _

theorem readData_agree (o : StructObj) (off : Int) (d : Option Bytes) (a : Int) :
    Agree (o.readData off d a) (readData o off d a) :=
  (resolve_agree o off).bind fun _ _ => Agree.lift _

theorem hasField_agree (o : StructObj) (off : Int) : Agree (o.hasField off) (hasField o off) :=
  (readFastPtr_agree o off).bind fun _ _ => Agree.pure _

theorem enumField_agree (o : StructObj) (off d : Int) : Agree (o.enumField off d) (enumField o off d) :=
  (readInt16_agree o off).bind fun _ _ => Agree.ite (fun _ => Agree.pure _) fun _ => Agree.pure _

theorem whichRaw_agree (o : StructObj) (t : Option Int) (h : o.whichRaw t ≠ .ok (-1)) :
    Agree (o.whichRaw t) (whichRaw o t) := by
  unfold whichRaw
  refine Agree.exceptVal ?_ h
  cases t with
  | none => exact Agree.lift _
  | some off => exact readInt16_agree o off

theorem ensureUnion_agree (o : StructObj) (t : Option Int) (x : Int) (h : o.whichRaw t ≠ .ok (-1)) :
    Agree (o.ensureUnion t x) (ensureUnion o t x) :=
  (whichRaw_agree o t h).bind fun _ _ => Agree.ite (fun _ => Agree.lift _) fun _ => Agree.pure _

theorem listInit_agree (s : Seg) (off st ic : Int) (it : ItemType) :
    Agree (ListObj.init s off st ic it) (listInit s off st ic it) :=
  Agree.ite (fun _ => (readPtr_agree _ _).bind fun _ _ => Agree.pure _) fun _ => Agree.pure _

theorem readList_agree (o : StructObj) (off : Int) (it : ItemType) (d : Option ListObj) :
    Agree (o.readList off it d) (readList o off it d) :=
  (resolve_agree o off).bind fun x _ => Agree.ite (fun _ => Agree.pure _) fun _ =>
    Agree.ite (fun _ => Agree.lift _) fun _ => (listInit_agree _ _ _ _ _).bind fun _ _ => Agree.pure _

theorem itemPtr_agree (l : ListObj) (off : Int) : Agree (l.itemPtr off) (itemPtr l off) :=
  (readPtr_agree _ _).bind fun _ _ => Agree.ite (fun _ => readFarPtr_agree _ _) fun _ => Agree.pure _

theorem readItem_agree (l : ListObj) (i : Int) : Agree (l.readItem i) (readItem l i) := by
  unfold readItem
  cases h : l.itemType with
  | text =>
    unfold ListObj.readItem
    rw [h]
    exact (itemPtr_agree _ _).bind fun _ _ => (Agree.lift _).bind fun _ _ => Agree.pure _
  | data =>
    unfold ListObj.readItem
    rw [h]
    exact (itemPtr_agree _ _).bind fun _ _ => (Agree.lift _).bind fun _ _ => Agree.pure _
  | list inner =>
    unfold ListObj.readItem
    rw [h]
    exact (itemPtr_agree _ _).bind fun _ _ => (listInit_agree _ _ _ _ _).bind fun _ _ => Agree.pure _
  | _ => exact Agree.lift _

theorem getItem_agree (l : ListObj) (i : Int) : Agree (l.getItem i) (getItem l i) := by
  unfold ListObj.getItem getItem
  exact Agree.ite (fun _ => readItem_agree _ _) fun _ => Agree.lift _

/-! ## endof -/

theorem endofPtrsBody_agree {r : Int → Int → Py Int} {r' : Int → Int → CRes Int} {s : Seg} {off : Int}
    (hr : ∀ p o, (8 : Int) ∣ o → Agree (r p o) (r' p o)) (ho : (8 : Int) ∣ off) : ∀ (k i : Nat) (e : Int),
    Agree (Capnpy.endofPtrs r s off k i e) (endofPtrsBody r' s off k i e) := by
  intro k
  induction k with
  | zero => intro i e; exact Agree.pure _
  | succ k ih =>
    intro i e
    unfold Capnpy.endofPtrs endofPtrsBody
    refine (readPtr_agree _ _).bind fun p _ => ?_
    refine Agree.ite (fun _ => ih _ _) fun _ => ?_
    refine Agree.ite (fun _ => Agree.pure _) fun _ => ?_
    exact (hr _ _ (Int.dvd_add ho (Int.dvd_mul_left _ _))).bind fun _ _ => ih _ _

theorem endofItems_agree {r : Int → Int → Py Int} {r' : Int → Int → CRes Int} {s : Seg} {off is ds ps : Int}
    (hr : ∀ p o, (8 : Int) ∣ o → Agree (r p o) (r' p o)) (ho : (8 : Int) ∣ off) (hi : (8 : Int) ∣ is) :
    ∀ (k i : Nat) (e : Int),
    Agree (Capnpy.endofItems r s off is ds ps k i e) (endofItems r' s off is ds ps k i e) := by
  intro k
  induction k with
  | zero => intro i e; exact Agree.pure _
  | succ k ih =>
    intro i e
    unfold Capnpy.endofItems endofItems
    refine Agree.bind (Agree.noexcept (endofPtrsBody_agree hr ?_ _ _ _)) fun e' _ => ?_
    · exact Int.dvd_add (Int.dvd_add ho (Int.dvd_trans hi (Int.dvd_mul_right _ _))) (Int.dvd_mul_left _ _)
    · exact Agree.ite (fun _ => Agree.pure _) fun _ => ih _ _

/-- The results of `endof` are multiples of 8 or -1. -/
def Word (p : Py Int) : Prop := ∀ e, p = .ok e → (8 : Int) ∣ e ∨ e = -1

theorem Word.ne {p : Py Int} (h : Word p) : p ≠ .ok (-2) := by
  intro e
  rcases h _ e with h | h <;> omega

theorem Word.bind {α} {p : Py α} {f : α → Py Int} (hf : ∀ a, Word (f a)) : Word (p >>= f) := by
  intro e he
  cases p with
  | error x => cases he
  | ok a => exact hf a e he

theorem Word.bind' {p : Py Int} {f : Int → Py Int} (hp : Word p) (hf : ∀ a, (8 : Int) ∣ a ∨ a = -1 → Word (f a)) :
    Word (p >>= f) := by
  intro e he
  cases hp' : p with
  | error x => rw [hp'] at he; cases he
  | ok a => rw [hp'] at he; exact hf a (hp a hp') e he

theorem Word.ite {P : Prop} [Decidable P] {p q : Py Int} (h : P → Word p) (h' : ¬ P → Word q) :
    Word (if P then p else q) := by
  by_cases hp : P
  · rw [if_pos hp]; exact h hp
  · rw [if_neg hp]; exact h' hp

theorem Word.ok {e : Int} (h : (8 : Int) ∣ e ∨ e = -1) : Word (.ok e) := by
  intro x hx
  injection hx with hx
  subst hx
  exact h

theorem endofPtrs_word {r : Int → Int → Py Int} {s : Seg} {off : Int} (hr : ∀ p o, (8 : Int) ∣ o → Word (r p o))
    (ho : (8 : Int) ∣ off) : ∀ (k i : Nat) (e : Int), (8 : Int) ∣ e ∨ e = -1 → Word (Capnpy.endofPtrs r s off k i e) := by
  intro k
  induction k with
  | zero => intro i e h; exact Word.ok h
  | succ k ih =>
    intro i e h
    unfold Capnpy.endofPtrs
    refine Word.bind fun p => ?_
    refine Word.ite (fun _ => ih _ _ h) fun _ => Word.ite (fun _ => Word.ok (.inr rfl)) fun _ => ?_
    exact Word.bind' (hr _ _ (Int.dvd_add ho (Int.dvd_mul_left _ _))) fun a ha => ih _ _ ha

theorem endofItems_word {r : Int → Int → Py Int} {s : Seg} {off is ds ps : Int} (hr : ∀ p o, (8 : Int) ∣ o → Word (r p o))
    (ho : (8 : Int) ∣ off) (hi : (8 : Int) ∣ is) : ∀ (k i : Nat) (e : Int), (8 : Int) ∣ e ∨ e = -1 →
    Word (Capnpy.endofItems r s off is ds ps k i e) := by
  intro k
  induction k with
  | zero => intro i e h; exact Word.ok h
  | succ k ih =>
    intro i e h
    unfold Capnpy.endofItems
    refine Word.bind' (endofPtrs_word hr ?_ _ _ _ h) fun a ha => ?_
    · exact Int.dvd_add (Int.dvd_add ho (Int.dvd_trans hi (Int.dvd_mul_right _ _))) (Int.dvd_mul_left _ _)
    · exact Word.ite (fun _ => Word.ok (.inr rfl)) fun _ => ih _ _ ha

theorem deref_dvd {p off : Int} (h : (8 : Int) ∣ off) : (8 : Int) ∣ Ptr.deref p off := by
  unfold Ptr.deref
  omega

theorem round_dvd (x : Int) : (8 : Int) ∣ Ptr.roundUpToWord x := by
  rw [Ptr.roundUpToWord_eq]
  omega

theorem endof_word (s : Seg) : ∀ (fuel : Nat) (p off : Int), (8 : Int) ∣ off → Word (Capnpy.endof s fuel p off) := by
  intro fuel
  induction fuel with
  | zero => intro p off _ e he; cases he
  | succ fuel ih =>
    intro p off h
    have hd := deref_dvd (p := p) h
    unfold Capnpy.endof
    simp only
    refine Word.ite (fun _ => ?_) fun _ => Word.ite (fun _ => Word.ite (fun _ => ?_) fun _ => Word.ite (fun _ => ?_)
      fun _ => Word.ite (fun _ => ?_) fun _ => ?_) fun _ => Word.ite (fun _ => Word.ok (.inr rfl)) fun _ => ?_
    · exact endofPtrs_word ih (by omega) _ _ _ (.inl (by omega))
    · refine Word.bind fun tag => ?_
      unfold Capnpy.endofListComposite
      simp only
      have h1 : (8 : Int) ∣ (Ptr.structDataSize tag + Ptr.structPtrsSize tag) * 8 := Int.dvd_mul_left _ _
      have h2 : (8 : Int) ∣ Ptr.deref p off + 8 +
          (Ptr.structDataSize tag + Ptr.structPtrsSize tag) * 8 * Ptr.offset tag :=
        Int.dvd_add (by omega) (Int.dvd_trans h1 (Int.dvd_mul_right _ _))
      refine Word.ite (fun _ => Word.ok (.inl h2)) fun _ => ?_
      exact endofItems_word ih (by omega) h1 _ _ _ (.inl h2)
    · exact endofPtrs_word ih hd _ _ _ (.inl (by omega))
    · exact Word.ok (.inl (round_dvd _))
    · exact Word.ok (.inl (round_dvd _))
    · intro e he; cases he

theorem endof_agree (s : Seg) : ∀ (fuel : Nat) (p off : Int), (8 : Int) ∣ off →
    Agree (Capnpy.endof s fuel p off) (endof s fuel p off) := by
  intro fuel
  induction fuel with
  | zero => intro p off _; exact .inr ⟨⟨_, rfl⟩, .inl rfl⟩
  | succ fuel ih =>
    intro p off h
    have hd := deref_dvd (p := p) h
    have hw := (endof_word s (fuel + 1) p off h).ne
    unfold endof
    simp only
    refine Agree.exceptVal ?_ hw
    unfold Capnpy.endof
    simp only
    refine Agree.ite (fun _ => ?_) fun _ => Agree.ite (fun _ => Agree.ite (fun _ => ?_) fun _ => Agree.ite (fun _ => ?_)
      fun _ => Agree.ite (fun _ => Agree.pure _) fun _ => Agree.pure _) fun _ => Agree.ite (fun _ => Agree.pure _)
        fun _ => Agree.lift _
    · exact (endofPtrsBody_agree ih (by omega) _ _ _).noexcept.noexcept
    · refine (readPtr_agree _ _).bind fun tag _ => ?_
      unfold Capnpy.endofListComposite endofListComposite
      simp only
      refine Agree.noexcept ?_
      refine Agree.ite (fun _ => Agree.pure _) fun _ => ?_
      exact endofItems_agree ih (by omega) (Int.dvd_mul_left _ _) _ _ _
    · exact (endofPtrsBody_agree ih hd _ _ _).noexcept.noexcept

end Capnpy.Cy
