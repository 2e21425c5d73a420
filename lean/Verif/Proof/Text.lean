import Verif.Spec.Text
import Verif.Proof.Repr
import Verif.Props.ListWrite
import Mathlib.Data.List.Forall2

/-!
# Proofs about unicode texts
-/

namespace Capnpy.Spec

open Capnpy.Text
open Capnpy.Repr (decodeUtf8)
open Capnpy.Spec.Short (decodeUtf8_encode)

/-! ## The codec -/

theorem utf8_iff {s : PyStr} {b : Bytes} :
    Utf8 s b ↔ ∃ cs : List Char, s = cs.map ofChar ∧ b = cs.flatMap String.utf8EncodeChar := by
  constructor
  · rintro ⟨str, h1, h2⟩
    refine ⟨str.toList, ?_, ?_⟩
    · apply List.map_injective_iff.mpr (fun _ _ h => Fin.ext h)
      rw [h1, List.map_map]
      rfl
    · apply List.toByteArray_inj.mp
      rw [h2]
      obtain ⟨cs, rfl⟩ : ∃ cs, str = String.ofList cs := ⟨str.toList, by simp⟩
      simp [String.toUTF8, List.utf8Encode]
  · rintro ⟨cs, rfl, rfl⟩
    refine ⟨String.ofList cs, ?_, ?_⟩
    · rw [List.map_map]; simp only [String.toList_ofList]; rfl
    · simp [String.toUTF8, List.utf8Encode]

theorem ofChar_not_surrogate (c : Char) : isSurrogate (ofChar c) = false := by
  have h := c.valid
  unfold isSurrogate ofChar
  have hv : c.toNat = c.val.toNat := rfl
  rcases h with h | h
  · have : c.val.toNat < 0xd800 := h
    simp only [Bool.and_eq_false_iff, decide_eq_false_iff_not]
    left
    rw [hv]; omega
  · have h1 : 0xdfff < c.val.toNat := h.1
    simp only [Bool.and_eq_false_iff, decide_eq_false_iff_not]
    right
    rw [hv]; omega

theorem encodePoint_ofChar (c : Char) : encodePoint (ofChar c) = some (String.utf8EncodeChar c) := by
  have hs := ofChar_not_surrogate c
  have hlt : (ofChar c).val < 0x110000 := (ofChar c).isLt
  have hv : (ofChar c).val = c.val.toNat := rfl
  unfold encodePoint String.utf8EncodeChar
  rw [hs]
  simp only [hv] at hlt ⊢
  generalize c.val.toNat = n at hlt
  simp only [Bool.false_eq_true, if_false]
  by_cases h1 : n < 0x80
  · rw [if_pos h1, if_pos (by omega : n ≤ 127)]
  · rw [if_neg h1, if_neg (by omega : ¬ n ≤ 127)]
    by_cases h2 : n < 0x800
    · rw [if_pos h2, if_pos (by omega : n ≤ 2047)]
      rw [show n / 64 % 32 + 192 = 192 + n / 64 by omega, show n % 64 + 128 = 128 + n % 64 by omega]
    · rw [if_neg h2, if_neg (by omega : ¬ n ≤ 2047)]
      by_cases h3 : n < 0x10000
      · rw [if_pos h3, if_pos (by omega : n ≤ 65535)]
        rw [show n / 4096 % 16 + 224 = 224 + n / 4096 by omega, show n % 64 + 128 = 128 + n % 64 by omega,
          show n / 64 % 64 + 128 = 128 + n / 64 % 64 by omega]
      · rw [if_neg h3, if_neg (by omega : ¬ n ≤ 65535)]
        rw [show n / 262144 % 8 + 240 = 240 + n / 262144 by omega, show n % 64 + 128 = 128 + n % 64 by omega,
          show n / 64 % 64 + 128 = 128 + n / 64 % 64 by omega,
          show n / 4096 % 64 + 128 = 128 + n / 4096 % 64 by omega]

theorem encodePoint_none {c : Fin 0x110000} : encodePoint c = none ↔ isSurrogate c = true := by
  unfold encodePoint isSurrogate
  simp only
  constructor
  · intro h
    split at h
    · cases h
    split at h
    · cases h
    split at h
    · assumption
    split at h <;> cases h
  · intro h
    have h' := h
    simp only [Bool.and_eq_true, decide_eq_true_eq] at h'
    rw [if_neg (by omega), if_neg (by omega), if_pos h]

theorem exists_char {c : Fin 0x110000} (h : isSurrogate c = false) : ∃ ch : Char, ofChar ch = c := by
  have h' : ¬ (0xd800 ≤ c.val ∧ c.val ≤ 0xdfff) := by
    intro hc
    unfold isSurrogate at h
    simp only [Bool.and_eq_false_iff, decide_eq_false_iff_not] at h
    omega
  have hv : c.val.isValidChar := by
    unfold Nat.isValidChar
    have := c.isLt
    omega
  refine ⟨Char.ofNatAux c.val hv, ?_⟩
  apply Fin.ext
  rfl

theorem encode_map (cs : List Char) : encode (cs.map ofChar) = .ok (cs.flatMap String.utf8EncodeChar) := by
  induction cs with
  | nil => rfl
  | cons c cs ih =>
    rw [List.map_cons, encode, encodePoint_ofChar, ih]
    rfl

theorem noSurr_chars {s : PyStr} (h : NoSurrogates s) : ∃ cs : List Char, s = cs.map ofChar := by
  induction s with
  | nil => exact ⟨[], rfl⟩
  | cons c s ih =>
    obtain ⟨cs, rfl⟩ := ih fun d hd => h d (List.mem_cons_of_mem _ hd)
    have hc : isSurrogate c = false := by
      have := h c List.mem_cons_self
      unfold isSurrogate
      simp only [Bool.and_eq_false_iff, decide_eq_false_iff_not]
      omega
    obtain ⟨ch, rfl⟩ := exists_char hc
    exact ⟨ch :: cs, rfl⟩

theorem chars_noSurr (cs : List Char) : NoSurrogates (cs.map ofChar) := by
  intro c hc
  obtain ⟨ch, _, rfl⟩ := List.mem_map.mp hc
  have := ofChar_not_surrogate ch
  unfold isSurrogate at this
  simp only [Bool.and_eq_false_iff, decide_eq_false_iff_not] at this
  omega

theorem encode_error {s : PyStr} (h : ¬ NoSurrogates s) : encode s = .error .unicodeError := by
  induction s with
  | nil => exact absurd (fun c hc => by simp at hc) h
  | cons c s ih =>
    rw [encode]
    cases he : encodePoint c with
    | none => rfl
    | some b =>
      have hc : isSurrogate c = false := by
        cases hs : isSurrogate c with
        | false => rfl
        | true => rw [encodePoint_none.mpr hs] at he; cases he
      rw [ih]
      · rfl
      · intro hs
        apply h
        intro d hd
        rcases List.mem_cons.mp hd with rfl | hd
        · unfold isSurrogate at hc
          simp only [Bool.and_eq_false_iff, decide_eq_false_iff_not] at hc
          omega
        · exact hs d hd

theorem encode_ok_iff {s : PyStr} {b : Bytes} : encode s = .ok b ↔ Utf8 s b := by
  rw [utf8_iff]
  constructor
  · intro h
    by_cases hs : NoSurrogates s
    · obtain ⟨cs, rfl⟩ := noSurr_chars hs
      rw [encode_map] at h
      cases h
      exact ⟨cs, rfl, rfl⟩
    · rw [encode_error hs] at h; cases h
  · rintro ⟨cs, rfl, rfl⟩
    exact encode_map cs

theorem decode_ok_iff {s : PyStr} {b : Bytes} : decode b = .ok s ↔ Utf8 s b := by
  rw [utf8_iff]
  unfold decode
  constructor
  · intro h
    cases hd : decodeUtf8 b with
    | none => rw [hd] at h; cases h
    | some cs =>
      rw [hd] at h
      cases h
      exact ⟨cs, rfl, (decodeUtf8_encode hd).symm⟩
  · rintro ⟨cs, rfl, rfl⟩
    have : decodeUtf8 (cs.flatMap String.utf8EncodeChar) = some cs := by
      unfold decodeUtf8
      rw [show (cs.flatMap String.utf8EncodeChar).toByteArray = cs.utf8Encode from rfl,
        List.utf8Decode?_utf8Encode]
      rfl
    rw [this]

theorem decode_error {b : Bytes} (h : ∀ s, ¬ Utf8 s b) : decode b = .error .unicodeError := by
  cases hd : decode b with
  | ok s => exact absurd (decode_ok_iff.mp hd) (h s)
  | error e =>
    unfold decode at hd
    cases hu : decodeUtf8 b with
    | none => rw [hu] at hd; cases hd; rfl
    | some cs => rw [hu] at hd; cases hd

theorem utf8_unique_left {s s' : PyStr} {b : Bytes} (h : Utf8 s b) (h' : Utf8 s' b) : s = s' := by
  have := (decode_ok_iff.mpr h).symm.trans (decode_ok_iff.mpr h')
  injection this

theorem utf8_unique_right {s : PyStr} {b b' : Bytes} (h : Utf8 s b) (h' : Utf8 s b') : b = b' := by
  have := (encode_ok_iff.mpr h).symm.trans (encode_ok_iff.mpr h')
  injection this

theorem utf8_exists_iff {s : PyStr} : (∃ b, Utf8 s b) ↔ NoSurrogates s := by
  constructor
  · rintro ⟨b, h⟩
    obtain ⟨cs, rfl, _⟩ := utf8_iff.mp h
    exact chars_noSurr cs
  · intro h
    obtain ⟨cs, rfl⟩ := noSurr_chars h
    exact ⟨_, utf8_iff.mpr ⟨cs, rfl, rfl⟩⟩

theorem utf8_nil : Utf8 [] [] := utf8_iff.mpr ⟨[], rfl, rfl⟩

/-! ## Lists: writing -/

/-- The item of Model/List.lean that stands for an item. -/
def EncItem : UType → UItem → PyItem → Prop
  | .text, .none, y => y = .none
  | .text, .str s, y => ∃ b, Utf8 s b ∧ y = .bytes b
  | .list _, .none, y => y = .none
  | .list inner, .list l, y => ∃ l', y = .list l' ∧ List.Forall₂ (EncItem inner) l l'
  | _, _, _ => False

theorem base_itemLength (u : UType) : u.base.itemLength = 8 := by cases u <;> rfl
theorem base_sizeTag (u : UType) : u.base.sizeTag = Ptr.LIST_SIZE_PTR := by cases u <;> rfl

theorem writeItemsU_eq {w : Int → UItem → BM Unit} {w' : Int → PyItem → BM Unit} {R : UItem → PyItem → Prop}
    (hw : ∀ pos x y, R x y → w pos x = w' pos y) : ∀ {xs ys}, List.Forall₂ R xs ys → ∀ pos,
      writeItemsU w pos xs = writeItems w' 8 pos ys := by
  intro xs ys h
  induction h with
  | nil => intro pos; rfl
  | cons hx _ ih =>
    intro pos
    rw [writeItemsU, writeItems, hw _ _ _ hx, ih]

theorem copyListU_eq {u : UType} {w : Int → UItem → BM Unit} {w' : Int → PyItem → BM Unit} {R : UItem → PyItem → Prop}
    (hw : ∀ pos x y, R x y → w pos x = w' pos y) {xs ys} (h : List.Forall₂ R xs ys) (pos : Int) :
    copyListU w pos xs = copyListWith u.base w' pos ys := by
  have hlen := h.length_eq
  unfold copyListU
  cases u with
  | text =>
    show _ = (do
      let pos ← allocList pos Ptr.LIST_SIZE_PTR (ys.length : Int) (8 * (ys.length : Int))
      writeItems w' 8 pos ys)
    rw [hlen]
    congr 1
    funext p
    exact writeItemsU_eq hw h p
  | list inner =>
    show _ = (do
      let pos ← allocList pos Ptr.LIST_SIZE_PTR (ys.length : Int) (8 * (ys.length : Int))
      writeItems w' 8 pos ys)
    rw [hlen]
    congr 1
    funext p
    exact writeItemsU_eq hw h p

theorem writeItemU_eq (fuel : Nat) : ∀ (u : UType) (pos : Int) (x : UItem) (y : PyItem), EncItem u x y →
    writeItemU u pos x = writeItem fuel u.base pos y := by
  intro u
  induction u with
  | text =>
    intro pos x y h
    cases x with
    | none => cases h; rfl
    | str s =>
      obtain ⟨b, hb, rfl⟩ := h
      show (do
        let b ← BM.lift (encodeMaybe (.str s))
        let _ ← allocText pos b : BM Unit) = (do let _ ← allocText pos (some b))
      have : encodeMaybe (.str s) = .ok (some b) := by
        show (do pure (some (← encode s)) : Py (Option Bytes)) = _
        rw [encode_ok_iff.mpr hb]; rfl
      rw [this]
      rfl
    | bytes b => exact h.elim
    | list l => exact h.elim
    | other => exact h.elim
  | list inner ih =>
    intro pos x y h
    cases x with
    | none => cases h; rfl
    | str s => exact h.elim
    | bytes b => exact h.elim
    | list l =>
      obtain ⟨l', rfl, hl⟩ := h
      exact copyListU_eq ih hl pos
    | other => exact h.elim

theorem copyFromListU_eq (fuel : Nat) {u : UType} {xs : List UItem} {ys : List PyItem}
    (h : List.Forall₂ (EncItem u) xs ys) (pos : Int) :
    copyFromListU u pos (some xs) = copyFromList fuel u.base pos (some ys) :=
  copyListU_eq (writeItemU_eq fuel u) h pos

/-- Acceptable lists have an encoding. -/
theorem uval_enc : ∀ (u : UType) (xs : List UItem) (v : Val), UVal u xs v →
    ∃ ys, List.Forall₂ (EncItem u) xs ys ∧ ListVal u.base ys v := by
  intro u
  induction u with
  | text =>
    rintro xs v ⟨vs, h, rfl⟩
    induction h with
    | nil => exact ⟨[], .nil, [], .nil, rfl⟩
    | @cons x v xs vs hx _ ih =>
      obtain ⟨ys, h1, vs', h2, h3⟩ := ih
      cases h3
      cases x with
      | none => cases hx; exact ⟨.none :: ys, .cons rfl h1, .null :: vs, .cons rfl h2, rfl⟩
      | str s =>
        obtain ⟨b, hb, rfl⟩ := hx
        exact ⟨.bytes b :: ys, .cons ⟨b, hb, rfl⟩ h1, textOf b :: vs, .cons rfl h2, rfl⟩
      | bytes b => exact hx.elim
      | list l => exact hx.elim
      | other => exact hx.elim
  | list inner ihu =>
    rintro xs v ⟨vs, h, rfl⟩
    induction h with
    | nil => exact ⟨[], .nil, [], .nil, rfl⟩
    | @cons x v xs vs hx _ ih =>
      obtain ⟨ys, h1, vs', h2, h3⟩ := ih
      cases h3
      cases x with
      | none => cases hx; exact ⟨.none :: ys, .cons rfl h1, .null :: vs, .cons rfl h2, rfl⟩
      | str s => exact hx.elim
      | bytes b => exact hx.elim
      | list l =>
        obtain ⟨l', g1, g2⟩ := ihu l v hx
        exact ⟨.list l' :: ys, .cons ⟨l', rfl, g1⟩ h1, v :: vs, .cons g2 h2, rfl⟩
      | other => exact hx.elim

/-! ## Lists: reading -/

theorem iterU_eq {u : UType} {l : ListObj} : ∀ (n : Nat) (i : Int) (ys : List Item) (zs : List UObj),
    l.iterFrom n i = .ok ys → List.Forall₂ (fun y z => decodeItem u y = .ok z) ys zs → iterU u l n i = .ok zs := by
  intro n
  induction n with
  | zero =>
    intro i ys zs h h'
    rw [ListObj.iterFrom] at h
    cases h
    cases h'
    rfl
  | succ n ih =>
    intro i ys zs h h'
    rw [ListObj.iterFrom] at h
    unfold iterU getItemU
    cases hg : l.getItem i with
    | error e =>
      rw [hg] at h
      cases e <;> first | (cases h; cases h'; rfl) | (exfalso; cases h)
    | ok x =>
      rw [hg] at h
      cases ht : l.iterFrom n (i + 1) with
      | error e => simp only [ht] at h; cases h
      | ok xs =>
        simp only [ht] at h
        cases h
        cases h' with
        | cons hx hxs =>
          rename_i z zs
          have : (do decodeItem u (← (.ok x : Py Item)) : Py UObj) = .ok z := hx
          rw [this]
          simp only
          rw [ih (i + 1) xs zs ht hxs]
          rfl

theorem toListU_eq {u : UType} {l : ListObj} {ys : List Item} {zs : List UObj} (h : l.toList = .ok ys)
    (h' : List.Forall₂ (fun y z => decodeItem u y = .ok z) ys zs) : toListU u l = .ok zs :=
  iterU_eq _ _ ys zs h h'

theorem forall₂_exists {α β γ} {R : α → β → Prop} {P : β → γ → Prop} {Q : α → γ → Prop}
    (f : ∀ a b, R a b → ∃ c, P b c ∧ Q a c) : ∀ {as bs}, List.Forall₂ R as bs →
      ∃ cs, List.Forall₂ P bs cs ∧ List.Forall₂ Q as cs := by
  intro as bs h
  induction h with
  | nil => exact ⟨[], .nil, .nil⟩
  | cons hx _ ih =>
    obtain ⟨c, h1, h2⟩ := f _ _ hx
    obtain ⟨cs, h3, h4⟩ := ih
    exact ⟨c :: cs, .cons h1 h3, .cons h2 h4⟩

theorem forall₂_comp {α β γ} {R : α → β → Prop} {S : β → γ → Prop} : ∀ {as bs}, List.Forall₂ R as bs →
    ∀ {cs}, List.Forall₂ S bs cs → List.Forall₂ (fun a c => ∃ b, R a b ∧ S b c) as cs := by
  intro as bs h
  induction h with
  | nil => intro cs h'; cases h'; exact .nil
  | cons hx _ ih =>
    intro cs h'
    cases h' with
    | cons hy hys => exact .cons ⟨_, hx, hy⟩ (ih hys)

/-- An item which reads back as its encoding decodes to the item. -/
theorem sameU_of_same : ∀ (u : UType) (z : UItem) (x : Item), (∃ y, EncItem u z y ∧ SameItem u.base y x) →
    ∃ x', decodeItem u x = .ok x' ∧ SameU u z x' := by
  intro u
  induction u with
  | text =>
    rintro z x ⟨y, h, hs⟩
    cases z with
    | none => cases h; cases hs; exact ⟨.none, rfl, rfl⟩
    | str s =>
      obtain ⟨b, hb, rfl⟩ := h
      cases hs
      refine ⟨.str s, ?_, rfl⟩
      show (do pure (.str (← decode b)) : Py UObj) = _
      rw [decode_ok_iff.mpr hb]; rfl
    | bytes b => exact h.elim
    | list l => exact h.elim
    | other => exact h.elim
  | list inner ih =>
    rintro z x ⟨y, h, hs⟩
    cases z with
    | none =>
      cases h
      obtain ⟨l, rfl, hl⟩ := hs
      exact ⟨.list l, rfl, l, rfl, hl⟩
    | str s => exact h.elim
    | bytes b => exact h.elim
    | list l =>
      obtain ⟨l', rfl, hl⟩ := h
      obtain ⟨lo, xs, rfl, h1, h2, h3⟩ := hs
      obtain ⟨zs, g1, g2⟩ := forall₂_exists ih (forall₂_comp hl h3)
      exact ⟨.list lo, rfl, lo, zs, rfl, by rw [h1, ← hl.length_eq], toListU_eq h2 g1, g2⟩
    | other => exact h.elim

/-! ## Nothing unencodable is stored -/

theorem writeItemsU_ok {w : Int → UItem → BM Unit} {P : UItem → Prop}
    (hw : ∀ pos x s s', w pos x s = .ok () s' → P x) : ∀ xs pos s s',
      writeItemsU w pos xs s = .ok () s' → ∀ x ∈ xs, P x := by
  intro xs
  induction xs with
  | nil => intro _ _ _ _ x hx; simp at hx
  | cons y ys ih =>
    intro pos s s' h x hx
    rw [writeItemsU] at h
    cases hy : w pos y s with
    | error e s1 =>
      rw [show (w pos y >>= fun _ => writeItemsU w (pos + 8) ys) s = .error e s1 from
        BM.bind_error hy] at h
      cases h
    | ok r s1 =>
      rw [BM.bind_ok hy] at h
      rcases List.mem_cons.mp hx with rfl | hx
      · exact hw _ _ _ _ hy
      · exact ih _ _ _ h x hx

theorem copyListU_ok {w : Int → UItem → BM Unit} {P : UItem → Prop}
    (hw : ∀ pos x s s', w pos x s = .ok () s' → P x) {xs pos s s'}
    (h : copyListU w pos xs s = .ok () s') : ∀ x ∈ xs, P x := by
  unfold copyListU at h
  cases hy : allocList pos Ptr.LIST_SIZE_PTR xs.length (8 * (xs.length : Int)) s with
  | error e s1 => rw [BM.bind_error hy] at h; cases h
  | ok r s1 =>
    rw [BM.bind_ok hy] at h
    exact writeItemsU_ok hw _ _ _ _ h

theorem encodeMaybe_ok {x : UItem} {b : Option Bytes} (h : encodeMaybe x = .ok b) : Encodable .text x := by
  cases x with
  | none => trivial
  | str s =>
    have h : (do pure (some (← encode s)) : Py (Option Bytes)) = .ok b := h
    by_cases hs : NoSurrogates s
    · exact hs
    · rw [encode_error hs] at h; cases h
  | bytes b => cases h
  | list l => cases h
  | other => cases h

theorem writeItemU_ok : ∀ (u : UType) (pos : Int) (x : UItem) (s s' : Bytes),
    writeItemU u pos x s = .ok () s' → Encodable u x := by
  intro u
  induction u with
  | text =>
    intro pos x s s' h
    rw [writeItemU] at h
    cases he : encodeMaybe x with
    | error e =>
      rw [he, BM.bind_error (show BM.lift (.error e) s = .error e s from rfl)] at h
      cases h
    | ok b => exact encodeMaybe_ok he
  | list inner ih =>
    intro pos x s s' h
    cases x with
    | none => trivial
    | str _ => cases h
    | bytes _ => cases h
    | list l => exact copyListU_ok ih h
    | other => cases h

end Capnpy.Spec
