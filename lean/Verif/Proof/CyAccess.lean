import Verif.Proof.CyReader
import Verif.Spec.Interop

/-!
# The compiled accessors against the pure ones
-/

namespace Capnpy.Cy

open Spec

/-- If the pure code returns a value, the compiled code returns the same and ignores nothing. -/
def KeepsVal {α} (p : Py α) (c : CRes α) : Prop := ∀ v, p = .ok v → c = .ret (.ok v) false

theorem Agree.keepsVal {α} {p : Py α} {c : CRes α} (h : Agree p c) : KeepsVal p c := by
  rintro v rfl
  rcases h with h | ⟨⟨e, h⟩, _⟩
  · exact h
  · cases h

theorem KeepsVal.lift {α} (p : Py α) : KeepsVal p (.lift p) := by rintro v rfl; rfl

theorem KeepsVal.pure {α} (a : α) : KeepsVal (.ok a) (Pure.pure a : CRes α) := by rintro v ⟨⟩; rfl

theorem KeepsVal.bind {α β} {p : Py α} {c : CRes α} {f : α → Py β} {g : α → CRes β} (h : KeepsVal p c)
    (hf : ∀ a, p = .ok a → KeepsVal (f a) (g a)) : KeepsVal (p >>= f) (c >>= g) := by
  intro v hv
  cases p with
  | error e => cases hv
  | ok a =>
    rw [h a rfl]
    show (match g a with | .crash => CRes.crash | .ret r w' => CRes.ret r (false || w')) = _
    rw [hf a rfl v hv]
    rfl

theorem ensureMember_keepsVal (o : StructObj) (u : Option Nat) (d : Option Nat) (h : ∀ tag, d = some tag → tag < 2 ^ 15) :
    KeepsVal (Capnpy.ensureMember o u d) (ensureMember o u d) := by
  cases d with
  | none => exact KeepsVal.pure ()
  | some tag =>
    intro v hv
    refine (ensureUnion_agree o _ tag ?_).keepsVal v hv
    intro hw
    have hv : o.ensureUnion (u.map fun off => ((off * 2 : Nat) : Int)) tag = .ok v := hv
    unfold StructObj.ensureUnion at hv
    rw [hw] at hv
    have : (if (-1 : Int) ≠ (tag : Int) then (.error .valueError : Py Unit) else Pure.pure ()) = .ok v := hv
    rw [if_pos (by omega)] at this
    cases this

theorem getSlot_agree (o : StructObj) (ty : SlotType) (off : Nat) (d : Option Int) :
    Agree (Capnpy.getSlot o ty off d) (getSlot o ty off d) := by
  cases ty with
  | void => exact Agree.pure _
  | prim fmt => exact (Agree.lift _).bind fun _ _ => Agree.pure _
  | float fmt =>
    exact (Agree.lift _).bind fun _ _ => Agree.ite (fun _ => Agree.lift _) fun _ => Agree.pure _
  | bool => exact (Agree.lift _).bind fun _ _ => Agree.pure _
  | enum => exact (enumField_agree o _ _).bind fun _ _ => Agree.pure _
  | text => exact (readData_agree o _ _ _).bind fun _ _ => Agree.pure _
  | data => exact (readData_agree o _ _ _).bind fun _ _ => Agree.pure _
  | struct => exact (readStruct_agree o _).bind fun _ _ => Agree.pure _
  | list it => exact (readList_agree o _ it none).bind fun _ _ => Agree.pure _
  | anyPointer =>
    exact (hasField_agree o _).bind fun _ _ => Agree.ite (fun _ => Agree.pure _) fun _ => Agree.pure _

theorem KeepsVal.of_eq {α} {p : Py α} {c : CRes α} (h : c = .ret p false) : KeepsVal p c := by
  rintro v rfl; exact h

mutual

theorem getField_keepsVal (o : StructObj) (u : Option Nat) : ∀ (f : Field), TagsBelow f →
    KeepsVal (Capnpy.getField o u f) (getField o u f)
  | .slot _ _ disc ty off dflt, h => by
    unfold TagsBelow at h
    unfold Capnpy.getField getField
    exact (ensureMember_keepsVal o u disc h).bind fun _ _ => (getSlot_agree o ty off dflt).keepsVal
  | .group _ _ disc nullable gunion children, h => by
    unfold TagsBelow at h
    unfold Capnpy.getField getField
    refine (ensureMember_keepsVal o u disc h.1).bind fun _ _ => (KeepsVal.lift _).bind fun g _ => ?_
    cases nullable with
    | false => exact KeepsVal.pure _
    | true =>
      simp only [if_true]
      have h1 := getAttr_keepsVal g gunion "is_null" children h.2
      have h2 := getAttr_keepsVal g gunion "value" children h.2
      cases e1 : Capnpy.getAttr g gunion "is_null" children with
      | none =>
        rw [e1] at h1
        cases e1' : getAttr g gunion "is_null" children with
        | none => exact KeepsVal.lift _
        | some r => rw [e1'] at h1; exact h1.elim
      | some r =>
        rw [e1] at h1
        cases e1' : getAttr g gunion "is_null" children with
        | none => rw [e1'] at h1; exact h1.elim
        | some r' =>
          rw [e1'] at h1
          have h1 : KeepsVal r r' := h1
          refine h1.bind fun x _ => ?_
          cases x.truthy with
          | true => exact KeepsVal.pure _
          | false =>
            simp only [Bool.false_eq_true, if_false]
            cases e2 : Capnpy.getAttr g gunion "value" children with
            | none =>
              rw [e2] at h2
              cases e2' : getAttr g gunion "value" children with
              | none => exact KeepsVal.lift _
              | some r => rw [e2'] at h2; exact h2.elim
            | some q =>
              rw [e2] at h2
              cases e2' : getAttr g gunion "value" children with
              | none => rw [e2'] at h2; exact h2.elim
              | some q' => rw [e2'] at h2; exact h2

theorem getAttr_keepsVal (o : StructObj) (u : Option Nat) (x : String) : ∀ (fs : List Field), AllTagsBelow fs →
    match Capnpy.getAttr o u x fs, getAttr o u x fs with
    | none, none => True
    | some r, some r' => KeepsVal r r'
    | _, _ => False
  | [], _ => by unfold Capnpy.getAttr getAttr; trivial
  | f :: fs, h => by
    unfold AllTagsBelow at h
    have ih := getAttr_keepsVal o u x fs h.2
    unfold Capnpy.getAttr getAttr
    cases e1 : Capnpy.getAttr o u x fs with
    | none =>
      rw [e1] at ih
      cases e2 : getAttr o u x fs with
      | none =>
        by_cases hn : f.name = x
        · simp only [if_pos hn]; exact getField_keepsVal o u f h.1
        · simp only [if_neg hn]
      | some r => rw [e2] at ih; exact ih.elim
    | some r =>
      rw [e1] at ih
      cases e2 : getAttr o u x fs with
      | none => rw [e2] at ih; exact ih.elim
      | some r' => rw [e2] at ih; exact ih

end

theorem findField_tags {x : String} : ∀ {fs : List Field} {f : Field}, findField x fs = some f → AllTagsBelow fs →
    TagsBelow f
  | [], f, h, _ => by cases h
  | g :: fs, f, h, ht => by
    unfold AllTagsBelow at ht
    unfold findField at h
    cases e : findField x fs with
    | some k =>
      rw [e] at h
      injection h with h
      subst h
      exact findField_tags e ht.2
    | none =>
      rw [e] at h
      have h : (if g.name = x then some g else none) = some f := h
      split at h
      · injection h with h; subst h; exact ht.1
      · cases h

theorem getPath_keepsVal : ∀ (path : List String) (o : StructObj) (u : Option Nat) (fs : List Field), AllTagsBelow fs →
    KeepsVal (Spec.getPath o u fs path) (getPathC o u fs path)
  | [], o, u, fs, _ => KeepsVal.of_eq rfl
  | x :: xs, o, u, fs, ht => by
    unfold Spec.getPath getPathC
    cases e : findField x fs with
    | none => exact KeepsVal.of_eq rfl
    | some f =>
      have hf := findField_tags e ht
      refine (getField_keepsVal o u f hf).bind fun r _ => ?_
      cases xs with
      | nil => exact KeepsVal.of_eq rfl
      | cons y ys =>
        cases f with
        | slot => exact KeepsVal.of_eq rfl
        | group nm c d nl gu ch =>
          unfold TagsBelow at hf
          cases r with
          | group g => exact getPath_keepsVal (y :: ys) g gu ch hf.2
          | _ => exact KeepsVal.of_eq rfl

/-- Iteration over the items from `i` on, when there is no exception before the end. -/
theorem iterFrom_keepsVal (l : ListObj) : ∀ (n : Nat) (i : Int) (ys : List Item), l.iterFrom n i = .ok ys → 0 ≤ i →
    l.itemCount ≤ i + ys.length → iterFrom l n i = .ret (.ok ys) false
  | 0, i, ys, h, _, _ => by
    unfold ListObj.iterFrom at h
    injection h with h
    subst h
    rfl
  | n + 1, i, ys, h, h0, hl => by
    unfold ListObj.iterFrom at h
    unfold iterFrom
    cases hg : l.getItem i with
    | error e =>
      rw [hg] at h
      have hys : ys = [] ∧ e = .indexError := by
        cases e <;> first | (injection h with h; exact ⟨h.symm, rfl⟩) | cases h
      obtain ⟨rfl, rfl⟩ := hys
      have : getItem l i = .ret (.error .indexError) false := by
        unfold getItem
        simp only
        rw [if_neg (by omega : ¬ i < 0), if_neg (by simp at hl; omega)]
        rfl
      rw [this]
    | ok x =>
      rw [hg] at h
      have h : (do let xs ← l.iterFrom n (i + 1); pure (x :: xs) : Py (List Item)) = .ok ys := h
      cases hr : l.iterFrom n (i + 1) with
      | error e => rw [hr] at h; cases h
      | ok xs =>
        rw [hr] at h
        injection h with h
        subst h
        rw [(getItem_agree l i).keepsVal x hg]
        have := iterFrom_keepsVal l n (i + 1) xs hr (by omega) (by simp at hl; omega)
        simp only
        rw [this]
        rfl

theorem toList_keepsVal (l : ListObj) (ys : List Item) (h : l.toList = .ok ys) (hl : l.itemCount ≤ ys.length) :
    toList l = .ret (.ok ys) false :=
  iterFrom_keepsVal l _ 0 ys h le_rfl (by omega)

mutual

theorem tagsBelow_of_wf (ds ps : Nat) : ∀ (f : Field), FieldWF ds ps f → (∀ tag, f.disc = some tag → tag < 2 ^ 15) →
    TagsBelow f
  | .slot _ _ disc ty off dflt, _, h => by unfold TagsBelow; exact h
  | .group _ _ disc nullable gunion children, h, h' => by
    unfold FieldWF at h
    unfold TagsBelow
    exact ⟨h', allTagsBelow_of_wf ds ps gunion children h.2.1⟩

theorem allTagsBelow_of_wf (ds ps : Nat) (u : Option Nat) : ∀ (fs : List Field), FieldsWF ds ps u fs → AllTagsBelow fs
  | [], _ => by unfold AllTagsBelow; trivial
  | f :: fs, h => by
    unfold FieldsWF at h
    unfold AllTagsBelow
    exact ⟨tagsBelow_of_wf ds ps f h.1 (fun tag ht => (h.2.1 tag ht).2), allTagsBelow_of_wf ds ps u fs h.2.2.2.2⟩

end

theorem ensureMember_agree (o : StructObj) (u : Option Nat) (d : Option Nat)
    (h : d = none ∨ o.whichRaw (u.map fun off => ((off * 2 : Nat) : Int)) ≠ .ok (-1)) :
    Agree (Capnpy.ensureMember o u d) (ensureMember o u d) := by
  cases d with
  | none => exact Agree.pure ()
  | some tag =>
    rcases h with h | h
    · cases h
    · exact ensureUnion_agree o _ tag h

/-- The accessor of a field of a well-formed class. -/
theorem getField_agree (ds ps : Nat) : ∀ (f : Field) (o : StructObj) (u : Option Nat), FieldWF ds ps f →
    (f.disc = none ∨ o.whichRaw (u.map fun off => ((off * 2 : Nat) : Int)) ≠ .ok (-1)) →
    Agree (Capnpy.getField o u f) (getField o u f)
  | .slot _ _ disc ty off dflt, o, u, _, hd => by
    unfold Capnpy.getField getField
    exact (ensureMember_agree o u disc hd).bind fun _ _ => getSlot_agree o ty off dflt
  | .group name _ disc nullable gunion children, o, u, h, hd => by
    unfold FieldWF at h
    obtain ⟨_, hc, hn⟩ := h
    unfold Capnpy.getField getField
    refine (ensureMember_agree o u disc hd).bind fun _ _ => (Agree.lift _).bind fun g _ => ?_
    cases nullable with
    | false => exact Agree.pure _
    | true =>
      simp only [if_true]
      obtain ⟨-, -, c, off, ty, d, c2, rfl, -, hv, hd2, -⟩ := hn rfl
      have hw2 : FieldWF ds ps c2 := by
        unfold FieldsWF at hc
        have := hc.2.2.2.2
        unfold FieldsWF at this
        exact this.1
      have ih := getField_agree ds ps c2 g gunion hw2 (.inl hd2)
      have n1 : ¬ ("is_null" = "value") := by decide
      have n2 : ¬ ("value" = "is_null") := by decide
      have e1 : Capnpy.getAttr g gunion "is_null" [.slot "is_null" c none ty off d, c2]
          = some (Capnpy.getField g gunion (.slot "is_null" c none ty off d)) := by
        simp only [Capnpy.getAttr, hv, n2, if_false]
        exact if_pos rfl
      have e2 : Capnpy.getAttr g gunion "value" [.slot "is_null" c none ty off d, c2]
          = some (Capnpy.getField g gunion c2) := by
        simp only [Capnpy.getAttr, hv, if_true]
      have e3 : getAttr g gunion "is_null" [.slot "is_null" c none ty off d, c2]
          = some (getField g gunion (.slot "is_null" c none ty off d)) := by
        simp only [getAttr, hv, n2, if_false]
        exact if_pos rfl
      have e4 : getAttr g gunion "value" [.slot "is_null" c none ty off d, c2]
          = some (getField g gunion c2) := by
        simp only [getAttr, hv, if_true]
      rw [e1, e2, e3, e4]
      simp only
      refine Agree.bind ?_ fun x _ => ?_
      · unfold Capnpy.getField getField
        exact (ensureMember_agree g gunion none (.inl rfl)).bind fun _ _ => getSlot_agree g ty off d
      · cases x.truthy with
        | true => exact Agree.pure _
        | false => exact ih

end Capnpy.Cy
