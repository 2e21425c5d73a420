import Verif.Model.AnyPointer
import Verif.Props.Fields

/-! # C44: AnyPointer -/

namespace Capnpy.Props

open Spec

/-- The AnyPointer of slot `j`. -/
def anyAt (o : StructObj) (j : Nat) : AnyPtr := ⟨o, ((8 * j : Nat) : Int)⟩

/-- The word stored in slot `j` of the pointer section is a far pointer. -/
def FarSlot (o : StructObj) (j : Nat) : Prop :=
  (j : Int) < o.ptrsSize ∧ kind (wordAt o.seg.buf (o.ptrsOffset.toNat + 8 * j)) = 2

def isStructVal : Val → Bool
  | .struct _ _ => true
  | _ => false

def isListVal : Val → Bool
  | .listPrim _ _ _ | .listPtr _ | .listComp _ _ _ => true
  | _ => false

/-- Text and data are lists of bytes. -/
def isBytesVal : Val → Bool
  | .listPrim 2 _ _ => true
  | _ => false

theorem readFastPtr_slot {B : Bytes} {offs : Option (List Nat)} {t ds ps : Nat} {data : Bytes} {ptrs : List Val}
    (hob : ObjDen B offs t ds ps data ptrs) {j : Nat} {v : Val} (hj : ptrs[j]? = some v) :
    (objAt B offs t ds ps).readFastPtr ((8 * j : Nat) : Int) = .ok (signed64 (wordAt B (t + 8 * ds + 8 * j))) := by
  have hjl := getElem?_lt hj
  obtain ⟨hb, hd, hl, hp⟩ := hob
  unfold StructObj.readFastPtr objAt
  simp only
  rw [if_neg (by omega), show (((t + 8 * ds : Nat) : Int) + ((8 * j : Nat) : Int))
    = ((t + 8 * ds + 8 * j : Nat) : Int) by push_cast; ring, readPtr_at (by omega)]

theorem readFastPtr_beyond {B : Bytes} {offs : Option (List Nat)} {t ds ps j : Nat} (h : ps ≤ j) :
    (objAt B offs t ds ps).readFastPtr ((8 * j : Nat) : Int) = .ok 0 := by
  unfold StructObj.readFastPtr objAt; simp only; rw [if_pos (by omega)]

theorem decP {p q : Prop} [Decidable p] [Decidable q] (h : p ↔ q) : (Except.ok (decide p) : Py Bool) = .ok (decide q) := by
  rw [decide_eq_decide.mpr h]

/-- C44: what the classification says about a slot which does not hold a far pointer:
`is_list()` is true exactly for lists, `is_text()`/`is_data()` exactly for lists of bytes,
and `is_struct()` for structs and null. -/
theorem C44_classification (o : StructObj) (data : Bytes) (ptrs : List Val) (ho : Denotes o (.struct data ptrs))
    (j : Nat) (hn : ¬ FarSlot o j) :
    (anyAt o j).isStruct = .ok (isStructVal (child ptrs j) || child ptrs j matches .null) ∧
    (anyAt o j).isList = .ok (isListVal (child ptrs j)) ∧
    (anyAt o j).isText = .ok (isBytesVal (child ptrs j)) := by
  obtain ⟨B, offs, t, ds, ps, data', ptrs', rfl, hta, h8, hds, hps, hob, hv⟩ := ho
  injection hv with h1 h2
  subst h1 h2
  unfold AnyPtr.isStruct AnyPtr.isList AnyPtr.isText anyAt
  cases hj : ptrs[j]? with
  | none =>
    have hl : ps ≤ j := by rw [← hob.2.2.1]; exact List.getElem?_eq_none_iff.mp hj
    have e := readFastPtr_beyond (B := B) (offs := offs) (t := t) (ds := ds) hl
    have hc : child ptrs j = .null := by simp [child, hj]
    rw [hc]
    simp only
    rw [bind_okP e, bind_okP e, bind_okP e]
    exact ⟨rfl, rfl, rfl⟩
  | some v =>
    have e := readFastPtr_slot hob hj
    have hc : child ptrs j = v := by simp [child, hj]
    have hjl := getElem?_lt hj
    have hk : kind (wordAt B (t + 8 * ds + 8 * j)) ≠ 2 := by
      intro h
      refine hn ⟨?_, ?_⟩
      · show (j : Int) < (ps : Int)
        rw [← hob.2.2.1]; exact_mod_cast hjl
      · exact h
    have hden := hob.2.2.2 j v hj
    have hm := signed64_mod _ (wordAt_lt B (t + 8 * ds + 8 * j))
    rw [hc]
    simp only
    rw [bind_okP e, bind_okP e, bind_okP e]
    simp only [Ptr.kind_spec hm, Ptr.listTag_spec hm]
    generalize wordAt B (t + 8 * ds + 8 * j) = w at hden hk
    simp only [pure, Except.pure]
    unfold Ptr.STRUCT Ptr.LIST Ptr.LIST_SIZE_8
    cases hden with
    | null => exact ⟨rfl, rfl, rfl⟩
    | struct _ _ _ _ _ h0 h1 =>
      rw [h1]; simp [isStructVal, isListVal, isBytesVal]
    | listPrim _ _ _ h1 =>
      rw [h1]
      refine ⟨by simp [isStructVal], by simp [isListVal], ?_⟩
      by_cases hg : listTag w = 2
      · simp [hg, isBytesVal]
      · have : ∀ bs, isBytesVal (.listPrim (listTag w) (listCount w) bs) = false := by
          intro bs
          unfold isBytesVal
          split
          · rename_i h; injection h with h _ _; exact absurd h hg
          · rfl
        rw [this]
        simp; omega
    | listPtr _ _ _ _ h1 hg =>
      rw [h1, hg]; simp [isStructVal, isListVal, isBytesVal]
    | listComp _ _ _ _ _ _ _ h1 hg =>
      rw [h1, hg]; simp [isStructVal, isListVal, isBytesVal]
    | far => omega
    | far2 => omega

/-- C44: for a slot which is neither null nor a far pointer, exactly one of
`is_struct()` and `is_list()` is true, and `is_text()` implies `is_list()`. -/
theorem C44_exclusive (o : StructObj) (data : Bytes) (ptrs : List Val) (ho : Denotes o (.struct data ptrs))
    (j : Nat) (hn : ¬ FarSlot o j) (h0 : child ptrs j ≠ .null) :
    ∃ s l t, (anyAt o j).isStruct = .ok s ∧ (anyAt o j).isList = .ok l ∧ (anyAt o j).isText = .ok t ∧
      (s ^^ l) = true ∧ (t = true → l = true) := by
  obtain ⟨h1, h2, h3⟩ := C44_classification o data ptrs ho j hn
  refine ⟨_, _, _, h1, h2, h3, ?_, ?_⟩
  · generalize child ptrs j = v at h0
    cases v <;> first | rfl | exact absurd rfl h0
  · generalize child ptrs j = v
    intro h
    cases v <;> first | rfl | cases h

theorem readData_wrong {o : StructObj} {data : Bytes} {ptrs : List Val} (ho : Denotes o (.struct data ptrs))
    {j : Nat} (h0 : child ptrs j ≠ .null) (h1 : isBytesVal (child ptrs j) = false) (dflt : Option Bytes) (add : Int) :
    o.readData ((8 * j : Nat) : Int) dflt add = .error .assertionError := by
  have hj := child_some h0
  generalize child ptrs j = v at h0 h1 hj
  obtain ⟨B, offs, t, ds, ps, data', ptrs', rfl, hta, h8, hds, hps, hob, hv⟩ := ho
  injection hv with g1 g2
  subst g1 g2
  obtain ⟨q, w, r1, r2, r3, r4, r5, r6⟩ := resolve_spec hta h8 hob hj
  have hm := signed64_mod _ r2
  unfold StructObj.readData
  simp only [bind, Except.bind, r1]
  unfold Seg.readStr
  rw [Ptr.kind_spec hm, Ptr.listTag_spec hm]
  cases r5 with
  | null => exact absurd rfl h0
  | struct _ _ _ _ _ hw hk =>
    rw [if_neg (signed64_ne_zero r2 hw), hk, if_pos (by decide)]
  | listPrim _ _ _ hk =>
    have hw : w ≠ 0 := by intro h; rw [h] at hk; simp [kind] at hk
    have hg : listTag w ≠ 2 := by intro hg; rw [hg] at h1; cases h1
    rw [if_neg (signed64_ne_zero r2 hw), hk, if_neg (by decide), if_pos (by unfold Ptr.LIST_SIZE_8; omega)]
  | listPtr _ _ _ _ hk hg =>
    have hw : w ≠ 0 := by intro h; rw [h] at hk; simp [kind] at hk
    rw [if_neg (signed64_ne_zero r2 hw), hk, if_neg (by decide), hg, if_pos (by decide)]
  | listComp _ _ _ _ _ _ _ hk hg =>
    have hw : w ≠ 0 := by intro h; rw [h] at hk; simp [kind] at hk
    rw [if_neg (signed64_ne_zero r2 hw), hk, if_neg (by decide), hg, if_pos (by decide)]
  | far => omega
  | far2 => omega

/-- C44: the casts agree with the kind of the value, whether or not there is a far
pointer in between: on a struct `as_struct` returns it and the others raise; on a list
`as_struct` raises and `as_list` returns it; `as_data` returns the bytes of a list of
bytes and raises on other lists; all of them return `None` for null. -/
theorem C44_casts (o : StructObj) (data : Bytes) (ptrs : List Val) (ho : Denotes o (.struct data ptrs))
    (j : Nat) (it : ItemType) :
    match child ptrs j with
    | .null => (anyAt o j).asStruct = .ok none ∧ (anyAt o j).asList it = .ok none ∧
        (anyAt o j).asData = .ok none ∧ (anyAt o j).asTextBytes = .ok none
    | .struct d p => (∃ o', (anyAt o j).asStruct = .ok (some o') ∧ Denotes o' (.struct d p)) ∧
        (anyAt o j).asList it = .error .assertionError ∧ (anyAt o j).asData = .error .assertionError ∧
        (anyAt o j).asTextBytes = .error .assertionError
    | v => (anyAt o j).asStruct = .error .assertionError ∧
        (∃ l, (anyAt o j).asList it = .ok (some l) ∧ l.itemType = it ∧ ListDenotes l v) ∧
        (∀ n bs, v = .listPrim 2 n bs → (anyAt o j).asData = .ok (some bs)) ∧
        (∀ s, v = .listPrim 2 (s.length + 1) (s ++ [0]) → (anyAt o j).asTextBytes = .ok (some s)) ∧
        (isBytesVal v = false → (anyAt o j).asData = .error .assertionError ∧
          (anyAt o j).asTextBytes = .error .assertionError) := by
  have hs := C10_struct o data ptrs ho j
  have hl := C10_list o data ptrs ho j it
  have hd := C10_data o data ptrs ho j
  have hw := fun h0 h1 add => readData_wrong (j := j) ho h0 h1 none add
  unfold AnyPtr.asStruct AnyPtr.asList AnyPtr.asData AnyPtr.asTextBytes anyAt
  generalize child ptrs j = v at hs hl hd hw
  cases v with
  | null => exact ⟨hs.1 rfl, hl.1 rfl, (hd.1 rfl).1, (hd.1 rfl).2⟩
  | struct d p =>
    exact ⟨hs.2.1 d p rfl, hl.2.2 d p rfl, hw (by simp) rfl 0, hw (by simp) rfl (-1)⟩
  | listPrim tag n bs =>
    exact ⟨hs.2.2 (by simp) (by simp), hl.2.1 (by simp) (by simp), fun n bs h => (hd.2.1 n bs h).2,
      fun s h => hd.2.2 s h, fun h => ⟨hw (by simp) h 0, hw (by simp) h (-1)⟩⟩
  | listPtr items =>
    exact ⟨hs.2.2 (by simp) (by simp), hl.2.1 (by simp) (by simp), fun n bs h => (hd.2.1 n bs h).2,
      fun s h => hd.2.2 s h, fun h => ⟨hw (by simp) h 0, hw (by simp) h (-1)⟩⟩
  | listComp ds ps items =>
    exact ⟨hs.2.2 (by simp) (by simp), hl.2.1 (by simp) (by simp), fun n bs h => (hd.2.1 n bs h).2,
      fun s h => hd.2.2 s h, fun h => ⟨hw (by simp) h 0, hw (by simp) h (-1)⟩⟩

/-- The classification is wrong for far pointers: all of `is_struct()`, `is_list()` and
`is_text()` are false, whatever the pointer leads to (and although the casts work). -/
theorem C44_far (o : StructObj) (data : Bytes) (ptrs : List Val) (ho : Denotes o (.struct data ptrs))
    (j : Nat) (hf : FarSlot o j) :
    (anyAt o j).isStruct = .ok false ∧ (anyAt o j).isList = .ok false ∧ (anyAt o j).isText = .ok false := by
  obtain ⟨B, offs, t, ds, ps, data', ptrs', rfl, hta, h8, hds, hps, hob, hv⟩ := ho
  injection hv with h1 h2
  subst h1 h2
  obtain ⟨hf1, hf2⟩ := hf
  change (j : Int) < (ps : Int) at hf1
  change kind (wordAt B (t + 8 * ds + 8 * j)) = 2 at hf2
  have hjl : j < ptrs.length := by rw [hob.2.2.1]; exact_mod_cast hf1
  have e := readFastPtr_slot hob (List.getElem?_eq_getElem hjl)
  have hm := signed64_mod _ (wordAt_lt B (t + 8 * ds + 8 * j))
  unfold AnyPtr.isStruct AnyPtr.isList AnyPtr.isText anyAt
  simp only
  rw [bind_okP e, bind_okP e, bind_okP e]
  simp only [Ptr.kind_spec hm, hf2]
  exact ⟨rfl, rfl, rfl⟩

/-- A null pointer is classified as a struct, although `as_struct` returns `None`. -/
theorem C44_null (o : StructObj) (data : Bytes) (ptrs : List Val) (ho : Denotes o (.struct data ptrs))
    (j : Nat) (hj : child ptrs j = .null) :
    (anyAt o j).isStruct = .ok true ∧ (anyAt o j).asStruct = .ok none := by
  have hn : ¬ FarSlot o j := by
    intro hf
    have hh := (C11_has o data ptrs ho j)
    obtain ⟨b, h1, h2⟩ := hh
    have hb : b = false := by
      cases b with
      | false => rfl
      | true => exact absurd hj (h2.mp rfl)
    have hfar := (C44_far o data ptrs ho j hf).1
    unfold StructObj.hasField at h1
    unfold AnyPtr.isStruct anyAt at hfar
    cases hp : o.readFastPtr ((8 * j : Nat) : Int) with
    | error e => rw [hp] at h1; cases h1
    | ok p =>
      rw [bind_okP hp] at h1 hfar
      rw [hb] at h1
      simp only [pure, Except.pure, Except.ok.injEq, decide_eq_false_iff_not, ne_eq, not_not] at h1
      subst h1
      simp [pure, Except.pure] at hfar
      exact hfar (by decide)
  obtain ⟨h1, _, _⟩ := C44_classification o data ptrs ho j hn
  rw [hj] at h1
  exact ⟨h1, (C10_struct o data ptrs ho j).1 hj⟩

/-! The sample object (slot 0 is a struct, slot 1 a list of bytes), and an object whose
only slot is a far pointer to an empty struct. -/

example : ¬ FarSlot sampleObj 0 := by
  intro h
  exact absurd h.2 (by decide +kernel)

example : (anyAt sampleObj 0).isStruct = .ok true ∧ (anyAt sampleObj 1).isText = .ok true ∧
    (anyAt sampleObj 1).asData = .ok (some [1, 2, 3]) := by decide +kernel

def farObj : StructObj := objAt ([10, 0, 0, 0, 0, 0, 0, 0] ++ leBytes 8 emptyStructWord) (some [0]) 0 0 1

theorem farObj_denotes : Denotes farObj (.struct [] [.struct [] []]) := by
  refine ⟨_, some [0], 0, 0, 1, [], [.struct [] []], rfl, ?_, by decide, by decide, by decide,
    ⟨by decide, by decide +kernel, rfl, ?_⟩, rfl⟩
  · intro tbl h st hst
    injection h with h
    subst h
    simp at hst
    simp [hst]
  · intro j v hj
    match j, hj with
    | 0, hj =>
      simp at hj
      subst hj
      refine Den.far 0 _ 8 0 [0] _ (by decide) rfl (by decide +kernel) (by decide +kernel) rfl (by decide +kernel)
        (by decide +kernel) (by decide) (by decide +kernel) (by decide +kernel) ?_
      refine Den.struct _ _ 8 [] [] (by decide +kernel) (by decide +kernel) (by decide +kernel) (by decide +kernel)
        (by decide +kernel) (by decide +kernel) ?_
      intro j v h; cases h
    | j + 1, hj => simp at hj

example : FarSlot farObj 0 := ⟨by decide, by decide +kernel⟩

example : (anyAt farObj 0).isStruct = .ok false ∧
    ∃ o', (anyAt farObj 0).asStruct = .ok (some o') ∧ Denotes o' (.struct [] []) :=
  ⟨by decide +kernel, (C44_casts _ _ _ farObj_denotes 0 .void).1⟩

end Capnpy.Props
