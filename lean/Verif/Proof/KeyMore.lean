import Mathlib.Algebra.Order.Ring.Int
import Mathlib.Tactic.LinearCombination
import Mathlib.Tactic.Linarith
import Mathlib.Tactic.FieldSimp
import Verif.Spec.KeyMore
import Verif.Proof.KeyRead
import Verif.Props.ListEq

/-! # Keys with floats and lists: lemmas -/

namespace Capnpy.KeyMore

open Key Hash Spec Props
open Capnpy.Repr (Env Kind RField RItem)

/-! ## Numbers -/

/-- The number a float stands for. -/
noncomputable def FVal.rat (m e : Int) : ℚ := m * 2 ^ e

theorem FVal.eq_num (m e m' e' : Int) :
    (FVal.num m e).eq (.num m' e') = true ↔ FVal.rat m e = FVal.rat m' e' := by
  unfold FVal.eq FVal.rat
  simp only [beq_iff_eq]
  have h1 : e = min e e' + ((e - min e e').toNat : Int) := by omega
  have h2 : e' = min e e' + ((e' - min e e').toNat : Int) := by omega
  generalize (e - min e e').toNat = a at *
  generalize (e' - min e e').toNat = b at *
  generalize min e e' = k at *
  rw [h1, h2, zpow_add₀ (by norm_num), zpow_add₀ (by norm_num), zpow_natCast, zpow_natCast]
  have hk : (2 : ℚ) ^ k ≠ 0 := zpow_ne_zero _ (by norm_num)
  constructor
  · intro h
    have h : ((m * 2 ^ a : Int) : ℚ) = ((m' * 2 ^ b : Int) : ℚ) := by rw [h]
    push_cast at h
    linear_combination (2 : ℚ) ^ k * h
  · intro h
    have h : (2 : ℚ) ^ k * (m * 2 ^ a) = (2 : ℚ) ^ k * (m' * 2 ^ b) := by linear_combination h
    have h := mul_left_cancel₀ hk h
    have h : ((m * 2 ^ a : Int) : ℚ) = ((m' * 2 ^ b : Int) : ℚ) := by push_cast; exact h
    exact Int.cast_injective h

theorem FVal.rat_int (i : Int) : FVal.rat i 0 = i := by
  unfold FVal.rat
  rw [zpow_zero, mul_one]

/-! ## Objects and their keys -/

mutual
/-- The object is one for the key. -/
def Is : Obj → KVal → Prop
  | .none, .none => True
  | .int i, .num q => (i : ℚ) = q
  | .float (.num m e) _, .num q => FVal.rat m e = q
  | .float (.inf b) _, .inf b' => b = b'
  | .bytes b, .bytes b' => b = b'
  | .str b, .str b' => b = b'
  | .list l _, .list it v => l.itemType = it ∧ FlatItem it ∧ CleanList l v ∧ (elems it v).isSome
  | .tuple xs, .tuple ks => AllIs xs ks
  | .keyed xs, .tuple ks => AllIs xs ks
  | _, _ => False
def AllIs : List Obj → List KVal → Prop
  | [], [] => True
  | x :: xs, k :: ks => Is x k ∧ AllIs xs ks
  | _, _ => False
end

mutual
def objDepth : Obj → Nat
  | .tuple xs => objDepths xs + 1
  | .keyed xs => objDepths xs + 1
  | _ => 1
def objDepths : List Obj → Nat
  | [] => 0
  | x :: xs => max (objDepth x) (objDepths xs)
end

theorem allSome_prims {f : Val → Option Elem} (hf : ∀ u x, f u = some x → u = .null ∨ ∃ t n bs, u = .listPrim t n bs) :
    ∀ {items : List Val} {es : List Elem}, allSome f items = some es → Val.AllNoEmpty items ∧ Val.depths items ≤ 1
  | [], _, _ => ⟨trivial, by simp [Val.depths]⟩
  | u :: us, es, h => by
    unfold allSome at h
    cases h1 : f u with
    | none => rw [h1] at h; cases h
    | some x =>
      cases h2 : allSome f us with
      | none => rw [h1, h2] at h; cases h
      | some xs =>
        obtain ⟨a, b⟩ := allSome_prims hf h2
        simp only [Val.AllNoEmpty, Val.depths]
        rcases hf u x h1 with rfl | ⟨t, n, bs, rfl⟩
        · exact ⟨⟨trivial, a⟩, by simp only [Val.depth]; omega⟩
        · exact ⟨⟨trivial, a⟩, by simp only [Val.depth]; omega⟩

theorem flat_shape {it : ItemType} {v : Val} (hf : FlatItem it) {es : List Elem} (h : elems it v = some es) :
    v.NoEmpty ∧ v.depth ≤ 2 := by
  have ht : ∀ u x, textElem u = some x → u = .null ∨ ∃ t n bs, u = .listPrim t n bs := by
    intro u x h
    cases u with
    | null => exact .inl rfl
    | listPrim => exact .inr ⟨_, _, _, rfl⟩
    | _ => cases h
  have hd : ∀ u x, dataElem u = some x → u = .null ∨ ∃ t n bs, u = .listPrim t n bs := by
    intro u x h
    cases u with
    | null => exact .inl rfl
    | listPrim => exact .inr ⟨_, _, _, rfl⟩
    | _ => cases h
  cases v with
  | null => cases it <;> cases h
  | struct => cases it <;> cases h
  | listPrim => exact ⟨trivial, by simp [Val.depth]⟩
  | listComp =>
    cases it with
    | struct => exact hf.elim
    | _ => cases h
  | listPtr items =>
    cases it with
    | text =>
      obtain ⟨a, b⟩ := allSome_prims ht h
      exact ⟨a, by simp only [Val.depth]; omega⟩
    | data =>
      obtain ⟨a, b⟩ := allSome_prims hd h
      exact ⟨a, by simp only [Val.depth]; omega⟩
    | list => exact hf.elim
    | _ => cases h

theorem flat_compare {it : ItemType} (hf : FlatItem it) : it.canCompare = true := by
  cases it <;> first | rfl | exact hf.elim

theorem listEq_spec {n : Nat} (hn : 2 ≤ n) {l l' : ListObj} {id' : Nat} {it it' : ItemType} {v v' : Val}
    (h : Is (.list l 0) (.list it v)) (h' : Is (.list l' id') (.list it' v')) :
    ∃ r, listEq n l (.list l' id') = .ok r ∧ (r = true ↔ KVal.list it v = KVal.list it' v') := by
  simp only [Is] at h h'
  obtain ⟨rfl, hf, hc, he⟩ := h
  obtain ⟨rfl, hf', hc', he'⟩ := h'
  have hid : innerSame l.itemType = true := by
    cases hl : l.itemType <;> first | rfl | (rw [hl] at hf; exact hf.elim)
  unfold listEq
  simp only []
  rw [hid]
  obtain ⟨es, hes⟩ := Option.isSome_iff_exists.mp he
  obtain ⟨es', hes'⟩ := Option.isSome_iff_exists.mp he'
  obtain ⟨a1, a2⟩ := flat_shape hf hes
  obtain ⟨b1, b2⟩ := flat_shape hf' hes'
  by_cases hit : l.itemType = l'.itemType
  · obtain ⟨r, hr, hi⟩ := C29_clean hc hc' hit (flat_compare hf) hes (by rw [hit]; exact hes') a1 b1 (fuel := n) (by omega) (by omega)
    refine ⟨r, hr, hi.trans ?_⟩
    rw [KVal.list.injEq]
    exact ⟨fun e => ⟨hit, e⟩, fun e => e.2⟩
  · refine ⟨false, ?_, ?_⟩
    · unfold ListObj.equals
      rw [if_neg (by rw [flat_compare hf]; decide), if_neg]
      rintro ⟨-, h2⟩
      unfold ListObj.sameGetType at h2
      split at h2
      · rename_i i j e1 e2
        rw [e1] at hf; exact hf.elim
      · exact hit (of_decide_eq_true h2)
    · simp [hit]

theorem listEq_other {n : Nat} {l : ListObj} (hf : FlatItem l.itemType) {x : Obj} (h1 : ∀ xs, x ≠ .pylist xs)
    (h2 : ∀ l' i, x ≠ .list l' i) : listEq n l x = .ok false := by
  unfold listEq
  cases x with
  | pylist xs => exact absurd rfl (h1 xs)
  | list l' i => exact absurd rfl (h2 l' i)
  | _ => exact if_neg (by rw [flat_compare hf]; decide)

theorem tupleEq_spec (n fuel : Nat)
    (ih : ∀ a b k k', Is a k → Is b k' → 5 * objDepth a ≤ fuel → 5 * objDepth b ≤ fuel →
      ∃ r, pyEq n fuel a b = .ok r ∧ (r = true ↔ k = k')) :
    ∀ xs ys ks ks', AllIs xs ks → AllIs ys ks' → 5 * objDepths xs ≤ fuel → 5 * objDepths ys ≤ fuel →
      ∃ r, tupleEq n fuel xs ys = .ok r ∧ (r = true ↔ ks = ks') := by
  intro xs
  induction xs with
  | nil =>
    intro ys ks ks' h h' _ _
    cases ks with
    | cons => simp [AllIs] at h
    | nil =>
    cases ys with
    | nil =>
      cases ks' with
      | nil => exact ⟨true, by simp [tupleEq], by simp⟩
      | cons => simp [AllIs] at h'
    | cons y ys =>
      cases ks' with
      | nil => simp [AllIs] at h'
      | cons => exact ⟨false, by simp [tupleEq], by simp⟩
  | cons x xs ih2 =>
    intro ys ks ks' hx hy dx dy
    cases ks with
    | nil => simp [AllIs] at hx
    | cons k ks =>
    cases ys with
    | nil =>
      cases ks' with
      | nil => exact ⟨false, by simp [tupleEq], by simp⟩
      | cons => simp [AllIs] at hy
    | cons y ys =>
      cases ks' with
      | nil => simp [AllIs] at hy
      | cons k' ks' =>
      simp only [objDepths] at dx dy
      simp only [AllIs] at hx hy
      obtain ⟨r, e, hr⟩ := ih x y k k' hx.1 hy.1 (by omega) (by omega)
      obtain ⟨r2, e2, hr2⟩ := ih2 ys ks ks' hx.2 hy.2 (by omega) (by omega)
      cases r with
      | false =>
        refine ⟨false, by simp [tupleEq, e], ?_⟩
        simp at hr
        simp [hr]
      | true =>
        refine ⟨r2, by simp [tupleEq, e, e2], ?_⟩
        simp at hr
        simp [hr, hr2]

/-- Everything but tuples and structs. -/
def Atom : Obj → Prop
  | .tuple _ => False
  | .keyed _ => False
  | .unkeyed => False
  | _ => True

theorem is_atom {a : Obj} {k : KVal} (h : Is a k) (ha : Atom a) : ∀ ks, k ≠ .tuple ks := by
  intro ks e
  subst e
  cases a with
  | tuple => exact ha.elim
  | keyed => exact ha.elim
  | unkeyed => exact ha.elim
  | float v i => cases v <;> simp [Is] at h
  | _ => simp [Is] at h

theorem is_tuple {a : Obj} {ks : List KVal} (h : Is a (.tuple ks)) : ∃ xs, (a = .tuple xs ∨ a = .keyed xs) ∧ AllIs xs ks := by
  cases a with
  | tuple xs => exact ⟨xs, .inl rfl, by simpa only [Is] using h⟩
  | keyed xs => exact ⟨xs, .inr rfl, by simpa only [Is] using h⟩
  | float v i => cases v <;> simp [Is] at h
  | _ => simp [Is] at h

/-- Comparing with something that is no tuple. -/
theorem pyEq_atom {n : Nat} (hn : 2 ≤ n) (fuel : Nat) {a b : Obj} {k k' : KVal} (ha : Is a k) (hb : Is b k')
    (hat : Atom a ∨ Atom b) : ∃ r, pyEq n (fuel + 2) a b = .ok r ∧ (r = true ↔ k = k') := by
  have no : ∀ {P : Prop}, (P → False) → (false = true ↔ P) := fun h => ⟨fun e => by (cases e), fun p => (h p).elim⟩
  cases a with
  | unkeyed => cases k <;> simp [Is] at ha
  | pylist xs => cases k <;> simp [Is] at ha
  | tuple xs =>
    have hb' : Atom b := hat.resolve_left id
    cases k with
    | tuple ks =>
      refine ⟨false, ?_, no fun e => is_atom hb hb' ks e.symm⟩
      cases b with
      | tuple => exact hb'.elim
      | keyed => exact hb'.elim
      | unkeyed => exact hb'.elim
      | list l i =>
        have hl : FlatItem l.itemType := by cases k' <;> simp [Is] at hb; rw [hb.1]; exact hb.2.1
        simp only [pyEq]
        exact listEq_other hl (by simp) (by simp)
      | _ => simp [pyEq]
    | _ => simp [Is] at ha
  | keyed xs =>
    have hb' : Atom b := hat.resolve_left id
    cases k with
    | tuple ks =>
      refine ⟨false, ?_, no fun e => is_atom hb hb' ks e.symm⟩
      cases b with
      | tuple => exact hb'.elim
      | keyed => exact hb'.elim
      | unkeyed => exact hb'.elim
      | _ => simp [pyEq, structEquals]
    | _ => simp [Is] at ha
  | none =>
    cases k with
    | none =>
      cases b with
      | none => cases k' <;> simp [Is] at hb; exact ⟨true, by simp [pyEq], by simp⟩
      | list l i =>
        have hl : FlatItem l.itemType := by cases k' <;> simp [Is] at hb; rw [hb.1]; exact hb.2.1
        refine ⟨false, ?_, no fun e => by subst e; simp [Is] at hb⟩
        simp only [pyEq]
        exact listEq_other hl (by simp) (by simp)
      | unkeyed => cases k' <;> simp [Is] at hb
      | keyed ys => exact ⟨false, by simp [pyEq, structEquals], no fun e => by subst e; simp [Is] at hb⟩
      | float v i => exact ⟨false, by simp [pyEq], no fun e => by subst e; cases v <;> simp [Is] at hb⟩
      | _ => exact ⟨false, by simp [pyEq], no fun e => by subst e; simp [Is] at hb⟩
    | _ => simp [Is] at ha
  | bytes x =>
    cases k with
    | bytes y =>
      simp only [Is] at ha
      subst ha
      cases b with
      | bytes z => cases k' <;> simp [Is] at hb; subst hb; exact ⟨x == z, by simp [pyEq], by simp⟩
      | list l i =>
        have hl : FlatItem l.itemType := by cases k' <;> simp [Is] at hb; rw [hb.1]; exact hb.2.1
        refine ⟨false, ?_, no fun e => by subst e; simp [Is] at hb⟩
        simp only [pyEq]
        exact listEq_other hl (by simp) (by simp)
      | unkeyed => cases k' <;> simp [Is] at hb
      | keyed ys => exact ⟨false, by simp [pyEq, structEquals], no fun e => by subst e; simp [Is] at hb⟩
      | float v i => exact ⟨false, by simp [pyEq], no fun e => by subst e; cases v <;> simp [Is] at hb⟩
      | _ => exact ⟨false, by simp [pyEq], no fun e => by subst e; simp [Is] at hb⟩
    | _ => simp [Is] at ha
  | str x =>
    cases k with
    | str y =>
      simp only [Is] at ha
      subst ha
      cases b with
      | str z => cases k' <;> simp [Is] at hb; subst hb; exact ⟨x == z, by simp [pyEq], by simp⟩
      | list l i =>
        have hl : FlatItem l.itemType := by cases k' <;> simp [Is] at hb; rw [hb.1]; exact hb.2.1
        refine ⟨false, ?_, no fun e => by subst e; simp [Is] at hb⟩
        simp only [pyEq]
        exact listEq_other hl (by simp) (by simp)
      | unkeyed => cases k' <;> simp [Is] at hb
      | keyed ys => exact ⟨false, by simp [pyEq, structEquals], no fun e => by subst e; simp [Is] at hb⟩
      | float v i => exact ⟨false, by simp [pyEq], no fun e => by subst e; cases v <;> simp [Is] at hb⟩
      | _ => exact ⟨false, by simp [pyEq], no fun e => by subst e; simp [Is] at hb⟩
    | _ => simp [Is] at ha
  | int x =>
    cases k with
    | num q =>
      simp only [Is] at ha
      subst ha
      cases b with
      | int z =>
        cases k' <;> simp only [Is] at hb
        subst hb
        refine ⟨x == z, by simp [pyEq], ?_⟩
        rw [beq_iff_eq, KVal.num.injEq]
        exact Int.cast_inj.symm
      | float v i =>
        cases v with
        | nan => cases k' <;> simp [Is] at hb
        | inf s => exact ⟨false, by simp [pyEq, FVal.eq], no fun e => by subst e; simp [Is] at hb⟩
        | num m e =>
          cases k' <;> simp only [Is] at hb
          subst hb
          refine ⟨(FVal.num x 0).eq (.num m e), by simp only [pyEq], ?_⟩
          rw [FVal.eq_num, FVal.rat_int, KVal.num.injEq]
      | list l i =>
        have hl : FlatItem l.itemType := by cases k' <;> simp [Is] at hb; rw [hb.1]; exact hb.2.1
        refine ⟨false, ?_, no fun e => by subst e; simp [Is] at hb⟩
        simp only [pyEq]
        exact listEq_other hl (by simp) (by simp)
      | unkeyed => cases k' <;> simp [Is] at hb
      | keyed ys => exact ⟨false, by simp [pyEq, structEquals], no fun e => by subst e; simp [Is] at hb⟩
      | _ => exact ⟨false, by simp [pyEq], no fun e => by subst e; simp [Is] at hb⟩
    | _ => simp [Is] at ha
  | float v j =>
    cases v with
    | nan => cases k <;> simp [Is] at ha
    | inf s =>
      cases k with
      | inf s' =>
        simp only [Is] at ha
        subst ha
        cases b with
        | float v i =>
          cases v with
          | nan => cases k' <;> simp [Is] at hb
          | inf s' =>
            cases k' <;> simp only [Is] at hb
            subst hb
            exact ⟨s == s', by simp only [pyEq, FVal.eq], by rw [beq_iff_eq, KVal.inf.injEq]⟩
          | num m e => exact ⟨false, by simp [pyEq, FVal.eq], no fun e => by subst e; simp [Is] at hb⟩
        | list l i =>
          have hl : FlatItem l.itemType := by cases k' <;> simp [Is] at hb; rw [hb.1]; exact hb.2.1
          refine ⟨false, ?_, no fun e => by subst e; simp [Is] at hb⟩
          simp only [pyEq]
          exact listEq_other hl (by simp) (by simp)
        | unkeyed => cases k' <;> simp [Is] at hb
        | keyed ys => exact ⟨false, by simp [pyEq, structEquals], no fun e => by subst e; simp [Is] at hb⟩
        | int z => exact ⟨false, by simp [pyEq, FVal.eq], no fun e => by subst e; simp [Is] at hb⟩
        | _ => exact ⟨false, by simp [pyEq], no fun e => by subst e; simp [Is] at hb⟩
      | _ => simp [Is] at ha
    | num m e =>
      cases k with
      | num q =>
        simp only [Is] at ha
        subst ha
        cases b with
        | int z =>
          cases k' <;> simp only [Is] at hb
          subst hb
          refine ⟨(FVal.num m e).eq (.num z 0), by simp only [pyEq], ?_⟩
          rw [FVal.eq_num, FVal.rat_int, KVal.num.injEq]
        | float v i =>
          cases v with
          | nan => cases k' <;> simp [Is] at hb
          | inf s' => exact ⟨false, by simp [pyEq, FVal.eq], no fun e => by subst e; simp [Is] at hb⟩
          | num m' e' =>
            cases k' <;> simp only [Is] at hb
            subst hb
            refine ⟨(FVal.num m e).eq (.num m' e'), by simp only [pyEq], ?_⟩
            rw [FVal.eq_num, KVal.num.injEq]
        | list l i =>
          have hl : FlatItem l.itemType := by cases k' <;> simp [Is] at hb; rw [hb.1]; exact hb.2.1
          refine ⟨false, ?_, no fun e => by subst e; simp [Is] at hb⟩
          simp only [pyEq]
          exact listEq_other hl (by simp) (by simp)
        | unkeyed => cases k' <;> simp [Is] at hb
        | keyed ys => exact ⟨false, by simp [pyEq, structEquals], no fun e => by subst e; simp [Is] at hb⟩
        | _ => exact ⟨false, by simp [pyEq], no fun e => by subst e; simp [Is] at hb⟩
      | _ => simp [Is] at ha
  | list l j =>
    cases k with
    | list it v =>
      have hl : FlatItem l.itemType := by simp only [Is] at ha; rw [ha.1]; exact ha.2.1
      have other : (∀ xs, b ≠ .pylist xs) → (∀ l' i, b ≠ .list l' i) → pyEq n (fuel + 2) (.list l j) b = .ok false := by
        intro h1 h2
        have := listEq_other (n := n) hl h1 h2
        cases b <;> simp only [pyEq] <;> exact this
      cases b with
      | list l' i =>
        cases k' <;> simp only [Is] at hb
        simp only [pyEq]
        exact listEq_spec hn (by simpa only [Is] using ha) (by simpa only [Is] using hb)
      | pylist ys => cases k' <;> simp [Is] at hb
      | float v i => exact ⟨false, other (by simp) (by simp), no fun e => by subst e; cases v <;> simp [Is] at hb⟩
      | _ => exact ⟨false, other (by simp) (by simp), no fun e => by subst e; simp [Is] at hb⟩
    | _ => simp [Is] at ha

theorem objDepth_pos (x : Obj) : 1 ≤ objDepth x := by cases x <;> simp [objDepth]

/-- Equality of objects is equality of keys. -/
theorem pyEq_spec {n : Nat} (hn : 2 ≤ n) : ∀ (fuel : Nat) (a b : Obj) (k k' : KVal), Is a k → Is b k' →
    5 * objDepth a ≤ fuel → 5 * objDepth b ≤ fuel → ∃ r, pyEq n fuel a b = .ok r ∧ (r = true ↔ k = k') := by
  intro fuel
  induction fuel using Nat.strongRecOn with
  | ind fuel ih =>
    intro a b k k' ha hb da db
    have h5 : 5 ≤ fuel := by have := objDepth_pos a; omega
    obtain ⟨f, rfl⟩ := Nat.exists_eq_add_of_le h5
    have e5 : 5 + f = f + 4 + 1 := by omega
    have tup : ∀ (j : Nat) (xs ys : List Obj) ks ks', j < 5 → AllIs xs ks → AllIs ys ks' →
        5 * (objDepths xs + 1) ≤ 5 + f → 5 * (objDepths ys + 1) ≤ 5 + f →
        ∃ r, tupleEq n (f + j) xs ys = .ok r ∧ (r = true ↔ ks = ks') := by
      intro j xs ys ks ks' hk hx hy dx dy
      apply tupleEq_spec n (f + j) _ xs ys ks ks' hx hy (by omega) (by omega)
      intro a b k k' h1 h2 h3 h4
      exact ih (f + j) (by omega) a b k k' h1 h2 h3 h4
    by_cases hat : Atom a ∨ Atom b
    · obtain ⟨r, h⟩ := pyEq_atom hn (f + 3) ha hb hat
      exact ⟨r, by rw [show 5 + f = f + 3 + 2 by omega]; exact h.1, h.2⟩
    · rw [e5]
      obtain ⟨na, nb⟩ := not_or.mp hat
      have key : ∀ x : Obj, ¬ Atom x → ∀ q, Is x q → ∃ qs, q = .tuple qs := by
        intro x hx q hq
        cases x with
        | tuple xs => cases q <;> simp [Is] at hq; exact ⟨_, rfl⟩
        | keyed xs => cases q <;> simp [Is] at hq; exact ⟨_, rfl⟩
        | unkeyed => cases q <;> simp [Is] at hq
        | _ => exact absurd trivial hx
      obtain ⟨ks, rfl⟩ := key a na k ha
      obtain ⟨ks', rfl⟩ := key b nb k' hb
      obtain ⟨xs, hxs, hx⟩ := is_tuple ha
      obtain ⟨ys, hys, hy⟩ := is_tuple hb
      have dx : 5 * (objDepths xs + 1) ≤ 5 + f := by
        rcases hxs with rfl | rfl <;> simpa [objDepth] using da
      have dy : 5 * (objDepths ys + 1) ≤ 5 + f := by
        rcases hys with rfl | rfl <;> simpa [objDepth] using db
      rcases hxs with rfl | rfl <;> rcases hys with rfl | rfl
      · obtain ⟨r, e, hr⟩ := tup 4 xs ys ks ks' (by omega) hx hy dx dy
        exact ⟨r, by simp only [pyEq]; exact e, by rw [KVal.tuple.injEq]; exact hr⟩
      · obtain ⟨r, e, hr⟩ := tup 2 xs ys ks ks' (by omega) hx hy dx dy
        exact ⟨r, by simp only [pyEq, structEquals, getKey]; exact e, by rw [KVal.tuple.injEq]; exact hr⟩
      · obtain ⟨r, e, hr⟩ := tup 2 ys xs ks' ks (by omega) hy hx dy dx
        exact ⟨r, by simp only [pyEq, structEquals, getKey]; exact e, by rw [KVal.tuple.injEq, hr]; exact eq_comm⟩
      · obtain ⟨r, e, hr⟩ := tup 0 xs ys ks ks' (by omega) hx hy dx dy
        exact ⟨r, by simp only [pyEq, structEquals, getKey]; exact e, by rw [KVal.tuple.injEq]; exact hr⟩

/-! ## Hashes of numbers -/

instance : NeZero hashModulus := ⟨by decide⟩

theorem two_pow_61 : (2 : ZMod hashModulus) ^ 61 = 1 := by
  have h : ((2 ^ 61 : Nat) : ZMod hashModulus) = ((1 : Nat) : ZMod hashModulus) :=
    (ZMod.natCast_eq_natCast_iff _ _ _).mpr (by decide)
  push_cast at h
  exact h

theorem two_unit (a : Nat) : IsUnit ((2 : ZMod hashModulus) ^ a) :=
  (IsUnit.of_mul_eq_one _ (by rw [← pow_succ' (2 : ZMod hashModulus) 60]; exact two_pow_61)).pow a

/-- A power of two modulo `P` depends only on the exponent modulo 61. -/
theorem two_pow_mod {a b : Nat} (h : (a : Int) % 61 = b % 61) : (2 : ZMod hashModulus) ^ a = 2 ^ b := by
  have : a % 61 = b % 61 := by omega
  rw [← Nat.div_add_mod a 61, ← Nat.div_add_mod b 61, pow_add, pow_mul, two_pow_61, pow_add, pow_mul, two_pow_61, this]
  simp

theorem ratHash_num (m e : Int) : floatHash (.num m e) = pyRatHash (FVal.rat m e) := by
  have hq : FVal.rat m e = (FVal.rat m e).num / (FVal.rat m e).den := (Rat.num_div_den _).symm
  have hneg : m < 0 ↔ FVal.rat m e < 0 := by
    unfold FVal.rat
    have h2 : (0 : ℚ) < 2 ^ e := zpow_pos (by norm_num) _
    rw [mul_neg_iff]
    constructor
    · intro h; exact .inr ⟨by exact_mod_cast h, h2⟩
    · rintro (⟨-, h⟩ | ⟨h, -⟩)
      · linarith
      · exact_mod_cast h
  have hcop : Nat.Coprime (FVal.rat m e).den hashModulus ∧
      ∃ a b : Nat, (b : Int) - a = e ∧ (FVal.rat m e).num.natAbs * 2 ^ a = m.natAbs * 2 ^ b * (FVal.rat m e).den := by
    have hab : ∃ a b : Nat, (b : Int) - a = e := ⟨(-e).toNat, e.toNat, by omega⟩
    obtain ⟨a, b, hab⟩ := hab
    have hr : FVal.rat m e * 2 ^ a = m * 2 ^ b := by
      unfold FVal.rat
      rw [← hab, zpow_sub₀ (by norm_num), zpow_natCast, zpow_natCast]
      field_simp
    have hint : (FVal.rat m e).num * 2 ^ a = m * 2 ^ b * (FVal.rat m e).den := by
      have hd : ((FVal.rat m e).den : ℚ) ≠ 0 := by exact_mod_cast (FVal.rat m e).den_nz
      have h1 : ((FVal.rat m e).num : ℚ) = FVal.rat m e * (FVal.rat m e).den := (Rat.mul_den_eq_num _).symm
      have : (((FVal.rat m e).num * 2 ^ a : Int) : ℚ) = ((m * 2 ^ b * (FVal.rat m e).den : Int) : ℚ) := by
        push_cast
        rw [h1]
        linear_combination ((FVal.rat m e).den : ℚ) * hr
      exact Int.cast_injective this
    have hnat : (FVal.rat m e).num.natAbs * 2 ^ a = m.natAbs * 2 ^ b * (FVal.rat m e).den := by
      have := congrArg Int.natAbs hint
      simpa [Int.natAbs_mul, Int.natAbs_pow] using this
    refine ⟨?_, a, b, hab, hnat⟩
    have hdvd : (FVal.rat m e).den ∣ 2 ^ a := by
      have h1 : (FVal.rat m e).den ∣ (FVal.rat m e).num.natAbs * 2 ^ a := by rw [hnat]; exact Nat.dvd_mul_left _ _
      exact ((FVal.rat m e).reduced.symm).dvd_of_dvd_mul_left h1
    exact Nat.Coprime.coprime_dvd_left hdvd (Nat.Coprime.pow_left a (by decide))
  obtain ⟨hc, a, b, hab, hnat⟩ := hcop
  have hval : m.natAbs * 2 ^ (e % 61).toNat % hashModulus
      = (((FVal.rat m e).num.natAbs : ZMod hashModulus) * ((FVal.rat m e).den : ZMod hashModulus)⁻¹).val := by
    rw [← ZMod.val_natCast]
    refine congrArg ZMod.val ?_
    have hden : ((FVal.rat m e).den : ZMod hashModulus) * ((FVal.rat m e).den : ZMod hashModulus)⁻¹ = 1 :=
      ZMod.coe_mul_inv_eq_one _ hc
    have hz : ((FVal.rat m e).num.natAbs : ZMod hashModulus) * 2 ^ a
        = (m.natAbs : ZMod hashModulus) * 2 ^ b * ((FVal.rat m e).den : ZMod hashModulus) := by
      have := congrArg (Nat.cast (R := ZMod hashModulus)) hnat
      push_cast at this
      exact this
    have hp : (2 : ZMod hashModulus) ^ ((e % 61).toNat + a) = 2 ^ b := two_pow_mod (by omega)
    rw [pow_add] at hp
    apply (two_unit a).mul_right_cancel
    push_cast
    generalize ((FVal.rat m e).num.natAbs : ZMod hashModulus) = N at *
    generalize ((FVal.rat m e).den : ZMod hashModulus) = D at *
    generalize (m.natAbs : ZMod hashModulus) = M at *
    linear_combination M * hp - D⁻¹ * hz - M * 2 ^ b * hden
  unfold floatHash pyRatHash
  simp only []
  rw [hval]
  by_cases h : m < 0
  · rw [if_pos h, if_pos (hneg.mp h)]
  · rw [if_neg h, if_neg (fun h' => h (hneg.mpr h'))]

theorem ratHash_int (i : Int) : pyIntHash i = pyRatHash i := by
  have h := ratHash_num i 0
  rw [FVal.rat_int] at h
  rw [← h]
  unfold floatHash pyIntHash
  simp

mutual
/-- The hash of a key. -/
noncomputable def valHash (E : HashEnv) : KVal → CLong
  | .none => E.hashNone
  | .num q => BitVec.ofInt 64 (pyRatHash q)
  | .inf neg => BitVec.ofInt 64 (if neg then -314159 else 314159)
  | .bytes b => E.hashBytes b
  | .str s => E.hashStr s
  | .list _ _ => 0
  | .tuple xs => BitVec.ofNat 64 (Spec.pyTupleHash ((valHashes E xs).map BitVec.toNat))
noncomputable def valHashes (E : HashEnv) : List KVal → List CLong
  | [] => []
  | x :: xs => valHash E x :: valHashes E xs
end

mutual
/-- No list is part of the key. -/
def Listless : KVal → Prop
  | .list _ _ => False
  | .tuple xs => AllListless xs
  | _ => True
def AllListless : List KVal → Prop
  | [] => True
  | x :: xs => Listless x ∧ AllListless xs
end

mutual
theorem pyHash_spec (E : HashEnv) : ∀ (a : Obj) (k : KVal), Is a k → Listless k → pyHash E a = .ok (valHash E k)
  | .none, k, h, _ => by cases k <;> simp [Is] at h; simp [pyHash, valHash]
  | .int i, k, h, _ => by
    cases k <;> simp only [Is] at h
    subst h
    simp only [pyHash, valHash, ratHash_int]
  | .float .nan _, k, h, _ => by cases k <;> simp [Is] at h
  | .float (.inf b) _, k, h, _ => by
    cases k <;> simp only [Is] at h
    subst h
    simp only [pyHash, valHash, floatHash]
  | .float (.num m e) _, k, h, _ => by
    cases k <;> simp only [Is] at h
    subst h
    simp only [pyHash, valHash, ratHash_num]
  | .bytes i, k, h, _ => by cases k <;> simp only [Is] at h; subst h; simp only [pyHash, valHash]
  | .str i, k, h, _ => by cases k <;> simp only [Is] at h; subst h; simp only [pyHash, valHash]
  | .list l i, k, h, hl => by cases k <;> simp only [Is] at h; simp [Listless] at hl
  | .pylist l, k, h, _ => by cases k <;> simp [Is] at h
  | .unkeyed, k, h, _ => by cases k <;> simp [Is] at h
  | .tuple xs, k, h, hl => by
    cases k with
    | tuple ks =>
      simp only [Is] at h
      simp only [Listless] at hl
      have := pyHashes_spec E xs ks h hl
      simp [pyHash, valHash, this, bind, Except.bind, pure, Except.pure]
    | _ => simp [Is] at h
  | .keyed xs, k, h, hl => by
    cases k with
    | tuple ks =>
      simp only [Is] at h
      simp only [Listless] at hl
      have := pyHashes_spec E xs ks h hl
      simp [pyHash, valHash, this, bind, Except.bind, pure, Except.pure]
    | _ => simp [Is] at h
theorem pyHashes_spec (E : HashEnv) : ∀ (xs : List Obj) (ks : List KVal), AllIs xs ks → AllListless ks →
    pyHashes E xs = .ok (valHashes E ks)
  | [], [], _, _ => by simp [pyHashes, valHashes]
  | [], _ :: _, h, _ => by simp [AllIs] at h
  | _ :: _, [], h, _ => by simp [AllIs] at h
  | x :: xs, k :: ks, h, hl => by
    simp only [AllIs] at h
    simp only [AllListless] at hl
    have h1 := pyHash_spec E x k h.1 hl.1
    have h2 := pyHashes_spec E xs ks h.2 hl.2
    simp [pyHashes, valHashes, h1, h2, bind, Except.bind, pure, Except.pure]
end

/-! ## Floats -/

theorem sign_mul (neg : Bool) (x : Nat) : ((if neg then -(x : Int) else (x : Int)) : Int) = (-1) ^ (if neg then 1 else 0) * (x : Int) := by
  cases neg <;> simp

theorem fval_spec (eb fb bits : Nat) :
    (ieee eb fb bits = none → fval eb fb bits = .nan) ∧
    (∀ k, ieee eb fb bits = some k → ∀ i, Is (.float (fval eb fb bits) i) k) := by
  have hs : bits / 2 ^ (fb + eb) % 2 = if decide (bits / 2 ^ (fb + eb) % 2 = 1) = true then 1 else 0 := by
    have : bits / 2 ^ (fb + eb) % 2 < 2 := Nat.mod_lt _ (by omega)
    by_cases h : bits / 2 ^ (fb + eb) % 2 = 1
    · rw [if_pos (decide_eq_true h)]; exact h
    · rw [if_neg (by simpa using h)]; omega
  have h2 : (2 : ℚ) ^ fb ≠ 0 := pow_ne_zero _ (by norm_num)
  have hf0 : (((bits % 2 ^ fb : Nat) : ℚ) / 2 ^ fb = 0) ↔ bits % 2 ^ fb = 0 := by
    rw [div_eq_zero_iff]
    constructor
    · rintro (h | h)
      · exact_mod_cast h
      · exact absurd h h2
    · intro h; exact .inl (by exact_mod_cast h)
  unfold ieee fval
  simp only []
  generalize bits / 2 ^ (fb + eb) % 2 = s at *
  generalize bits % 2 ^ fb = f at *
  generalize bits / 2 ^ fb % 2 ^ eb = ex at *
  by_cases h1 : ex = 2 ^ eb - 1
  · rw [if_pos h1, if_pos h1]
    by_cases hz : f = 0
    · rw [if_pos hz, if_pos (hf0.mpr hz)]
      refine ⟨fun h => (by cases h), fun k hk i => ?_⟩
      cases hk
      simp only [Is]
    · rw [if_neg hz, if_neg (fun h => hz (hf0.mp h))]
      exact ⟨fun _ => rfl, fun k hk => by cases hk⟩
  · rw [if_neg h1, if_neg h1]
    by_cases h3 : ex = 0
    · rw [if_pos h3, if_pos h3]
      refine ⟨fun h => (by cases h), fun k hk i => ?_⟩
      cases hk
      simp only [Is]
      unfold FVal.rat
      rw [sign_mul, ← hs]
      push_cast
      rw [show ((1 : Int) - (2 ^ (eb - 1) - 1) - (fb : Int)) = (1 - (2 ^ (eb - 1) - 1)) - (fb : Int) by ring,
        zpow_sub₀ (by norm_num : (2 : ℚ) ≠ 0) _ (fb : Int), zpow_natCast]
      field_simp
    · rw [if_neg h3, if_neg h3]
      refine ⟨fun h => (by cases h), fun k hk i => ?_⟩
      cases hk
      simp only [Is]
      unfold FVal.rat
      rw [sign_mul, ← hs]
      push_cast
      rw [zpow_sub₀ (by norm_num : (2 : ℚ) ≠ 0) _ (fb : Int), zpow_natCast]
      field_simp

theorem floatOf_nan {fmt : Fmt} (hf : fmt = .f ∨ fmt = .d) {bits : Nat} (h : floatKey fmt bits = none) :
    floatOf fmt (bits : Int) = .nan := by
  rcases hf with rfl | rfl <;> exact (fval_spec _ _ _).1 h

theorem floatOf_spec {fmt : Fmt} {bits : Nat} {k : KVal} (h : floatKey fmt bits = some k) :
    (fmt = .f ∨ fmt = .d) ∧ ∀ i, Is (.float (floatOf fmt (bits : Int)) i) k := by
  cases fmt <;> first | (cases h; done) | skip
  · exact ⟨.inl rfl, (fval_spec _ _ _).2 k h⟩
  · exact ⟨.inr rfl, (fval_spec _ _ _).2 k h⟩

/-! ## Tidy messages -/

theorem Tidy.denotes {o : StructObj} {v : Val} (h : Tidy o v) : Denotes o v := by
  obtain ⟨B, t, ds, ps, data, ptrs, h1, h2, h3, h4, h5, h6, -⟩ := h
  exact ⟨B, none, t, ds, ps, data, ptrs, h1, (by intro _ h; cases h), h3, h4, h5, h6, h2⟩

theorem lay_list_bounds {B : Bytes} {pos w s e : Nat} {v : Val} (hpos : 8 ∣ pos) (h : Lay true B pos w v s e) (s1 : v ≠ .null)
    (s2 : ∀ d p, v ≠ .struct d p) : kind w = 1 ∧ target pos w = s ∧ 8 ∣ s := by
  obtain ⟨a, b⟩ := lay_list_start h s1 s2
  exact ⟨a, b, target_dvd (by omega) b⟩

theorem tidy_list {o : StructObj} {data : Bytes} {ptrs : List Val} (h : Tidy o (.struct data ptrs)) {j : Nat} {v : Val}
    (hj : ptrs[j]? = some v) (s1 : v ≠ .null) (s2 : ∀ d p, v ≠ .struct d p) (it : ItemType) :
    ∃ l, o.readList ((8 * j : Nat) : Int) it = .ok (some l) ∧ l.itemType = it ∧ CleanList l v := by
  obtain ⟨B, t, ds, ps, data', ptrs', rfl, h2, h8, h4, h5, h6, h7⟩ := h
  injection h2 with e1 e2
  subst e1 e2
  obtain ⟨s, e, hs, he, hlay⟩ := h7 j v hj
  have hjl := getElem?_lt hj
  obtain ⟨k1, k2, k3⟩ := lay_list_bounds (by omega) hlay s1 s2
  have hps := h6.2.2.1
  obtain ⟨l, r1, r2, r3⟩ := readList_slot' h8 (by omega) h6.1 (h6.2.2.2 j v hj) s1 s2 it k2
  exact ⟨l, r1, r2, B, none, _, _, s, e, by rw [r2]; exact r3, k1, k3, hs, hlay, he⟩

theorem tidy_struct {o : StructObj} {data : Bytes} {ptrs : List Val} (h : Tidy o (.struct data ptrs)) {j : Nat} {d : Bytes}
    {p : List Val} (hj : ptrs[j]? = some (.struct d p)) :
    ∃ o', o.readStruct ((8 * j : Nat) : Int) = .ok (some o') ∧ Tidy o' (.struct d p) := by
  obtain ⟨B, t, ds, ps, data', ptrs', rfl, h2, h8, h4, h5, h6, h7⟩ := h
  injection h2 with e1 e2
  subst e1 e2
  obtain ⟨s, e, hs, he, hlay⟩ := h7 j _ hj
  have hden := h6.2.2.2 j _ hj
  have hb := h6.1
  have hps := h6.2.2.1
  have hjl := getElem?_lt hj
  have hw := wordAt_lt B (t + 8 * ds + 8 * j)
  have hm := signed64_mod _ hw
  have hk : kind (wordAt B (t + 8 * ds + 8 * j)) = 0 ∧ wordAt B (t + 8 * ds + 8 * j) ≠ 0 := by
    generalize wordAt B (t + 8 * ds + 8 * j) = w at hlay
    cases hlay with
    | empty => decide
    | struct _ _ _ _ _ _ _ a b => exact ⟨b, a⟩
  obtain ⟨hk0, hw0⟩ := hk
  have e1 : (objAt B none t ds ps).resolve ((8 * j : Nat) : Int)
      = .ok (((t + 8 * ds + 8 * j : Nat) : Int), signed64 (wordAt B (t + 8 * ds + 8 * j))) := by
    unfold StructObj.resolve StructObj.readFastPtr objAt
    simp only
    rw [if_neg (by omega), show (((t + 8 * ds : Nat) : Int) + ((8 * j : Nat) : Int))
      = ((t + 8 * ds + 8 * j : Nat) : Int) by push_cast; ring, bind_okP (readPtr_at (by omega)),
      Ptr.kind_spec hm, if_neg (by unfold Ptr.FAR; omega)]
    refine congrArg Except.ok ?_
    refine Prod.ext ?_ rfl
    push_cast; ring
  have hpos : (8 : Int) ∣ ((t + 8 * ds + 8 * j : Nat) : Int) := by omega
  generalize hpd : t + 8 * ds + 8 * j = pos at *
  generalize hwd : wordAt B pos = w at *
  generalize hq : ((pos : Nat) : Int) = q at hden
  generalize hv : Val.struct d p = v at hden
  cases hden with
  | struct _ _ t' d' p' a1 a2 a3 a4 a5 a6 a7 =>
    injection hv with v1 v2
    subst v1 v2
    subst hq
    have ht8 : 8 ∣ t' := target_dvd hpos a3
    refine ⟨objAt B none t' (dataSize w) (ptrsSize w), ?_, B, t', dataSize w, ptrsSize w, d, p, rfl, rfl, ht8,
      spec_dataSize_lt w, spec_ptrsSize_lt w, ⟨a4, a5, a6, a7⟩, ?_⟩
    · unfold StructObj.readStruct
      rw [bind_okP e1]
      simp only
      rw [if_neg (signed64_ne_zero hw hw0), if_neg (by rw [Ptr.kind_spec hm, hk0]; decide)]
      change (StructObj.initFromPointer (Seg.of B none) _ _ >>= _) = _
      have : StructObj.initFromPointer (Seg.of B none) (pos : Int) (signed64 w) = .ok (objAt B none t' (dataSize w) (ptrsSize w)) := by
        unfold StructObj.initFromPointer
        simp only [Ptr.kind_spec hm, hk0, deref_spec hm, a3, Ptr.dataSize_spec hm, Ptr.ptrsSize_spec hm]
        rw [if_neg (by decide)]
        exact initFromBuffer_nat a4
      rw [bind_okP this]
      rfl
    · intro i u hu
      cases hlay with
      | empty => simp at hu
      | struct _ _ _ _ _ _ ends b1 b2 b3 b4 b5 b6 b7 b8 b9 b10 =>
        have hss : (s : Int) = t' := by rw [← a3, ← b3]
        obtain rfl : s = t' := by omega
        have hmono : ∀ i, i ≤ p.length → s ≤ ends i ∧ ends i ≤ ends p.length := by
          have step : ∀ i, i < p.length → ends i ≤ ends (i + 1) := by
            intro i hi
            obtain ⟨u, hu⟩ := get_of_lt hi
            have := lay_size (b10 i u hu)
            omega
          have up : ∀ i, i ≤ p.length → s ≤ ends i := by
            intro i
            induction i with
            | zero => intro _; omega
            | succ i ih => intro hi; have := ih (by omega); have := step i (by omega); omega
          have down : ∀ k i, i + k = p.length → ends i ≤ ends p.length := by
            intro k
            induction k with
            | zero => intro i hi; rw [show i = p.length by omega]
            | succ k ih => intro i hi; have := ih (i + 1) (by omega); have := step i (by omega); omega
          exact fun i hi => ⟨up i hi, down (p.length - i) i (by omega)⟩
        have hi := getElem?_lt hu
        exact ⟨ends i, ends (i + 1), by have := hmono i (by omega); omega, by have := hmono (i + 1) (by omega); omega, b10 i u hu⟩
  | null => cases hv
  | listPrim => cases hv
  | listPtr => cases hv
  | listComp => cases hv
  | far => omega
  | far2 => omega

theorem compact_tidy {o : StructObj} {v : Val} (ho : Denotes o v) (hf : v.Fits) (hlen : o.seg.buf.length ≤ 2 ^ 32)
    (hsz : 8 + v.size ≤ 2 ^ 32) {fuel : Nat} (hfuel : 2 * v.depth ≤ fuel + 1) :
    ∃ o', o.compact fuel = .ok o' ∧ Tidy o' v := by
  obtain ⟨B0, offs0, t0, ds0, ps0, data, ptrs, -, -, -, -, -, -, rfl⟩ := id ho
  obtain ⟨B, ds, ps, -, -, h1, h2, -, h4, h5, h6, h7, -⟩ := compact_spec ho hf hlen hsz hfuel
  refine ⟨_, h1, B, 8, ds, ps, data, ptrs, rfl, rfl, by omega, h4, h5, h6, ?_⟩
  obtain ⟨ends, e0, e1, e2⟩ := ends_of_ptrsLay h7
  have step : ∀ i, i < ptrs.length → ends i ≤ ends (i + 1) := by
    intro i hi
    obtain ⟨u, hu⟩ := get_of_lt hi
    have := lay_size (e2 i u hu)
    omega
  have up : ∀ i, i ≤ ptrs.length → 8 ≤ ends i := by
    intro i
    induction i with
    | zero => intro _; omega
    | succ i ih => intro hi; have := ih (by omega); have := step i (by omega); omega
  have down : ∀ k i, i + k = ptrs.length → ends i ≤ B.length := by
    intro k
    induction k with
    | zero => intro i hi; rw [show i = ptrs.length by omega, e1]
    | succ k ih => intro i hi; have := ih (i + 1) (by omega); have := step i (by omega); omega
  intro j u hu
  have hj := getElem?_lt hu
  exact ⟨ends j, ends (j + 1), up j (by omega), down (ptrs.length - (j + 1)) (j + 1) (by omega), e2 j u hu⟩

/-! ## Reading keys -/

/-- `x` is an object for the key `k`. -/
def Good (lists : Bool) (x : Obj) (k : KVal) (n : Nat) : Prop :=
  Is x k ∧ objDepth x ≤ n + 1 ∧ (lists = false → Listless k)

def ObjSpec (lists : Bool) (rec : Nat → StructObj → Nat → Py (Obj × Nat)) (kr : Nat → Val → Option KVal) (n : Nat) : Prop :=
  ∀ c v k, kr c v = some k → ∀ o, Denotes o v → (lists = true → Tidy o v) → ∀ i, ∃ x i', rec c o i = .ok (x, i') ∧ Good lists x k n

theorem ofPy_is {x : PyObj} {k : KeyVal} (hk : ∀ ks, k ≠ .tuple ks) (hc : Comparable x) (hd : denote x = k) :
    Is (ofPy x) (.of k) ∧ objDepth (ofPy x) = 1 ∧ Listless (.of k) := by
  subst hd
  cases x with
  | tuple xs => exact absurd rfl (hk _)
  | keyed xs => exact absurd rfl (hk _)
  | unkeyed => exact absurd hc (by simp [Comparable])
  | _ => simp [ofPy, denote, KVal.of, Is, objDepth, Listless]

theorem kindKey_atom {data : Bytes} {ptrs : List Val} {kd : Kind} {k : KeyVal}
    (h : kindKey false (fun _ _ => none) data ptrs kd = some k) : ∀ ks, k ≠ .tuple ks := by
  rcases KeyRead.kindKey_cases h with ⟨hk, rfl⟩ | ⟨j, t, hk, ht, rfl⟩ | ⟨j, hk, ht, rfl, _⟩ | ⟨j, b, hk, ht, hb, rfl⟩ |
    ⟨j, t, hk, ht, rfl⟩ | ⟨c, j, hk, hc, rfl⟩ | ⟨c, j, d, p, hk, hc, hkr⟩ | ⟨c, hk, hkr⟩ | ⟨i, hi, rfl⟩
  · simp
  · cases t <;> simp
  · simp
  · simp
  · cases t <;> simp
  · simp
  · cases hkr
  · cases hkr
  · simp

/-- A field read by Model/KeyRead.lean. -/
theorem prop0_old {lists : Bool} {E : Env} {rec : Nat → StructObj → Nat → Py (Obj × Nat)} {o : StructObj} {data : Bytes} {ptrs : List Val}
    (ho : Denotes o (.struct data ptrs)) {u : Option Nat} {f : RField} (ha : Active data u f.disc) {k : KVal} {n : Nat}
    (h : (kindKey false (fun _ _ => none) data ptrs f.kind).map KVal.of = some k) (i : Nat)
    (hp : prop0 E rec o u f i = (do
      let x ← KeyRead.prop0 (fun _ _ => .error .notImplemented) o u f
      pure (ofPy x, i))) : ∃ x i', prop0 E rec o u f i = .ok (x, i') ∧ Good lists x k n := by
  cases hk : kindKey false (fun _ _ => none) data ptrs f.kind with
  | none => rw [hk] at h; cases h
  | some k0 =>
    rw [hk] at h
    injection h with h
    subst h
    obtain ⟨x, hx, hg⟩ := KeyRead.kindKey_prop0 (strict := false) (rec := fun _ _ => .error .notImplemented) (kr := fun _ _ => none) (n := n)
      (by intro c v k hk; cases hk) ho ha hk
    obtain ⟨a, b, c⟩ := ofPy_is (kindKey_atom hk) hg.1 hg.2.1
    rw [hp, bind_okP hx]
    exact ⟨_, _, rfl, a, by omega, fun _ => c⟩

theorem child_get {ptrs : List Val} {j : Nat} {v : Val} (h : child ptrs j = v) (hv : v ≠ .null) : ptrs[j]? = some v := by
  subst h
  exact child_some hv

theorem valueOf_float {fmt : Fmt} {bs : Bytes} (h : fmt = .f ∨ fmt = .d) : valueOf fmt bs = (leNat bs : Int) := by
  rcases h with rfl | rfl <;> rfl

theorem kindKeyM_prop0 {lists : Bool} {E : Env} {rec : Nat → StructObj → Nat → Py (Obj × Nat)} {kr : Nat → Val → Option KVal} {n : Nat}
    (hrec : ObjSpec lists rec kr n) {o : StructObj} {data : Bytes} {ptrs : List Val} (ho : Denotes o (.struct data ptrs))
    (ht : lists = true → Tidy o (.struct data ptrs)) {u : Option Nat} {f : RField} (ha : Active data u f.disc)
    {k : KVal}
    (h : kindKeyM lists E kr data ptrs f.kind = some k) (i : Nat) :
    ∃ x i', prop0 E rec o u f i = .ok (x, i') ∧ Good lists x k n := by
  have hm := KeyRead.active_ensure ho ha
  cases hkd : f.kind with
  | float fmt off d =>
    rw [hkd] at h
    simp only [kindKeyM] at h
    split at h
    · rename_i hd
      have hread := readPrimitive_zext ho (k := off * fmt.size) (fmt := fmt) (Nat.dvd_mul_left _ _)
      rw [valueOf_float (floatOf_spec h).1] at hread
      refine ⟨.float (floatOf fmt ((leNat (bytesZ data (off * fmt.size) fmt.size) : Nat) : Int)) i, i + 1, ?_, ?_, ?_, ?_⟩
      · unfold prop0
        rw [hkd]
        simp only []
        rw [bind_okP hm, bind_okP hread, if_neg (by simpa using hd)]
        rfl
      · exact (floatOf_spec h).2 i
      · simp [objDepth]
      · intro _
        have := (floatOf_spec h).2 i
        cases k <;> first | trivial | (generalize floatOf fmt _ = v at this; cases v <;> simp [Is] at this)
    · cases h
  | list it j =>
    rw [hkd] at h
    simp only [kindKeyM] at h
    split at h
    · rename_i hl
      have hread := C10_list o data ptrs ho j (it.toItemType E)
      rw [Nat.mul_comm 8 j] at hread
      by_cases hn : child ptrs j = .null
      · rw [hn] at h
        simp only [listKey] at h
        injection h with h
        subst h
        refine ⟨.none, i, ?_, by simp [Is], by simp [objDepth], fun _ => by simp [Listless]⟩
        unfold prop0
        rw [hkd]
        simp only []
        rw [bind_okP hm, bind_okP (hread.1 hn)]
        rfl
      · have h' : FlatItem (it.toItemType E) ∧ (elems (it.toItemType E) (child ptrs j)).isSome ∧
            k = .list (it.toItemType E) (child ptrs j) := by
          generalize child ptrs j = v at h hn
          unfold listKey at h
          split at h
          · exact absurd rfl hn
          · split at h
            · rename_i hc
              injection h with h
              exact ⟨hc.1, hc.2, h.symm⟩
            · cases h
        obtain ⟨hf, he, rfl⟩ := h'
        have hs : ∀ d p, child ptrs j ≠ .struct d p := by
          intro d p e
          rw [e] at he
          cases hit : it.toItemType E <;> rw [hit] at he <;> simp [elems] at he
        obtain ⟨l, r1, r2, r3⟩ := tidy_list (ht hl) (child_get rfl hn) hn hs (it.toItemType E)
        rw [Nat.mul_comm 8 j] at r1
        refine ⟨.list l i, i + 1, ?_, ?_, by simp [objDepth], fun e => by rw [hl] at e; cases e⟩
        · unfold prop0
          rw [hkd]
          simp only []
          rw [bind_okP hm, bind_okP r1]
          rfl
        · simp only [Is]
          exact ⟨r2, hf, r3, he⟩
    · cases h
  | struct c j =>
    rw [hkd] at h
    simp only [kindKeyM] at h
    split at h
    · rename_i hn
      injection h with h
      subst h
      refine ⟨.none, i, ?_, by simp [Is], by simp [objDepth], fun _ => by simp [Listless]⟩
      have hd := (C10_struct o data ptrs ho j).1 hn
      rw [Nat.mul_comm 8 j] at hd
      unfold prop0
      rw [hkd]
      simp only []
      rw [bind_okP hm, bind_okP hd]
      rfl
    · rename_i d p hc
      obtain ⟨o', hd, ho'⟩ := (C10_struct o data ptrs ho j).2.1 d p hc
      have ht' : lists = true → Tidy o' (.struct d p) := by
        intro hl
        obtain ⟨o'', h1, h2⟩ := tidy_struct (ht hl) (child_get hc (by simp))
        rw [hd] at h1
        injection h1 with h1
        injection h1 with h1
        subst h1
        exact h2
      rw [Nat.mul_comm 8 j] at hd
      obtain ⟨x, i', hx, hg⟩ := hrec c _ k h o' ho' ht' i
      refine ⟨x, i', ?_, hg⟩
      unfold prop0
      rw [hkd]
      simp only []
      rw [bind_okP hm, bind_okP hd]
      exact hx
    · cases h
  | group c nl =>
    cases nl with
    | true =>
      rw [hkd] at h
      simp only [kindKeyM] at h
      cases h
    | false =>
      rw [hkd] at h
      simp only [kindKeyM] at h
      obtain ⟨x, i', hx, hg⟩ := hrec c _ k h o ho ht i
      refine ⟨x, i', ?_, hg⟩
      unfold prop0
      rw [hkd]
      simp only []
      rw [bind_okP hm, bind_okP (Short.group_spec ho)]
      exact hx
  | _ =>
    refine prop0_old ho ha ?_ i ?_
    · rw [hkd]
      rw [hkd] at h
      exact h
    · unfold prop0
      rw [hkd]

theorem prop0_int {E : Env} {rec : Nat → StructObj → Nat → Py (Obj × Nat)} {o : StructObj} {data : Bytes} {ptrs : List Val}
    (ho : Denotes o (.struct data ptrs)) {u : Option Nat} {f : RField} (ha : Active data u f.disc) {v : Int}
    (h : intKey data f.kind = some v) (i : Nat) : prop0 E rec o u f i = .ok (.int v, i) := by
  have hp := KeyRead.prop0_int (rec := fun _ _ => .error .notImplemented) ho ha h
  unfold prop0
  rcases KeyRead.intKey_cases h with ⟨fmt, off, d, hk, -⟩ | ⟨off, d, hk, -⟩ | ⟨m, off, d, hk, -⟩ <;> rw [hk] <;>
    (simp only []; rw [bind_okP hp]; rfl)

/-- What `fieldKeyM` says, case by case. -/
theorem fieldKeyM_cases {lists : Bool} {E : Env} {kr : Nat → Val → Option KVal} {data : Bytes} {ptrs : List Val}
    {u : Option Nat} {f : RField} {k : KVal} (h : fieldKeyM lists E kr data ptrs u f = some k) :
    Active data u f.disc ∧
    ((∃ c isNull value i, f.kind = .group c true ∧ (E.cls c).fields = [isNull, value] ∧
      Active data (E.cls c).union isNull.disc ∧ Active data (E.cls c).union value.disc ∧
      intKey data isNull.kind = some i ∧
      ((i = 0 ∧ kindKeyM lists E kr data ptrs value.kind = some k) ∨ (i ≠ 0 ∧ k = .none))) ∨
    ((∀ c, f.kind ≠ .group c true) ∧ kindKeyM lists E kr data ptrs f.kind = some k)) := by
  unfold fieldKeyM at h
  by_cases ha : Active data u f.disc
  · rw [if_pos ha] at h
    refine ⟨ha, ?_⟩
    by_cases hg : ∃ c, f.kind = .group c true
    · obtain ⟨c, hk⟩ := hg
      left
      rw [hk] at h
      simp only [] at h
      split at h
      · rename_i isNull value hf
        by_cases hc : Active data (E.cls c).union isNull.disc ∧ Active data (E.cls c).union value.disc
        · rw [if_pos hc] at h
          cases hi : intKey data isNull.kind with
          | none => rw [hi] at h; cases h
          | some i =>
            rw [hi] at h
            refine ⟨c, isNull, value, i, hk, hf, hc.1, hc.2, hi, ?_⟩
            by_cases h0 : i = 0
            · subst h0; exact .inl ⟨rfl, h⟩
            · right
              refine ⟨h0, ?_⟩
              split at h
              · rename_i heq; cases heq
              · rename_i heq; injection heq with heq; exact absurd heq h0
              · injection h with h; exact h.symm
        · rw [if_neg hc] at h; cases h
      · cases h
    · right
      refine ⟨fun c hc => hg ⟨c, hc⟩, ?_⟩
      split at h
      · rename_i c hk; exact absurd ⟨c, hk⟩ hg
      · exact h
  · rw [if_neg ha] at h; cases h

theorem fieldKeyM_prop {lists : Bool} {E : Env} {rec : Nat → StructObj → Nat → Py (Obj × Nat)} {kr : Nat → Val → Option KVal} {n : Nat}
    (hrec : ObjSpec lists rec kr n) {o : StructObj} {data : Bytes} {ptrs : List Val} (ho : Denotes o (.struct data ptrs))
    (ht : lists = true → Tidy o (.struct data ptrs)) {u : Option Nat} {f : RField} {k : KVal}
    (h : fieldKeyM lists E kr data ptrs u f = some k) (i : Nat) :
    ∃ x i', prop E rec o u f i = .ok (x, i') ∧ Good lists x k n := by
  obtain ⟨ha, ⟨c, isNull, value, v, hk, hf, h1, h2, hi, hv⟩ | ⟨hk, hv⟩⟩ := fieldKeyM_cases h
  · unfold prop
    rw [hk]
    simp only []
    rw [bind_okP (KeyRead.active_ensure ho ha), bind_okP (Short.group_spec ho), hf]
    simp only []
    rw [bind_okP (prop0_int ho h1 hi i)]
    rcases hv with ⟨rfl, hv⟩ | ⟨h0, rfl⟩
    · exact kindKeyM_prop0 hrec ho ht h2 hv i
    · refine ⟨.none, i, ?_, by simp [Is], by simp [objDepth], fun _ => by simp [Listless]⟩
      simp only []
      rw [if_pos (by simp [truthy, h0])]; rfl
  · have : prop E rec o u f i = prop0 E rec o u f i := by
      unfold prop
      split
      · rename_i c hc; exact absurd hc (hk c)
      · rfl
    rw [this]
    exact kindKeyM_prop0 hrec ho ht ha hv i

theorem keyValues_spec {lists : Bool} {E : Env} {rec : Nat → StructObj → Nat → Py (Obj × Nat)} {kr : Nat → Val → Option KVal} {n : Nat}
    (hrec : ObjSpec lists rec kr n) {o : StructObj} {data : Bytes} {ptrs : List Val} (ho : Denotes o (.struct data ptrs))
    (ht : lists = true → Tidy o (.struct data ptrs))
    {u : Option Nat} : ∀ {fs : List RField} {kv : List KVal}, allSome (fieldKeyM lists E kr data ptrs u) fs = some kv → ∀ i,
    ∃ xs i', keyValues E rec o u fs i = .ok (xs, i') ∧ AllIs xs kv ∧ objDepths xs ≤ n + 1 ∧ (lists = false → AllListless kv)
  | [], kv, h, i => by
    cases h
    exact ⟨[], i, rfl, by simp [AllIs], by simp [objDepths], fun _ => by simp [AllListless]⟩
  | f :: fs, kv, h, i => by
    unfold allSome at h
    cases h1 : fieldKeyM lists E kr data ptrs u f with
    | none => rw [h1] at h; cases h
    | some k =>
      cases h2 : allSome (fieldKeyM lists E kr data ptrs u) fs with
      | none => rw [h1, h2] at h; cases h
      | some ks =>
        rw [h1, h2] at h
        cases h
        obtain ⟨x, i', hx, g1, g2, g3⟩ := fieldKeyM_prop hrec ho ht h1 i
        obtain ⟨xs, i'', hxs, e1, e2, e3⟩ := keyValues_spec hrec ho ht h2 i'
        refine ⟨x :: xs, i'', ?_, ?_, ?_, ?_⟩
        · unfold keyValues
          rw [bind_okP hx]
          simp only []
          rw [bind_okP hxs]; rfl
        · simp only [AllIs]; exact ⟨g1, e1⟩
        · simp only [objDepths]; omega
        · intro hl; simp only [AllListless]; exact ⟨g3 hl, e3 hl⟩

/-- The object for a message has the key of the value. -/
theorem objectOf_spec (lists : Bool) (E : Env) (ks : Nat → Option (List RField)) :
    ∀ n, ObjSpec lists (objectOf E ks n) (keyOfM lists E ks n) n
  | 0 => by intro c v k h; cases h
  | n + 1 => by
    intro c v k h o ho ht i
    cases v with
    | null => cases h
    | listPrim _ _ _ => cases h
    | listPtr _ => cases h
    | listComp _ _ _ => cases h
    | struct data ptrs =>
      unfold keyOfM at h
      cases hc : ks c with
      | none => rw [hc] at h; cases h
      | some fs =>
        rw [hc] at h
        simp only [] at h
        cases h2 : allSome (fieldKeyM lists E (keyOfM lists E ks n) data ptrs (E.cls c).union) fs with
        | none => rw [h2] at h; cases h
        | some kv =>
          rw [h2] at h
          cases h
          obtain ⟨xs, i', hxs, e1, e2, e3⟩ := keyValues_spec (objectOf_spec lists E ks n) ho ht h2 i
          refine ⟨.keyed xs, i', ?_, ?_, ?_, ?_⟩
          · unfold objectOf
            rw [hc]
            simp only []
            rw [bind_okP hxs]; rfl
          · simp only [Is]; exact e1
          · simp only [objDepth]; omega
          · intro hl; simp only [Listless]; exact e3 hl

end Capnpy.KeyMore
