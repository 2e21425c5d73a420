import Verif.Spec.Value
import Verif.Proof.Mem

/-! # Lemmas about value trees and layouts -/

namespace Capnpy.Spec

theorem Val.sizes_take {vs : List Val} {j : Nat} {v : Val} (h : vs[j]? = some v) :
    Val.sizes (vs.take (j + 1)) = Val.sizes (vs.take j) + v.size := by
  induction vs generalizing j with
  | nil => simp at h
  | cons x xs ih =>
    cases j with
    | zero => simp at h; subst h; simp [Val.sizes]
    | succ j =>
      simp at h
      have := ih h
      simp only [List.take_succ_cons, Val.sizes] at this ⊢
      omega

theorem Val.sizes_take_le (vs : List Val) (j : Nat) : Val.sizes (vs.take j) ≤ Val.sizes vs := by
  induction vs generalizing j with
  | nil => simp
  | cons x xs ih =>
    cases j with
    | zero => simp [Val.sizes]
    | succ j => simp only [List.take_succ_cons, Val.sizes]; have := ih j; omega

theorem Val.itemSizes_take {is : List (List UInt8 × List Val)} {j : Nat} {d : List UInt8}
    {vs : List Val} (h : is[j]? = some (d, vs)) :
    Val.itemSizes (is.take (j + 1)) = Val.itemSizes (is.take j) + Val.sizes vs := by
  induction is generalizing j with
  | nil => simp at h
  | cons x xs ih =>
    cases j with
    | zero => simp at h; subst h; simp [Val.itemSizes]
    | succ j =>
      simp at h
      have := ih h
      obtain ⟨xd, xv⟩ := x
      simp only [List.take_succ_cons, Val.itemSizes] at this ⊢
      omega

theorem Val.itemSizes_take_le (is : List (List UInt8 × List Val)) (j : Nat) :
    Val.itemSizes (is.take j) ≤ Val.itemSizes is := by
  induction is generalizing j with
  | nil => simp
  | cons x xs ih =>
    obtain ⟨xd, xv⟩ := x
    cases j with
    | zero => simp [Val.itemSizes]
    | succ j => simp only [List.take_succ_cons, Val.itemSizes]; have := ih j; omega

theorem Val.size_le_sizes {vs : List Val} {j : Nat} {v : Val} (h : vs[j]? = some v) :
    v.size ≤ Val.sizes vs := by
  have := Val.sizes_take h
  have := Val.sizes_take_le vs (j + 1)
  omega

theorem Val.depth_le {vs : List Val} {j : Nat} {v : Val} (h : vs[j]? = some v) :
    v.depth ≤ Val.depths vs := by
  induction vs generalizing j with
  | nil => simp at h
  | cons x xs ih =>
    cases j with
    | zero => simp at h; subst h; simp [Val.depths]
    | succ j => simp at h; have := ih h; simp only [Val.depths]; omega

theorem Val.itemDepth_le {is : List (List UInt8 × List Val)} {i j : Nat} {d : List UInt8}
    {vs : List Val} {v : Val} (hi : is[i]? = some (d, vs)) (h : vs[j]? = some v) :
    v.depth ≤ Val.itemDepths is := by
  induction is generalizing i with
  | nil => simp at hi
  | cons x xs ih =>
    obtain ⟨xd, xv⟩ := x
    cases i with
    | zero =>
      simp at hi; obtain ⟨rfl, rfl⟩ := hi
      have := Val.depth_le h; simp only [Val.itemDepths]; omega
    | succ i => simp at hi; have := ih hi; simp only [Val.itemDepths]; omega

theorem Val.allFits_get {vs : List Val} {j : Nat} {v : Val} (hf : Val.AllFits vs)
    (h : vs[j]? = some v) : v.Fits := by
  induction vs generalizing j with
  | nil => simp at h
  | cons x xs ih =>
    simp only [Val.AllFits] at hf
    cases j with
    | zero => simp at h; subst h; exact hf.1
    | succ j => simp at h; exact ih hf.2 h

theorem Val.itemsFit_get {is : List (List UInt8 × List Val)} {i : Nat} {d : List UInt8}
    {vs : List Val} (hf : Val.ItemsFit is) (hi : is[i]? = some (d, vs)) : Val.AllFits vs := by
  induction is generalizing i with
  | nil => simp at hi
  | cons x xs ih =>
    obtain ⟨xd, xv⟩ := x
    simp only [Val.ItemsFit] at hf
    cases i with
    | zero => simp at hi; obtain ⟨rfl, rfl⟩ := hi; exact hf.1
    | succ i => simp at hi; exact ih hf.2 hi

theorem Val.allNoEmpty_get {vs : List Val} {j : Nat} {v : Val} (hf : Val.AllNoEmpty vs)
    (h : vs[j]? = some v) : v.NoEmpty := by
  induction vs generalizing j with
  | nil => simp at h
  | cons x xs ih =>
    simp only [Val.AllNoEmpty] at hf
    cases j with
    | zero => simp at h; subst h; exact hf.1
    | succ j => simp at h; exact ih hf.2 h

theorem Val.itemsNoEmpty_get {is : List (List UInt8 × List Val)} {i : Nat} {d : List UInt8}
    {vs : List Val} (hf : Val.ItemsNoEmpty is) (hi : is[i]? = some (d, vs)) :
    Val.AllNoEmpty vs := by
  induction is generalizing i with
  | nil => simp at hi
  | cons x xs ih =>
    obtain ⟨xd, xv⟩ := x
    simp only [Val.ItemsNoEmpty] at hf
    cases i with
    | zero => simp at hi; obtain ⟨rfl, rfl⟩ := hi; exact hf.1
    | succ i => simp at hi; exact ih hf.2 hi

/-- A layout determines a denotation, whatever the segment table. -/
theorem Lay.den {ae : Bool} {B : List UInt8} {pos w s e : Nat} {v : Val}
    (offs : Option (List Nat)) (hpos : pos ≤ B.length)
    (hl : Lay ae B pos w v s e) : Den B offs (pos : Int) w v := by
  induction hl with
  | null pos s => exact .null _
  | empty pos s hae =>
    refine .struct _ _ pos _ _ (by decide) (by decide) ?_ ?_ ?_ ?_ ?_
    · have : offset emptyStructWord = -1 := by decide
      unfold target; rw [this]; omega
    · have : dataSize emptyStructWord = 0 := by decide
      have : ptrsSize emptyStructWord = 0 := by decide
      omega
    · have : dataSize emptyStructWord = 0 := by decide
      rw [this]; simp [slice]
    · decide
    · intro j v h; simp at h
  | struct pos w s e data ptrs ends hw hk ht hb hd hl hne h0 he hp ih =>
    refine .struct _ _ s _ _ hw hk ht hb hd hl ?_
    intro j v h
    have hj : j < ptrs.length := by
      by_contra hc; rw [List.getElem?_eq_none (by omega)] at h; cases h
    exact ih j v h (by omega)
  | listPrim pos w s hk hg ht hb hz => exact .listPrim _ _ s hk hg ht hb
  | listPtr pos w s e items ends hk hg ht hb hl h0 he hp ih =>
    refine .listPtr _ _ s _ hk hg ht hb hl ?_
    intro j v h
    have hj : j < items.length := by
      by_contra hc; rw [List.getElem?_eq_none (by omega)] at h; cases h
    exact ih j v h (by omega)
  | listComp pos w s e tag ds ps items ends hk hg ht hb htag hkt hds hps hn htot h0 he hstep hi hp ih =>
    refine .listComp _ _ s tag ds ps _ hk hg ht hb htag hkt hds hps hn htot hi ?_
    intro i d vs hit j v h
    refine ih i d vs hit j v h ?_
    have hii : i < items.length := by
      by_contra hc; rw [List.getElem?_eq_none (by omega)] at hit; cases hit
    have hj : j < vs.length := by
      by_contra hc; rw [List.getElem?_eq_none (by omega)] at h; cases h
    rw [(hi i d vs hit).2] at hj
    have h1 : (i + 1) * (ds + ps) ≤ items.length * (ds + ps) := Nat.mul_le_mul_right _ hii
    have h2 : (i + 1) * (ds + ps) = i * (ds + ps) + (ds + ps) := by ring
    have h3 : i * (8 * (ds + ps)) = 8 * (i * (ds + ps)) := by ring
    omega

theorem Lay.le {ae : Bool} {B : List UInt8} {pos w s e : Nat} {v : Val}
    (hl : Lay ae B pos w v s e) : s ≤ e := by
  have mono : ∀ (ends : Nat → Nat) (vs : List Val),
      (∀ j v, vs[j]? = some v → ends j ≤ ends (j + 1)) → ∀ n, n ≤ vs.length → ends 0 ≤ ends n := by
    intro ends vs h n
    induction n with
    | zero => intro _; exact le_refl _
    | succ n ih =>
      intro hn
      have h1 := ih (by omega)
      have h2 := h n vs[n] (by rw [List.getElem?_eq_getElem (by omega)])
      omega
  induction hl with
  | null => exact le_refl _
  | empty => exact le_refl _
  | struct pos w s e data ptrs ends hw hk ht hb hd hl hne h0 he hp ih =>
    have := mono ends ptrs ih ptrs.length (le_refl _)
    omega
  | listPrim => omega
  | listPtr pos w s e items ends hk hg ht hb hl h0 he hp ih =>
    have := mono ends items ih items.length (le_refl _)
    omega
  | listComp pos w s e tag ds ps items ends hk hg ht hb htag hkt hds hps hn htot h0 he hstep hi hp ih =>
    have : ∀ n, n ≤ items.length → ends 0 0 ≤ ends n 0 := by
      intro n
      induction n with
      | zero => intro _; exact le_refl _
      | succ n ihn =>
        intro hn
        have h1 := ihn (by omega)
        have hg : items[n]? = some (items[n].1, items[n].2) := by
          rw [List.getElem?_eq_getElem (by omega)]
        have h2 := mono (ends n) items[n].2 (ih n _ _ hg) items[n].2.length (le_refl _)
        rw [(hi n _ _ hg).2] at h2
        rw [hstep n] at h2
        omega
    have := this items.length (le_refl _)
    omega

end Capnpy.Spec
