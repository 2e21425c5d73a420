import Verif.Spec.Object
import Verif.Proof.Endof

/-! # Objects: copying, compacting, the compactness check -/

namespace Capnpy

open Spec

/-! ## Layouts: moving, and dropping the empty-struct convention -/

/-- A layout survives moving its bytes: `x` and `x'` correspond when
`x + b = x' + a`. -/
theorem lay_shift {ae : Bool} {B B' : Bytes} {a b : Nat} {pos w s e : Nat} {v : Val}
    (h : Lay ae B pos w v s e) :
    ∀ pos' s' e' : Nat, pos + b = pos' + a → s + b = s' + a → e + b = e' + a →
      e' ≤ B'.length →
      (∀ x x' : Nat, x + b = x' + a → s ≤ x → x < e → B'[x']? = B[x]?) →
      Lay ae B' pos' w v s' e' := by
  induction h with
  | null => intro pos' s' e' h1 h2 h3 _ _; obtain rfl : s' = e' := by omega
            exact .null _ _
  | empty _ _ h => intro pos' s' e' h1 h2 h3 _ _; obtain rfl : s' = e' := by omega
                   exact .empty _ _ h
  | struct pos w s e data ptrs ends hw hk ht hb hd hl hne h0 he hp ih =>
    intro pos' s' e' h1 h2 h3 hlen hag
    have hfull := lay_size (Lay.struct (ae := ae) pos w s e data ptrs ends hw hk ht hb hd hl hne h0 he hp)
    have hdl : data.length = 8 * dataSize w := by rw [hd]; exact slice_length_of_le (by omega)
    simp only [Val.size] at hfull
    have hends : ∀ j, j ≤ ptrs.length → ends j = s + 8 * (dataSize w + ptrsSize w)
        + Val.sizes (ptrs.take j) := by
      intro j
      induction j with
      | zero => intro _; simp [Val.sizes, h0]
      | succ j ihj =>
        intro hj
        have hgt : ptrs[j]? = some ptrs[j] := List.getElem?_eq_getElem (by omega)
        have h1 := lay_size (hp j _ hgt)
        have h2 := ihj (by omega)
        rw [Val.sizes_take hgt]
        omega
    refine .struct pos' w s' e' data ptrs (fun j => s' + 8 * (dataSize w + ptrsSize w)
        + Val.sizes (ptrs.take j)) hw hk ?_ (by omega) ?_ hl hne (by simp [Val.sizes]) ?_ ?_
    · unfold target at ht ⊢; omega
    · rw [hd]; apply slice_congr
      intro k hk'
      exact (hag _ _ (by omega) (by omega) (by omega)).symm
    · rw [List.take_length]; omega
    · intro j v hj
      have hjl := getElem?_lt hj
      have hw' : wordAt B' (s' + 8 * dataSize w + 8 * j) = wordAt B (s + 8 * dataSize w + 8 * j) := by
        apply wordAt_congr; intro k hk'
        exact hag _ _ (by omega) (by omega) (by omega)
      have e1 := hends j (by omega)
      have e2 := hends (j + 1) (by omega)
      have := Val.sizes_take_le ptrs j
      have := Val.sizes_take_le ptrs (j + 1)
      rw [hw']
      apply ih j v hj
      · omega
      · omega
      · omega
      · omega
      · intro x x' hx h5 h6
        exact hag x x' hx (by omega) (by omega)
  | listPrim pos w s hk hg ht hb hz =>
    intro pos' s' e' h1 h2 h3 hlen hag
    have hwa : primLen (listTag w) (listCount w) ≤ wordAlign (primLen (listTag w) (listCount w)) := by
      unfold wordAlign; omega
    have := Lay.listPrim (ae := ae) (B := B') pos' w s' hk hg (by unfold target at ht ⊢; omega)
      (by omega) (by
        intro h k hk1 hk2
        rw [hag (s + k) (s' + k) (by omega) (by omega) (by omega)]
        exact hz h k hk1 hk2)
    have hsl : slice B' s' (primLen (listTag w) (listCount w))
        = slice B s (primLen (listTag w) (listCount w)) := by
      apply slice_congr; intro k hk'
      exact hag _ _ (by omega) (by omega) (by omega)
    rw [hsl] at this
    obtain rfl : e' = s' + wordAlign (primLen (listTag w) (listCount w)) := by omega
    exact this
  | listPtr pos w s e items ends hk hg ht hb hl h0 he hp ih =>
    intro pos' s' e' h1 h2 h3 hlen hag
    have hfull := lay_size (Lay.listPtr (ae := ae) pos w s e items ends hk hg ht hb hl h0 he hp)
    simp only [Val.size] at hfull
    have hends : ∀ j, j ≤ items.length → ends j = s + 8 * listCount w
        + Val.sizes (items.take j) := by
      intro j
      induction j with
      | zero => intro _; simp [Val.sizes, h0]
      | succ j ihj =>
        intro hj
        have hgt : items[j]? = some items[j] := List.getElem?_eq_getElem (by omega)
        have h1 := lay_size (hp j _ hgt)
        have h2 := ihj (by omega)
        rw [Val.sizes_take hgt]
        omega
    refine .listPtr pos' w s' e' items (fun j => s' + 8 * listCount w
        + Val.sizes (items.take j)) hk hg ?_ (by omega) hl (by simp [Val.sizes]) ?_ ?_
    · unfold target at ht ⊢; omega
    · rw [List.take_length]; omega
    · intro j v hj
      have hjl := getElem?_lt hj
      have hw' : wordAt B' (s' + 8 * j) = wordAt B (s + 8 * j) := by
        apply wordAt_congr; intro k hk'
        exact hag _ _ (by omega) (by omega) (by omega)
      have e1 := hends j (by omega)
      have e2 := hends (j + 1) (by omega)
      have := Val.sizes_take_le items j
      have := Val.sizes_take_le items (j + 1)
      rw [hw']
      apply ih j v hj
      · omega
      · omega
      · omega
      · omega
      · intro x x' hx h5 h6
        exact hag x x' hx (by omega) (by omega)
  | listComp pos w s e tag ds ps items ends hk hg ht hb htag hkt hds hps hn htot h0 he hstep hi hp ih =>
    intro pos' s' e' h1 h2 h3 hlen hag
    have hfull := lay_size (Lay.listComp (ae := ae) pos w s e tag ds ps items ends hk hg ht hb htag hkt
      hds hps hn htot h0 he hstep hi hp)
    simp only [Val.size] at hfull
    have hm : items.length * (8 * (ds + ps)) = 8 * (items.length * (ds + ps)) := by ring
    have hin : ∀ i (hil : i < items.length) j, j ≤ ps → ends i j = ends i 0
        + Val.sizes (items[i].2.take j) := by
      intro i hil j
      have hgi : items[i]? = some (items[i].1, items[i].2) := List.getElem?_eq_getElem hil
      induction j with
      | zero => intro _; simp [Val.sizes]
      | succ j ihj =>
        intro hj
        have hvl := (hi i _ _ hgi).2
        have hgt : items[i].2[j]? = some items[i].2[j] := List.getElem?_eq_getElem (by omega)
        have h1 := lay_size (hp i _ _ hgi j _ hgt)
        have h2 := ihj (by omega)
        rw [Val.sizes_take hgt]
        omega
    have hout : ∀ i, i ≤ items.length → ends i 0 = s + 8 + 8 * listCount w
        + Val.itemSizes (items.take i) := by
      intro i
      induction i with
      | zero => intro _; simp [Val.itemSizes, h0]
      | succ i ihi =>
        intro hil
        have hgi : items[i]? = some (items[i].1, items[i].2) := List.getElem?_eq_getElem (by omega)
        have h1 := hin i (by omega) ps (le_refl _)
        have hvl := (hi i _ _ hgi).2
        rw [show items[i].2.take ps = items[i].2 by rw [← hvl, List.take_length]] at h1
        rw [Val.itemSizes_take hgi, ← hstep i, h1, ihi (by omega)]
        omega
    have hpos : ∀ i, i < items.length → i * (8 * (ds + ps)) + 8 * (ds + ps) ≤ 8 * listCount w := by
      intro i hil
      have := mul_step (L := 8 * (ds + ps)) hil
      omega
    have hwt : wordAt B' s' = wordAt B s := by
      apply wordAt_congr; intro k hk'
      exact hag _ _ (by omega) (by omega) (by omega)
    have hge : ∀ i j, ends i j + b - a + a = ends i j + b ∨ ends i j + b < a := by intro i j; omega
    refine .listComp pos' w s' e' tag ds ps items (fun i j => ends i j + b - a)
      hk hg ?_ (by omega) (by rw [hwt]; exact htag) hkt hds hps hn htot (by omega) (by omega) ?_ ?_ ?_
    · unfold target at ht ⊢; omega
    · intro i; rw [hstep i]
    · intro i d vs hit
      refine ⟨?_, (hi i d vs hit).2⟩
      rw [(hi i d vs hit).1]
      have := hpos i (getElem?_lt hit)
      apply slice_congr; intro k hk'
      exact (hag _ _ (by omega) (by omega) (by omega)).symm
    · intro i d vs hit j v hj
      have hil := getElem?_lt hit
      have hjl := getElem?_lt hj
      have hvl := (hi i d vs hit).2
      have hge : items[i] = (d, vs) := by
        rw [List.getElem?_eq_getElem hil] at hit; exact Option.some.inj hit
      have := hpos i hil
      have hw' : wordAt B' (s' + 8 + i * (8 * (ds + ps)) + 8 * ds + 8 * j)
          = wordAt B (s + 8 + i * (8 * (ds + ps)) + 8 * ds + 8 * j) := by
        apply wordAt_congr; intro k hk'
        exact hag _ _ (by omega) (by omega) (by omega)
      have e1 := hin i hil j (by omega)
      have e2 := hin i hil (j + 1) (by omega)
      have e3 := hout i (by omega)
      rw [hge] at e1 e2
      have l1 := Val.sizes_take_le vs j
      have l2 := Val.sizes_take_le vs (j + 1)
      have l3 := Val.itemSizes_take hit
      have l4 := Val.itemSizes_take_le items (i + 1)
      simp only at e1 e2
      rw [hw']
      apply ih i d vs hit j v hj
      · omega
      · omega
      · omega
      · omega
      · intro x x' hx h5 h6
        exact hag x x' hx (by omega) (by omega)

/-- Without empty structs, the conventional encoding is never used. -/
theorem lay_strict {B : Bytes} {pos w s e : Nat} {v : Val} (h : Lay true B pos w v s e) :
    v.NoEmpty → Lay false B pos w v s e := by
  induction h with
  | null => intro _; exact .null _ _
  | empty => intro hn; simp [Val.NoEmpty] at hn
  | struct pos w s e data ptrs ends hw hk ht hb hd hl hne h0 he hp ih =>
    intro hn
    simp only [Val.NoEmpty] at hn
    exact .struct _ _ s e data ptrs ends hw hk ht hb hd hl (by intro h; cases h) h0 he
      (fun j v hj => ih j v hj (Val.allNoEmpty_get hn.2 hj))
  | listPrim pos w s hk hg ht hb hz => intro _; exact .listPrim _ _ s hk hg ht hb (by intro h; cases h)
  | listPtr pos w s e items ends hk hg ht hb hl h0 he hp ih =>
    intro hn
    simp only [Val.NoEmpty] at hn
    exact .listPtr _ _ s e items ends hk hg ht hb hl h0 he
      (fun j v hj => ih j v hj (Val.allNoEmpty_get hn hj))
  | listComp pos w s e tag ds ps items ends hk hg ht hb htag hkt hds hps hn htot h0 he hstep hi hp ih =>
    intro hne
    simp only [Val.NoEmpty] at hne
    exact .listComp _ _ s e tag ds ps items ends hk hg ht hb htag hkt hds hps hn htot h0 he hstep hi
      (fun i d vs hit j v hj => ih i d vs hit j v hj
        (Val.allNoEmpty_get (Val.itemsNoEmpty_get hne hit) hj))

end Capnpy
