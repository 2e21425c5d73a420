import Verif.Spec.Extent
import Verif.Proof.ListEq
import Verif.Proof.CtorCompact
import Mathlib.Order.Interval.Finset.Nat
import Mathlib.Data.Fintype.Card

namespace Capnpy.Spec

theorem lt_of_get {α : Type} {l : List α} {j : Nat} {x : α} (h : l[j]? = some x) : j < l.length :=
  (List.getElem?_eq_some_iff.mp h).1

theorem totalBytes_nil : totalBytes [] = 0 := rfl

theorem totalBytes_cons (a : Nat × Nat) (L : List (Nat × Nat)) : totalBytes (a :: L) = a.2 + totalBytes L := by
  simp [totalBytes]

theorem totalBytes_append (L M : List (Nat × Nat)) : totalBytes (L ++ M) = totalBytes L + totalBytes M := by
  simp [totalBytes]

theorem totalBytes_flatMap (Ls : Nat → List (Nat × Nat)) (n : Nat) :
    totalBytes ((List.range n).flatMap Ls) = ((List.range n).map fun j => totalBytes (Ls j)).sum := by
  induction n with
  | zero => rfl
  | succ n ih =>
    rw [List.range_succ, List.flatMap_append, totalBytes_append, ih, List.map_append, List.sum_append]
    simp

theorem sizes_sum : ∀ vs : List Val, Val.sizes vs = (vs.map Val.size).sum
  | [] => by simp [Val.sizes]
  | v :: vs => by simp [Val.sizes, sizes_sum vs]

theorem itemSizes_sum : ∀ is : List (List UInt8 × List Val), Val.itemSizes is = (is.map fun x => Val.sizes x.2).sum
  | [] => by simp [Val.itemSizes]
  | (_, vs) :: is => by simp [Val.itemSizes, itemSizes_sum is]

/-- A sum over a list, by indexes. -/
theorem sum_range {α : Type} (l : List α) (f : α → Nat) (g : Nat → Nat) (h : ∀ j x, l[j]? = some x → f x = g j) :
    (l.map f).sum = ((List.range l.length).map g).sum := by
  congr 1
  apply List.ext_getElem?
  intro j
  rw [List.getElem?_map, List.getElem?_map]
  by_cases hj : j < l.length
  · obtain ⟨x, hx⟩ := get_of_lt hj
    rw [hx, List.getElem?_range hj, Option.map_some, Option.map_some, h j x hx]
  · rw [List.getElem?_eq_none (by omega), List.getElem?_eq_none (by simpa using hj)]
    rfl

/-- The objects of a well-formed pointer take as many bytes as its value. -/
theorem extents_size {B : List UInt8} {offs : Option (List Nat)} {o : Int} {w : Nat} {v : Val} (h : Den B offs o w v) :
    ∀ L, Extents B offs o w L → totalBytes L = v.size := by
  induction h with
  | null o =>
    intro L hL
    cases hL with
    | null => simp [totalBytes, Val.size]
    | struct _ _ _ _ hw => exact absurd rfl hw
    | listPrim _ _ _ hk => exact absurd hk (by decide)
    | listPtr _ _ _ _ hk => exact absurd hk (by decide)
    | listComp _ _ _ _ _ _ _ hk => exact absurd hk (by decide)
    | far _ _ _ _ _ _ hk => exact absurd hk (by decide)
    | far2 _ _ _ _ _ _ _ hk => exact absurd hk (by decide)
  | struct o w t data ptrs hw hk ht hb hd hl hp ih =>
    intro L hL
    cases hL with
    | null => exact absurd rfl hw
    | struct _ _ t' Ls _ _ ht' hp' =>
      obtain rfl : t = t' := by rw [ht] at ht'; exact_mod_cast ht'
      rw [totalBytes_cons, totalBytes_flatMap, ← hl, Val.size, sizes_sum,
        sum_range ptrs Val.size (fun j => totalBytes (Ls j)) (fun j x hx => ?_)]
      · rw [hd, slice_length_of_le (by omega)]
        simp only
        omega
      · exact (ih j x hx _ (hp' j (by rw [← hl]; exact lt_of_get hx))).symm
    | listPrim _ _ _ hk' => rw [hk] at hk'; cases hk'
    | listPtr _ _ _ _ hk' => rw [hk] at hk'; cases hk'
    | listComp _ _ _ _ _ _ _ hk' => rw [hk] at hk'; cases hk'
    | far _ _ _ _ _ _ hk' => rw [hk] at hk'; cases hk'
    | far2 _ _ _ _ _ _ _ hk' => rw [hk] at hk'; cases hk'
  | listPrim o w t hk hg ht hb =>
    intro L hL
    cases hL with
    | null => exact absurd hk (by decide)
    | struct _ _ _ _ _ hk' => rw [hk] at hk'; cases hk'
    | listPrim _ _ t' _ _ ht' => simp [totalBytes, Val.size]
    | listPtr _ _ _ _ _ hg' => omega
    | listComp _ _ _ _ _ _ _ _ hg' => omega
    | far _ _ _ _ _ _ hk' => rw [hk] at hk'; cases hk'
    | far2 _ _ _ _ _ _ _ hk' => rw [hk] at hk'; cases hk'
  | listPtr o w t items hk hg ht hb hl hp ih =>
    intro L hL
    cases hL with
    | null => exact absurd hk (by decide)
    | struct _ _ _ _ _ hk' => rw [hk] at hk'; cases hk'
    | listPrim _ _ t' _ hg' => omega
    | listPtr _ _ t' Ls _ _ ht' hp' =>
      obtain rfl : t = t' := by rw [ht] at ht'; exact_mod_cast ht'
      rw [totalBytes_cons, totalBytes_flatMap, ← hl, Val.size, sizes_sum,
        sum_range items Val.size (fun j => totalBytes (Ls j)) (fun j x hx => ?_)]
      exact (ih j x hx _ (hp' j (by rw [← hl]; exact lt_of_get hx))).symm
    | listComp _ _ _ _ _ _ _ _ hg' => omega
    | far _ _ _ _ _ _ hk' => rw [hk] at hk'; cases hk'
    | far2 _ _ _ _ _ _ _ hk' => rw [hk] at hk'; cases hk'
  | listComp o w t tag ds ps items hk hg ht hb htag hkt hds hps hn htot hi hp ih =>
    intro L hL
    cases hL with
    | null => exact absurd hk (by decide)
    | struct _ _ _ _ _ hk' => rw [hk] at hk'; cases hk'
    | listPrim _ _ t' _ hg' => omega
    | listPtr _ _ _ _ _ hg' => omega
    | listComp _ _ t' n ds' ps' Ls _ _ ht' hn' hds' hps' hp' =>
      obtain rfl : t = t' := by rw [ht] at ht'; exact_mod_cast ht'
      subst htag
      obtain rfl : n = items.length := by rw [hn] at hn'; exact_mod_cast hn'.symm
      obtain rfl : ds = ds' := by rw [hds, hds']
      obtain rfl : ps = ps' := by rw [hps, hps']
      rw [totalBytes_cons, totalBytes_flatMap, Val.size, itemSizes_sum,
        sum_range items (fun x => Val.sizes x.2) (fun i => totalBytes ((List.range ps).flatMap fun j => Ls i j)) ?_]
      rintro i ⟨d, vs⟩ hx
      obtain ⟨_, hvl⟩ := hi i d vs hx
      simp only
      rw [totalBytes_flatMap, sizes_sum, ← hvl]
      refine sum_range vs Val.size (fun j => totalBytes (Ls i j)) (fun j x hxj => ?_)
      exact (ih i d vs hx j x hxj _ (hp' i (lt_of_get hx) j (by rw [← hvl]; exact lt_of_get hxj))).symm
    | far _ _ _ _ _ _ hk' => rw [hk] at hk'; cases hk'
    | far2 _ _ _ _ _ _ _ hk' => rw [hk] at hk'; cases hk'
  | far o w pos st tbl v ho how hk hf htbl hst hpos hb hpk hp0 hd ih =>
    intro L hL
    generalize ho' : (o : Int) = oi at hL
    cases hL with
    | null => exact absurd hk (by decide)
    | struct _ _ _ _ _ hk' => rw [hk] at hk'; cases hk'
    | listPrim _ _ _ hk' => rw [hk] at hk'; cases hk'
    | listPtr _ _ _ _ hk' => rw [hk] at hk'; cases hk'
    | listComp _ _ _ _ _ _ _ hk' => rw [hk] at hk'; cases hk'
    | far _ _ pos' st' tbl' _ _ hf' htbl' hst' hpos' h' =>
      rw [htbl] at htbl'
      injection htbl' with e
      subst e
      rw [hst] at hst'
      injection hst' with e
      subst e
      rw [← hpos] at hpos'
      subst hpos'
      exact ih _ h'
    | far2 _ _ _ _ _ _ _ _ hf' => omega
  | far2 o w pos st st2 tbl v ho how hk hf htbl hst hpos hb hfk hff hst2 htk ht0 hto hd ih =>
    intro L hL
    generalize ho' : (o : Int) = oi at hL
    cases hL with
    | null => exact absurd hk (by decide)
    | struct _ _ _ _ _ hk' => rw [hk] at hk'; cases hk'
    | listPrim _ _ _ hk' => rw [hk] at hk'; cases hk'
    | listPtr _ _ _ _ hk' => rw [hk] at hk'; cases hk'
    | listComp _ _ _ _ _ _ _ hk' => rw [hk] at hk'; cases hk'
    | far _ _ _ _ _ _ _ hf' => omega
    | far2 _ _ pos' st' st2' tbl' _ _ hf' htbl' hst' hpos' hst2' h' =>
      rw [htbl] at htbl'
      injection htbl' with e
      subst e
      rw [hst] at hst'
      injection hst' with e
      subst e
      rw [← hpos] at hpos'
      subst hpos'
      rw [hst2] at hst2'
      injection hst2' with e
      subst e
      exact ih _ h'

/-- Every well-formed pointer has objects. -/
theorem extents_exist {B : List UInt8} {offs : Option (List Nat)} {o : Int} {w : Nat} {v : Val} (h : Den B offs o w v) :
    ∃ L, Extents B offs o w L := by
  induction h with
  | null o => exact ⟨_, .null o⟩
  | struct o w t data ptrs hw hk ht hb hd hl hp ih =>
    have : ∀ j, ∃ L, j < ptrsSize w →
        Extents B offs ((t + 8 * dataSize w + 8 * j : Nat) : Int) (wordAt B (t + 8 * dataSize w + 8 * j)) L := by
      intro j
      by_cases hj : j < ptrsSize w
      · obtain ⟨v, hv⟩ := get_of_lt (l := ptrs) (j := j) (by omega)
        obtain ⟨L, hL⟩ := ih j v hv
        exact ⟨L, fun _ => hL⟩
      · exact ⟨[], fun h => absurd h hj⟩
    choose Ls hLs using this
    exact ⟨_, .struct o w t Ls hw hk ht hLs⟩
  | listPrim o w t hk hg ht hb => exact ⟨_, .listPrim o w t hk hg ht⟩
  | listPtr o w t items hk hg ht hb hl hp ih =>
    have : ∀ j, ∃ L, j < listCount w → Extents B offs ((t + 8 * j : Nat) : Int) (wordAt B (t + 8 * j)) L := by
      intro j
      by_cases hj : j < listCount w
      · obtain ⟨v, hv⟩ := get_of_lt (l := items) (j := j) (by omega)
        obtain ⟨L, hL⟩ := ih j v hv
        exact ⟨L, fun _ => hL⟩
      · exact ⟨[], fun h => absurd h hj⟩
    choose Ls hLs using this
    exact ⟨_, .listPtr o w t Ls hk hg ht hLs⟩
  | listComp o w t tag ds ps items hk hg ht hb htag hkt hds hps hn htot hi hp ih =>
    subst htag
    have : ∀ i j, ∃ L, i < items.length → j < ps →
        Extents B offs ((t + 8 + i * (8 * (ds + ps)) + 8 * ds + 8 * j : Nat) : Int)
          (wordAt B (t + 8 + i * (8 * (ds + ps)) + 8 * ds + 8 * j)) L := by
      intro i j
      by_cases hi' : i < items.length
      · by_cases hj : j < ps
        · obtain ⟨⟨d, vs⟩, hx⟩ := get_of_lt hi'
          obtain ⟨_, hvl⟩ := hi i d vs hx
          obtain ⟨v, hv⟩ := get_of_lt (l := vs) (j := j) (by omega)
          obtain ⟨L, hL⟩ := ih i d vs hx j v hv
          exact ⟨L, fun _ _ => hL⟩
        · exact ⟨[], fun _ h => absurd h hj⟩
      · exact ⟨[], fun h => absurd h hi'⟩
    choose Ls hLs using this
    exact ⟨_, .listComp o w t items.length ds ps Ls hk hg ht hn hds hps (fun i hi j hj => hLs i j hi hj)⟩
  | far o w pos st tbl v ho how hk hf htbl hst hpos hb hpk hp0 hd ih =>
    obtain ⟨L, hL⟩ := ih
    exact ⟨L, .far o w pos st tbl L hk hf htbl hst hpos hL⟩
  | far2 o w pos st st2 tbl v ho how hk hf htbl hst hpos hb hfk hff hst2 htk ht0 hto hd ih =>
    obtain ⟨L, hL⟩ := ih
    exact ⟨L, .far2 o w pos st st2 tbl L hk hf htbl hst hpos hst2 hL⟩

/-- The object is within the buffer, up to the padding of the last word. -/
def Inside (B : List UInt8) (a : Nat × Nat) : Prop := a.1 + a.2 ≤ wordAlign B.length

theorem le_wordAlign (n : Nat) : n ≤ wordAlign n := by unfold wordAlign; omega

theorem target_dvd {o : Int} {w t : Nat} (h8 : (8 : Int) ∣ o) (ht : target o w = t) : 8 ∣ t := by
  unfold target at ht
  omega

theorem target_dvd' {o : Int} {w t : Nat} (ht : target o w = t) (h : 8 ∣ t) : (8 : Int) ∣ o := by
  unfold target at ht
  omega

theorem extents_inside {B : List UInt8} {offs : Option (List Nat)} (htab : TableAligned offs) {o : Int} {w : Nat} {v : Val}
    (h : Den B offs o w v) : (8 : Int) ∣ o → ∀ L, Extents B offs o w L → ∀ a ∈ L, Inside B a := by
  have hle := le_wordAlign B.length
  induction h with
  | null o =>
    intro _ L hL
    cases hL with
    | null => intro a ha; cases ha
    | struct _ _ _ _ hw => exact absurd rfl hw
    | listPrim _ _ _ hk => exact absurd hk (by decide)
    | listPtr _ _ _ _ hk => exact absurd hk (by decide)
    | listComp _ _ _ _ _ _ _ hk => exact absurd hk (by decide)
    | far _ _ _ _ _ _ hk => exact absurd hk (by decide)
    | far2 _ _ _ _ _ _ _ hk => exact absurd hk (by decide)
  | struct o w t data ptrs hw hk ht hb hd hl hp ih =>
    intro h8 L hL
    have h8t := target_dvd h8 ht
    cases hL with
    | null => exact absurd rfl hw
    | struct _ _ t' Ls _ _ ht' hp' =>
      obtain rfl : t = t' := by rw [ht] at ht'; exact_mod_cast ht'
      intro a ha
      rcases List.mem_cons.mp ha with rfl | ha
      · unfold Inside; simp only; omega
      · obtain ⟨j, hj, ha⟩ := List.mem_flatMap.mp ha
        rw [List.mem_range] at hj
        obtain ⟨v, hv⟩ := get_of_lt (l := ptrs) (j := j) (by omega)
        exact ih j v hv (by omega) _ (hp' j hj) a ha
    | listPrim _ _ _ hk' => rw [hk] at hk'; cases hk'
    | listPtr _ _ _ _ hk' => rw [hk] at hk'; cases hk'
    | listComp _ _ _ _ _ _ _ hk' => rw [hk] at hk'; cases hk'
    | far _ _ _ _ _ _ hk' => rw [hk] at hk'; cases hk'
    | far2 _ _ _ _ _ _ _ hk' => rw [hk] at hk'; cases hk'
  | listPrim o w t hk hg ht hb =>
    intro h8 L hL
    have h8t := target_dvd h8 ht
    cases hL with
    | null => exact absurd hk (by decide)
    | struct _ _ _ _ _ hk' => rw [hk] at hk'; cases hk'
    | listPrim _ _ t' _ _ ht' =>
      obtain rfl : t = t' := by rw [ht] at ht'; exact_mod_cast ht'
      intro a ha
      obtain rfl := List.mem_singleton.mp ha
      generalize primLen (listTag w) (listCount w) = n at hb
      unfold Inside wordAlign
      simp only
      omega
    | listPtr _ _ _ _ _ hg' => omega
    | listComp _ _ _ _ _ _ _ _ hg' => omega
    | far _ _ _ _ _ _ hk' => rw [hk] at hk'; cases hk'
    | far2 _ _ _ _ _ _ _ hk' => rw [hk] at hk'; cases hk'
  | listPtr o w t items hk hg ht hb hl hp ih =>
    intro h8 L hL
    have h8t := target_dvd h8 ht
    cases hL with
    | null => exact absurd hk (by decide)
    | struct _ _ _ _ _ hk' => rw [hk] at hk'; cases hk'
    | listPrim _ _ t' _ hg' => omega
    | listPtr _ _ t' Ls _ _ ht' hp' =>
      obtain rfl : t = t' := by rw [ht] at ht'; exact_mod_cast ht'
      intro a ha
      rcases List.mem_cons.mp ha with rfl | ha
      · unfold Inside; simp only; omega
      · obtain ⟨j, hj, ha⟩ := List.mem_flatMap.mp ha
        rw [List.mem_range] at hj
        obtain ⟨v, hv⟩ := get_of_lt (l := items) (j := j) (by omega)
        exact ih j v hv (by omega) _ (hp' j hj) a ha
    | listComp _ _ _ _ _ _ _ _ hg' => omega
    | far _ _ _ _ _ _ hk' => rw [hk] at hk'; cases hk'
    | far2 _ _ _ _ _ _ _ hk' => rw [hk] at hk'; cases hk'
  | listComp o w t tag ds ps items hk hg ht hb htag hkt hds hps hn htot hi hp ih =>
    intro h8 L hL
    have h8t := target_dvd h8 ht
    cases hL with
    | null => exact absurd hk (by decide)
    | struct _ _ _ _ _ hk' => rw [hk] at hk'; cases hk'
    | listPrim _ _ t' _ hg' => omega
    | listPtr _ _ _ _ _ hg' => omega
    | listComp _ _ t' n ds' ps' Ls _ _ ht' hn' hds' hps' hp' =>
      obtain rfl : t = t' := by rw [ht] at ht'; exact_mod_cast ht'
      subst htag
      obtain rfl : n = items.length := by rw [hn] at hn'; exact_mod_cast hn'.symm
      obtain rfl : ds = ds' := by rw [hds, hds']
      obtain rfl : ps = ps' := by rw [hps, hps']
      intro a ha
      rcases List.mem_cons.mp ha with rfl | ha
      · unfold Inside
        have e : items.length * (8 * (ds + ps)) = 8 * listCount w := by rw [← htot]; ring
        simp only
        omega
      · obtain ⟨i, hi', ha⟩ := List.mem_flatMap.mp ha
        obtain ⟨j, hj, ha⟩ := List.mem_flatMap.mp ha
        rw [List.mem_range] at hi' hj
        obtain ⟨⟨d, vs⟩, hx⟩ := get_of_lt hi'
        obtain ⟨_, hvl⟩ := hi i d vs hx
        obtain ⟨v, hv⟩ := get_of_lt (l := vs) (j := j) (by omega)
        refine ih i d vs hx j v hv ?_ _ (hp' i hi' j hj) a ha
        have : i * (8 * (ds + ps)) = 8 * (i * (ds + ps)) := by ring
        generalize i * (ds + ps) = q at this
        omega
    | far _ _ _ _ _ _ hk' => rw [hk] at hk'; cases hk'
    | far2 _ _ _ _ _ _ _ hk' => rw [hk] at hk'; cases hk'
  | far o w pos st tbl v ho how hk hf htbl hst hpos hb hpk hp0 hd ih =>
    intro h8 L hL
    have hst8 := htab tbl htbl st (List.mem_of_getElem? hst)
    generalize ho' : (o : Int) = oi at hL
    cases hL with
    | null => exact absurd hk (by decide)
    | struct _ _ _ _ _ hk' => rw [hk] at hk'; cases hk'
    | listPrim _ _ _ hk' => rw [hk] at hk'; cases hk'
    | listPtr _ _ _ _ hk' => rw [hk] at hk'; cases hk'
    | listComp _ _ _ _ _ _ _ hk' => rw [hk] at hk'; cases hk'
    | far _ _ pos' st' tbl' _ _ hf' htbl' hst' hpos' h' =>
      rw [htbl] at htbl'
      injection htbl' with e
      subst e
      rw [hst] at hst'
      injection hst' with e
      subst e
      rw [← hpos] at hpos'
      subst hpos'
      exact ih (by omega) _ h'
    | far2 _ _ _ _ _ _ _ _ hf' => omega
  | far2 o w pos st st2 tbl v ho how hk hf htbl hst hpos hb hfk hff hst2 htk ht0 hto hd ih =>
    intro h8 L hL
    have hst8 := htab tbl htbl st2 (List.mem_of_getElem? hst2)
    generalize ho' : (o : Int) = oi at hL
    cases hL with
    | null => exact absurd hk (by decide)
    | struct _ _ _ _ _ hk' => rw [hk] at hk'; cases hk'
    | listPrim _ _ _ hk' => rw [hk] at hk'; cases hk'
    | listPtr _ _ _ _ hk' => rw [hk] at hk'; cases hk'
    | listComp _ _ _ _ _ _ _ hk' => rw [hk] at hk'; cases hk'
    | far _ _ _ _ _ _ _ hf' => omega
    | far2 _ _ pos' st' st2' tbl' _ _ hf' htbl' hst' hpos' hst2' h' =>
      rw [htbl] at htbl'
      injection htbl' with e
      subst e
      rw [hst] at hst'
      injection hst' with e
      subst e
      rw [← hpos] at hpos'
      subst hpos'
      rw [hst2] at hst2'
      injection hst2' with e
      subst e
      exact ih (by omega) _ h'

/-- Intervals without a common point, below `n`. -/
theorem noSharing_total {L : List (Nat × Nat)} {n : Nat} (hd : NoSharing L) (hb : ∀ a ∈ L, a.1 + a.2 ≤ n) :
    totalBytes L ≤ n := by
  have key : ∃ U : Finset Nat, U.card = totalBytes L ∧ ∀ i ∈ U, ∃ a ∈ L, a.1 ≤ i ∧ i < a.1 + a.2 := by
    clear hb
    induction L with
    | nil => exact ⟨∅, by simp [totalBytes], by simp⟩
    | cons a L ih =>
      obtain ⟨hd1, hd2⟩ := List.pairwise_cons.mp hd
      obtain ⟨U, hc, hU⟩ := ih hd2
      refine ⟨Finset.Ico a.1 (a.1 + a.2) ∪ U, ?_, ?_⟩
      · rw [Finset.card_union_of_disjoint, Nat.card_Ico, hc, totalBytes_cons]
        · omega
        · rw [Finset.disjoint_left]
          intro i hi hiU
          rw [Finset.mem_Ico] at hi
          obtain ⟨b, hbL, h1, h2⟩ := hU i hiU
          exact hd1 b hbL i ⟨hi.1, hi.2, h1, h2⟩
      · intro i hi
        rcases Finset.mem_union.mp hi with hi | hi
        · rw [Finset.mem_Ico] at hi
          exact ⟨a, List.mem_cons_self, hi⟩
        · obtain ⟨b, hbL, h⟩ := hU i hi
          exact ⟨b, List.mem_cons_of_mem _ hbL, h⟩
  obtain ⟨U, hc, hU⟩ := key
  rw [← hc]
  have : U ⊆ Finset.range n := by
    intro i hi
    obtain ⟨a, ha, h1, h2⟩ := hU i hi
    have := hb a ha
    rw [Finset.mem_range]
    omega
  calc U.card ≤ (Finset.range n).card := Finset.card_le_card this
    _ = n := Finset.card_range n

/-! ## Depth -/

theorem depths_mem : ∀ {vs : List Val}, Val.depths vs = 0 ∨ ∃ (j : Nat) (v : Val), vs[j]? = some v ∧ v.depth = Val.depths vs
  | [] => .inl rfl
  | v :: vs => by
    rw [Val.depths]
    rcases Nat.le_total (Val.depths vs) v.depth with h | h
    · exact .inr ⟨0, v, rfl, by rw [Nat.max_eq_left h]⟩
    · rw [Nat.max_eq_right h]
      rcases depths_mem (vs := vs) with h0 | ⟨j, x, hx, e⟩
      · exact .inl h0
      · exact .inr ⟨j + 1, x, hx, e⟩

theorem itemDepths_mem : ∀ {is : List (List UInt8 × List Val)}, Val.itemDepths is = 0 ∨
    ∃ (i : Nat) (d : List UInt8) (vs : List Val) (j : Nat) (v : Val), is[i]? = some (d, vs) ∧ vs[j]? = some v ∧ v.depth = Val.itemDepths is
  | [] => .inl rfl
  | (d, vs) :: is => by
    rw [Val.itemDepths]
    rcases Nat.le_total (Val.itemDepths is) (Val.depths vs) with h | h
    · rw [Nat.max_eq_left h]
      rcases depths_mem (vs := vs) with h0 | ⟨j, x, hx, e⟩
      · exact .inl h0
      · exact .inr ⟨0, d, vs, j, x, rfl, hx, e⟩
    · rw [Nat.max_eq_right h]
      rcases itemDepths_mem (is := is) with h0 | ⟨i, d', vs', j, x, hx, hj, e⟩
      · exact .inl h0
      · exact .inr ⟨i + 1, d', vs', j, x, hx, hj, e⟩

/-- A pointer word of the buffer with a value of depth `d`. -/
def HasDepth (B : List UInt8) (offs : Option (List Nat)) (d : Nat) : Prop :=
  ∃ (p : Nat) (v : Val), 8 ∣ p ∧ p + 8 ≤ B.length ∧ Den B offs (p : Int) (wordAt B p) v ∧ v.depth = d

/-- Below a pointer there are pointers of all the smaller depths. -/
theorem den_depths {B : List UInt8} {offs : Option (List Nat)} (htab : TableAligned offs) {o : Int} {w : Nat} {v : Val}
    (h : Den B offs o w v) : (8 : Int) ∣ o → ∀ d, 1 ≤ d → d < v.depth → HasDepth B offs d := by
  induction h with
  | null o => intro _ d h1 h2; rw [Val.depth] at h2; omega
  | struct o w t data ptrs hw hk ht hb hd hl hp ih =>
    intro h8 d h1 h2
    have h8t := target_dvd h8 ht
    rw [Val.depth] at h2
    rcases depths_mem (vs := ptrs) with h0 | ⟨j, v, hv, e⟩
    · omega
    · have hj := lt_of_get hv
      by_cases hd' : d = v.depth
      · exact ⟨_, v, by omega, by omega, hp j v hv, hd'.symm⟩
      · exact ih j v hv (by omega) d h1 (by omega)
  | listPrim o w t hk hg ht hb => intro _ d h1 h2; rw [Val.depth] at h2; omega
  | listPtr o w t items hk hg ht hb hl hp ih =>
    intro h8 d h1 h2
    have h8t := target_dvd h8 ht
    rw [Val.depth] at h2
    rcases depths_mem (vs := items) with h0 | ⟨j, v, hv, e⟩
    · omega
    · have hj := lt_of_get hv
      by_cases hd' : d = v.depth
      · exact ⟨_, v, by omega, by omega, hp j v hv, hd'.symm⟩
      · exact ih j v hv (by omega) d h1 (by omega)
  | listComp o w t tag ds ps items hk hg ht hb htag hkt hds hps hn htot hi hp ih =>
    intro h8 d h1 h2
    have h8t := target_dvd h8 ht
    rw [Val.depth] at h2
    rcases itemDepths_mem (is := items) with h0 | ⟨i, d0, vs, j, v, hx, hv, e⟩
    · omega
    · have hi' := lt_of_get hx
      have hj := lt_of_get hv
      obtain ⟨_, hvl⟩ := hi i d0 vs hx
      have e1 : i * (8 * (ds + ps)) = 8 * (i * (ds + ps)) := by ring
      have e2 : i * (ds + ps) + (ds + ps) ≤ items.length * (ds + ps) := by
        have := Nat.mul_le_mul_right (ds + ps) (show i + 1 ≤ items.length from hi')
        rw [Nat.add_mul] at this
        omega
      by_cases hd' : d = v.depth
      · refine ⟨_, v, ?_, ?_, hp i d0 vs hx j v hv, hd'.symm⟩
        · rw [e1]; omega
        · rw [e1]; omega
      · refine ih i d0 vs hx j v hv ?_ d h1 (by omega)
        rw [e1]; omega
  | far o w pos st tbl v ho how hk hf htbl hst hpos hb hpk hp0 hd ih =>
    intro h8 d h1 h2
    have hst8 := htab tbl htbl st (List.mem_of_getElem? hst)
    exact ih (by omega) d h1 h2
  | far2 o w pos st st2 tbl v ho how hk hf htbl hst hpos hb hfk hff hst2 htk ht0 hto hd ih =>
    intro h8 d h1 h2
    have hst8 := htab tbl htbl st2 (List.mem_of_getElem? hst2)
    exact ih (by omega) d h1 h2

/-- Different depths are at different words. -/
theorem depth_le_words {B : List UInt8} {offs : Option (List Nat)} (n : Nat)
    (h : ∀ d, 1 ≤ d → d < n + 1 → HasDepth B offs d) : n ≤ B.length / 8 := by
  have : ∀ d : Fin n, ∃ p : Fin (B.length / 8), ∃ v, Den B offs ((8 * p.val : Nat) : Int) (wordAt B (8 * p.val)) v ∧
      v.depth = d.val + 1 := by
    intro d
    obtain ⟨p, v, h8, hb, hd, e⟩ := h (d.val + 1) (by omega) (by omega)
    obtain ⟨q, rfl⟩ := h8
    exact ⟨⟨q, by omega⟩, v, hd, e⟩
  choose f hf using this
  have hinj : Function.Injective f := by
    intro a b hab
    obtain ⟨v, hv, e⟩ := hf a
    obtain ⟨v', hv', e'⟩ := hf b
    rw [← hab] at hv'
    rw [den_functional hv v' hv'] at e
    apply Fin.ext
    omega
  have := Fintype.card_le_of_injective f hinj
  simpa using this

end Capnpy.Spec
