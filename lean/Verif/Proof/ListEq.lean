import Verif.Proof.Canon
import Verif.Proof.List

/-! # List equality -/

namespace Capnpy

open Spec

theorem list_ext_den {P : Nat → Val → Prop} {vs vs' : List Val} (hl : vs.length = vs'.length)
    (h : ∀ j v, vs[j]? = some v → ∀ v', P j v' → v = v') (h' : ∀ j v, vs'[j]? = some v → P j v) : vs = vs' := by
  apply List.ext_getElem? 
  intro j
  by_cases hj : j < vs.length
  · rw [List.getElem?_eq_getElem hj, List.getElem?_eq_getElem (by omega)]
    refine congrArg some ?_
    exact h j _ (List.getElem?_eq_getElem hj) _ (h' j _ (List.getElem?_eq_getElem (by omega)))
  · rw [List.getElem?_eq_none (by omega), List.getElem?_eq_none (by omega)]

/-- A pointer denotes one value. -/
theorem den_functional {B : Bytes} {offs : Option (List Nat)} {o : Int} {w : Nat} {v : Val}
    (h : Den B offs o w v) : ∀ v', Den B offs o w v' → v = v' := by
  induction h with
  | null o => intro v' h'; exact (den_zero h').symm
  | struct o w t data ptrs hw hk ht hb hd hl hp ih =>
    intro v' h'
    cases h' with
    | null => exact absurd rfl hw
    | struct _ _ t' data' ptrs' hw' hk' ht' hb' hd' hl' hp' =>
      obtain rfl : t = t' := by omega
      have : ptrs = ptrs' := list_ext_den (by omega) ih hp'
      rw [hd, hd', this]
    | listPrim => omega
    | listPtr => omega
    | listComp => omega
    | far => omega
    | far2 => omega
  | listPrim o w t hk hg ht hb =>
    intro v' h'
    cases h' with
    | null => simp [kind] at hk
    | struct => omega
    | listPrim _ _ t' hk' hg' ht' hb' =>
      obtain rfl : t = t' := by omega
      rfl
    | listPtr => omega
    | listComp => omega
    | far => omega
    | far2 => omega
  | listPtr o w t items hk hg ht hb hl hp ih =>
    intro v' h'
    cases h' with
    | null => simp [kind] at hk
    | struct => omega
    | listPrim => omega
    | listPtr _ _ t' items' hk' hg' ht' hb' hl' hp' =>
      obtain rfl : t = t' := by omega
      have : items = items' := list_ext_den (by omega) ih hp'
      rw [this]
    | listComp => omega
    | far => omega
    | far2 => omega
  | listComp o w t tag ds ps items hk hg ht hb htag hkt hds hps hn htot hi hp ih =>
    intro v' h'
    cases h' with
    | null => simp [kind] at hk
    | struct => omega
    | listPrim => omega
    | listPtr => omega
    | listComp _ _ t' tag' ds' ps' items' hk' hg' ht' hb' htag' hkt' hds' hps' hn' htot' hi' hp' =>
      obtain rfl : t = t' := by omega
      obtain rfl : tag = tag' := by rw [htag, htag']
      obtain rfl : ds = ds' := by omega
      obtain rfl : ps = ps' := by omega
      have hlen : items.length = items'.length := by omega
      have : items = items' := by
        apply List.ext_getElem?
        intro i
        by_cases hj : i < items.length
        · have hj' : i < items'.length := by omega
          rw [List.getElem?_eq_getElem hj, List.getElem?_eq_getElem hj']
          refine congrArg some ?_
          have e1 := List.getElem?_eq_getElem hj
          have e2 := List.getElem?_eq_getElem hj'
          generalize items[i] = x at e1
          generalize items'[i] = x' at e2
          obtain ⟨d, vs⟩ := x
          obtain ⟨d', vs'⟩ := x'
          obtain ⟨a1, a2⟩ := hi i d vs e1
          obtain ⟨b1, b2⟩ := hi' i d' vs' e2
          have : vs = vs' := list_ext_den (by omega) (ih i d vs e1) (hp' i d' vs' e2)
          rw [this, a1, b1]
        · rw [List.getElem?_eq_none (by omega), List.getElem?_eq_none (by omega)]
      rw [this]
    | far => omega
    | far2 => omega
  | far o w pos st tbl v ho how hk hf htbl hst hpos hb hpk hp0 hd ih =>
    intro v' h'
    generalize hoo : (o : Int) = oo at h'
    cases h' with
    | null => simp [kind] at hk
    | struct => omega
    | listPrim => omega
    | listPtr => omega
    | listComp => omega
    | far o' _ pos' st' tbl' v' ho' how' hk' hf' htbl' hst' hpos' hb' hpk' hp0' hd' =>
      rw [htbl] at htbl'; cases htbl'
      rw [hst] at hst'; cases hst'
      subst hpos'
      subst hpos
      exact ih v' hd'
    | far2 => omega
  | far2 o w pos st st2 tbl v ho how hk hf htbl hst hpos hb hfk hff hst2 htk ht0 hto hd ih =>
    intro v' h'
    generalize hoo : (o : Int) = oo at h'
    cases h' with
    | null => simp [kind] at hk
    | struct => omega
    | listPrim => omega
    | listPtr => omega
    | listComp => omega
    | far => omega
    | far2 o' _ pos' st' st2' tbl' v' ho' how' hk' hf' htbl' hst' hpos' hb' hfk' hff' hst2' htk' ht0' hto' hd' =>
      rw [htbl] at htbl'; cases htbl'
      rw [hst] at hst'; cases hst'
      subst hpos
      subst hpos'
      rw [hst2] at hst2'; cases hst2'
      exact ih v' hd'

/-- The same list seen from a pointer right before its body. -/
theorem lay_before {ae : Bool} {B : Bytes} {pos w s e : Nat} {v : Val} (h : Lay ae B pos w v s e)
    (hk : kind w = 1) (hg : listTag w ≤ 6) (hs : 8 ≤ s) :
    Lay ae B (s - 8) (listWord 0 (listTag w) (listCount w)) v s e := by
  have hn : listCount w < 2 ^ 29 := Nat.mod_lt _ (by norm_num)
  have k1 := kind_listWord 0 (listTag w) (listCount w)
  have k2 := listTag_listWord 0 (listTag w) (listCount w) (by omega)
  have k3 := listCount_listWord 0 (listTag w) (listCount w) (by omega) hn
  have k4 := offset_listWord 0 (listTag w) (listCount w) (by norm_num) (by norm_num)
  have k5 : target ((s - 8 : Nat) : Int) (listWord 0 (listTag w) (listCount w)) = s := by
    unfold target; rw [k4]; omega
  generalize listWord 0 (listTag w) (listCount w) = W at *
  cases h with
  | null => simp [kind] at hk
  | empty => exact absurd hk (by decide)
  | struct => omega
  | listPrim _ _ _ hk' hg' ht hb hz =>
    rw [← k2, ← k3] at hb hz ⊢
    exact .listPrim _ _ _ k1 (by omega) k5 hb hz
  | listPtr _ _ _ _ items ends hk' hg' ht hb hl h0 he hp =>
    rw [← k3] at hb hl h0
    exact .listPtr _ _ _ _ items ends k1 (by omega) k5 hb hl h0 he hp
  | listComp => omega

theorem newList_mod (tag n : Nat) (ht : tag < 8) (hn : n < 2 ^ 29) :
    Ptr.newList 0 (tag : Int) (n : Int) % 2 ^ 64 = ((listWord 0 tag n : Nat) : Int) := by
  rw [Ptr.newList_eq]; unfold listWord; omega

theorem listWord_lt64 (tag n : Nat) (ht : tag < 8) (hn : n < 2 ^ 29) : listWord 0 tag n < 2 ^ 64 := by
  unfold listWord; omega

theorem lay_end_unique {B : Bytes} {pos w s e s' e' : Nat} {v : Val} (h0 : w ≠ 0) (h : Lay false B pos w v s e)
    (h' : Lay false B pos w v s' e') : e' = e := by
  have a := lay_start h0 h
  have b := lay_start h0 h'
  have c := lay_size h
  have d := lay_size h'
  have : s = s' := Int.ofNat.inj (a.symm.trans b)
  omega

/-- `_get_slice` of a compact list: its bytes. -/
theorem getBytes_compact {B : Bytes} {offs : Option (List Nat)} {pos w s e : Nat} {v : Val} {it : ItemType}
    (h : Lay false B pos w v s e) (hk : kind w = 1) (hg : listTag w ≤ 6) (hs : 8 ≤ s)
    (h8 : 8 ∣ s) (he : e ≤ B.length) {fuel : Nat} (hf : v.depth ≤ fuel) :
    (listAt B offs s w it).getBytes fuel = .ok (slice B s (e - s)) := by
  have hL := lay_before h hk hg hs
  have hn : listCount w < 2 ^ 29 := Nat.mod_lt _ (by norm_num)
  have hle := h.le
  have hmod := newList_mod (listTag w) (listCount w) (listTag_lt w) hn
  have h7 : ¬ listTag w = 7 := by omega
  have hd := hL.den offs (by omega)
  have hk1 := kind_listWord 0 (listTag w) (listCount w)
  obtain ⟨r, hr, hres⟩ := endof_spec hd fuel _ (s - 8) rfl (by omega)
    (by intro h0; rw [h0] at hk1; simp [kind] at hk1) hf hmod
  have hw0 : listWord 0 (listTag w) (listCount w) ≠ 0 := by
    intro h0; rw [h0] at hk1; simp [kind] at hk1
  have hre : r = e := by
    rcases hres with ⟨-, hno⟩ | ⟨s', e', h1, h2⟩
    · exact absurd hL (hno _ _)
    · rw [h1, lay_end_unique hw0 hL h2]
  subst hre
  unfold ListObj.getBytes ListObj.getEnd listAt
  rw [if_neg h7]
  simp only
  rw [show ((s : Nat) : Int) - 8 = ((s - 8 : Nat) : Int) by omega, bind_okP hr]
  refine congrArg Except.ok ?_
  exact pySlice_nat _ _ _

theorem getBytes_spec {B : Bytes} {offs : Option (List Nat)} {pos w s e : Nat} {v : Val} {it : ItemType}
    (h : Lay true B pos w v s e) (hne : v.NoEmpty) (hk : kind w = 1) (hg : listTag w ≤ 6) (hs : 8 ≤ s)
    (h8 : 8 ∣ s) (he : e ≤ B.length) {fuel : Nat} (hf : v.depth ≤ fuel) :
    (listAt B offs s w it).getBytes fuel = .ok (slice B s (e - s)) :=
  getBytes_compact (lay_strict h hne) hk hg hs h8 he hf

/-- Compact lists with the same tag, count and bytes hold the same value. -/
theorem compact_bytes {ae : Bool} {B B' : Bytes} {pos pos' w w' s s' e e' : Nat} {v v' : Val}
    (h : Lay ae B pos w v s e) (h' : Lay ae B' pos' w' v' s' e')
    (hk : kind w = 1) (hk' : kind w' = 1) (hg : listTag w ≤ 6) (hgg : listTag w = listTag w')
    (hcc : listCount w = listCount w') (hs : 8 ≤ s) (hs' : 8 ≤ s')
    (he : e ≤ B.length) (he' : e' ≤ B'.length)
    (heq : slice B s (e - s) = slice B' s' (e' - s')) : v = v' := by
  have hL := lay_before h hk hg hs
  have hL' := lay_before h' hk' (by omega) hs'
  rw [← hgg, ← hcc] at hL'
  have hle := h.le
  have hle' := h'.le
  have hlen := congrArg List.length heq
  rw [slice_length_of_le (by omega), slice_length_of_le (by omega)] at hlen
  have hmv : Lay ae B (s - 8) (listWord 0 (listTag w) (listCount w)) v' s e := by
    refine lay_shift (a := s') (b := s) hL' _ _ _ (by omega) (by omega) (by omega) he ?_
    intro x x' hx h1 h2
    have := congrArg (fun l : Bytes => l[x - s']?) heq
    simp only [slice_getElem?] at this
    rw [if_pos (by omega), if_pos (by omega), show s + (x - s') = x' by omega,
      show s' + (x - s') = x by omega] at this
    exact this
  exact den_functional (hL.den none (by omega)) v' (hmv.den none (by omega))

/-- Canonical lists with the same tag and count have the same bytes exactly when
they hold the same value. -/
theorem clean_bytes {B B' : Bytes} {pos pos' w w' s s' e e' : Nat} {v v' : Val}
    (h : Lay true B pos w v s e) (h' : Lay true B' pos' w' v' s' e')
    (hk : kind w = 1) (hk' : kind w' = 1) (hg : listTag w ≤ 6) (hgg : listTag w = listTag w')
    (hcc : listCount w = listCount w') (hs : 8 ≤ s) (hs' : 8 ≤ s')
    (he : e ≤ B.length) (he' : e' ≤ B'.length) :
    slice B s (e - s) = slice B' s' (e' - s') ↔ v = v' := by
  have hL := lay_before h hk hg hs
  have hL' := lay_before h' hk' (by omega) hs'
  rw [← hgg, ← hcc] at hL'
  have hn : listCount w < 2 ^ 29 := Nat.mod_lt _ (by norm_num)
  have hW := listWord_lt64 (listTag w) (listCount w) (listTag_lt w) hn
  have hle := h.le
  have hle' := h'.le
  constructor
  · exact compact_bytes h h' hk hk' hg hgg hcc hs hs' he he'
  · rintro rfl
    have hsz := lay_size h
    have hsz' := lay_size h'
    have hCl : (List.replicate s 0 ++ slice B' s' (e' - s')).length = e := by
      rw [List.length_append, List.length_replicate, slice_length_of_le (by omega)]; omega
    have hCg : ∀ x, x < e' - s' → (List.replicate s (0 : UInt8) ++ slice B' s' (e' - s'))[s + x]? = B'[s' + x]? := by
      intro x hx
      rw [List.getElem?_append_right (by simp), List.length_replicate, slice_getElem?,
        show s + x - s = x by omega, if_pos hx]
    have hmv : Lay true (List.replicate s 0 ++ slice B' s' (e' - s')) (s - 8)
        (listWord 0 (listTag w) (listCount w)) v s e := by
      refine lay_shift (a := s') (b := s) hL' _ _ _ (by omega) (by omega) (by omega) (by omega) ?_
      intro x x' hx h1 h2
      have := hCg (x - s') (by omega)
      rw [show s + (x - s') = x' by omega, show s' + (x - s') = x by omega] at this
      exact this
    obtain ⟨-, -, hb⟩ := lay_unique hL hW _ _ _ hW hmv
    apply List.ext_getElem?
    intro i
    rw [slice_getElem?, slice_getElem?]
    by_cases hi : i < e - s
    · rw [if_pos hi, if_pos (by omega), hb (s + i) (by omega) (by omega)]
      exact hCg i (by omega)
    · rw [if_neg hi, if_neg (by omega)]

end Capnpy
