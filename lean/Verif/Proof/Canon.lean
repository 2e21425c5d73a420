import Verif.Proof.Dumps

/-! # The layout a copy produces is determined by the value -/

namespace Capnpy

open Spec

theorem word_ext {w w' : Nat} (h : w < 2 ^ 64) (h' : w' < 2 ^ 64) (hk : kind w = kind w')
    (ho : offset w = offset w') (hr : w / 2 ^ 32 = w' / 2 ^ 32) : w = w' := by
  unfold kind at hk
  unfold offset signed30 at ho
  split at ho <;> split at ho <;> omega

theorem bytes_of_wordAt {B B' : Bytes} {p : Nat} (h : p + 8 ≤ B.length) (h' : p + 8 ≤ B'.length)
    (hw : wordAt B p = wordAt B' p) : ∀ x, p ≤ x → x < p + 8 → B[x]? = B'[x]? := by
  unfold wordAt at hw
  have h1 := leBytes_leNat (slice B p 8)
  have h2 := leBytes_leNat (slice B' p 8)
  rw [slice_length_of_le h] at h1
  rw [slice_length_of_le h'] at h2
  have hs : slice B p 8 = slice B' p 8 := by rw [← h1, ← h2, hw]
  intro x hx1 hx2
  have := congrArg (fun l : Bytes => l[x - p]?) hs
  simp only [slice_getElem?] at this
  rw [if_pos (by omega), if_pos (by omega), show p + (x - p) = x by omega] at this
  exact this

theorem bytes_of_slice {B B' : Bytes} {p n : Nat} (hs : slice B p n = slice B' p n) :
    ∀ x, p ≤ x → x < p + n → B[x]? = B'[x]? := by
  intro x hx1 hx2
  have := congrArg (fun l : Bytes => l[x - p]?) hs
  simp only [slice_getElem?] at this
  rw [if_pos (by omega), if_pos (by omega), show p + (x - p) = x by omega] at this
  exact this

theorem chain_find {ends : Nat → Nat} {x : Nat} : ∀ n, ends 0 ≤ x → x < ends n →
    ∃ j, j < n ∧ ends j ≤ x ∧ x < ends (j + 1) := by
  intro n
  induction n with
  | zero => intro h1 h2; omega
  | succ n ih =>
    intro h1 h2
    by_cases h : x < ends n
    · obtain ⟨j, hj, h3⟩ := ih h1 h; exact ⟨j, by omega, h3⟩
    · exact ⟨n, by omega, by omega, h2⟩

theorem chain_eq {ends ends' : Nat → Nat} {f : Nat → Nat} (n : Nat) (h0 : ends 0 = ends' 0)
    (h : ∀ j, j < n → ends (j + 1) = ends j + f j) (h' : ∀ j, j < n → ends' (j + 1) = ends' j + f j) :
    ∀ j, j ≤ n → ends j = ends' j := by
  intro j
  induction j with
  | zero => intro _; exact h0
  | succ j ih => intro hj; rw [h j (by omega), h' j (by omega), ih (by omega)]

theorem get_of_lt {α} {l : List α} {j : Nat} (h : j < l.length) : ∃ v, l[j]? = some v :=
  ⟨l[j], List.getElem?_eq_getElem h⟩

/-- The pointer word and all the bytes of a canonical layout only depend on the
value, the position of the pointer and the position of the body. -/
theorem lay_unique {B : Bytes} {pos w s e : Nat} {v : Val} (h : Lay true B pos w v s e) :
    w < 2 ^ 64 → ∀ (B' : Bytes) (w' e' : Nat), w' < 2 ^ 64 → Lay true B' pos w' v s e' →
      w = w' ∧ e = e' ∧ ∀ x, s ≤ x → x < e → B[x]? = B'[x]? := by
  induction h with
  | null pos s =>
    intro _ B' w' e' _ h'
    have hs := lay_size h'
    simp only [Val.size] at hs
    cases h' with
    | null => exact ⟨rfl, rfl, by intro x h1 h2; omega⟩
  | empty pos s hae =>
    intro _ B' w' e' _ h'
    cases h' with
    | empty => exact ⟨rfl, rfl, by intro x h1 h2; omega⟩
    | struct _ _ _ _ _ _ ends _ _ _ hb hd hl hne =>
      have h1 := congrArg List.length hd
      rw [slice_length_of_le (by omega)] at h1
      simp only [List.length_nil] at h1 hl
      have := hne rfl
      omega
  | struct pos w s e data ptrs ends hw hk ht hb hd hl hne h0 he hp ih =>
    intro hw64 B' w' e' hw'64 h'
    have hdl : data.length = 8 * dataSize w := by rw [hd]; exact slice_length_of_le (by omega)
    have hne' := hne rfl
    cases h' with
    | empty => simp only [List.length_nil] at hdl hl; omega
    | struct _ _ _ _ _ _ ends' hw' hk' ht' hb' hd' hl' _ h0' he' hp' =>
      have hdl' : data.length = 8 * dataSize w' := by rw [hd']; exact slice_length_of_le (by omega)
      have hwe : w = w' := by
        apply word_ext hw64 hw'64 (by omega) (by unfold target at ht ht'; omega)
        have a : dataSize w = dataSize w' := by omega
        have b : ptrsSize w = ptrsSize w' := by omega
        unfold dataSize at a
        unfold ptrsSize at b
        omega
      subst hwe
      have hends := chain_eq (ends := ends) (ends' := ends')
        (f := fun j => (ptrs[j]?.map Val.size).getD 0) ptrs.length (by omega)
        (by intro j hj; obtain ⟨v, hv⟩ := get_of_lt hj; rw [lay_size (hp j v hv), hv]; rfl)
        (by intro j hj; obtain ⟨v, hv⟩ := get_of_lt hj; rw [lay_size (hp' j v hv), hv]; rfl)
      have hch : ∀ j v, ptrs[j]? = some v →
          wordAt B (s + 8 * dataSize w + 8 * j) = wordAt B' (s + 8 * dataSize w + 8 * j) ∧
          ∀ x, ends j ≤ x → x < ends (j + 1) → B[x]? = B'[x]? := by
        intro j v hj
        have hjl := getElem?_lt hj
        have q := hp' j v hj
        rw [← hends j (by omega), ← hends (j + 1) (by omega)] at q
        obtain ⟨q1, -, q3⟩ := ih j v hj (wordAt_lt _ _) B' _ _ (wordAt_lt _ _) q
        exact ⟨q1, q3⟩
      refine ⟨rfl, ?_, ?_⟩
      · rw [← he, ← he', hends _ (le_refl _)]
      · intro x hx1 hx2
        by_cases c1 : x < s + 8 * dataSize w
        · exact bytes_of_slice (hd ▸ hd') x hx1 c1
        · by_cases c2 : x < s + 8 * (dataSize w + ptrsSize w)
          · have hj : (x - (s + 8 * dataSize w)) / 8 < ptrs.length := by omega
            obtain ⟨v, hv⟩ := get_of_lt hj
            exact bytes_of_wordAt (by omega) (by omega) (hch _ v hv).1 x (by omega) (by omega)
          · obtain ⟨j, hj, h3, h4⟩ := chain_find (x := x) (ends := ends) ptrs.length (by omega) (by omega)
            obtain ⟨v, hv⟩ := get_of_lt hj
            exact (hch j v hv).2 x h3 h4
  | listPrim pos w s hk hg ht hb hz =>
    intro hw64 B' w' e' hw'64 h'
    generalize hv : Val.listPrim (listTag w) (listCount w) (slice B s (primLen (listTag w) (listCount w))) = v' at h'
    cases h' with
    | null => cases hv
    | empty => cases hv
    | struct => cases hv
    | listPtr => cases hv
    | listComp => cases hv
    | listPrim _ _ _ hk' hg' ht' hb' hz' =>
      injection hv with v1 v2 v3
      have hwe : w = w' := by
        apply word_ext hw64 hw'64 (by omega) (by unfold target at ht ht'; omega)
        unfold listTag at v1
        unfold listCount at v2
        omega
      subst hwe
      refine ⟨rfl, rfl, ?_⟩
      intro x hx1 hx2
      by_cases c : x < s + primLen (listTag w) (listCount w)
      · exact bytes_of_slice v3 x hx1 c
      · have a := hz rfl (x - s) (by omega) (by omega)
        have b := hz' rfl (x - s) (by omega) (by omega)
        rw [show s + (x - s) = x by omega] at a b
        rw [a, b]
  | listPtr pos w s e items ends hk hg ht hb hl h0 he hp ih =>
    intro hw64 B' w' e' hw'64 h'
    cases h' with
    | listPtr _ _ _ _ _ ends' hk' hg' ht' hb' hl' h0' he' hp' =>
      have hwe : w = w' := by
        apply word_ext hw64 hw'64 (by omega) (by unfold target at ht ht'; omega)
        have a : listTag w = listTag w' := by omega
        have b : listCount w = listCount w' := by omega
        unfold listTag at a
        unfold listCount at b
        omega
      subst hwe
      have hends := chain_eq (ends := ends) (ends' := ends')
        (f := fun j => (items[j]?.map Val.size).getD 0) items.length (by omega)
        (by intro j hj; obtain ⟨v, hv⟩ := get_of_lt hj; rw [lay_size (hp j v hv), hv]; rfl)
        (by intro j hj; obtain ⟨v, hv⟩ := get_of_lt hj; rw [lay_size (hp' j v hv), hv]; rfl)
      have hch : ∀ j v, items[j]? = some v →
          wordAt B (s + 8 * j) = wordAt B' (s + 8 * j) ∧
          ∀ x, ends j ≤ x → x < ends (j + 1) → B[x]? = B'[x]? := by
        intro j v hj
        have hjl := getElem?_lt hj
        have q := hp' j v hj
        rw [← hends j (by omega), ← hends (j + 1) (by omega)] at q
        obtain ⟨q1, -, q3⟩ := ih j v hj (wordAt_lt _ _) B' _ _ (wordAt_lt _ _) q
        exact ⟨q1, q3⟩
      refine ⟨rfl, ?_, ?_⟩
      · rw [← he, ← he', hends _ (le_refl _)]
      · intro x hx1 hx2
        by_cases c2 : x < s + 8 * listCount w
        · have hj : (x - s) / 8 < items.length := by omega
          obtain ⟨v, hv⟩ := get_of_lt hj
          exact bytes_of_wordAt (by omega) (by omega) (hch _ v hv).1 x (by omega) (by omega)
        · obtain ⟨j, hj, h3, h4⟩ := chain_find (x := x) (ends := ends) items.length (by omega) (by omega)
          obtain ⟨v, hv⟩ := get_of_lt hj
          exact (hch j v hv).2 x h3 h4
  | listComp pos w s e tag ds ps items ends hk hg ht hb htag hkt hds hps hn htot h0 he hstep hi hp ih =>
    intro hw64 B' w' e' hw'64 h'
    cases h' with
    | listComp _ _ _ _ tag' _ _ _ ends' hk' hg' ht' hb' htag' hkt' hds' hps' hn' htot' h0' he' hstep' hi' hp' =>
      have hwe : w = w' := by
        apply word_ext hw64 hw'64 (by omega) (by unfold target at ht ht'; omega)
        have a : listTag w = listTag w' := by omega
        have b : listCount w = listCount w' := by omega
        unfold listTag at a
        unfold listCount at b
        omega
      subst hwe
      have htg : tag = tag' := by
        apply word_ext (by rw [htag]; exact wordAt_lt _ _) (by rw [htag']; exact wordAt_lt _ _)
          (by omega) (by omega)
        have a : dataSize tag = dataSize tag' := by omega
        have b : ptrsSize tag = ptrsSize tag' := by omega
        have c := wordAt_lt B s
        have d := wordAt_lt B' s
        unfold dataSize at a
        unfold ptrsSize at b
        omega
      -- the ends within one element
      have hin : ∀ i, i < items.length → ends i 0 = ends' i 0 → ∀ j, j ≤ ps → ends i j = ends' i j := by
        intro i hil hi0
        obtain ⟨⟨d, vs⟩, hv⟩ := get_of_lt hil
        have hvl := (hi i d vs hv).2
        exact chain_eq (f := fun j => (vs[j]?.map Val.size).getD 0) ps hi0
          (by intro j hj; obtain ⟨v, hv'⟩ := get_of_lt (hvl.symm ▸ hj); rw [lay_size (hp i d vs hv j v hv'), hv']; rfl)
          (by intro j hj; obtain ⟨v, hv'⟩ := get_of_lt (hvl.symm ▸ hj); rw [lay_size (hp' i d vs hv j v hv'), hv']; rfl)
      have hends : ∀ i, i ≤ items.length → ends i 0 = ends' i 0 := by
        intro i
        induction i with
        | zero => intro _; omega
        | succ i ihi =>
          intro hil
          rw [← hstep, ← hstep']
          exact hin i (by omega) (ihi (by omega)) ps (le_refl _)
      have hch : ∀ (i : Nat) d vs, items[i]? = some (d, vs) → ∀ (j : Nat) v, vs[j]? = some v →
          wordAt B (s + 8 + i * (8 * (ds + ps)) + 8 * ds + 8 * j)
            = wordAt B' (s + 8 + i * (8 * (ds + ps)) + 8 * ds + 8 * j) ∧
          ∀ x, ends i j ≤ x → x < ends i (j + 1) → B[x]? = B'[x]? := by
        intro i d vs hid j v hj
        have hil := getElem?_lt hid
        have hjl := getElem?_lt hj
        have hvl := (hi i d vs hid).2
        have q := hp' i d vs hid j v hj
        rw [← hin i hil (hends i (by omega)) j (by omega),
          ← hin i hil (hends i (by omega)) (j + 1) (by omega)] at q
        obtain ⟨q1, -, q3⟩ := ih i d vs hid j v hj (wordAt_lt _ _) B' _ _ (wordAt_lt _ _) q
        exact ⟨q1, q3⟩
      refine ⟨rfl, ?_, ?_⟩
      · rw [← he, ← he', hends _ (le_refl _)]
      · intro x hx1 hx2
        by_cases c1 : x < s + 8
        · exact bytes_of_wordAt (by omega) (by omega) (by rw [← htag, ← htag', htg]) x hx1 c1
        · by_cases c2 : x < s + 8 + 8 * listCount w
          · -- inside the elements
            have hpos : 0 < 8 * (ds + ps) := by
              rcases Nat.eq_zero_or_pos (ds + ps) with hz | hz
              · rw [hz, Nat.mul_zero] at htot; omega
              · omega
            have hmul : items.length * (8 * (ds + ps)) = 8 * listCount w := by
              rw [← htot]; ring
            have hil : (x - (s + 8)) / (8 * (ds + ps)) < items.length := by
              rw [Nat.div_lt_iff_lt_mul hpos]; omega
            have hdm := Nat.div_add_mod (x - (s + 8)) (8 * (ds + ps))
            have hml := Nat.mod_lt (x - (s + 8)) hpos
            generalize (x - (s + 8)) / (8 * (ds + ps)) = i at hil hdm
            generalize (x - (s + 8)) % (8 * (ds + ps)) = r at hdm hml
            rw [Nat.mul_comm] at hdm
            obtain ⟨⟨d, vs⟩, hv⟩ := get_of_lt hil
            obtain ⟨hd1, hvl⟩ := hi i d vs hv
            obtain ⟨hd2, -⟩ := hi' i d vs hv
            have hile : (i + 1) * (8 * (ds + ps)) ≤ 8 * listCount w := by
              rw [← hmul]; exact Nat.mul_le_mul_right _ hil
            rw [Nat.add_mul, Nat.one_mul] at hile
            generalize hbase : i * (8 * (ds + ps)) = base at *
            by_cases c3 : r < 8 * ds
            · exact bytes_of_slice (hd1 ▸ hd2) x (by omega) (by omega)
            · have hj : (r - 8 * ds) / 8 < vs.length := by omega
              obtain ⟨v, hv'⟩ := get_of_lt hj
              have := (hch i d vs hv _ v hv').1
              rw [hbase] at this
              exact bytes_of_wordAt (by omega) (by omega) this x (by omega) (by omega)
          · obtain ⟨i, hil, h3, h4⟩ := chain_find (x := x) (ends := fun i => ends i 0) items.length (by omega) (by omega)
            obtain ⟨⟨d, vs⟩, hv⟩ := get_of_lt hil
            have hvl := (hi i d vs hv).2
            rw [← hstep] at h4
            obtain ⟨j, hj, h5, h6⟩ := chain_find (x := x) (ends := ends i) ps h3 h4
            obtain ⟨v, hv'⟩ := get_of_lt (hvl.symm ▸ hj : j < vs.length)
            exact (hch i d vs hv j v hv').2 x h5 h6

end Capnpy
