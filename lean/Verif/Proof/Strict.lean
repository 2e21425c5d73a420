import Verif.Proof.Canon
import Verif.Proof.Struct

/-!
# When the canonical layout is compact

The converse of `lay_strict`: a canonical layout which is also a compact one
contains no empty struct.
-/

namespace Capnpy
open Spec

theorem Spec.Val.allNoEmpty_of {vs : List Val} (h : ∀ (j : Nat) (v : Val), vs[j]? = some v → v.NoEmpty) :
    Val.AllNoEmpty vs := by
  induction vs with
  | nil => trivial
  | cons v vs ih =>
    exact ⟨h 0 v rfl, ih (fun j u hj => h (j + 1) u (by simpa using hj))⟩

theorem Spec.Val.itemsNoEmpty_of {is : List (List UInt8 × List Val)}
    (h : ∀ (i : Nat) d vs, is[i]? = some (d, vs) → Val.AllNoEmpty vs) : Val.ItemsNoEmpty is := by
  induction is with
  | nil => trivial
  | cons x is ih =>
    obtain ⟨d, vs⟩ := x
    exact ⟨h 0 d vs rfl, ih (fun j d u hj => h (j + 1) d u (by simpa using hj))⟩

theorem chain_mono {ends : Nat → Nat} (n : Nat) (h : ∀ j, j < n → ends j ≤ ends (j + 1)) :
    ∀ j, j ≤ n → ends 0 ≤ ends j := by
  intro j
  induction j with
  | zero => intro _; exact le_refl _
  | succ j ih => intro hj; have := h j (by omega); have := ih (by omega); omega

theorem lay_noEmpty {B : Bytes} {pos w s e : Nat} {v : Val} (h : Lay true B pos w v s e) :
    pos < s → ∀ e', Lay false B pos w v s e' → v.NoEmpty := by
  induction h with
  | null => intro _ _ _; trivial
  | empty pos s hae =>
    intro hps e' h'
    exfalso
    cases h' with
    | empty _ _ hae' => cases hae'
    | struct _ _ _ _ _ _ ends hw hk ht =>
      have : offset emptyStructWord = -1 := by decide
      unfold target at ht
      omega
  | struct pos w s e data ptrs ends hw hk ht hb hd hl hne h0 he hp ih =>
    intro hps e' h'
    have hne' := hne rfl
    have hdl : data.length = 8 * dataSize w := by rw [hd]; exact slice_length_of_le (by omega)
    cases h' with
    | empty _ _ hae' => cases hae'
    | struct _ _ _ _ _ _ ends' hw' hk' ht' hb' hd' hl' _ h0' he' hp' =>
      have hends := chain_eq (ends := ends) (ends' := ends')
        (f := fun j => (ptrs[j]?.map Val.size).getD 0) ptrs.length (by omega)
        (by intro j hj; obtain ⟨v, hv⟩ := get_of_lt hj; rw [lay_size (hp j v hv), hv]; rfl)
        (by intro j hj; obtain ⟨v, hv⟩ := get_of_lt hj; rw [lay_size (hp' j v hv), hv]; rfl)
      have hm := chain_mono (ends := ends) ptrs.length (by
        intro j hj; obtain ⟨v, hv⟩ := get_of_lt hj; have := lay_size (hp j v hv); omega)
      refine ⟨?_, Val.allNoEmpty_of fun j v hj => ?_⟩
      · by_cases c : data = []
        · right
          intro hpn
          rw [c] at hdl; rw [hpn] at hl
          simp only [List.length_nil] at hdl hl
          omega
        · exact .inl c
      · have hjl := getElem?_lt hj
        have := hm j (by omega)
        have q := hp' j v hj
        rw [← hends j (by omega)] at q
        exact ih j v hj (by omega) _ q
  | listPrim => intro _ _ _; trivial
  | listPtr pos w s e items ends hk hg ht hb hl h0 he hp ih =>
    intro hps e' h'
    cases h' with
    | listPtr _ _ _ _ _ ends' hk' hg' ht' hb' hl' h0' he' hp' =>
      have hends := chain_eq (ends := ends) (ends' := ends')
        (f := fun j => (items[j]?.map Val.size).getD 0) items.length (by omega)
        (by intro j hj; obtain ⟨v, hv⟩ := get_of_lt hj; rw [lay_size (hp j v hv), hv]; rfl)
        (by intro j hj; obtain ⟨v, hv⟩ := get_of_lt hj; rw [lay_size (hp' j v hv), hv]; rfl)
      have hm := chain_mono (ends := ends) items.length (by
        intro j hj; obtain ⟨v, hv⟩ := get_of_lt hj; have := lay_size (hp j v hv); omega)
      refine Val.allNoEmpty_of fun j v hj => ?_
      have hjl := getElem?_lt hj
      have := hm j (by omega)
      have q := hp' j v hj
      rw [← hends j (by omega)] at q
      exact ih j v hj (by omega) _ q
  | listComp pos w s e tag ds ps items ends hk hg ht hb htag hkt hds hps hn htot h0 he hstep hi hp ih =>
    intro hlt e' h'
    cases h' with
    | listComp _ _ _ _ tag' _ _ _ ends' hk' hg' ht' hb' htag' hkt' hds' hps' hn' htot' h0' he' hstep' hi' hp' =>
      have hin : ∀ i, i < items.length → ends i 0 = ends' i 0 → ∀ j, j ≤ ps → ends i j = ends' i j := by
        intro i hil hi0
        obtain ⟨⟨d, vs⟩, hv⟩ := get_of_lt hil
        have hvl := (hi i d vs hv).2
        exact chain_eq (f := fun j => (vs[j]?.map Val.size).getD 0) ps hi0
          (by intro j hj; obtain ⟨v, hv'⟩ := get_of_lt (hvl.symm ▸ hj); rw [lay_size (hp i d vs hv j v hv'), hv']; rfl)
          (by intro j hj; obtain ⟨v, hv'⟩ := get_of_lt (hvl.symm ▸ hj); rw [lay_size (hp' i d vs hv j v hv'), hv']; rfl)
      have hends : ∀ i, i ≤ items.length → ends i 0 = ends' i 0 := by
        intro i
        induction i with
        | zero => intro _; omega
        | succ i ihi =>
          intro hil
          rw [← hstep, ← hstep']
          exact hin i (by omega) (ihi (by omega)) ps (le_refl _)
      have hmin : ∀ i, i < items.length → ∀ j, j ≤ ps → ends i 0 ≤ ends i j := by
        intro i hil
        obtain ⟨⟨d, vs⟩, hv⟩ := get_of_lt hil
        have hvl := (hi i d vs hv).2
        exact chain_mono ps (by
          intro j hj; obtain ⟨v, hv'⟩ := get_of_lt (hvl.symm ▸ hj)
          have := lay_size (hp i d vs hv j v hv'); omega)
      have hmout := chain_mono (ends := fun i => ends i 0) items.length (by
        intro i hil
        have := hmin i hil ps (le_refl _)
        rw [hstep] at this
        exact this)
      refine Val.itemsNoEmpty_of fun i d vs hit => Val.allNoEmpty_of fun j v hj => ?_
      have hil := getElem?_lt hit
      have hvl := (hi i d vs hit).2
      have hjl := getElem?_lt hj
      have q := hp' i d vs hit j v hj
      rw [← hin i hil (hends i (by omega)) j (by omega)] at q
      have m1 := hmout i (by omega)
      have m2 := hmin i hil j (by omega)
      have hmul : items.length * (8 * (ds + ps)) = 8 * listCount w := by rw [← htot]; ring
      have hile : (i + 1) * (8 * (ds + ps)) ≤ 8 * listCount w := by
        rw [← hmul]; exact Nat.mul_le_mul_right _ hil
      rw [Nat.add_mul, Nat.one_mul] at hile
      exact ih i d vs hit j v hj (by omega) _ q

end Capnpy
