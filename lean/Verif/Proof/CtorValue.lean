import Verif.Proof.CtorCompact

/-!
# The value of a constructed object: what it holds, its size and depth
-/

namespace Capnpy

open Spec Props

theorem depths_lt {k : Nat} (hk : 0 < k) : ∀ (vs : List Val), (∀ v ∈ vs, v.depth < k) → Val.depths vs < k
  | [], _ => by simpa [Val.depths] using hk
  | v :: vs, h => by
    simp only [Val.depths]
    have h1 := h v List.mem_cons_self
    have h2 := depths_lt hk vs (fun u hu => h u (List.mem_cons_of_mem _ hu))
    omega

theorem allFits_of : ∀ (vs : List Val), (∀ v ∈ vs, v.Fits) → Val.AllFits vs
  | [], _ => by simp [Val.AllFits]
  | v :: vs, h => by
    simp only [Val.AllFits]
    exact ⟨h v List.mem_cons_self, allFits_of vs (fun u hu => h u (List.mem_cons_of_mem _ hu))⟩

theorem sizes_null : ∀ (vs : List Val), (∀ v ∈ vs, v = .null) → Val.sizes vs = 0
  | [], _ => by simp [Val.sizes]
  | v :: vs, h => by
    simp only [Val.sizes]
    rw [sizes_null vs (fun u hu => h u (List.mem_cons_of_mem _ hu)), h v List.mem_cons_self]
    simp [Val.size]

theorem sizes_set : ∀ (vs : List Val) (k : Nat) (v : Val), vs[k]? = some v →
    Val.sizes vs = v.size + Val.sizes (vs.set k .null)
  | [], k, v, h => by simp at h
  | u :: vs, 0, v, h => by
    simp at h
    subst h
    simp [Val.sizes, Val.size]
  | u :: vs, k + 1, v, h => by
    simp at h
    have := sizes_set vs k v h
    simp only [List.set_cons_succ, Val.sizes]
    omega

/-- The sizes of the pointers are those of the values stored. -/
theorem sizes_eq : ∀ (W : List (Nat × Val)) (vs : List Val), (W.map Prod.fst).Nodup →
    (∀ x ∈ W, vs[x.1]? = some x.2) → (∀ j v, vs[j]? = some v → j ∉ W.map Prod.fst → v = .null) →
    Val.sizes vs = sizeW W
  | [], vs, _, _, h => by
    refine sizes_null vs (fun v hv => ?_)
    obtain ⟨j, hj, rfl⟩ := List.getElem_of_mem hv
    exact h j _ (List.getElem?_eq_getElem hj) (by simp)
  | x :: W, vs, hn, h1, h2 => by
    simp only [List.map_cons, List.nodup_cons] at hn
    have hx := h1 x List.mem_cons_self
    rw [sizes_set vs x.1 x.2 hx]
    have : sizeW (x :: W) = x.2.size + sizeW W := by simp [sizeW]
    rw [this, sizes_eq W (vs.set x.1 .null) hn.2]
    · intro y hy
      have hne : x.1 ≠ y.1 := fun e => hn.1 (by rw [e]; exact List.mem_map.mpr ⟨y, hy, rfl⟩)
      rw [List.getElem?_set_ne hne]
      exact h1 y (List.mem_cons_of_mem _ hy)
    · intro j v hj hnot
      by_cases hjx : x.1 = j
      · subst hjx
        have hlt : x.1 < vs.length := (List.getElem?_eq_some_iff.mp hx).1
        rw [List.getElem?_set_self hlt] at hj
        injection hj with hj
        exact hj.symm
      · rw [List.getElem?_set_ne hjx] at hj
        refine h2 j v hj ?_
        simp only [List.map_cons, List.mem_cons, not_or]
        exact ⟨fun e => hjx e.symm, hnot⟩

mutual

theorem fieldPtrs_fits (fuel : Nat) : ∀ (f : Field) (a : Arg) (n : Nat) (W : List (Nat × Val)), AccField fuel f a n →
    FieldPtrs f a W → ∀ x ∈ W, x.2.Fits ∧ 2 * x.2.depth ≤ fuel + 1
  | .slot name code disc ty off dflt, a, n, W, ha, h => by
    unfold AccField at ha
    unfold FieldPtrs at h
    intro x hx
    by_cases hp : ty.isPointer = true
    · rw [if_pos hp] at h
      obtain ⟨v, hv, rfl⟩ := h
      obtain rfl := List.mem_singleton.mp hx
      have key : (∃ v', PtrArg ty a v' ∧ v'.Fits ∧ 2 * v'.depth ≤ fuel + 1 ∧ n = v'.size) →
          v.Fits ∧ 2 * v.depth ≤ fuel + 1 := by
        rintro ⟨v', h1, h2, h3, -⟩
        rw [ptrArg_unique hv h1]
        exact ⟨h2, h3⟩
      cases ty with
      | anyPointer => exact ha.elim
      | text => exact key ha
      | data => exact key ha
      | struct => exact key ha
      | list it => exact key ha
      | _ => exact absurd hp (by simp [SlotType.isPointer])
    · rw [if_neg hp] at h
      subst h; simp at hx
  | .group name code disc nullable gunion children, a, n, W, ha, h => by
    unfold AccField at ha
    unfold FieldPtrs at h
    cases nullable with
    | true =>
      rw [if_pos rfl] at h ha
      exact fieldsPtrs_fits fuel _ _ n W ha h
    | false =>
      rw [if_neg (by simp)] at h ha
      obtain ⟨as, rfl, ha, -⟩ := ha
      obtain ⟨as', e, h⟩ := h
      injection e with e
      subst e
      exact fieldsPtrs_fits fuel _ _ n W ha h

theorem fieldsPtrs_fits (fuel : Nat) : ∀ (fs : List Field) (as : List Arg) (n : Nat) (W : List (Nat × Val)),
    AccFields fuel fs as n → FieldsPtrs fs as W → ∀ x ∈ W, x.2.Fits ∧ 2 * x.2.depth ≤ fuel + 1
  | [], as, n, W, ha, h => by
    unfold FieldsPtrs at h
    subst h
    intro x hx; simp at hx
  | f :: fs, as, n, W, ha, h => by
    unfold FieldsPtrs at h
    unfold AccFields at ha
    by_cases hs : f.skipped = true
    · rw [if_pos hs] at h ha
      exact fieldsPtrs_fits fuel fs as n W ha h
    · rw [if_neg hs] at h ha
      cases as with
      | nil => exact h.elim
      | cons a as =>
        obtain ⟨W1, W2, rfl, hW1, hW2⟩ := h
        obtain ⟨n1, n2, rfl, ha1, ha2⟩ := ha
        intro x hx
        rcases List.mem_append.mp hx with hx | hx
        · by_cases hab : absent f a = true
          · rw [if_pos hab] at hW1
            subst hW1; simp at hx
          · rw [if_neg hab] at hW1 ha1
            exact fieldPtrs_fits fuel f a n1 W1 ha1 hW1 x hx
        · exact fieldsPtrs_fits fuel fs as n2 W2 ha2 hW2 x hx

end

/-- The value of a constructed object fits, its depth is at most one more than that of the
arguments, and its size is that of the buffer. -/
theorem construct_value (fuel : Nat) (S : Schema) (args : List Arg) (n : Nat) (hS : S.WF)
    (hl : S.locals.Nodup) (ha : AccFields fuel S.fields args n) (hm : (members S.fields args).length ≤ 1)
    (hsz : 8 * (S.dataWords + S.ptrs) + n ≤ 2 ^ 32) (hp15 : S.ptrs < 2 ^ 15) :
    ∃ C data ptrs, S.construct fuel args = .ok (objAt C none 0 S.dataWords S.ptrs) ∧
      Denotes (objAt C none 0 S.dataWords S.ptrs) (.struct data ptrs) ∧
      (Val.struct data ptrs).Fits ∧ 2 * (Val.struct data ptrs).depth ≤ fuel + 3 ∧
      (Val.struct data ptrs).size = C.length ∧ C.length = 8 * (S.dataWords + S.ptrs) + n ∧
      data.length = 8 * S.dataWords ∧ ptrs.length = S.ptrs := by
  obtain ⟨C, hnew, e, hlen, ⟨data, ptrs, hd⟩, -, hzero⟩ := construct_spec fuel S args n hS hl ha hm hsz
  have hnull := nullablesOK_of_wf _ _ _ _ hS.fields
  have hlen' := accFields_length fuel _ _ _ ha
  have hnew2 := new_eq_build fuel S args hl hnull hlen'
  obtain ⟨W, hW, c, C', e', hp⟩ := buildNodes_lay fuel S.dataWords S.ptrs S.union false S.fields args n hS.tag hS.fields ha
    (by simpa using hm) _ (bufOK_init (footAll_lt hS.tag hS.fields) hsz)
  have hCC : C' = C := by
    rw [hnew2] at hnew
    unfold buildNew at hnew
    rw [e'] at hnew
    injection hnew
  subst hCC
  have hlay := hp.holds C' le_rfl (fun _ _ => rfl) (fun _ _ _ => rfl)
  rw [List.length_replicate, show (S.dataWords + S.ptrs) * 8 = 8 * (S.dataWords + S.ptrs) by ring] at hlay
  have hnd := fieldsPtrs_nodup fuel _ _ _ _ _ n _ hS.tag hS.fields ha hm hW
  obtain ⟨hf1, hf2⟩ := fieldsPtrs_foot S.dataWords S.union _ _ _ hW
  refine ⟨C', data, ptrs, e, hd, ?_⟩
  obtain ⟨B, offs, t, ds, ps, data', ptrs', he, _, _, hds, hps, ho, hv⟩ := hd
  injection hv with hv1 hv2
  subst hv1 hv2
  unfold objAt at he
  injection he with e1 e2 e3 e4 e5
  have e1a : C' = B := congrArg Seg.buf e1
  have e1b : (none : Option (List Nat)) = offs := by
    have h := congrArg Seg.offs e1
    exact Option.map_injective (List.map_injective_iff.mpr (fun a b h => by injection h)) h
  obtain rfl : t = 0 := by omega
  obtain rfl : ds = S.dataWords := by omega
  obtain rfl : ps = S.ptrs := by omega
  subst e1a e1b
  obtain ⟨ho1, ho2, ho3, ho4⟩ := id ho
  have hden : ∀ j v, ptrs[j]? = some v →
      Den C' none ((8 * (S.dataWords + j) : Nat) : Int) (wordAt C' (8 * (S.dataWords + j))) v := by
    intro j v hj
    have := ho4 j v hj
    rw [show 0 + 8 * S.dataWords + 8 * j = 8 * (S.dataWords + j) by ring] at this
    exact this
  have hltW : ∀ x ∈ W, x.1 < S.ptrs := by
    intro x hx
    have := footAll_lt hS.tag hS.fields _ (hf1 x hx)
    omega
  have hzw : ∀ j, j < S.ptrs → j ∉ W.map Prod.fst → wordAt C' (8 * (S.dataWords + j)) = 0 := by
    intro j hj hnot
    apply wordAt_zero
    intro k hk
    apply zero_byte
    intro m hm
    refine hzero _ (by omega) (fun hf => hnot ?_)
    obtain ⟨v, hv⟩ := hf2 _ j hf (by omega) (by omega) S.ptrs hS.tag hS.fields
    exact List.mem_map.mpr ⟨_, hv, rfl⟩
  have hval : ∀ x ∈ W, ptrs[x.1]? = some x.2 := by
    intro x hx
    obtain ⟨L, R, rfl, hlay', -⟩ := hlay.mem hx
    have hxl := hltW x hx
    obtain ⟨v, hv⟩ := get_of_lt (show x.1 < ptrs.length by omega)
    rw [hv]
    exact congrArg some (den_functional (hden _ v hv) _ (hlay'.den none (by omega)))
  have hnul : ∀ j v, ptrs[j]? = some v → j ∉ W.map Prod.fst → v = .null := by
    intro j v hj hnot
    have hd := hden j v hj
    have hjl : j < ptrs.length := (List.getElem?_eq_some_iff.mp hj).1
    rw [hzw j (by omega) hnot] at hd
    exact den_zero hd
  have hW' := fieldsPtrs_fits fuel _ _ _ _ ha hW
  have hmem : ∀ v ∈ ptrs, v.Fits ∧ 2 * v.depth ≤ fuel + 1 := by
    intro v hv
    obtain ⟨j, hj, rfl⟩ := List.getElem_of_mem hv
    have hg := List.getElem?_eq_getElem hj
    by_cases hmem : j ∈ W.map Prod.fst
    · obtain ⟨x, hx, rfl⟩ := List.mem_map.mp hmem
      have := hval x hx
      rw [hg] at this
      injection this with this
      rw [this]
      exact hW' x hx
    · rw [hnul j _ hg hmem]
      simp [Val.Fits, Val.depth]
  have hdl : data.length = 8 * S.dataWords := by
    rw [ho2, slice, List.length_take, List.length_drop]; omega
  have hsize := sizes_eq W ptrs hnd hval hnul
  have hlw := hlay.size
  refine ⟨?_, ?_, ?_, hlen, hdl, ho3⟩
  · simp only [Val.Fits]
    exact ⟨by omega, allFits_of _ (fun v hv => (hmem v hv).1)⟩
  · have := depths_lt (k := (fuel + 1) / 2 + 1) (by omega) ptrs (fun v hv => by have := (hmem v hv).2; omega)
    simp only [Val.depth]
    omega
  · simp only [Val.size]
    omega

end Capnpy
