import Verif.Spec.Extend
import Mathlib.Data.List.Nodup

namespace Capnpy.Extend

open Capnpy.Module Capnpy.Spec

theorem mem_firsts {l : List Str} {k : Str} : k ∈ firsts l ↔ k ∈ l := by
  induction l with
  | nil => simp [firsts]
  | cons x r ih =>
    simp only [firsts, List.mem_cons, List.mem_filter, ih, decide_eq_true_eq]
    by_cases h : k = x <;> simp [h]

theorem nodup_firsts (l : List Str) : (firsts l).Nodup := by
  induction l with
  | nil => simp [firsts]
  | cons x r ih =>
    simp only [firsts, List.nodup_cons, List.mem_filter, decide_eq_true_eq]
    exact ⟨fun h => h.2 rfl, ih.filter _⟩

theorem mem_keys_lookup {d : Dict} {k : Str} : k ∈ d.map Prod.fst ↔ ∃ v, d.lookup k = some v := by
  induction d with
  | nil => simp
  | cons x r ih =>
    obtain ⟨a, b⟩ := x
    simp only [List.map_cons, List.mem_cons, List.lookup_cons, ih]
    by_cases h : k = a
    · subst h; simp
    · have : (k == a) = false := by simpa using h
      simp [h, this]

theorem lookup_none {d : Dict} {k : Str} : k ∉ d.map Prod.fst ↔ d.lookup k = none := by
  rw [mem_keys_lookup]
  cases d.lookup k <;> simp

theorem lookup_append (d e : Dict) (k : Str) : (d ++ e).lookup k = (d.lookup k).or (e.lookup k) := by
  induction d with
  | nil => simp
  | cons x r ih =>
    obtain ⟨a, b⟩ := x
    simp only [List.cons_append, List.lookup_cons, ih]
    cases h : k == a <;> simp

theorem lookup_filterMap (f : Str → Option Obj) : ∀ (l : List Str) (k : Str),
    (l.filterMap fun k => (f k).map fun v => (k, v)).lookup k = if k ∈ l then f k else none
  | [], k => by simp
  | x :: r, k => by
    have ih := lookup_filterMap f r k
    rw [List.filterMap_cons]
    by_cases hk : k = x
    · subst hk
      cases hf : f k with
      | none =>
        simp only [Option.map_none]
        rw [ih, hf]
        simp
      | some v => simp
    · have hb : (k == x) = false := by simpa using hk
      cases hf : f x with
      | none => simp only [Option.map_none]; rw [ih]; simp [hk]
      | some v => simp only [Option.map_some, List.lookup_cons, hb]; rw [ih]; simp [hk]

theorem map_fst_filterMap_sub (f : Str → Option Obj) (l : List Str) (h : l.Nodup) :
    ((l.filterMap fun k => (f k).map fun v => (k, v)).map Prod.fst).Nodup := by
  induction l with
  | nil => simp
  | cons x r ih =>
    rw [List.nodup_cons] at h
    rw [List.filterMap_cons]
    cases hf : f x with
    | none => simpa using ih h.2
    | some v =>
      simp only [Option.map_some, List.map_cons, List.nodup_cons]
      refine ⟨?_, ih h.2⟩
      rw [mem_keys_lookup]
      rintro ⟨w, hw⟩
      rw [lookup_filterMap, if_neg h.1] at hw
      cases hw

theorem addItem_nodup {d : List (Str × Obj)} (h : (d.map Prod.fst).Nodup) (k : Str) (v : Obj) :
    ((addItem d k v).map Prod.fst).Nodup := by
  unfold addItem
  split
  · exact h
  · next hk =>
    rw [List.map_append, List.nodup_append]
    refine ⟨h, by simp, ?_⟩
    intro a ha b hb
    simp only [List.map_cons, List.map_nil, List.mem_singleton] at hb
    rintro rfl
    subst hb
    exact hk ha

theorem addItem_lookup (d : List (Str × Obj)) (k : Str) (v : Obj) (j : Str) :
    (addItem d k v).lookup j = (d.lookup j).or (if j = k then some v else none) := by
  unfold addItem
  split
  · next h =>
    by_cases hj : j = k
    · subst hj
      obtain ⟨w, hw⟩ := mem_keys_lookup.1 h
      simp [hw]
    · simp [hj]
  · rw [lookup_append]
    by_cases hj : j = k
    · subst hj; simp
    · have hb : (j == k) = false := by simpa using hj
      simp [hj, hb, List.lookup_cons]

theorem newClassDict_nodup (modname : Str) (L : Dict) : ((newClassDict modname L).map Prod.fst).Nodup := by
  have h1 : ((bodyItems modname L).map Prod.fst).Nodup := map_fst_filterMap_sub _ _ ((nodup_firsts _).filter _)
  have h2 : ((baseItems modname L).map Prod.fst).Nodup := addItem_nodup (addItem_nodup (addItem_nodup h1 _ _) _ _) _ _
  unfold newClassDict
  split
  · exact addItem_nodup h2 _ _
  · exact h2

theorem mem_excluded {k : Str} : k ∈ excluded ↔ k = "__dict__".toList ∨ k = "__doc__".toList ∨
    k = "__module__".toList ∨ k = "__weakref__".toList := by
  unfold excluded
  simp only [List.map_cons, List.map_nil, List.mem_cons, List.not_mem_nil, or_false]

theorem bodyItems_lookup (modname : Str) (L : Dict) (k : Str) (hm : k ≠ "__module__".toList) :
    (bodyItems modname L).lookup k = if k = "__qualname__".toList then none else L.lookup k := by
  have hb : (k == "__module__".toList) = false := beq_eq_false_iff_ne.2 hm
  have hl : (L ++ [("__module__".toList, Obj.str modname)]).lookup k = L.lookup k := by
    rw [lookup_append, List.lookup_cons, hb]
    simp
  unfold bodyItems
  rw [lookup_filterMap, hl]
  by_cases hq : k = "__qualname__".toList
  · rw [if_pos hq, if_neg]
    rw [List.mem_filter]
    exact fun h => of_decide_eq_true h.2 hq
  · rw [if_neg hq]
    split
    · rfl
    · next h =>
      rw [List.mem_filter, mem_firsts, List.mem_reverse] at h
      symm
      rw [← hl, ← lookup_none]
      exact fun h' => h ⟨h', decide_eq_true hq⟩

theorem baseItems_lookup (modname : Str) (L : Dict) (k : Str) (hx : k ∉ excluded) :
    (baseItems modname L).lookup k = if k = "__qualname__".toList then none else L.lookup k := by
  rw [mem_excluded] at hx
  push Not at hx
  unfold baseItems
  rw [addItem_lookup, addItem_lookup, addItem_lookup, bodyItems_lookup _ _ _ hx.2.2.1, if_neg hx.1, if_neg hx.2.1,
    if_neg hx.2.2.2]
  simp only [Option.or_none]

open Classical in
theorem newClassDict_lookup (modname : Str) (L : Dict) (k : Str) (hx : k ∉ excluded) :
    (newClassDict modname L).lookup k =
      (if k = "__qualname__".toList then none else L.lookup k).or
        (if k = "__hash__".toList ∧ Bound L "__eq__".toList then some .none else none) := by
  have heq : "__eq__".toList ∈ (baseItems modname L).map Prod.fst ↔ Bound L "__eq__".toList := by
    rw [mem_keys_lookup, baseItems_lookup _ _ _ (by decide), if_neg (by decide)]
    rfl
  unfold newClassDict
  by_cases h : Bound L "__eq__".toList
  · rw [if_pos (heq.2 h), addItem_lookup, baseItems_lookup _ _ _ hx]
    congr 1
    by_cases hk : k = "__hash__".toList
    · rw [if_pos hk, if_pos ⟨hk, h⟩]
    · rw [if_neg hk, if_neg (fun hh => hk hh.1)]
  · rw [if_neg (fun hh => h (heq.1 hh)), baseItems_lookup _ _ _ hx,
      if_neg (fun hh => h hh.2 : ¬ (k = "__hash__".toList ∧ Bound L "__eq__".toList)), Option.or_none]

/-! ## The loop -/

/-- Is the name refused? -/
def Refused (compiled heapType : Bool) (k : Str) : Prop :=
  heapType = false ∧ (compiled = false ∨ k ∈ slots)

theorem magicSetattr_ok {compiled heapType : Bool} {k : Str} (h : ¬ Refused compiled heapType k) (d : Dict) (v : Obj) :
    magicSetattr compiled heapType d k v = .ok ((k, v) :: d) := by
  unfold Refused at h
  unfold magicSetattr
  cases heapType
  · cases compiled
    · simp at h
    · have hk : k ∉ slots := fun hk => h ⟨rfl, Or.inr hk⟩
      rw [if_neg (by decide), if_pos rfl, if_neg hk]
  · rfl

theorem magicSetattr_error {compiled heapType : Bool} {k : Str} (h : Refused compiled heapType k) (d : Dict) (v : Obj) :
    magicSetattr compiled heapType d k v = .error .typeError := by
  obtain ⟨h1, h2⟩ := h
  subst h1
  unfold magicSetattr
  cases compiled
  · rfl
  · have hk : k ∈ slots := h2.resolve_left (by decide)
    rw [if_neg (by decide), if_pos rfl, if_pos hk]

/-- The items that are copied. -/
def copied (items : List (Str × Obj)) : List (Str × Obj) := items.filter fun x => decide (x.1 ∉ excluded)

theorem extendLoop_ok {compiled heapType : Bool} : ∀ (items : List (Str × Obj)) (d : Dict),
    (∀ x ∈ items, x.1 ∉ excluded → ¬ Refused compiled heapType x.1) →
    extendLoop compiled heapType d items = ((copied items).reverse ++ d, .ok ())
  | [], d, _ => rfl
  | (k, v) :: r, d, h => by
    have ih := extendLoop_ok (compiled := compiled) (heapType := heapType) r
    unfold extendLoop copied
    by_cases hk : k ∈ excluded
    · rw [if_pos hk, ih d (fun x hx => h x (List.mem_cons_of_mem _ hx)), List.filter_cons_of_neg (by simpa using hk)]
      rfl
    · rw [if_neg hk, magicSetattr_ok (h (k, v) (List.mem_cons_self ..) hk),
        List.filter_cons_of_pos (by simpa using hk), List.reverse_cons, List.append_assoc]
      exact ih _ (fun x hx => h x (List.mem_cons_of_mem _ hx))

theorem extendLoop_error {compiled heapType : Bool} {k : Str} {v : Obj} (hk : k ∉ excluded)
    (hr : Refused compiled heapType k) (rest : List (Str × Obj)) : ∀ (items : List (Str × Obj)) (d : Dict),
    (∀ x ∈ items, x.1 ∉ excluded → ¬ Refused compiled heapType x.1) →
    extendLoop compiled heapType d (items ++ (k, v) :: rest) = ((copied items).reverse ++ d, .error .typeError)
  | [], d, _ => by
    show extendLoop compiled heapType d ((k, v) :: rest) = (d, .error .typeError)
    unfold extendLoop
    rw [if_neg hk, magicSetattr_error hr]
  | (k', v') :: r, d, h => by
    have ih := extendLoop_error (v := v) hk hr rest r
    rw [List.cons_append]
    unfold extendLoop copied
    by_cases hk' : k' ∈ excluded
    · rw [if_pos hk', ih d (fun x hx => h x (List.mem_cons_of_mem _ hx)), List.filter_cons_of_neg (by simpa using hk')]
      rfl
    · rw [if_neg hk', magicSetattr_ok (h (k', v') (List.mem_cons_self ..) hk'),
        List.filter_cons_of_pos (by simpa using hk'), List.reverse_cons, List.append_assoc]
      exact ih _ (fun x hx => h x (List.mem_cons_of_mem _ hx))

theorem lookup_reverse {d : List (Str × Obj)} (h : (d.map Prod.fst).Nodup) (k : Str) : d.reverse.lookup k = d.lookup k := by
  induction d with
  | nil => rfl
  | cons x r ih =>
    obtain ⟨a, b⟩ := x
    simp only [List.map_cons, List.nodup_cons] at h
    rw [List.reverse_cons, lookup_append, ih h.2, List.lookup_cons]
    by_cases hk : k = a
    · subst hk
      rw [lookup_none.1 h.1]
      simp
    · have hb : (k == a) = false := beq_eq_false_iff_ne.2 hk
      simp [hb, List.lookup_cons]

theorem lookup_copied (items : List (Str × Obj)) (k : Str) :
    (copied items).lookup k = if k ∈ excluded then none else items.lookup k := by
  induction items with
  | nil => simp [copied]
  | cons x r ih =>
    obtain ⟨a, b⟩ := x
    unfold copied at ih ⊢
    by_cases ha : a ∈ excluded
    · rw [List.filter_cons_of_neg (by simpa using ha), ih]
      by_cases hk : k ∈ excluded
      · rw [if_pos hk, if_pos hk]
      · rw [if_neg hk, if_neg hk, List.lookup_cons]
        have hb : (k == a) = false := beq_eq_false_iff_ne.2 (fun h => hk (h ▸ ha))
        rw [hb]
    · rw [List.filter_cons_of_pos (by simpa using ha), List.lookup_cons, List.lookup_cons, ih]
      by_cases hka : k = a
      · subst hka
        simp [ha]
      · have hb : (k == a) = false := beq_eq_false_iff_ne.2 hka
        rw [hb]

theorem copied_nodup {items : List (Str × Obj)} (h : (items.map Prod.fst).Nodup) : ((copied items).map Prod.fst).Nodup :=
  h.sublist (List.filter_sublist.map _)

/-- The class after a complete extension. -/
theorem lookup_after {items : List (Str × Obj)} (h : (items.map Prod.fst).Nodup) (d : Dict) (k : Str) :
    ((copied items).reverse ++ d).lookup k = (if k ∈ excluded then none else items.lookup k).or (d.lookup k) := by
  rw [lookup_append, lookup_reverse (copied_nodup h), lookup_copied]

open Classical in
theorem after_newClassDict (modname : Str) (L : Dict) (d : Dict) (k : Str) :
    After L (fun k => d.lookup k) k (((copied (newClassDict modname L)).reverse ++ d).lookup k) := by
  rw [lookup_after (newClassDict_nodup modname L)]
  by_cases hx : k ∈ excluded
  · rw [if_pos hx]
    simp only [Option.none_or]
    refine After.reserved ?_
    rw [mem_excluded] at hx
    unfold Reserved
    rcases hx with h | h | h | h
    · exact Or.inl h
    · exact Or.inr (Or.inl h)
    · exact Or.inr (Or.inr (Or.inl h))
    · exact Or.inr (Or.inr (Or.inr (Or.inl h)))
  · rw [if_neg hx, newClassDict_lookup _ _ _ hx]
    by_cases hq : k = "__qualname__".toList
    · have hh : ¬ (k = "__hash__".toList ∧ Bound L "__eq__".toList) := by
        rintro ⟨hk, -⟩
        rw [hq] at hk
        exact absurd hk (by decide)
      rw [if_pos hq, if_neg hh]
      simp only [Option.none_or]
      exact After.reserved (Or.inr (Or.inr (Or.inr (Or.inr hq))))
    · rw [if_neg hq]
      have hnr : ¬ Reserved k := by
        rw [mem_excluded] at hx
        push Not at hx
        rintro (h | h | h | h | h)
        · exact hx.1 h
        · exact hx.2.1 h
        · exact hx.2.2.1 h
        · exact hx.2.2.2 h
        · exact hq h
      cases hl : L.lookup k with
      | some v =>
        simp only [Option.some_or]
        exact After.bound hnr hl
      | none =>
        simp only [Option.none_or]
        by_cases hh : k = "__hash__".toList ∧ Bound L "__eq__".toList
        · rw [if_pos hh]
          simp only [Option.some_or]
          exact After.unhashable hh.1 hl hh.2
        · rw [if_neg hh]
          simp only [Option.none_or]
          exact After.other hl (fun h1 h2 => hh ⟨h1, h2⟩)

/-- `After` determines the attribute. -/
theorem After.unique {L : Dict} {before : Str → Option Obj} {k : Str} {x y : Option Obj} (h : After L before k x)
    (h' : After L before k y) : x = y := by
  have hash : ∀ {k : Str}, k = "__hash__".toList → ¬ Reserved k := by
    intro k hk
    subst hk
    unfold Reserved
    decide
  cases h with
  | reserved h1 =>
    cases h' with
    | reserved _ => rfl
    | bound h2 _ => exact absurd h1 h2
    | unhashable h2 _ _ => exact absurd h1 (hash h2)
    | other _ _ => rfl
  | bound h1 hv =>
    cases h' with
    | reserved h2 => exact absurd h2 h1
    | bound _ hv' => rw [hv] at hv'; rw [hv']
    | unhashable _ hv' _ => rw [hv] at hv'; cases hv'
    | other hv' _ => rw [hv] at hv'; cases hv'
  | unhashable h1 hv he =>
    cases h' with
    | reserved h2 => exact absurd h2 (hash h1)
    | bound _ hv' => rw [hv] at hv'; cases hv'
    | unhashable _ _ _ => rfl
    | other _ he' => exact absurd he (he' h1)
  | other hv he =>
    cases h' with
    | reserved _ => rfl
    | bound _ hv' => rw [hv] at hv'; cases hv'
    | unhashable h1 _ he' => exact absurd he' (he h1)
    | other _ _ => rfl

end Capnpy.Extend
