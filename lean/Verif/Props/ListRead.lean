import Verif.Proof.List
import Verif.Proof.Slice

/-!
# C27: lists behave like Python sequences

`ListDenotes l v` and `elems`: see `Verif/Spec/ListSpec.lean`; Python slices:
`Verif/Spec/Slice.lean`.
-/

namespace Capnpy.Props

open Spec

/-- `xs` are the Python objects for the elements `es`, one by one. -/
abbrev ItemsDenote (xs : List Item) (es : List Elem) : Prop := List.Forall₂ ItemDenotes xs es

/-! ## A sample: a list of three texts (one of them null) -/

/-- One list pointer, then a list of 3 pointers: "ab", null, "". -/
def textsBuf : Bytes :=
  leBytes 8 (listWord 0 6 3) ++ leBytes 8 (listWord 2 2 3) ++ leBytes 8 0 ++ leBytes 8 (listWord 1 2 1)
    ++ [97, 98, 0, 0, 0, 0, 0, 0] ++ [0, 0, 0, 0, 0, 0, 0, 0]

def textsVal : Val := .listPtr [.listPrim 2 3 [97, 98, 0], .null, .listPrim 2 1 [0]]

def textsList : ListObj := listAt textsBuf none 8 (wordAt textsBuf 0) .text

theorem textsList_denotes : ListDenotes textsList textsVal := by
  refine ⟨textsBuf, none, 0, wordAt textsBuf 0, 8, .text, rfl, ?_, by decide, by decide, by decide, by decide, ?_⟩
  · intro tbl h; cases h
  · refine .listPtr _ _ 8 _ (by decide) (by decide) (by decide) (by decide) (by decide) ?_
    intro j v hj
    match j, hj with
    | 0, hj =>
      cases hj
      have h := Den.listPrim (B := textsBuf) (offs := none) ((8 + 8 * 0 : Nat) : Int)
        (wordAt textsBuf (8 + 8 * 0)) 32 (by decide) (by decide) (by decide) (by decide)
      have h1 : listTag (wordAt textsBuf (8 + 8 * 0)) = 2 := by decide
      have h2 : listCount (wordAt textsBuf (8 + 8 * 0)) = 3 := by decide
      rw [h1, h2] at h
      exact h
    | 1, hj =>
      cases hj
      have h := Den.null (B := textsBuf) (offs := none) ((8 + 8 * 1 : Nat) : Int)
      have h1 : wordAt textsBuf (8 + 8 * 1) = 0 := by decide
      rw [← h1] at h
      exact h
    | 2, hj =>
      cases hj
      have h := Den.listPrim (B := textsBuf) (offs := none) ((8 + 8 * 2 : Nat) : Int)
        (wordAt textsBuf (8 + 8 * 2)) 40 (by decide) (by decide) (by decide) (by decide)
      have h1 : listTag (wordAt textsBuf (8 + 8 * 2)) = 2 := by decide
      have h2 : listCount (wordAt textsBuf (8 + 8 * 2)) = 1 := by decide
      rw [h1, h2] at h
      exact h
    | j + 3, hj => simp at hj

/-- The elements of the sample. -/
theorem texts_elems : elems textsList.itemType textsVal = some [.bytes [97, 98], .none, .bytes []] := rfl

/-! ## C27 -/

/-- C27: `len(l)` is the number of elements. -/
theorem C27_len {l : ListObj} {v : Val} (h : ListDenotes l v) {es : List Elem}
    (he : elems l.itemType v = some es) : l.len = es.length := (readItem_spec h he).1

/-- C27: `l[i]` for `0 ≤ i < len(l)` is the element `i`. -/
theorem C27_getitem {l : ListObj} {v : Val} (h : ListDenotes l v) {es : List Elem}
    (he : elems l.itemType v = some es) {i : Nat} {e : Elem} (hi : es[i]? = some e) :
    ∃ x, l.getItem i = .ok x ∧ ItemDenotes x e := by
  obtain ⟨hl, hr⟩ := readItem_spec h he
  have hlt : i < es.length := (List.getElem?_eq_some_iff.mp hi).1
  unfold ListObj.getItem
  rw [if_neg (show ¬ ((i : Int) < 0) by omega)]
  rw [if_pos (by omega)]
  exact hr i e hi

/-- C27: `l[-k]` for `1 ≤ k ≤ len(l)` is the element `len(l) - k`. -/
theorem C27_getitem_negative {l : ListObj} {v : Val} (h : ListDenotes l v) {es : List Elem}
    (he : elems l.itemType v = some es) {k : Nat} (hk : 1 ≤ k) (hk2 : k ≤ es.length) {e : Elem}
    (hi : es[es.length - k]? = some e) : ∃ x, l.getItem (-(k : Int)) = .ok x ∧ ItemDenotes x e := by
  obtain ⟨hl, hr⟩ := readItem_spec h he
  unfold ListObj.getItem
  rw [if_pos (show (-(k : Int)) < 0 by omega)]
  have e1 : -(k : Int) + l.itemCount = ((es.length - k : Nat) : Int) := by omega
  rw [e1, if_pos (by omega)]
  exact hr _ e hi

/-- C27: any other index raises IndexError. -/
theorem C27_getitem_out_of_range {l : ListObj} {v : Val} (h : ListDenotes l v) {es : List Elem}
    (he : elems l.itemType v = some es) {i : Int} (hi : i < -es.length ∨ es.length ≤ i) :
    l.getItem i = .error .indexError := by
  obtain ⟨hl, hr⟩ := readItem_spec h he
  unfold ListObj.getItem
  rcases hi with hi | hi
  · rw [if_pos (show i < 0 by omega), if_neg (by omega)]
  · rw [if_neg (show ¬ i < 0 by omega), if_neg (by omega)]

example : (∃ x, textsList.getItem 0 = .ok x ∧ ItemDenotes x (.bytes [97, 98])) ∧
    (∃ x, textsList.getItem (-((2 : Nat) : Int)) = .ok x ∧ ItemDenotes x .none) ∧
    textsList.getItem 3 = .error .indexError ∧ textsList.getItem (-4) = .error .indexError :=
  ⟨C27_getitem textsList_denotes texts_elems rfl,
    C27_getitem_negative textsList_denotes texts_elems (by decide) (by decide) rfl,
    C27_getitem_out_of_range textsList_denotes texts_elems (by right; decide),
    C27_getitem_out_of_range textsList_denotes texts_elems (by left; decide)⟩

theorem iterFrom_spec {l : ListObj} {v : Val} (h : ListDenotes l v) {es : List Elem}
    (he : elems l.itemType v = some es) : ∀ (n i : Nat), es.length ≤ i + n →
    ∃ xs, l.iterFrom (n + 1) i = .ok xs ∧ ItemsDenote xs (es.drop i) := by
  intro n
  induction n with
  | zero =>
    intro i hi
    refine ⟨[], ?_, ?_⟩
    · unfold ListObj.iterFrom
      rw [C27_getitem_out_of_range h he (Or.inr (by omega))]
    · rw [List.drop_eq_nil_of_le (by omega)]; exact .nil
  | succ n ih =>
    intro i hi
    by_cases hlt : i < es.length
    · obtain ⟨x, hx, hd⟩ := C27_getitem h he (List.getElem?_eq_getElem hlt)
      obtain ⟨xs, hxs, hds⟩ := ih (i + 1) (by omega)
      refine ⟨x :: xs, ?_, ?_⟩
      · unfold ListObj.iterFrom
        rw [hx]
        have e : (i : Int) + 1 = ((i + 1 : Nat) : Int) := by omega
        rw [e]
        show (l.iterFrom (n + 1) ((i + 1 : Nat) : Int) >>= fun xs => pure (x :: xs)) = _
        rw [bind_okP hxs]
        rfl
      · rw [List.drop_eq_getElem_cons hlt]
        exact .cons hd hds
    · refine ⟨[], ?_, ?_⟩
      · unfold ListObj.iterFrom
        rw [C27_getitem_out_of_range h he (Or.inr (by omega))]
      · rw [List.drop_eq_nil_of_le (by omega)]; exact .nil

/-- C27: iterating over `l` (`list(l)`, `for x in l`) yields exactly the elements,
in order. -/
theorem C27_iter {l : ListObj} {v : Val} (h : ListDenotes l v) {es : List Elem}
    (he : elems l.itemType v = some es) : ∃ xs, l.toList = .ok xs ∧ ItemsDenote xs es := by
  obtain ⟨hl, -⟩ := readItem_spec h he
  have := iterFrom_spec h he l.itemCount.toNat 0 (by omega)
  exact this

example : ∃ xs, textsList.toList = .ok xs ∧ ItemsDenote xs [.bytes [97, 98], .none, .bytes []] :=
  C27_iter textsList_denotes texts_elems

theorem mapPy_spec {l : ListObj} {v : Val} (h : ListDenotes l v) {es : List Elem}
    (he : elems l.itemType v = some es) : ∀ idx : List Nat, (∀ i ∈ idx, i < es.length) →
    ∃ xs, ListObj.mapPy l.readItem (idx.map Int.ofNat) = .ok xs ∧
      ItemsDenote xs (idx.filterMap fun x => es[x]?) := by
  intro idx
  induction idx with
  | nil => intro _; exact ⟨[], rfl, .nil⟩
  | cons i idx ih =>
    intro hi
    obtain ⟨xs, hxs, hds⟩ := ih fun j hj => hi j (by simp [hj])
    have hlt := hi i (by simp)
    obtain ⟨x, hx, hd⟩ := (readItem_spec h he).2 i _ (List.getElem?_eq_getElem hlt)
    refine ⟨x :: xs, ?_, ?_⟩
    · show (l.readItem (i : Int) >>= fun b => ListObj.mapPy l.readItem (idx.map Int.ofNat) >>= fun bs =>
        pure (b :: bs)) = _
      rw [bind_okP hx, bind_okP hxs]
      rfl
    · rw [List.filterMap_cons_some (List.getElem?_eq_getElem hlt)]
      exact .cons hd hds

/-- C27: `l[start:stop:step]`, with any combination of omitted, negative and
out-of-range bounds and any non-zero step, is the list of the elements in the
slice. -/
theorem C27_slice {l : ListObj} {v : Val} (h : ListDenotes l v) {es : List Elem}
    (he : elems l.itemType v = some es) (start stop : Option Int) {step : Int} (hs : step ≠ 0) :
    ∃ xs, l.getSlice start stop step = .ok xs ∧ ItemsDenote xs (sliceOf es start stop step) := by
  classical
  have hl : l.len = es.length := C27_len h he
  unfold ListObj.getSlice
  rw [hl]
  unfold sliceOf
  by_cases hp : 0 < step
  · rw [bind_okP (sliceIndices_up hp), if_pos hp]
    exact mapPy_spec h he _ (by intro i hi; simp at hi; exact hi.1)
  · rw [bind_okP (sliceIndices_down (by omega)), if_neg hp]
    exact mapPy_spec h he _ (by intro i hi; simp at hi; exact hi.1)

/-- C27: a zero step raises ValueError. -/
theorem C27_slice_zero_step (l : ListObj) (start stop : Option Int) :
    l.getSlice start stop 0 = .error .valueError := rfl

/-- The specification of slices on a concrete case: `"abcd"[::-2] == "db"`,
`"abcd"[1:-1] == "bc"`, `"abcd"[-10:10:3] == "ad"`. -/
theorem sliceOf_sample : sliceOf [1, 2, 3, 4] none none (-2) = [4, 2] ∧
    sliceOf [1, 2, 3, 4] (some 1) (some (-1)) 1 = [2, 3] ∧
    sliceOf [1, 2, 3, 4] (some (-10)) (some 10) 3 = [1, 4] := by
  refine ⟨?_, ?_, ?_⟩
  all_goals
    simp [sliceOf, InUp, InDown, firstUp, firstDown, fromEnd, List.range, List.range.loop, List.filter]

example : ∃ xs, textsList.getSlice none none (-2) = .ok xs ∧
    ItemsDenote xs (sliceOf [.bytes [97, 98], .none, .bytes []] none none (-2)) :=
  C27_slice textsList_denotes texts_elems none none (by decide)

/-- Finding: when the items lie beyond the end of the buffer (a truncated or
malformed message), reading an item raises IndexError, which Python's iteration
protocol takes for the end of the list: iterating silently stops although
`len(l)` is larger. -/
theorem C27_truncated_iteration : ∃ l : ListObj, ListObj.init ⟨[1, 0, 2, 0], none⟩ 0 3 5 (.prim .h) = .ok l ∧
    l.len = 5 ∧ l.toList = .ok [.int 1, .int 2] :=
  ⟨_, rfl, rfl, by decide +kernel⟩

end Capnpy.Props
