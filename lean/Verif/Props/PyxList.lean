import Verif.Proof.PyxList
import Verif.Props.PyxCopy
import Verif.Props.ListWrite

/-!
# C49: lists built with the compiled builder

With the C extensions `copy_from_list` runs on a builder whose memory is a C array.
`ItemOk`, `NoBool` (Proof/PyxList.lean): no item is a bool; no pointer which can be reached
from a struct item leads to before the start of its buffer, and its data section is not larger
than an item of the list.
-/

namespace Capnpy.Props

open Spec Pyx

/-- C49: whenever the pure version returns, the compiled version returns, never accesses
memory out of bounds, and leaves the same bytes. -/
theorem C49_same_result (junk : Builder → Nat → UInt8) {it : ItemType} (hsz : it.Sized) (hnb : NoBool it)
    {l : Option (List PyItem)} (hok : ∀ xs, l = some xs → ∀ x ∈ xs, ItemOk it x) {fuel pos : Nat} {s : Builder}
    {b b' : Bytes} (hs : Repr s b) (hrun : copyFromList fuel it (pos : Int) l b = .ok () b') :
    ∃ s', copyFromListC junk fuel it (pos : Int) l s = .ok () s' ∧ asString s' = b' ∧ Repr s' b' := by
  have h := SimAt.copyFromList junk fuel it hsz hnb l hok b pos s hs
  rw [hrun] at h
  obtain ⟨s', e1, e2, _⟩ := h
  exact ⟨s', e1, repr_asString e2, e2⟩

/-- C49: and when the pure version raises, other than a `struct.error` or the recursion
limit, the compiled version raises the same exception, and leaves the same bytes. -/
theorem C49_same_exception (junk : Builder → Nat → UInt8) {it : ItemType} (hsz : it.Sized) (hnb : NoBool it)
    {l : Option (List PyItem)} (hok : ∀ xs, l = some xs → ∀ x ∈ xs, ItemOk it x) {fuel pos : Nat} {s : Builder}
    {b b' : Bytes} (hs : Repr s b) {e : PyErr} (he1 : e ≠ .structError) (he2 : e ≠ .recursionError)
    (hrun : copyFromList fuel it (pos : Int) l b = .error e b') :
    ∃ s', copyFromListC junk fuel it (pos : Int) l s = .exc e s' ∧ asString s' = b' ∧ Repr s' b' := by
  have h := SimAt.copyFromList junk fuel it hsz hnb l hok b pos s hs
  rw [hrun] at h
  rcases h with h | h | ⟨s', e1, e2⟩
  · exact absurd h he1
  · exact absurd h he2
  · exact ⟨s', e1, repr_asString e2, e2⟩

theorem itemOk_of_denotes {o : StructObj} {x : List UInt8 × List Val} {ds ps : Nat} (h : StructVal ds ps (.struct o) x) :
    ItemOk (.struct ds ps) (.struct o) := by
  obtain ⟨ho, h1, h2, hlen⟩ := h
  obtain ⟨w, e1, e2⟩ := denotes_noneBefore ho hlen
  obtain ⟨B, offs, t, ds', ps', data, ptrs, rfl, hta, h8, hds, hps, ⟨hb, hd, hl, hp⟩, hv⟩ := ho
  have hpm := asPointer_mod (B := B) (offs := offs) (t := t) hds hps
  have hw : w = structWord (((t : Int) - 8) / 8) ds' ps' := by
    have := e1.symm.trans hpm
    exact_mod_cast this
  have hsd := dataSize_structWord (((t : Int) - 8) / 8) ds' ps' hds
  have hsk := kind_structWord (((t : Int) - 8) / 8) ds' ps'
  rw [← hw] at hsd hsk
  have hdd : ds' = ds := by
    injection hv with ha hb'
    have hx : x.1 = data := ha
    have : data.length = 8 * ds' := by rw [hd]; exact slice_length_of_le (by omega)
    rw [hx] at h1
    omega
  refine ⟨w, e1, hsk, e2, ?_⟩
  rw [hsd, hdd]
  omega

theorem forall₂_mem_left {α β} {R : α → β → Prop} {xs : List α} {ys : List β} (h : List.Forall₂ R xs ys) :
    ∀ x ∈ xs, ∃ y, R x y := by
  induction h with
  | nil => intro x hx; simp at hx
  | cons hx _ ih =>
    intro z hz
    rcases List.mem_cons.mp hz with rfl | hz
    · exact ⟨_, hx⟩
    · exact ih z hz

theorem itemOk_of_listVal : ∀ (it : ItemType) (xs : List PyItem) (v : Val), ListVal it xs v → ∀ x ∈ xs, ItemOk it x := by
  intro it
  induction it with
  | bool => intro xs v hv; exact hv.elim
  | struct d p =>
    intro xs v hv x hx
    obtain ⟨ds, ps, items, rfl, rfl, -, -, -, hfa, -⟩ := hv
    obtain ⟨y, hy⟩ := forall₂_mem_left hfa x hx
    cases x with
    | struct o => exact itemOk_of_denotes hy
    | none => exact hy.elim
    | int _ => exact hy.elim
    | bytes _ => exact hy.elim
    | list _ => exact hy.elim
  | list inner ih =>
    intro xs v hv x hx
    obtain ⟨vs, hfa, -⟩ := hv
    obtain ⟨y, hy⟩ := forall₂_mem_left hfa x hx
    cases x with
    | list l => 
      unfold ItemOk
      exact ih l y hy
    | none => unfold ItemOk; trivial
    | int _ => exact hy.elim
    | bytes _ => exact hy.elim
    | struct _ => exact hy.elim
  | void => intro xs v _ x _; unfold ItemOk; trivial
  | prim _ => intro xs v _ x _; unfold ItemOk; trivial
  | enum => intro xs v _ x _; unfold ItemOk; trivial
  | text => intro xs v _ x _; unfold ItemOk; trivial
  | data => intro xs v _ x _; unfold ItemOk; trivial

/-- C49: every list of acceptable items is written by the compiled version as by the pure one,
whatever the state of the builder, and the items can be read back. -/
theorem C49_roundtrip (junk : Builder → Nat → UInt8) {it : ItemType} (hsz : it.Sized) (hnb : NoBool it)
    {xs : List PyItem} {v : Val} (hv : ListVal it xs v) (hf : v.Fits)
    {fuel : Nat} (hfuel : 2 * v.depth ≤ fuel + 2) {s : Builder} {b : Bytes} (hs : Repr s b) (t ds ps j : Nat)
    (h8 : 8 ∣ b.length) (ht : 8 ∣ t) (hj : j < ps) (hb : t + 8 * (ds + ps) ≤ b.length)
    (hL : b.length + v.size ≤ 2 ^ 32) :
    ∃ s' l ys, copyFromListC junk fuel it ((t + 8 * ds + 8 * j : Nat) : Int) (some xs) s = .ok () s' ∧
      Repr s' (asString s') ∧
      copyFromList fuel it ((t + 8 * ds + 8 * j : Nat) : Int) (some xs) b = .ok () (asString s') ∧
      (objAt (asString s') none t ds ps).readList ((8 * j : Nat) : Int) it = .ok (some l) ∧
      l.len = xs.length ∧ l.toList = .ok ys ∧ List.Forall₂ (SameItem it) xs ys := by
  obtain ⟨b', l, ys, h1, h2, h3, h4, h5, -⟩ := C28_roundtrip hv hf hfuel b t ds ps j h8 ht hj hb hL
  obtain ⟨s', e1, e2, e3⟩ := C49_same_result junk hsz hnb (l := some xs)
    (fun ys hys => by cases hys; exact itemOk_of_listVal it xs v hv) hs h1
  subst e2
  exact ⟨s', l, ys, e1, e3, h1, h2, h3, h4, h5⟩

/-- The initial builder with a struct of a data word and a pointer. -/
example (junk : Builder → Nat → UInt8) (s : Builder) (hs : Repr s (List.replicate 16 0)) :
    ∃ s' l ys, copyFromListC junk 10 (.list .text) ((0 + 8 * 1 + 8 * 0 : Nat) : Int) (some nestedTexts) s = .ok () s' ∧
      Repr s' (asString s') ∧
      copyFromList 10 (.list .text) ((0 + 8 * 1 + 8 * 0 : Nat) : Int) (some nestedTexts) (List.replicate 16 0) =
        .ok () (asString s') ∧
      (objAt (asString s') none 0 1 1).readList ((8 * 0 : Nat) : Int) (.list .text) = .ok (some l) ∧
      l.len = 3 ∧ l.toList = .ok ys ∧ List.Forall₂ (SameItem (.list .text)) nestedTexts ys :=
  C49_roundtrip junk (it := .list .text) trivial trivial nestedTexts_val
    (by simp [nestedTextsVal, Val.Fits, Val.AllFits]) (by decide) hs 0 1 1 0 (by decide) (by decide) (by decide)
    (by decide) (by decide)

/-- The hypotheses are met by a list of structs too. -/
example (junk : Builder → Nat → UInt8) (s : Builder) (hs : Repr s (List.replicate 16 0)) :
    ∃ s', copyFromListC junk 10 (.struct 1 2) ((0 + 8 * 1 + 8 * 0 : Nat) : Int)
      (some [.struct sampleObj, .struct sampleObj]) s = .ok () s' := by
  have hs' : StructVal 1 2 (.struct sampleObj) (leBytes 8 77, [.struct [] [], .listPrim 2 3 [1, 2, 3]]) :=
    ⟨sample_denotes, rfl, rfl, by decide⟩
  obtain ⟨s', _, _, h, -⟩ := C49_roundtrip junk (it := .struct 1 2) ⟨by decide, by decide⟩ trivial (fuel := 10)
    ⟨1, 2, _, rfl, rfl, by norm_num, by norm_num, by norm_num, .cons hs' (.cons hs' .nil), rfl⟩
    (by simp [Val.Fits, Val.AllFits, Val.ItemsFit]) (by decide) hs 0 1 1 0
    (by decide) (by decide) (by decide) (by decide) (by decide)
  exact ⟨s', h⟩

/-! ## Where the versions differ -/

/-- Finding: an item which does not fit its type: the pure version raises `struct.error`, the
compiled version raises OverflowError. -/
theorem C49_out_of_range :
    (∃ b', copyFromList 5 (.prim .b) 0 (some [.int 200]) (List.replicate 8 0) = .error .structError b') ∧
    (∃ s', copyFromListC (fun _ _ => 0) 5 (.prim .b) 0 (some [.int 200]) ⟨List.replicate 16 0, 8⟩ =
      .exc .overflowError s') :=
  ⟨⟨leBytes 8 (listWord 0 2 1) ++ List.replicate 8 0, by decide +kernel⟩,
   ⟨⟨leBytes 8 (listWord 0 2 1) ++ List.replicate 8 0, 16⟩, by decide +kernel⟩⟩

/-- An object with a data section of two words, e.g. from a message made with a newer version
of the schema, in which the struct has got a second word. -/
def newerObj : StructObj := objAt [1, 2, 3, 4, 5, 6, 7, 8, 9, 10, 11, 12, 13, 14, 15, 16] none 0 2 0

/-- Finding: with an item whose data section is larger than an item of the list (a struct read
from a message with a newer schema) the compiled version writes outside of the memory of the
builder; the pure version extends the buffer, after which its length is not that of the list it
has announced. -/
theorem C49_heap_overflow :
    Denotes newerObj (.struct [1, 2, 3, 4, 5, 6, 7, 8, 9, 10, 11, 12, 13, 14, 15, 16] []) ∧
    (∃ b', copyFromList 5 (.struct 1 0) 0 (some [.struct newerObj]) (List.replicate 8 0) = .ok () b' ∧ b'.length = 32) ∧
    copyFromListC (fun _ _ => 0) 5 (.struct 1 0) 0 (some [.struct newerObj]) ⟨List.replicate 24 0, 8⟩ = .ub := by
  refine ⟨⟨_, none, 0, 2, 0, _, [], rfl, (by intro l h; cases h), by decide, by decide, by decide,
    ⟨by decide, by decide, rfl, by simp⟩, rfl⟩, ⟨leBytes 8 (listWord 0 7 1) ++ leBytes 8 (structWord 1 1 0) ++
      [1, 2, 3, 4, 5, 6, 7, 8, 9, 10, 11, 12, 13, 14, 15, 16], by decide +kernel, by decide⟩, by decide +kernel⟩

end Capnpy.Props
