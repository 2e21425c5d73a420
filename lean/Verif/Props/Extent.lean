import Verif.Proof.Extent
import Verif.Props.Copy
import Verif.Props.Message
import Verif.Props.ListRead

/-!
# C64: how much a small message can make the reader do

`ObjectsOf o L` (Spec/Extent.lean): `L` are the places of the objects that following the
pointers of `o` meets.
-/

namespace Capnpy.Props

open Spec

/-- C64: following the pointers of a well-formed message ends; the objects it meets take as
many bytes as the value. -/
theorem C64_objects (o : StructObj) (v : Val) (ho : Denotes o v) :
    (∃ L, ObjectsOf o L) ∧ ∀ L, ObjectsOf o L → totalBytes L = v.size := by
  obtain ⟨B, offs, t, ds, ps, data, ptrs, rfl, htab, h8, hds, hps, ⟨hb, hd, hl, hp⟩, rfl⟩ := ho
  constructor
  · have : ∀ j, ∃ L, j < ps →
        Extents B offs ((t + 8 * ds + 8 * j : Nat) : Int) (wordAt B (t + 8 * ds + 8 * j)) L := by
      intro j
      by_cases hj : j < ps
      · obtain ⟨v, hv⟩ := get_of_lt (l := ptrs) (j := j) (by omega)
        obtain ⟨L, hL⟩ := extents_exist (hp j v hv)
        exact ⟨L, fun _ => hL⟩
      · exact ⟨[], fun h => absurd h hj⟩
    choose Ls hLs using this
    exact ⟨_, B, offs, t, ds, ps, Ls, rfl, hLs, rfl⟩
  · rintro L ⟨B', offs', t', ds', ps', Ls, e, hE, rfl⟩
    unfold objAt at e
    injection e with e1 e2 e3 e4 e5
    have e1a : B = B' := congrArg Seg.buf e1
    have e1b : offs = offs' := by
      have h := congrArg Seg.offs e1
      exact Option.map_injective (List.map_injective_iff.mpr (fun a b h => by injection h)) h
    subst e1a e1b
    obtain rfl : t = t' := by omega
    obtain rfl : ds = ds' := by omega
    obtain rfl : ps = ps' := by omega
    rw [totalBytes_cons, totalBytes_flatMap, ← hl, Val.size, sizes_sum,
      sum_range ptrs Val.size (fun j => totalBytes (Ls j)) (fun j x hx => ?_)]
    · rw [hd, slice_length_of_le (by omega)]
      simp only
      omega
    · exact (extents_size (hp j x hx) _ (hE j (by rw [← hl]; exact lt_of_get hx))).symm

/-- C64: if no two objects of the message have a byte in common, the value takes no more
room than the message (rounded up to a whole word). -/
theorem C64_no_sharing (o : StructObj) (v : Val) (ho : Denotes o v) (L : List (Nat × Nat)) (hL : ObjectsOf o L)
    (hs : NoSharing L) : v.size ≤ wordAlign o.seg.buf.length := by
  rw [← (C64_objects o v ho).2 L hL]
  refine noSharing_total hs ?_
  obtain ⟨B, offs, t, ds, ps, data, ptrs, rfl, htab, h8, hds, hps, ⟨hb, hd, hl, hp⟩, rfl⟩ := ho
  obtain ⟨B', offs', t', ds', ps', Ls, e, hE, rfl⟩ := hL
  unfold objAt at e
  injection e with e1 e2 e3 e4 e5
  have e1a : B = B' := congrArg Seg.buf e1
  have e1b : offs = offs' := by
    have h := congrArg Seg.offs e1
    exact Option.map_injective (List.map_injective_iff.mpr (fun a b h => by injection h)) h
  subst e1a e1b
  obtain rfl : t = t' := by omega
  obtain rfl : ds = ds' := by omega
  obtain rfl : ps = ps' := by omega
  have hle := le_wordAlign B.length
  intro a ha
  show a.1 + a.2 ≤ wordAlign B.length
  rcases List.mem_cons.mp ha with rfl | ha
  · simp only; omega
  · obtain ⟨j, hj, ha⟩ := List.mem_flatMap.mp ha
    rw [List.mem_range] at hj
    obtain ⟨v, hv⟩ := get_of_lt (l := ptrs) (j := j) (by omega)
    exact extents_inside htab (hp j v hv) (by omega) _ (hE j hj) a ha

/-- C64: so neither `compact()` nor `dumps()` of such a message makes a larger one, except
for the root pointer and the header. -/
theorem C64_copies (o : StructObj) (v : Val) (ho : Denotes o v) (hf : v.Fits) (L : List (Nat × Nat))
    (hL : ObjectsOf o L) (hs : NoSharing L) (hlen : o.seg.buf.length + 32 ≤ 2 ^ 32) (fuel : Nat)
    (hfuel : 2 * v.depth ≤ fuel + 1) :
    (∃ o', o.compact fuel = .ok o' ∧ o'.seg.buf.length ≤ wordAlign o.seg.buf.length + 8) ∧
    ∃ s, dumps o false fuel = .ok s ∧ s.length ≤ wordAlign o.seg.buf.length + 16 := by
  have hle := C64_no_sharing o v ho L hL hs
  have hw : wordAlign o.seg.buf.length ≤ o.seg.buf.length + 7 := by unfold wordAlign; omega
  obtain ⟨o', h1, _, h2⟩ := C14_compact ho hf (by omega) (by omega) hfuel
  refine ⟨⟨o', h1, by omega⟩, ?_⟩
  obtain ⟨_, _, _, _, _, data, ptrs, _, _, _, _, _, _, rfl⟩ := id ho
  obtain ⟨S, g1, g2, _⟩ := dumps_slow ho hf (by omega) (by omega) hfuel false (by intro h; cases h)
  refine ⟨_, g1, ?_⟩
  have : (frame [S] []).length = 8 + S.length := by rw [frame_length]; simp
  omega

/-- C64: the nesting of a well-formed message is at most its number of words, plus one. -/
theorem C64_depth (o : StructObj) (v : Val) (ho : Denotes o v) : v.depth ≤ o.seg.buf.length / 8 + 1 := by
  obtain ⟨B, offs, t, ds, ps, data, ptrs, rfl, htab, h8, hds, hps, ⟨hb, hd, hl, hp⟩, rfl⟩ := ho
  show _ ≤ B.length / 8 + 1
  rw [Val.depth]
  refine Nat.succ_le_succ (depth_le_words (offs := offs) _ fun d h1 h2 => ?_)
  rcases depths_mem (vs := ptrs) with h0 | ⟨j, v, hv, e⟩
  · omega
  · have hj := lt_of_get hv
    by_cases hd' : d = v.depth
    · exact ⟨_, v, by omega, by omega, hp j v hv, hd'.symm⟩
    · exact den_depths htab (hp j v hv) (by omega) d h1 (by omega)

/-- C64: so with a recursion limit proportional to the size of the message `compact()` and
`dumps()` do not fail on well-formed messages. -/
theorem C64_recursion (o : StructObj) (v : Val) (ho : Denotes o v) (hf : v.Fits) (hlen : o.seg.buf.length ≤ 2 ^ 32)
    (hsz : 16 + v.size ≤ 2 ^ 32) (fuel : Nat) (hfuel : o.seg.buf.length / 4 + 1 ≤ fuel) :
    (∃ o', o.compact fuel = .ok o' ∧ Denotes o' v) ∧ ∃ s o', dumps o false fuel = .ok s ∧ loads s = .ok (some o') ∧ Denotes o' v := by
  have := C64_depth o v ho
  have hf2 : 2 * v.depth ≤ fuel + 1 := by omega
  obtain ⟨o', h1, h2, _⟩ := C14_compact ho hf hlen (by omega) hf2
  exact ⟨⟨o', h1, h2⟩, C17_slow_path ho hf hlen hsz hf2⟩

/-! ## Lists -/

theorem readPrimitive_bound {buf : Bytes} {off : Int} {fmt : Fmt} {i : Int} (h : readPrimitive buf off fmt = .ok i) :
    0 ≤ off ∧ off + fmt.size ≤ buf.length := by
  by_contra hn
  rw [(C04_read buf fmt off).2 hn] at h
  cases h

theorem fmt_size_pos (fmt : Fmt) : 1 ≤ fmt.size := by cases fmt <;> decide

theorem itemPtr_bound {l : ListObj} {off : Int} {r : Int × Int} (h : l.itemPtr off = .ok r) :
    off + 8 ≤ l.seg.buf.length := by
  unfold ListObj.itemPtr at h
  cases hr : l.seg.readPtr off with
  | error e => rw [hr] at h; cases h
  | ok p =>
    have hr : readPrimitive l.seg.buf off .q = .ok p := hr
    have := readPrimitive_bound hr
    simpa [Fmt.size] using this.2

/-- The items of a list have at least one bit each. -/
def Wide (l : ListObj) : Prop :=
  match l.itemType with
  | .void => False
  | .bool => True
  | .list _ => True
  | _ => 1 ≤ l.itemLength

/-- Item `i` is not beyond the buffer. -/
theorem readItem_bound (l : ListObj) (h0 : 0 ≤ l.offset) (h1 : 0 ≤ l.itemOffset) (hw : Wide l) (i : Nat) (x : Item)
    (h : l.readItem i = .ok x) : i ≤ 8 * l.seg.buf.length := by
  unfold Wide at hw
  have hmul : 1 ≤ l.itemLength → (i : Int) ≤ (i : Int) * l.itemLength := fun hL => by
    have := Int.mul_le_mul_of_nonneg_left hL (show (0 : Int) ≤ i by omega)
    rw [mul_one] at this
    exact this
  cases hty : l.itemType with
  | void => rw [hty] at hw; exact hw.elim
  | bool =>
    unfold ListObj.readItem at h
    simp only [hty] at h
    cases hr : readPrimitive l.seg.buf (l.offset + (i : Int) / 8) .b with
    | error e => rw [hr] at h; cases h
    | ok p =>
      have := (readPrimitive_bound hr).2
      simp only [Fmt.size] at this
      omega
  | prim fmt =>
    rw [hty] at hw
    have hm := hmul hw
    unfold ListObj.readItem at h
    simp only [hty] at h
    cases hr : readPrimitive l.seg.buf (l.offset + (i : Int) * l.itemLength) fmt with
    | error e => rw [hr] at h; cases h
    | ok p =>
      have := (readPrimitive_bound hr).2
      have := fmt_size_pos fmt
      omega
  | enum =>
    rw [hty] at hw
    have hm := hmul hw
    unfold ListObj.readItem at h
    simp only [hty] at h
    cases hr : readPrimitive l.seg.buf (l.offset + (i : Int) * l.itemLength) .h with
    | error e => rw [hr] at h; cases h
    | ok p =>
      have := (readPrimitive_bound hr).2
      have := fmt_size_pos .h
      omega
  | struct d p =>
    rw [hty] at hw
    have hm := hmul hw
    unfold ListObj.readItem at h
    simp only [hty] at h
    cases hr : StructObj.initFromBuffer l.seg (l.offsetForItem i) (Ptr.structDataSize l.tag) (Ptr.structPtrsSize l.tag) with
    | error e => rw [hr] at h; cases h
    | ok o =>
      unfold StructObj.initFromBuffer at hr
      simp only at hr
      split at hr
      · cases hr
      · rename_i hb
        have hd : 0 ≤ Ptr.structDataSize l.tag := by
          rw [Ptr.structDataSize_eq]
          omega
        unfold ListObj.offsetForItem at hb
        omega
  | text =>
    rw [hty] at hw
    have hm := hmul hw
    unfold ListObj.readItem at h
    simp only [hty] at h
    cases hr : l.itemPtr (l.offsetForItem i) with
    | error e => rw [hr] at h; cases h
    | ok r =>
      have := itemPtr_bound hr
      unfold ListObj.offsetForItem at this
      omega
  | data =>
    rw [hty] at hw
    have hm := hmul hw
    unfold ListObj.readItem at h
    simp only [hty] at h
    cases hr : l.itemPtr (l.offsetForItem i) with
    | error e => rw [hr] at h; cases h
    | ok r =>
      have := itemPtr_bound hr
      unfold ListObj.offsetForItem at this
      omega
  | list inner =>
    unfold ListObj.readItem at h
    simp only [hty] at h
    cases hr : l.itemPtr (l.offset + (i : Int) * 8) with
    | error e => rw [hr] at h; cases h
    | ok r =>
      have := itemPtr_bound hr
      omega

theorem iterFrom_reads (l : ListObj) : ∀ (n : Nat) (i : Nat) (xs : List Item), l.iterFrom n i = .ok xs →
    ∀ k, k < xs.length → ∃ x, l.readItem ((i + k : Nat) : Int) = .ok x
  | 0, i, xs, h, k, hk => by
    cases h
    cases hk
  | n + 1, i, xs, h, k, hk => by
    unfold ListObj.iterFrom at h
    cases hg : l.getItem i with
    | error e =>
      rw [hg] at h
      cases e <;> cases h
      all_goals cases hk
    | ok x =>
      rw [hg] at h
      simp only at h
      cases hr : l.iterFrom n ((i : Int) + 1) with
      | error e => rw [hr] at h; cases h
      | ok ys =>
        rw [hr] at h
        have h : Except.ok (x :: ys) = (Except.ok xs : Py _) := h
        injection h with h
        subst h
        cases k with
        | zero =>
          refine ⟨x, ?_⟩
          unfold ListObj.getItem at hg
          rw [if_neg (by omega : ¬ ((i : Int) < 0))] at hg
          simp only at hg
          split at hg
          · exact hg
          · cases hg
        | succ k =>
          rw [show ((i : Int) + 1) = ((i + 1 : Nat) : Int) by push_cast; rfl] at hr
          obtain ⟨y, hy⟩ := iterFrom_reads l n (i + 1) ys hr k (by simpa using hk)
          exact ⟨y, by rw [← hy]; congr 1; push_cast; ring⟩

/-- C64: iterating over a list whose items are not empty gives at most as many items as the
buffer has bits (and one), whatever number of items the message claims: reading an item beyond
the buffer raises, which ends the iteration (IndexError) or makes it fail. -/
theorem C64_items_bounded (l : ListObj) (h0 : 0 ≤ l.offset) (h1 : 0 ≤ l.itemOffset) (hw : Wide l) (xs : List Item)
    (h : l.toList = .ok xs) : xs.length ≤ 8 * l.seg.buf.length + 1 := by
  by_contra hn
  obtain ⟨x, hx⟩ := iterFrom_reads l _ 0 xs h (8 * l.seg.buf.length + 1) (by omega)
  have := readItem_bound l h0 h1 hw _ x hx
  omega

/-- A list all of whose items can be read. -/
theorem iterFrom_const (l : ListObj) (x : Item) (hr : ∀ i, 0 ≤ i → i < l.itemCount → l.readItem i = .ok x) :
    ∀ (n i : Nat), (i : Int) + n = l.itemCount → l.iterFrom (n + 1) i = .ok (List.replicate n x)
  | 0, i, h => by
    unfold ListObj.iterFrom ListObj.getItem
    rw [if_neg (by omega : ¬ ((i : Int) < 0))]
    simp only
    rw [if_neg (by omega)]
    rfl
  | n + 1, i, h => by
    have ih := iterFrom_const l x hr n (i + 1) (by push_cast at h ⊢; omega)
    have hg : l.getItem i = .ok x := by
      unfold ListObj.getItem
      rw [if_neg (by omega : ¬ ((i : Int) < 0))]
      simp only
      rw [if_pos (by push_cast at h; omega)]
      exact hr i (by omega) (by push_cast at h; omega)
    unfold ListObj.iterFrom
    rw [hg]
    simp only
    rw [show ((i : Int) + 1) = ((i + 1 : Nat) : Int) by push_cast; rfl, ih]
    rfl

theorem toList_const (l : ListObj) (x : Item) (n : Nat) (hn : l.itemCount = n)
    (hr : ∀ i, 0 ≤ i → i < l.itemCount → l.readItem i = .ok x) : l.toList = .ok (List.replicate n x) := by
  unfold ListObj.toList
  rw [hn]
  exact iterFrom_const l x hr n 0 (by rw [hn]; push_cast; omega)

/-- C64: but items without bits are not counted: `List(Void)` with any number of items is read
from any buffer, even an empty one. -/
theorem C64_void_list (seg : Seg) (offset : Int) (n : Nat) :
    ∃ l, ListObj.init seg offset Ptr.LIST_SIZE_VOID n .void = .ok l ∧ l.toList = .ok (List.replicate n Item.none) := by
  refine ⟨⟨seg, offset, .void, Ptr.LIST_SIZE_VOID, -1, n, Ptr.listItemLength Ptr.LIST_SIZE_VOID, 0⟩, ?_, ?_⟩
  · unfold ListObj.init
    rw [if_neg (by decide)]
    rfl
  · exact toList_const _ Item.none n rfl (fun i _ _ => rfl)

/-- C64 (the width of the items is taken from the message, not from the schema): a pointer to
a list of `n` empty items, in a field of type `List(Int32)` (or of other numbers), is read as
`n` times the number stored there. -/
theorem C64_width_ignored (seg : Seg) (offset : Int) (fmt : Fmt) (v : Int) (n : Nat)
    (hv : readPrimitive seg.buf offset fmt = .ok v) :
    ∃ l, ListObj.init seg offset Ptr.LIST_SIZE_VOID n (.prim fmt) = .ok l ∧
      l.toList = .ok (List.replicate n (Item.int v)) := by
  refine ⟨⟨seg, offset, .prim fmt, Ptr.LIST_SIZE_VOID, -1, n, Ptr.listItemLength Ptr.LIST_SIZE_VOID, 0⟩, ?_, ?_⟩
  · unfold ListObj.init
    rw [if_neg (by decide)]
    rfl
  · refine toList_const _ _ n rfl (fun i _ _ => ?_)
    unfold ListObj.readItem
    simp only
    rw [show Ptr.listItemLength Ptr.LIST_SIZE_VOID = 0 by decide, mul_zero, add_zero, hv]
    rfl

/-- C64: and a list of structs with a tag word that says `n` structs with empty sections is read as
`n` structs. -/
theorem C64_empty_structs (seg : Seg) (offset : Nat) (ds ps count : Int) (n : Nat) (hn : n < 2 ^ 29)
    (hin : offset + 8 ≤ seg.buf.length) (ht : wordAt seg.buf offset = 4 * n) :
    ∃ l, ListObj.init seg offset Ptr.LIST_SIZE_COMPOSITE count (.struct ds ps) = .ok l ∧
      l.toList = .ok (List.replicate n (Item.struct ⟨seg, (offset + 8 : Nat), (offset + 8 : Nat), 0, 0⟩)) := by
  have hr : seg.readPtr offset = .ok (signed64 (4 * n)) := by
    rw [← ht]
    exact readPtr_nat hin
  have hm := signed64_mod (4 * n) (by omega)
  have e1 : Ptr.offset (signed64 (4 * n)) = n := by
    rw [Ptr.offset_spec hm]
    unfold Spec.offset signed30
    rw [if_pos (by omega)]
    omega
  have e2 : Ptr.structDataSize (signed64 (4 * n)) = 0 := by
    rw [Ptr.dataSize_spec hm]
    unfold Spec.dataSize
    omega
  have e3 : Ptr.structPtrsSize (signed64 (4 * n)) = 0 := by
    rw [Ptr.ptrsSize_spec hm]
    unfold Spec.ptrsSize
    omega
  refine ⟨⟨seg, offset, .struct ds ps, Ptr.LIST_SIZE_COMPOSITE, signed64 (4 * n), n, 0, 8⟩, ?_, ?_⟩
  · unfold ListObj.init
    rw [if_pos rfl, bind_okP hr, e1, e2, e3]
    rfl
  · refine toList_const _ _ n rfl (fun i _ _ => ?_)
    have ho : StructObj.initFromBuffer seg ((offset + 8 : Nat) : Int) 0 0 =
        .ok ⟨seg, (offset + 8 : Nat), (offset + 8 : Nat), 0, 0⟩ := by
      unfold StructObj.initFromBuffer
      simp only
      rw [if_neg (by push_cast; omega), if_neg (by push_cast; omega)]
      simp
    unfold ListObj.readItem ListObj.offsetForItem
    simp only
    rw [e2, e3, show ((offset : Int) + 8 + i * 0) = ((offset + 8 : Nat) : Int) by push_cast; ring, bind_okP ho]
    rfl

/-! ## Shared objects -/

/-- A struct with two pointers, both to the struct that follows. -/
def pairNode : Bytes := leBytes 8 (structWord 1 0 2) ++ leBytes 8 (structWord 0 0 2)

/-- `n` such structs, and one with two null pointers. -/
def chain : Nat → Bytes
  | 0 => List.replicate 16 0
  | n + 1 => pairNode ++ chain n

/-- What the chain stands for: a complete binary tree. -/
def tree : Nat → Val
  | 0 => .struct [] [.null, .null]
  | n + 1 => .struct [] [tree n, tree n]

theorem pairNode_length : pairNode.length = 16 := by simp [pairNode, leBytes_length]

theorem chain_length : ∀ n, (chain n).length = 16 * (n + 1)
  | 0 => by simp [chain]
  | n + 1 => by rw [chain, List.length_append, chain_length n, pairNode_length]; omega

theorem wordAt_append (a b : Bytes) (x : Nat) : wordAt (a ++ b) (a.length + x) = wordAt b x := by
  refine wordAt_congr fun k _ => ?_
  rw [List.getElem?_append_right (by omega)]
  congr 1
  omega

theorem chain_words : ∀ n k, k < n → wordAt (chain n) (16 * k) = structWord 1 0 2 ∧
    wordAt (chain n) (16 * k + 8) = structWord 0 0 2
  | 0, _, h => by omega
  | n + 1, 0, _ => by
    constructor
    · rw [chain, pairNode, List.append_assoc]
      exact wordAt_leBytes (by decide) _
    · rw [chain, pairNode, List.append_assoc]
      have := wordAt_append (leBytes 8 (structWord 1 0 2)) (leBytes 8 (structWord 0 0 2) ++ chain n) 0
      rw [leBytes_length] at this
      rw [show 16 * 0 + 8 = 8 + 0 by rfl, this]
      exact wordAt_leBytes (by decide) _
  | n + 1, k + 1, h => by
    obtain ⟨h1, h2⟩ := chain_words n k (by omega)
    have e := wordAt_append pairNode (chain n)
    rw [pairNode_length] at e
    rw [chain]
    constructor
    · rw [show 16 * (k + 1) = 16 + 16 * k by ring, e, h1]
    · rw [show 16 * (k + 1) + 8 = 16 + (16 * k + 8) by ring, e, h2]

theorem chain_last : ∀ n, wordAt (chain n) (16 * n) = 0 ∧ wordAt (chain n) (16 * n + 8) = 0
  | 0 => by
    constructor <;> decide
  | n + 1 => by
    obtain ⟨h1, h2⟩ := chain_last n
    have e := wordAt_append pairNode (chain n)
    rw [pairNode_length] at e
    rw [chain]
    constructor
    · rw [show 16 * (n + 1) = 16 + 16 * n by ring, e, h1]
    · rw [show 16 * (n + 1) + 8 = 16 + (16 * n + 8) by ring, e, h2]

/-- The pointers of the node that is `m` nodes before the last one. -/
theorem chain_den (n : Nat) : ∀ m, m < n → ∀ j, j < 2 →
    Den (chain n) none ((16 * (n - (m + 1)) + 8 * j : Nat) : Int) (wordAt (chain n) (16 * (n - (m + 1)) + 8 * j)) (tree m) := by
  have hlen := chain_length n
  have key : ∀ m, m < n → ∀ ptrs : List Val, ptrs.length = 2 →
      (∀ j v, ptrs[j]? = some v →
        Den (chain n) none ((16 * (n - m) + 8 * j : Nat) : Int) (wordAt (chain n) (16 * (n - m) + 8 * j)) v) →
      ∀ j, j < 2 → Den (chain n) none ((16 * (n - (m + 1)) + 8 * j : Nat) : Int)
        (wordAt (chain n) (16 * (n - (m + 1)) + 8 * j)) (.struct [] ptrs) := by
    intro m hm ptrs hl hp j hj
    obtain ⟨w1, w2⟩ := chain_words n (n - (m + 1)) (by omega)
    have hj' : j = 0 ∨ j = 1 := by omega
    obtain ⟨off, hoff, hw⟩ : ∃ off : Int, off = 1 - (j : Int) ∧
        wordAt (chain n) (16 * (n - (m + 1)) + 8 * j) = structWord off 0 2 := by
      rcases hj' with rfl | rfl
      · exact ⟨1, by norm_num, w1⟩
      · exact ⟨0, by norm_num, w2⟩
    rw [hw]
    have h0 : structWord off 0 2 ≠ 0 := by unfold structWord; omega
    have ed := dataSize_structWord off 0 2 (by norm_num)
    have ep := ptrsSize_structWord off 0 2 (by norm_num) (by norm_num)
    have eo := offset_structWord off 0 2 (by omega) (by omega)
    refine .struct _ _ (16 * (n - m)) [] ptrs h0 (kind_structWord _ _ _) ?_ ?_ ?_ ?_ ?_
    · unfold target
      rw [eo]
      omega
    · rw [ed, ep]; omega
    · rw [ed]; simp [slice]
    · rw [ep]; exact hl
    · rw [ed]
      simpa using hp
  intro m
  induction m with
  | zero =>
    intro hm j hj
    obtain ⟨w1, w2⟩ := chain_last n
    refine key 0 hm [.null, .null] rfl ?_ j hj
    rintro (_ | _ | j) v hv
    · cases hv
      rw [show 16 * (n - 0) + 8 * 0 = 16 * n by omega, w1]
      exact .null _
    · cases hv
      rw [show 16 * (n - 0) + 8 * (0 + 1) = 16 * n + 8 by omega, w2]
      exact .null _
    · cases hv
  | succ m ih =>
    intro hm j hj
    refine key (m + 1) hm [tree m, tree m] rfl ?_ j hj
    rintro (_ | _ | i) v hv
    · cases hv
      exact ih (by omega) 0 (by omega)
    · cases hv
      exact ih (by omega) 1 (by omega)
    · cases hv

theorem chain_denotes (n : Nat) : Denotes (objAt (chain n) none 0 0 2) (tree n) := by
  have hlen := chain_length n
  cases n with
  | zero =>
    obtain ⟨w1, w2⟩ := chain_last 0
    refine ⟨chain 0, none, 0, 0, 2, [], [.null, .null], rfl, (by intro t h; cases h), by norm_num, by norm_num, by norm_num,
      ⟨by omega, by simp [slice], rfl, ?_⟩, rfl⟩
    rintro (_ | _ | j) v hv
    · cases hv; rw [show 0 + 8 * 0 + 8 * 0 = 16 * 0 by rfl, w1]; exact .null _
    · cases hv; rw [show 0 + 8 * 0 + 8 * (0 + 1) = 16 * 0 + 8 by rfl, w2]; exact .null _
    · cases hv
  | succ n =>
    refine ⟨chain (n + 1), none, 0, 0, 2, [], [tree n, tree n], rfl, (by intro t h; cases h), by norm_num, by norm_num, by norm_num,
      ⟨by omega, by simp [slice], rfl, ?_⟩, rfl⟩
    have h := chain_den (n + 1) n (by omega)
    rw [Nat.sub_self] at h
    rintro (_ | _ | j) v hv
    · cases hv; exact h 0 (by omega)
    · cases hv; exact h 1 (by omega)
    · cases hv

theorem tree_size : ∀ n, (tree n).size + 16 = 16 * 2 ^ (n + 1)
  | 0 => by simp [tree, Val.size, Val.sizes]
  | n + 1 => by
    have := tree_size n
    rw [tree, Val.size, Val.sizes, Val.sizes, Val.sizes, pow_succ]
    simp only [List.length_nil, List.length_cons]
    omega

theorem tree_depth : ∀ n, (tree n).depth = n + 1
  | 0 => by simp [tree, Val.depth, Val.depths]
  | n + 1 => by
    have := tree_depth n
    rw [tree, Val.depth, Val.depths, Val.depths, Val.depths, this]
    omega

theorem tree_fits : ∀ n, (tree n).Fits
  | 0 => by simp [tree, Val.Fits, Val.AllFits]
  | n + 1 => by
    have := tree_fits n
    rw [tree, Val.Fits, Val.AllFits, Val.AllFits, Val.AllFits]
    exact ⟨by simp, this, this, trivial⟩

/-- C64 (the hypothesis of `C64_no_sharing` is needed, and the reader does not check it): a
message of `16 (n + 1)` bytes whose structs point twice to the next one is copied by `compact()`
into `8 + 16 (2^(n+1) - 1)` bytes; nothing limits how much of a message is traversed. -/
theorem C64_amplification (n : Nat) (hn : n ≤ 27) (fuel : Nat) (hfuel : 2 * n + 1 ≤ fuel) :
    ∃ B o', B.length = 16 * (n + 1) ∧ (objAt B none 0 0 2).compact fuel = .ok o' ∧
      o'.seg.buf.length = 8 + 16 * (2 ^ (n + 1) - 1) := by
  have hs := tree_size n
  have hd := tree_depth n
  have h2 : 2 ^ (n + 1) ≤ 2 ^ 28 := Nat.pow_le_pow_right (by norm_num) (by omega)
  have hlen := chain_length n
  obtain ⟨o', h1, _, h3⟩ := C14_compact (chain_denotes n) (tree_fits n) (fuel := fuel)
    (by show (chain n).length ≤ _; omega) (by omega) (by omega)
  exact ⟨chain n, o', chain_length n, h1, by omega⟩

/-! ## Cycles -/

/-- A word that points to itself, as a struct with one pointer. -/
def loop : Bytes := [252, 255, 255, 255, 0, 0, 1, 0]

/-- The word of `loop`. -/
def loopPtr : Int := 281479271677948

theorem copy_loop : ∀ (fuel : Nat) (b : Bytes) (pos : Nat), pos + 8 ≤ b.length →
    ∃ b', copyPointer (Seg.of loop none) fuel loopPtr 0 (pos : Int) b = .error .recursionError b'
  | 0, b, pos, h => ⟨b, rfl⟩
  | fuel + 1, b, pos, h => by
    obtain ⟨b1, ha, hpost⟩ := allocStruct_spec (b := b) (pos := pos) (ds := 0) (ps := 1) h (by norm_num) (by norm_num)
    have ha : allocStruct (pos : Int) 0 1 b = .ok (b.length : Int) b1 := ha
    have hl1 : b1.length = b.length + 8 := by rw [hpost.len]
    have hwr : writeSlice (b.length : Int) (Seg.of loop none) 0 0 b1 = .ok () (overwrite b1 b.length (slice loop 0 0)) :=
      writeSlice_nat (S := Seg.of loop none) (i := b.length) (s := 0) (n := 0) (by omega) (by decide)
    have e2 : overwrite b1 b.length (slice loop 0 0) = b1 := by
      simp [overwrite, slice]
    rw [e2] at hwr
    obtain ⟨b', ih⟩ := copy_loop fuel b1 b.length (by omega)
    refine ⟨b', ?_⟩
    show copyStruct (copyPointer (Seg.of loop none) fuel) (Seg.of loop none) loopPtr 0 pos b = _
    unfold copyStruct
    simp only
    rw [show Ptr.deref loopPtr 0 = 0 by decide +kernel, show Ptr.structDataSize loopPtr = 0 by decide +kernel,
      show Ptr.structPtrsSize loopPtr = 1 by decide +kernel, if_neg (by norm_num : ¬ ((0 : Int) + 1 = 0)), BM.bind_ok ha,
      zero_mul]
    rw [BM.bind_ok (a := ()) (s' := b1) (by
      unfold checkBounds
      rw [if_neg (by decide)]
      rfl), BM.bind_ok hwr]
    unfold copyManyPtrs
    rw [BM.bind_ok (a := ()) (s' := b1) (by
      unfold checkBounds
      rw [if_neg (by decide)]
      rfl)]
    show copyPtrsLoop _ _ _ _ 1 0 b1 = _
    unfold copyPtrsLoop
    rw [BM.bind_ok (BM.lift_ok (a := loopPtr) (by decide +kernel) b1)]
    refine BM.bind_error ?_
    unfold BM.when
    rw [if_pos (by decide +kernel)]
    simpa using ih

/-- C64 (cycles are not detected): eight bytes that point to themselves.  `compact()` and
`dumps()`, fast path or not, recurse until the interpreter stops them, whatever its limit is. -/
theorem C64_cycle (fuel : Nat) (fastpath : Bool) :
    (objAt loop none 0 0 1).compact fuel = .error .recursionError ∧
    dumps (objAt loop none 0 0 1) fastpath (fuel + 1) = .error .recursionError ∧
    loads ([0, 0, 0, 0, 1, 0, 0, 0] ++ loop) = .ok (some (objAt loop none 0 0 1)) := by
  refine (and_assoc (c := _)).mp ⟨?_, by decide +kernel⟩
  have hp : (objAt loop none 0 0 1).asPointer 0 = loopPtr := by decide +kernel
  constructor
  · obtain ⟨b', h⟩ := copy_loop fuel (List.replicate 8 0) 0 (by simp)
    unfold StructObj.compact
    simp only
    rw [BM.bind_ok (a := 0) (s' := List.replicate 8 0) (by rfl)]
    unfold copyFromStruct
    simp only
    rw [hp]
    have h : copyPointer (objAt loop none 0 0 1).seg fuel loopPtr 0 0 (List.replicate 8 0) = _ := h
    rw [h]
  · have he : dumpsEnd (objAt loop none 0 0 1) fastpath (fuel + 1) = .ok (-1) := by
      unfold dumpsEnd
      cases fastpath with
      | false => rfl
      | true =>
        rw [if_pos rfl]
        unfold StructObj.getEnd
        show endofStruct (endof (Seg.of loop none) fuel) (Seg.of loop none) _ _ _ = _
        rw [show Ptr.deref (Ptr.newStruct 0 (objAt loop none 0 0 1).dataSize (objAt loop none 0 0 1).ptrsSize)
            ((objAt loop none 0 0 1).dataOffset - 8) = 0 by decide +kernel,
          show Ptr.structDataSize (Ptr.newStruct 0 (objAt loop none 0 0 1).dataSize (objAt loop none 0 0 1).ptrsSize) = 0 by
            decide +kernel,
          show Ptr.structPtrsSize (Ptr.newStruct 0 (objAt loop none 0 0 1).dataSize (objAt loop none 0 0 1).ptrsSize) = 1 by
            decide +kernel]
        show endofPtrs (endof (Seg.of loop none) fuel) (Seg.of loop none) 0 1 0 8 = _
        unfold endofPtrs
        rw [bind_okP (show (Seg.of loop none).readPtr (0 + ((0 : Nat) : Int) * 8) = .ok loopPtr by decide +kernel),
          if_neg (by decide)]
        simp only
        rw [if_pos (by decide +kernel)]
    unfold dumps
    rw [he]
    simp only
    rw [if_neg (by decide)]
    obtain ⟨b', h⟩ := copy_loop (fuel + 1) (List.replicate 16 0) 8 (by simp)
    unfold runBuilder dumpsSlow
    rw [BM.bind_ok (a := 0) (s' := List.replicate 16 0) (by rfl)]
    unfold copyFromStruct
    simp only
    rw [hp]
    have h : copyPointer (objAt loop none 0 0 1).seg (fuel + 1) loopPtr 0 8 (List.replicate 16 0) = _ := h
    rw [BM.bind_error h]

/-! ## Non-vacuity -/

/-- A list that claims 24 numbers in three bytes. -/
example : Wide ⟨Seg.of [1, 2, 3] none, 0, .prim .B, 2, -1, 24, 1, 0⟩ ∧
    ListObj.toList ⟨Seg.of [1, 2, 3] none, 0, .prim .B, 2, -1, 24, 1, 0⟩ = .ok [.int 1, .int 2, .int 3] :=
  ⟨by show (1 : Int) ≤ 1; omega, by decide +kernel⟩

/-- A list of structs of one word that claims a thousand items in two words. -/
example : ∃ l, ListObj.init (Seg.of [160, 15, 0, 0, 1, 0, 0, 0, 7, 0, 0, 0, 0, 0, 0, 0] none) 0 Ptr.LIST_SIZE_COMPOSITE 1
      (.struct 1 0) = .ok l ∧ Wide l ∧ l.itemCount = 1000 ∧ l.toList = .error .assertionError :=
  ⟨_, rfl, by show (1 : Int) ≤ _; decide +kernel, by decide +kernel, by decide +kernel⟩

/-- A billion numbers from four bytes. -/
example : ∃ l, ListObj.init (Seg.of [7, 0, 0, 0] none) 0 Ptr.LIST_SIZE_VOID (10 ^ 9 : Nat) (.prim .i) = .ok l ∧
    l.toList = .ok (List.replicate (10 ^ 9) (Item.int 7)) :=
  C64_width_ignored _ _ _ _ _ (by decide +kernel)

/-- A struct with a pointer to a struct of one word. -/
def twoObjects : Bytes := [0, 0, 0, 0, 1, 0, 0, 0, 5, 0, 0, 0, 0, 0, 0, 0]

theorem twoObjects_denotes : Denotes (objAt twoObjects none 0 0 1) (.struct [] [.struct [5, 0, 0, 0, 0, 0, 0, 0] []]) := by
  refine ⟨_, none, 0, 0, 1, [], [.struct [5, 0, 0, 0, 0, 0, 0, 0] []], rfl, ?_, by norm_num, by norm_num, by norm_num,
    ⟨by decide, by decide, rfl, ?_⟩, rfl⟩
  · intro tbl h; cases h
  · rintro (_ | j) v hj
    · cases hj
      refine .struct _ _ 8 _ [] (by decide) (by decide) (by decide) (by decide) (by decide) (by decide) ?_
      rintro j v hv
      simp at hv
    · simp at hj

example : ∃ L, ObjectsOf (objAt twoObjects none 0 0 1) L ∧ NoSharing L ∧ L = [(0, 8), (8, 8)] := by
  obtain ⟨⟨L, hL⟩, -⟩ := C64_objects _ _ twoObjects_denotes
  have h0 : Extents twoObjects none ((0 + 8 * 0 + 8 * 0 : Nat) : Int) (wordAt twoObjects (0 + 8 * 0 + 8 * 0)) [(8, 8)] :=
    .struct _ _ 8 (fun _ => []) (by decide) (by decide) (by decide) (by
      intro j hj
      exact absurd hj (by rw [show ptrsSize (wordAt twoObjects (0 + 8 * 0 + 8 * 0)) = 0 by decide]; omega))
  refine ⟨[(0, 8), (8, 8)], ⟨twoObjects, none, 0, 0, 1, fun _ => [(8, 8)], rfl, ?_, rfl⟩, ?_, rfl⟩
  · intro j hj
    obtain rfl : j = 0 := by omega
    exact h0
  · unfold NoSharing
    refine List.Pairwise.cons ?_ (List.pairwise_singleton _ _)
    intro b hb i
    obtain rfl := List.mem_singleton.mp hb
    simp only
    omega

/-- The same struct met twice: sharing. -/
example : ∃ L, ObjectsOf (objAt (chain 1) none 0 0 2) L ∧ ¬ NoSharing L := by
  obtain ⟨⟨L, hL⟩, h⟩ := C64_objects _ _ (chain_denotes 1)
  refine ⟨L, hL, fun hn => ?_⟩
  have h1 := C64_no_sharing _ _ (chain_denotes 1) L hL hn
  have h2 := tree_size 1
  have h3 : wordAlign (chain 1).length = 32 := by rw [chain_length]; decide
  have h1 : (tree 1).size ≤ wordAlign (chain 1).length := h1
  omega

end Capnpy.Props
