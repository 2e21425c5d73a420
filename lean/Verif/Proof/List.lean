import Verif.Spec.ListSpec
import Verif.Proof.Reader

/-! # Reading lists -/

namespace Capnpy

open Spec

theorem bind_okP {α β} {x : Py α} {f : α → Py β} {a : α} (h : x = .ok a) : (x >>= f) = f a := by
  rw [h]; rfl

theorem allSome_get {α β} {f : α → Option β} : ∀ {l : List α} {r : List β}, allSome f l = some r →
    r.length = l.length ∧ ∀ (i : Nat) b, r[i]? = some b → ∃ a, l[i]? = some a ∧ f a = some b := by
  intro l
  induction l with
  | nil => intro r h; simp [allSome] at h; subst h; simp
  | cons a l ih =>
    intro r h
    simp only [allSome] at h
    cases hf : f a with
    | none => rw [hf] at h; simp at h
    | some b =>
      cases hr : allSome f l with
      | none => rw [hf, hr] at h; simp at h
      | some bs =>
        rw [hf, hr] at h
        simp only [Option.some.injEq] at h
        subst h
        obtain ⟨h1, h2⟩ := ih hr
        refine ⟨by simp [h1], ?_⟩
        intro i b' hi
        cases i with
        | zero => simp only [List.getElem?_cons_zero, Option.some.injEq] at hi; subst hi; exact ⟨a, rfl, hf⟩
        | succ i => simp only [List.getElem?_cons_succ] at hi ⊢; exact h2 i b' hi

theorem getElem?_range_inv {n i j : Nat} (h : (List.range n)[i]? = some j) : i < n ∧ i = j := by
  obtain ⟨h1, h2⟩ := List.getElem?_eq_some_iff.mp h
  simp at h1 h2
  exact ⟨h1, h2⟩

theorem listItemLength_spec {tag : Nat} (h : tag < 7) : Ptr.listItemLength (tag : Int) = elemLen tag := by
  interval_cases tag <;> decide

theorem listTag_lt (w : Nat) : listTag w < 8 := Nat.mod_lt _ (by norm_num)

/-- `List` objects made from a pointer that denotes a list. -/
theorem listInit_spec {B : Bytes} {offs : Option (List Nat)} (hta : TableAligned offs)
    {q : Int} {w : Nat} (hw : w < 2 ^ 64) (hq : (8 : Int) ∣ q) (hk : kind w = 1) {v : Val}
    (h : Den B offs q w v) (it : ItemType) :
    ∃ l t, ListObj.init (Seg.of B offs) (Ptr.deref (signed64 w) q) (Ptr.listSizeTag (signed64 w))
        (Ptr.listItemCount (signed64 w)) it = .ok l ∧ target q w = (t : Nat) ∧ l = listAt B offs t w it ∧
      ListDenotes l v := by
  have hm := signed64_mod _ hw
  have ht : ∃ t : Nat, target q w = t := by
    cases h with
    | null => simp [kind] at hk
    | struct _ _ t => omega
    | listPrim _ _ t _ _ h1 => exact ⟨t, h1⟩
    | listPtr _ _ t _ _ _ h1 => exact ⟨t, h1⟩
    | listComp _ _ t _ _ _ _ _ _ h1 => exact ⟨t, h1⟩
    | far => omega
    | far2 => omega
  obtain ⟨t, ht⟩ := ht
  refine ⟨listAt B offs t w it, t, ?_, ht, rfl, B, offs, q, w, t, it, rfl, hta, hw, hq, hk, ht, h⟩
  rw [deref_spec hm, ht, Ptr.listTag_spec hm, Ptr.listCount_spec hm]
  unfold ListObj.init listAt
  have hlt := listTag_lt w
  by_cases h7 : listTag w = 7
  · rw [h7, if_pos (by decide), if_pos rfl]
    have hb : t + 8 ≤ B.length := by
      cases h with
      | null => simp [kind] at hk
      | struct _ _ t => omega
      | listPrim _ _ t _ _ h1 => omega
      | listPtr _ _ t _ _ _ h1 => omega
      | listComp _ _ t' _ _ _ _ _ _ h1 hb => rw [ht] at h1; omega
      | far => omega
      | far2 => omega
    rw [bind_okP (readPtr_at hb)]
    have hm' := signed64_mod _ (wordAt_lt B t)
    rw [Ptr.offset_spec hm', Ptr.dataSize_spec hm', Ptr.ptrsSize_spec hm']
    refine congrArg Except.ok ?_
    simp only [ListObj.mk.injEq, true_and, and_true]
    refine ⟨by decide, ?_⟩
    push_cast; ring
  · rw [if_neg (by unfold Ptr.LIST_SIZE_COMPOSITE; omega), if_neg h7, listItemLength_spec (by omega)]
    rfl

/-- The pointer of an item, after following far pointers. -/
theorem itemPtr_spec {B : Bytes} {offs : Option (List Nat)} (hta : TableAligned offs) {l : ListObj}
    (hl : l.seg = Seg.of B offs) {pos : Nat} (h8 : 8 ∣ pos) (hb : pos + 8 ≤ B.length) {v : Val}
    (h : Den B offs (pos : Int) (wordAt B pos) v) :
    ∃ (q : Int) (w : Nat), l.itemPtr (pos : Int) = .ok (q, signed64 w) ∧
      w < 2 ^ 64 ∧ (8 : Int) ∣ q ∧ kind w < 2 ∧ Den B offs q w v ∧ (w = 0 → q = pos) := by
  unfold ListObj.itemPtr
  rw [hl, bind_okP (readPtr_at hb)]
  have hm := signed64_mod _ (wordAt_lt B pos)
  rw [Ptr.kind_spec hm]
  rcases den_resolve hta h8 h with hk | ⟨hk, q, w, h1, h2, h3, h4, h5, h6⟩
  · refine ⟨(pos : Int), wordAt B pos, ?_, wordAt_lt _ _, by omega, hk, h, fun _ => rfl⟩
    rw [if_neg (by unfold Ptr.FAR; omega)]; rfl
  · refine ⟨q, w, ?_, h2, h3, h4, h6, fun h => absurd h h5⟩
    rw [if_pos (by rw [hk]; rfl)]; exact h1

theorem readStr_bytes {B : Bytes} {offs : Option (List Nat)} {q : Int} {w : Nat} (hw : w < 2 ^ 64)
    (hk2 : kind w < 2) {n : Nat} {bs : Bytes} (h : Den B offs q w (.listPrim 2 n bs)) (dflt : Option Bytes) :
    (Seg.of B offs).readStr (signed64 w) q dflt 0 = .ok (some bs) ∧
    (0 < n → (Seg.of B offs).readStr (signed64 w) q dflt (-1) = .ok (some bs.dropLast)) ∧
    bs.length = n := by
  have hm := signed64_mod _ hw
  generalize hvv : Val.listPrim 2 n bs = v at h
  cases h with
  | null => cases hvv
  | struct => cases hvv
  | listPtr => cases hvv
  | listComp => cases hvv
  | far => omega
  | far2 => omega
  | listPrim _ _ s hk hg hs hb =>
    injection hvv with g1 g2 g3
    rw [← g1] at hb g3
    rw [← g2] at hb g3
    have hpl : primLen 2 n = n := rfl
    rw [hpl] at hb g3
    have hw0 : w ≠ 0 := by intro h; rw [h] at hk; simp [kind] at hk
    have key : ∀ add : Int, (Seg.of B offs).readStr (signed64 w) q dflt add
        = .ok (some (pySlice B (s : Int) ((s : Int) + n + add))) := by
      intro add
      unfold Seg.readStr
      rw [if_neg (signed64_ne_zero hw hw0), Ptr.kind_spec hm, hk, if_neg (by decide),
        Ptr.listTag_spec hm, ← g1, if_neg (by decide), deref_spec hm, hs, Ptr.listCount_spec hm, ← g2]
      rfl
    have hl : bs.length = n := by rw [g3]; exact slice_length_of_le hb
    refine ⟨?_, ?_, hl⟩
    · rw [key, show (s : Int) + n + 0 = ((s + n : Nat) : Int) by push_cast; ring, pySlice_nat,
        Nat.add_sub_cancel_left, g3]
    · intro hn
      rw [key, show (s : Int) + n + (-1) = ((s + (n - 1) : Nat) : Int) by omega, pySlice_nat,
        Nat.add_sub_cancel_left, List.dropLast_eq_take, hl, g3]
      unfold slice
      rw [List.take_take, Nat.min_eq_left (by omega)]

/-- Contents of a pointer list. -/
theorem listPtr_inv {l : ListObj} {items : List Val} (h : ListDenotes l (.listPtr items)) :
    ∃ (B : Bytes) (offs : Option (List Nat)) (t : Nat), l.seg = Seg.of B offs ∧ TableAligned offs ∧
      l.offset = t ∧ 8 ∣ t ∧ l.itemCount = items.length ∧ l.itemLength = 8 ∧ l.itemOffset = 0 ∧
      ∀ j v, items[j]? = some v → t + 8 * j + 8 ≤ B.length ∧
        Den B offs ((t + 8 * j : Nat) : Int) (wordAt B (t + 8 * j)) v := by
  obtain ⟨B, offs, q, w, t, it, rfl, hta, hw, hq, hk, ht, hd⟩ := h
  generalize hvv : Val.listPtr items = v at hd
  cases hd with
  | null => cases hvv
  | struct => cases hvv
  | listPrim => cases hvv
  | listComp => cases hvv
  | far => omega
  | far2 => omega
  | listPtr _ _ t' items' hk hg ht' hb hl hp =>
    cases hvv
    obtain rfl : t = t' := by omega
    have h7 : ¬ listTag w = 7 := by omega
    unfold listAt
    rw [if_neg h7]
    refine ⟨B, offs, t, rfl, hta, rfl, target_dvd hq ht, by simp only; rw [hl],
      by simp only; rw [hg]; rfl, rfl, ?_⟩
    intro j v hj
    have := getElem?_lt hj
    exact ⟨by omega, hp j v hj⟩

/-- Contents of a list of bits or numbers. -/
theorem listPrim_inv {l : ListObj} {tag n : Nat} {bs : Bytes} (h : ListDenotes l (.listPrim tag n bs)) :
    ∃ (B : Bytes) (offs : Option (List Nat)) (t : Nat), l.seg = Seg.of B offs ∧
      l.offset = t ∧ 8 ∣ t ∧ l.itemCount = n ∧ l.itemLength = elemLen tag ∧ tag ≤ 5 ∧
      t + primLen tag n ≤ B.length ∧ bs = slice B t (primLen tag n) ∧ l.sizeTag = tag := by
  obtain ⟨B, offs, q, w, t, it, rfl, hta, hw, hq, hk, ht, hd⟩ := h
  generalize hvv : Val.listPrim tag n bs = v at hd
  cases hd with
  | null => cases hvv
  | struct => cases hvv
  | listPtr => cases hvv
  | listComp => cases hvv
  | far => omega
  | far2 => omega
  | listPrim _ _ t' hk hg ht' hb =>
    injection hvv with g1 g2 g3
    subst g1 g2
    obtain rfl : t = t' := by omega
    have h7 : ¬ listTag w = 7 := by omega
    unfold listAt
    rw [if_neg h7]
    exact ⟨B, offs, t, rfl, rfl, target_dvd hq ht, rfl, rfl, hg, hb, g3, rfl⟩

theorem readPrim_item {B : Bytes} {fmt : Fmt} {t n i : Nat} {bs : Bytes}
    (hpl : primLen (fmtTag fmt) n = fmt.size * n)
    (hb : t + primLen (fmtTag fmt) n ≤ B.length) (hbs : bs = slice B t (primLen (fmtTag fmt) n))
    (hi : i < n) :
    Capnpy.readPrimitive B ((t : Int) + (i : Int) * ((fmt.size : Nat) : Int)) fmt
      = .ok (Props.valueOf fmt (slice bs (fmt.size * i) fmt.size)) := by
  rw [hpl] at hb hbs
  have hmul : fmt.size * i + fmt.size ≤ fmt.size * n := by
    have := Nat.mul_le_mul_left fmt.size (show i + 1 ≤ n by omega)
    rw [Nat.mul_add] at this; omega
  have e1 : ((t : Int) + (i : Int) * ((fmt.size : Nat) : Int)) = ((t + fmt.size * i : Nat) : Int) := by
    push_cast; ring
  have e2 : slice bs (fmt.size * i) fmt.size = slice B (t + fmt.size * i) fmt.size := by
    rw [hbs]
    apply slice_congr
    intro k hk
    rw [slice_getElem?, if_pos (by omega)]
    congr 1; omega
  rw [e1, readPrimitive_nat (by omega), e2, Props.decode_eq_valueOf _ _ (slice_length_of_le (by omega))]

theorem primLen_fmtTag (fmt : Fmt) (n : Nat) : primLen (fmtTag fmt) n = fmt.size * n := by
  cases fmt <;> simp [fmtTag, primLen, Fmt.size]

theorem elemLen_fmtTag (fmt : Fmt) : elemLen (fmtTag fmt) = ((fmt.size : Nat) : Int) := by
  cases fmt <;> rfl

/-- Bit `k` of a signed byte. -/
theorem land_bit (v : Int) (k : Nat) : (decide (Int.land v (shl 1 k) ≠ 0)) = Int.testBit v k := by
  have key : Int.land v (shl 1 k) = if Int.testBit v k then 2 ^ k else 0 := by
    apply Int.eq_of_testBit
    intro i
    have e : shl 1 k = 1 * 2 ^ k := rfl
    rw [Int.testBit_land, e, testBit_mul_two_pow]
    have h1 : ∀ j, Int.testBit 1 j = decide (j = 0) := by
      intro j
      have : (1 : Int) = 2 ^ 1 - 1 := by norm_num
      rw [this, testBit_mask]
      by_cases hj : j = 0
      · subst hj; rfl
      · have : ¬ j < 1 := by omega
        simp [hj]
    have h2 : ∀ j, Int.testBit (2 ^ k : Int) j = decide (j = k) := by
      intro j
      have : (2 ^ k : Int) = 1 * 2 ^ k := by ring
      rw [this, testBit_mul_two_pow, h1]
      by_cases hj : k ≤ j
      · have e : decide (k ≤ j) = true := by simpa using hj
        rw [e, Bool.true_and]
        congr 1
        simp; omega
      · have e : decide (k ≤ j) = false := by simpa using hj
        rw [e, Bool.false_and]
        symm
        simp; omega
    rw [h1]
    by_cases hv : Int.testBit v k = true
    · rw [if_pos hv, h2]
      by_cases hi : i = k
      · subst hi; simp [hv]
      · have : ¬ (k ≤ i ∧ i - k = 0) := by omega
        rw [not_and] at this
        by_cases hk : k ≤ i
        · have := this hk
          simp [hi, this]
        · simp [hi, hk]
    · rw [if_neg hv, testBit_zero_int]
      by_cases hi : i = k
      · subst hi
        simp at hv
        simp [hv]
      · by_cases hk : k ≤ i
        · have : i - k ≠ 0 := by omega
          simp [this]
        · simp [hk]
  rw [key]
  cases Int.testBit v k with
  | true =>
    rw [if_pos rfl]
    have : (2 : Int) ^ k ≠ 0 := by positivity
    simp
  | false => rw [if_neg (by simp)]; simp

/-- A bit of a byte read as signed char. -/
theorem decode_b_bit (x : UInt8) (k : Nat) (hk : k < 8) : Int.testBit (Fmt.decode .b [x]) k = x.toNat.testBit k := by
  have h := testBit_mod (Fmt.decode .b [x]) 8 k
  rw [decide_eq_true (by omega), Bool.true_and] at h
  rw [← h]
  have hx : x.toNat < 256 := x.toNat_lt
  have : Fmt.decode .b [x] % 2 ^ 8 = (x.toNat : Int) := by
    have e : leNat [x] = x.toNat := by simp [leNat]
    have e1 : Fmt.hi .b = 128 := rfl
    have e2 : Fmt.card .b = 256 := rfl
    unfold Fmt.decode
    rw [e, e1, e2]
    by_cases h : x.toNat < 128
    · rw [if_pos (by omega)]; omega
    · rw [if_neg (by omega)]; push_cast; omega
  rw [this]; rfl

/-- Reading item `i` of a list gives element `i` of its value. -/
theorem readItem_spec {l : ListObj} {v : Val} (h : ListDenotes l v) {es : List Elem}
    (he : elems l.itemType v = some es) :
    l.itemCount = es.length ∧
    ∀ (i : Nat) e, es[i]? = some e → ∃ x, l.readItem (i : Int) = .ok x ∧ ItemDenotes x e := by
  have ptrCase : ∀ (f : Val → Option Elem) (items : List Val), v = .listPtr items →
      allSome f items = some es →
      (∀ (B : Bytes) (offs : Option (List Nat)) (t : Nat), l.seg = Seg.of B offs → TableAligned offs →
        l.offset = t → l.itemLength = 8 → l.itemOffset = 0 → ∀ (i : Nat) (q : Int) (w : Nat) a e,
        l.itemPtr ((t + 8 * i : Nat) : Int) = .ok (q, signed64 w) → t + 8 * i + 8 ≤ B.length →
        w < 2 ^ 64 → (8 : Int) ∣ q → kind w < 2 → Den B offs q w a → (w = 0 → q = ((t + 8 * i : Nat) : Int)) →
        f a = some e →
        ∃ x, l.readItem (i : Int) = .ok x ∧ ItemDenotes x e) →
      l.itemCount = es.length ∧
      ∀ (i : Nat) e, es[i]? = some e → ∃ x, l.readItem (i : Int) = .ok x ∧ ItemDenotes x e := by
    intro f items hv hs hstep
    subst hv
    obtain ⟨B, offs, t, h1, hta, h2, h3, h4, h5, h6, h7⟩ := listPtr_inv h
    obtain ⟨g1, g2⟩ := allSome_get hs
    refine ⟨by rw [h4, g1], ?_⟩
    intro i e hi
    obtain ⟨a, ha, hf⟩ := g2 i e hi
    obtain ⟨hb, hden⟩ := h7 i a ha
    obtain ⟨q, w, p1, p2, p3, p4, p5, p6⟩ := itemPtr_spec hta h1 (by omega) hb hden
    exact hstep B offs t h1 hta h2 h5 h6 i q w a e p1 hb p2 p3 p4 p5 p6 hf
  have offEq : ∀ (t i : Nat), l.offset = t → l.itemLength = 8 → l.itemOffset = 0 →
      l.offsetForItem (i : Int) = ((t + 8 * i : Nat) : Int) := by
    intro t i a b c
    unfold ListObj.offsetForItem; rw [a, b, c]; push_cast; ring
  cases hit : l.itemType with
  | void =>
    rw [hit] at he
    cases v with
    | listPrim tag n bs =>
      simp only [elems] at he
      by_cases htag : tag = 0
      · rw [if_pos htag, Option.some.injEq] at he
        subst htag
        subst he
        obtain ⟨B, offs, t, h1, h2, h3, h4, -⟩ := listPrim_inv h
        refine ⟨by rw [h4]; simp, ?_⟩
        intro i e hi
        rw [List.getElem?_replicate] at hi
        split at hi
        · cases hi
          refine ⟨.none, ?_, trivial⟩
          unfold ListObj.readItem; rw [hit]
        · cases hi
      · rw [if_neg htag] at he; cases he
    | _ => simp [elems] at he
  | bool =>
    rw [hit] at he
    cases v with
    | listPrim tag n bs =>
      simp only [elems] at he
      by_cases htag : tag = 1
      · rw [if_pos htag, Option.some.injEq] at he
        subst htag
        subst he
        obtain ⟨B, offs, t, h1, h2, h3, h4, h5, h6, h7, h8, h9⟩ := listPrim_inv h
        refine ⟨by rw [h4]; simp, ?_⟩
        intro i e hi
        rw [List.getElem?_map] at hi
        cases hr : (List.range n)[i]? with
        | none => rw [hr] at hi; cases hi
        | some j =>
          rw [hr] at hi
          obtain ⟨hin, rfl⟩ : i < n ∧ i = j := by
            exact getElem?_range_inv hr
          cases hi
          refine ⟨.bool (bitElem bs i), ?_, rfl⟩
          unfold ListObj.readItem; rw [hit, h1, h2]
          have hpl : primLen 1 n = (n + 7) / 8 := rfl
          rw [hpl] at h7 h8
          have e1 : ((t : Int) + (i : Int) / 8) = ((t + i / 8 : Nat) : Int) := by push_cast; rfl
          simp only
          rw [e1]
          have hsz : Fmt.size .b = 1 := rfl
          rw [show (Seg.of B offs).buf = B from rfl, bind_okP (readPrimitive_nat (by rw [hsz]; omega))]
          refine congrArg (fun b => Except.ok (Item.bool b)) ?_
          have e2 : ((i : Int) % 8).toNat = i % 8 := by omega
          rw [e2, land_bit, hsz]
          have hlt : t + i / 8 < B.length := by omega
          have hsl : slice B (t + i / 8) 1 = [B[t + i / 8]] := by
            unfold slice
            rw [List.drop_eq_getElem_cons hlt]
            rfl
          rw [hsl, decode_b_bit _ _ (by omega)]
          unfold bitElem
          rw [h8, slice_getElem?, if_pos (by omega), List.getElem?_eq_getElem hlt]
          rfl
      · rw [if_neg htag] at he; cases he
    | _ => simp [elems] at he
  | prim fmt =>
    rw [hit] at he
    cases v with
    | listPrim tag n bs =>
      simp only [elems] at he
      by_cases htag : tag = fmtTag fmt
      · rw [if_pos htag, Option.some.injEq] at he
        subst he htag
        obtain ⟨B, offs, t, h1, h2, h3, h4, h5, h6, h7, h8, h9⟩ := listPrim_inv h
        refine ⟨by rw [h4]; simp, ?_⟩
        intro i e hi
        rw [List.getElem?_map] at hi
        cases hr : (List.range n)[i]? with
        | none => rw [hr] at hi; cases hi
        | some j =>
          rw [hr] at hi
          obtain ⟨hin, rfl⟩ : i < n ∧ i = j := by
            exact getElem?_range_inv hr
          cases hi
          refine ⟨.int (Props.valueOf fmt (slice bs (fmt.size * i) fmt.size)), ?_, rfl⟩
          unfold ListObj.readItem; rw [hit, h1, h2, h5, elemLen_fmtTag]
          simp only
          rw [show (Seg.of B offs).buf = B from rfl,
            bind_okP (readPrim_item (primLen_fmtTag fmt n) h7 h8 hin)]
          rfl
      · rw [if_neg htag] at he; cases he
    | _ => simp [elems] at he
  | enum =>
    rw [hit] at he
    cases v with
    | listPrim tag n bs =>
      simp only [elems] at he
      by_cases htag : tag = 3
      · rw [if_pos htag, Option.some.injEq] at he
        subst htag
        subst he
        obtain ⟨B, offs, t, h1, h2, h3, h4, h5, h6, h7, h8, h9⟩ := listPrim_inv h
        refine ⟨by rw [h4]; simp, ?_⟩
        intro i e hi
        rw [List.getElem?_map] at hi
        cases hr : (List.range n)[i]? with
        | none => rw [hr] at hi; cases hi
        | some j =>
          rw [hr] at hi
          obtain ⟨hin, rfl⟩ : i < n ∧ i = j := by
            exact getElem?_range_inv hr
          cases hi
          refine ⟨.int (Props.valueOf .h (slice bs (2 * i) 2)), ?_, rfl⟩
          unfold ListObj.readItem; rw [hit, h1, h2, h5]
          simp only
          rw [show (Seg.of B offs).buf = B from rfl, show elemLen 3 = ((Fmt.size .h : Nat) : Int) from rfl,
            bind_okP (readPrim_item (fmt := .h) (primLen_fmtTag .h n) h7 h8 hin)]
          rfl
      · rw [if_neg htag] at he; cases he
    | _ => simp [elems] at he
  | struct sd sp =>
    rw [hit] at he
    cases v with
    | listComp ds ps items =>
      simp only [elems, Option.some.injEq] at he
      subst he
      obtain ⟨B, offs, q, w, t, it, rfl, hta, hw, hq, hk, ht, hd⟩ := h
      generalize hvv : Val.listComp ds ps items = v at hd
      cases hd with
      | null => cases hvv
      | struct => cases hvv
      | listPrim => cases hvv
      | listPtr => cases hvv
      | far => omega
      | far2 => omega
      | listComp _ _ t' tag ds' ps' items' hk hg ht' hb htag hkt hds hps hn htot hi hp =>
        injection hvv with g1 g2 g3
        subst g1 g2 g3
        obtain rfl : t = t' := by omega
        subst htag
        unfold listAt at hit ⊢
        rw [if_pos hg] at hit ⊢
        simp only at hit
        subst hit
        have h8 := target_dvd hq ht
        refine ⟨by simp only [List.length_map]; exact hn, ?_⟩
        intro i e hie
        rw [List.getElem?_map] at hie
        cases hr : items[i]? with
        | none => rw [hr] at hie; cases hie
        | some x =>
          obtain ⟨d, vs⟩ := x
          rw [hr] at hie
          cases hie
          obtain ⟨q1, q2⟩ := hi i d vs hr
          have hil := getElem?_lt hr
          have hm := signed64_mod _ (wordAt_lt B t)
          have hbound : t + 8 + i * (8 * (ds + ps)) + 8 * (ds + ps) ≤ B.length := by
            have := Nat.mul_le_mul_right (8 * (ds + ps)) (show i + 1 ≤ items.length by omega)
            rw [Nat.add_mul] at this
            have e : items.length * (8 * (ds + ps)) = 8 * listCount w := by rw [← htot]; ring
            omega
          refine ⟨.struct (objAt B offs (t + 8 + i * (8 * (ds + ps))) ds ps), ?_, ?_⟩
          · unfold ListObj.readItem ListObj.offsetForItem
            simp only
            rw [Ptr.dataSize_spec hm, Ptr.ptrsSize_spec hm, ← hds, ← hps]
            have e1 : ((t : Int) + 8 + (i : Int) * ((8 * (ds + ps) : Nat) : Int))
                = ((t + 8 + i * (8 * (ds + ps)) : Nat) : Int) := by push_cast; ring
            rw [e1]
            have e2 : StructObj.initFromBuffer (Seg.of B offs) ((t + 8 + i * (8 * (ds + ps)) : Nat) : Int) ds ps
                = .ok (objAt B offs (t + 8 + i * (8 * (ds + ps))) ds ps) := by
              generalize t + 8 + i * (8 * (ds + ps)) = a at hbound
              unfold StructObj.initFromBuffer
              simp only
              rw [if_neg, if_neg]
              · unfold objAt
                refine congrArg Except.ok ?_
                simp only [StructObj.mk.injEq, true_and, and_true]
                push_cast; ring
              · change ¬ ¬ ((a : Int) + (ds : Int) * 8 + (ps : Int) * 8 ≤ (B.length : Int))
                omega
              · change ¬ ¬ ((a : Int) + (ds : Int) * 8 ≤ (B.length : Int))
                omega
            rw [bind_okP e2]; rfl
          · refine ⟨B, offs, _, ds, ps, d, vs, rfl, hta, ?_, ?_, ?_, ⟨by omega, q1, q2, ?_⟩, rfl⟩
            · exact Nat.dvd_add (Nat.dvd_add h8 (by norm_num)) (Dvd.dvd.mul_left (Nat.dvd_mul_right _ _) _)
            · rw [hds]; exact spec_dataSize_lt _
            · rw [hps]; exact spec_ptrsSize_lt _
            · intro j v hj; exact hp i d vs hr j v hj
    | _ => simp [elems] at he
  | text =>
    rw [hit] at he
    cases v with
    | listPtr items =>
      refine ptrCase textElem items rfl he ?_
      intro B offs t h1 hta h2 h5 h6 i q w a e p1 hb p2 p3 p4 p5 p6 hf
      unfold ListObj.readItem
      rw [hit]
      simp only
      rw [offEq t i h2 h5 h6, bind_okP p1]
      simp only [h1]
      cases a with
      | null =>
        cases hf
        obtain rfl : w = 0 := by
          rcases den_kind1 p4 p5 with h | ⟨_, _, d, p, h⟩ | ⟨_, _, h, _⟩
          · exact h.2
          · cases h
          · exact absurd rfl h
        refine ⟨.none, ?_, trivial⟩
        have : (Seg.of B offs).readStr (signed64 0) q none (-1) = .ok none := by
          unfold Seg.readStr; rw [if_pos (by decide)]
        rw [bind_okP this]; rfl
      | listPrim tag n bs =>
        unfold textElem at hf
        split at hf
        · rename_i heq; cases heq
        · rename_i n' bs' heq
          cases heq
          by_cases hn : 0 < n
          · rw [if_pos hn, Option.some.injEq] at hf
            subst hf
            refine ⟨.bytes bs.dropLast, ?_, rfl⟩
            rw [bind_okP ((readStr_bytes p2 p4 p5 none).2.1 hn)]; rfl
          · rw [if_neg hn] at hf; cases hf
        · cases hf
      | _ => simp [textElem] at hf
    | _ => simp [elems] at he
  | data =>
    rw [hit] at he
    cases v with
    | listPtr items =>
      refine ptrCase dataElem items rfl he ?_
      intro B offs t h1 hta h2 h5 h6 i q w a e p1 hb p2 p3 p4 p5 p6 hf
      unfold ListObj.readItem
      rw [hit]
      simp only
      rw [offEq t i h2 h5 h6, bind_okP p1]
      simp only [h1]
      cases a with
      | null =>
        cases hf
        obtain rfl : w = 0 := by
          rcases den_kind1 p4 p5 with h | ⟨_, _, d, p, h⟩ | ⟨_, _, h, _⟩
          · exact h.2
          · cases h
          · exact absurd rfl h
        refine ⟨.none, ?_, trivial⟩
        have : (Seg.of B offs).readStr (signed64 0) q none 0 = .ok none := by
          unfold Seg.readStr; rw [if_pos (by decide)]
        rw [bind_okP this]; rfl
      | listPrim tag n bs =>
        unfold dataElem at hf
        split at hf
        · rename_i heq; cases heq
        · rename_i n' bs' heq
          cases heq
          cases hf
          refine ⟨.bytes bs, ?_, rfl⟩
          rw [bind_okP (readStr_bytes p2 p4 p5 none).1]; rfl
        · cases hf
      | _ => simp [dataElem] at hf
    | _ => simp [elems] at he
  | list inner =>
    rw [hit] at he
    cases v with
    | listPtr items =>
      refine ptrCase listElem items rfl he ?_
      intro B offs t h1 hta h2 h5 h6 i q w a e p1 hb p2 p3 p4 p5 p6 hf
      unfold ListObj.readItem
      rw [hit]
      simp only
      have e1 : l.offset + (i : Int) * 8 = ((t + 8 * i : Nat) : Int) := by rw [h2]; push_cast; ring
      rw [e1, bind_okP p1]
      simp only [h1]
      rcases den_kind1 p4 p5 with ⟨hv, hw0⟩ | ⟨_, _, d, p, hv⟩ | ⟨hw0, hk1, hn, hs⟩
      · subst hv hw0
        cases hf
        have hq := p6 rfl
        have hd : Den B offs q 1 (.listPrim 0 0 []) := by
          have := Den.listPrim (B := B) (offs := offs) q 1 (t + 8 * i + 8) (by decide) (by decide)
            (by rw [hq]; unfold target; rw [show Spec.offset 1 = 0 by decide]; push_cast; ring)
            (by rw [show primLen (listTag 1) (listCount 1) = 0 by decide]; omega)
          rw [show listTag 1 = 0 by decide, show listCount 1 = 0 by decide] at this
          rw [show slice B (t + 8 * i + 8) (primLen 0 0) = [] by simp [slice, primLen]] at this
          exact this
        obtain ⟨l', t', r1, r2, r3, r4⟩ := listInit_spec hta (by norm_num) p3 (by decide) hd inner
        refine ⟨.list l', ?_, r4⟩
        have e2 : Ptr.deref (signed64 0) q = Ptr.deref (signed64 1) q := by
          unfold Ptr.deref; rw [show Ptr.offset (signed64 0) = 0 by decide, show Ptr.offset (signed64 1) = 0 by decide]
        rw [e2, show Ptr.listSizeTag (signed64 0) = Ptr.listSizeTag (signed64 1) by decide,
          show Ptr.listItemCount (signed64 0) = Ptr.listItemCount (signed64 1) by decide, bind_okP r1]
        rfl
      · subst hv; cases hf
      · have he : e = .val a := by
          cases a with
          | null => exact absurd rfl hn
          | struct d p => exact absurd rfl (hs d p)
          | _ => cases hf; rfl
        subst he
        obtain ⟨l', t', r1, r2, r3, r4⟩ := listInit_spec hta p2 p3 hk1 p5 inner
        refine ⟨.list l', ?_, r4⟩
        rw [bind_okP r1]; rfl
    | _ => simp [elems] at he

/-- `_read_list` on a slot that holds a list. -/
theorem readList_list {o : StructObj} {data : Bytes} {ptrs : List Val}
    (ho : Denotes o (.struct data ptrs)) {j : Nat} {v : Val} (hj : ptrs[j]? = some v)
    (hn : v ≠ .null) (hs : ∀ d p, v ≠ .struct d p) (it : ItemType) (dflt : Option ListObj) :
    ∃ l, o.readList ((8 * j : Nat) : Int) it dflt = .ok (some l) ∧ l.seg = o.seg ∧
      l.itemType = it ∧ ListDenotes l v := by
  obtain ⟨B, offs, t, ds, ps, data', ptrs', rfl, hta, h8, hds, hps, hob, hv⟩ := ho
  injection hv with h1 h2
  subst h1 h2
  obtain ⟨q, w, r1, r2, r3, r4, r5, r6⟩ := resolve_spec hta h8 hob hj
  have hm := signed64_mod _ r2
  rcases den_kind1 r4 r5 with ⟨h, _⟩ | ⟨_, _, d, p, h⟩ | ⟨hw0, hk, -, -⟩
  · exact absurd h hn
  · exact absurd h (hs d p)
  · obtain ⟨l, t', i1, i2, i3, i4⟩ := listInit_spec hta r2 r3 hk r5 it
    refine ⟨l, ?_, ?_, ?_, i4⟩
    · unfold StructObj.readList
      rw [bind_okP r1]
      simp only
      rw [if_neg (signed64_ne_zero r2 hw0), if_neg (by rw [Ptr.kind_spec hm, hk]; decide)]
      change (ListObj.init (Seg.of B offs) _ _ _ _ >>= _) = _
      rw [bind_okP i1]
      rfl
    · rw [i3]; unfold listAt; split <;> rfl
    · rw [i3]; unfold listAt; split <;> rfl

theorem readList_null {o : StructObj} {data : Bytes} {ptrs : List Val}
    (ho : Denotes o (.struct data ptrs)) {j : Nat} (hj : ptrs[j]? = some .null ∨ ptrs[j]? = none)
    (it : ItemType) (dflt : Option ListObj) :
    o.readList ((8 * j : Nat) : Int) it dflt = .ok dflt := by
  obtain ⟨B, offs, t, ds, ps, data', ptrs', rfl, hta, h8, hds, hps, hob, hv⟩ := ho
  injection hv with h1 h2
  subst h1 h2
  unfold StructObj.readList
  rcases hj with hj | hj
  · obtain ⟨q, w, r1, r2, r3, r4, r5, r6⟩ := resolve_spec hta h8 hob hj
    have h0 : w = 0 := by
      rcases den_kind1 r4 r5 with h | ⟨_, _, d, p, h⟩ | ⟨_, _, h, _⟩
      · exact h.2
      · cases h
      · exact absurd rfl h
    subst h0
    rw [bind_okP r1]
    simp only
    rw [if_pos (by decide)]
    rfl
  · have hl : ps ≤ j := by rw [← hob.2.2.1]; exact List.getElem?_eq_none_iff.mp hj
    rw [bind_okP (resolve_beyond hl)]
    simp only
    rw [if_pos (by decide)]
    rfl

/-- A list accessor on a struct pointer raises. -/
theorem readList_struct {o : StructObj} {data : Bytes} {ptrs : List Val}
    (ho : Denotes o (.struct data ptrs)) {j : Nat} {d : Bytes} {p : List Val}
    (hj : ptrs[j]? = some (.struct d p)) (it : ItemType) (dflt : Option ListObj) :
    o.readList ((8 * j : Nat) : Int) it dflt = .error .assertionError := by
  obtain ⟨B, offs, t, ds, ps, data', ptrs', rfl, hta, h8, hds, hps, hob, hv⟩ := ho
  injection hv with h1 h2
  subst h1 h2
  obtain ⟨q, w, r1, r2, r3, r4, r5, r6⟩ := resolve_spec hta h8 hob hj
  rcases den_kind1 r4 r5 with h | ⟨h0, h1, _⟩ | ⟨_, _, _, h⟩
  · cases h.1
  · unfold StructObj.readList
    rw [bind_okP r1]
    simp only
    rw [if_neg (signed64_ne_zero r2 h0), Ptr.kind_spec (signed64_mod _ r2), h1, if_pos (by decide)]
    rfl
  · exact absurd rfl (h d p)

/-- Only the null word denotes null. -/
theorem den_null_word {B : Bytes} {offs : Option (List Nat)} {o : Int} {w : Nat}
    (h : Den B offs o w .null) : w = 0 := by
  generalize hv : Val.null = v at h
  cases h with
  | null => rfl
  | struct => cases hv
  | listPrim => cases hv
  | listPtr => cases hv
  | listComp => cases hv
  | far _ _ _ _ _ _ _ _ _ _ _ _ _ _ hpk hp0 hd =>
    subst hv
    rcases den_kind1 hpk hd with h | ⟨_, _, d, p, h⟩ | ⟨_, _, h, _⟩
    · exact absurd h.2 hp0
    · cases h
    · exact absurd rfl h
  | far2 _ _ _ _ _ _ _ _ _ _ _ _ _ _ _ _ _ _ htk ht0 _ hd =>
    subst hv
    rcases den_kind1 htk hd with h | ⟨_, _, d, p, h⟩ | ⟨_, _, h, _⟩
    · exact absurd h.2 ht0
    · cases h
    · exact absurd rfl h

theorem xor_zero_left (x : Int) : Int.xor 0 x = x := by
  apply Int.eq_of_testBit; intro i; rw [Int.testBit_lxor, testBit_zero_int]; simp
theorem xor_zero_right (x : Int) : Int.xor x 0 = x := by
  apply Int.eq_of_testBit; intro i; rw [Int.testBit_lxor, testBit_zero_int]; simp
theorem land_zero_left (x : Int) : Int.land 0 x = 0 := by
  apply Int.eq_of_testBit; intro i; rw [Int.testBit_land, testBit_zero_int]; simp

end Capnpy
