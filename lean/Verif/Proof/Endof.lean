import Verif.Model.Endof
import Verif.Proof.Lay

/-! # Correctness of the compactness check -/

namespace Capnpy

open Spec

/-- `r` is the right answer for the end of the object `w` at `pos`. -/
def EndRes (B : Bytes) (pos w : Nat) (v : Val) (r : Int) : Prop :=
  (r = -1 ∧ ∀ s e, ¬ Lay false B pos w v s e) ∨
  ∃ s e : Nat, r = e ∧ Lay false B pos w v s e

/-- The recursive call is right for the child `v` whose pointer is at `pos`. -/
def EndOK (rec : Int → Int → Py Int) (B : Bytes) (pos : Nat) (v : Val) : Prop :=
  (wordAt B pos = 0 → v = .null) ∧
  (wordAt B pos ≠ 0 → ∃ r, rec (signed64 (wordAt B pos)) ((pos : Nat) : Int) = .ok r ∧
    EndRes B pos (wordAt B pos) v r)

theorem dvd_target {pos : Nat} {w : Nat} (h : 8 ∣ pos) : (8 : Int) ∣ target pos w := by
  unfold target; omega

theorem endofPtrs_neg (rec : Int → Int → Py Int) (S : Seg) (sp : Nat) (h8 : 8 ∣ sp) :
    ∀ (k i : Nat), sp + 8 * (i + k) ≤ S.buf.length →
      endofPtrs rec S (sp : Int) k i (-1) = .ok (-1) := by
  intro k
  induction k with
  | zero => intro i _; rfl
  | succ k ih =>
    intro i hb
    unfold endofPtrs
    dsimp only
    rw [show (sp : Int) + (i : Int) * 8 = ((sp + 8 * i : Nat) : Int) by push_cast; ring,
      readPtr_nat (by omega)]
    simp only [bind, Except.bind]
    split
    · exact ih (i + 1) (by omega)
    · rw [if_pos]
      rw [deref_spec (signed64_mod _ (wordAt_lt _ _))]
      have := dvd_target (pos := sp + 8 * i) (w := wordAt S.buf (sp + 8 * i)) (by omega)
      omega

theorem endofPtrs_spec (rec : Int → Int → Py Int) (S : Seg) (sp : Nat) (h8 : 8 ∣ sp)
    (vs : List Val) :
    ∀ (i cur : Nat), sp + 8 * (i + vs.length) ≤ S.buf.length →
      (∀ j v, vs[j]? = some v →
        EndOK rec S.buf (sp + 8 * (i + j)) v) →
      ∃ r, endofPtrs rec S (sp : Int) vs.length i (cur : Int) = .ok r ∧
        ((r = -1 ∧ ∀ e, ¬ PtrsLay false S.buf (sp + 8 * i) vs cur e) ∨
          ∃ e : Nat, r = e ∧ PtrsLay false S.buf (sp + 8 * i) vs cur e) := by
  induction vs with
  | nil => intro i cur _ _; exact ⟨cur, rfl, .inr ⟨cur, rfl, rfl⟩⟩
  | cons v vs ih =>
    intro i cur hb hrec
    simp only [List.length_cons] at hb
    obtain ⟨hz, hnz⟩ := hrec 0 v (by simp)
    simp only [Nat.add_zero] at hz hnz
    have hrest : ∀ j u, vs[j]? = some u → EndOK rec S.buf (sp + 8 * (i + 1 + j)) u := fun j u hj => by
      have := hrec (j + 1) u (by simpa using hj)
      rw [show i + (j + 1) = i + 1 + j by omega] at this
      exact this
    simp only [List.length_cons]
    unfold endofPtrs
    dsimp only
    rw [show (sp : Int) + (i : Int) * 8 = ((sp + 8 * i : Nat) : Int) by push_cast; ring,
      readPtr_nat (by omega)]
    simp only [bind, Except.bind]
    by_cases h0 : wordAt S.buf (sp + 8 * i) = 0
    · rw [if_pos (by rw [h0]; decide)]
      obtain ⟨r, hr, hcase⟩ := ih (i + 1) cur (by omega) hrest
      refine ⟨r, hr, ?_⟩
      rw [show sp + 8 * (i + 1) = sp + 8 * i + 8 by omega] at hcase
      rcases hcase with ⟨h1, h2⟩ | ⟨e, h1, h2⟩
      · left
        refine ⟨h1, ?_⟩
        rintro e ⟨m, hm, hm2⟩
        rw [h0] at hm
        obtain ⟨_, rfl⟩ := lay_zero hm
        exact h2 e hm2
      · right
        refine ⟨e, h1, cur, ?_, h2⟩
        rw [h0, hz h0]; exact .null _ _
    · rw [if_neg (by rw [signed64_eq_zero (wordAt_lt _ _)]; exact h0)]
      rw [deref_spec (signed64_mod _ (wordAt_lt _ _))]
      by_cases ht : target ((sp + 8 * i : Nat) : Int) (wordAt S.buf (sp + 8 * i)) = cur
      · rw [if_neg (by simpa using ht)]
        obtain ⟨r, hr, hres⟩ := hnz h0
        rw [hr]
        rcases hres with ⟨rfl, hno⟩ | ⟨s, e, rfl, hlay⟩
        · refine ⟨-1, endofPtrs_neg rec S sp h8 _ _ (by omega), .inl ⟨rfl, ?_⟩⟩
          rintro e ⟨m, hm, _⟩
          exact hno _ _ hm
        · have hs := lay_start h0 hlay
          have : s = cur := by
            have : ((s : Nat) : Int) = cur := by rw [← hs, ← ht]
            omega
          subst this
          obtain ⟨r, hr, hcase⟩ := ih (i + 1) e (by omega) hrest
          refine ⟨r, hr, ?_⟩
          rw [show sp + 8 * (i + 1) = sp + 8 * i + 8 by omega] at hcase
          rcases hcase with ⟨h1, h2⟩ | ⟨e', h1, h2⟩
          · left
            refine ⟨h1, ?_⟩
            rintro e' ⟨m, hm, hm2⟩
            have := lay_size hm
            have := lay_size hlay
            have : m = e := by omega
            subst this
            exact h2 e' hm2
          · exact .inr ⟨e', h1, e, hlay, h2⟩
      · rw [if_pos (by simpa using ht)]
        refine ⟨-1, rfl, .inl ⟨rfl, ?_⟩⟩
        rintro e ⟨m, hm, _⟩
        exact ht (lay_start h0 hm)

theorem ptrsLay_size {ae : Bool} {B : List UInt8} {vs : List Val} :
    ∀ {sp s e : Nat}, PtrsLay ae B sp vs s e → e = s + Val.sizes vs := by
  induction vs with
  | nil => intro sp s e h; simp only [PtrsLay] at h; simp [Val.sizes, h]
  | cons v vs ih =>
    intro sp s e ⟨m, h1, h2⟩
    have := lay_size h1
    have := ih h2
    simp only [Val.sizes]; omega

theorem endofItems_spec (rec : Int → Int → Py Int) (S : Seg) (base ds ps : Nat) (h8 : 8 ∣ base)
    (is : List (List UInt8 × List Val)) :
    ∀ (i cur : Nat), base + (i + is.length) * (8 * (ds + ps)) ≤ S.buf.length →
      (∀ (k : Nat) d vs, is[k]? = some (d, vs) → vs.length = ps) →
      (∀ (k : Nat) d vs, is[k]? = some (d, vs) → ∀ (j : Nat) v, vs[j]? = some v →
        EndOK rec S.buf (base + (i + k) * (8 * (ds + ps)) + 8 * ds + 8 * j) v) →
      ∃ r, endofItems rec S (base : Int) (((ds : Int) + ps) * 8) ds ps is.length i (cur : Int) = .ok r ∧
        ((r = -1 ∧ ∀ e, ¬ ItemsLay false S.buf (8 * (ds + ps)) (8 * ds)
            (base + i * (8 * (ds + ps))) is cur e) ∨
          ∃ e : Nat, r = e ∧ ItemsLay false S.buf (8 * (ds + ps)) (8 * ds)
            (base + i * (8 * (ds + ps))) is cur e) := by
  induction is with
  | nil => intro i cur _ _ _; exact ⟨cur, rfl, .inr ⟨cur, rfl, rfl⟩⟩
  | cons x is ih =>
    obtain ⟨d, vs⟩ := x
    intro i cur hb hl hrec
    have hvl := hl 0 d vs (by simp)
    have e1 : (i + 1 + is.length) * (8 * (ds + ps)) = (i + (is.length + 1)) * (8 * (ds + ps)) := by
      ring
    have e2 : (i + (is.length + 1)) * (8 * (ds + ps))
        = i * (8 * (ds + ps)) + 8 * (ds + ps) + is.length * (8 * (ds + ps)) := by ring
    have e3 : 8 ∣ i * (8 * (ds + ps)) := ⟨i * (ds + ps), by ring⟩
    simp only [List.length_cons] at hb
    obtain ⟨r, hr, hcase⟩ := endofPtrs_spec rec S (base + i * (8 * (ds + ps)) + 8 * ds) (by omega) vs 0 cur
      (by omega) (by
        intro j v hj
        have := hrec 0 d vs (by simp) j v hj
        simpa using this)
    simp only [List.length_cons]
    unfold endofItems
    dsimp only
    rw [show (base : Int) + ((ds : Int) + ps) * 8 * (i : Int) + ds * 8
      = ((base + i * (8 * (ds + ps)) + 8 * ds : Nat) : Int) by push_cast; ring]
    rw [hvl] at hr
    rw [Int.toNat_natCast, hr]
    simp only [bind, Except.bind]
    simp only [Nat.mul_zero, Nat.add_zero] at hcase
    rcases hcase with ⟨rfl, hno⟩ | ⟨e, rfl, hlay⟩
    · rw [if_pos rfl]
      refine ⟨-1, rfl, .inl ⟨rfl, ?_⟩⟩
      rintro e ⟨m, hm, _⟩
      exact hno _ hm
    · rw [if_neg (by omega)]
      obtain ⟨r, hr, hcase⟩ := ih (i + 1) e (by omega)
        (fun k d vs hk => hl (k + 1) d vs (by simpa using hk)) (by
          intro k d vs hk j v hj
          have := hrec (k + 1) d vs (by simpa using hk) j v hj
          rw [show i + (k + 1) = i + 1 + k by omega] at this
          exact this)
      refine ⟨r, hr, ?_⟩
      rw [show base + (i + 1) * (8 * (ds + ps)) = base + i * (8 * (ds + ps)) + 8 * (ds + ps) by ring]
        at hcase
      rcases hcase with ⟨h1, h2⟩ | ⟨e', h1, h2⟩
      · left
        refine ⟨h1, ?_⟩
        rintro e' ⟨m, hm, hm2⟩
        have := ptrsLay_size hm
        have := ptrsLay_size hlay
        have : m = e := by omega
        subst this
        exact h2 e' hm2
      · exact .inr ⟨e', h1, e, hlay, h2⟩

/-- The struct body at `t` with its children, laid out contiguously up to `e`. -/
def ObjLay (ae : Bool) (B : Bytes) (t ds ps : Nat) (ptrs : List Val) (e : Nat) : Prop :=
  PtrsLay ae B (t + 8 * ds) ptrs (t + 8 * (ds + ps)) e

theorem endofStruct_spec (rec : Int → Int → Py Int) (S : Seg) {t ds ps : Nat} {ptrs : List Val}
    (h8 : 8 ∣ t) (hb : t + 8 * (ds + ps) ≤ S.buf.length) (hl : ptrs.length = ps)
    (hrec : ∀ j v, ptrs[j]? = some v → EndOK rec S.buf (t + 8 * ds + 8 * j) v) :
    ∃ r, endofStruct rec S (t : Int) ds ps = .ok r ∧
      ((r = -1 ∧ ∀ e, ¬ ObjLay false S.buf t ds ps ptrs e) ∨
        ∃ e : Nat, r = e ∧ ObjLay false S.buf t ds ps ptrs e) := by
  unfold endofStruct
  dsimp only
  rw [show (t : Int) + ds * 8 = ((t + 8 * ds : Nat) : Int) by push_cast; ring,
    show ((t + 8 * ds : Nat) : Int) + (ps : Int) * 8 = ((t + 8 * (ds + ps) : Nat) : Int) by
      push_cast; ring, Int.toNat_natCast, ← hl]
  have := endofPtrs_spec rec S (t + 8 * ds) (by omega) ptrs 0 (t + 8 * (ds + ptrs.length)) (by omega)
    (by intro j v hj; simpa using hrec j v hj)
  simpa [ObjLay] using this

theorem endof_far {S : Seg} {B : Bytes} {f w pos : Nat} {v : Val} {p : Int} (hk : kind w = 2)
    (hpw : p % 2 ^ 64 = (w : Int)) :
    ∃ r, endof S (f + 1) p pos = .ok r ∧ EndRes B pos w v r := by
  have n1 : ¬ (((2 : Nat) : Int) = Ptr.STRUCT) := by decide
  have n2 : ¬ (((2 : Nat) : Int) = Ptr.LIST) := by decide
  have n3 : (((2 : Nat) : Int) = Ptr.FAR) := by decide
  unfold endof
  simp only [Ptr.kind_spec hpw, hk]
  rw [if_neg n1, if_neg n2, if_pos n3]
  refine ⟨-1, rfl, .inl ⟨rfl, ?_⟩⟩
  intro s e h
  cases h with
  | null => exact absurd hk (by decide)
  | empty => exact absurd hk (by decide)
  | struct => omega
  | listPrim => omega
  | listPtr => omega
  | listComp => omega

theorem endof_spec {B : Bytes} {offs : Option (List Nat)} {o : Int} {w : Nat} {v : Val}
    (hden : Den B offs o w v) :
    ∀ (fuel : Nat) (p : Int) (pos : Nat), o = pos → 8 ∣ pos → w ≠ 0 → v.depth ≤ fuel →
      p % 2 ^ 64 = (w : Int) →
      ∃ r, endof (Seg.of B offs) fuel p pos = .ok r ∧ EndRes B pos w v r := by
  have hbuf : (Seg.of B offs).buf = B := rfl
  have okOf : ∀ (f pos : Nat) (v : Val), 8 ∣ pos → v.depth ≤ f →
      Den B offs (pos : Int) (wordAt B pos) v →
      (∀ (fuel : Nat) (p : Int) (q : Nat), (pos : Int) = q → 8 ∣ q → wordAt B pos ≠ 0 →
        v.depth ≤ fuel → p % 2 ^ 64 = ((wordAt B pos : Nat) : Int) →
        ∃ r, endof (Seg.of B offs) fuel p q = .ok r ∧ EndRes B q (wordAt B pos) v r) →
      EndOK (endof (Seg.of B offs) f) B pos v := by
    intro f pos v h8 hf hd ih
    refine ⟨?_, ?_⟩
    · intro h0; rw [h0] at hd; exact den_zero hd
    · intro h0
      exact ih f _ pos rfl h8 h0 hf (signed64_mod _ (wordAt_lt _ _))
  induction hden with
  | null => intro fuel p pos _ _ h; exact absurd rfl h
  | struct o w t data ptrs hw hk ht hb hd hl hp ih =>
    intro fuel p pos ho h8 _ hfuel hpw
    subst ho
    simp only [Val.depth] at hfuel
    obtain ⟨f, rfl⟩ : ∃ f, fuel = f + 1 := ⟨fuel - 1, by omega⟩
    have ht8 : 8 ∣ t := by have := dvd_target (w := w) h8; omega
    have n1 : (((0 : Nat) : Int) = Ptr.STRUCT) := by decide
    unfold endof
    simp only [Ptr.kind_spec hpw, hk, deref_spec hpw, ht, Ptr.dataSize_spec hpw, Ptr.ptrsSize_spec hpw]
    rw [if_pos n1]
    obtain ⟨r, hr, hcase⟩ := endofStruct_spec (endof (Seg.of B offs) f) (Seg.of B offs) ht8 hb hl (by
      intro j v hj
      have := Val.depth_le hj
      exact okOf f _ v (by omega) (by omega) (hp j v hj) (ih j v hj))
    refine ⟨r, hr, ?_⟩
    rcases hcase with ⟨rfl, hno⟩ | ⟨e, rfl, hlay⟩
    · left
      refine ⟨rfl, ?_⟩
      intro s e hlay
      cases hlay with
      | empty _ _ h => cases h
      | struct _ _ _ _ _ _ ends _ _ ht' _ _ _ _ h0 he hp' =>
        have : s = t := by rw [ht] at ht'; omega
        subst this
        apply hno e
        unfold ObjLay
        have := ptrsLay_of_ends ends hp'
        rw [h0, he] at this
        exact this
    · right
      refine ⟨t, e, rfl, ?_⟩
      obtain ⟨ends, e0, e1, e2⟩ := ends_of_ptrsLay hlay
      exact .struct _ _ t e data ptrs ends hw hk ht hb hd hl (by intro h; cases h) e0 e1 e2
  | listPrim o w t hk hg ht hb =>
    intro fuel p pos ho h8 _ hfuel hpw
    subst ho
    simp only [Val.depth] at hfuel
    obtain ⟨f, rfl⟩ : ∃ f, fuel = f + 1 := ⟨fuel - 1, by omega⟩
    have ht8 : 8 ∣ t := by have := dvd_target (w := w) h8; omega
    have n1 : ¬ (((1 : Nat) : Int) = Ptr.STRUCT) := by decide
    have n2 : (((1 : Nat) : Int) = Ptr.LIST) := by decide
    have n3 : ¬ (((listTag w : Nat) : Int) = Ptr.LIST_SIZE_COMPOSITE) := by
      unfold Ptr.LIST_SIZE_COMPOSITE; omega
    have n4 : ¬ (((listTag w : Nat) : Int) = Ptr.LIST_SIZE_PTR) := by
      unfold Ptr.LIST_SIZE_PTR; omega
    unfold endof
    simp only [Ptr.kind_spec hpw, Ptr.listTag_spec hpw, Ptr.listCount_spec hpw, deref_spec hpw, ht, hk]
    rw [if_neg n1, if_pos n2, if_neg n3, if_neg n4]
    have lay := Lay.listPrim (ae := false) (B := B) pos w t hk hg ht hb (by intro h; cases h)
    by_cases h1 : listTag w = 1
    · rw [if_pos (by rw [h1]; decide)]
      refine ⟨_, rfl, .inr ⟨t, _, ?_, lay⟩⟩
      unfold endofListBit
      simp only [Ptr.roundUpToWord_eq]
      rw [h1]; simp only [primLen, wordAlign]; push_cast; omega
    · rw [if_neg (by unfold Ptr.LIST_SIZE_BIT; omega)]
      refine ⟨_, rfl, .inr ⟨t, _, ?_, lay⟩⟩
      unfold endofListPrimitive
      simp only [Ptr.roundUpToWord_eq]
      generalize listTag w = g at *
      interval_cases g <;> simp [Ptr.listItemLength, primLen, wordAlign] at h1 ⊢ <;> omega
  | listPtr o w t items hk hg ht hb hl hp ih =>
    intro fuel p pos ho h8 _ hfuel hpw
    subst ho
    simp only [Val.depth] at hfuel
    obtain ⟨f, rfl⟩ : ∃ f, fuel = f + 1 := ⟨fuel - 1, by omega⟩
    have ht8 : 8 ∣ t := by have := dvd_target (w := w) h8; omega
    have n1 : ¬ (((1 : Nat) : Int) = Ptr.STRUCT) := by decide
    have n2 : (((1 : Nat) : Int) = Ptr.LIST) := by decide
    have n3 : ¬ (((6 : Nat) : Int) = Ptr.LIST_SIZE_COMPOSITE) := by decide
    have n4 : (((6 : Nat) : Int) = Ptr.LIST_SIZE_PTR) := by decide
    unfold endof
    simp only [Ptr.kind_spec hpw, Ptr.listTag_spec hpw, Ptr.listCount_spec hpw, deref_spec hpw, ht, hk, hg]
    rw [if_neg n1, if_pos n2, if_neg n3, if_pos n4]
    unfold endofListPtr
    rw [show (t : Int) + 8 * ((listCount w : Nat) : Int) = ((t + 8 * listCount w : Nat) : Int) by
      push_cast; ring, Int.toNat_natCast, ← hl]
    obtain ⟨r, hr, hcase⟩ := endofPtrs_spec (endof (Seg.of B offs) f) (Seg.of B offs) t ht8 items 0
      (t + 8 * items.length) (by rw [hbuf]; omega) (by
      intro j v hj
      have := Val.depth_le hj
      rw [hbuf, Nat.zero_add]
      exact okOf f _ v (by omega) (by omega) (hp j v hj) (ih j v hj))
    refine ⟨r, hr, ?_⟩
    rw [hbuf] at hcase
    simp only [Nat.mul_zero, Nat.add_zero] at hcase
    rcases hcase with ⟨rfl, hno⟩ | ⟨e, rfl, hlay⟩
    · left
      refine ⟨rfl, ?_⟩
      intro s e hlay
      cases hlay with
      | listPtr _ _ _ _ _ ends _ _ ht' _ _ h0 he hp' =>
        have : s = t := by rw [ht] at ht'; omega
        subst this
        apply hno e
        have := ptrsLay_of_ends ends hp'
        rw [h0, he, ← hl] at this
        exact this
    · right
      refine ⟨t, e, rfl, ?_⟩
      obtain ⟨ends, e0, e1, e2⟩ := ends_of_ptrsLay hlay
      exact .listPtr _ _ t e items ends hk hg ht hb hl (by rw [e0, hl]) e1 e2
  | listComp o w t tag ds ps items hk hg ht hb htag hkt hds hps hn htot hi hp ih =>
    intro fuel p pos ho h8 _ hfuel hpw
    subst ho
    simp only [Val.depth] at hfuel
    obtain ⟨f, rfl⟩ : ∃ f, fuel = f + 1 := ⟨fuel - 1, by omega⟩
    have ht8 : 8 ∣ t := by have := dvd_target (w := w) h8; omega
    have n1 : ¬ (((1 : Nat) : Int) = Ptr.STRUCT) := by decide
    have n2 : (((1 : Nat) : Int) = Ptr.LIST) := by decide
    have n3 : (((7 : Nat) : Int) = Ptr.LIST_SIZE_COMPOSITE) := by decide
    unfold endof
    simp only [Ptr.kind_spec hpw, Ptr.listTag_spec hpw, Ptr.listCount_spec hpw, deref_spec hpw, ht, hk, hg]
    rw [if_neg n1, if_pos n2, if_pos n3]
    rw [readPtr_nat (S := Seg.of B offs) (by rw [hbuf]; omega), hbuf, ← htag]
    have hm : signed64 tag % 2 ^ 64 = (tag : Int) := by
      rw [htag]; exact signed64_mod _ (wordAt_lt _ _)
    simp only [bind, Except.bind]
    rw [Ptr.offset_spec hm, Ptr.dataSize_spec hm, Ptr.ptrsSize_spec hm, ← hds, ← hps, hn]
    unfold endofListComposite
    dsimp only
    have hmul : items.length * (8 * (ds + ps)) = 8 * (items.length * (ds + ps)) := by ring
    rw [show (t : Int) + 8 = ((t + 8 : Nat) : Int) by push_cast; rfl,
      show ((t + 8 : Nat) : Int) + ((ds : Int) + ps) * 8 * (items.length : Int)
        = ((t + 8 + items.length * (8 * (ds + ps)) : Nat) : Int) by push_cast; ring]
    have hil : ∀ (i : Nat) d vs, items[i]? = some (d, vs) → vs.length = ps :=
      fun i d vs hit => (hi i d vs hit).2
    have mk : ∀ e, ItemsLay false B (8 * (ds + ps)) (8 * ds) (t + 8) items
        (t + 8 + items.length * (8 * (ds + ps))) e → Lay false B pos w (.listComp ds ps items) t e := by
      intro e hlay
      obtain ⟨ends, e0, e1, e2, e3⟩ := ends_of_itemsLay hil hlay
      exact .listComp _ _ t e tag ds ps items ends hk hg ht hb htag hkt hds hps hn htot
        (by rw [e0]; omega) e1 e2 hi e3
    by_cases hp0 : ps = 0
    · rw [if_pos (by omega)]
      refine ⟨_, rfl, .inr ⟨t, _, rfl, mk _ ?_⟩⟩
      have key : ∀ (is : List (List UInt8 × List Val)) (base s : Nat),
          (∀ (i : Nat) d vs, is[i]? = some (d, vs) → vs.length = 0) →
          ItemsLay false B (8 * (ds + ps)) (8 * ds) base is s s := by
        intro is
        induction is with
        | nil => intro _ _ _; rfl
        | cons x is ih =>
          obtain ⟨d, vs⟩ := x
          intro base s h
          have := h 0 d vs (by simp)
          obtain rfl : vs = [] := List.length_eq_zero_iff.mp this
          exact ⟨s, rfl, ih _ _ (fun i d vs hi => h (i + 1) d vs (by simpa using hi))⟩
      exact key _ _ _ (fun i d vs h => by rw [hil i d vs h, hp0])
    · rw [if_neg (by omega), Int.toNat_natCast]
      obtain ⟨r, hr, hcase⟩ := endofItems_spec (endof (Seg.of B offs) f) (Seg.of B offs) (t + 8) ds ps
        (by omega) items 0 (t + 8 + items.length * (8 * (ds + ps)))
        (by rw [hbuf, Nat.zero_add]; omega) hil (by
          intro k d vs hk' j v hj
          have := Val.itemDepth_le hk' hj
          rw [hbuf, Nat.zero_add]
          have e3 : 8 ∣ k * (8 * (ds + ps)) := ⟨k * (ds + ps), by ring⟩
          exact okOf f _ v (by omega) (by omega) (hp k d vs hk' j v hj) (ih k d vs hk' j v hj))
      refine ⟨r, hr, ?_⟩
      rw [hbuf] at hcase
      simp only [Nat.zero_mul, Nat.add_zero] at hcase
      rcases hcase with ⟨rfl, hno⟩ | ⟨e, rfl, hlay⟩
      · left
        refine ⟨rfl, ?_⟩
        intro s e hlay
        cases hlay with
        | listComp _ _ _ _ tag' _ _ _ ends _ _ ht' _ htag' _ hds' hps' _ _ h0 he hstep _ hp' =>
          have : s = t := by rw [ht] at ht'; omega
          subst this
          apply hno e
          have := itemsLay_of_ends (base := s + 8) (L := 8 * (ds + ps)) (doff := 8 * ds) ends hstep hil hp'
          rw [h0, he] at this
          rw [hmul, htot]
          exact this
      · exact .inr ⟨t, e, rfl, mk e hlay⟩
  | far o w pos' st tbl v ho how hk hf htbl hst hpos hb hpk hp0 hd ih =>
    intro fuel p pos ho h8 _ hfuel hpw
    have := den_depth_pos hd hp0
    obtain ⟨f, rfl⟩ : ∃ f, fuel = f + 1 := ⟨fuel - 1, by omega⟩
    exact endof_far hk hpw
  | far2 o w pos' st st2 tbl v ho how hk hf htbl hst hpos hb hfk hff hst2 htk ht0 hto hd ih =>
    intro fuel p pos ho h8 _ hfuel hpw
    have := den_depth_pos hd ht0
    obtain ⟨f, rfl⟩ : ∃ f, fuel = f + 1 := ⟨fuel - 1, by omega⟩
    exact endof_far hk hpw

end Capnpy
