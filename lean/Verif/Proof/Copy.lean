import Verif.Model.Copy
import Verif.Proof.Builder
import Verif.Proof.Val
import Mathlib.Tactic.IntervalCases

/-! # The deep copy: main induction -/

namespace Capnpy

open Spec

/-- Postcondition of copying the value `v` into the pointer slot `dst`. -/
structure CopyPost (b b' : Bytes) (dst : Nat) (v : Val) : Prop where
  len : b'.length = b.length + v.size
  al : 8 ∣ b'.length
  frame : ∀ i, i < b.length → ¬ (dst ≤ i ∧ i < dst + 8) → b'[i]? = b[i]?
  lay : ∀ C : Bytes, b'.length ≤ C.length →
    (∀ i, b.length ≤ i → i < b'.length → C[i]? = b'[i]?) →
    Lay true C dst (wordAt b' dst) v b.length b'.length

/-- `rec p o` copies `v` correctly into any slot of any aligned builder. -/
def RecOK (rec : CopyRec) (p o : Int) (v : Val) : Prop :=
  ∀ (b : Bytes) (dst : Nat), dst + 8 ≤ b.length → 8 ∣ dst → 8 ∣ b.length →
    b.length + v.size ≤ 2 ^ 32 →
    ∃ b', rec p o (dst : Int) b = .ok () b' ∧ CopyPost b b' dst v

theorem getElem?_lt {α} {l : List α} {i : Nat} {a : α} (h : l[i]? = some a) : i < l.length := by
  by_contra hc; rw [List.getElem?_eq_none (by omega)] at h; cases h

/-- What the source says about the pointers `vs` stored from position `sp`, and
what the destination slots from `dp` contain before the loop. -/
def PtrsPre (rec : CopyRec) (B b : Bytes) (sp dp i : Nat) (vs : List Val) : Prop :=
  ∀ j v, vs[j]? = some v →
    (wordAt B (sp + 8 * (i + j)) = 0 ∧ v = .null ∧ wordAt b (dp + 8 * (i + j)) = 0) ∨
    (wordAt B (sp + 8 * (i + j)) ≠ 0 ∧
      RecOK rec (signed64 (wordAt B (sp + 8 * (i + j)))) ((sp + 8 * (i + j) : Nat) : Int) v)

/-- Postcondition of copying the pointers `vs` into the slots from `dp + 8*i`. -/
structure PtrsPost (b b' : Bytes) (dp i : Nat) (vs : List Val) : Prop where
  len : b'.length = b.length + Val.sizes vs
  al : 8 ∣ b'.length
  frame : ∀ x, x < b.length → ¬ (dp + 8 * i ≤ x ∧ x < dp + 8 * (i + vs.length)) → b'[x]? = b[x]?
  lay : ∀ C : Bytes, b'.length ≤ C.length →
    (∀ x, b.length ≤ x → x < b'.length → C[x]? = b'[x]?) →
    ∀ j v, vs[j]? = some v →
      Lay true C (dp + 8 * (i + j)) (wordAt b' (dp + 8 * (i + j))) v
        (b.length + Val.sizes (vs.take j)) (b.length + Val.sizes (vs.take (j + 1)))

theorem copyPtrsLoop_spec (rec : CopyRec) (S : Seg) (sp dp : Nat) (vs : List Val) :
    ∀ (i : Nat) (b : Bytes), sp + 8 * (i + vs.length) ≤ S.buf.length →
      dp + 8 * (i + vs.length) ≤ b.length → 8 ∣ dp → 8 ∣ b.length →
      b.length + Val.sizes vs ≤ 2 ^ 32 →
      PtrsPre rec S.buf b sp dp i vs →
      ∃ b', copyPtrsLoop rec S (sp : Int) (dp : Int) vs.length i b = .ok () b' ∧
        PtrsPost b b' dp i vs := by
  induction vs with
  | nil =>
    intro i b _ _ _ hal _ _
    refine ⟨b, rfl, ⟨by simp [Val.sizes], hal, fun _ _ _ => rfl, ?_⟩⟩
    intro C _ _ j v h; simp at h
  | cons v vs ih =>
    intro i b hs hd hdp hal hsz hpre
    simp only [List.length_cons] at hs hd
    simp only [Val.sizes] at hsz
    have e1 : ((sp : Int) + (i : Int) * 8) = ((sp + 8 * (i + 0) : Nat) : Int) := by push_cast; ring
    have e2 : ((dp : Int) + (i : Int) * 8) = ((dp + 8 * (i + 0) : Nat) : Int) := by push_cast; ring
    have hread : readInt64 S.buf ((sp + 8 * (i + 0) : Nat) : Int) =
        .ok (signed64 (wordAt S.buf (sp + 8 * (i + 0)))) := readInt64_nat (by omega)
    -- the first slot
    have first : ∃ b1, (BM.when (signed64 (wordAt S.buf (sp + 8 * (i + 0))) ≠ 0)
          (rec (signed64 (wordAt S.buf (sp + 8 * (i + 0)))) ((sp + 8 * (i + 0) : Nat) : Int)
            ((dp + 8 * (i + 0) : Nat) : Int))) b = .ok () b1 ∧
        CopyPost b b1 (dp + 8 * (i + 0)) v := by
      rcases hpre 0 v (by simp) with ⟨h0, hv, hslot⟩ | ⟨h0, hrec⟩
      · have hz : signed64 (wordAt S.buf (sp + 8 * (i + 0))) = 0 := by
          rw [h0]; decide
        refine ⟨b, by unfold BM.when; rw [if_neg (not_not.mpr hz)]; rfl, ?_⟩
        subst hv
        refine ⟨by simp [Val.size], hal, fun _ _ _ => rfl, ?_⟩
        intro C _ _
        rw [hslot]; exact .null _ _
      · have hz : signed64 (wordAt S.buf (sp + 8 * (i + 0))) ≠ 0 := by
          rw [Ne, signed64_eq_zero (wordAt_lt _ _)]; exact h0
        unfold BM.when; rw [if_pos hz]
        exact hrec b _ (by omega) (by omega) hal (by omega)
    obtain ⟨b1, hb1, post1⟩ := first
    have hlen1 := post1.len
    -- the remaining slots
    have hpre1 : PtrsPre rec S.buf b1 sp dp (i + 1) vs := by
      intro j u hj
      have := hpre (j + 1) u (by simpa using hj)
      rw [show i + 1 + j = i + (j + 1) by omega]
      rcases this with ⟨h0, hv, hslot⟩ | h
      · left
        refine ⟨h0, hv, ?_⟩
        rw [← hslot]
        have hjl := getElem?_lt hj
        apply wordAt_congr
        intro k hk
        exact post1.frame _ (by omega) (by omega)
      · right; exact h
    obtain ⟨b', hb', post'⟩ := ih (i + 1) b1 (by omega) (by omega) hdp post1.al (by omega) hpre1
    have hlen' := post'.len
    refine ⟨b', ?_, ?_, post'.al, ?_, ?_⟩
    · simp only [List.length_cons, copyPtrsLoop]
      rw [e1, e2, BM.bind_ok (BM.lift_ok hread b), BM.bind_ok hb1]
      exact hb'
    · simp only [Val.sizes]; omega
    · intro x hx hnx
      simp only [List.length_cons] at hnx
      rw [post'.frame x (by omega) (by omega), post1.frame x hx (by omega)]
    · intro C hC hag j u hj
      cases j with
      | zero =>
        simp at hj; subst hj
        have hw : wordAt b' (dp + 8 * (i + 0)) = wordAt b1 (dp + 8 * (i + 0)) := by
          apply wordAt_congr
          intro k hk
          exact post'.frame _ (by omega) (by omega)
        rw [hw]
        have := post1.lay C (by omega) (by
          intro x h1 h2
          rw [hag x h1 (by omega), post'.frame x h2 (by omega)])
        simpa [Val.sizes, hlen1] using this
      | succ j =>
        simp at hj
        have := post'.lay C hC (by intro x h1 h2; exact hag x (by omega) h2) j u hj
        rw [show i + 1 + j = i + (j + 1) by omega] at this
        simp only [List.take_succ_cons, Val.sizes]
        rw [hlen1] at this
        rw [← Nat.add_assoc b.length, ← Nat.add_assoc b.length]
        exact this

theorem checkBounds_ok {S : Seg} {size offset : Nat} (h : offset + size ≤ S.buf.length) (b : Bytes) :
    checkBounds S (size : Int) (offset : Int) b = .ok () b := by
  unfold checkBounds
  rw [if_neg (by omega)]; rfl

theorem copyManyPtrs_spec (rec : CopyRec) (S : Seg) (sp dp : Nat) (vs : List Val)
    (b : Bytes) (hs : sp + 8 * vs.length ≤ S.buf.length)
    (hd : dp + 8 * vs.length ≤ b.length) (hdp : 8 ∣ dp) (hal : 8 ∣ b.length)
    (hsz : b.length + Val.sizes vs ≤ 2 ^ 32)
    (hpre : PtrsPre rec S.buf b sp dp 0 vs) :
    ∃ b', copyManyPtrs rec (vs.length : Int) S (sp : Int) (dp : Int) b = .ok () b' ∧
      PtrsPost b b' dp 0 vs := by
  obtain ⟨b', hb', post⟩ := copyPtrsLoop_spec rec S sp dp vs 0 b (by omega) (by omega) hdp hal hsz hpre
  refine ⟨b', ?_, post⟩
  unfold copyManyPtrs
  rw [show ((vs.length : Int) * 8) = ((8 * vs.length : Nat) : Int) by push_cast; ring]
  rw [BM.bind_ok (checkBounds_ok hs b)]
  simpa using hb'

/-! ## Words and zeros -/

theorem leNat_zeros (l : Bytes) (h : ∀ x ∈ l, x = 0) : leNat l = 0 := by
  induction l with
  | nil => rfl
  | cons x xs ih =>
    have h1 := h x (by simp)
    have h2 := ih (fun y hy => h y (by simp [hy]))
    subst h1
    simp [leNat, h2]

theorem wordAt_zero {b : Bytes} {pos : Nat} (h : ∀ k, k < 8 → b[pos + k]? = some 0) :
    wordAt b pos = 0 := by
  unfold wordAt
  apply leNat_zeros
  intro x hx
  obtain ⟨k, hk⟩ := List.mem_iff_getElem?.mp hx
  rw [slice_getElem?] at hk
  split at hk
  · rw [h k ‹_›] at hk; exact (Option.some.inj hk).symm
  · cases hk

theorem den_zero {B : Bytes} {offs : Option (List Nat)} {o : Int} {v : Val}
    (h : Den B offs o 0 v) : v = .null := by
  generalize hw : 0 = w at h
  cases h with
  | null => rfl
  | struct => exact absurd hw.symm ‹_›
  | listPrim => subst hw; exact absurd ‹kind 0 = 1› (by decide)
  | listPtr => subst hw; exact absurd ‹kind 0 = 1› (by decide)
  | listComp => subst hw; exact absurd ‹kind 0 = 1› (by decide)
  | far => subst hw; exact absurd ‹kind 0 = 2› (by decide)
  | far2 => subst hw; exact absurd ‹kind 0 = 2› (by decide)

theorem deref_spec {p o : Int} {w : Nat} (h : p % 2 ^ 64 = (w : Int)) :
    Ptr.deref p o = target o w := by
  unfold Ptr.deref target; rw [Ptr.offset_spec h]; ring

/-- The source describes the pointers `vs` from `sp`; nonzero ones are copied by
`rec`. -/
def SrcPtrs (rec : CopyRec) (B : Bytes) (sp : Nat) (vs : List Val) : Prop :=
  ∀ j v, vs[j]? = some v →
    (wordAt B (sp + 8 * j) = 0 ∧ v = .null) ∨
    (wordAt B (sp + 8 * j) ≠ 0 ∧
      RecOK rec (signed64 (wordAt B (sp + 8 * j))) ((sp + 8 * j : Nat) : Int) v)

theorem SrcPtrs.pre {rec : CopyRec} {B b : Bytes} {sp dp : Nat} {vs : List Val}
    (h : SrcPtrs rec B sp vs)
    (hz : ∀ j, j < vs.length → wordAt B (sp + 8 * j) = 0 → wordAt b (dp + 8 * j) = 0) :
    PtrsPre rec B b sp dp 0 vs := by
  intro j v hj
  simp only [Nat.zero_add]
  rcases h j v hj with ⟨h0, hv⟩ | h1
  · exact .inl ⟨h0, hv, hz j (getElem?_lt hj) h0⟩
  · exact .inr h1

/-! ## Structs -/

theorem copyStruct_spec (rec : CopyRec) (S : Seg) {p o : Int} {w t : Nat} {ptrs : List Val}
    (hpw : p % 2 ^ 64 = (w : Int)) (ht : target o w = t)
    (hb : t + 8 * (dataSize w + ptrsSize w) ≤ S.buf.length)
    (hl : ptrs.length = ptrsSize w) (hfit : ptrsSize w < 2 ^ 15)
    (hsrc : SrcPtrs rec S.buf (t + 8 * dataSize w) ptrs) :
    RecOK (copyStruct rec S) p o (.struct (slice S.buf t (8 * dataSize w)) ptrs) := by
  intro b dst hdst hd8 hb8 hsz
  have hdl : (slice S.buf t (8 * dataSize w)).length = 8 * dataSize w :=
    slice_length_of_le (by omega)
  have hds : dataSize w < 2 ^ 16 := by unfold dataSize; omega
  simp only [Val.size, hdl] at hsz
  unfold copyStruct
  simp only [deref_spec hpw, ht, Ptr.dataSize_spec hpw, Ptr.ptrsSize_spec hpw]
  by_cases hz : dataSize w + ptrsSize w = 0
  · -- empty struct
    rw [if_pos (by omega)]
    have hp0 : ptrs = [] := List.length_eq_zero_iff.mp (by omega)
    have hd0 : dataSize w = 0 := by omega
    have hw' : Ptr.newStruct (-1) 0 0 = ((emptyStructWord : Nat) : Int) := by
      have := newStruct_word (-1) 0 0 (by omega)
      simpa [emptyStructWord] using this
    rw [hw', writeInt64_nat (by decide) hdst]
    refine ⟨_, rfl, ?_⟩
    have h8 : (leBytes 8 emptyStructWord).length = 8 := leBytes_length _ _
    have hlen : (overwrite b dst (leBytes 8 emptyStructWord)).length = b.length :=
      overwrite_length (by omega)
    subst hp0
    have hs0 : slice S.buf t (8 * dataSize w) = [] := by rw [hd0]; simp [slice]
    rw [hs0]
    refine ⟨?_, by rw [hlen]; exact hb8, ?_, ?_⟩
    · rw [hlen]; simp [Val.size, Val.sizes]
    · intro i hi hni
      rw [overwrite_getElem? (by omega), h8]
      split
      · rfl
      · rw [if_neg (by omega)]
    · intro C _ _
      rw [wordAt_overwrite (by decide) hdst, hlen]
      exact .empty _ _ rfl
  · rw [if_neg (by omega)]
    obtain ⟨b1, hb1, post1⟩ := allocStruct_spec (b := b) (pos := dst) (ds := dataSize w)
      (ps := ptrsSize w) hdst hds hfit
    rw [BM.bind_ok hb1]
    have hl1 := post1.len
    have e8 : ((dataSize w : Nat) : Int) * 8 = ((8 * dataSize w : Nat) : Int) := by push_cast; ring
    rw [e8, BM.bind_ok (checkBounds_ok (by omega) b1),
      BM.bind_ok (writeSlice_nat (i := b.length) (by omega) (by omega))]
    rw [← Int.natCast_add, ← Int.natCast_add, ← hl]
    generalize hb2 : overwrite b1 b.length (slice S.buf t (8 * dataSize w)) = b2
    have hov : b.length + (slice S.buf t (8 * dataSize w)).length ≤ b1.length := by omega
    have hl2 : b2.length = b1.length := by rw [← hb2, overwrite_length hov]
    have hg2 : ∀ x, ¬ (b.length ≤ x ∧ x < b.length + 8 * dataSize w) → b2[x]? = b1[x]? := by
      intro x hx
      rw [← hb2, overwrite_getElem? hov, hdl]
      split
      · rfl
      · rw [if_neg (by omega)]
    obtain ⟨b3, hb3, post3⟩ := copyManyPtrs_spec rec S (t + 8 * dataSize w)
      (b.length + 8 * dataSize w) ptrs b2 (by omega) (by omega) (by omega) (by omega) (by omega)
      (hsrc.pre (by
        intro j hj _
        apply wordAt_zero
        intro k hk
        rw [hg2 _ (by omega)]
        exact post1.zero _ (by omega) (by omega)))
    have hl3 := post3.len
    refine ⟨b3, hb3, ?_, post3.al, ?_, ?_⟩
    · simp only [Val.size, hdl]; omega
    · intro i hi hni
      rw [post3.frame i (by omega) (by omega), hg2 i (by omega), post1.frame i hi hni]
    · intro C hC hag
      have hword : wordAt b3 dst = structWord (((b.length : Int) - (dst + 8)) / 8)
          (dataSize w) (ptrsSize w) := by
        rw [← post1.word]
        apply wordAt_congr
        intro k hk
        rw [post3.frame _ (by omega) (by omega), hg2 _ (by omega)]
      rw [hword]
      have hps16 : ptrsSize w < 2 ^ 16 := by omega
      refine .struct dst _ b.length _ _ _ (fun j => b2.length + Val.sizes (ptrs.take j))
        ?_ (kind_structWord _ _ _) (target_struct hb8 hd8 hdst (by omega)) ?_ ?_ ?_ ?_ ?_ ?_ ?_
      · intro h0
        have h1 := dataSize_structWord (((b.length : Int) - (dst + 8)) / 8) _ (ptrsSize w) hds
        have h2 := ptrsSize_structWord (((b.length : Int) - (dst + 8)) / 8) _ _ hds hps16
        rw [h0] at h1 h2
        have : dataSize 0 = 0 := by decide
        have : ptrsSize 0 = 0 := by decide
        omega
      · rw [dataSize_structWord _ _ _ hds, ptrsSize_structWord _ _ _ hds hps16]; omega
      · rw [dataSize_structWord _ _ _ hds]
        have h4 := overwrite_slice hov
        rw [hdl, hb2] at h4
        rw [← h4]
        apply slice_congr
        intro k hk
        rw [hag _ (by omega) (by omega), post3.frame _ (by omega) (by omega)]
      · rw [ptrsSize_structWord _ _ _ hds hps16]; exact hl
      · intro _
        rw [dataSize_structWord _ _ _ hds, ptrsSize_structWord _ _ _ hds hps16]; omega
      · rw [dataSize_structWord _ _ _ hds, ptrsSize_structWord _ _ _ hds hps16]
        simp [Val.sizes]; omega
      · simp; omega
      · rw [dataSize_structWord _ _ _ hds]
        intro j v hj
        have hjl := getElem?_lt hj
        have := post3.lay C hC (by intro x h1 h2; exact hag x (by omega) h2) j v hj
        simp only [Nat.zero_add] at this
        have hwc : wordAt C (b.length + 8 * dataSize w + 8 * j)
            = wordAt b3 (b.length + 8 * dataSize w + 8 * j) := by
          apply wordAt_congr
          intro k hk
          exact hag _ (by omega) (by omega)
        rw [hwc]
        exact this

/-! ## Lists -/

theorem bodyLength_eq {tag count : Nat} (h : tag ≤ 5) :
    (if ((tag : Nat) : Int) = Ptr.LIST_SIZE_BIT then (((count : Nat) : Int) + 8 - 1) / 8
      else (count : Int) * Ptr.listItemLength tag) = ((primLen tag count : Nat) : Int) := by
  unfold Ptr.LIST_SIZE_BIT Ptr.listItemLength primLen
  interval_cases tag <;> simp <;> omega

theorem copyListPrimitive_spec (S : Seg) {p o : Int} {w t : Nat}
    (hpw : p % 2 ^ 64 = (w : Int)) (ht : target o w = t) (hg : listTag w ≤ 5)
    (hb : t + primLen (listTag w) (listCount w) ≤ S.buf.length)
    (hfit : listCount w < 2 ^ 28) :
    RecOK (copyListPrimitive S) p o (.listPrim (listTag w) (listCount w)
        (slice S.buf t (primLen (listTag w) (listCount w)))) := by
  intro b dst hdst hd8 hb8 hsz
  simp only [Val.size] at hsz
  unfold copyListPrimitive
  simp only [deref_spec hpw, ht, Ptr.listTag_spec hpw, Ptr.listCount_spec hpw, bodyLength_eq hg]
  generalize htag : listTag w = tag at *
  generalize hcount : listCount w = count at *
  obtain ⟨b1, hb1, post1⟩ := allocList_spec (b := b) (pos := dst) (tag := tag) (n := count)
    (body := primLen tag count) hdst (by omega) hfit
  have hl1 := post1.len
  have hwa : primLen tag count ≤ wordAlign (primLen tag count) := by unfold wordAlign; omega
  have hwa8 : 8 ∣ wordAlign (primLen tag count) := by unfold wordAlign; omega
  rw [BM.bind_ok hb1, BM.bind_ok (checkBounds_ok hb b1),
    writeSlice_nat (i := b.length) (by omega) hb]
  have hdl : (slice S.buf t (primLen tag count)).length = primLen tag count :=
    slice_length_of_le hb
  have hov : b.length + (slice S.buf t (primLen tag count)).length ≤ b1.length := by omega
  generalize hb2 : overwrite b1 b.length (slice S.buf t (primLen tag count)) = b2
  have hl2 : b2.length = b1.length := by rw [← hb2, overwrite_length hov]
  have hg2 : ∀ x, ¬ (b.length ≤ x ∧ x < b.length + primLen tag count) → b2[x]? = b1[x]? := by
    intro x hx
    rw [← hb2, overwrite_getElem? hov, hdl]
    split
    · rfl
    · rw [if_neg (by omega)]
  refine ⟨b2, rfl, ?_, by omega, ?_, ?_⟩
  · simp only [Val.size]; omega
  · intro i hi hni
    rw [hg2 i (by omega), post1.frame i hi hni]
  · intro C hC hag
    have hword : wordAt b2 dst = listWord (((b.length : Int) - (dst + 8)) / 8) tag count := by
      rw [← post1.word]
      apply wordAt_congr
      intro k hk
      rw [hg2 _ (by omega)]
    rw [hword]
    have h1 := listTag_listWord (((b.length : Int) - (dst + 8)) / 8) tag count (by omega)
    have h2 := listCount_listWord (((b.length : Int) - (dst + 8)) / 8) tag count (by omega) (by omega)
    have hs : slice S.buf t (primLen tag count) = slice C b.length (primLen tag count) := by
      have h4 := overwrite_slice hov
      rw [hdl, hb2] at h4
      rw [← h4]
      apply slice_congr
      intro k hk
      rw [hag _ (by omega) (by omega)]
    have key := Lay.listPrim (ae := true) (B := C) dst
      (listWord (((b.length : Int) - (dst + 8)) / 8) tag count) b.length
      (kind_listWord _ _ _) (by rw [h1]; exact hg) (target_list hb8 hd8 hdst (by omega))
      (by rw [h1, h2]; omega) (by
        intro _ k hk1 hk2
        rw [h1, h2] at hk1 hk2
        rw [hag _ (by omega) (by omega), hg2 _ (by omega)]
        exact post1.zero _ (by omega) (by omega))
    rw [h1, h2, ← hs] at key
    rw [show b2.length = b.length + wordAlign (primLen tag count) by omega]
    exact key

theorem copyListPtr_spec (rec : CopyRec) (S : Seg) {p o : Int} {w t : Nat} {items : List Val}
    (hpw : p % 2 ^ 64 = (w : Int)) (ht : target o w = t)
    (hb : t + 8 * listCount w ≤ S.buf.length)
    (hl : items.length = listCount w) (hfit : listCount w < 2 ^ 28)
    (hsrc : SrcPtrs rec S.buf t items) :
    RecOK (copyListPtr rec S) p o (.listPtr items) := by
  intro b dst hdst hd8 hb8 hsz
  simp only [Val.size] at hsz
  unfold copyListPtr
  simp only [deref_spec hpw, ht, Ptr.listCount_spec hpw]
  have e8 : ((listCount w : Nat) : Int) * 8 = ((8 * listCount w : Nat) : Int) := by push_cast; ring
  rw [e8]
  obtain ⟨b1, hb1, post1⟩ := allocList_spec (b := b) (pos := dst) (tag := 6) (n := listCount w)
    (body := 8 * listCount w) hdst (by omega) hfit
  have hwa : wordAlign (8 * listCount w) = 8 * listCount w := by unfold wordAlign; omega
  rw [hwa] at post1
  have hl1 := post1.len
  rw [BM.bind_ok (show allocList (dst : Int) Ptr.LIST_SIZE_PTR _ _ b = _ from hb1),
    BM.bind_ok (checkBounds_ok hb b1), ← hl]
  obtain ⟨b3, hb3, post3⟩ := copyManyPtrs_spec rec S t b.length items b1 (by omega) (by omega)
    hb8 (by omega) (by omega)
    (hsrc.pre (by
      intro j hj _
      apply wordAt_zero
      intro k hk
      exact post1.zero _ (by omega) (by omega)))
  have hl3 := post3.len
  refine ⟨b3, hb3, ?_, post3.al, ?_, ?_⟩
  · simp only [Val.size]; omega
  · intro i hi hni
    rw [post3.frame i (by omega) (by omega), post1.frame i hi hni]
  · intro C hC hag
    have hword : wordAt b3 dst = listWord (((b.length : Int) - (dst + 8)) / 8) 6 (listCount w) := by
      rw [← post1.word]
      apply wordAt_congr
      intro k hk
      rw [post3.frame _ (by omega) (by omega)]
    rw [hword]
    have h1 := listTag_listWord (((b.length : Int) - (dst + 8)) / 8) 6 (listCount w) (by omega)
    have h2 := listCount_listWord (((b.length : Int) - (dst + 8)) / 8) 6 (listCount w) (by omega)
      (by omega)
    refine .listPtr dst _ b.length _ _ (fun j => b1.length + Val.sizes (items.take j))
      (kind_listWord _ _ _) h1 (target_list hb8 hd8 hdst (by omega)) ?_ ?_ ?_ ?_ ?_
    · rw [h2]; omega
    · rw [h2]; exact hl
    · rw [h2]; simp [Val.sizes]; omega
    · simp; omega
    · intro j v hj
      have hjl := getElem?_lt hj
      have := post3.lay C hC (by intro x h1 h2; exact hag x (by omega) h2) j v hj
      simp only [Nat.zero_add] at this
      have hwc : wordAt C (b.length + 8 * j) = wordAt b3 (b.length + 8 * j) := by
        apply wordAt_congr
        intro k hk
        exact hag _ (by omega) (by omega)
      rw [hwc]
      exact this

/-! ## Composite lists -/

theorem mul_step {m n L : Nat} (h : m < n) : m * L + L ≤ n * L := by
  have : (m + 1) * L ≤ n * L := Nat.mul_le_mul_right _ h
  rw [Nat.add_mul, Nat.one_mul] at this
  exact this

/-- What the source says about the items `is`, the first of which has index `i`,
and what the destination slots contain before the loop. -/
def ItemsPre (rec : CopyRec) (B b : Bytes) (sp dp ds ps i : Nat)
    (is : List (List UInt8 × List Val)) : Prop :=
  ∀ q d vs, is[q]? = some (d, vs) → vs.length = ps ∧
    SrcPtrs rec B (sp + 8 + (i + q) * (8 * (ds + ps)) + 8 * ds) vs ∧
    ∀ j, j < ps → wordAt B (sp + 8 + (i + q) * (8 * (ds + ps)) + 8 * ds + 8 * j) = 0 →
      wordAt b (dp + 8 + (i + q) * (8 * (ds + ps)) + 8 * ds + 8 * j) = 0

/-- Postcondition of copying the pointers of the items `is`. -/
structure ItemsPost (b b' : Bytes) (dp ds ps i : Nat) (is : List (List UInt8 × List Val)) :
    Prop where
  len : b'.length = b.length + Val.itemSizes is
  al : 8 ∣ b'.length
  frame : ∀ x, x < b.length →
    (∀ q, q < is.length → ¬ (dp + 8 + (i + q) * (8 * (ds + ps)) + 8 * ds ≤ x ∧
      x < dp + 8 + (i + q) * (8 * (ds + ps)) + 8 * ds + 8 * ps)) → b'[x]? = b[x]?
  lay : ∀ C : Bytes, b'.length ≤ C.length →
    (∀ x, b.length ≤ x → x < b'.length → C[x]? = b'[x]?) →
    ∀ (q : Nat) d vs, is[q]? = some (d, vs) → ∀ (j : Nat) v, vs[j]? = some v →
      Lay true C (dp + 8 + (i + q) * (8 * (ds + ps)) + 8 * ds + 8 * j)
        (wordAt b' (dp + 8 + (i + q) * (8 * (ds + ps)) + 8 * ds + 8 * j)) v
        (b.length + Val.itemSizes (is.take q) + Val.sizes (vs.take j))
        (b.length + Val.itemSizes (is.take q) + Val.sizes (vs.take (j + 1)))

theorem copyItemsLoop_spec (rec : CopyRec) (S : Seg) (sp dp ds ps : Nat)
    (is : List (List UInt8 × List Val)) :
    ∀ (i : Nat) (b : Bytes), sp + 8 + (i + is.length) * (8 * (ds + ps)) ≤ S.buf.length →
      dp + 8 + (i + is.length) * (8 * (ds + ps)) ≤ b.length → 8 ∣ dp → 8 ∣ b.length →
      b.length + Val.itemSizes is ≤ 2 ^ 32 →
      ItemsPre rec S.buf b sp dp ds ps i is →
      ∃ b', copyItemsLoop rec S (sp : Int) (dp : Int) (ds : Int) (ps : Int)
          (((ds : Int) + ps) * 8) is.length i b = .ok () b' ∧
        ItemsPost b b' dp ds ps i is := by
  induction is with
  | nil =>
    intro i b _ _ _ hal _ _
    refine ⟨b, rfl, ⟨by simp [Val.itemSizes], hal, fun _ _ _ => rfl, ?_⟩⟩
    intro C _ _ q d vs h; simp at h
  | cons it is ih =>
    obtain ⟨d, vs⟩ := it
    intro i b hs hd hdp hal hsz hpre
    simp only [List.length_cons] at hs hd
    simp only [Val.itemSizes] at hsz
    obtain ⟨hvl, hsrc, hzero⟩ := hpre 0 d vs (by simp)
    simp only [Nat.add_zero] at hsrc hzero
    have hL : 8 ∣ i * (8 * (ds + ps)) := ⟨i * (ds + ps), by ring⟩
    have hst := mul_step (L := 8 * (ds + ps)) (show i < i + (is.length + 1) by omega)
    have e1 : ((sp : Int) + (8 + ((ds : Int) + ps) * 8 * (i : Int) + (ds : Int) * 8))
        = ((sp + 8 + i * (8 * (ds + ps)) + 8 * ds : Nat) : Int) := by push_cast; ring
    have e2 : ((dp : Int) + (8 + ((ds : Int) + ps) * 8 * (i : Int) + (ds : Int) * 8))
        = ((dp + 8 + i * (8 * (ds + ps)) + 8 * ds : Nat) : Int) := by push_cast; ring
    obtain ⟨b1, hb1, post1⟩ := copyManyPtrs_spec rec S
      (sp + 8 + i * (8 * (ds + ps)) + 8 * ds) (dp + 8 + i * (8 * (ds + ps)) + 8 * ds) vs b
      (by omega) (by omega) (by omega) hal (by omega)
      (hsrc.pre (by intro j hj h0; exact hzero j (by omega) h0))
    have hl1 := post1.len
    have hf1 := post1.frame
    rw [hvl] at hf1
    simp only [Nat.zero_add, Nat.mul_zero, Nat.add_zero] at hf1
    have hpre1 : ItemsPre rec S.buf b1 sp dp ds ps (i + 1) is := by
      intro q d' vs' hq
      have := hpre (q + 1) d' vs' (by simpa using hq)
      rw [show i + 1 + q = i + (q + 1) by omega]
      refine ⟨this.1, this.2.1, ?_⟩
      intro j hj h0
      rw [← this.2.2 j hj h0]
      have hql := getElem?_lt hq
      have hm := mul_step (L := 8 * (ds + ps)) (show i < i + (q + 1) by omega)
      have hm2 := mul_step (L := 8 * (ds + ps)) (show i + (q + 1) < i + (is.length + 1) by omega)
      apply wordAt_congr
      intro k hk
      exact hf1 _ (by omega) (by omega)
    obtain ⟨b', hb', post'⟩ := ih (i + 1) b1
      (by rw [show i + 1 + is.length = i + (is.length + 1) by omega]; exact hs)
      (by rw [show i + 1 + is.length = i + (is.length + 1) by omega]; omega) hdp post1.al
      (by omega) hpre1
    have hl' := post'.len
    -- the slots of the first item are not touched afterwards
    have hkeep : ∀ x, x < b1.length → x < dp + 8 + i * (8 * (ds + ps)) + 8 * (ds + ps) ∨ b.length ≤ x →
        b'[x]? = b1[x]? := by
      intro x hx hx2
      apply post'.frame x hx
      intro q hq
      have hm := mul_step (L := 8 * (ds + ps)) (show i < i + 1 + q by omega)
      have hm2 := mul_step (L := 8 * (ds + ps)) (show i + 1 + q < i + (is.length + 1) by omega)
      omega
    refine ⟨b', ?_, ?_, post'.al, ?_, ?_⟩
    · simp only [List.length_cons, copyItemsLoop]
      rw [hvl] at hb1
      rw [e1, e2, BM.bind_ok hb1]
      exact hb'
    · simp only [Val.itemSizes]; omega
    · intro x hx hnx
      simp only [List.length_cons] at hnx
      rw [post'.frame x (by omega) (by
        intro q hq
        have := hnx (q + 1) (by omega)
        rw [show i + 1 + q = i + (q + 1) by omega]; exact this)]
      apply hf1 x hx
      have := hnx 0 (by omega)
      simpa using this
    · intro C hC hag q d' vs' hq j v hj
      cases q with
      | zero =>
        simp at hq; obtain ⟨rfl, rfl⟩ := hq
        have hjl := getElem?_lt hj
        simp only [Nat.add_zero]
        have hw : wordAt b' (dp + 8 + i * (8 * (ds + ps)) + 8 * ds + 8 * j)
            = wordAt b1 (dp + 8 + i * (8 * (ds + ps)) + 8 * ds + 8 * j) := by
          apply wordAt_congr
          intro k hk
          exact hkeep _ (by omega) (by omega)
        rw [hw]
        have := post1.lay C (by omega) (by
          intro x h1 h2
          rw [hag x h1 (by omega), hkeep x h2 (.inr h1)]) j v hj
        simp only [Nat.zero_add] at this
        simpa [Val.itemSizes] using this
      | succ q =>
        simp at hq
        have := post'.lay C hC (by intro x h1 h2; exact hag x (by omega) h2) q d' vs' hq j v hj
        rw [show i + 1 + q = i + (q + 1) by omega, hl1] at this
        simp only [List.take_succ_cons, Val.itemSizes]
        rw [← Nat.add_assoc b.length]
        exact this

theorem copyListComposite_spec (rec : CopyRec) (S : Seg) {p o : Int} {w t tag ds ps : Nat}
    {items : List (List UInt8 × List Val)}
    (hpw : p % 2 ^ 64 = (w : Int)) (ht : target o w = t)
    (hb : t + 8 + 8 * listCount w ≤ S.buf.length)
    (htag : tag = wordAt S.buf t) (hkt : kind tag = 0)
    (hds : ds = dataSize tag) (hps : ps = ptrsSize tag)
    (hn : offset tag = items.length) (htot : items.length * (ds + ps) = listCount w)
    (hi : ∀ (i : Nat) d vs, items[i]? = some (d, vs) →
        d = slice S.buf (t + 8 + i * (8 * (ds + ps))) (8 * ds) ∧ vs.length = ps)
    (hfit : listCount w < 2 ^ 28)
    (hsrc : ∀ (i : Nat) d vs, items[i]? = some (d, vs) →
        SrcPtrs rec S.buf (t + 8 + i * (8 * (ds + ps)) + 8 * ds) vs) :
    RecOK (copyListComposite rec S) p o (.listComp ds ps items) := by
  intro b dst hdst hd8 hb8 hsz
  simp only [Val.size] at hsz
  have htot8 : items.length * (8 * (ds + ps)) = 8 * listCount w := by rw [← htot]; ring
  rw [htot8] at hsz
  unfold copyListComposite
  simp only [deref_spec hpw, ht, Ptr.listCount_spec hpw]
  have e8 : (((listCount w : Nat) : Int) + 1) * 8 = ((8 + 8 * listCount w : Nat) : Int) := by
    push_cast; ring
  rw [e8, BM.bind_ok (checkBounds_ok (by omega) b),
    BM.bind_ok (BM.lift_ok (readInt64_nat (by omega)) b)]
  rw [← htag]
  have hptag : signed64 tag % 2 ^ 64 = (tag : Int) := signed64_mod _ (by rw [htag]; exact wordAt_lt _ _)
  simp only [Ptr.offset_spec hptag, Ptr.dataSize_spec hptag, Ptr.ptrsSize_spec hptag, hn, ← hds, ← hps]
  obtain ⟨b1, hb1, post1⟩ := allocList_spec (b := b) (pos := dst) (tag := 7) (n := listCount w)
    (body := 8 + 8 * listCount w) hdst (by omega) hfit
  have hwa : wordAlign (8 + 8 * listCount w) = 8 + 8 * listCount w := by unfold wordAlign; omega
  rw [hwa] at post1
  have hl1 := post1.len
  rw [BM.bind_ok (show allocList (dst : Int) Ptr.LIST_SIZE_COMPOSITE _ _ b = _ from hb1),
    BM.bind_ok (writeSlice_nat (i := b.length) (by omega) (by omega))]
  have hdl : (slice S.buf t (8 + 8 * listCount w)).length = 8 + 8 * listCount w :=
    slice_length_of_le (by omega)
  have hov : b.length + (slice S.buf t (8 + 8 * listCount w)).length ≤ b1.length := by omega
  generalize hb2 : overwrite b1 b.length (slice S.buf t (8 + 8 * listCount w)) = b2
  have hl2 : b2.length = b1.length := by rw [← hb2, overwrite_length hov]
  have hlo2 : ∀ x, x < b.length → b2[x]? = b1[x]? := by
    intro x hx
    rw [← hb2, overwrite_getElem? hov, if_pos hx]
  have hbody : ∀ k, k < 8 + 8 * listCount w → b2[b.length + k]? = S.buf[t + k]? := by
    intro k hk
    rw [← hb2, overwrite_getElem? hov, hdl, if_neg (by omega), if_pos (by omega), slice_getElem?,
      Nat.add_sub_cancel_left, if_pos hk]
  obtain ⟨b3, hb3, post3⟩ := copyItemsLoop_spec rec S t b.length ds ps items 0 b2
    (by rw [Nat.zero_add]; omega) (by rw [Nat.zero_add]; omega) hb8 (by omega) (by omega)
    (by
      intro q d vs hq
      rw [Nat.zero_add]
      refine ⟨(hi q d vs hq).2, hsrc q d vs hq, ?_⟩
      intro j hj h0
      rw [← h0]
      have hm := mul_step (L := 8 * (ds + ps)) (getElem?_lt hq)
      apply wordAt_congr
      intro k hk
      have := hbody (8 + q * (8 * (ds + ps)) + 8 * ds + 8 * j + k) (by omega)
      rw [show b.length + 8 + q * (8 * (ds + ps)) + 8 * ds + 8 * j + k
        = b.length + (8 + q * (8 * (ds + ps)) + 8 * ds + 8 * j + k) by omega,
        show t + 8 + q * (8 * (ds + ps)) + 8 * ds + 8 * j + k
        = t + (8 + q * (8 * (ds + ps)) + 8 * ds + 8 * j + k) by omega]
      exact this)
  have hl3 := post3.len
  have hf3 := post3.frame
  simp only [Nat.zero_add] at hf3
  have hlow3 : ∀ x, x < b.length + 8 → b3[x]? = b2[x]? := by
    intro x hx
    apply hf3 x (by omega)
    intro q hq; omega
  refine ⟨b3, by simpa using hb3, ?_, post3.al, ?_, ?_⟩
  · simp only [Val.size]; omega
  · intro i hi' hni
    rw [hlow3 i (by omega), hlo2 i hi', post1.frame i hi' hni]
  · intro C hC hag
    have hword : wordAt b3 dst = listWord (((b.length : Int) - (dst + 8)) / 8) 7 (listCount w) := by
      rw [← post1.word]
      apply wordAt_congr
      intro k hk
      rw [hlow3 _ (by omega), hlo2 _ (by omega)]
    rw [hword]
    have h1 := listTag_listWord (((b.length : Int) - (dst + 8)) / 8) 7 (listCount w) (by omega)
    have h2 := listCount_listWord (((b.length : Int) - (dst + 8)) / 8) 7 (listCount w) (by omega)
      (by omega)
    have htagC : tag = wordAt C b.length := by
      rw [htag]
      apply wordAt_congr
      intro k hk
      rw [hag _ (by omega) (by omega), hlow3 _ (by omega), hbody k (by omega)]
    refine .listComp dst _ b.length _ tag ds ps items
      (fun i j => if h : i < items.length then b2.length + Val.itemSizes (items.take i)
          + Val.sizes (items[i].2.take j) else b2.length + Val.itemSizes items)
      (kind_listWord _ _ _) h1 (target_list hb8 hd8 hdst (by omega)) ?_ htagC hkt hds hps hn ?_
      ?_ ?_ ?_ ?_ ?_
    · rw [h2]; omega
    · rw [h2]; exact htot
    · rw [h2]
      split
      · simp [Val.sizes, Val.itemSizes]; omega
      · have : items = [] := List.length_eq_zero_iff.mp (by omega)
        subst this
        simp [Val.itemSizes]; omega
    · rw [dif_neg (by omega)]; omega
    · intro i
      by_cases h : i < items.length
      · rw [dif_pos h]
        have hg : items[i]? = some (items[i].1, items[i].2) := by rw [List.getElem?_eq_getElem h]
        have hil := (hi i _ _ hg).2
        have htk := Val.itemSizes_take hg
        rw [show items[i].2.take ps = items[i].2 from List.take_of_length_le (by omega)]
        by_cases h' : i + 1 < items.length
        · rw [dif_pos h', htk]; simp [Val.sizes]; omega
        · rw [dif_neg h']
          rw [show items.take (i + 1) = items from List.take_of_length_le (by omega)] at htk
          omega
      · rw [dif_neg h, dif_neg (by omega)]
    · intro i d vs hit
      have hm := mul_step (L := 8 * (ds + ps)) (getElem?_lt hit)
      refine ⟨?_, (hi i d vs hit).2⟩
      rw [(hi i d vs hit).1]
      apply slice_congr
      intro k hk
      rw [hag _ (by omega) (by omega)]
      rw [hf3 _ (by omega) (by
        intro q hq
        by_cases hqi : q < i
        · have := mul_step (L := 8 * (ds + ps)) hqi
          omega
        · by_cases hqe : q = i
          · subst hqe; omega
          · have := mul_step (L := 8 * (ds + ps)) (show i < q by omega)
            omega)]
      have := hbody (8 + i * (8 * (ds + ps)) + k) (by omega)
      rw [show b.length + 8 + i * (8 * (ds + ps)) + k = b.length + (8 + i * (8 * (ds + ps)) + k) by omega,
        show t + 8 + i * (8 * (ds + ps)) + k = t + (8 + i * (8 * (ds + ps)) + k) by omega]
      exact this.symm
    · intro i d vs hit j v hj
      have hil := getElem?_lt hit
      have hm := mul_step (L := 8 * (ds + ps)) hil
      have hjl := getElem?_lt hj
      have hvl := (hi i d vs hit).2
      have := post3.lay C hC (by intro x h1 h2; exact hag x (by omega) h2) i d vs hit j v hj
      simp only [Nat.zero_add] at this
      have hwc : wordAt C (b.length + 8 + i * (8 * (ds + ps)) + 8 * ds + 8 * j)
          = wordAt b3 (b.length + 8 + i * (8 * (ds + ps)) + 8 * ds + 8 * j) := by
        apply wordAt_congr
        intro k hk
        exact hag _ (by omega) (by omega)
      rw [hwc, dif_pos hil, dif_pos hil]
      have hge : items[i] = (d, vs) := by
        rw [List.getElem?_eq_getElem hil] at hit; exact Option.some.inj hit
      rw [hge]
      exact this

/-! ## Far pointers -/

theorem pyIndex_nat {tbl : List Nat} {k st : Nat} (h : tbl[k]? = some st) :
    pyIndex (tbl.map Int.ofNat) (k : Int) = .ok (st : Int) := by
  unfold pyIndex
  have : ¬ ((k : Int) < 0) := by omega
  simp only [this, if_false]
  simp [h]

theorem readFarPtr_single {B : Bytes} {tbl : List Nat} {o pos st : Nat}
    (ho : o + 8 ≤ B.length) (hf : farPad (wordAt B o) = 0)
    (hst : tbl[farTarget (wordAt B o)]? = some st) (hpos : pos = st + 8 * farOffset (wordAt B o))
    (hb : pos + 8 ≤ B.length) :
    (Seg.of B (some tbl)).readFarPtr (o : Int) = .ok ((pos : Int), signed64 (wordAt B pos)) := by
  have hm := signed64_mod _ (wordAt_lt B o)
  unfold Seg.readFarPtr Seg.of
  simp only [Option.map_some, bind, Except.bind]
  rw [readPtr_nat (S := ⟨B, _⟩) ho]
  simp only [Ptr.farTarget_spec hm, Ptr.farOffset_spec hm, Ptr.farPad_spec hm, pyIndex_nat hst, hf]
  rw [show ((st : Int) + ((farOffset (wordAt B o) : Nat) : Int) * 8) = ((pos : Nat) : Int) by
    rw [hpos]; push_cast; ring]
  rw [readPtr_nat (S := ⟨B, _⟩) hb]
  simp [pure, Except.pure]

theorem readFarPtr_double {B : Bytes} {tbl : List Nat} {o pos st st2 : Nat}
    (ho : o + 8 ≤ B.length) (hf : farPad (wordAt B o) = 1)
    (hst : tbl[farTarget (wordAt B o)]? = some st) (hpos : pos = st + 8 * farOffset (wordAt B o))
    (hb : pos + 16 ≤ B.length)
    (hfk : kind (wordAt B pos) = 2) (hff : farPad (wordAt B pos) = 0)
    (hst2 : tbl[farTarget (wordAt B pos)]? = some st2)
    (hto : offset (wordAt B (pos + 8)) = 0) :
    (Seg.of B (some tbl)).readFarPtr (o : Int) =
      .ok (((st2 + 8 * farOffset (wordAt B pos) : Nat) : Int) - 8, signed64 (wordAt B (pos + 8))) := by
  have hm := signed64_mod _ (wordAt_lt B o)
  have hm2 := signed64_mod _ (wordAt_lt B pos)
  have hm3 := signed64_mod _ (wordAt_lt B (pos + 8))
  unfold Seg.readFarPtr Seg.of
  simp only [Option.map_some, bind, Except.bind]
  rw [readPtr_nat (S := ⟨B, _⟩) ho]
  simp only [Ptr.farTarget_spec hm, Ptr.farOffset_spec hm, Ptr.farPad_spec hm, pyIndex_nat hst, hf]
  rw [show ((st : Int) + ((farOffset (wordAt B o) : Nat) : Int) * 8) = ((pos : Nat) : Int) by
    rw [hpos]; push_cast; ring]
  rw [readPtr_nat (S := ⟨B, _⟩) (show pos + 8 ≤ B.length by omega)]
  rw [show ((pos : Int) + 8) = ((pos + 8 : Nat) : Int) by push_cast; rfl]
  rw [readPtr_nat (S := ⟨B, _⟩) (show pos + 8 + 8 ≤ B.length by omega)]
  simp only [Ptr.kind_spec hm2, Ptr.farPad_spec hm2, Ptr.farTarget_spec hm2, Ptr.farOffset_spec hm2,
    Ptr.offset_spec hm3, pyIndex_nat hst2, hfk, hff, hto]
  simp [pure, Except.pure, Ptr.FAR]
  ring

/-! ## The main theorem -/

/-- The recursion budget `copy_pointer` needs for a pointer word `w` to `v`. -/
def copyFuel (w : Nat) (v : Val) : Nat := if kind w = 2 then 2 * v.depth else 2 * v.depth - 1

theorem srcPtrs_of_ih {S : Seg} {offs : Option (List Nat)} {fuel sp : Nat} {vs : List Val}
    (hden : ∀ j v, vs[j]? = some v → Den S.buf offs ((sp + 8 * j : Nat) : Int)
      (wordAt S.buf (sp + 8 * j)) v)
    (hfuel : 2 * Val.depths vs ≤ fuel)
    (ih : ∀ j v, vs[j]? = some v → ∀ fuel (p : Int), wordAt S.buf (sp + 8 * j) ≠ 0 →
      copyFuel (wordAt S.buf (sp + 8 * j)) v ≤ fuel →
      p % 2 ^ 64 = ((wordAt S.buf (sp + 8 * j) : Nat) : Int) →
      RecOK (copyPointer S fuel) p ((sp + 8 * j : Nat) : Int) v) :
    SrcPtrs (copyPointer S fuel) S.buf sp vs := by
  intro j v hj
  by_cases h0 : wordAt S.buf (sp + 8 * j) = 0
  · refine .inl ⟨h0, ?_⟩
    have := hden j v hj
    rw [h0] at this
    exact den_zero this
  · refine .inr ⟨h0, ih j v hj fuel _ h0 ?_ (signed64_mod _ (wordAt_lt _ _))⟩
    have := Val.depth_le hj
    unfold copyFuel; split <;> omega

theorem den_depth_pos {B : Bytes} {offs : Option (List Nat)} {o : Int} {w : Nat} {v : Val}
    (hden : Den B offs o w v) (hw : w ≠ 0) : 0 < v.depth := by
  induction hden with
  | null => exact absurd rfl hw
  | struct => simp only [Val.depth]; omega
  | listPrim => simp only [Val.depth]; omega
  | listPtr => simp only [Val.depth]; omega
  | listComp => simp only [Val.depth]; omega
  | far _ _ _ _ _ _ _ _ _ _ _ _ _ _ _ hp0 _ ih => exact ih hp0
  | far2 _ _ _ _ _ _ _ _ _ _ _ _ _ _ _ _ _ _ _ ht0 _ _ ih => exact ih ht0

theorem copyPointer_spec {B : Bytes} {offs : Option (List Nat)} {o : Int} {w : Nat} {v : Val}
    (hden : Den B offs o w v) :
    ∀ (fuel : Nat) (p : Int), w ≠ 0 → v.Fits → copyFuel w v ≤ fuel → p % 2 ^ 64 = (w : Int) →
      RecOK (copyPointer (Seg.of B offs) fuel) p o v := by
  have hbuf : (Seg.of B offs).buf = B := rfl
  induction hden with
  | null => intro fuel p h; exact absurd rfl h
  | struct o w t data ptrs hw hk ht hb hd hl hp ih =>
    intro fuel p _ hfit hfuel hpw
    unfold copyFuel at hfuel
    rw [if_neg (by omega)] at hfuel
    simp only [Val.depth] at hfuel
    obtain ⟨f, rfl⟩ : ∃ f, fuel = f + 1 := ⟨fuel - 1, by omega⟩
    simp only [Val.Fits] at hfit
    have hsrc : SrcPtrs (copyPointer (Seg.of B offs) f) B (t + 8 * dataSize w) ptrs := by
      apply srcPtrs_of_ih (S := Seg.of B offs) hp (by omega)
      intro j v hj fuel p h0 hf hp'
      exact ih j v hj fuel p h0 (Val.allFits_get hfit.2 hj) hf hp'
    have key := copyStruct_spec (copyPointer (Seg.of B offs) f) (Seg.of B offs) hpw ht hb hl
      (by omega) hsrc
    rw [hd]
    intro b dst h1 h2 h3 h4
    have := key b dst h1 h2 h3 h4
    have n1 : (((0 : Nat) : Int) = Ptr.STRUCT) := by decide
    simp only [copyPointer, Ptr.kind_spec hpw, hk]
    rw [if_pos n1]
    exact this
  | listPrim o w t hk hg ht hb =>
    intro fuel p _ hfit hfuel hpw
    unfold copyFuel at hfuel
    rw [if_neg (by omega)] at hfuel
    simp only [Val.depth] at hfuel
    obtain ⟨f, rfl⟩ : ∃ f, fuel = f + 1 := ⟨fuel - 1, by omega⟩
    simp only [Val.Fits] at hfit
    have key := copyListPrimitive_spec (Seg.of B offs) hpw ht hg hb hfit
    intro b dst h1 h2 h3 h4
    have := key b dst h1 h2 h3 h4
    have n1 : ¬ (((1 : Nat) : Int) = Ptr.STRUCT) := by decide
    have n2 : (((1 : Nat) : Int) = Ptr.LIST) := by decide
    have n3 : ¬ (((listTag w : Nat) : Int) = Ptr.LIST_SIZE_COMPOSITE) := by
      unfold Ptr.LIST_SIZE_COMPOSITE; omega
    have n4 : ¬ (((listTag w : Nat) : Int) = Ptr.LIST_SIZE_PTR) := by
      unfold Ptr.LIST_SIZE_PTR; omega
    simp only [copyPointer, Ptr.kind_spec hpw, Ptr.listTag_spec hpw, hk]
    rw [if_neg n1, if_pos n2, if_neg n3, if_neg n4]
    exact this
  | listPtr o w t items hk hg ht hb hl hp ih =>
    intro fuel p _ hfit hfuel hpw
    unfold copyFuel at hfuel
    rw [if_neg (by omega)] at hfuel
    simp only [Val.depth] at hfuel
    obtain ⟨f, rfl⟩ : ∃ f, fuel = f + 1 := ⟨fuel - 1, by omega⟩
    simp only [Val.Fits] at hfit
    have hsrc : SrcPtrs (copyPointer (Seg.of B offs) f) B t items := by
      apply srcPtrs_of_ih (S := Seg.of B offs) hp (by omega)
      intro j v hj fuel p h0 hf hp'
      exact ih j v hj fuel p h0 (Val.allFits_get hfit.2 hj) hf hp'
    have key := copyListPtr_spec (copyPointer (Seg.of B offs) f) (Seg.of B offs) hpw ht hb hl
      (by omega) hsrc
    intro b dst h1 h2 h3 h4
    have := key b dst h1 h2 h3 h4
    have n1 : ¬ (((1 : Nat) : Int) = Ptr.STRUCT) := by decide
    have n2 : (((1 : Nat) : Int) = Ptr.LIST) := by decide
    have n3 : ¬ (((6 : Nat) : Int) = Ptr.LIST_SIZE_COMPOSITE) := by decide
    have n4 : (((6 : Nat) : Int) = Ptr.LIST_SIZE_PTR) := by decide
    simp only [copyPointer, Ptr.kind_spec hpw, Ptr.listTag_spec hpw, hk, hg]
    rw [if_neg n1, if_pos n2, if_neg n3, if_pos n4]
    exact this
  | listComp o w t tag ds ps items hk hg ht hb htag hkt hds hps hn htot hi hp ih =>
    intro fuel p _ hfit hfuel hpw
    unfold copyFuel at hfuel
    rw [if_neg (by omega)] at hfuel
    simp only [Val.depth] at hfuel
    obtain ⟨f, rfl⟩ : ∃ f, fuel = f + 1 := ⟨fuel - 1, by omega⟩
    simp only [Val.Fits] at hfit
    have hsrc : ∀ (i : Nat) d vs, items[i]? = some (d, vs) →
        SrcPtrs (copyPointer (Seg.of B offs) f) B (t + 8 + i * (8 * (ds + ps)) + 8 * ds) vs := by
      intro i d vs hit j v hj
      by_cases h0 : wordAt B (t + 8 + i * (8 * (ds + ps)) + 8 * ds + 8 * j) = 0
      · refine .inl ⟨h0, ?_⟩
        have := hp i d vs hit j v hj
        rw [h0] at this
        exact den_zero this
      · refine .inr ⟨h0, ih i d vs hit j v hj f _ h0
          (Val.allFits_get (Val.itemsFit_get hfit.2 hit) hj) ?_ (signed64_mod _ (wordAt_lt _ _))⟩
        have := Val.itemDepth_le hit hj
        unfold copyFuel; split <;> omega
    have key := copyListComposite_spec (copyPointer (Seg.of B offs) f) (Seg.of B offs) hpw ht hb
      htag hkt hds hps hn htot hi (by omega) hsrc
    intro b dst h1 h2 h3 h4
    have := key b dst h1 h2 h3 h4
    have n1 : ¬ (((1 : Nat) : Int) = Ptr.STRUCT) := by decide
    have n2 : (((1 : Nat) : Int) = Ptr.LIST) := by decide
    have n3 : (((7 : Nat) : Int) = Ptr.LIST_SIZE_COMPOSITE) := by decide
    simp only [copyPointer, Ptr.kind_spec hpw, Ptr.listTag_spec hpw, hk, hg]
    rw [if_neg n1, if_pos n2, if_pos n3]
    exact this
  | far o w pos st tbl v ho how hk hf htbl hst hpos hb hpk hp0 hd ih =>
    intro fuel p _ hfit hfuel hpw
    have hdep : 0 < v.depth := den_depth_pos hd hp0
    unfold copyFuel at hfuel
    rw [if_pos hk] at hfuel
    obtain ⟨f, rfl⟩ : ∃ f, fuel = f + 1 := ⟨fuel - 1, by omega⟩
    have key := ih f _ hp0 hfit (by unfold copyFuel; rw [if_neg (by omega)]; omega)
      (signed64_mod _ (wordAt_lt B pos))
    subst how htbl
    intro b dst h1 h2 h3 h4
    obtain ⟨b', hb', post⟩ := key b dst h1 h2 h3 h4
    refine ⟨b', ?_, post⟩
    have n1 : ¬ (((2 : Nat) : Int) = Ptr.STRUCT) := by decide
    have n2 : ¬ (((2 : Nat) : Int) = Ptr.LIST) := by decide
    have n3 : (((2 : Nat) : Int) = Ptr.FAR) := by decide
    simp only [copyPointer, Ptr.kind_spec hpw, hk]
    rw [if_neg n1, if_neg n2, if_pos n3,
      BM.bind_ok (BM.lift_ok (readFarPtr_single ho hf hst hpos hb) b)]
    exact hb'
  | far2 o w pos st st2 tbl v ho how hk hf htbl hst hpos hb hfk hff hst2 htk ht0 hto hd ih =>
    intro fuel p _ hfit hfuel hpw
    have hdep : 0 < v.depth := den_depth_pos hd ht0
    unfold copyFuel at hfuel
    rw [if_pos hk] at hfuel
    obtain ⟨f, rfl⟩ : ∃ f, fuel = f + 1 := ⟨fuel - 1, by omega⟩
    have key := ih f _ ht0 hfit (by unfold copyFuel; rw [if_neg (by omega)]; omega)
      (signed64_mod _ (wordAt_lt B (pos + 8)))
    subst how htbl
    intro b dst h1 h2 h3 h4
    obtain ⟨b', hb', post⟩ := key b dst h1 h2 h3 h4
    refine ⟨b', ?_, post⟩
    have n1 : ¬ (((2 : Nat) : Int) = Ptr.STRUCT) := by decide
    have n2 : ¬ (((2 : Nat) : Int) = Ptr.LIST) := by decide
    have n3 : (((2 : Nat) : Int) = Ptr.FAR) := by decide
    simp only [copyPointer, Ptr.kind_spec hpw, hk]
    rw [if_neg n1, if_neg n2, if_pos n3,
      BM.bind_ok (BM.lift_ok (readFarPtr_double ho hf hst hpos hb hfk hff hst2 hto) b)]
    exact hb'

end Capnpy
