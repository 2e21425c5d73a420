import Verif.Model.CyMessage
import Verif.Proof.CyReader
import Verif.Proof.Message

/-!
# The compiled loader follows the pure one as long as the ints do not wrap around
-/

namespace Capnpy.Cy

open Spec

theorem int32_id {x : Int} (h : -2 ^ 31 ≤ x) (h' : x < 2 ^ 31) : int32 x = x := by
  unfold int32; omega

/-- `F'` does what `F` does for small requests: `I` is the invariant before and after reads that
return all what was asked for, `J` also holds after a short read. -/
structure SameReads {σ} (F F' : FileLike σ) (I J : σ → Prop) (M : Int) : Prop where
  sub : ∀ s, I s → J s
  small : ∀ s, I s → F'.read 4 s = F.read 4 s ∧ (4 ≤ (F.read 4 s).1.length → I (F.read 4 s).2) ∧ J (F.read 4 s).2
  big : ∀ s, J s → ∀ n : Int, 0 ≤ n → n ≤ M → F'.read n s = F.read n s
  bound : M < 2 ^ 31

section
variable {σ : Type} {F F' : FileLike σ} {I J : σ → Prop} {M : Int}

theorem loadSizes_sim (h : SameReads F F' I J M) : ∀ (n : Nat) (s : σ), I s →
    loadSizes F' n s = loadSizes F n s ∧ ∀ l s', loadSizes F n s = .ok l s' → I s' := by
  intro n
  induction n with
  | zero =>
    intro s hs
    refine ⟨rfl, fun l s' e => ?_⟩
    injection e with _ e
    rwa [← e]
  | succ n ih =>
    intro s hs
    obtain ⟨h1, h2, -⟩ := h.small s hs
    have e1 : loadSizes F' (n + 1) s = (if (F'.read 4 s).1.length < 4 then throw .valueError
      else do
        let size ← FM.lift (unpackFrom .I (F'.read 4 s).1 0)
        let rest ← loadSizes F' n
        pure (size :: rest) : FM σ (List Int)) (F'.read 4 s).2 := rfl
    have e2 : loadSizes F (n + 1) s = (if (F.read 4 s).1.length < 4 then throw .valueError
      else do
        let size ← FM.lift (unpackFrom .I (F.read 4 s).1 0)
        let rest ← loadSizes F n
        pure (size :: rest) : FM σ (List Int)) (F.read 4 s).2 := rfl
    rw [e1, e2, h1]
    by_cases h4 : (F.read 4 s).1.length < 4
    · rw [if_pos h4, if_pos h4]
      exact ⟨rfl, fun l s' e => by cases e⟩
    · rw [if_neg h4, if_neg h4]
      have hI := h2 (by omega)
      cases hu : unpackFrom .I (F.read 4 s).1 0 with
      | error e =>
        refine ⟨?_, fun l s' e => ?_⟩
        · rw [FM.bind_error (FM.lift_error rfl _), FM.bind_error (FM.lift_error rfl _)]
        · rw [FM.bind_error (FM.lift_error rfl _)] at e
          cases e
      | ok v =>
        rw [FM.bind_ok (FM.lift_ok rfl _), FM.bind_ok (FM.lift_ok rfl _)]
        obtain ⟨g1, g2⟩ := ih _ hI
        cases hl : loadSizes F n (F.read 4 s).2 with
        | error e s' =>
          rw [hl] at g1
          rw [FM.bind_error g1, FM.bind_error hl]
          exact ⟨rfl, fun l s' e => by cases e⟩
        | ok l s' =>
          rw [hl] at g1
          rw [FM.bind_ok g1, FM.bind_ok hl]
          refine ⟨rfl, fun l' s'' e => ?_⟩
          injection e with _ e
          rw [← e]
          exact g2 _ _ hl

theorem body_sim (h : SameReads F F' I J M) {l : List Int} {s : σ} (hs : J s) (h0 : 0 ≤ l.sum) (hl : l.sum * 8 ≤ M) :
    loadMultiple.body F' l s = Capnpy.loadMultiple.body F l s := by
  have hb := h.bound
  have e1 : loadMultiple.body F' l s = (if (F'.read (l.sum * 8) s).1.length < l.sum * 8 then throw .valueError
      else pure ⟨(F'.read (l.sum * 8) s).1, some (0 :: offsetsLoop 0 l.dropLast)⟩ : FM σ Seg) (F'.read (l.sum * 8) s).2 := by
    unfold loadMultiple.body
    simp only
    rw [if_neg (by omega : ¬ l.sum * 8 ≥ 2 ^ 31)]
    rfl
  have e2 : Capnpy.loadMultiple.body F l s = (if (F.read (l.sum * 8) s).1.length < l.sum * 8 then throw .valueError
      else pure ⟨(F.read (l.sum * 8) s).1, some (0 :: offsetsLoop 0 l.dropLast)⟩ : FM σ Seg) (F.read (l.sum * 8) s).2 := rfl
  rw [e1, e2, h.big s hs _ (by omega) hl]

theorem loadMultiple_sim (h : SameReads F F' I J M) {n : Nat} {s : σ} (hs : I s) (hn : (n : Int) < 2 ^ 31)
    (hl : ∀ l s', loadSizes F n s = .ok l s' → 0 ≤ l.sum ∧ l.sum * 8 ≤ M) :
    loadMultiple F' n s = Capnpy.loadMultiple F n s := by
  have e1 : loadMultiple F' n s = (do
      let segments ← loadSizes F' n
      if Int.land (int32 (4 + int32 (n * 4))) 7 ≠ 0 then do
        let _ ← FM.read F' (8 - Int.land (int32 (4 + int32 (n * 4))) 7)
        loadMultiple.body F' segments
      else loadMultiple.body F' segments : FM σ Seg) s := by unfold loadMultiple; rfl
  have e2 : Capnpy.loadMultiple F n s = (do
      let segments ← loadSizes F n
      if Int.land (4 + n * 4 : Int) 7 ≠ 0 then do
        let _ ← FM.read F (8 - Int.land (4 + n * 4 : Int) 7)
        Capnpy.loadMultiple.body F segments
      else Capnpy.loadMultiple.body F segments : FM σ Seg) s := rfl
  have hm : Int.land (int32 (4 + int32 (n * 4))) 7 = Int.land (4 + n * 4 : Int) 7 := by
    have := land_mask (int32 (4 + int32 (n * 4))) 3
    have h' := land_mask (4 + n * 4 : Int) 3
    rw [show (2 ^ 3 - 1 : Int) = 7 by norm_num] at this h'
    rw [this, h']
    unfold int32
    omega
  have hv : Int.land (4 + n * 4 : Int) 7 = 0 ∨ Int.land (4 + n * 4 : Int) 7 = 4 := by
    have h' := land_mask (4 + n * 4 : Int) 3
    rw [show (2 ^ 3 - 1 : Int) = 7 by norm_num] at h'
    rw [h']
    omega
  rw [e1, e2, hm]
  obtain ⟨g1, g2⟩ := loadSizes_sim h n s hs
  cases hr : loadSizes F n s with
  | error e s' =>
    rw [hr] at g1
    rw [FM.bind_error g1, FM.bind_error hr]
  | ok l s' =>
    rw [hr] at g1
    rw [FM.bind_ok g1, FM.bind_ok hr]
    obtain ⟨l0, l1⟩ := hl l s' hr
    have hI := g2 _ _ hr
    rcases hv with hv | hv <;> rw [hv]
    · rw [if_neg (by omega : ¬ (0 : Int) ≠ 0), if_neg (by omega : ¬ (0 : Int) ≠ 0)]
      exact body_sim h (h.sub _ hI) l0 l1
    · obtain ⟨k1, -, k3⟩ := h.small s' hI
      rw [if_pos (by omega : (4 : Int) ≠ 0), if_pos (by omega : (4 : Int) ≠ 0), FM.bind_read, FM.bind_read,
        (by omega : (8 - 4 : Int) = 4), k1]
      exact body_sim h k3 l0 l1

theorem loadSingle_sim (h : SameReads F F' I J M) {s : σ} (hs : I s)
    (hl : ∀ m, unpackUint32 (F.read 4 s).1 0 = .ok m → 0 ≤ m ∧ m * 8 ≤ M) : loadSingle F' s = Capnpy.loadSingle F s := by
  have hb := h.bound
  obtain ⟨h1, h2, h3⟩ := h.small s hs
  have e1 : loadSingle F' s = (if (F'.read 4 s).1.length < 4 then throw .valueError
      else do
        let messageSize ← FM.lift (unpackUint32 (F'.read 4 s).1 0)
        let buf ← FM.read F' (int32 (int32 messageSize * 8))
        if (buf.length : Int) < int32 (int32 messageSize * 8) then throw .valueError
        else pure ⟨buf, none⟩ : FM σ Seg) (F'.read 4 s).2 := rfl
  have e2 : Capnpy.loadSingle F s = (if (F.read 4 s).1.length < 4 then throw .valueError
      else do
        let messageSize ← FM.lift (unpackUint32 (F.read 4 s).1 0)
        let buf ← FM.read F (messageSize * 8)
        if (buf.length : Int) < messageSize * 8 then throw .valueError
        else pure ⟨buf, none⟩ : FM σ Seg) (F.read 4 s).2 := rfl
  rw [e1, e2, h1]
  by_cases h4 : (F.read 4 s).1.length < 4
  · rw [if_pos h4, if_pos h4]
  · rw [if_neg h4, if_neg h4]
    cases hu : unpackUint32 (F.read 4 s).1 0 with
    | error e => rw [FM.bind_error (FM.lift_error rfl _), FM.bind_error (FM.lift_error rfl _)]
    | ok m =>
      rw [FM.bind_ok (FM.lift_ok rfl _), FM.bind_ok (FM.lift_ok rfl _)]
      obtain ⟨m0, m1⟩ := hl m hu
      rw [int32_id (x := m) (by omega) (by omega), int32_id (x := m * 8) (by omega) (by omega), FM.bind_read,
        FM.bind_read, h.big _ h3 _ (by omega) m1]

/-- `_load_message`, if the counts and sizes announced by the header `b` fit. -/
theorem loadMessage_sim {R : σ → Bytes → Prop} {E : σ → Prop} (hF : Faithful F R E) (h : SameReads F F' I J M)
    {s : σ} {b : Bytes} (hR : R s b) (hs : I s) (hc : segCount b < 2 ^ 31) (hM : (bodyLen b : Int) ≤ M) :
    loadMessage F' s = Capnpy.loadMessage F s := by
  obtain ⟨h1, h2, -⟩ := h.small s hs
  have e1 : loadMessage F' s = (if (F'.read 4 s).1.length = 0 then throw .eofError
      else if (F'.read 4 s).1.length < 4 then throw .valueError
      else do
        let n ← FM.lift (unpackUint32 (F'.read 4 s).1 0)
        let seg ← if int32 ((n + 1) % 2 ^ 32) = 1 then loadSingle F' else loadMultiple F' (int32 ((n + 1) % 2 ^ 32))
        FM.lift (StructObj.initFromBuffer seg 0 0 1) : FM σ StructObj) (F'.read 4 s).2 := rfl
  have e2 : Capnpy.loadMessage F s = (if (F.read 4 s).1.length = 0 then throw .eofError
      else if (F.read 4 s).1.length < 4 then throw .valueError
      else do
        let n ← FM.lift (unpackUint32 (F.read 4 s).1 0)
        let seg ← if n + 1 = 1 then Capnpy.loadSingle F else Capnpy.loadMultiple F (n + 1).toNat
        FM.lift (StructObj.initFromBuffer seg 0 0 1) : FM σ StructObj) (F.read 4 s).2 := rfl
  rw [e1, e2, h1]
  by_cases h4 : 4 ≤ b.length
  swap
  · obtain ⟨r1, -⟩ := hF.short s b 4 hR (by omega)
    rw [show ((4 : Nat) : Int) = 4 from rfl] at r1
    rw [r1]
    by_cases h0 : b.length = 0
    · rw [if_pos h0, if_pos h0]
    · rw [if_neg h0, if_neg h0, if_pos (by omega : b.length < 4), if_pos (by omega : b.length < 4)]
  obtain ⟨r1, r2⟩ := hF.full s b 4 hR h4
  rw [show ((4 : Nat) : Int) = 4 from rfl] at r1 r2
  have hlt : (b.take 4).length = 4 := by rw [List.length_take]; omega
  rw [r1] at h2 ⊢
  have hI := h2 (by omega)
  rw [if_neg (by omega : ¬ (b.take 4).length = 0), if_neg (by omega : ¬ (b.take 4).length < 4),
    if_neg (by omega : ¬ (b.take 4).length = 0), if_neg (by omega : ¬ (b.take 4).length < 4),
    FM.bind_ok (FM.lift_ok (unpackUint32_take h4) _), FM.bind_ok (FM.lift_ok (unpackUint32_take h4) _)]
  have hn : (u32 b 0 : Int) + 1 < 2 ^ 31 := by unfold segCount at hc; omega
  have hn' : int32 (((u32 b 0 : Nat) + 1 : Int) % 2 ^ 32) = (segCount b : Nat) := by
    unfold segCount int32
    omega
  have hn'' : ((u32 b 0 : Nat) + 1 : Int) = (segCount b : Nat) := by
    unfold segCount
    omega
  rw [hn', hn'']
  have key {x y : FM σ Seg} {t : σ} (hxy : x t = y t) :
      (x >>= fun seg => FM.lift (StructObj.initFromBuffer seg 0 0 1)) t
        = (y >>= fun seg => FM.lift (StructObj.initFromBuffer seg 0 0 1)) t := by
    show EStateM.bind x _ t = EStateM.bind y _ t
    unfold EStateM.bind
    rw [hxy]
  by_cases h0 : ((segCount b : Nat) : Int) = 1
  · rw [if_pos h0, if_pos h0]
    apply key
    refine loadSingle_sim h hI fun m hm => ?_
    have hsz : bodyLen b = 8 * u32 b 4 := by
      have : segCount b = 1 := by omega
      unfold bodyLen segSizes; rw [this]; simp
    by_cases h8 : 4 ≤ (b.drop 4).length
    · obtain ⟨q1, -⟩ := hF.full _ _ 4 r2 h8
      rw [show ((4 : Nat) : Int) = 4 from rfl] at q1
      rw [q1, unpackUint32_take h8, u32_drop] at hm
      injection hm with hm
      rw [← hm]
      simp only [Nat.add_zero]
      omega
    · obtain ⟨q1, -⟩ := hF.short _ _ 4 r2 (by omega)
      rw [show ((4 : Nat) : Int) = 4 from rfl] at q1
      rw [q1] at hm
      unfold unpackUint32 at hm
      rw [if_pos (by omega)] at hm
      cases hm
  · rw [if_neg h0, if_neg h0]
    apply key
    refine loadMultiple_sim h hI (by omega) fun l s' hls => ?_
    obtain ⟨s1, s2⟩ := loadSizes_spec hF (segCount b) _ _ r2
    by_cases h8 : 4 * segCount b ≤ (b.drop 4).length
    · obtain ⟨st', q1, -⟩ := s1 h8
      rw [q1] at hls
      injection hls with hls _
      have : l.sum = (((segSizes b).sum : Nat) : Int) := by
        have e : ((List.range (segCount b)).map fun k => ((u32 (b.drop 4) (4 * k) : Nat) : Int))
            = (segSizes b).map Int.ofNat := by
          unfold segSizes
          rw [List.map_map]
          apply List.map_congr_left
          intro k _
          rw [u32_drop]
          exact Int.ofNat_eq_natCast _ |>.symm
        rw [← hls, ← sum_map_ofNat, ← e]
      have hb : bodyLen b = 8 * (segSizes b).sum := rfl
      rw [this]
      omega
    · obtain ⟨st', q1⟩ := s2 (by omega)
      rw [q1] at hls
      cases hls

end

/-! ## What every read preserves is preserved by loading -/

section
variable {σ : Type} {F : FileLike σ} {P : σ → Prop} {M : Int}

/-- Reads of at most `M` bytes preserve `P`. -/
def Keeps (F : FileLike σ) (P : σ → Prop) (M : Int) : Prop :=
  ∀ s, P s → ∀ n : Int, 0 ≤ n → n ≤ M → P (F.read n s).2

theorem loadSizes_keep (h : Keeps F P M) (h4 : 4 ≤ M) : ∀ (n : Nat) (s : σ), P s →
    ∀ l s', loadSizes F n s = .ok l s' → P s' := by
  intro n
  induction n with
  | zero =>
    intro s hs l s' e
    injection e with _ e
    rwa [← e]
  | succ n ih =>
    intro s hs l s' e
    have h1 := h s hs 4 (by omega) h4
    have e2 : loadSizes F (n + 1) s = (if (F.read 4 s).1.length < 4 then throw .valueError
      else do
        let size ← FM.lift (unpackFrom .I (F.read 4 s).1 0)
        let rest ← loadSizes F n
        pure (size :: rest) : FM σ (List Int)) (F.read 4 s).2 := rfl
    rw [e2] at e
    by_cases h4 : (F.read 4 s).1.length < 4
    · rw [if_pos h4] at e
      cases e
    · rw [if_neg h4] at e
      cases hu : unpackFrom .I (F.read 4 s).1 0 with
      | error x =>
        rw [FM.bind_error (FM.lift_error hu _)] at e
        cases e
      | ok v =>
        rw [FM.bind_ok (FM.lift_ok hu _)] at e
        cases hl : loadSizes F n (F.read 4 s).2 with
        | error x s'' =>
          rw [FM.bind_error hl] at e
          cases e
        | ok l s'' =>
          rw [FM.bind_ok hl] at e
          injection e with _ e
          rw [← e]
          exact ih _ h1 _ _ hl

theorem body_keep (h : Keeps F P M) {l : List Int} {s : σ} (hs : P s) (h0 : 0 ≤ l.sum) (hl : l.sum * 8 ≤ M) {r : Seg}
    {s' : σ} (e : Capnpy.loadMultiple.body F l s = .ok r s') : P s' := by
  have e2 : Capnpy.loadMultiple.body F l s = (if (F.read (l.sum * 8) s).1.length < l.sum * 8 then throw .valueError
      else pure ⟨(F.read (l.sum * 8) s).1, some (0 :: offsetsLoop 0 l.dropLast)⟩ : FM σ Seg) (F.read (l.sum * 8) s).2 := rfl
  rw [e2] at e
  split at e
  · cases e
  · injection e with _ e
    rw [← e]
    exact h s hs _ (by omega) hl

theorem loadMultiple_keep (h : Keeps F P M) (h4 : 4 ≤ M) {n : Nat} {s : σ} (hs : P s)
    (hl : ∀ l s', loadSizes F n s = .ok l s' → 0 ≤ l.sum ∧ l.sum * 8 ≤ M) {r : Seg} {s' : σ}
    (e : Capnpy.loadMultiple F n s = .ok r s') : P s' := by
  have e2 : Capnpy.loadMultiple F n s = (do
      let segments ← loadSizes F n
      if Int.land (4 + n * 4 : Int) 7 ≠ 0 then do
        let _ ← FM.read F (8 - Int.land (4 + n * 4 : Int) 7)
        Capnpy.loadMultiple.body F segments
      else Capnpy.loadMultiple.body F segments : FM σ Seg) s := rfl
  have hv : Int.land (4 + n * 4 : Int) 7 = 0 ∨ Int.land (4 + n * 4 : Int) 7 = 4 := by
    have h' := land_mask (4 + n * 4 : Int) 3
    rw [show (2 ^ 3 - 1 : Int) = 7 by norm_num] at h'
    rw [h']
    omega
  rw [e2] at e
  cases hr : loadSizes F n s with
  | error x s'' =>
    rw [FM.bind_error hr] at e
    cases e
  | ok l s'' =>
    rw [FM.bind_ok hr] at e
    obtain ⟨l0, l1⟩ := hl l s'' hr
    have hI := loadSizes_keep h h4 n s hs _ _ hr
    rcases hv with hv | hv <;> rw [hv] at e
    · rw [if_neg (by omega : ¬ (0 : Int) ≠ 0)] at e
      exact body_keep h hI l0 l1 e
    · rw [if_pos (by omega : (4 : Int) ≠ 0), FM.bind_read, (by omega : (8 - 4 : Int) = 4)] at e
      exact body_keep h (h _ hI 4 (by omega) h4) l0 l1 e

theorem loadSingle_keep (h : Keeps F P M) (h4 : 4 ≤ M) {s : σ} (hs : P s)
    (hl : ∀ m, unpackUint32 (F.read 4 s).1 0 = .ok m → 0 ≤ m ∧ m * 8 ≤ M) {r : Seg} {s' : σ}
    (e : Capnpy.loadSingle F s = .ok r s') : P s' := by
  have e2 : Capnpy.loadSingle F s = (if (F.read 4 s).1.length < 4 then throw .valueError
      else do
        let messageSize ← FM.lift (unpackUint32 (F.read 4 s).1 0)
        let buf ← FM.read F (messageSize * 8)
        if (buf.length : Int) < messageSize * 8 then throw .valueError
        else pure ⟨buf, none⟩ : FM σ Seg) (F.read 4 s).2 := rfl
  rw [e2] at e
  split at e
  · cases e
  · cases hu : unpackUint32 (F.read 4 s).1 0 with
    | error x =>
      rw [FM.bind_error (FM.lift_error hu _)] at e
      cases e
    | ok m =>
      rw [FM.bind_ok (FM.lift_ok hu _), FM.bind_read] at e
      obtain ⟨m0, m1⟩ := hl m hu
      split at e
      · cases e
      · injection e with _ e
        rw [← e]
        exact h _ (h s hs 4 (by omega) h4) _ (by omega) m1

/-- The numbers in the header. -/
theorem single_size {R : σ → Bytes → Prop} {E : σ → Prop} (hF : Faithful F R E) {s : σ} {b : Bytes}
    (r2 : R s (b.drop 4)) (h1 : segCount b = 1) (m : Int) (hm : unpackUint32 (F.read 4 s).1 0 = .ok m) :
    m * 8 = bodyLen b := by
  have hsz : bodyLen b = 8 * u32 b 4 := by
    unfold bodyLen segSizes; rw [h1]; simp
  by_cases h8 : 4 ≤ (b.drop 4).length
  · obtain ⟨q1, -⟩ := hF.full _ _ 4 r2 h8
    rw [show ((4 : Nat) : Int) = 4 from rfl] at q1
    rw [q1, unpackUint32_take h8, u32_drop] at hm
    injection hm with hm
    rw [← hm]
    simp only [Nat.add_zero]
    omega
  · obtain ⟨q1, -⟩ := hF.short _ _ 4 r2 (by omega)
    rw [show ((4 : Nat) : Int) = 4 from rfl] at q1
    rw [q1] at hm
    unfold unpackUint32 at hm
    rw [if_pos (by omega)] at hm
    cases hm

theorem multiple_sizes {R : σ → Bytes → Prop} {E : σ → Prop} (hF : Faithful F R E) {s : σ} {b : Bytes}
    (r2 : R s (b.drop 4)) {l : List Int} {s' : σ} (hls : loadSizes F (segCount b) s = .ok l s') :
    0 ≤ l.sum ∧ l.sum * 8 = bodyLen b := by
  obtain ⟨s1, s2⟩ := loadSizes_spec hF (segCount b) _ _ r2
  by_cases h8 : 4 * segCount b ≤ (b.drop 4).length
  · obtain ⟨st', q1, -⟩ := s1 h8
    rw [q1] at hls
    injection hls with hls _
    have : l.sum = (((segSizes b).sum : Nat) : Int) := by
      have e : ((List.range (segCount b)).map fun k => ((u32 (b.drop 4) (4 * k) : Nat) : Int))
          = (segSizes b).map Int.ofNat := by
        unfold segSizes
        rw [List.map_map]
        apply List.map_congr_left
        intro k _
        rw [u32_drop]
        exact Int.ofNat_eq_natCast _ |>.symm
      rw [← hls, ← sum_map_ofNat, ← e]
    have hb : bodyLen b = 8 * (segSizes b).sum := rfl
    rw [this]
    omega
  · obtain ⟨st', q1⟩ := s2 (by omega)
    rw [q1] at hls
    cases hls

theorem loadMessage_keep {R : σ → Bytes → Prop} {E : σ → Prop} (hF : Faithful F R E) (h : Keeps F P M) (h4 : 4 ≤ M)
    {s : σ} {b : Bytes} (hR : R s b) (hs : P s) (hM : (bodyLen b : Int) ≤ M) {r : StructObj} {s' : σ}
    (e : Capnpy.loadMessage F s = .ok r s') : P s' := by
  have e2 : Capnpy.loadMessage F s = (if (F.read 4 s).1.length = 0 then throw .eofError
      else if (F.read 4 s).1.length < 4 then throw .valueError
      else do
        let n ← FM.lift (unpackUint32 (F.read 4 s).1 0)
        let seg ← if n + 1 = 1 then Capnpy.loadSingle F else Capnpy.loadMultiple F (n + 1).toNat
        FM.lift (StructObj.initFromBuffer seg 0 0 1) : FM σ StructObj) (F.read 4 s).2 := rfl
  rw [e2] at e
  have hI := h s hs 4 (by omega) h4
  by_cases hb4 : 4 ≤ b.length
  swap
  · obtain ⟨r1, -⟩ := hF.short s b 4 hR (by omega)
    rw [show ((4 : Nat) : Int) = 4 from rfl] at r1
    rw [r1] at e
    split at e
    · cases e
    · rw [if_pos (by omega)] at e
      cases e
  obtain ⟨r1, r2⟩ := hF.full s b 4 hR hb4
  rw [show ((4 : Nat) : Int) = 4 from rfl] at r1 r2
  have hlt : (b.take 4).length = 4 := by rw [List.length_take]; omega
  rw [r1, if_neg (by omega : ¬ (b.take 4).length = 0), if_neg (by omega : ¬ (b.take 4).length < 4),
    FM.bind_ok (FM.lift_ok (unpackUint32_take hb4) _)] at e
  have hn'' : ((u32 b 0 : Nat) + 1 : Int) = (segCount b : Nat) := by
    unfold segCount
    omega
  rw [hn''] at e
  have key {x : FM σ Seg} {t : σ} (hx : (x >>= fun seg => FM.lift (StructObj.initFromBuffer seg 0 0 1)) t = .ok r s') :
      ∃ seg, x t = .ok seg s' := by
    cases hk : x t with
    | error y s'' =>
      rw [FM.bind_error hk] at hx
      cases hx
    | ok seg s'' =>
      rw [FM.bind_ok hk] at hx
      cases hi : StructObj.initFromBuffer seg 0 0 1 with
      | error y =>
        rw [FM.lift_error hi] at hx
        cases hx
      | ok y =>
        rw [FM.lift_ok hi] at hx
        injection hx with _ hx
        rw [← hx]
        exact ⟨_, rfl⟩
  by_cases h0 : ((segCount b : Nat) : Int) = 1
  · rw [if_pos h0] at e
    obtain ⟨seg, e⟩ := key e
    refine loadSingle_keep h h4 hI (fun m hm => ?_) e
    have := single_size hF r2 (by omega) m hm
    omega
  · rw [if_neg h0] at e
    obtain ⟨seg, e⟩ := key e
    refine loadMultiple_keep h h4 hI (fun l s'' hls => ?_) e
    have := multiple_sizes hF r2 hls
    omega

end

/-! ## The compiled files -/

theorem sbufferRead_eq {s : SBuffer} {n : Int} (h0 : 0 ≤ n) (h : 0 ≤ s.i) (h' : s.i + n < 2 ^ 31) :
    sbufferRead s n = s.read n := by
  unfold sbufferRead SBuffer.read
  simp only
  rw [if_neg (by omega), if_neg (by omega), int32_id (x := s.i + n) (by omega) (by omega)]

theorem sbuffer_sameReads (S : Bytes) (M : Nat) (hM : S.length + 4 + M < 2 ^ 31) : SameReads SBuffer.file sbufferFile
    (fun s => s.s = S ∧ 0 ≤ s.i ∧ s.i ≤ S.length)
    (fun s => s.s = S ∧ 0 ≤ s.i ∧ s.i ≤ S.length + 4) M where
  sub s h := ⟨h.1, h.2.1, by omega⟩
  small s h := by
    obtain ⟨S', i⟩ := s
    obtain ⟨rfl, h0, h1⟩ := h
    simp only at h0 h1 hM
    have e : sbufferRead ⟨S', i⟩ 4 = SBuffer.read ⟨S', i⟩ 4 := sbufferRead_eq (by omega) h0 (by simp only; omega)
    refine ⟨e, fun hl => ?_, ?_⟩
    · obtain ⟨k, rfl⟩ := Int.eq_ofNat_of_zero_le h0
      obtain ⟨h1, h2, h3, h4⟩ := SBuffer.read_spec (b := ⟨S', k⟩) (by dsimp only; omega) 4
      have hr : (SBuffer.file.read 4 ⟨S', k⟩) = SBuffer.read ⟨S', k⟩ (4 : Nat) := rfl
      rw [hr] at hl ⊢
      rw [h1] at hl
      rw [h4]
      have : (SBuffer.rest ⟨S', k⟩).length = S'.length - k := by simp [SBuffer.rest]
      rw [List.length_take] at hl
      refine ⟨rfl, ?_, ?_⟩ <;> simp only <;> omega
    · exact ⟨rfl, (by omega : 0 ≤ i + 4), (by omega : i + 4 ≤ (S'.length : Int) + 4)⟩
  big s h n h0 h1 := by
    obtain ⟨S', i⟩ := s
    obtain ⟨rfl, h2, h3⟩ := h
    simp only at h2 h3 hM
    exact sbufferRead_eq h0 h2 (by simp only; omega)
  bound := by omega

theorem bstreamRead_eq {s : BStream} {n : Int} (h0 : 0 ≤ n) (h : 0 ≤ s.i) (h' : s.i + n < 2 ^ 31) :
    bstreamRead s n = s.read n := by
  unfold bstreamRead BStream.read
  simp only
  rw [if_neg (by omega : ¬ n = -1), if_neg (by omega : ¬ n = -1), int32_id (x := s.i + n) (by omega) (by omega)]

/-- The buffer of a stream whose chunks have at most `C` bytes, when at most `M` bytes are
read at once. -/
def Small (M C : Nat) (s : BStream) : Prop :=
  0 ≤ s.i ∧ s.i ≤ M + C ∧ s.buf.length ≤ M + C ∧ ∀ c ∈ s.chunks, c.length ≤ C

theorem fillLoop_small {C : Nat} (size : Int) : ∀ (chunks : List Bytes) (total : Int), (∀ c ∈ chunks, c.length ≤ C) →
    (∀ c ∈ (BStream.fillLoop size total chunks).2, c.length ≤ C) ∧
    ((BStream.fillLoop size total chunks).1 = [] ∨ total + (BStream.fillLoop size total chunks).1.length ≤ size + C) := by
  intro chunks
  induction chunks with
  | nil => intro total _; simp [BStream.fillLoop]
  | cons c cs ih =>
    intro total h
    unfold BStream.fillLoop
    by_cases ht : total < size
    · rw [if_pos ht]
      by_cases hc : c = []
      · rw [if_pos hc]
        exact ⟨fun x hx => h x (by simp [hx]), .inl rfl⟩
      · rw [if_neg hc]
        obtain ⟨h1, h2⟩ := ih (total + c.length) (fun x hx => h x (by simp [hx]))
        have := h c (by simp)
        refine ⟨h1, .inr ?_⟩
        dsimp only
        rw [List.length_append]
        rcases h2 with h2 | h2
        · rw [h2]; simp only [List.length_nil]; push_cast; omega
        · push_cast; omega
    · rw [if_neg ht]
      exact ⟨h, .inl rfl⟩

theorem Small.read {M C : Nat} {s : BStream} (h : Small M C s) {n : Nat} (hn : n ≤ M) : Small M C (s.read n).2 := by
  obtain ⟨buf, i, chunks⟩ := s
  obtain ⟨h0, h1, h2, h3⟩ := h
  obtain ⟨i, rfl⟩ := Int.eq_ofNat_of_zero_le h0
  simp only at h0 h1 h2 h3
  unfold BStream.read
  rw [if_neg (by omega)]
  dsimp only
  by_cases hlt : (buf.length : Int) < i + n
  · rw [if_pos hlt]
    unfold BStream.fillbuf
    dsimp only
    rw [pySliceFrom_nat]
    obtain ⟨f1, f2⟩ := fillLoop_small (n : Int) chunks (buf.drop i).length h3
    revert f1 f2
    generalize BStream.fillLoop n (buf.drop i).length chunks = r
    obtain ⟨parts, cs⟩ := r
    intro f1 f2
    simp only at f1 f2
    refine ⟨by simp only; omega, by simp only; omega, ?_, f1⟩
    simp only [List.length_append]
    rw [List.length_drop] at f2 ⊢
    rcases f2 with f2 | f2
    · rw [f2]; simp only [List.length_nil]; omega
    · omega
  · rw [if_neg hlt]
    exact ⟨by simp only; omega, by simp only; omega, h2, h3⟩

theorem bstream_sameReads (M C : Nat) (h4 : 4 ≤ M) (hM : 2 * M + C < 2 ^ 31) :
    SameReads BStream.file bstreamFile (Small M C) (Small M C) M where
  sub s h := h
  small s h := by
    have e : bstreamRead s 4 = s.read 4 := bstreamRead_eq (by omega) h.1 (by have := h.2.1; omega)
    refine ⟨e, fun _ => ?_, ?_⟩
    · exact h.read (n := 4) h4
    · exact h.read (n := 4) h4
  big s h n h0 h1 := bstreamRead_eq h0 h.1 (by have := h.2.1; omega)
  bound := by omega

end Capnpy.Cy
