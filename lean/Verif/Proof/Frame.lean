import Verif.Proof.Message

/-! # The header fields of a framed message and of its prefixes -/

namespace Capnpy

open Spec

theorem le32_eq (n : Nat) : le32 n = leBytes 4 n := by
  unfold le32
  simp only [leBytes]
  have h : ∀ m : Nat, UInt8.ofNat m = UInt8.ofNat (m % 256) := by
    intro m; apply UInt8.toNat_inj.mp; simp
  rw [h n, h (n / 256), h (n / 65536), h (n / 16777216)]
  rw [Nat.div_div_eq_div_mul, Nat.div_div_eq_div_mul]

theorem le32_length (n : Nat) : (le32 n).length = 4 := rfl

theorem leNat_le32 {n : Nat} (h : n < 2 ^ 32) : leNat (le32 n) = n := by
  rw [le32_eq, leNat_leBytes, Nat.mod_eq_of_lt (by omega)]

theorem slice_mid (a b c : Bytes) : slice (a ++ b ++ c) a.length b.length = b := by
  unfold slice
  rw [List.append_assoc, List.drop_left, List.take_left]

theorem u32_mid {a c : Bytes} {n k : Nat} (h : n < 2 ^ 32) (hk : a.length = k) :
    u32 (a ++ le32 n ++ c) k = n := by
  subst hk
  unfold u32
  have := slice_mid a (le32 n) c
  rw [le32_length] at this
  rw [this, leNat_le32 h]

theorem u32_many (ns : List Nat) (h : ∀ n ∈ ns, n < 2 ^ 32) : ∀ (a c : Bytes) (k : Nat), a.length = k →
    (List.range ns.length).map (fun j => u32 (a ++ (ns.map le32).flatten ++ c) (k + 4 * j)) = ns := by
  induction ns with
  | nil => intros; rfl
  | cons n ns ih =>
    intro a c k hk
    rw [List.length_cons, List.range_succ_eq_map, List.map_cons, List.map_map]
    congr 1
    · rw [List.map_cons, List.flatten_cons]
      have := u32_mid (a := a) (n := n) (c := (ns.map le32).flatten ++ c) (k := k) (h n (by simp)) hk
      rw [Nat.mul_zero, Nat.add_zero]
      simp only [List.append_assoc] at this ⊢
      exact this
    · have := ih (fun x hx => h x (by simp [hx])) (a ++ le32 n) c (k + 4) (by simp [hk, le32_length])
      refine Eq.trans ?_ this
      apply List.map_congr_left
      intro j _
      simp only [Function.comp, List.map_cons, List.flatten_cons, List.append_assoc]
      congr 1; omega

theorem map_flatten_le32_length (ns : List Nat) : ((ns.map le32).flatten).length = 4 * ns.length := by
  induction ns with
  | nil => rfl
  | cons n ns ih => simp [ih, le32_length]; omega

theorem sizeStarts_map (segs : List Bytes) (h : ∀ s ∈ segs, 8 ∣ s.length) :
    sizeStarts (segs.map fun s => s.length / 8) = segStarts segs := by
  induction segs with
  | nil => rfl
  | cons s ss ih =>
    have h8 := h s (by simp)
    simp only [List.map_cons, sizeStarts, segStarts]
    rw [ih (fun x hx => h x (by simp [hx])), Nat.mul_div_cancel' h8]

theorem sum_sizes (segs : List Bytes) (h : ∀ s ∈ segs, 8 ∣ s.length) :
    8 * (segs.map fun s => s.length / 8).sum = segs.flatten.length := by
  induction segs with
  | nil => rfl
  | cons s ss ih =>
    have h8 := h s (by simp)
    simp only [List.map_cons, List.sum_cons, List.flatten_cons, List.length_append]
    rw [← ih (fun x hx => h x (by simp [hx])), Nat.mul_add, Nat.mul_div_cancel' h8]

theorem frame_length {segs : List Bytes} {pad : Bytes} :
    (frame segs pad).length = 4 + 4 * segs.length + pad.length + segs.flatten.length := by
  unfold frame
  have := map_flatten_le32_length (segs.map fun s => s.length / 8)
  rw [List.map_map] at this
  simp only [List.length_append, le32_length]
  rw [show (segs.map fun s => le32 (s.length / 8)) = segs.map (le32 ∘ fun s => s.length / 8) from rfl,
    this, List.length_map]

/-- The header fields of a framed message. -/
theorem frame_fields {segs : List Bytes} {pad rest : Bytes} (h : Frameable segs pad) :
    segCount (frame segs pad ++ rest) = segs.length ∧
    segSizes (frame segs pad ++ rest) = (segs.map fun s => s.length / 8) ∧
    headerLen (frame segs pad ++ rest) = 4 + 4 * segs.length + pad.length ∧
    bodyLen (frame segs pad ++ rest) = segs.flatten.length ∧
    announcedTable (frame segs pad ++ rest) = segTable segs := by
  have hpos : 0 < segs.length := List.length_pos_iff.mpr h.nonempty
  have hcnt := h.count
  have h1 : segCount (frame segs pad ++ rest) = segs.length := by
    unfold segCount
    have := u32_mid (a := []) (n := segs.length - 1)
      (c := (segs.map fun s => le32 (s.length / 8)).flatten ++ pad ++ segs.flatten ++ rest) (k := 0)
      (by omega) rfl
    unfold frame
    rw [List.nil_append] at this
    simp only [List.append_assoc] at this ⊢
    rw [this]; omega
  have h2 : segSizes (frame segs pad ++ rest) = (segs.map fun s => s.length / 8) := by
    unfold segSizes
    rw [h1]
    have := u32_many (segs.map fun s => s.length / 8) (by
        intro n hn; obtain ⟨s, hs, rfl⟩ := List.mem_map.mp hn; exact h.size s hs)
      (le32 (segs.length - 1)) (pad ++ segs.flatten ++ rest) 4 rfl
    rw [List.length_map, List.map_map] at this
    refine Eq.trans ?_ this
    unfold frame
    simp only [List.append_assoc]
    rfl
  refine ⟨h1, h2, ?_, ?_, ?_⟩
  · unfold headerLen wordAlign
    rw [h1, h.pad]; split <;> omega
  · unfold bodyLen; rw [h2, sum_sizes segs h.word]
  · unfold announcedTable segTable; rw [h1, h2, sizeStarts_map segs h.word]

theorem frame_body {segs : List Bytes} {pad rest : Bytes} :
    slice (frame segs pad ++ rest) (4 + 4 * segs.length + pad.length) segs.flatten.length
      = segs.flatten := by
  have h := slice_mid (le32 (segs.length - 1) ++ (segs.map fun s => le32 (s.length / 8)).flatten ++ pad)
    segs.flatten rest
  have hl : (le32 (segs.length - 1) ++ (segs.map fun s => le32 (s.length / 8)).flatten ++ pad).length
      = 4 + 4 * segs.length + pad.length := by
    have := map_flatten_le32_length (segs.map fun s => s.length / 8)
    rw [List.map_map, List.length_map] at this
    rw [List.length_append, List.length_append, le32_length]
    rw [show (segs.map fun s => le32 (s.length / 8)) = segs.map (le32 ∘ fun s => s.length / 8) from rfl,
      this]
  rw [hl] at h
  exact h

theorem u32_prefix {p more : Bytes} {k : Nat} (h : k + 4 ≤ p.length) : u32 p k = u32 (p ++ more) k := by
  unfold u32
  congr 1
  apply slice_congr
  intro j hj
  rw [List.getElem?_append_left (by omega)]

theorem segCount_prefix {p more : Bytes} (h : 4 ≤ p.length) : segCount p = segCount (p ++ more) := by
  unfold segCount; rw [u32_prefix (by omega)]

theorem segSizes_prefix {p more : Bytes} (h : 4 + 4 * segCount p ≤ p.length) :
    segSizes p = segSizes (p ++ more) := by
  unfold segSizes
  rw [← segCount_prefix (p := p) (more := more) (by omega)]
  apply List.map_congr_left
  intro k hk
  rw [List.mem_range] at hk
  rw [u32_prefix (by omega)]

section
variable {σ : Type} {F : FileLike σ} {R : σ → Bytes → Prop} {E : σ → Prop}

/-- Loading the framing of any segments leaves exactly what follows. -/
theorem loadMessage_frame (hF : Faithful F R E) {st : σ} {segs : List Bytes} {pad rest : Bytes}
    (h : Frameable segs pad) (h8 : segs.flatten ≠ []) (hR : R st (frame segs pad ++ rest)) :
    ∃ st', loadMessage F st = .ok (objAt segs.flatten (segTable segs) 0 0 1) st' ∧ R st' rest := by
  obtain ⟨f1, f2, f3, f4, f5⟩ := frame_fields (rest := rest) h
  have hl := frame_length (segs := segs) (pad := pad)
  obtain ⟨-, -, -, h4⟩ := loadMessage_spec hF hR
  rw [f3, f4, f5, frame_body] at h4
  obtain ⟨st', h5, h6⟩ := h4 (List.length_pos_iff.mpr h8) (by rw [List.length_append]; omega)
  refine ⟨st', h5, ?_⟩
  rw [← hl, List.drop_left] at h6
  exact h6

/-- A proper prefix of a framed message is not a message. -/
theorem loadMessage_prefix (hF : Faithful F R E) {st : σ} {segs : List Bytes} {pad p more : Bytes}
    (h : Frameable segs pad) (h8 : segs.flatten ≠ []) (hp : p ++ more = frame segs pad)
    (hm : more ≠ []) (hR : R st p) :
    ∃ st', loadMessage F st = .error (if p = [] then .eofError else .valueError) st' := by
  obtain ⟨f1, f2, f3, f4, f5⟩ := frame_fields (rest := []) h
  rw [List.append_nil] at f1 f2 f3 f4 f5
  have hl := frame_length (segs := segs) (pad := pad)
  rw [← hp, List.length_append] at hl
  have hm' := List.length_pos_iff.mpr hm
  have h8' := List.length_pos_iff.mpr h8
  obtain ⟨l1, l2, -, -⟩ := loadMessage_spec hF hR
  by_cases h0 : p = []
  · rw [if_pos h0]; exact l1 (by rw [h0]; rfl)
  · rw [if_neg h0]
    apply l2 (List.length_pos_iff.mpr h0)
    by_cases h4 : 4 ≤ p.length
    · have hc := segCount_prefix (more := more) h4
      by_cases h5 : 4 + 4 * segCount p ≤ p.length
      · have hs := segSizes_prefix (more := more) h5
        right
        have hb : bodyLen p = segs.flatten.length := by
          unfold bodyLen; rw [hs, hp]; exact f4
        have hh : headerLen p = 4 + 4 * segs.length + pad.length := by
          unfold headerLen; rw [hc, hp]; exact f3
        rw [hb, hh]; omega
      · left; omega
    · left; unfold segCount; omega

end

end Capnpy
