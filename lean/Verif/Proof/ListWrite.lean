import Verif.Spec.ListBuild
import Verif.Proof.Object
import Verif.Proof.List

/-! # Writing lists: `copy_from_list` -/

namespace Capnpy

open Spec

/-! ## Non-pointer lists -/

/-- A list of non-pointer elements has been written. -/
theorem primPost {b b1 b2 : Bytes} {dst tag n : Nat} {bs : Bytes} (hg : tag ≤ 5) (hn : n < 2 ^ 28)
    (hdst : dst + 8 ≤ b.length) (hd8 : 8 ∣ dst) (hb8 : 8 ∣ b.length) (hL : b.length ≤ 2 ^ 32)
    (post1 : AllocPost b b1 dst (wordAlign (primLen tag n))
      (listWord (((b.length : Int) - (dst + 8)) / 8) tag n))
    (hl2 : b2.length = b1.length)
    (hg2 : ∀ x, ¬ (b.length ≤ x ∧ x < b.length + primLen tag n) → b2[x]? = b1[x]?)
    (hs2 : slice b2 b.length (primLen tag n) = bs) :
    CopyPost b b2 dst (.listPrim tag n bs) := by
  have hl1 := post1.len
  have hwa : primLen tag n ≤ wordAlign (primLen tag n) := by unfold wordAlign; omega
  have hwa8 : 8 ∣ wordAlign (primLen tag n) := by unfold wordAlign; omega
  refine ⟨?_, by omega, ?_, ?_⟩
  · simp only [Val.size]; omega
  · intro i hi hni
    rw [hg2 i (by omega), post1.frame i hi hni]
  · intro C hC hag
    have hword : wordAt b2 dst = listWord (((b.length : Int) - (dst + 8)) / 8) tag n := by
      rw [← post1.word]
      apply wordAt_congr
      intro k hk
      rw [hg2 _ (by omega)]
    rw [hword]
    have h1 := listTag_listWord (((b.length : Int) - (dst + 8)) / 8) tag n (by omega)
    have h2 := listCount_listWord (((b.length : Int) - (dst + 8)) / 8) tag n (by omega) (by omega)
    have hs : bs = slice C b.length (primLen tag n) := by
      rw [← hs2]
      apply slice_congr
      intro k hk
      rw [hag _ (by omega) (by omega)]
    have key := Lay.listPrim (ae := true) (B := C) dst
      (listWord (((b.length : Int) - (dst + 8)) / 8) tag n) b.length
      (kind_listWord _ _ _) (by rw [h1]; exact hg) (target_list hb8 hd8 hdst (by omega))
      (by rw [h1, h2]; omega) (by
        intro _ k hk1 hk2
        rw [h1, h2] at hk1 hk2
        rw [hag _ (by omega) (by omega), hg2 _ (by omega)]
        exact post1.zero _ (by omega) (by omega))
    rw [h1, h2, ← hs] at key
    rw [show b2.length = b.length + wordAlign (primLen tag n) by omega]
    exact key

theorem overwrite_append {b s s' : Bytes} {i : Nat} (h : i + (s ++ s').length ≤ b.length) :
    overwrite (overwrite b i s) (i + s.length) s' = overwrite b i (s ++ s') := by
  rw [List.length_append] at h
  have h1 : i + s.length ≤ b.length := by omega
  have h2 : i + s.length + s'.length ≤ (overwrite b i s).length := by rw [overwrite_length h1]; omega
  apply List.ext_getElem?
  intro k
  rw [overwrite_getElem? h2, overwrite_getElem? h1, overwrite_getElem? (by rw [List.length_append]; omega),
    List.length_append]
  by_cases k1 : k < i
  · rw [if_pos (by omega), if_pos k1, if_pos k1]
  · rw [if_neg k1, if_neg k1]
    by_cases k2 : k < i + s.length
    · rw [if_pos k2, if_pos k2, if_pos (by omega), List.getElem?_append_left (by omega)]
    · rw [if_neg k2, if_neg k2, List.getElem?_append_right (by omega)]
      by_cases k3 : k < i + s.length + s'.length
      · rw [if_pos k3, if_pos (by omega)]; congr 1; omega
      · rw [if_neg k3, if_neg (by omega)]

theorem numBytes_length (fmt : Fmt) (i : Int) : (numBytes fmt i).length = fmt.size := leBytes_length _ _

theorem card_eq (fmt : Fmt) : ((fmt.card : Nat) : Int) = 2 ^ (8 * fmt.size) := by
  cases fmt <;> norm_num [Fmt.card, Fmt.size]

theorem flatMap_numBytes_length (fmt : Fmt) (is : List Int) :
    (is.flatMap (numBytes fmt)).length = fmt.size * is.length := by
  induction is with
  | nil => simp
  | cons i is ih =>
    rw [List.flatMap_cons, List.length_append, ih, numBytes_length, List.length_cons]; ring

theorem writeItems_prim (fmt : Fmt) (w : Int → PyItem → BM Unit)
    (hw : ∀ p i, w p (.int i) = writeFmt fmt p i) : ∀ (is : List Int) (pos : Nat) (b : Bytes),
    (∀ i ∈ is, Props.InRange fmt i) → pos + fmt.size * is.length ≤ b.length →
    writeItems w (fmt.size : Int) (pos : Int) (is.map PyItem.int) b
      = .ok () (overwrite b pos (is.flatMap (numBytes fmt))) := by
  intro is
  induction is with
  | nil =>
    intro pos b _ h
    show EStateM.Result.ok () b = _
    refine congrArg _ ?_
    simp [overwrite]
  | cons i is ih =>
    intro pos b hr h
    rw [List.length_cons] at h
    have hm : fmt.size * (is.length + 1) = fmt.size * is.length + fmt.size := by ring
    simp only [List.map_cons, writeItems, hw]
    have hi := (Props.inRange_iff _ _).mp (hr i (by simp))
    have e1 : packInto fmt b (pos : Int) i = .ok (overwrite b pos (numBytes fmt i)) := by
      rw [packInto_nat hi (by omega), card_eq]; rfl
    rw [BM.bind_ok (writeFmt_of_packInto e1)]
    have hnl := numBytes_length fmt i
    rw [show ((pos : Int) + (fmt.size : Int)) = ((pos + fmt.size : Nat) : Int) by push_cast; rfl,
      ih (pos + fmt.size) _ (fun j hj => hr j (by simp [hj])) (by rw [overwrite_length (by omega)]; omega)]
    rw [List.flatMap_cons]
    refine congrArg _ ?_
    have := overwrite_append (b := b) (s := numBytes fmt i) (s' := is.flatMap (numBytes fmt)) (i := pos)
      (by rw [List.length_append, hnl, flatMap_numBytes_length]; omega)
    rw [hnl] at this
    exact this

theorem sizeTag_prim (fmt : Fmt) : (ItemType.prim fmt).sizeTag = ((fmtTag fmt : Nat) : Int) := by
  cases fmt <;> rfl

theorem fmtTag_le (fmt : Fmt) : fmtTag fmt ≤ 5 := by cases fmt <;> decide

/-- A Python list of numbers. -/
theorem copyList_prim (fmt : Fmt) (it : ItemType) (w : Int → PyItem → BM Unit)
    (hit : it = .prim fmt ∨ (it = .enum ∧ fmt = .h))
    (hw : ∀ p i, w p (.int i) = writeFmt fmt p i) (is : List Int) (hr : ∀ i ∈ is, Props.InRange fmt i)
    (hn : is.length < 2 ^ 28) {b : Bytes} {dst : Nat}
    (hdst : dst + 8 ≤ b.length) (hd8 : 8 ∣ dst) (hb8 : 8 ∣ b.length) (hL : b.length ≤ 2 ^ 32) :
    ∃ b', copyListWith it w dst (is.map PyItem.int) b = .ok () b' ∧
      CopyPost b b' dst (.listPrim (fmtTag fmt) is.length (is.flatMap (numBytes fmt))) := by
  have htag : it.sizeTag = ((fmtTag fmt : Nat) : Int) := by
    rcases hit with rfl | ⟨rfl, rfl⟩
    · exact sizeTag_prim fmt
    · rfl
  have hlen : it.itemLength = (fmt.size : Int) := by
    rcases hit with rfl | ⟨rfl, rfl⟩ <;> rfl
  have hunf : copyListWith it w dst (is.map PyItem.int) = (do
      let pos ← allocList dst it.sizeTag ((is.map PyItem.int).length : Int)
        (it.itemLength * ((is.map PyItem.int).length : Int))
      writeItems w it.itemLength pos (is.map PyItem.int)) := by
    rcases hit with rfl | ⟨rfl, rfl⟩ <;> rfl
  have hpl := primLen_fmtTag fmt is.length
  obtain ⟨b1, hb1, post1⟩ := allocList_spec (b := b) (pos := dst) (tag := fmtTag fmt) (n := is.length)
    (body := primLen (fmtTag fmt) is.length) hdst (by have := fmtTag_le fmt; omega) hn
  have hl1 := post1.len
  have hwa : primLen (fmtTag fmt) is.length ≤ wordAlign (primLen (fmtTag fmt) is.length) := by
    unfold wordAlign; omega
  have hfl := flatMap_numBytes_length fmt is
  have hov : b.length + (is.flatMap (numBytes fmt)).length ≤ b1.length := by omega
  refine ⟨overwrite b1 b.length (is.flatMap (numBytes fmt)), ?_, ?_⟩
  · rw [hunf, htag, hlen, List.length_map,
      show ((fmt.size : Int) * (is.length : Int)) = ((primLen (fmtTag fmt) is.length : Nat) : Int) by
        rw [hpl]; push_cast; rfl, BM.bind_ok hb1]
    exact writeItems_prim fmt w hw is b.length b1 hr (by omega)
  · refine primPost (fmtTag_le fmt) hn hdst hd8 hb8 hL post1 (overwrite_length hov) ?_ ?_
    · intro x hx
      rw [overwrite_getElem? hov]
      split
      · rfl
      · rw [if_neg (by omega)]
    · rw [hpl, ← hfl]; exact overwrite_slice hov

/-- A list of voids. -/
theorem copyList_void (w : Int → PyItem → BM Unit) (hw : ∀ p x, w p x = pure ()) (xs : List PyItem)
    (hn : xs.length < 2 ^ 28) {b : Bytes} {dst : Nat}
    (hdst : dst + 8 ≤ b.length) (hd8 : 8 ∣ dst) (hb8 : 8 ∣ b.length) (hL : b.length ≤ 2 ^ 32) :
    ∃ b', copyListWith .void w dst xs b = .ok () b' ∧ CopyPost b b' dst (.listPrim 0 xs.length []) := by
  obtain ⟨b1, hb1, post1⟩ := allocList_spec (b := b) (pos := dst) (tag := 0) (n := xs.length)
    (body := 0) hdst (by omega) hn
  refine ⟨b1, ?_, ?_⟩
  · have hunf : copyListWith .void w dst xs = (do
      let pos ← allocList dst 0 (xs.length : Int) (0 * (xs.length : Int))
      writeItems w 0 pos xs) := rfl
    rw [hunf, Int.zero_mul, BM.bind_ok (show allocList (dst : Int) 0 _ 0 b = _ from hb1)]
    generalize ((b.length : Nat) : Int) = p
    clear hunf post1 hb1
    induction xs generalizing p with
    | nil => rfl
    | cons x xs ih =>
      simp only [writeItems, hw]
      exact ih (by simp only [List.length_cons] at hn; omega) _
  · refine primPost (by omega) hn hdst hd8 hb8 hL (by exact post1) rfl (fun _ _ => rfl) ?_
    simp [primLen, slice]

/-! ## Lists of pointers -/

/-- `w p x` stores `v` in the slot `p`. -/
def WriteOK (w : Int → PyItem → BM Unit) (x : PyItem) (v : Val) : Prop :=
  ∀ (b : Bytes) (dst : Nat), dst + 8 ≤ b.length → 8 ∣ dst → 8 ∣ b.length →
    b.length + v.size ≤ 2 ^ 32 → ∃ b', w (dst : Int) x b = .ok () b' ∧ CopyPost b b' dst v

theorem writeItems_ptrs (w : Int → PyItem → BM Unit) (dp : Nat) (xs : List PyItem) (vs : List Val)
    (h : List.Forall₂ (WriteOK w) xs vs) : ∀ (i : Nat) (b : Bytes),
      dp + 8 * (i + vs.length) ≤ b.length → 8 ∣ dp → 8 ∣ b.length →
      b.length + Val.sizes vs ≤ 2 ^ 32 →
      ∃ b', writeItems w 8 ((dp + 8 * i : Nat) : Int) xs b = .ok () b' ∧ PtrsPost b b' dp i vs := by
  induction h with
  | nil =>
    intro i b _ _ hal _
    refine ⟨b, rfl, ⟨by simp [Val.sizes], hal, fun _ _ _ => rfl, ?_⟩⟩
    intro C _ _ j v h; simp at h
  | @cons x v xs vs hx hxs ih =>
    intro i b hd hdp hal hsz
    simp only [List.length_cons] at hd
    simp only [Val.sizes] at hsz
    obtain ⟨b1, hb1, post1⟩ := hx b (dp + 8 * i) (by omega) (by omega) hal (by omega)
    have hlen1 := post1.len
    obtain ⟨b', hb', post'⟩ := ih (i + 1) b1 (by omega) hdp post1.al (by omega)
    have hlen' := post'.len
    refine ⟨b', ?_, ?_, post'.al, ?_, ?_⟩
    · simp only [writeItems]
      rw [BM.bind_ok hb1]
      rw [show (((dp + 8 * i : Nat) : Int) + 8) = ((dp + 8 * (i + 1) : Nat) : Int) by push_cast; ring]
      exact hb'
    · simp only [Val.sizes]; omega
    · intro x hx hnx
      simp only [List.length_cons] at hnx
      rw [post'.frame x (by omega) (by omega), post1.frame x hx (by omega)]
    · intro C hC hag j u hj
      cases j with
      | zero =>
        simp at hj; subst hj
        have hw : wordAt b' (dp + 8 * (i + 0)) = wordAt b1 (dp + 8 * i) := by
          apply wordAt_congr
          intro k hk
          exact post'.frame _ (by omega) (by omega)
        rw [hw]
        have := post1.lay C (by omega) (by
          intro x h1 h2
          rw [hag x h1 (by omega), post'.frame x h2 (by omega)])
        simpa [Val.sizes, hlen1] using this
      | succ j =>
        simp at hj
        have := post'.lay C hC (by intro x h1 h2; exact hag x (by omega) h2) j u hj
        rw [show i + 1 + j = i + (j + 1) by omega] at this
        simp only [List.take_succ_cons, Val.sizes]
        rw [hlen1] at this
        rw [← Nat.add_assoc b.length, ← Nat.add_assoc b.length]
        exact this

theorem forall₂_length {α β} {R : α → β → Prop} {xs : List α} {ys : List β}
    (h : List.Forall₂ R xs ys) : xs.length = ys.length := by
  induction h with
  | nil => rfl
  | cons _ _ ih => simp [ih]

/-- The code of `copy_from_list` for the item types stored as pointers. -/
theorem copyListWith_ptr (it : ItemType) (hit : it = .text ∨ it = .data ∨ ∃ i, it = .list i)
    (w : Int → PyItem → BM Unit) (xs : List PyItem) (vs : List Val) (h : List.Forall₂ (WriteOK w) xs vs)
    (hn : vs.length < 2 ^ 28) {b : Bytes} {dst : Nat} (hdst : dst + 8 ≤ b.length) (hd8 : 8 ∣ dst)
    (hb8 : 8 ∣ b.length) (hsz : b.length + (Val.listPtr vs).size ≤ 2 ^ 32) :
    ∃ b', copyListWith it w dst xs b = .ok () b' ∧ CopyPost b b' dst (.listPtr vs) := by
  have hxl := forall₂_length h
  simp only [Val.size] at hsz
  obtain ⟨b1, hb1, post1⟩ := allocList_spec (b := b) (pos := dst) (tag := 6) (n := vs.length)
    (body := 8 * vs.length) hdst (by omega) hn
  have hwa : wordAlign (8 * vs.length) = 8 * vs.length := by unfold wordAlign; omega
  rw [hwa] at post1
  have hl1 := post1.len
  obtain ⟨b3, hb3, post3⟩ := writeItems_ptrs w b.length xs vs h 0 b1 (by omega) hb8 (by omega) (by omega)
  rw [Nat.mul_zero, Nat.add_zero] at hb3
  have hl3 := post3.len
  refine ⟨b3, ?_, ?_, post3.al, ?_, ?_⟩
  · have hunf : copyListWith it w dst xs = (do
      let pos ← allocList dst 6 (xs.length : Int) (8 * (xs.length : Int))
      writeItems w 8 pos xs) := by
      rcases hit with rfl | rfl | ⟨i, rfl⟩ <;> rfl
    rw [hunf, hxl, show ((8 : Int) * (vs.length : Int)) = ((8 * vs.length : Nat) : Int) by push_cast; rfl,
      BM.bind_ok (show allocList (dst : Int) 6 _ _ b = _ from hb1)]
    exact hb3
  · simp only [Val.size]; omega
  · intro i hi hni
    rw [post3.frame i (by omega) (by omega), post1.frame i hi hni]
  · intro C hC hag
    have hword : wordAt b3 dst = listWord (((b.length : Int) - (dst + 8)) / 8) 6 vs.length := by
      rw [← post1.word]
      apply wordAt_congr
      intro k hk
      rw [post3.frame _ (by omega) (by omega)]
    rw [hword]
    have h1 := listTag_listWord (((b.length : Int) - (dst + 8)) / 8) 6 vs.length (by omega)
    have h2 := listCount_listWord (((b.length : Int) - (dst + 8)) / 8) 6 vs.length (by omega)
      (by omega)
    refine .listPtr dst _ b.length _ _ (fun j => b1.length + Val.sizes (vs.take j))
      (kind_listWord _ _ _) h1 (target_list hb8 hd8 hdst (by omega)) ?_ ?_ ?_ ?_ ?_
    · rw [h2]; omega
    · rw [h2]
    · rw [h2]; simp [Val.sizes]; omega
    · simp; omega
    · intro j v hj
      have hjl := getElem?_lt hj
      have := post3.lay C hC (by intro x h1 h2; exact hag x (by omega) h2) j v hj
      simp only [Nat.zero_add] at this
      have hwc : wordAt C (b.length + 8 * j) = wordAt b3 (b.length + 8 * j) := by
        apply wordAt_congr
        intro k hk
        exact hag _ (by omega) (by omega)
      rw [hwc]
      exact this

/-- Writing a null pointer. -/
theorem writeNull_post {b : Bytes} {dst : Nat} (hdst : dst + 8 ≤ b.length) (hb8 : 8 ∣ b.length) :
    ∃ b', writeInt64 (dst : Int) 0 b = .ok () b' ∧ CopyPost b b' dst .null := by
  have h8 : (leBytes 8 0).length = 8 := leBytes_length _ _
  have hl := overwrite_length (b := b) (s := leBytes 8 0) (i := dst) (by omega)
  refine ⟨overwrite b dst (leBytes 8 0), writeInt64_nat (v := 0) (by norm_num) hdst, ?_, by omega, ?_, ?_⟩
  · simp [Val.size, hl]
  · intro i hi hni
    rw [overwrite_getElem? (by omega)]
    split
    · rfl
    · rw [if_neg (by omega)]
  · intro C _ _
    rw [wordAt_overwrite (by norm_num) hdst, hl]
    exact .null _ _

/-- `alloc_text` / `alloc_data` of a byte string. -/
theorem allocText_post {b : Bytes} {pos : Nat} (s : Bytes) (tz : Nat) (h8 : 8 ∣ b.length)
    (hp8 : 8 ∣ pos) (hpos : pos + 8 ≤ b.length) (hs : s.length + tz < 2 ^ 28) (hL : b.length ≤ 2 ^ 32) :
    ∃ b', allocText (pos : Int) (some s) tz b = .ok (b.length : Int) b' ∧
      CopyPost b b' pos (.listPrim 2 (s.length + tz) (s ++ List.replicate tz 0)) := by
  obtain ⟨b1, e1, e2⟩ := allocList_spec (tag := 2) (n := s.length + tz) (body := s.length + tz) hpos
    (by norm_num) hs
  have hl := e2.len
  have hal : s.length + tz ≤ wordAlign (s.length + tz) := by unfold wordAlign; omega
  have ho := overwrite_length (b := b1) (s := s) (i := b.length) (by omega)
  have hget := fun k => overwrite_getElem? (b := b1) (s := s) (i := b.length) (by omega) k
  refine ⟨overwrite b1 b.length s, ?_, ?_⟩
  · unfold allocText
    simp only
    have e : ((s.length : Int) + (tz : Int)) = ((s.length + tz : Nat) : Int) := by push_cast; rfl
    rw [e, BM.bind_ok (show allocList (pos : Int) Ptr.LIST_SIZE_8 _ _ b = _ from e1)]
    have ea : pySliceAssign b1 (b.length : Int) ((b.length : Int) + (s.length : Int)) s
        = overwrite b1 b.length s := pySliceAssign_nat rfl (by omega)
    have em : (modify (fun buf => pySliceAssign buf (b.length : Int) ((b.length : Int) + (s.length : Int)) s) : BM Unit) b1
        = .ok () (overwrite b1 b.length s) := by rw [← ea]; rfl
    rw [BM.bind_ok em]; rfl
  · have hpl : primLen 2 (s.length + tz) = s.length + tz := rfl
    refine primPost (by norm_num) hs hpos hp8 h8 hL (by rw [hpl]; exact e2) ho ?_ ?_
    · intro x hx
      rw [hget]
      split
      · rfl
      · rw [if_neg (by omega)]
    · rw [hpl]
      apply List.ext_getElem?
      intro k
      rw [slice_getElem?]
      by_cases hk : k < s.length
      · rw [if_pos (by omega), hget, if_neg (by omega), if_pos (by omega), List.getElem?_append_left hk]
        congr 1; omega
      · rw [List.getElem?_append_right (by omega), List.getElem?_replicate]
        by_cases hk2 : k < s.length + tz
        · rw [if_pos hk2, hget, if_neg (by omega), if_neg (by omega), if_pos (by omega),
            e2.zero _ (by omega) (by omega)]
        · rw [if_neg hk2, if_neg (by omega)]

/-! ## Lists of structs -/

/-- A struct has been written inline at `pos`. -/
structure InlinePost (b b' : Bytes) (pos ds : Nat) (data : Bytes) (vs : List Val) : Prop where
  len : b'.length = b.length + Val.sizes vs
  al : 8 ∣ b'.length
  frame : ∀ x, x < b.length → ¬ (pos ≤ x ∧ x < pos + 8 * (ds + vs.length)) → b'[x]? = b[x]?
  data : slice b' pos (8 * ds) = data
  lay : ∀ C : Bytes, b'.length ≤ C.length →
    (∀ x, b.length ≤ x → x < b'.length → C[x]? = b'[x]?) →
    ∀ j v, vs[j]? = some v →
      Lay true C (pos + 8 * ds + 8 * j) (wordAt b' (pos + 8 * ds + 8 * j)) v
        (b.length + Val.sizes (vs.take j)) (b.length + Val.sizes (vs.take (j + 1)))

theorem copyInline_spec {o : StructObj} {data : Bytes} {ptrs : List Val} {ds : Nat}
    (ho : Denotes o (.struct data ptrs)) (hdl : data.length = 8 * ds) (hf : Val.AllFits ptrs)
    (hlen : o.seg.buf.length ≤ 2 ^ 32) {fuel : Nat} (hfuel : 2 * Val.depths ptrs ≤ fuel)
    {b : Bytes} {pos : Nat} (h1 : pos + 8 * (ds + ptrs.length) ≤ b.length) (h2 : 8 ∣ pos) (h3 : 8 ∣ b.length)
    (h4 : b.length + Val.sizes ptrs ≤ 2 ^ 32)
    (hz : ∀ x, pos + 8 * ds ≤ x → x < pos + 8 * (ds + ptrs.length) → b[x]? = some 0) :
    ∃ b', copyStructInline (copyPointer o.seg fuel) o.seg (o.asPointer 0) 0 pos b = .ok () b' ∧
      InlinePost b b' pos ds data ptrs := by
  obtain ⟨B, offs, t, ds', ps, data', ptrs', rfl, hta, h8, hds, hps, ⟨hb, hd, hl, hp⟩, hv⟩ := ho
  injection hv with hv1 hv2
  subst hv1 hv2
  have hds' : ds' = ds := by rw [hd, slice_length_of_le (by omega)] at hdl; omega
  subst hds'
  change B.length ≤ 2 ^ 32 at hlen
  have hpm := asPointer_mod (B := B) (offs := offs) (t := t) hds hps
  have hsd := dataSize_structWord (((t : Int) - 8) / 8) ds' ps hds
  have hsp := ptrsSize_structWord (((t : Int) - 8) / 8) ds' ps hds hps
  have hso := offset_structWord (((t : Int) - 8) / 8) ds' ps (by omega) (by omega)
  have htar : target 0 (structWord (((t : Int) - 8) / 8) ds' ps) = (t : Int) := by
    unfold target; rw [hso]; omega
  have hsrc : SrcPtrs (copyPointer (Seg.of B offs) fuel) B (t + 8 * ds') ptrs := by
    apply srcPtrs_of_ih (S := Seg.of B offs) hp hfuel
    intro j v hj fuel p h0 hff hp'
    exact copyPointer_spec (hp j v hj) fuel p h0 (Val.allFits_get hf hj) hff hp'
  have hdl2 : (slice B t (8 * ds')).length = 8 * ds' := slice_length_of_le (by omega)
  have hov : pos + (slice B t (8 * ds')).length ≤ b.length := by omega
  generalize hb1 : overwrite b pos (slice B t (8 * ds')) = b1
  have hl1 : b1.length = b.length := by rw [← hb1, overwrite_length hov]
  have hg1 : ∀ x, ¬ (pos ≤ x ∧ x < pos + 8 * ds') → b1[x]? = b[x]? := by
    intro x hx
    rw [← hb1, overwrite_getElem? hov, hdl2]
    split
    · rfl
    · rw [if_neg (by omega)]
  obtain ⟨b3, hb3, post3⟩ := copyManyPtrs_spec (copyPointer (Seg.of B offs) fuel) (Seg.of B offs)
    (t + 8 * ds') (pos + 8 * ds') ptrs b1 (show _ ≤ B.length by omega) (by omega) (by omega) (by omega) (by omega)
    (hsrc.pre (by
      intro j hj _
      apply wordAt_zero
      intro k hk
      rw [hg1 _ (by omega)]
      exact hz _ (by omega) (by omega)))
  have hl3 := post3.len
  refine ⟨b3, ?_, ?_, post3.al, ?_, ?_, ?_⟩
  · unfold copyStructInline
    change (do
      let srcPos := Ptr.deref ((objAt B offs t ds' ps).asPointer 0) 0
      let dataSize := Ptr.structDataSize ((objAt B offs t ds' ps).asPointer 0)
      let ptrsSize := Ptr.structPtrsSize ((objAt B offs t ds' ps).asPointer 0)
      let ds := dataSize * 8
      checkBounds (Seg.of B offs) ds srcPos
      writeSlice pos (Seg.of B offs) srcPos ds
      copyManyPtrs (copyPointer (Seg.of B offs) fuel) ptrsSize (Seg.of B offs) (srcPos + ds) (pos + ds) : BM Unit) b = _
    simp only [deref_spec hpm, htar, Ptr.dataSize_spec hpm, Ptr.ptrsSize_spec hpm, hsd, hsp]
    rw [show ((ds' : Int) * 8) = ((8 * ds' : Nat) : Int) by push_cast; ring,
      BM.bind_ok (checkBounds_ok (show t + 8 * ds' ≤ B.length by omega) b),
      BM.bind_ok (writeSlice_nat (by omega) (show t + 8 * ds' ≤ B.length by omega))]
    change copyManyPtrs _ _ _ _ _ (overwrite b pos (slice B t (8 * ds'))) = _
    rw [hb1, ← hl, show ((t : Int) + ((8 * ds' : Nat) : Int)) = ((t + 8 * ds' : Nat) : Int) by push_cast; rfl,
      show ((pos : Int) + ((8 * ds' : Nat) : Int)) = ((pos + 8 * ds' : Nat) : Int) by push_cast; rfl]
    exact hb3
  · omega
  · intro x hx hnx
    rw [post3.frame x (by omega) (by omega), hg1 x (by omega)]
  · rw [hd]
    have := overwrite_slice hov
    rw [hb1, hdl2] at this
    rw [← this]
    apply slice_congr
    intro k hk
    exact post3.frame _ (by omega) (by omega)
  · intro C hC hag j v hj
    have := post3.lay C hC (by intro x h5 h6; exact hag x (by omega) h6) j v hj
    rw [Nat.zero_add, hl1] at this
    exact this

/-- The items of a list of structs have been written, from `dp + i*L`. -/
structure CompPost (b b' : Bytes) (dp ds ps i : Nat) (is : List (List UInt8 × List Val)) : Prop where
  len : b'.length = b.length + Val.itemSizes is
  al : 8 ∣ b'.length
  frame : ∀ x, x < b.length →
    ¬ (dp + i * (8 * (ds + ps)) ≤ x ∧ x < dp + (i + is.length) * (8 * (ds + ps))) → b'[x]? = b[x]?
  data : ∀ (q : Nat) d vs, is[q]? = some (d, vs) → slice b' (dp + (i + q) * (8 * (ds + ps))) (8 * ds) = d
  lay : ∀ C : Bytes, b'.length ≤ C.length →
    (∀ x, b.length ≤ x → x < b'.length → C[x]? = b'[x]?) →
    ∀ (q : Nat) d vs, is[q]? = some (d, vs) → ∀ (j : Nat) v, vs[j]? = some v →
      Lay true C (dp + (i + q) * (8 * (ds + ps)) + 8 * ds + 8 * j)
        (wordAt b' (dp + (i + q) * (8 * (ds + ps)) + 8 * ds + 8 * j)) v
        (b.length + Val.itemSizes (is.take q) + Val.sizes (vs.take j))
        (b.length + Val.itemSizes (is.take q) + Val.sizes (vs.take (j + 1)))

theorem writeItems_structs (w : Int → PyItem → BM Unit) (fuel : Nat)
    (hw : ∀ p o, w p (.struct o) = copyStructInline (copyPointer o.seg fuel) o.seg (o.asPointer 0) 0 p)
    (dp ds ps : Nat) (xs : List PyItem) (is : List (List UInt8 × List Val))
    (h : List.Forall₂ (StructVal ds ps) xs is) : Val.ItemsFit is → 2 * Val.itemDepths is ≤ fuel →
    ∀ (i : Nat) (b : Bytes), dp + (i + is.length) * (8 * (ds + ps)) ≤ b.length → 8 ∣ dp → 8 ∣ b.length →
      b.length + Val.itemSizes is ≤ 2 ^ 32 →
      (∀ x, dp + i * (8 * (ds + ps)) ≤ x → x < dp + (i + is.length) * (8 * (ds + ps)) → b[x]? = some 0) →
      ∃ b', writeItems w ((8 * (ds + ps) : Nat) : Int) ((dp + i * (8 * (ds + ps)) : Nat) : Int) xs b = .ok () b' ∧
        CompPost b b' dp ds ps i is := by
  induction h with
  | nil =>
    intro _ _ i b _ _ hal _ _
    refine ⟨b, rfl, ⟨by simp [Val.itemSizes], hal, fun _ _ _ => rfl, ?_, ?_⟩⟩
    · intro q d vs h; simp at h
    · intro C _ _ q d vs h; simp at h
  | @cons x it xs is hx hxs ih =>
    obtain ⟨d, vs⟩ := it
    intro hfit hdep i b hd hdp hal hsz hz
    simp only [List.length_cons] at hd hz
    simp only [Val.itemSizes] at hsz
    simp only [Val.ItemsFit] at hfit
    simp only [Val.itemDepths] at hdep
    have hL : 8 ∣ i * (8 * (ds + ps)) := ⟨i * (ds + ps), by ring⟩
    have hst := mul_step (L := 8 * (ds + ps)) (show i < i + (is.length + 1) by omega)
    cases x with
    | struct o =>
      obtain ⟨ho, hdl, hpl, hol⟩ := hx
      obtain ⟨b1, hb1, post1⟩ := copyInline_spec (fuel := fuel) (b := b) (pos := dp + i * (8 * (ds + ps))) ho hdl
        hfit.1 hol (by show 2 * Val.depths vs ≤ fuel; omega)
        (by show _ + 8 * (ds + vs.length) ≤ _; rw [show vs.length = ps from hpl]; omega) (by omega) hal
        (by show _ + Val.sizes vs ≤ _; omega)
        (by
          intro x hx1 hx2
          have hx2' : x < dp + i * (8 * (ds + ps)) + 8 * (ds + vs.length) := hx2
          rw [show vs.length = ps from hpl] at hx2'
          exact hz x (by omega) (by omega))
      have hl1 : b1.length = b.length + Val.sizes vs := post1.len
      have hf1 : ∀ x, x < b.length → ¬ (dp + i * (8 * (ds + ps)) ≤ x ∧ x < dp + i * (8 * (ds + ps)) + 8 * (ds + ps)) →
          b1[x]? = b[x]? := by
        intro x hx hnx
        refine post1.frame x hx ?_
        show ¬ (_ ∧ x < _ + 8 * (ds + vs.length))
        rw [show vs.length = ps from hpl]; exact hnx
      have ei : i + 1 + is.length = i + (is.length + 1) := by omega
      have es : (i + 1) * (8 * (ds + ps)) = i * (8 * (ds + ps)) + 8 * (ds + ps) := by ring
      obtain ⟨b', hb', post'⟩ := ih hfit.2 (by omega) (i + 1) b1 (by rw [ei]; omega) hdp post1.al (by omega)
        (by
          intro x hx1 hx2
          rw [ei] at hx2
          rw [hf1 x (by omega) (by omega)]
          exact hz x (by omega) (by omega))
      have hl' := post'.len
      have hkeep : ∀ x, x < b1.length → x < dp + i * (8 * (ds + ps)) + 8 * (ds + ps) ∨ b.length ≤ x →
          b'[x]? = b1[x]? := by
        intro x hx hx2
        apply post'.frame x hx
        rw [ei]
        omega
      refine ⟨b', ?_, ?_, post'.al, ?_, ?_, ?_⟩
      · simp only [writeItems, hw]
        rw [BM.bind_ok hb1, show (((dp + i * (8 * (ds + ps)) : Nat) : Int) + ((8 * (ds + ps) : Nat) : Int))
          = ((dp + (i + 1) * (8 * (ds + ps)) : Nat) : Int) by rw [es]; push_cast; ring]
        exact hb'
      · simp only [Val.itemSizes]; omega
      · intro x hx hnx
        simp only [List.length_cons] at hnx
        rw [post'.frame x (by omega) (by rw [ei]; omega)]
        exact hf1 x hx (by omega)
      · intro q d' vs' hq
        cases q with
        | zero =>
          simp at hq; obtain ⟨rfl, rfl⟩ := hq
          rw [Nat.add_zero, ← show slice b1 _ (8 * ds) = d from post1.data]
          apply slice_congr
          intro k hk
          exact hkeep _ (by omega) (by omega)
        | succ q =>
          simp at hq
          have := post'.data q d' vs' hq
          rw [show i + 1 + q = i + (q + 1) by omega] at this
          exact this
      · intro C hC hag q d' vs' hq j v hj
        cases q with
        | zero =>
          simp at hq; obtain ⟨rfl, rfl⟩ := hq
          have hjl := getElem?_lt hj
          rw [show vs.length = ps from hpl] at hjl
          simp only [Nat.add_zero]
          have hw : wordAt b' (dp + i * (8 * (ds + ps)) + 8 * ds + 8 * j)
              = wordAt b1 (dp + i * (8 * (ds + ps)) + 8 * ds + 8 * j) := by
            apply wordAt_congr
            intro k hk
            exact hkeep _ (by omega) (by omega)
          rw [hw]
          have := post1.lay C (by omega) (by
            intro x h1 h2
            rw [hag x h1 (by omega), hkeep x h2 (.inr h1)]) j v hj
          simpa [Val.itemSizes] using this
        | succ q =>
          simp at hq
          have := post'.lay C hC (by intro x h1 h2; exact hag x (by omega) h2) q d' vs' hq j v hj
          rw [show i + 1 + q = i + (q + 1) by omega, hl1] at this
          simp only [List.take_succ_cons, Val.itemSizes]
          rw [← Nat.add_assoc b.length]
          exact this
    | none => exact hx.elim
    | int _ => exact hx.elim
    | bytes _ => exact hx.elim
    | list _ => exact hx.elim

theorem structVal_length {ds ps : Nat} {xs : List PyItem} {is : List (List UInt8 × List Val)}
    (h : List.Forall₂ (StructVal ds ps) xs is) : ∀ (i : Nat) d vs, is[i]? = some (d, vs) → vs.length = ps := by
  induction h with
  | nil => intro i d vs h; simp at h
  | @cons x it xs is hx hxs ih =>
    intro i d vs hi
    cases i with
    | zero =>
      simp at hi; subst hi
      cases x with
      | struct o => exact hx.2.2.1
      | none => exact hx.elim
      | int _ => exact hx.elim
      | bytes _ => exact hx.elim
      | list _ => exact hx.elim
    | succ i => simp at hi; exact ih i d vs hi

/-- A Python list of structs. -/
theorem copyList_struct (w : Int → PyItem → BM Unit) (fuel : Nat)
    (hw : ∀ p o, w p (.struct o) = copyStructInline (copyPointer o.seg fuel) o.seg (o.asPointer 0) 0 p)
    (ds ps : Nat) (hds : ds < 2 ^ 16) (hps : ps < 2 ^ 15) (xs : List PyItem) (is : List (List UInt8 × List Val))
    (hcount : xs.length < 2 ^ 29)
    (h : List.Forall₂ (StructVal ds ps) xs is) (hfit : (Val.listComp ds ps is).Fits)
    (hdep : 2 * Val.itemDepths is ≤ fuel) {b : Bytes} {dst : Nat} (hdst : dst + 8 ≤ b.length) (hd8 : 8 ∣ dst)
    (hb8 : 8 ∣ b.length) (hsz : b.length + (Val.listComp ds ps is).size ≤ 2 ^ 32) :
    ∃ b', copyListWith (.struct ds ps) w dst xs b = .ok () b' ∧ CopyPost b b' dst (.listComp ds ps is) := by
  have hxl := forall₂_length h
  have hvl := structVal_length h
  simp only [Val.Fits] at hfit
  obtain ⟨hfit1, hfit2⟩ := hfit
  simp only [Val.size] at hsz
  generalize htot : is.length * (ds + ps) = tot at *
  have htot8 : is.length * (8 * (ds + ps)) = 8 * tot := by rw [← htot]; ring
  rw [htot8] at hsz
  obtain ⟨b1, hb1, post1⟩ := allocList_spec (b := b) (pos := dst) (tag := 7) (n := tot)
    (body := 8 + 8 * tot) hdst (by omega) hfit1
  have hwa : wordAlign (8 + 8 * tot) = 8 + 8 * tot := by unfold wordAlign; omega
  rw [hwa] at post1
  have hl1 := post1.len
  have hTw : structWord (is.length : Int) ds ps < 2 ^ 63 := structWord_lt _ _ _ hds hps
  have h8 : (leBytes 8 (structWord (is.length : Int) ds ps)).length = 8 := leBytes_length _ _
  have hov : b.length + (leBytes 8 (structWord (is.length : Int) ds ps)).length ≤ b1.length := by omega
  generalize hb2 : overwrite b1 b.length (leBytes 8 (structWord (is.length : Int) ds ps)) = b2
  have hl2 : b2.length = b1.length := by rw [← hb2, overwrite_length hov]
  have hg2 : ∀ x, ¬ (b.length ≤ x ∧ x < b.length + 8) → b2[x]? = b1[x]? := by
    intro x hx
    rw [← hb2, overwrite_getElem? hov, h8]
    split
    · rfl
    · rw [if_neg (by omega)]
  have htw2 : wordAt b2 b.length = structWord (is.length : Int) ds ps := by
    rw [← hb2, wordAt_overwrite (by omega) (by omega)]
  obtain ⟨b3, hb3, post3⟩ := writeItems_structs w fuel hw (b.length + 8) ds ps xs is h hfit2 hdep 0 b2
    (by rw [Nat.zero_add]; omega) (by omega) (by omega) (by omega)
    (by
      intro x hx1 hx2
      rw [Nat.zero_add] at hx2
      rw [hg2 x (by omega)]
      exact post1.zero x (by omega) (by omega))
  rw [Nat.zero_mul, Nat.add_zero] at hb3
  have hl3 := post3.len
  have hf3 := post3.frame
  rw [Nat.zero_mul, Nat.add_zero, Nat.zero_add] at hf3
  have hlow3 : ∀ x, x < b.length + 8 → b3[x]? = b2[x]? := by
    intro x hx
    exact hf3 x (by omega) (by omega)
  refine ⟨b3, ?_, ?_, post3.al, ?_, ?_⟩
  · have hunf : copyListWith (.struct ds ps) w dst xs = (do
      let pos ← allocList dst 7 (((ds : Int) + ps) * (xs.length : Int))
        (((ds : Int) + ps) * 8 * (xs.length : Int) + 8)
      writeInt64 pos (Ptr.newStruct (xs.length : Int) ds ps)
      writeItems w (((ds : Int) + ps) * 8) (pos + 8) xs) := rfl
    rw [hunf, hxl]
    rw [show (((ds : Int) + ps) * (is.length : Int)) = ((tot : Nat) : Int) by rw [← htot]; push_cast; ring,
      show (((ds : Int) + ps) * 8 * (is.length : Int) + 8) = ((8 + 8 * tot : Nat) : Int) by
        rw [← htot]; push_cast; ring,
      BM.bind_ok (show allocList (dst : Int) 7 _ _ b = _ from hb1), newStruct_word _ _ _ hds,
      BM.bind_ok (writeInt64_nat hTw (by omega)), hb2,
      show (((ds : Int) + ps) * 8) = ((8 * (ds + ps) : Nat) : Int) by push_cast; ring,
      show ((b.length : Int) + 8) = ((b.length + 8 : Nat) : Int) by push_cast; rfl]
    exact hb3
  · simp only [Val.size]; omega
  · intro i hi' hni
    rw [hlow3 i (by omega), hg2 i (by omega), post1.frame i hi' hni]
  · intro C hC hag
    have hword : wordAt b3 dst = listWord (((b.length : Int) - (dst + 8)) / 8) 7 tot := by
      rw [← post1.word]
      apply wordAt_congr
      intro k hk
      rw [hlow3 _ (by omega), hg2 _ (by omega)]
    rw [hword]
    have h1 := listTag_listWord (((b.length : Int) - (dst + 8)) / 8) 7 tot (by omega)
    have h2 := listCount_listWord (((b.length : Int) - (dst + 8)) / 8) 7 tot (by omega) (by omega)
    have htagC : structWord (is.length : Int) ds ps = wordAt C b.length := by
      rw [← htw2]
      apply wordAt_congr
      intro k hk
      rw [hag _ (by omega) (by omega), hlow3 _ (by omega)]
    refine .listComp dst _ b.length _ (structWord (is.length : Int) ds ps) ds ps is
      (fun i j => if h : i < is.length then b2.length + Val.itemSizes (is.take i)
          + Val.sizes (is[i].2.take j) else b2.length + Val.itemSizes is)
      (kind_listWord _ _ _) h1 (target_list hb8 hd8 hdst (by omega)) ?_ htagC (kind_structWord _ _ _)
      (dataSize_structWord _ _ _ hds).symm (ptrsSize_structWord _ _ _ hds (by omega)).symm
      (offset_structWord _ _ _ (by omega) (by omega)) ?_ ?_ ?_ ?_ ?_ ?_
    · rw [h2]; omega
    · rw [h2]; exact htot
    · rw [h2]
      split
      · simp [Val.sizes, Val.itemSizes]; omega
      · have : is = [] := List.length_eq_zero_iff.mp (by omega)
        subst this
        simp [Val.itemSizes]; omega
    · rw [dif_neg (by omega)]; omega
    · intro i
      by_cases h : i < is.length
      · rw [dif_pos h]
        have hg : is[i]? = some (is[i].1, is[i].2) := by rw [List.getElem?_eq_getElem h]
        have hil := hvl i _ _ hg
        have htk := Val.itemSizes_take hg
        rw [show is[i].2.take ps = is[i].2 from List.take_of_length_le (by omega)]
        by_cases h' : i + 1 < is.length
        · rw [dif_pos h', htk]; simp [Val.sizes]; omega
        · rw [dif_neg h']
          rw [show is.take (i + 1) = is from List.take_of_length_le (by omega)] at htk
          omega
      · rw [dif_neg h, dif_neg (by omega)]
    · intro i d vs hit
      have hm := mul_step (L := 8 * (ds + ps)) (getElem?_lt hit)
      refine ⟨?_, hvl i d vs hit⟩
      have := post3.data i d vs hit
      rw [Nat.zero_add] at this
      rw [← this]
      apply slice_congr
      intro k hk
      rw [hag _ (by omega) (by omega)]
    · intro i d vs hit j v hj
      have hil := getElem?_lt hit
      have hm := mul_step (L := 8 * (ds + ps)) hil
      have hjl := getElem?_lt hj
      have hvl := hvl i d vs hit
      have := post3.lay C hC (by intro x h1 h2; exact hag x (by omega) h2) i d vs hit j v hj
      rw [Nat.zero_add] at this
      have hwc : wordAt C (b.length + 8 + i * (8 * (ds + ps)) + 8 * ds + 8 * j)
          = wordAt b3 (b.length + 8 + i * (8 * (ds + ps)) + 8 * ds + 8 * j) := by
        apply wordAt_congr
        intro k hk
        exact hag _ (by omega) (by omega)
      rw [hwc, dif_pos hil, dif_pos hil]
      have hge : is[i] = (d, vs) := by
        rw [List.getElem?_eq_getElem hil] at hit; exact Option.some.inj hit
      rw [hge]
      exact this

end Capnpy
