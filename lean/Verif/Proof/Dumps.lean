import Verif.Proof.Frame
import Verif.Proof.Reader

/-! # dumps and loads -/

namespace Capnpy

open Spec

theorem toNat_emod_of_lt {a c : Nat} (h : a < c) : ((a : Int) % (c : Int)).toNat = a := by
  rw [← Int.natCast_mod, Int.toNat_natCast, Nat.mod_eq_of_lt h]

theorem chain_le {P : Prop} {N : Nat} {n : Nat} {ends : Nat → Nat}
    (h0 : 8 ∣ ends 0 ∧ (P → ends 0 ≤ N))
    (hs : ∀ j, j < n → 8 ∣ ends j → 8 ∣ ends (j + 1) ∧ (P → ends j ≤ N → ends (j + 1) ≤ N)) :
    ∀ j, j ≤ n → 8 ∣ ends j ∧ (P → ends j ≤ N) := by
  intro j
  induction j with
  | zero => intro _; exact h0
  | succ j ih =>
    intro hj
    obtain ⟨h1, h2⟩ := ih (by omega)
    obtain ⟨h3, h4⟩ := hs j (by omega) h1
    exact ⟨h3, fun p => h4 p (h2 p)⟩

/-- The end of a compact object is word-aligned and lies inside a word-aligned
buffer. -/
theorem lay_end {ae : Bool} {B : Bytes} {pos w s e : Nat} {v : Val} (h : Lay ae B pos w v s e) :
    8 ∣ s → 8 ∣ e ∧ (8 ∣ B.length → s ≤ B.length → e ≤ B.length) := by
  induction h with
  | null => intro h; exact ⟨h, fun _ => id⟩
  | empty => intro h; exact ⟨h, fun _ => id⟩
  | struct pos w s e data ptrs ends hw hk ht hb hd hl hne h0 he hp ih =>
    intro hs
    have := chain_le (P := 8 ∣ B.length) (N := B.length) (n := ptrs.length) (ends := ends)
      (by rw [h0]; exact ⟨by omega, fun _ => by omega⟩) (by
      intro j hj
      obtain ⟨v, hv⟩ : ∃ v, ptrs[j]? = some v := ⟨ptrs[j], List.getElem?_eq_getElem hj⟩
      exact ih j v hv) ptrs.length (le_refl _)
    rw [he] at this; exact ⟨this.1, fun h _ => this.2 h⟩
  | listPrim pos w s hk hg ht hb hz =>
    intro hs; unfold wordAlign; exact ⟨by omega, fun _ _ => by omega⟩
  | listPtr pos w s e items ends hk hg ht hb hl h0 he hp ih =>
    intro hs
    have := chain_le (P := 8 ∣ B.length) (N := B.length) (n := items.length) (ends := ends)
      (by rw [h0]; exact ⟨by omega, fun _ => by omega⟩) (by
      intro j hj
      obtain ⟨v, hv⟩ : ∃ v, items[j]? = some v := ⟨items[j], List.getElem?_eq_getElem hj⟩
      exact ih j v hv) items.length (le_refl _)
    rw [he] at this; exact ⟨this.1, fun h _ => this.2 h⟩
  | listComp pos w s e tag ds ps items ends hk hg ht hb htag hkt hds hps hn htot h0 he hstep hi hp ih =>
    intro hs
    have := chain_le (P := 8 ∣ B.length) (N := B.length) (n := items.length) (ends := fun i => ends i 0)
      (by rw [h0]; exact ⟨by omega, fun _ => by omega⟩) (by
      intro i hi' hdi
      obtain ⟨⟨d, vs⟩, hv⟩ : ∃ x, items[i]? = some x := ⟨items[i], List.getElem?_eq_getElem hi'⟩
      have hvl := (hi i d vs hv).2
      rw [← hstep i]
      refine ⟨?_, ?_⟩
      · have key : ∀ j, j ≤ ps → 8 ∣ ends i j := by
          intro j
          induction j with
          | zero => intro _; exact hdi
          | succ j ihj =>
            intro hj
            obtain ⟨v, hv'⟩ : ∃ v, vs[j]? = some v := ⟨vs[j], List.getElem?_eq_getElem (by omega)⟩
            exact (ih i d vs hv j v hv' (ihj (by omega))).1
        exact key ps (le_refl _)
      · intro h8 hle
        exact (chain_le (P := True) (N := B.length) (n := ps) (ends := ends i) ⟨hdi, fun _ => hle⟩ (by
          intro j hj hd
          obtain ⟨v, hv'⟩ : ∃ v, vs[j]? = some v := ⟨vs[j], List.getElem?_eq_getElem (by omega)⟩
          have := ih i d vs hv j v hv' hd
          exact ⟨this.1, fun _ => this.2 h8⟩) ps (le_refl _)).2 trivial) items.length (le_refl _)
    rw [he] at this; exact ⟨this.1, fun h _ => this.2 h⟩

theorem ptrsLay_end {ae : Bool} {B : Bytes} {vs : List Val} :
    ∀ {sp s e : Nat}, PtrsLay ae B sp vs s e → 8 ∣ s →
      8 ∣ e ∧ s ≤ e ∧ (8 ∣ B.length → s ≤ B.length → e ≤ B.length) := by
  induction vs with
  | nil => intro sp s e h h1; change s = e at h; subst h; exact ⟨h1, le_refl _, fun _ => id⟩
  | cons v vs ih =>
    intro sp s e h h1
    obtain ⟨m, h3, h4⟩ := h
    obtain ⟨h5, h6⟩ := lay_end h3 h1
    have := lay_size h3
    obtain ⟨i1, i2, i3⟩ := ih h4 h5
    exact ⟨i1, by omega, fun h8 hs => i3 h8 (h6 h8 hs)⟩

theorem loads_of_load {S : Bytes} {o : Option StructObj}
    (h : load SBuffer.file (SBuffer.init S) = .ok o { s := S, i := (S.length : Int) }) :
    loads S = .ok o := by
  unfold loads
  rw [h]
  exact if_neg (not_not_intro rfl)

/-- Loading a frame whose single segment starts with a pointer to `v`. -/
theorem loads_frame {S : Bytes} {w e : Nat} {data : Bytes} {ptrs : List Val}
    (h8 : 8 ∣ S.length) (hpos : 8 ≤ S.length) (hsz : S.length / 8 < 2 ^ 32) (hw : wordAt S 0 = w)
    {ae : Bool} {s : Nat} (hl : Lay ae S 0 w (.struct data ptrs) s e) :
    ∃ o', loads (frame [S] []) = .ok (some o') ∧ Denotes o' (.struct data ptrs) := by
  have hfr : Frameable [S] [] := by
    refine ⟨by simp, by simp, ?_, ?_, by simp⟩
    · intro s hs; rw [List.mem_singleton] at hs; rw [hs]; exact h8
    · intro s hs; rw [List.mem_singleton] at hs; rw [hs]; exact hsz
  have hne : [S].flatten ≠ [] := by
    intro h; rw [List.flatten_singleton] at h; rw [h] at hpos; simp at hpos
  obtain ⟨st', h1, k, hk, rfl, h2⟩ := loadMessage_frame (SBuffer.faithful (frame [S] [])) (rest := [])
    (st := SBuffer.init (frame [S] [])) hfr hne
    ⟨0, by simp, rfl, by simp⟩
  have hk' : k = (frame [S] []).length := by
    have := congrArg List.length h2; rw [List.length_drop, List.length_nil] at this; omega
  rw [List.flatten_singleton, show segTable [S] = none from rfl] at h1
  have hden : Denotes (objAt S none 0 0 1) (.struct [] [.struct data ptrs]) := by
    refine ⟨S, none, 0, 0, 1, [], [.struct data ptrs], rfl, ?_, by simp, by norm_num, by norm_num,
      ⟨by omega, by simp [slice], rfl, ?_⟩, rfl⟩
    · intro tbl h; cases h
    · intro j v hj
      have hj0 := getElem?_lt hj
      simp only [List.length_singleton] at hj0
      obtain rfl : j = 0 := by omega
      simp only [List.getElem?_cons_zero, Option.some.injEq] at hj
      subst hj
      simp only [Nat.mul_zero, Nat.add_zero]
      rw [hw]
      exact Lay.den none (by omega) hl
  obtain ⟨o', r1, r2, r3⟩ := readStruct_struct hden (j := 0) rfl
  rw [show ((8 * 0 : Nat) : Int) = 0 by norm_num] at r1
  refine ⟨o', ?_, r3⟩
  apply loads_of_load
  unfold load
  rw [FM.bind_ok h1, FM.lift_ok (a := some o') r1, hk']

theorem wordAt_leBytes {w : Nat} (h : w < 2 ^ 64) (r : Bytes) : wordAt (leBytes 8 w ++ r) 0 = w := by
  have := slice_mid [] (leBytes 8 w) r
  rw [leBytes_length, List.nil_append] at this
  unfold wordAt
  change leNat (slice (leBytes 8 w ++ r) 0 8) = w
  rw [show slice (leBytes 8 w ++ r) 0 8 = leBytes 8 w from this, leNat_leBytes, Nat.mod_eq_of_lt (by norm_num; omega)]

theorem encodeI_nat {n : Nat} (h : n < 4294967296) : Fmt.encode .I (n : Int) = .ok (le32 n) := by
  rw [Fmt.encode_ok .I _ ⟨Int.natCast_nonneg n, by rw [show Fmt.hi .I = ((4294967296 : Nat) : Int) from rfl]; exact_mod_cast h⟩]
  rw [show Fmt.size .I = 4 from rfl, show Fmt.card .I = 4294967296 from rfl, toNat_emod_of_lt h, le32_eq]

theorem encodeQ_nat {n : Nat} (h : n < 9223372036854775808) :
    Fmt.encode .q (n : Int) = .ok (leBytes 8 n) := by
  rw [Fmt.encode_ok .q _ ⟨le_trans (b := 0) (by decide) (Int.natCast_nonneg n),
    by rw [show Fmt.hi .q = ((9223372036854775808 : Nat) : Int) from rfl]; exact_mod_cast h⟩]
  rw [show Fmt.size .q = 8 from rfl, show Fmt.card .q = 18446744073709551616 from rfl,
    toNat_emod_of_lt (lt_trans h (by norm_num))]

theorem dumpMessage_eq {buf : Bytes} {p start end_ : Int} {h0 h1 h2 : Bytes}
    (h : ¬ (start < 0 ∨ start > end_ ∨ end_ > buf.length))
    (e0 : Fmt.I.encode 0 = .ok h0) (e1 : Fmt.I.encode ((end_ - start) / 8 + 1) = .ok h1)
    (e2 : Fmt.q.encode p = .ok h2) :
    dumpMessage buf p start end_ = .ok (h0 ++ h1 ++ h2 ++ pySlice buf start end_) := by
  unfold dumpMessage
  rw [if_neg h, e0, e1, e2]

/-- The fast path of `dumps`. -/
theorem dumps_fast {B : Bytes} {offs : Option (List Nat)} {t ds ps e : Nat} {data : Bytes}
    {ptrs : List Val} (h8 : 8 ∣ t) (hds : ds < 2 ^ 16) (hps : ps < 2 ^ 15) (hB : e ≤ B.length)
    (hlen : B.length ≤ 2 ^ 32)
    (ho : ObjDen B offs t ds ps data ptrs) (hlay : ObjLay false B t ds ps ptrs e) :
    dumpMessage B (Ptr.newStruct 0 ds ps) t e
      = .ok (frame [leBytes 8 (structWord 0 ds ps) ++ slice B t (e - t)] []) ∧
    8 ∣ e ∧ t ≤ e := by
  obtain ⟨hb, hd, hl, hp⟩ := ho
  unfold ObjLay at hlay
  obtain ⟨h1, h3, -⟩ := ptrsLay_end hlay (by omega)
  refine ⟨?_, h1, by omega⟩
  have hw := structWord_lt 0 ds ps hds hps
  have e0 : Fmt.encode .I 0 = .ok (le32 0) := encodeI_nat (n := 0) (by norm_num)
  have e1 : Fmt.encode .I (((e : Int) - t) / 8 + 1) = .ok (le32 ((e - t) / 8 + 1)) := by
    have hx : ((e : Int) - t) / 8 + 1 = (((e - t) / 8 + 1 : Nat) : Int) := by clear hw; omega
    rw [hx]; exact encodeI_nat (by clear hw; omega)
  have e2 : Fmt.encode .q (Ptr.newStruct 0 ds ps) = .ok (leBytes 8 (structWord 0 ds ps)) := by
    rw [newStruct_word _ _ _ hds]; exact encodeQ_nat (by rw [show (9223372036854775808 : Nat) = 2 ^ 63 by norm_num]; exact hw)
  rw [dumpMessage_eq (by clear hw e0 e1 e2; omega) e0 e1 e2]
  clear e0 e1 e2 hw
  rw [pySlice_nat]
  have hsl : (slice B t (e - t)).length = e - t := slice_length_of_le (by omega)
  unfold frame
  refine congrArg _ ?_
  simp only [List.length_singleton, Nat.sub_self, List.map_cons, List.map_nil, List.flatten_cons,
    List.flatten_nil, List.append_nil, List.length_append, leBytes_length, hsl]
  rw [show (8 + (e - t)) / 8 = (e - t) / 8 + 1 by omega]
  simp only [List.append_assoc]

/-- What the fast path writes is laid out as the original. -/
theorem fast_lay {B : Bytes} {offs : Option (List Nat)} {t ds ps e : Nat} {data : Bytes}
    {ptrs : List Val} (h8 : 8 ∣ t) (hds : ds < 2 ^ 16) (hps : ps < 2 ^ 15) (hB : e ≤ B.length)
    (hne : 0 < ds + ps)
    (ho : ObjDen B offs t ds ps data ptrs) (hlay : ObjLay false B t ds ps ptrs e) :
    Lay false (leBytes 8 (structWord 0 ds ps) ++ slice B t (e - t)) 0 (structWord 0 ds ps)
      (.struct data ptrs) 8 (8 + (e - t)) := by
  obtain ⟨hb, hd, hl, hp⟩ := ho
  unfold ObjLay at hlay
  obtain ⟨h1, h3, -⟩ := ptrsLay_end hlay (by omega)
  obtain ⟨ends, g0, g1, g2⟩ := ends_of_ptrsLay hlay
  have hsl : (slice B t (e - t)).length = e - t := slice_length_of_le (by omega)
  generalize hB' : leBytes 8 (structWord 0 ds ps) ++ slice B t (e - t) = B'
  have hl' : B'.length = 8 + (e - t) := by rw [← hB', List.length_append, leBytes_length, hsl]
  have hsd := dataSize_structWord 0 ds ps hds
  have hsp := ptrsSize_structWord 0 ds ps hds (by omega)
  have hget : ∀ x, t ≤ x → x < e → B'[x + 8 - t]? = B[x]? := by
    intro x hx1 hx2
    rw [← hB', List.getElem?_append_right (by rw [leBytes_length]; omega), leBytes_length,
      slice_getElem?, if_pos (by omega)]
    congr 1; omega
  -- the ends of the pointers stay between t and e
  have hmono : ∀ j, j < ptrs.length → ends j ≤ ends (j + 1) := by
    intro j hj
    obtain ⟨v, hv⟩ : ∃ v, ptrs[j]? = some v := ⟨ptrs[j], List.getElem?_eq_getElem hj⟩
    have := lay_size (g2 j v hv); omega
  have hup : ∀ k j, j + k ≤ ptrs.length → ends j ≤ ends (j + k) := by
    intro k
    induction k with
    | zero => intro j _; exact le_refl _
    | succ k ih =>
      intro j hj
      exact le_trans (ih j (by omega)) (hmono (j + k) (by omega))
  refine .struct 0 (structWord 0 ds ps) 8 (8 + (e - t)) data ptrs
    (fun j => ends j + 8 - t) ?_ (kind_structWord _ _ _) ?_ ?_ ?_ ?_ (by intro h; cases h) ?_ ?_ ?_
  · intro h
    have hd0 := hsd; have hp0 := hsp
    rw [h] at hd0 hp0
    rw [show dataSize 0 = 0 from rfl] at hd0
    rw [show ptrsSize 0 = 0 from rfl] at hp0
    omega
  · unfold target; rw [offset_structWord _ _ _ (by omega) (by omega)]; rfl
  · rw [hsd, hsp, hl']; omega
  · rw [hsd, hd]
    apply slice_congr
    intro k hk
    rw [← hget (t + k) (by omega) (by omega)]
    congr 1; omega
  · rw [hsp]; exact hl
  · rw [g0, hsd, hsp]; omega
  · rw [g1]; omega
  · intro j v hj
    have hjl := getElem?_lt hj
    have a1 := hup j 0 (by omega)
    rw [Nat.zero_add] at a1
    have a2 := hup (ptrs.length - (j + 1)) (j + 1) (by omega)
    rw [show j + 1 + (ptrs.length - (j + 1)) = ptrs.length by omega] at a2
    have a3 := hmono j hjl
    rw [hsd]
    have hword : wordAt B' (8 + 8 * ds + 8 * j) = wordAt B (t + 8 * ds + 8 * j) := by
      apply wordAt_congr
      intro k hk
      rw [← hget (t + 8 * ds + 8 * j + k) (by omega) (by omega)]
      congr 1; omega
    rw [hword]
    refine lay_shift (a := t) (b := 8) (g2 j v hj) _ _ _ (by omega) (by omega) (by omega) (by omega) ?_
    intro x x' hx hx1 hx2
    rw [← hget x (by omega) (by omega)]
    congr 1; omega

/-- The slow path of `dumps`. -/
theorem dumps_slow {o : StructObj} {data : Bytes} {ptrs : List Val}
    (ho : Denotes o (.struct data ptrs)) (hf : (Val.struct data ptrs).Fits)
    (hlen : o.seg.buf.length ≤ 2 ^ 32) (hsz : 16 + (Val.struct data ptrs).size ≤ 2 ^ 32)
    {fuel : Nat} (hfuel : 2 * (Val.struct data ptrs).depth ≤ fuel + 1) (fp : Bool)
    (hend : fp = true → o.getEnd fuel = .ok (-1)) :
    ∃ S, dumps o fp fuel = .ok (frame [S] []) ∧ S.length = 8 + (Val.struct data ptrs).size ∧
      8 ∣ S.length ∧ Lay true S 0 (wordAt S 0) (.struct data ptrs) 8 S.length := by
  obtain ⟨b', hb', post⟩ := copyFromStruct_spec ho hf hlen hfuel
    (b := List.replicate 16 0) (dst := 8) (by simp) (by simp) (by simp) (by simpa using hsz)
  have hl' := post.len
  simp only [List.length_replicate] at hl'
  have hal := post.al
  have hlay := post.lay b' (le_refl _) (fun _ _ _ => rfl)
  simp only [List.length_replicate] at hlay
  have hbody : ∀ x x' : Nat, x + 0 = x' + 8 → (b'.drop 8)[x']? = b'[x]? := by
    intro x x' hx
    rw [List.getElem?_drop]; congr 1; omega
  have hw0 : wordAt (b'.drop 8) 0 = wordAt b' 8 := by
    apply wordAt_congr
    intro k hk
    rw [List.getElem?_drop]; congr 1; omega
  have hS : (b'.drop 8).length = 8 + (Val.struct data ptrs).size := by
    rw [List.length_drop]; omega
  refine ⟨b'.drop 8, ?_, hS, by omega, ?_⟩
  · unfold dumps
    have hendr : dumpsEnd o fp fuel = .ok (-1) := by
      unfold dumpsEnd
      split
      · exact hend ‹_›
      · rfl
    rw [hendr]
    dsimp only
    rw [if_neg (by decide)]
    have hw : writeFmt .I 0 (1 - 1) b' = .ok () (overwrite b' 0 (le32 0)) := by
      unfold writeFmt
      rw [show (0 : Int) = ((0 : Nat) : Int) from rfl, packInto_nat (by
        have a : Fmt.lo .I = 0 := rfl
        have b : Fmt.hi .I = 4294967296 := rfl
        rw [a, b]; omega) (by
        have c : Fmt.size .I = 4 := rfl
        omega)]
      rfl
    have hol : (overwrite b' 0 (le32 0)).length = b'.length := by
      apply overwrite_length; rw [le32_length]; omega
    have hw2 : writeFmt .I 4 (((b'.length : Int) - 8) / 8) (overwrite b' 0 (le32 0))
        = .ok () (overwrite (overwrite b' 0 (le32 0)) 4 (le32 ((b'.length - 8) / 8))) := by
      unfold writeFmt
      have hx : ((b'.length : Int) - 8) / 8 = (((b'.length - 8) / 8 : Nat) : Int) := by omega
      have c : Fmt.size .I = 4 := rfl
      rw [show (4 : Int) = ((4 : Nat) : Int) from rfl, hx, packInto_nat (by
        have a : Fmt.lo .I = 0 := rfl
        have b : Fmt.hi .I = 4294967296 := rfl
        rw [a, b]; omega) (by omega)]
      have d : Fmt.card .I = 4294967296 := rfl
      dsimp only
      have hy : ((((b'.length - 8) / 8 : Nat) : Int) % ((4294967296 : Nat) : Int)).toNat
          = (b'.length - 8) / 8 := toNat_emod_of_lt (by omega)
      rw [le32_eq ((b'.length - 8) / 8), c, d, hy]
    have hrun : dumpsSlow o fuel newBuilder
        = .ok () (overwrite (overwrite b' 0 (le32 0)) 4 (le32 ((b'.length - 8) / 8))) := by
      unfold dumpsSlow
      rw [BM.bind_ok (s' := List.replicate 16 0) (a := 0) (by rfl)]
      rw [BM.bind_ok (a := ()) (s' := b') (by exact hb')]
      rw [BM.bind_ok (x := builderLength) (s' := b') (a := (b'.length : Int)) rfl]
      rw [BM.bind_ok hw]
      exact hw2
    unfold runBuilder
    rw [hrun]
    dsimp only
    refine congrArg _ ?_
    unfold overwrite frame
    simp only [le32_length, List.take_zero, List.nil_append, List.length_singleton, Nat.sub_self,
      List.map_cons, List.map_nil, List.flatten_cons, List.flatten_nil, List.append_nil, Nat.zero_add]
    rw [List.take_append_of_le_length (by simp [le32_length]), List.take_of_length_le (by simp [le32_length]),
      List.drop_append, List.drop_of_length_le (by simp [le32_length]), List.nil_append, le32_length,
      List.drop_drop, List.length_drop]
  · rw [hw0]
    have := lay_shift (B' := b'.drop 8) (a := 8) (b := 0) hlay 0 8 (b'.length - 8) (by omega) (by omega)
      (by omega) (by rw [List.length_drop]) (fun x x' hx _ _ => hbody x x' hx)
    rw [List.length_drop]; exact this

end Capnpy
