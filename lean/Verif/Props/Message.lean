import Verif.Proof.Dumps
import Verif.Props.Copy
import Verif.Props.Streams

/-!
# C17 - C20, C22, C41: messages

`frame segs pad` (Spec/Stream.lean) is the standard stream framing of a list of
segments, `Frameable` says which ones have a framing.
-/

namespace Capnpy.Props

open Capnpy Spec

/-! ## C17 -/

/-- The root of a compact object, dumped by the fast path. -/
theorem dumps_fastpath_run {B : Bytes} {offs : Option (List Nat)} {t ds ps e : Nat} {fuel : Nat}
    (he : (objAt B offs t ds ps).getEnd fuel = .ok (e : Int)) :
    dumps (objAt B offs t ds ps) true fuel = dumpMessage B (Ptr.newStruct 0 ds ps) t e := by
  unfold dumps dumpsEnd
  rw [if_pos rfl, he]
  change (if ((e : Int) ≠ -1) then _ else _) = _
  rw [if_pos (by omega)]
  rfl

/-- C17, slow path: for every well-formed object, `dumps(fastpath=False)`
succeeds and `loads` of the result denotes the same value. -/
theorem C17_slow_path {o : StructObj} {v : Val} (ho : Denotes o v) (hf : v.Fits)
    (hlen : o.seg.buf.length ≤ 2 ^ 32) (hsz : 16 + v.size ≤ 2 ^ 32)
    {fuel : Nat} (hfuel : 2 * v.depth ≤ fuel + 1) :
    ∃ s o', dumps o false fuel = .ok s ∧ loads s = .ok (some o') ∧ Denotes o' v := by
  obtain ⟨_, _, _, _, _, data, ptrs, -, -, -, -, -, -, rfl⟩ := id ho
  obtain ⟨S, h1, h2, h3, h4⟩ := dumps_slow ho hf hlen hsz hfuel false (by intro h; cases h)
  obtain ⟨o', h5, h6⟩ := loads_frame h3 (by omega) (by omega) rfl h4
  exact ⟨_, o', h1, h5, h6⟩

/-- C17, default fast path: the complete behaviour of `dumps(fastpath=True)`
followed by `loads`, for every well-formed object.

1. A non-empty struct which is not compact, or is compact and ends inside its
   buffer (as it does in every loaded message), comes back with the same value.
2. A compact object whose end lies beyond the buffer (the padding of its last
   list is missing) makes `dumps` raise ValueError.
3. An empty struct comes back as `None`. -/
theorem C17_fast_path {o : StructObj} {v : Val} (ho : Denotes o v) (hf : v.Fits)
    (hlen : o.seg.buf.length ≤ 2 ^ 32) (hsz : 16 + v.size ≤ 2 ^ 32)
    {fuel : Nat} (hfuel : 2 * v.depth ≤ fuel + 1) :
    (v ≠ .struct [] [] → (Compact o v → o.dataOffset + v.size ≤ o.seg.buf.length) →
      ∃ s o', dumps o true fuel = .ok s ∧ loads s = .ok (some o') ∧ Denotes o' v) ∧
    (Compact o v → ¬ o.dataOffset + v.size ≤ o.seg.buf.length →
      dumps o true fuel = .error .valueError) ∧
    (v = .struct [] [] → ∃ s, dumps o true fuel = .ok s ∧ loads s = .ok none) := by
  obtain ⟨B, offs, t, ds, ps, data, ptrs, rfl, -, ht8, hds, hps, hod, rfl⟩ := id ho
  change B.length ≤ 2 ^ 32 at hlen
  have hdp : (Val.struct data ptrs).depth = Val.depths ptrs + 1 := by simp only [Val.depth]
  have hps' : ps < 2 ^ 15 := by
    have : ptrs.length < 2 ^ 15 := by simp only [Val.Fits] at hf; exact hf.1
    have := hod.2.2.1
    omega
  obtain ⟨r, hr, r1, r2, r3⟩ := C16_get_end ht8 hds hps hod (fuel := fuel) (by omega)
  have hcomp : Compact (objAt B offs t ds ps) (.struct data ptrs) →
      CompactAt B t ds ps ptrs (t + (Val.struct data ptrs).size) := by
    rintro ⟨B', offs', t', ds', ps', data', ptrs', e, h1, h2, h3⟩
    unfold objAt at h1
    injection h1 with g1 g2 g3 g4 g5
    have hB : B' = B := by
      have h := congrArg Seg.buf g1
      exact h.symm
    subst hB
    cases h2
    have e1 : t = t' := by omega
    have e2 : ds = ds' := by omega
    have e3 : ps = ps' := by omega
    subst e1 e2 e3
    have := (r2 e).mpr h3
    rw [← r3 e this]; exact h3
  have hObj : ∀ e, CompactAt B t ds ps ptrs e → ObjLay false B t ds ps ptrs e := by
    rintro e ⟨ends, h0, h1, h2⟩
    have := ptrsLay_of_ends ends h2
    rw [h0, h1] at this
    exact this
  change (_ → (_ → (t : Int) + _ ≤ (B.length : Int)) → _) ∧ (_ → ¬ (t : Int) + _ ≤ (B.length : Int) → _) ∧ _
  by_cases hcc : ∃ e, CompactAt B t ds ps ptrs e
  · obtain ⟨e, hce⟩ := hcc
    have hre := (r2 e).mpr hce
    have hes := r3 e hre
    subst hre
    have hl := hObj e hce
    refine ⟨?_, ?_, ?_⟩
    · intro hne hin
      have hin' := hin ⟨B, offs, t, ds, ps, data, ptrs, e, rfl, rfl, hce⟩
      have hin2 : e ≤ B.length := by omega
      have hpos : 0 < ds + ps := by
        rcases Nat.eq_zero_or_pos (ds + ps) with h0 | h0
        · exfalso; apply hne
          obtain rfl : ds = 0 := by omega
          obtain rfl : ps = 0 := by omega
          obtain ⟨-, h1, h2, -⟩ := hod
          rw [h1, List.length_eq_zero_iff.mp h2]; rfl
        · exact h0
      obtain ⟨h1, h2, h3⟩ := dumps_fast ht8 hds hps' hin2 hlen hod hl
      have hlay := fast_lay ht8 hds hps' hin2 hpos hod hl
      have hlen' : (leBytes 8 (structWord 0 ds ps) ++ slice B t (e - t)).length = 8 + (e - t) := by
        rw [List.length_append, leBytes_length, slice_length_of_le (by omega)]
      have hwlt : structWord 0 ds ps < 2 ^ 64 := by
        have hps2 : ps < 32768 := by norm_num at hps'; exact hps'
        have hds2 : ds < 65536 := by norm_num at hds; exact hds
        unfold structWord
        clear * - hps2 hds2
        norm_num
        omega
      obtain ⟨o', h5, h6⟩ := loads_frame (S := leBytes 8 (structWord 0 ds ps) ++ slice B t (e - t))
        (by rw [hlen']; omega) (by rw [hlen']; omega) (by rw [hlen']; norm_num at hlen ⊢; omega)
        (wordAt_leBytes hwlt _) hlay
      exact ⟨_, o', (dumps_fastpath_run hr).trans h1, h5, h6⟩
    · intro _ hout
      rw [dumps_fastpath_run hr]
      unfold dumpMessage
      rw [if_pos (by omega)]
    · intro hv
      injection hv with hv1 hv2
      subst hv1 hv2
      have hp0 : ps = 0 := by have := hod.2.2.1; simp at this; omega
      have hd0 : ds = 0 := by
        have := congrArg List.length hod.2.1
        rw [slice_length_of_le (by have := hod.1; omega)] at this
        simp at this; omega
      subst hp0 hd0
      have hst : e = t := by rw [hes]; simp [Val.size, Val.sizes]
      subst hst
      obtain ⟨h1, h2, h3⟩ := dumps_fast ht8 hds hps' (by have := hod.1; omega) hlen hod hl
      refine ⟨_, (dumps_fastpath_run hr).trans h1, ?_⟩
      rw [Nat.sub_self, show slice B e 0 = [] by simp [slice]]
      decide +kernel
  · have hr1 := r1.mpr hcc
    subst hr1
    refine ⟨?_, ?_, ?_⟩
    · intro _ _
      obtain ⟨S, h1, h2, h3, h4⟩ := dumps_slow ho hf hlen hsz hfuel true (fun _ => hr)
      obtain ⟨o', h5, h6⟩ := loads_frame h3 (by omega) (by omega) rfl h4
      exact ⟨_, o', h1, h5, h6⟩
    · intro hc; exact absurd ⟨_, hcomp hc⟩ hcc
    · intro hv
      exfalso
      injection hv with hv1 hv2
      subst hv2
      exact hcc ⟨t + 8 * (ds + ps), fun _ => t + 8 * (ds + ps), rfl, rfl, by intro j v hj; simp at hj⟩

/-- C17: in particular every non-empty struct of a message whose length is a
whole number of words, as that of every loaded message, survives
`loads(dumps(x))`. -/
theorem C17_fast_path_loaded {o : StructObj} {v : Val} (ho : Denotes o v) (hf : v.Fits)
    (hne : v ≠ .struct [] []) (h8 : 8 ∣ o.seg.buf.length)
    (hlen : o.seg.buf.length ≤ 2 ^ 32) (hsz : 16 + v.size ≤ 2 ^ 32)
    {fuel : Nat} (hfuel : 2 * v.depth ≤ fuel + 1) :
    ∃ s o', dumps o true fuel = .ok s ∧ loads s = .ok (some o') ∧ Denotes o' v := by
  refine (C17_fast_path ho hf hlen hsz hfuel).1 hne ?_
  rintro ⟨B, offs, t, ds, ps, data, ptrs, e, rfl, rfl, hc⟩
  obtain ⟨B', offs', t', ds', ps', data', ptrs', h1, -, ht8, hds, hps, hod, h2⟩ := id ho
  unfold objAt at h1
  injection h1 with g1 g2 g3 g4 g5
  have hB : B = B' := congrArg Seg.buf g1
  subst hB
  cases h2
  have e1 : t = t' := by omega
  have e2 : ds = ds' := by omega
  have e3 : ps = ps' := by omega
  subst e1 e2 e3
  obtain ⟨r, hr, r1, r2, r3⟩ := C16_get_end ht8 hds hps hod (fuel := fuel)
    (by have hdp : (Val.struct data ptrs).depth = Val.depths ptrs + 1 := by simp only [Val.depth]
        omega)
  have hes := r3 e ((r2 e).mpr hc)
  obtain ⟨ends, c0, c1, c2⟩ := hc
  have hl := ptrsLay_of_ends ends c2
  rw [c0, c1] at hl
  have := (ptrsLay_end hl (by omega)).2.2 h8 hod.1
  change (t : Int) + _ ≤ (B.length : Int)
  omega

/-- Finding (the plain round trip is false for an empty struct with the default fast path): the
root pointer is written as the null pointer and `loads` returns `None`. -/
theorem C17_empty_struct_lost :
    ∃ (o : StructObj) (s : Bytes), Denotes o (.struct [] []) ∧ dumps o true 5 = .ok s ∧
      loads s = .ok none := by
  refine ⟨objAt [0, 0, 0, 0, 0, 0, 0, 0] none 8 0 0, [0, 0, 0, 0, 1, 0, 0, 0, 0, 0, 0, 0, 0, 0, 0, 0],
    ?_, by decide +kernel, by decide +kernel⟩
  refine ⟨_, none, 8, 0, 0, [], [], rfl, ?_, by norm_num, by norm_num, by norm_num,
    ⟨by decide, by decide, rfl, ?_⟩, rfl⟩
  · intro tbl h; cases h
  · intro j v hj; simp at hj

/-- Finding: `dumps` with the fast path raises ValueError for a well-formed
object at the end of a buffer in which the padding of the last list is missing. -/
theorem C17_unpadded_buffer :
    ∃ (o : StructObj) (v : Val), Denotes o v ∧ dumps o true 5 = .error .valueError ∧
      ∃ s o', dumps o false 5 = .ok s ∧ loads s = .ok (some o') ∧ Denotes o' v := by
  have hden : Denotes (objAt [1, 0, 0, 0, 0x1a, 0, 0, 0, 1, 2, 3] none 0 0 1)
      (.struct [] [.listPrim 2 3 [1, 2, 3]]) := by
    refine ⟨_, none, 0, 0, 1, [], [.listPrim 2 3 [1, 2, 3]], rfl, ?_, by norm_num, by norm_num,
      by norm_num, ⟨by decide, by decide, rfl, ?_⟩, rfl⟩
    · intro tbl h; cases h
    · intro j v hj
      match j, hj with
      | 0, hj =>
        cases hj
        have h := Den.listPrim (B := [1, 0, 0, 0, 0x1a, 0, 0, 0, 1, 2, 3]) (offs := none)
          ((0 + 8 * 0 + 8 * 0 : Nat) : Int)
          (wordAt [1, 0, 0, 0, 0x1a, 0, 0, 0, 1, 2, 3] (0 + 8 * 0 + 8 * 0)) 8
          (by decide) (by decide) (by decide) (by decide)
        have h1 : listTag (wordAt [1, 0, 0, 0, 0x1a, 0, 0, 0, 1, 2, 3] (0 + 8 * 0 + 8 * 0)) = 2 := by decide
        have h2 : listCount (wordAt [1, 0, 0, 0, 0x1a, 0, 0, 0, 1, 2, 3] (0 + 8 * 0 + 8 * 0)) = 3 := by decide
        rw [h1, h2] at h
        exact h
      | j + 1, hj => simp at hj
  refine ⟨_, _, hden, by decide +kernel, ?_⟩
  exact C17_slow_path hden (by simp [Val.Fits, Val.AllFits]) (by decide) (by decide) (by decide)

example : ∃ s o', dumps sampleObj true 5 = .ok s ∧ loads s = .ok (some o') ∧ Denotes o' sampleVal :=
  C17_fast_path_loaded sample_denotes (by simp [sampleVal, Val.Fits, Val.AllFits])
    (by simp [sampleVal]) (by decide) (by decide) (by decide) (by decide)

/-! ## C18 -/

/-- C18: every output of `dumps`, on either path, is the segment count 0 (i.e. one
segment), the number of words that follow, and exactly that many words.  (When
`dumps` fails: see `C17_fast_path`.) -/
theorem C18_frame {o : StructObj} {v : Val} (ho : Denotes o v) (hf : v.Fits)
    (hlen : o.seg.buf.length ≤ 2 ^ 32) (hsz : 16 + v.size ≤ 2 ^ 32)
    {fuel : Nat} (hfuel : 2 * v.depth ≤ fuel + 1) (fastpath : Bool)
    {s : Bytes} (hs : dumps o fastpath fuel = .ok s) :
    ∃ (words : Nat) (body : Bytes),
      s = le32 0 ++ le32 words ++ body ∧ body.length = 8 * words ∧ words < 2 ^ 32 := by
  have key : ∀ S : Bytes, frame [S] [] = le32 0 ++ le32 (S.length / 8) ++ S := by
    intro S; simp [frame]
  obtain ⟨B, offs, t, ds, ps, data, ptrs, rfl, -, ht8, hds, hps, hod, rfl⟩ := id ho
  change B.length ≤ 2 ^ 32 at hlen
  have hdp : (Val.struct data ptrs).depth = Val.depths ptrs + 1 := by simp only [Val.depth]
  have hps' : ps < 2 ^ 15 := by
    have : ptrs.length < 2 ^ 15 := by simp only [Val.Fits] at hf; exact hf.1
    have := hod.2.2.1
    omega
  have slow : (fastpath = true → (objAt B offs t ds ps).getEnd fuel = .ok (-1)) →
      ∃ (words : Nat) (body : Bytes),
      s = le32 0 ++ le32 words ++ body ∧ body.length = 8 * words ∧ words < 2 ^ 32 := by
    intro hend
    obtain ⟨S, h1, h2, h3, h4⟩ := dumps_slow ho hf hlen hsz hfuel fastpath hend
    rw [h1] at hs
    cases hs
    refine ⟨S.length / 8, S, by rw [key], by omega, by omega⟩
  cases fastpath with
  | false => exact slow (by intro h; cases h)
  | true =>
    obtain ⟨r, hr, hc⟩ := getEnd_spec ht8 hds hps hod (fuel := fuel) (by omega)
    rcases hc with ⟨rfl, -⟩ | ⟨e, rfl, hl⟩
    · exact slow (fun _ => hr)
    · have h4 : e ≤ B.length := by
        by_contra hcon
        rw [dumps_fastpath_run hr] at hs
        unfold dumpMessage at hs
        rw [if_pos (by omega)] at hs
        cases hs
      obtain ⟨h1, h2, h3⟩ := dumps_fast ht8 hds hps' h4 hlen hod hl
      have hlen' : (leBytes 8 (structWord 0 ds ps) ++ slice B t (e - t)).length = 8 + (e - t) := by
        rw [List.length_append, leBytes_length, slice_length_of_le (by omega)]
      rw [(dumps_fastpath_run hr).trans h1] at hs
      cases hs
      refine ⟨(leBytes 8 (structWord 0 ds ps) ++ slice B t (e - t)).length / 8, _,
        by rw [key], ?_, ?_⟩
      · rw [hlen']; omega
      · rw [hlen']; norm_num at hlen ⊢; omega

/-- C18: and takes 16 bytes more than the value, on either path: nothing else of the buffer
is sent along. -/
theorem C18_size {o : StructObj} {v : Val} (ho : Denotes o v) (hf : v.Fits)
    (hlen : o.seg.buf.length ≤ 2 ^ 32) (hsz : 16 + v.size ≤ 2 ^ 32)
    {fuel : Nat} (hfuel : 2 * v.depth ≤ fuel + 1) (fastpath : Bool)
    {s : Bytes} (hs : dumps o fastpath fuel = .ok s) : s.length = 16 + v.size := by
  have key : ∀ S : Bytes, (frame [S] []).length = 8 + S.length := by
    intro S
    have : frame [S] [] = le32 0 ++ le32 (S.length / 8) ++ S := by simp [frame]
    rw [this]
    simp only [List.length_append, le32, leBytes_length]
    rfl
  obtain ⟨B, offs, t, ds, ps, data, ptrs, rfl, -, ht8, hds, hps, hod, rfl⟩ := id ho
  change B.length ≤ 2 ^ 32 at hlen
  have hdp : (Val.struct data ptrs).depth = Val.depths ptrs + 1 := by simp only [Val.depth]
  have hps' : ps < 2 ^ 15 := by
    have : ptrs.length < 2 ^ 15 := by simp only [Val.Fits] at hf; exact hf.1
    have := hod.2.2.1
    omega
  have slow : (fastpath = true → (objAt B offs t ds ps).getEnd fuel = .ok (-1)) →
      s.length = 16 + (Val.struct data ptrs).size := by
    intro hend
    obtain ⟨S, h1, h2, h3, h4⟩ := dumps_slow ho hf hlen hsz hfuel fastpath hend
    rw [h1] at hs
    cases hs
    rw [key, h2]
    omega
  cases fastpath with
  | false => exact slow (by intro h; cases h)
  | true =>
    obtain ⟨r', hr', -, -, hsize⟩ := C16_get_end ht8 hds hps hod (fuel := fuel) (by omega)
    obtain ⟨r, hr, hc⟩ := getEnd_spec ht8 hds hps hod (fuel := fuel) (by omega)
    rw [hr] at hr'
    injection hr' with hr'
    rcases hc with ⟨rfl, -⟩ | ⟨e, rfl, hl⟩
    · exact slow (fun _ => hr)
    · have he := hsize e hr'.symm
      have h4 : e ≤ B.length := by
        by_contra hcon
        rw [dumps_fastpath_run hr] at hs
        unfold dumpMessage at hs
        rw [if_pos (by omega)] at hs
        cases hs
      obtain ⟨h1, h2, h3⟩ := dumps_fast ht8 hds hps' h4 hlen hod hl
      have hlen' : (leBytes 8 (structWord 0 ds ps) ++ slice B t (e - t)).length = 8 + (e - t) := by
        rw [List.length_append, leBytes_length, slice_length_of_le (by omega)]
      rw [(dumps_fastpath_run hr).trans h1] at hs
      cases hs
      rw [key, hlen', he]
      omega

example (fp : Bool) : ∃ (words : Nat) (body : Bytes),
    dumps sampleObj fp 5 = .ok (le32 0 ++ le32 words ++ body) ∧ body.length = 8 * words ∧ words < 2 ^ 32 := by
  have hex : ∃ s, dumps sampleObj fp 5 = .ok s := by
    cases fp
    · obtain ⟨s, _, h, _⟩ := C17_slow_path sample_denotes (by simp [sampleVal, Val.Fits, Val.AllFits])
        (by decide) (by decide) (fuel := 5) (by decide)
      exact ⟨s, h⟩
    · obtain ⟨s, _, h, _⟩ := C17_fast_path_loaded sample_denotes (by simp [sampleVal, Val.Fits, Val.AllFits])
        (by simp [sampleVal]) (by decide) (by decide) (by decide) (fuel := 5) (by decide)
      exact ⟨s, h⟩
  obtain ⟨s, hs⟩ := hex
  obtain ⟨w, b, rfl, h2, h3⟩ := C18_frame sample_denotes (by simp [sampleVal, Val.Fits, Val.AllFits]) (by decide)
    (by decide) (by decide) fp hs
  exact ⟨w, b, hs, h2, h3⟩

/-! ## C19 -/

/-- How `load` ends, from how the message is loaded. -/
theorem load_of_message {σ} {F : FileLike σ} {st st' : σ} {m : StructObj}
    (h : loadMessage F st = .ok m st') :
    load F st = match m.readStruct 0 with
      | .ok x => .ok x st'
      | .error e => .error e st' := by
  unfold load
  rw [FM.bind_ok h]
  cases hr : m.readStruct 0 with
  | ok x => rfl
  | error e => rfl

theorem load_of_error {σ} {F : FileLike σ} {st st' : σ} {e : PyErr}
    (h : loadMessage F st = .error e st') : load F st = .error e st' := by
  unfold load
  exact FM.bind_error h

theorem loads_run {S : Bytes} {x : Option StructObj} {k : Int}
    (h : load SBuffer.file (SBuffer.init S) = .ok x ⟨S, k⟩) :
    loads S = if k ≠ S.length then .error .valueError else .ok x := by
  unfold loads
  rw [h]
  rfl

theorem loads_run_error {S : Bytes} {e : PyErr} {st : SBuffer}
    (h : load SBuffer.file (SBuffer.init S) = .error e st) : loads S = .error e := by
  unfold loads
  rw [h]

/-- C19: `loads` of every proper prefix of a framed message raises: EOFError for
the empty prefix, ValueError otherwise. -/
theorem C19_truncated {segs : List Bytes} {pad p more : Bytes} (h : Frameable segs pad)
    (h8 : segs.flatten ≠ []) (hp : p ++ more = frame segs pad) (hm : more ≠ []) :
    loads p = .error (if p = [] then .eofError else .valueError) := by
  obtain ⟨st', h1⟩ := loadMessage_prefix (SBuffer.faithful p) (st := SBuffer.init p) h h8 hp hm
    ⟨0, by simp, rfl, by simp⟩
  unfold loads
  rw [load_of_error h1]

/-- C19: the same for `load` from a stream, whatever the chunks: it never returns
a message from a partial frame. -/
theorem C19_truncated_stream {segs : List Bytes} {pad more : Bytes} (chunks : List Bytes)
    (hc : ∀ c ∈ chunks, c ≠ []) (h : Frameable segs pad)
    (h8 : segs.flatten ≠ []) (hp : chunks.flatten ++ more = frame segs pad) (hm : more ≠ []) :
    ∃ st', load BStream.file (BStream.init chunks)
      = .error (if chunks.flatten = [] then .eofError else .valueError) st' := by
  obtain ⟨st', h1⟩ := loadMessage_prefix BStream.faithful (st := BStream.init chunks) h h8 hp hm
    ⟨⟨le_refl _, hc⟩, by simp [BStream.init, BStream.rest]⟩
  exact ⟨st', load_of_error h1⟩

/-- C19 also for a message of zero words, which `loads` rejects anyway (with
AssertionError, unless the header itself is truncated). -/
theorem C19_truncated_empty {segs : List Bytes} {pad p more : Bytes} (h : Frameable segs pad)
    (h8 : segs.flatten = []) (hp : p ++ more = frame segs pad) :
    ∃ e, loads p = .error e ∧ (e = .eofError ∨ e = .valueError ∨ e = .assertionError) := by
  obtain ⟨f1, f2, f3, f4, f5⟩ := frame_fields (rest := []) h
  rw [List.append_nil] at f1 f2 f3 f4 f5
  obtain ⟨l1, l2, l3, -⟩ := loadMessage_spec (SBuffer.faithful p) (st := SBuffer.init p) (b := p)
    ⟨0, by simp, rfl, by simp⟩
  by_cases h0 : p.length = 0
  · obtain ⟨st', h1⟩ := l1 h0
    exact ⟨_, by unfold loads; rw [load_of_error h1], .inl rfl⟩
  · by_cases h5 : 4 + 4 * segCount p ≤ p.length
    · have hs := segSizes_prefix (more := more) h5
      have hb : bodyLen p = 0 := by
        unfold bodyLen; rw [hs, hp]; exact f4.trans (by rw [h8]; rfl)
      obtain ⟨st', h1⟩ := l3 h5 hb
      exact ⟨_, by unfold loads; rw [load_of_error h1], .inr (.inr rfl)⟩
    · obtain ⟨st', h1⟩ := l2 (by omega) (.inl (by omega))
      exact ⟨_, by unfold loads; rw [load_of_error h1], .inr (.inl rfl)⟩

/-- What `loads` does on a frame followed by anything. -/
theorem loads_frame_extra {segs : List Bytes} {pad extra : Bytes} (h : Frameable segs pad)
    (h8 : segs.flatten ≠ []) :
    loads (frame segs pad ++ extra) =
      match (objAt segs.flatten (segTable segs) 0 0 1).readStruct 0 with
      | .error e => .error e
      | .ok x => if extra = [] then .ok x else .error .valueError := by
  obtain ⟨st', h1, k, hk, rfl, h2⟩ := loadMessage_frame (SBuffer.faithful (frame segs pad ++ extra))
    (rest := extra) (st := SBuffer.init (frame segs pad ++ extra)) h h8 ⟨0, by simp, rfl, by simp⟩
  have hk' : k = (frame segs pad).length := by
    have := congrArg List.length h2
    rw [List.length_drop, List.length_append] at this
    rw [List.length_append] at hk
    omega
  have h3 := load_of_message h1
  cases hr : (objAt segs.flatten (segTable segs) 0 0 1).readStruct 0 with
  | error e =>
    rw [hr] at h3
    exact loads_run_error h3
  | ok x =>
    rw [hr] at h3
    rw [loads_run h3]
    simp only
    by_cases he : extra = []
    · rw [if_pos he, if_neg]
      rw [he, List.append_nil, hk']
      exact not_not_intro rfl
    · rw [if_neg he, if_pos]
      rw [hk', List.length_append]
      have := List.length_pos_iff.mpr he
      push_cast
      omega

/-- C19: a framed message that loads is rejected with ValueError if anything
follows it; one that does not load is rejected too, with the same error. -/
theorem C19_extra {segs : List Bytes} {pad extra : Bytes} (h : Frameable segs pad)
    (h8 : segs.flatten ≠ []) (hx : extra ≠ []) :
    (∀ x, loads (frame segs pad) = .ok x → loads (frame segs pad ++ extra) = .error .valueError) ∧
    (∀ e, loads (frame segs pad) = .error e → loads (frame segs pad ++ extra) = .error e) := by
  have h0 := loads_frame_extra (extra := []) h h8
  rw [List.append_nil] at h0
  rw [h0, loads_frame_extra h h8]
  cases hr : (objAt segs.flatten (segTable segs) 0 0 1).readStruct 0 with
  | error e => exact ⟨fun x hx => by simp at hx, fun e he => he⟩
  | ok x => exact ⟨fun x _ => if_neg hx, fun e he => by simp at he⟩

/-- A sample message of two segments: the root is a far pointer to a pad in the
second segment. -/
def sampleSegs : List Bytes :=
  [leBytes 8 (2 + 2 ^ 32), leBytes 8 (structWord 0 1 0) ++ leBytes 8 42]

theorem sampleSegs_frameable : Frameable sampleSegs [0, 0, 0, 0] :=
  ⟨by decide, by decide, by decide, by decide, by decide⟩

/-- The sample message loads; its prefixes and extensions are rejected. -/
example : loads (frame sampleSegs [0, 0, 0, 0]) = .ok (some (objAt sampleSegs.flatten (some [0, 8]) 16 1 0)) ∧
    loads ((frame sampleSegs [0, 0, 0, 0]).take 39) = .error .valueError ∧
    loads (frame sampleSegs [0, 0, 0, 0] ++ [7]) = .error .valueError := by
  have h : loads (frame sampleSegs [0, 0, 0, 0])
      = .ok (some (objAt sampleSegs.flatten (some [0, 8]) 16 1 0)) := by decide +kernel
  refine ⟨h, ?_, ?_⟩
  · have := C19_truncated (p := (frame sampleSegs [0, 0, 0, 0]).take 39)
      (more := (frame sampleSegs [0, 0, 0, 0]).drop 39) sampleSegs_frameable (by decide)
      (List.take_append_drop _ _) (by decide)
    rw [this, if_neg (by decide)]
  · exact (C19_extra sampleSegs_frameable (by decide) (by decide)).1 _ h

/-! ## C20 -/

/-- C20: loading the framing of any segments from a stream, whatever the chunks,
gives a message whose buffer is the concatenation of the segments with the table
of their start positions, and leaves unread exactly what follows the frame: every
later call on the stream sees `rest`. -/
theorem C20_load_message (chunks : List Bytes) (hc : ∀ c ∈ chunks, c ≠ []) {segs : List Bytes}
    {pad rest : Bytes} (h : Frameable segs pad) (h8 : segs.flatten ≠ [])
    (hs : chunks.flatten = frame segs pad ++ rest) :
    ∃ (m : StructObj) (st' : BStream), loadMessage BStream.file (BStream.init chunks) = .ok m st' ∧
      m.seg.buf = segs.flatten ∧
      m.seg.offs = (if segs.length = 1 then none else some ((segStarts segs).map Int.ofNat)) ∧
      m.dataOffset = 0 ∧ m.ptrsOffset = 0 ∧ m.dataSize = 0 ∧ m.ptrsSize = 1 ∧
      ∀ cmds, BStream.run st' cmds = flatRun rest cmds := by
  obtain ⟨st', h1, h2, h3⟩ := loadMessage_frame BStream.faithful (rest := rest)
    (st := BStream.init chunks) h h8 ⟨⟨le_refl _, hc⟩, by rw [← hs]; simp [BStream.init, BStream.rest]⟩
  refine ⟨_, st', h1, rfl, ?_, rfl, rfl, rfl, rfl, ?_⟩
  · change Option.map (List.map Int.ofNat) (segTable segs) = _
    unfold segTable
    split <;> rfl
  · intro cmds
    rw [BStream.run_spec cmds h2, h3]

/-- C20: the table is right: segment `i` starts at its entry. -/
theorem C20_segment_starts {segs : List Bytes} {i : Nat} {s : Bytes} (h : segs[i]? = some s) :
    ∃ st, (segStarts segs)[i]? = some st ∧ slice segs.flatten st s.length = s := by
  induction segs generalizing i with
  | nil => simp at h
  | cons a segs ih =>
    cases i with
    | zero =>
      simp only [List.getElem?_cons_zero, Option.some.injEq] at h
      subst h
      exact ⟨0, by simp [segStarts], by simp [slice]⟩
    | succ i =>
      simp only [List.getElem?_cons_succ] at h
      obtain ⟨st, h1, h2⟩ := ih h
      refine ⟨st + a.length, by simp [segStarts, h1], ?_⟩
      rw [List.flatten_cons]
      unfold slice at h2 ⊢
      rw [Nat.add_comm, ← List.drop_drop, List.drop_left, h2]

theorem segStarts_aligned {segs : List Bytes} (h : ∀ s ∈ segs, 8 ∣ s.length) :
    ∀ st ∈ segStarts segs, 8 ∣ st := by
  induction segs with
  | nil => intro st hst; simp [segStarts] at hst
  | cons a segs ih =>
    intro st hst
    simp only [segStarts, List.mem_cons, List.mem_map] at hst
    rcases hst with rfl | ⟨x, hx, rfl⟩
    · simp
    · exact Nat.dvd_add (ih (fun s hs => h s (List.mem_cons_of_mem _ hs)) x hx)
        (h a List.mem_cons_self)

/-- C20: if the root pointer of a message denotes the struct `v` (possibly
through far pointers between its segments), `load` returns an object denoting
`v`, and what follows the frame is left unread. -/
theorem C20_load (chunks : List Bytes) (hc : ∀ c ∈ chunks, c ≠ []) {segs : List Bytes}
    {pad rest : Bytes} (h : Frameable segs pad) (h8 : segs.flatten ≠ [])
    (hs : chunks.flatten = frame segs pad ++ rest) {data : Bytes} {ptrs : List Val}
    (hden : Den segs.flatten (segTable segs) 0 (wordAt segs.flatten 0) (.struct data ptrs)) :
    ∃ (o : StructObj) (st' : BStream), load BStream.file (BStream.init chunks) = .ok (some o) st' ∧
      Denotes o (.struct data ptrs) ∧ ∀ cmds, BStream.run st' cmds = flatRun rest cmds := by
  obtain ⟨st', h1, h2, h3⟩ := loadMessage_frame BStream.faithful (rest := rest)
    (st := BStream.init chunks) h h8 ⟨⟨le_refl _, hc⟩, by rw [← hs]; simp [BStream.init, BStream.rest]⟩
  have hfl : 8 ≤ segs.flatten.length := by
    have hsum := sum_sizes segs h.word
    have := List.length_pos_iff.mpr h8
    omega
  have hd : Denotes (objAt segs.flatten (segTable segs) 0 0 1) (.struct [] [.struct data ptrs]) := by
    refine ⟨_, _, 0, 0, 1, [], [.struct data ptrs], rfl, ?_, by simp, by norm_num, by norm_num,
      ⟨by omega, by simp [slice], rfl, ?_⟩, rfl⟩
    · intro tbl htbl
      unfold segTable at htbl
      split at htbl
      · cases htbl
      · cases htbl; exact segStarts_aligned h.word
    · intro j v hj
      match j, hj with
      | 0, hj => cases hj; exact hden
      | j + 1, hj => simp at hj
  obtain ⟨o', r1, r2, r3⟩ := readStruct_struct hd (j := 0) rfl
  rw [show ((8 * 0 : Nat) : Int) = 0 by norm_num] at r1
  refine ⟨o', st', ?_, r3, ?_⟩
  · rw [load_of_message h1, r1]
  · intro cmds; rw [BStream.run_spec cmds h2, h3]

/-- The sample message meets the hypotheses, cut into two chunks in the middle of
the header. -/
example : ∃ (o : StructObj) (st' : BStream),
    load BStream.file (BStream.init [(frame sampleSegs [0, 0, 0, 0]).take 5,
      (frame sampleSegs [0, 0, 0, 0]).drop 5 ++ [1, 2]]) = .ok (some o) st' ∧
      Denotes o (.struct (leBytes 8 42) []) ∧ ∀ cmds, BStream.run st' cmds = flatRun [1, 2] cmds := by
  refine C20_load _ (by decide) (rest := [1, 2]) sampleSegs_frameable (by decide) (by decide) ?_
  refine .far 0 _ 8 8 [0, 8] _ (by decide) rfl (by decide) (by decide) (by decide) (by decide)
    (by decide) (by decide) (by decide) (by decide) ?_
  refine .struct _ _ 16 _ _ (by decide) (by decide) (by decide) (by decide) (by decide) (by decide) ?_
  intro j v hj; simp at hj

/-! ## C22 -/

/-- Framed messages with the objects they load to. -/
structure Loadable (m : List Bytes × Bytes × Option StructObj) : Prop where
  frameable : Frameable m.1 m.2.1
  nonempty : m.1.flatten ≠ []
  loads : loads (frame m.1 m.2.1) = .ok m.2.2

/-- The stream that consists of the framed messages, one after the other. -/
def concat (ms : List (List Bytes × Bytes × Option StructObj)) : Bytes :=
  (ms.map fun m => frame m.1 m.2.1).flatten

theorem loadAll_gen {σ} {F : FileLike σ} {R : σ → Bytes → Prop} {E : σ → Prop} (hF : Faithful F R E)
    (tail : Bytes) (last : GenEnd)
    (hlast : ∀ st, R st tail → ∀ f, ∃ st', loadAll F (f + 1) st = ([], last, st')) :
    ∀ (ms : List (List Bytes × Bytes × Option StructObj)), (∀ m ∈ ms, Loadable m) →
    ∀ st, R st (concat ms ++ tail) → ∀ fuel, ms.length < fuel →
      ∃ st', loadAll F fuel st = (ms.map fun m => m.2.2, last, st') := by
  intro ms
  induction ms with
  | nil =>
    intro _ st hR fuel hf
    obtain ⟨f, rfl⟩ : ∃ f, fuel = f + 1 := ⟨fuel - 1, by simp at hf; omega⟩
    obtain ⟨st', h⟩ := hlast st hR f
    exact ⟨st', h⟩
  | cons m ms ih =>
    intro hm st hR fuel hf
    rw [List.length_cons] at hf
    obtain ⟨f, rfl⟩ : ∃ f, fuel = f + 1 := ⟨fuel - 1, by omega⟩
    have hl := hm m List.mem_cons_self
    have hcc : concat (m :: ms) ++ tail = frame m.1 m.2.1 ++ (concat ms ++ tail) := by
      simp [concat]
    rw [hcc] at hR
    obtain ⟨st1, h1, h2⟩ := loadMessage_frame hF hl.frameable hl.nonempty hR
    obtain ⟨st2, h3⟩ := ih (fun x hx => hm x (List.mem_cons_of_mem _ hx)) st1 h2 f (by omega)
    have h4 := loads_frame_extra (extra := []) hl.frameable hl.nonempty
    rw [List.append_nil, hl.loads] at h4
    have h5 : load F st = .ok m.2.2 st1 := by
      rw [load_of_message h1]
      cases hr : (objAt m.1.flatten (segTable m.1) 0 0 1).readStruct 0 with
      | error e => rw [hr] at h4; cases h4
      | ok x => rw [hr] at h4; cases h4; rfl
    refine ⟨st2, ?_⟩
    simp only [loadAll]
    rw [h5]
    simp only [h3, List.map_cons]

/-- C22: `load_all` over the concatenation of any number of framed messages, in
any chunks, yields exactly these messages in order and stops. -/
theorem C22_load_all (ms : List (List Bytes × Bytes × Option StructObj)) (hm : ∀ m ∈ ms, Loadable m)
    (chunks : List Bytes) (hc : ∀ c ∈ chunks, c ≠ []) (hs : chunks.flatten = concat ms)
    {fuel : Nat} (hf : ms.length < fuel) :
    ∃ st', loadAll BStream.file fuel (BStream.init chunks) = (ms.map fun m => m.2.2, .stop, st') := by
  refine loadAll_gen BStream.faithful [] .stop ?_ ms hm (BStream.init chunks)
    ⟨⟨le_refl _, hc⟩, by rw [List.append_nil, ← hs]; simp [BStream.init, BStream.rest]⟩ fuel hf
  intro st hR f
  obtain ⟨l1, -⟩ := loadMessage_spec BStream.faithful hR
  obtain ⟨st', h⟩ := l1 rfl
  exact ⟨st', by simp only [loadAll]; rw [load_of_error h]⟩

/-- C22: if the stream is cut inside a message, `load_all` yields all complete
messages before it and then raises ValueError. -/
theorem C22_load_all_truncated (ms : List (List Bytes × Bytes × Option StructObj))
    (hm : ∀ m ∈ ms, Loadable m) {segs : List Bytes} {pad p more : Bytes} (h : Frameable segs pad)
    (h8 : segs.flatten ≠ []) (hp : p ++ more = frame segs pad) (hp0 : p ≠ []) (hmore : more ≠ [])
    (chunks : List Bytes) (hc : ∀ c ∈ chunks, c ≠ []) (hs : chunks.flatten = concat ms ++ p)
    {fuel : Nat} (hf : ms.length < fuel) :
    ∃ st', loadAll BStream.file fuel (BStream.init chunks)
      = (ms.map fun m => m.2.2, .raised .valueError, st') := by
  refine loadAll_gen BStream.faithful p (.raised .valueError) ?_ ms hm (BStream.init chunks)
    ⟨⟨le_refl _, hc⟩, by rw [← hs]; simp [BStream.init, BStream.rest]⟩ fuel hf
  intro st hR f
  obtain ⟨st', h⟩ := loadMessage_prefix BStream.faithful h h8 hp hmore hR
  rw [if_neg hp0] at h
  exact ⟨st', by simp only [loadAll]; rw [load_of_error h]⟩

example : ∃ st', loadAll BStream.file 3 (BStream.init [(frame sampleSegs [0, 0, 0, 0]),
      (frame sampleSegs [0, 0, 0, 0]).take 30])
    = ([some (objAt sampleSegs.flatten (some [0, 8]) 16 1 0)], .raised .valueError, st') := by
  refine C22_load_all_truncated [(sampleSegs, [0, 0, 0, 0], some (objAt sampleSegs.flatten (some [0, 8]) 16 1 0))]
    ?_ sampleSegs_frameable (by decide) (List.take_append_drop 30 _) (by decide) (by decide) _
    (by decide) (by decide) (by decide)
  intro m hm
  rw [List.mem_singleton] at hm
  subst hm
  exact ⟨sampleSegs_frameable, by decide, by decide +kernel⟩

/-! ## C41 -/

/-- The errors `load` may raise. -/
def LoadErr (e : PyErr) : Prop :=
  e = .eofError ∨ e = .valueError ∨ e = .assertionError ∨ e = .indexError

theorem readPrimitive_err {buf : Bytes} {off : Int} {fmt : Fmt} {e : PyErr}
    (h : Capnpy.readPrimitive buf off fmt = .error e) : e = .indexError := by
  by_cases hc : off < 0 ∨ off + fmt.size > buf.length
  · unfold Capnpy.readPrimitive at h; rw [if_pos hc] at h; cases h; rfl
  · unfold Capnpy.readPrimitive at h; rw [if_neg hc] at h
    obtain ⟨k, rfl⟩ : ∃ k : Nat, off = k := ⟨off.toNat, by omega⟩
    have := readPrimitive_nat (fmt := fmt) (b := buf) (i := k) (by omega)
    unfold Capnpy.readPrimitive at this; rw [if_neg hc] at this
    rw [this] at h; cases h

theorem pyIndex_err {α} {l : List α} {i : Int} {e : PyErr} (h : pyIndex l i = .error e) :
    e = .indexError := by
  have key : ∀ j : Int, (if j < 0 then (.error .indexError : Py α)
      else match l[j.toNat]? with
        | some x => .ok x
        | none => .error .indexError) = .error e → e = .indexError := by
    intro j h
    by_cases hj : j < 0
    · rw [if_pos hj] at h; cases h; rfl
    · rw [if_neg hj] at h
      cases hl : l[j.toNat]? with
      | some x => rw [hl] at h; cases h
      | none => rw [hl] at h; cases h; rfl
  exact key _ h

theorem bind_err {α β} {x : Py α} {f : α → Py β} {e : PyErr} (h : (x >>= f) = .error e) :
    x = .error e ∨ ∃ a, x = .ok a ∧ f a = .error e := by
  cases x with
  | error e' => cases h; exact .inl rfl
  | ok a => exact .inr ⟨a, rfl, h⟩

theorem bind_ok_inv {α β} {x : Py α} {f : α → Py β} {b : β} (h : (x >>= f) = .ok b) :
    ∃ a, x = .ok a ∧ f a = .ok b := by
  cases x with
  | error e' => cases h
  | ok a => exact ⟨a, rfl, h⟩

theorem readFarPtr_err {s : Seg} {off : Int} {e : PyErr} (h : s.readFarPtr off = .error e) :
    LoadErr e := by
  unfold Seg.readFarPtr at h
  cases ho : s.offs with
  | none => rw [ho] at h; cases h; exact .inr (.inl rfl)
  | some offs =>
    rw [ho] at h
    simp only at h
    have hidx : ∀ {e : PyErr}, e = .indexError → LoadErr e := fun h => .inr (.inr (.inr h))
    have hass : LoadErr .assertionError := .inr (.inr (.inl rfl))
    rcases bind_err h with h | ⟨p, -, h⟩
    · exact hidx (readPrimitive_err h)
    rcases bind_err h with h | ⟨st, -, h⟩
    · exact hidx (pyIndex_err h)
    by_cases hp : Ptr.farLandingPad p = 0
    · rw [if_pos hp] at h
      rcases bind_err h with h | ⟨q, -, h⟩
      · exact hidx (readPrimitive_err h)
      · cases h
    · rw [if_neg hp] at h
      rcases bind_err h with h | ⟨q, -, h⟩
      · exact hidx (readPrimitive_err h)
      rcases bind_err h with h | ⟨tag, -, h⟩
      · exact hidx (readPrimitive_err h)
      by_cases h1 : Ptr.kind q = Ptr.FAR
      · rw [if_neg (not_not_intro h1)] at h
        by_cases h2 : Ptr.farLandingPad q = 0
        · rw [if_neg (not_not_intro h2)] at h
          by_cases h3 : Ptr.offset tag = 0
          · rw [if_neg (not_not_intro h3)] at h
            rcases bind_err h with h | ⟨_, hh, h⟩
            · exact hidx (pyIndex_err h)
            · cases h
          · rw [if_pos h3] at h; cases h; exact hass
        · rw [if_pos h2] at h; cases h; exact hass
      · rw [if_pos h1] at h; cases h; exact hass

theorem resolve_err {o : StructObj} {off : Int} {e : PyErr} (h : o.resolve off = .error e) :
    LoadErr e := by
  unfold StructObj.resolve at h
  rcases bind_err h with h | ⟨p, -, h⟩
  · unfold StructObj.readFastPtr at h
    by_cases hc : off ≥ o.ptrsSize * 8
    · rw [if_pos hc] at h; cases h
    · rw [if_neg hc] at h
      exact .inr (.inr (.inr (readPrimitive_err h)))
  · by_cases hk : Ptr.kind p = Ptr.FAR
    · rw [if_pos hk] at h
      unfold StructObj.readFarPtr at h
      by_cases hc : off ≥ o.ptrsSize * 8
      · rw [if_pos hc] at h; cases h
      · rw [if_neg hc] at h
        exact readFarPtr_err h
    · rw [if_neg hk] at h; cases h

/-- The sections of `o` end inside its buffer. -/
def EndsInside (o : StructObj) : Prop :=
  o.dataOffset + 8 * o.dataSize ≤ o.seg.buf.length ∧ o.ptrsOffset + 8 * o.ptrsSize ≤ o.seg.buf.length

theorem initFromPointer_total {s : Seg} {q p : Int} :
    (StructObj.initFromPointer s q p = .error .assertionError) ∨
    ∃ o, StructObj.initFromPointer s q p = .ok o ∧ o.seg = s ∧ EndsInside o := by
  unfold StructObj.initFromPointer
  by_cases hk : Ptr.kind p = Ptr.STRUCT
  · rw [if_neg (not_not_intro hk)]
    unfold StructObj.initFromBuffer
    simp only
    generalize Ptr.deref p q = a
    generalize Ptr.structDataSize p = d
    generalize Ptr.structPtrsSize p = n
    by_cases h1 : a + d * 8 ≤ s.buf.length
    · rw [if_neg (not_not_intro h1)]
      by_cases h2 : a + d * 8 + n * 8 ≤ s.buf.length
      · rw [if_neg (not_not_intro h2)]
        refine .inr ⟨_, rfl, rfl, ?_⟩
        unfold EndsInside
        constructor
        · change a + 8 * d ≤ s.buf.length; omega
        · change a + d * 8 + 8 * n ≤ s.buf.length; omega
      · rw [if_pos h2]; exact .inl rfl
    · rw [if_pos h1]; exact .inl rfl
  · rw [if_pos hk]; exact .inl rfl

/-- Reading a struct field is total too, on arbitrary bytes and for arbitrary
objects. -/
theorem C41_read_struct (o : StructObj) (off : Int) :
    match o.readStruct off with
    | .error e => LoadErr e
    | .ok none => True
    | .ok (some o') => o'.seg = o.seg ∧ EndsInside o' := by
  cases h : o.readStruct off with
  | error e =>
    unfold StructObj.readStruct at h
    rcases bind_err h with h | ⟨⟨q, p⟩, -, h⟩
    · exact resolve_err h
    · simp only at h
      by_cases hp : p = 0
      · rw [if_pos hp] at h; cases h
      · rw [if_neg hp] at h
        by_cases hk : Ptr.kind p = Ptr.STRUCT
        · rw [if_neg (not_not_intro hk)] at h
          rcases bind_err h with h | ⟨o', -, h⟩
          · rcases initFromPointer_total (s := o.seg) (q := q) (p := p) with h' | ⟨o', h', -⟩
            · rw [h'] at h; cases h; exact .inr (.inr (.inl rfl))
            · rw [h'] at h; cases h
          · cases h
        · rw [if_pos hk] at h; cases h; exact .inr (.inr (.inl rfl))
  | ok r =>
    cases r with
    | none => trivial
    | some o' =>
      unfold StructObj.readStruct at h
      obtain ⟨⟨q, p⟩, -, h⟩ := bind_ok_inv h
      simp only at h
      by_cases hp : p = 0
      · rw [if_pos hp] at h; cases h
      · rw [if_neg hp] at h
        by_cases hk : Ptr.kind p = Ptr.STRUCT
        · rw [if_neg (not_not_intro hk)] at h
          obtain ⟨o'', h1, h2⟩ := bind_ok_inv h
          cases h2
          rcases initFromPointer_total (s := o.seg) (q := q) (p := p) with h' | ⟨o3, h', h3, h4⟩
          · rw [h'] at h1; cases h1
          · rw [h'] at h1; cases h1; exact ⟨h3, h4⟩
        · rw [if_pos hk] at h; cases h

/-- C41: `load` is total.  For every byte sequence, in whatever chunks it arrives,
`load` either raises EOFError, ValueError, AssertionError or IndexError, or
returns `None`, or a struct over the bytes announced by the header whose sections
end inside them.  If it returns, what follows the frame is left unread. -/
theorem C41_load_total (chunks : List Bytes) (hc : ∀ c ∈ chunks, c ≠ []) :
    match load BStream.file (BStream.init chunks) with
    | .error e _ => LoadErr e
    | .ok r st' =>
      headerLen chunks.flatten + bodyLen chunks.flatten ≤ chunks.flatten.length ∧
      (∀ o, r = some o → EndsInside o ∧
        o.seg.buf = slice chunks.flatten (headerLen chunks.flatten) (bodyLen chunks.flatten)) ∧
      ∀ cmds, BStream.run st' cmds
        = flatRun (chunks.flatten.drop (headerLen chunks.flatten + bodyLen chunks.flatten)) cmds := by
  have hR : (BStream.init chunks).Inv ∧ (BStream.init chunks).rest = chunks.flatten :=
    ⟨⟨le_refl _, hc⟩, by simp [BStream.init, BStream.rest]⟩
  obtain ⟨l1, l2, l3, l4⟩ := loadMessage_spec BStream.faithful hR
  generalize chunks.flatten = b at *
  by_cases h0 : b.length = 0
  · obtain ⟨st', h⟩ := l1 h0
    rw [load_of_error h]; exact .inl rfl
  by_cases h1 : b.length < 4 + 4 * segCount b ∨ (0 < bodyLen b ∧ b.length < headerLen b + bodyLen b)
  · obtain ⟨st', h⟩ := l2 (by omega) h1
    rw [load_of_error h]; exact .inr (.inl rfl)
  rw [not_or] at h1
  by_cases h2 : bodyLen b = 0
  · obtain ⟨st', h⟩ := l3 (by omega) h2
    rw [load_of_error h]; exact .inr (.inr (.inl rfl))
  · have hle : headerLen b + bodyLen b ≤ b.length := by
      have := h1.2; rw [not_and] at this; have := this (by omega); omega
    obtain ⟨st', h, hi, hr⟩ := l4 (by omega) hle
    rw [load_of_message h]
    have ht := C41_read_struct (objAt (slice b (headerLen b) (bodyLen b)) (announcedTable b) 0 0 1) 0
    cases hs : (objAt (slice b (headerLen b) (bodyLen b)) (announcedTable b) 0 0 1).readStruct 0 with
    | error e => rw [hs] at ht; exact ht
    | ok r =>
      rw [hs] at ht
      refine ⟨hle, ?_, ?_⟩
      · rintro o rfl
        exact ⟨ht.2, by rw [ht.1]; rfl⟩
      · intro cmds
        rw [BStream.run_spec cmds hi, hr]

/-- What `load` raises or returns. -/
def outcome (chunks : List Bytes) : Py (Option StructObj) :=
  match load BStream.file (BStream.init chunks) with
  | .error e _ => .error e
  | .ok r _ => .ok r

/-- Each outcome occurs. -/
example : outcome [] = .error .eofError ∧ outcome [[0, 0], [0]] = .error .valueError ∧
    outcome [[0, 0, 0, 0, 0, 0, 0, 0]] = .error .assertionError ∧
    outcome [[0, 0, 0, 0, 1, 0, 0, 0], [0, 0, 0, 0, 0, 0, 0, 0]] = .ok none ∧
    outcome [frame [leBytes 8 (2 + 2 ^ 32), leBytes 8 0] [0, 0, 0, 0]] = .ok none ∧
    outcome [frame [leBytes 8 (2 + 2 ^ 33), leBytes 8 0] [0, 0, 0, 0]] = .error .indexError := by
  refine ⟨?_, ?_, ?_, ?_, ?_, ?_⟩
  all_goals decide +kernel

end Capnpy.Props
