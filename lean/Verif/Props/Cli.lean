import Verif.Model.Cli
import Verif.Props.Message
import Verif.Props.Repr

/-!
# C60: `capnpy decode`

The command prints `shortrepr()` of the messages of a file, one line each.
-/

namespace Capnpy.Props

open Spec Capnpy.Repr Short

/-- How the loop ends when `load_all` would end like that. -/
def endOf : GenEnd → DecodeEnd
  | .stop => .raised .eofError
  | .raised .valueError => .done
  | .raised e => .raised e
  | .running => .running

theorem load_error_decode {σ} (F : FileLike σ) (sh : StructObj → Py (List Char)) {s s' : σ} {e : PyErr} (fuel : Nat)
    (h : load F s = .error e s') : decodeLoop F sh (fuel + 1) s =
      ([], if e = .valueError then .done else .raised e, s') := by
  unfold decodeLoop
  rw [h]
  cases e <;> rfl

/-- C60: the lines printed are the representations of the messages in the file in order, on any file (intact or
not), as long as each can be represented. -/
theorem C60_lines {σ} (F : FileLike σ) (sh : StructObj → Py (List Char)) (fuel : Nat) (s : σ)
    {objs : List (Option StructObj)} {e : GenEnd} {s' : σ} (h : loadAll F fuel s = (objs, e, s'))
    {lines : List (List Char)}
    (hl : List.Forall₂ (fun o line => ∃ x, o = some x ∧ sh x = .ok line) objs lines) :
    decodeLoop F sh fuel s = (lines, endOf e, s') := by
  induction fuel generalizing s objs lines with
  | zero =>
    unfold loadAll at h
    cases h
    cases hl
    rfl
  | succ fuel ih =>
    unfold loadAll at h
    cases hld : load F s with
    | error er s1 =>
      rw [load_error_decode F sh fuel hld]
      rw [hld] at h
      cases er <;> cases h <;> cases hl <;> rfl
    | ok o s1 =>
      rw [hld] at h
      simp only at h
      cases hr : loadAll F fuel s1 with
      | mk a bc =>
        obtain ⟨b, c⟩ := bc
        rw [hr] at h
        cases h
        cases hl with
        | cons h1 h2 =>
          obtain ⟨x, rfl, hx⟩ := h1
          have := ih s1 hr h2
          unfold decodeLoop
          rw [hld]
          simp only [hx, this]

/-- C60: if a message cannot be represented, the lines before it are printed and the exception is not caught. -/
theorem C60_line_fails {σ} (F : FileLike σ) (sh : StructObj → Py (List Char)) (fuel : Nat) (s : σ)
    {before after : List (Option StructObj)} {o : StructObj} {er : PyErr} {e : GenEnd} {s' : σ}
    (h : loadAll F fuel s = (before ++ some o :: after, e, s')) (ho : sh o = .error er) {lines : List (List Char)}
    (hl : List.Forall₂ (fun o line => ∃ x, o = some x ∧ sh x = .ok line) before lines) :
    ∃ s'', decodeLoop F sh fuel s = (lines, .raised er, s'') := by
  induction fuel generalizing s before lines with
  | zero =>
    unfold loadAll at h
    have h := congrArg Prod.fst h
    cases before <;> cases h
  | succ fuel ih =>
    unfold loadAll at h
    cases hld : load F s with
    | error er s1 =>
      rw [hld] at h
      cases er <;> cases before <;> cases h
    | ok o' s1 =>
      rw [hld] at h
      simp only at h
      cases hr : loadAll F fuel s1 with
      | mk a bc =>
        obtain ⟨b, c⟩ := bc
        rw [hr] at h
        cases hl with
        | nil =>
          cases h
          refine ⟨s1, ?_⟩
          unfold decodeLoop
          rw [hld]
          simp only [ho]
        | cons h1 h2 =>
          obtain ⟨x, rfl, hx⟩ := h1
          cases h
          obtain ⟨s'', h3⟩ := ih s1 hr h2
          refine ⟨s'', ?_⟩
          unfold decodeLoop
          rw [hld]
          simp only [hx, h3]

/-- C60, and a finding: on an intact file, all messages are printed in order, and then the command fails with
`EOFError`, since the loop only catches `ValueError`. -/
theorem C60_intact (sh : StructObj → Py (List Char)) (ms : List (List Bytes × Bytes × StructObj))
    (hm : ∀ m ∈ ms, Loadable (m.1, m.2.1, some m.2.2)) {lines : List (List Char)}
    (hl : List.Forall₂ (fun m line => sh m.2.2 = .ok line) ms lines)
    (chunks : List Bytes) (hc : ∀ c ∈ chunks, c ≠ [])
    (hs : chunks.flatten = (ms.map fun m => frame m.1 m.2.1).flatten) {fuel : Nat} (hf : ms.length < fuel) :
    ∃ st', decodeLoop BStream.file sh fuel (BStream.init chunks) = (lines, .raised .eofError, st') := by
  obtain ⟨st', h⟩ := C22_load_all (ms.map fun m => (m.1, m.2.1, some m.2.2)) (by
      intro m hm'
      obtain ⟨x, hx, rfl⟩ := List.mem_map.mp hm'
      exact hm x hx) chunks hc (by rw [hs]; unfold concat; rw [List.map_map]; rfl) (by simpa using hf)
  refine ⟨st', C60_lines _ sh fuel _ h ?_⟩
  rw [List.map_map, List.forall₂_map_left_iff]
  exact hl.imp fun m line h => ⟨m.2.2, rfl, h⟩

/-- C60, and a finding: on a file cut inside a message, the complete messages are printed and the command succeeds:
the loss is not reported. -/
theorem C60_truncated (sh : StructObj → Py (List Char)) (ms : List (List Bytes × Bytes × StructObj))
    (hm : ∀ m ∈ ms, Loadable (m.1, m.2.1, some m.2.2)) {lines : List (List Char)}
    (hl : List.Forall₂ (fun m line => sh m.2.2 = .ok line) ms lines)
    {segs : List Bytes} {pad p more : Bytes} (h : Frameable segs pad)
    (h8 : segs.flatten ≠ []) (hp : p ++ more = frame segs pad) (hp0 : p ≠ []) (hmore : more ≠ [])
    (chunks : List Bytes) (hc : ∀ c ∈ chunks, c ≠ [])
    (hs : chunks.flatten = (ms.map fun m => frame m.1 m.2.1).flatten ++ p) {fuel : Nat} (hf : ms.length < fuel) :
    ∃ st', decodeLoop BStream.file sh fuel (BStream.init chunks) = (lines, .done, st') := by
  obtain ⟨st', h⟩ := C22_load_all_truncated (ms.map fun m => (m.1, m.2.1, some m.2.2)) (by
      intro m hm'
      obtain ⟨x, hx, rfl⟩ := List.mem_map.mp hm'
      exact hm x hx) h h8 hp hp0 hmore chunks hc (by rw [hs]; unfold concat; rw [List.map_map]; rfl) (by simpa using hf)
  refine ⟨st', C60_lines _ sh fuel _ h ?_⟩
  rw [List.map_map, List.forall₂_map_left_iff]
  exact hl.imp fun m line h => ⟨m.2.2, rfl, h⟩

/-- C60, end to end: what is printed for a file to which objects were dumped can be read back as the trees of the values of
these objects, in the order in which they were dumped. -/
theorem C60_dumped {E : Env} (hE : Named E) {n c : Nat} (fastpath : Bool) {dfuel : Nat}
    (xs : List (StructObj × Val × Short.Tree × Bytes))
    (hx : ∀ x ∈ xs, Denotes x.1 x.2.1 ∧ x.2.1.Fits ∧ x.2.1 ≠ .struct [] [] ∧ x.1.seg.buf.length ≤ 2 ^ 32 ∧
      16 + x.2.1.size ≤ 2 ^ 32 ∧ 2 * x.2.1.depth ≤ dfuel + 1 ∧ treeOf true E n c x.2.1 = some x.2.2.1 ∧
      dumps x.1 fastpath dfuel = .ok x.2.2.2)
    (chunks : List Bytes) (hc : ∀ c ∈ chunks, c ≠ []) (hs : chunks.flatten = (xs.map fun x => x.2.2.2).flatten)
    {fuel : Nat} (hf : xs.length < fuel) :
    ∃ lines st', decodeLoop BStream.file (shortrepr E n c) fuel (BStream.init chunks) = (lines, .raised .eofError, st') ∧
      lines.map parse = xs.map fun x => some x.2.2.1 := by
  have key : ∀ x ∈ xs, ∃ (body : Bytes) (o' : StructObj) (line : List Char), x.2.2.2 = frame [body] [] ∧
      Loadable ([body], [], some o') ∧ shortrepr E n c o' = .ok line ∧ parse line = some x.2.2.1 := by
    rintro ⟨o, v, t, s⟩ hm
    obtain ⟨ho, hfit, hne, hlen, hsz, hfuel, ht, hd⟩ := hx _ hm
    simp only at *
    obtain ⟨words, body, e1, e2, e3⟩ := C18_frame ho hfit hlen hsz hfuel fastpath hd
    have hlo : ∃ o', loads s = .ok (some o') ∧ Denotes o' v := by
      cases fastpath with
      | false =>
        obtain ⟨s', o', h1, h2, h3⟩ := C17_slow_path ho hfit hlen hsz hfuel
        rw [hd] at h1
        cases h1
        exact ⟨o', h2, h3⟩
      | true =>
        obtain ⟨f1, f2, _⟩ := C17_fast_path ho hfit hlen hsz hfuel
        by_cases hin : Compact o v → o.dataOffset + v.size ≤ o.seg.buf.length
        · obtain ⟨s', o', h1, h2, h3⟩ := f1 hne hin
          rw [hd] at h1
          cases h1
          exact ⟨o', h2, h3⟩
        · push Not at hin
          rw [f2 hin.1 (by omega)] at hd
          cases hd
    obtain ⟨o', hl, hden⟩ := hlo
    obtain ⟨line, h1, h2⟩ := C50_parse hE ht hden
    have efr : s = frame [body] [] := by
      rw [e1]
      unfold frame
      simp [e2]
    have hbody : body ≠ [] := by
      rintro rfl
      have : words = 0 := by simp at e2; omega
      subst this
      have : loads s = .error .assertionError := by
        rw [e1]
        decide +kernel
      rw [this] at hl
      cases hl
    refine ⟨body, o', line, efr, ⟨⟨by simp, by simp, ?_, ?_, by simp⟩, by simpa using hbody, ?_⟩, h1, h2⟩
    · intro x hx
      rw [List.mem_singleton] at hx
      subst hx
      exact ⟨words, e2⟩
    · intro x hx
      rw [List.mem_singleton] at hx
      subst hx
      omega
    · simp only
      rw [← efr]
      exact hl
  have all : ∀ ys : List (StructObj × Val × Short.Tree × Bytes), (∀ y ∈ ys, y ∈ xs) →
      ∃ (ms : List (List Bytes × Bytes × StructObj)) (lines : List (List Char)), ms.length = ys.length ∧
        (∀ m ∈ ms, Loadable (m.1, m.2.1, some m.2.2)) ∧
        List.Forall₂ (fun m line => shortrepr E n c m.2.2 = .ok line) ms lines ∧
        (ms.map fun m => frame m.1 m.2.1) = (ys.map fun x => x.2.2.2) ∧
        lines.map parse = ys.map fun x => some x.2.2.1 := by
    intro ys
    induction ys with
    | nil => intro _; exact ⟨[], [], rfl, by simp, .nil, rfl, rfl⟩
    | cons y ys ih =>
      intro hsub
      obtain ⟨ms, lines, i1, i2, i3, i4, i5⟩ := ih fun z hz => hsub z (List.mem_cons_of_mem _ hz)
      obtain ⟨body, o', line, k1, k2, k3, k4⟩ := key y (hsub y List.mem_cons_self)
      refine ⟨([body], [], o') :: ms, line :: lines, by simp [i1], ?_, .cons k3 i3, by simp [i4, ← k1],
        by simp [i5, k4]⟩
      intro m hm
      rcases List.mem_cons.mp hm with rfl | hm
      · exact k2
      · exact i2 m hm
  obtain ⟨ms, lines, i1, i2, i3, i4, i5⟩ := all xs fun _ h => h
  obtain ⟨st', h⟩ := C60_intact (shortrepr E n c) ms i2 i3 chunks hc (by rw [hs, i4]) (by omega : ms.length < fuel)
  exact ⟨lines, st', h, i5⟩

/-- Finding: the command succeeds only on damaged files: if the loop ends normally, `load_all` raises `ValueError` on the
same file. -/
theorem C60_success_means_damaged {σ} (F : FileLike σ) (sh : StructObj → Py (List Char)) (fuel : Nat) (s : σ)
    {lines : List (List Char)} {s' : σ} (h : decodeLoop F sh fuel s = (lines, .done, s')) :
    ∃ objs, loadAll F fuel s = (objs, .raised .valueError, s') ∧
      List.Forall₂ (fun o line => ∃ x, o = some x ∧ sh x = .ok line) objs lines := by
  induction fuel generalizing s lines with
  | zero => unfold decodeLoop at h; cases h
  | succ fuel ih =>
    cases hld : load F s with
    | error er s1 =>
      rw [load_error_decode F sh fuel hld] at h
      by_cases he : er = .valueError
      · subst he
        cases h
        refine ⟨[], ?_, .nil⟩
        unfold loadAll
        rw [hld]
      · rw [if_neg he] at h
        cases h
    | ok o s1 =>
      unfold decodeLoop at h
      rw [hld] at h
      cases o with
      | none => cases h
      | some o =>
        simp only at h
        cases hsh : sh o with
        | error e => rw [hsh] at h; cases h
        | ok line =>
          rw [hsh] at h
          simp only at h
          cases hr : decodeLoop F sh fuel s1 with
          | mk a bc =>
            obtain ⟨b, c⟩ := bc
            rw [hr] at h
            cases h
            obtain ⟨objs, h1, h2⟩ := ih s1 hr
            refine ⟨some o :: objs, ?_, .cons ⟨o, rfl, hsh⟩ h2⟩
            unfold loadAll
            rw [hld]
            simp only [h1]

/-- C60: the loop ends on every file, after at most one iteration for each eight bytes. -/
theorem C60_terminates (sh : StructObj → Py (List Char)) {fuel : Nat} {st : BStream} {b : Bytes}
    (hb : st.Inv ∧ st.rest = b) (hf : b.length < 8 * fuel) :
    (decodeLoop BStream.file sh fuel st).2.1 ≠ .running := by
  induction fuel generalizing st b with
  | zero => omega
  | succ fuel ih =>
    cases hld : load BStream.file st with
    | error er s1 =>
      rw [load_error_decode _ sh fuel hld]
      simp only
      split <;> simp
    | ok o s1 =>
      unfold decodeLoop
      rw [hld]
      cases o with
      | none => simp
      | some o =>
        simp only
        cases hsh : sh o with
        | error e => simp
        | ok line =>
          simp only
          obtain ⟨a1, a2, a3, a4⟩ := loadMessage_spec BStream.faithful hb
          have nope : ∀ e st', loadMessage BStream.file st = .error e st' → False := by
            intro e st' h
            rw [load_of_error h] at hld
            cases hld
          have hn : segCount b = u32 b 0 + 1 := rfl
          by_cases h0 : b.length = 0
          · obtain ⟨st', h⟩ := a1 h0
            exact (nope _ _ h).elim
          by_cases h4 : b.length < 4 + 4 * segCount b
          · obtain ⟨st', h⟩ := a2 (by omega) (.inl h4)
            exact (nope _ _ h).elim
          by_cases h5 : bodyLen b = 0
          · obtain ⟨st', h⟩ := a3 (by omega) h5
            exact (nope _ _ h).elim
          by_cases h6 : b.length < headerLen b + bodyLen b
          · obtain ⟨st', h⟩ := a2 (by omega) (.inr ⟨by omega, h6⟩)
            exact (nope _ _ h).elim
          obtain ⟨st', h, hR⟩ := a4 (by omega) (by omega)
          have e : s1 = st' := by
            rw [load_of_message h] at hld
            split at hld <;> cases hld
            rfl
          subst e
          refine ih hR ?_
          have : 8 ≤ headerLen b := by
            unfold headerLen wordAlign
            omega
          rw [List.length_drop]
          omega

/-! ## Examples -/

/-- A file with one message (two segments) and a piece of another one. -/
example : ∃ st', decodeLoop BStream.file (fun _ => .ok ['x']) 5 (BStream.init [(frame sampleSegs [0, 0, 0, 0]),
      (frame sampleSegs [0, 0, 0, 0]).take 30]) = ([['x']], .done, st') := by
  refine C60_truncated _ [(sampleSegs, [0, 0, 0, 0], objAt sampleSegs.flatten (some [0, 8]) 16 1 0)]
    ?_ (.cons rfl .nil) sampleSegs_frameable (by decide) (List.take_append_drop 30 _) (by decide) (by decide) _
    (by decide) (by decide) (by decide)
  intro m hm
  rw [List.mem_singleton] at hm
  subst hm
  exact ⟨sampleSegs_frameable, by decide, by decide +kernel⟩

/-- Two dumps of the sample object, printed and read back. -/
example : ∃ s, dumps sampleObj false 10 = .ok s ∧ ∀ chunks : List Bytes, (∀ c ∈ chunks, c ≠ []) →
    chunks.flatten = s ++ s → ∃ l1 l2 st', decodeLoop BStream.file (shortrepr sampleEnv 2 0) 5 (BStream.init chunks) =
      ([l1, l2], .raised .eofError, st') ∧
      parse l1 = some (.struct [("num".toList, .atom "77".toList), ("sub".toList, .struct []), ("raw".toList, .str [1, 2, 3])]) := by
  obtain ⟨s, _, h1, _, _⟩ := C17_slow_path sample_denotes (by simp [sampleVal, Val.Fits, Val.AllFits]) (by decide) (by decide)
    (fuel := 10) (by decide)
  refine ⟨s, h1, fun chunks hc hs => ?_⟩
  obtain ⟨lines, st', h2, h3⟩ := C60_dumped sampleEnv_named (n := 2) (c := 0) false (dfuel := 10)
    (List.replicate 2 (sampleObj, sampleVal, .struct [("num".toList, .atom "77".toList), ("sub".toList, .struct []),
      ("raw".toList, .str [1, 2, 3])], s))
    (by
      intro x hx
      have hx := List.eq_of_mem_replicate hx
      subst hx
      exact ⟨sample_denotes, by simp [sampleVal, Val.Fits, Val.AllFits], by simp [sampleVal],
        (by decide : sampleObj.seg.buf.length ≤ 2 ^ 32), (by decide : 16 + sampleVal.size ≤ 2 ^ 32),
        (by decide : 2 * sampleVal.depth ≤ 10 + 1), sample_tree, h1⟩)
    chunks hc (by simpa using hs) (fuel := 5) (by simp)
  obtain ⟨l1, l2, rfl⟩ : ∃ l1 l2, lines = [l1, l2] := by
    have := congrArg List.length h3
    simp only [List.length_map, List.length_replicate] at this
    exact List.length_eq_two.mp this
  rw [List.map_replicate] at h3
  exact ⟨l1, l2, st', h2, (List.cons.inj h3).1⟩

/-- The same file without the piece: the line is printed and `EOFError` is raised. -/
example : ∃ st', decodeLoop BStream.file (fun _ => .ok ['x']) 5 (BStream.init [(frame sampleSegs [0, 0, 0, 0])]) =
    ([['x']], .raised .eofError, st') := by
  refine C60_intact _ [(sampleSegs, [0, 0, 0, 0], objAt sampleSegs.flatten (some [0, 8]) 16 1 0)]
    ?_ (.cons rfl .nil) _ (by decide) (by decide) (by decide)
  intro m hm
  rw [List.mem_singleton] at hm
  subst hm
  exact ⟨sampleSegs_frameable, by decide, by decide +kernel⟩

end Capnpy.Props
