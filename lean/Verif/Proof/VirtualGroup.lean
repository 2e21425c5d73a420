import Verif.Spec.VirtualGroup
import Verif.Proof.Group

/-! # Virtual groups -/

namespace Capnpy

open Spec

/-! ## The annotation -/

theorem splitB_ne_nil : ∀ s : Bytes, splitB s ≠ []
  | [] => by unfold splitB; simp
  | c :: r => by
    unfold splitB
    split
    · simp
    · cases h : splitB r with
      | nil => exact absurd h (splitB_ne_nil r)
      | cons w ws => simp

theorem splitB_noComma {s : Bytes} (h : ∀ b ∈ s, b ≠ 44) : splitB s = [s] := by
  induction s with
  | nil => unfold splitB; rfl
  | cons c r ih =>
    unfold splitB
    rw [if_neg (h c List.mem_cons_self), ih fun b hb => h b (List.mem_cons_of_mem _ hb)]

theorem splitB_comma {s : Bytes} (h : ∀ b ∈ s, b ≠ 44) (t : Bytes) : splitB (s ++ 44 :: t) = s :: splitB t := by
  induction s with
  | nil => simp [splitB]
  | cons c r ih =>
    rw [List.cons_append]
    conv_lhs => unfold splitB
    rw [if_neg (h c List.mem_cons_self), ih fun b hb => h b (List.mem_cons_of_mem _ hb)]

theorem strip_dropWhile (s : Bytes) : stripB (s.dropWhile isSpaceB) = stripB s := by
  unfold stripB
  congr 3
  induction s with
  | nil => rfl
  | cons c r ih =>
    by_cases h : isSpaceB c = true
    · rw [List.dropWhile_cons_of_pos h, ih]
    · rw [List.dropWhile_cons_of_neg h, List.dropWhile_cons_of_neg h]

theorem strip_cons {c : UInt8} (h : isSpaceB c = true) (s : Bytes) : stripB (c :: s) = stripB s := by
  rw [← strip_dropWhile (c :: s), List.dropWhile_cons_of_pos h, strip_dropWhile]

theorem strip_concat {c : UInt8} (h : isSpaceB c = true) (s : Bytes) : stripB (s ++ [c]) = stripB s := by
  by_cases hs : s.all isSpaceB = true
  · have e : ∀ t : Bytes, (∀ b ∈ t, isSpaceB b = true) → stripB t = [] := by
      intro t ht
      induction t with
      | nil => rfl
      | cons b t ih =>
        rw [strip_cons (ht b List.mem_cons_self)]
        exact ih fun x hx => ht x (List.mem_cons_of_mem _ hx)
    rw [List.all_eq_true] at hs
    rw [e s hs, e]
    intro b hb
    rcases List.mem_append.mp hb with hb | hb
    · exact hs b hb
    · rw [List.mem_singleton] at hb
      rw [hb]; exact h
  · unfold stripB
    have : (s ++ [c]).dropWhile isSpaceB = s.dropWhile isSpaceB ++ [c] := by
      rw [List.dropWhile_append]
      rw [if_neg]
      intro hc
      rw [List.isEmpty_iff] at hc
      have e : ∀ t : Bytes, t.dropWhile isSpaceB = [] → t.all isSpaceB = true := by
        intro t
        induction t with
        | nil => intro _; rfl
        | cons b t ih =>
          intro ht
          by_cases hb : isSpaceB b = true
          · rw [List.dropWhile_cons_of_pos hb] at ht
            rw [List.all_cons, hb, ih ht]; rfl
          · rw [List.dropWhile_cons_of_neg hb] at ht
            cases ht
      exact hs (e s hc)
    rw [this, List.reverse_append]
    rw [List.reverse_singleton, List.singleton_append, List.dropWhile_cons_of_pos h]

theorem isSpaceB_comma {c : UInt8} (h : isSpaceB c = true) : c ≠ 44 := by
  rintro rfl
  exact absurd h (by decide)

theorem splitB_cons_space {c : UInt8} (h : isSpaceB c = true) (s : Bytes) :
    (splitB (c :: s)).map stripB = (splitB s).map stripB := by
  conv_lhs => unfold splitB
  rw [if_neg (isSpaceB_comma h)]
  cases e : splitB s with
  | nil => exact absurd e (splitB_ne_nil s)
  | cons w ws =>
    show stripB (c :: w) :: _ = _
    rw [strip_cons h]
    rfl

theorem splitB_concat {c : UInt8} (h : c ≠ 44) : ∀ s : Bytes, ∃ init last, splitB s = init ++ [last] ∧
    splitB (s ++ [c]) = init ++ [last ++ [c]]
  | [] => ⟨[], [], rfl, by simp [splitB, h]⟩
  | x :: s => by
    obtain ⟨init, last, e1, e2⟩ := splitB_concat h s
    rw [List.cons_append]
    by_cases hx : x = 44
    · refine ⟨[] :: init, last, ?_, ?_⟩
      · unfold splitB
        rw [if_pos hx, e1]; rfl
      · unfold splitB
        rw [if_pos hx, e2]; rfl
    · cases init with
      | nil =>
        refine ⟨[], x :: last, ?_, ?_⟩
        · unfold splitB
          rw [if_neg hx, e1]; rfl
        · unfold splitB
          rw [if_neg hx, e2]; rfl
      | cons w ws =>
        refine ⟨(x :: w) :: ws, last, ?_, ?_⟩
        · unfold splitB
          rw [if_neg hx, e1]; rfl
        · unfold splitB
          rw [if_neg hx, e2]; rfl

theorem splitB_concat_space {c : UInt8} (h : isSpaceB c = true) (s : Bytes) :
    (splitB (s ++ [c])).map stripB = (splitB s).map stripB := by
  obtain ⟨init, last, e1, e2⟩ := splitB_concat (isSpaceB_comma h) s
  rw [e1, e2, List.map_append, List.map_append]
  simp [strip_concat h]

theorem splitB_strip (s : Bytes) : (splitB (stripB s)).map stripB = (splitB s).map stripB := by
  have h1 : ∀ t : Bytes, (splitB (t.dropWhile isSpaceB)).map stripB = (splitB t).map stripB := by
    intro t
    induction t with
    | nil => rfl
    | cons c r ih =>
      by_cases h : isSpaceB c = true
      · rw [List.dropWhile_cons_of_pos h, ih, splitB_cons_space h]
      · rw [List.dropWhile_cons_of_neg h]
  have h2 : ∀ t : Bytes, (splitB (t.dropWhile isSpaceB).reverse).map stripB = (splitB t.reverse).map stripB := by
    intro t
    induction t with
    | nil => rfl
    | cons c r ih =>
      by_cases h : isSpaceB c = true
      · rw [List.dropWhile_cons_of_pos h, ih, List.reverse_cons, splitB_concat_space h]
      · rw [List.dropWhile_cons_of_neg h]
  show (splitB (((s.dropWhile isSpaceB).reverse.dropWhile isSpaceB).reverse)).map stripB = _
  rw [h2, List.reverse_reverse, h1]

theorem strip_pad {pre name post : Bytes} (h1 : ∀ b ∈ pre, isSpaceB b = true) (h2 : ∀ b ∈ post, isSpaceB b = true)
    (hn : ∀ b ∈ name, isSpaceB b = false) : stripB (pre ++ name ++ post) = name := by
  have e1 : ∀ (pre t : Bytes), (∀ b ∈ pre, isSpaceB b = true) → stripB (pre ++ t) = stripB t := by
    intro pre t h
    induction pre with
    | nil => rfl
    | cons c r ih =>
      rw [List.cons_append, strip_cons (h c List.mem_cons_self)]
      exact ih fun b hb => h b (List.mem_cons_of_mem _ hb)
  have e2 : ∀ (post t : Bytes), (∀ b ∈ post, isSpaceB b = true) → stripB (t ++ post) = stripB t := by
    intro post
    induction post with
    | nil => intro t _; rw [List.append_nil]
    | cons c r ih =>
      intro t h
      rw [show t ++ c :: r = (t ++ [c]) ++ r by simp]
      rw [ih (t ++ [c]) fun b hb => h b (List.mem_cons_of_mem _ hb), strip_concat (h c List.mem_cons_self)]
  rw [e2 _ _ h2, e1 _ _ h1]
  have e3 : ∀ t : Bytes, (∀ b ∈ t, isSpaceB b = false) → t.dropWhile isSpaceB = t := by
    intro t h
    cases t with
    | nil => rfl
    | cons c r => rw [List.dropWhile_cons_of_neg (by rw [h c List.mem_cons_self]; simp)]
  unfold stripB
  rw [e3 _ hn, e3 _ (fun b hb => hn b (List.mem_reverse.mp hb)), List.reverse_reverse]

theorem isSpaceB_iff (b : UInt8) : isSpaceB b = true ↔ IsSpace b := by
  unfold isSpaceB IsSpace
  simp only [Bool.or_eq_true, beq_iff_eq]
  tauto

theorem isSpaceB_false {b : UInt8} (h : ¬ IsSpace b) : isSpaceB b = false := by
  rw [← isSpaceB_iff] at h
  simpa using h

theorem spells_names {names : List Bytes} {text : Bytes} (h : Spells names text) (hn : ∀ s ∈ names, IsName s) :
    groupNames text = names := by
  unfold groupNames
  rw [splitB_strip]
  induction h with
  | one pre name post h1 h2 =>
    have hname := hn name List.mem_cons_self
    rw [splitB_noComma]
    · show [stripB _] = _
      rw [strip_pad (fun b hb => (isSpaceB_iff b).mpr (h1 b hb)) (fun b hb => (isSpaceB_iff b).mpr (h2 b hb)) fun b hb => isSpaceB_false (hname.2 b hb).2]
    · intro b hb
      rcases List.mem_append.mp hb with hb | hb
      · rcases List.mem_append.mp hb with hb | hb
        · exact isSpaceB_comma ((isSpaceB_iff b).mpr (h1 b hb))
        · exact (hname.2 b hb).1
      · exact isSpaceB_comma ((isSpaceB_iff b).mpr (h2 b hb))
  | cons pre name post names rest h1 h2 _ ih =>
    have hname := hn name List.mem_cons_self
    rw [splitB_comma]
    · rw [List.map_cons, ih fun s hs => hn s (List.mem_cons_of_mem _ hs),
        strip_pad (fun b hb => (isSpaceB_iff b).mpr (h1 b hb)) (fun b hb => (isSpaceB_iff b).mpr (h2 b hb)) fun b hb => isSpaceB_false (hname.2 b hb).2]
    · intro b hb
      rcases List.mem_append.mp hb with hb | hb
      · rcases List.mem_append.mp hb with hb | hb
        · exact isSpaceB_comma ((isSpaceB_iff b).mpr (h1 b hb))
        · exact (hname.2 b hb).1
      · exact isSpaceB_comma ((isSpaceB_iff b).mpr (h2 b hb))

/-! ## Registration -/

theorem findField_some {x : Bytes} : ∀ {fs : List AField} {f : AField}, findField x fs = some f → f ∈ fs ∧ f.cname = x
  | [], f, h => by cases h
  | g :: fs, f, h => by
    unfold findField at h
    split at h
    · rename_i g' e
      cases h
      obtain ⟨h1, h2⟩ := findField_some e
      exact ⟨List.mem_cons_of_mem _ h1, h2⟩
    · split at h
      · rename_i e
        cases h
        exact ⟨List.mem_cons_self, e⟩
      · cases h

theorem findField_exists {x : Bytes} : ∀ {fs : List AField}, (∃ f ∈ fs, f.cname = x) → ∃ f, findField x fs = some f
  | [], h => by obtain ⟨f, h, _⟩ := h; simp at h
  | g :: fs, h => by
    unfold findField
    cases e : findField x fs with
    | some f => exact ⟨f, rfl⟩
    | none =>
      obtain ⟨f, hf, hx⟩ := h
      rcases List.mem_cons.mp hf with rfl | hf
      · exact ⟨f, by rw [if_pos hx]⟩
      · obtain ⟨f', e'⟩ := findField_exists ⟨f, hf, hx⟩
        rw [e] at e'; cases e'

theorem pickFields_ok {all : List AField} : ∀ {names : List Bytes} {fs : List AField}, pickFields all names = .ok fs →
    fs.map AField.cname = names ∧ ∀ f ∈ fs, f ∈ all
  | [], fs, h => by
    unfold pickFields at h
    cases h
    simp
  | x :: xs, fs, h => by
    unfold pickFields at h
    cases e : findField x all with
    | none => rw [e] at h; cases h
    | some f =>
      rw [e] at h
      simp only at h
      cases e2 : pickFields all xs with
      | error er => rw [e2] at h; cases h
      | ok fs' =>
        rw [e2] at h
        cases h
        obtain ⟨h1, h2⟩ := pickFields_ok e2
        obtain ⟨h3, h4⟩ := findField_some e
        refine ⟨by rw [List.map_cons, h1, h4], fun g hg => ?_⟩
        rcases List.mem_cons.mp hg with rfl | hg
        · exact h3
        · exact h2 g hg

theorem pickFields_exists {all : List AField} : ∀ {names : List Bytes}, (∀ x ∈ names, ∃ f ∈ all, f.cname = x) →
    ∃ fs, pickFields all names = .ok fs
  | [], _ => ⟨[], rfl⟩
  | x :: xs, h => by
    obtain ⟨f, e⟩ := findField_exists (h x List.mem_cons_self)
    obtain ⟨fs, e2⟩ := pickFields_exists (names := xs) fun y hy => h y (List.mem_cons_of_mem _ hy)
    refine ⟨f :: fs, ?_⟩
    unfold pickFields
    rw [e]
    simp only
    rw [e2]
    rfl

theorem pickFields_error {all : List AField} : ∀ {names : List Bytes} {er : PyErr}, pickFields all names = .error er →
    er = .keyError
  | [], er, h => by cases h
  | x :: xs, er, h => by
    unfold pickFields at h
    cases e : findField x all with
    | none => rw [e] at h; cases h; rfl
    | some f =>
      rw [e] at h
      simp only at h
      cases e2 : pickFields all xs with
      | error er' => rw [e2] at h; cases h; exact pickFields_error e2
      | ok fs' => rw [e2] at h; cases h

/-- The id of the node of a virtual group. -/
def nodeId (hash : Bytes → Int) (structId : Int) (f : AField) : Int := structId + hash f.cname % 10000

/-- The annotated fields. -/
def annotated (fs : List AField) : List AField := fs.filter fun f => f.group.isSome

theorem registerGroups_mem {hash : Bytes → Int} {structId : Int} {all : List AField} :
    ∀ {fs : List AField} {ids ids' : List Int} {vs : List VGroup},
    registerGroups hash structId all ids fs = .ok (ids', vs) → ∀ v ∈ vs,
      v.origin ∈ fs ∧ v.origin.isVoid = true ∧ v.id = nodeId hash structId v.origin ∧
      ∃ text, v.origin.group = some text ∧ pickFields all (groupNames text) = .ok v.fields
  | [], ids, ids', vs, h, v, hv => by
    unfold registerGroups at h
    cases h
    simp at hv
  | f :: fs, ids, ids', vs, h, v, hv => by
    unfold registerGroups at h
    cases hg : f.group with
    | none =>
      rw [hg] at h
      obtain ⟨h1, h2⟩ := registerGroups_mem h v hv
      exact ⟨List.mem_cons_of_mem _ h1, h2⟩
    | some text =>
      rw [hg] at h
      simp only at h
      split at h
      · cases h
      · rename_i hvoid
        cases e : pickFields all (groupNames text) with
        | error er => rw [e] at h; cases h
        | ok fields =>
          rw [e] at h
          simp only [bind, Except.bind] at h
          split at h
          · cases h
          · cases e2 : registerGroups hash structId all ((structId + hash f.cname % 10000) :: ids) fs with
            | error er => rw [e2] at h; cases h
            | ok r =>
              obtain ⟨ids2, vs2⟩ := r
              rw [e2] at h
              cases h
              rcases List.mem_cons.mp hv with rfl | hv
              · exact ⟨List.mem_cons_self, by simpa using hvoid, rfl, text, hg, e⟩
              · obtain ⟨h1, h2⟩ := registerGroups_mem e2 v hv
                exact ⟨List.mem_cons_of_mem _ h1, h2⟩

theorem registerGroups_origins {hash : Bytes → Int} {structId : Int} {all : List AField} :
    ∀ {fs : List AField} {ids ids' : List Int} {vs : List VGroup},
    registerGroups hash structId all ids fs = .ok (ids', vs) → vs.map VGroup.origin = annotated fs
  | [], ids, ids', vs, h => by
    unfold registerGroups at h
    cases h
    rfl
  | f :: fs, ids, ids', vs, h => by
    unfold registerGroups at h
    unfold annotated
    cases hg : f.group with
    | none =>
      rw [hg] at h
      rw [List.filter_cons_of_neg (by simp [hg])]
      exact registerGroups_origins h
    | some text =>
      rw [hg] at h
      rw [List.filter_cons_of_pos (by simp [hg])]
      simp only at h
      split at h
      · cases h
      · cases e : pickFields all (groupNames text) with
        | error er => rw [e] at h; cases h
        | ok fields =>
          rw [e] at h
          simp only [bind, Except.bind] at h
          split at h
          · cases h
          · cases e2 : registerGroups hash structId all ((structId + hash f.cname % 10000) :: ids) fs with
            | error er => rw [e2] at h; cases h
            | ok r =>
              obtain ⟨ids2, vs2⟩ := r
              rw [e2] at h
              cases h
              rw [List.map_cons, registerGroups_origins e2]
              rfl

/-- When registration succeeds, and what it raises otherwise. -/
theorem registerGroups_iff {hash : Bytes → Int} {structId : Int} {all : List AField} :
    ∀ {fs : List AField} {ids : List Int},
    ((∃ r, registerGroups hash structId all ids fs = .ok r) ↔
      (∀ f ∈ fs, ∀ text, f.group = some text → f.isVoid = true ∧ ∀ x ∈ groupNames text, ∃ g ∈ all, g.cname = x) ∧
      ((annotated fs).map (nodeId hash structId)).Nodup ∧ ∀ f ∈ annotated fs, nodeId hash structId f ∉ ids) ∧
    (∀ e, registerGroups hash structId all ids fs = .error e → e = .keyError ∨ e = .assertionError)
  | [], ids => by
    unfold registerGroups annotated
    exact ⟨⟨fun _ => by simp, fun _ => ⟨_, rfl⟩⟩, fun e h => by cases h⟩
  | f :: fs, ids => by
    unfold annotated
    cases hg : f.group with
    | none =>
      have e : registerGroups hash structId all ids (f :: fs) = registerGroups hash structId all ids fs := by
        conv_lhs => unfold registerGroups
        rw [hg]
      rw [e, List.filter_cons_of_neg (by simp [hg])]
      obtain ⟨ih1, ih2⟩ := registerGroups_iff (hash := hash) (structId := structId) (all := all) (fs := fs) (ids := ids)
      refine ⟨ih1.trans ⟨fun h => ⟨fun g hgm text ht => ?_, h.2⟩, fun h => ⟨fun g hgm => h.1 g (List.mem_cons_of_mem _ hgm),
        h.2⟩⟩, ih2⟩
      rcases List.mem_cons.mp hgm with rfl | hgm
      · rw [hg] at ht; cases ht
      · exact h.1 g hgm text ht
    | some text =>
      rw [List.filter_cons_of_pos (by simp [hg])]
      obtain ⟨ih1, ih2⟩ := registerGroups_iff (hash := hash) (structId := structId) (all := all) (fs := fs)
        (ids := nodeId hash structId f :: ids)
      have e : registerGroups hash structId all ids (f :: fs) =
          if f.isVoid = false then .error .assertionError
          else
            match pickFields all (groupNames text) with
            | .error er => .error er
            | .ok fields =>
              if nodeId hash structId f ∈ ids then .error .assertionError
              else
                match registerGroups hash structId all (nodeId hash structId f :: ids) fs with
                | .error er => .error er
                | .ok r => .ok (r.1, ⟨f, nodeId hash structId f, fields⟩ :: r.2) := by
        conv_lhs => unfold registerGroups
        rw [hg]
        simp only
        split
        · rfl
        · cases pickFields all (groupNames text) with
          | error er => rfl
          | ok fields =>
            simp only [bind, Except.bind]
            unfold nodeId
            split
            · rfl
            · cases registerGroups hash structId all ((structId + hash f.cname % 10000) :: ids) fs <;> rfl
      rw [e]
      clear e
      constructor
      · constructor
        · rintro ⟨r, h⟩
          split at h
          · cases h
          · rename_i hv
            cases hp : pickFields all (groupNames text) with
            | error er => rw [hp] at h; cases h
            | ok fields =>
              rw [hp] at h
              simp only at h
              split at h
              · cases h
              · rename_i hid
                cases hr : registerGroups hash structId all (nodeId hash structId f :: ids) fs with
                | error er => rw [hr] at h; cases h
                | ok r2 =>
                  obtain ⟨i1, i2, i3⟩ := ih1.mp ⟨r2, hr⟩
                  obtain ⟨p1, p2⟩ := pickFields_ok hp
                  refine ⟨fun g hgm t ht => ?_, ?_, fun g hgm => ?_⟩
                  · rcases List.mem_cons.mp hgm with rfl | hgm
                    · rw [hg] at ht
                      cases ht
                      refine ⟨by simpa using hv, fun x hx => ?_⟩
                      rw [← p1] at hx
                      obtain ⟨g2, hg2, e2⟩ := List.mem_map.mp hx
                      exact ⟨g2, p2 g2 hg2, e2⟩
                    · exact i1 g hgm t ht
                  · rw [List.map_cons, List.nodup_cons]
                    refine ⟨fun hc => ?_, i2⟩
                    obtain ⟨g2, hg2, e2⟩ := List.mem_map.mp hc
                    have := i3 g2 hg2
                    rw [e2] at this
                    exact this List.mem_cons_self
                  · rcases List.mem_cons.mp hgm with rfl | hgm
                    · exact hid
                    · exact fun hc => i3 g hgm (List.mem_cons_of_mem _ hc)
        · rintro ⟨h1, h2, h3⟩
          obtain ⟨hv, hx⟩ := h1 f List.mem_cons_self text hg
          obtain ⟨fields, hp⟩ := pickFields_exists hx
          rw [List.map_cons, List.nodup_cons] at h2
          obtain ⟨r, hr⟩ := ih1.mpr ⟨fun g hgm => h1 g (List.mem_cons_of_mem _ hgm), h2.2, fun g hgm hc => by
            rcases List.mem_cons.mp hc with hc | hc
            · exact h2.1 (hc ▸ List.mem_map_of_mem hgm)
            · exact h3 g (List.mem_cons_of_mem _ hgm) hc⟩
          rw [if_neg (by simp [hv]), hp]
          simp only
          rw [if_neg (h3 f List.mem_cons_self), hr]
          exact ⟨_, rfl⟩
      · intro er h
        split at h
        · cases h; exact .inr rfl
        · cases hp : pickFields all (groupNames text) with
          | error er2 =>
            rw [hp] at h
            cases h
            exact .inl (pickFields_error hp)
          | ok fields =>
            rw [hp] at h
            simp only at h
            split at h
            · cases h; exact .inr rfl
            · cases hr : registerGroups hash structId all (nodeId hash structId f :: ids) fs with
              | error er2 => rw [hr] at h; cases h; exact ih2 _ hr
              | ok r2 => rw [hr] at h; cases h

/-! ## Reading -/

theorem initFromBuffer_self {seg : Seg} {off ds ps : Int} {o : StructObj}
    (h : StructObj.initFromBuffer seg off ds ps = .ok o) :
    StructObj.initFromBuffer o.seg o.dataOffset o.dataSize o.ptrsSize = .ok o := by
  unfold StructObj.initFromBuffer at h
  simp only at h
  split at h
  · cases h
  · split at h
    · cases h
    · rename_i h1 h2
      cases h
      unfold StructObj.initFromBuffer
      simp only
      rw [if_neg h1, if_neg h2]

theorem getField_union {o : StructObj} {u u' : Option Nat} {f : Field} (h : f.disc = none) :
    getField o u f = getField o u' f := by
  cases f with
  | slot n c d ty off df =>
    have h : d = none := h
    subst h
    unfold getField
    rfl
  | group n c d nl gu ch =>
    have h : d = none := h
    subst h
    unfold getField
    rfl

theorem getField_wrong {o : StructObj} {f : Field} (h : f.disc.isSome) : getField o none f = .error .typeError := by
  cases f with
  | slot n c d ty off df =>
    obtain ⟨t, ht⟩ := Option.isSome_iff_exists.mp h
    have ht : d = some t := ht
    subst ht
    unfold getField
    rfl
  | group n c d nl gu ch =>
    obtain ⟨t, ht⟩ := Option.isSome_iff_exists.mp h
    have ht : d = some t := ht
    subst ht
    unfold getField
    rfl

theorem getAttr_of_mem {o : StructObj} {u : Option Nat} : ∀ {fs : List Field} {f : Field}, f ∈ fs →
    (∀ g ∈ fs, g.name = f.name → g = f) → Capnpy.getAttr o u f.name fs = some (getField o u f)
  | [], f, h, _ => by simp at h
  | g :: fs, f, h, hu => by
    unfold Capnpy.getAttr
    by_cases hm : f ∈ fs
    · rw [getAttr_of_mem hm fun g hg => hu g (List.mem_cons_of_mem _ hg)]
    · have hn : Capnpy.getAttr o u f.name fs = none := by
        have : ∀ fs : List Field, (∀ g ∈ fs, g.name ≠ f.name) → Capnpy.getAttr o u f.name fs = none := by
          intro fs
          induction fs with
          | nil => intro _; unfold Capnpy.getAttr; rfl
          | cons g gs ih =>
            intro h
            unfold Capnpy.getAttr
            rw [ih fun x hx => h x (List.mem_cons_of_mem _ hx)]
            simp only
            rw [if_neg (h g List.mem_cons_self)]
        refine this fs fun g hg hc => hm ?_
        rw [← hu g (List.mem_cons_of_mem _ hg) hc]
        exact hg
      rw [hn]
      simp only
      rcases List.mem_cons.mp h with h | h
      · rw [← h, if_pos rfl]
      · exact absurd h hm

end Capnpy
