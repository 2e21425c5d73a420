import Verif.Spec.Module
import Verif.Proof.List

/-!
# Proofs about the generated module: names
-/

namespace Capnpy.Spec

open Capnpy.Module

theorem Tree.induct {P : Tree → Prop} (h : ∀ t, (∀ k ∈ t.kids, P k) → P t) : ∀ t, P t := by
  intro t
  exact Tree.rec (motive_1 := P) (motive_2 := fun ks => ∀ k ∈ ks, P k)
    (fun n ks ih => h (.mk n ks) ih) (by intro k hk; cases hk)
    (fun a as ha has k hk => by
      rcases List.mem_cons.mp hk with rfl | hk
      · exact ha
      · exact has k hk) t

/-! ## Splitting and joining -/

theorem split_single {c : Char} {s : Str} (h : c ∉ s) : split c s = [s] := by
  induction s with
  | nil => rfl
  | cons x r ih =>
    have hx : x ≠ c := by rintro rfl; exact h List.mem_cons_self
    rw [split, if_neg hx, ih (fun hm => h (List.mem_cons_of_mem _ hm))]

theorem split_cons {c : Char} {s r : Str} (h : c ∉ s) : split c (s ++ c :: r) = s :: split c r := by
  induction s with
  | nil => rw [List.nil_append, split, if_pos rfl]
  | cons x s ih =>
    have hx : x ≠ c := by rintro rfl; exact h List.mem_cons_self
    rw [List.cons_append, split, if_neg hx, ih (fun hm => h (List.mem_cons_of_mem _ hm))]

theorem split_join {c : Char} {p : List Str} (hne : p ≠ []) (h : ∀ s ∈ p, c ∉ s) : split c (joinWith c p) = p := by
  induction p with
  | nil => exact absurd rfl hne
  | cons x r ih =>
    cases r with
    | nil => rw [joinWith, split_single (h x List.mem_cons_self)]
    | cons y r =>
      rw [joinWith, List.append_assoc]
      show split c (x ++ c :: joinWith c (y :: r)) = _
      rw [split_cons (h x List.mem_cons_self), ih (by simp) (fun s hs => h s (List.mem_cons_of_mem _ hs))]

theorem join_inj {c : Char} {p q : List Str} (hp : p ≠ []) (hq : q ≠ []) (h1 : ∀ s ∈ p, c ∉ s) (h2 : ∀ s ∈ q, c ∉ s)
    (h : joinWith c p = joinWith c q) : p = q := by
  rw [← split_join hp h1, ← split_join hq h2, h]

theorem join_snoc (c : Char) {p : List Str} (hp : p ≠ []) (x : Str) :
    joinWith c (p ++ [x]) = joinWith c p ++ [c] ++ x := by
  induction p with
  | nil => exact absurd rfl hp
  | cons a r ih =>
    cases r with
    | nil => rfl
    | cons b r =>
      show a ++ [c] ++ joinWith c (b :: r ++ [x]) = a ++ [c] ++ joinWith c (b :: r) ++ [c] ++ x
      rw [ih (by simp)]
      simp [List.append_assoc]

theorem join_append (c : Char) {p q : List Str} (hp : p ≠ []) (hq : q ≠ []) :
    joinWith c (p ++ q) = joinWith c p ++ [c] ++ joinWith c q := by
  induction p with
  | nil => exact absurd rfl hp
  | cons a r ih =>
    cases r with
    | nil =>
      cases q with
      | nil => exact absurd rfl hq
      | cons b q => rfl
    | cons b r =>
      show a ++ [c] ++ joinWith c (b :: r ++ q) = a ++ [c] ++ joinWith c (b :: r) ++ [c] ++ joinWith c q
      rw [ih (by simp)]
      simp [List.append_assoc]

theorem mem_join {c d : Char} {p : List Str} (h : d ∈ joinWith c p) : d = c ∨ ∃ s ∈ p, d ∈ s := by
  induction p with
  | nil => cases h
  | cons x r ih =>
    cases r with
    | nil => exact .inr ⟨x, List.mem_cons_self, h⟩
    | cons y r =>
      rw [joinWith, List.mem_append, List.mem_append] at h
      rcases h with (h | h) | h
      · exact .inr ⟨x, List.mem_cons_self, h⟩
      · exact .inl (by simpa using h)
      · rcases ih h with h | ⟨s, hs, hd⟩
        · exact .inl h
        · exact .inr ⟨s, List.mem_cons_of_mem _ hs, hd⟩

/-! ## Paths -/

theorem Sub.ne_nil {file : Tree} {p : List Str} {t : Tree} (h : Sub file p t) : p ≠ [] := by
  cases h <;> simp

theorem Sub.last {file : Tree} {p : List Str} {t : Tree} (h : Sub file p t) : ∃ q, p = q ++ [t.node.short] := by
  cases h with
  | top _ => exact ⟨[], rfl⟩
  | kid _ _ => exact ⟨_, rfl⟩

variable {g : Gen} {file : Tree}

theorem Sub.plain (ok : FileOK g file) {p : List Str} {t : Tree} (h : Sub file p t) : ∀ s ∈ p, Ident s := by
  induction h with
  | top h =>
    intro s hs
    rw [List.mem_singleton.mp hs]
    exact ok.plain _ _ (.top h)
  | kid ht h ih =>
    intro s hs
    rcases List.mem_append.mp hs with hs | hs
    · exact ih s hs
    · rw [List.mem_singleton.mp hs]
      exact ok.plain _ _ (.kid ht h)

theorem alphanum_ne {c d : Char} (h : c.isAlphanum = true) (hd : d.isAlphanum = false) : c ≠ d := by
  rintro rfl; rw [h] at hd; cases hd

theorem Ident.not_mem {s : Str} (h : Ident s) {d : Char} (hd : d.isAlphanum = false) : d ∉ s := by
  intro hm
  exact alphanum_ne (h.2 d hm) hd rfl

/-- The node of a subtree is one of the request's. -/
theorem Sub.mem (ok : FileOK g file) {p : List Str} {t : Tree} (h : Sub file p t) : t.node ∈ g.nodes := by
  have key : ∀ i, t.node ∈ g.children i → t.node ∈ g.nodes := fun i hi => (List.mem_filter.mp hi).1
  cases h with
  | top h => exact key file.node.id (by rw [ok.topKids]; exact List.mem_map_of_mem h)
  | kid ht h => exact key _ (by rw [ok.kids _ _ ht]; exact List.mem_map_of_mem h)

theorem scope_of_mem {i : Nat} {n : Node} (h : n ∈ g.children i) : n.scopeId = i := by
  have := (List.mem_filter.mp h).2
  simpa using this

theorem node_eq (ok : FileOK g file) {n : Node} (h : n ∈ g.nodes) : g.node n.id = .ok n := by
  unfold Gen.node
  cases hf : g.nodes.reverse.find? (fun x => x.id == n.id) with
  | none =>
    rw [List.find?_eq_none] at hf
    exact absurd (by simp) (hf n (List.mem_reverse.mpr h))
  | some m =>
    have h1 : m ∈ g.nodes := List.mem_reverse.mp (List.mem_of_find?_eq_some hf)
    have h2 : m.id = n.id := by simpa using List.find?_some hf
    have : m = n := by
      have := List.inj_on_of_nodup_map ok.ids h1 h h2
      exact this
    rw [this]

theorem Sub.parent (ok : FileOK g file) {p : List Str} {t k : Tree} (ht : Sub file p t) (hk : k ∈ t.kids) :
    g.parent k.node = .ok (some t.node) := by
  have hs : k.node.scopeId = t.node.id := scope_of_mem (by rw [ok.kids _ _ ht]; exact List.mem_map_of_mem hk)
  unfold Gen.parent
  have hm := ht.mem ok
  rw [hs, if_neg (ok.nonzero _ hm), node_eq ok hm]
  rfl

theorem Sub.parent_top (ok : FileOK g file) {k : Tree} (hk : k ∈ file.kids) :
    g.parent k.node = .ok (some file.node) := by
  have hs : k.node.scopeId = file.node.id := scope_of_mem (by rw [ok.topKids]; exact List.mem_map_of_mem hk)
  unfold Gen.parent
  rw [hs, if_neg (ok.nonzero _ ok.mem), node_eq ok ok.mem]
  rfl

theorem Sub.scope_ne (ok : FileOK g file) {p : List Str} {t : Tree} (ht : Sub file p t) : t.node.scopeId ≠ 0 := by
  cases ht with
  | top h =>
    rw [scope_of_mem (i := file.node.id) (by rw [ok.topKids]; exact List.mem_map_of_mem h)]
    exact ok.nonzero _ ok.mem
  | kid ht h =>
    rw [scope_of_mem (by rw [ok.kids _ _ ht]; exact List.mem_map_of_mem h)]
    exact ok.nonzero _ (ht.mem ok)

theorem Sub.id_ne (ok : FileOK g file) {p : List Str} {t : Tree} (ht : Sub file p t) : t.node.id ≠ file.node.id := by
  intro h
  have : t.node = file.node := List.inj_on_of_nodup_map ok.ids (ht.mem ok) ok.mem h
  exact ht.scope_ne ok (by rw [this]; exact ok.root)

theorem Sub.not_isFile (ok : FileOK g file) {p : List Str} {t : Tree} (ht : Sub file p t) : t.node.isFile = false := by
  have := (ok.kinds _ _ ht).1
  unfold Module.Node.isFile
  split
  · rename_i h; exact absurd h this
  · rfl

theorem Sub.shortname (ok : FileOK g file) {p : List Str} {t : Tree} (ht : Sub file p t) :
    g.shortname t.node = .ok t.node.short := by
  unfold Gen.shortname
  rw [ht.not_isFile ok]
  rfl

/-- The names in the generated code are the joined paths. -/
theorem Sub.fullname (ok : FileOK g file) (sep : Char) {p : List Str} {t : Tree} (ht : Sub file p t) :
    ∀ {fuel : Nat}, p.length ≤ fuel → g.fullname [sep] fuel t.node = .ok (joinWith sep p) := by
  induction ht with
  | @top k h =>
    intro fuel hf
    cases fuel with
    | zero => simp at hf
    | succ n =>
      unfold Gen.fullname
      rw [bind_okP (Sub.parent_top ok h)]
      simp only [ok.current, if_pos]
      rw [Sub.shortname ok (.top h)]
      rfl
  | @kid p t k ht h ih =>
    intro fuel hf
    cases fuel with
    | zero => simp at hf
    | succ n =>
      unfold Gen.fullname
      rw [bind_okP (Sub.parent ok ht h)]
      simp only [ok.current, if_neg (ht.id_ne ok)]
      rw [bind_okP (ih (by simp at hf; omega)), bind_okP (Sub.shortname ok (.kid ht h)), join_snoc sep ht.ne_nil]
      rfl

theorem Sub.isImported (ok : FileOK g file) {p : List Str} {t : Tree} (ht : Sub file p t) :
    ∀ {fuel : Nat}, p.length < fuel → g.isImported fuel t.node = .ok false := by
  induction ht with
  | @top k h =>
    intro fuel hf
    match fuel with
    | 0 => simp at hf
    | 1 => simp at hf
    | n + 2 =>
      rw [Gen.isImported, Sub.not_isFile ok (.top h)]
      rw [Bool.false_and, if_neg (by decide), bind_okP (Sub.parent_top ok h)]
      show g.isImported (n + 1) file.node = _
      rw [Gen.isImported, ok.current]
      have : (file.node.isFile && file.node.id != file.node.id) = false := by simp
      rw [this, if_neg (by decide)]
      unfold Gen.parent
      rw [if_pos ok.root]
      rfl
  | @kid p t k ht h ih =>
    intro fuel hf
    match fuel with
    | 0 => simp at hf
    | n + 1 =>
      rw [Gen.isImported, Sub.not_isFile ok (.kid ht h)]
      rw [Bool.false_and, if_neg (by decide), bind_okP (Sub.parent ok ht h)]
      exact ih (by simp at hf; omega)

theorem Sub.compileName (ok : FileOK g file) {p : List Str} {t : Tree} (ht : Sub file p t) (pre : Str) {fuel : Nat}
    (hf : p.length < fuel) : g.compileName fuel t.node pre = .ok (pre ++ under p) := by
  unfold Gen.compileName
  rw [bind_okP (ht.isImported ok hf)]
  simp only [Bool.false_eq_true, if_false]
  rw [bind_okP (ht.fullname ok '_' (by omega))]
  rfl

theorem Sub.runtimeName (ok : FileOK g file) {p : List Str} {t : Tree} (ht : Sub file p t) {fuel : Nat}
    (hf : p.length ≤ fuel) : g.runtimeName fuel t.node = .ok (dotted p) :=
  ht.fullname ok '.' hf

theorem Sub.nested (ok : FileOK g file) {p : List Str} {t k : Tree} (ht : Sub file p t) (hk : k ∈ t.kids) :
    g.isNested k.node = .ok true := by
  unfold Gen.isNested
  rw [bind_okP (Sub.parent ok ht hk)]
  have e : (t.node.scopeId != 0) = true := by simpa using ht.scope_ne ok
  show (Except.ok (t.node.scopeId != 0) : Py Bool) = _
  rw [e]

theorem Sub.nested_top (ok : FileOK g file) {k : Tree} (hk : k ∈ file.kids) :
    g.isNested k.node = .ok false := by
  unfold Gen.isNested
  rw [bind_okP (Sub.parent_top ok hk)]
  have e : (file.node.scopeId != 0) = false := by simp [ok.root]
  show (Except.ok (file.node.scopeId != 0) : Py Bool) = _
  rw [e]

/-! ## Different names -/

theorem Sub.no_underscore (ok : FileOK g file) {p : List Str} {t : Tree} (ht : Sub file p t) : ∀ s ∈ p, '_' ∉ s :=
  fun s hs => (ht.plain ok s hs).not_mem (by decide)

theorem Sub.no_dot (ok : FileOK g file) {p : List Str} {t : Tree} (ht : Sub file p t) : ∀ s ∈ p, '.' ∉ s :=
  fun s hs => (ht.plain ok s hs).not_mem (by decide)

theorem Sub.under_inj (ok : FileOK g file) {p p' : List Str} {t t' : Tree} (h : Sub file p t) (h' : Sub file p' t')
    (e : under p = under p') : p = p' :=
  join_inj h.ne_nil h'.ne_nil (h.no_underscore ok) (h'.no_underscore ok) e

/-- The first name of a path is that of a top-level node; nodes in it means that it is a struct. -/
theorem Sub.head (ok : FileOK g file) {p : List Str} {t : Tree} (h : Sub file p t) :
    ∃ k ∈ file.kids, ∃ r, p = k.node.short :: r ∧ (r = [] → t = k) ∧ (r ≠ [] → Node.isStruct k.node) := by
  induction h with
  | @top k h => exact ⟨k, h, [], rfl, fun _ => rfl, fun h => absurd rfl h⟩
  | @kid p t k ht h ih =>
    obtain ⟨k', hk', r, rfl, h1, h2⟩ := ih
    refine ⟨k', hk', r ++ [k.node.short], rfl, by simp, fun _ => ?_⟩
    by_cases hr : r = []
    · have := h1 hr
      subst this
      by_contra hs
      rw [ok.leaves _ _ ht hs] at h
      cases h
    · exact h2 hr

theorem Sub.path_unique (ok : FileOK g file) {p : List Str} {t t' : Tree} (h : Sub file p t) (h' : Sub file p t') :
    t = t' := by
  induction h generalizing t' with
  | @top k h =>
    generalize hq : [k.node.short] = q at h'
    cases h' with
    | @top k' h'' =>
      injection hq with hq
      exact List.inj_on_of_nodup_map ok.topNames h h'' hq
    | @kid p _ _ ht _ =>
      have := congrArg List.length hq
      have h0 := List.length_pos_iff.mpr ht.ne_nil
      simp only [List.length_append, List.length_cons, List.length_nil] at this
      omega
  | @kid p t k ht h ih =>
    generalize hq : p ++ [k.node.short] = q at h'
    cases h' with
    | @top k' h'' =>
      have := congrArg List.length hq
      have h0 := List.length_pos_iff.mpr ht.ne_nil
      simp only [List.length_append, List.length_cons, List.length_nil] at this
      omega
    | @kid p' t'' k' ht' h'' =>
      obtain ⟨e1, e2⟩ := List.append_inj' hq rfl
      subst e1
      have := ih ht'
      subst this
      injection e2 with e2
      exact List.inj_on_of_nodup_map (ok.names _ _ ht) h h'' e2

end Capnpy.Spec
