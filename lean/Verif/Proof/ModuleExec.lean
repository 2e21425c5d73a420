import Verif.Proof.ModuleEmit

/-!
# Proofs about the generated module: what the statements do
-/

namespace Capnpy.Spec

open Capnpy.Module

variable {g : Gen} {file : Tree}

theorem run_append (σ : State) (a b : List Stmt) : σ.run (a ++ b) = (do (← σ.run a).run b) := by
  induction a generalizing σ with
  | nil => rfl
  | cons s a ih =>
    rw [List.cons_append, State.run, State.run]
    cases σ.exec s with
    | error e => rfl
    | ok σ' => exact ih σ'

theorem execBody_append (σ : State) (loc : Dict) (a b : List (Str × Expr)) :
    σ.execBody loc (a ++ b) = (do σ.execBody (← σ.execBody loc a) b) := by
  induction a generalizing loc with
  | nil => rfl
  | cons s a ih =>
    obtain ⟨s, e⟩ := s
    rw [List.cons_append, State.execBody, State.execBody]
    cases σ.eval loc e with
    | error e => rfl
    | ok x => exact ih _

/-! ## Dicts -/

theorem lookup_self (s : Str) (o : Obj) (d : Dict) : List.lookup s ((s, o) :: d) = some o := List.lookup_cons_self

theorem lookup_ne {s s' : Str} (h : s ≠ s') (o : Obj) (d : Dict) : List.lookup s ((s', o) :: d) = List.lookup s d := by
  rw [List.lookup_cons]
  have : (s == s') = false := by simpa using h
  rw [this]

theorem lookup_none {s : Str} {d : Dict} (h : ∀ x ∈ d, x.1 ≠ s) : List.lookup s d = none := by
  induction d with
  | nil => rfl
  | cons x d ih =>
    obtain ⟨k, o⟩ := x
    rw [lookup_ne (fun e => h (k, o) List.mem_cons_self e.symm), ih (fun x hx => h x (List.mem_cons_of_mem _ hx))]

theorem lookup_skip {s : Str} {d d' : Dict} (h : ∀ x ∈ d, x.1 ≠ s) : List.lookup s (d ++ d') = List.lookup s d' := by
  rw [List.lookup_append, lookup_none h]
  rfl

/-! ## Names -/

theorem isUpper_not_lower {c : Char} (h : c.isUpper = true) : c.isLower = false := by
  unfold Char.isUpper at h
  unfold Char.isLower
  simp only [decide_eq_true_eq, Bool.and_eq_false_iff, decide_eq_false_iff_not, ge_iff_le,
    UInt32.le_iff_toNat_le] at h ⊢
  have e1 : 'Z'.val.toNat = 90 := rfl
  have e2 : 'a'.val.toNat = 97 := rfl
  left
  omega

theorem upper_ne_lower {s s' : Str} (h : UpperFirst s) (h' : LowerFirst s') : s ≠ s' := by
  rintro rfl
  obtain ⟨c, r, rfl, hc⟩ := h
  obtain ⟨c', r', e, hc'⟩ := h'
  injection e with e e'
  subst e
  rw [isUpper_not_lower hc] at hc'
  cases hc'

theorem upper_ne_under {s : Str} (h : UpperFirst s) (r : Str) : s ≠ '_' :: r := by
  rintro rfl
  obtain ⟨c, r', e, hc⟩ := h
  injection e with e
  subst e
  exact absurd hc (by decide)

theorem lower_ne_under {s : Str} (h : LowerFirst s) (r : Str) : s ≠ '_' :: r := by
  rintro rfl
  obtain ⟨c, r', e, hc⟩ := h
  injection e with e
  subst e
  exact absurd hc (by decide)

theorem UpperFirst.append {s : Str} (h : UpperFirst s) (r : Str) : UpperFirst (s ++ r) := by
  obtain ⟨c, r', rfl, hc⟩ := h
  exact ⟨c, r' ++ r, rfl, hc⟩

/-- Structs, groups and enums. -/
def Classy (n : Node) : Prop := Node.isStruct n ∨ Node.isEnum n

theorem isType_of {n : Node} (h : Classy n) (h' : ¬ Node.isGroup n) : Node.isType n := by
  rcases h with h | h
  · exact .inl ⟨h, h'⟩
  · exact .inr h

theorem Classy.of_type {n : Node} (h : Node.isType n) : Classy n := by
  rcases h with h | h
  · exact .inl h.1
  · exact .inr h

theorem Sub.under_upper (ok : FileOK g file) {p : List Str} {t : Tree} (h : Sub file p t) (hc : Classy t.node) :
    UpperFirst (under p) := by
  obtain ⟨k, hk, r, rfl, h1, h2⟩ := h.head ok
  have hcl : Classy k.node := by
    by_cases hr : r = []
    · rw [← h1 hr]; exact hc
    · exact .inl (h2 hr)
  have hu := ok.upper _ _ (.top hk) (isType_of hcl (ok.topGroups k hk))
  unfold under
  cases r with
  | nil => exact hu
  | cons y r => rw [joinWith, List.append_assoc]; exact hu.append _

/-- The name of the tag enum. -/
def tagName (p : List Str) : Str := under p ++ "__tag__".toList

theorem tagName_eq {p : List Str} (hp : p ≠ []) : tagName p = joinWith '_' (p ++ [[], "tag".toList, [], []]) := by
  rw [join_append '_' hp (by decide)]
  unfold tagName under
  rw [List.append_assoc]
  rfl

theorem tagName_ne (ok : FileOK g file) {p q : List Str} {t u : Tree} (h : Sub file p t) (h' : Sub file q u) :
    tagName p ≠ under q := by
  intro e
  rw [tagName_eq h.ne_nil] at e
  have h1 : ∀ s ∈ p ++ [[], "tag".toList, [], []], '_' ∉ s := by
    intro s hs
    rcases List.mem_append.mp hs with hs | hs
    · exact h.no_underscore ok s hs
    · exact (by decide : ∀ s ∈ ([[], "tag".toList, [], []] : List Str), '_' ∉ s) s hs
  have := join_inj (by simp) h'.ne_nil h1 (h'.no_underscore ok) e
  have hm : ([] : Str) ∈ q := by rw [← this]; simp
  exact (h'.plain ok _ hm).1 rfl

theorem tagName_inj (ok : FileOK g file) {p q : List Str} {t u : Tree} (h : Sub file p t) (h' : Sub file q u)
    (e : tagName p = tagName q) : p = q :=
  h.under_inj ok h' (List.append_cancel_right e)

theorem itemTypeName_inj (ok : FileOK g file) {p q : List Str} {t u : Tree} (h : Sub file p t) (h' : Sub file q u)
    (e : itemTypeName (under p) = itemTypeName (under q)) : p = q := by
  unfold itemTypeName at e
  rw [List.append_assoc, List.append_assoc] at e
  exact h.under_inj ok h' (List.append_cancel_right (List.append_cancel_left e))

theorem itemTypeName_eq (s : Str) : itemTypeName s = '_' :: (s ++ "_list_item_type".toList) := rfl

/-- A name with two underscores at the front, as `__capnpy_id__`. -/
theorem itemTypeName_ne {s : Str} (h : UpperFirst s) (r : Str) : itemTypeName s ≠ '_' :: '_' :: r := by
  intro e
  rw [itemTypeName_eq] at e
  injection e with _ e
  exact upper_ne_under (h.append _) r e

/-! ## The declarations -/

/-- The names that the declarations of a node bind. -/
def declNames (x : List Str × Tree) : List Str :=
  match x.2.node.kind with
  | .struct .. => [under x.1, tagName x.1]
  | .enum _ => [under x.1, itemTypeName (under x.1)]
  | .annotation => [x.2.node.short]
  | _ => []

/-- The members of an enum class. -/
def memDict (n : Nat) (ms : List Str) : Dict := ((ms.zipIdx n).map fun x => (x.1, Obj.int x.2)).reverse

theorem memDict_cons (n : Nat) (m : Str) (ms : List Str) : memDict n (m :: ms) = memDict (n + 1) ms ++ [(m, .int n)] := by
  unfold memDict
  rw [List.zipIdx_cons, List.map_cons, List.reverse_cons]

theorem memDict_keys {n : Nat} {ms : List Str} {x : Str × Obj} (h : x ∈ memDict n ms) : x.1 ∈ ms := by
  unfold memDict at h
  obtain ⟨y, hy, rfl⟩ := List.mem_map.mp (List.mem_reverse.mp h)
  exact List.fst_mem_of_mem_zipIdx hy

theorem memDict_lookup {ms : List Str} : ∀ {n i : Nat} {m : Str} {r : Dict}, ms.Nodup → ms[i]? = some m →
    (memDict n ms ++ r).lookup m = some (.int (n + i)) := by
  induction ms with
  | nil => intro n i m r _ h; simp at h
  | cons x ms ih =>
    intro n i m r hn h
    rw [List.nodup_cons] at hn
    rw [memDict_cons, List.append_assoc]
    cases i with
    | zero =>
      injection h with h
      subst h
      rw [lookup_skip, List.singleton_append, lookup_self]
      · rfl
      · intro y hy e
        exact hn.1 (e ▸ memDict_keys hy)
    | succ i =>
      rw [ih hn.2 (i := i) (by simpa using h)]
      congr 2
      omega

/-- A declared node. -/
def Declared (lo : Nat) (σ : State) (x : List Str × Tree) : Prop :=
  (Node.isStruct x.2.node → ∃ a, lo ≤ a ∧ σ.globals.lookup (under x.1) = some (.ref a) ∧
    σ.heap[a]? = some [("__name__".toList, .str (dotted x.1))]) ∧
  (∀ gr count fields key, x.2.node.kind = .struct gr count fields key → tagItems count fields ≠ [] →
    ∃ (a : Nat) (names : List Str) (r : Dict), σ.globals.lookup (tagName x.1) = some (.ref a) ∧ tagItems count fields = names.map some ∧
      σ.heap[a]? = some (memDict 0 names ++ r) ∧ (memDict 0 names ++ r).lookup "__name__".toList = none) ∧
  (∀ ms, x.2.node.kind = .enum ms → ∃ a r, lo ≤ a ∧ σ.globals.lookup (under x.1) = some (.ref a) ∧
    σ.heap[a]? = some (memDict 0 ms ++ r) ∧
    (memDict 0 ms ++ r).lookup "__capnpy_id__".toList = some (.int x.2.node.id) ∧
    (memDict 0 ms ++ r).lookup "__name__".toList = none ∧
    σ.globals.lookup (itemTypeName (under x.1)) = some (.itemType a))

theorem enumDict_ok (id : Option Nat) {ms : List Str} (hne : ms ≠ []) :
    enumDict id (ms.map some) = .ok (memDict 0 ms ++
    [("_new".toList, .value), ("__members__".toList, .value),
      ("__capnpy_id__".toList, match id with | some i => .int i | none => .value)]) := by
  have h : ∀ (f : Option Str → Py Str), (∀ s, f (some s) = .ok s) → ∀ l : List Str,
      ListObj.mapPy f (l.map some) = .ok l := by
    intro f hf l
    induction l with
    | nil => rfl
    | cons m l ih => rw [List.map_cons, ListObj.mapPy, ih, hf]; rfl
  unfold enumDict
  rw [if_neg (by simpa using hne), bind_okP (h _ (fun _ => rfl) ms)]
  rfl

theorem heap_prefix {h h' : List Dict} (hp : h <+: h') {a : Nat} {d : Dict} (hd : h[a]? = some d) : h'[a]? = some d := by
  obtain ⟨r, rfl⟩ := hp
  rw [List.getElem?_append_left (List.getElem?_eq_some_iff.mp hd).1]
  exact hd

theorem kind_cases {n : Node} (h : ¬ Classy n) : (∀ a b c d, n.kind ≠ .struct a b c d) ∧ ∀ ms, n.kind ≠ .enum ms :=
  ⟨fun a b c d e => h (.inl ⟨a, b, c, d, e⟩), fun ms e => h (.inr ⟨ms, e⟩)⟩

/-- One node. -/
theorem declOwn_run (ok : FileOK g file) (sup : Supported g file) {x : List Str × Tree} (hx : Sub file x.1 x.2) (σ : State) :
    ∃ σ', σ.run (declOwn x) = .ok σ' ∧ σ.heap <+: σ'.heap ∧
      (∀ s, s ∉ declNames x → σ'.globals.lookup s = σ.globals.lookup s) ∧ Declared σ.heap.length σ' x := by
  obtain ⟨p, t⟩ := x
  simp only at hx
  unfold declOwn declNames Declared
  simp only
  cases hk : t.node.kind with
  | file => exact absurd hk (ok.kinds _ _ hx).1
  | interface => exact absurd hk (ok.kinds _ _ hx).2
  | const c =>
    refine ⟨σ, rfl, List.prefix_refl _, fun s _ => rfl, ?_, ?_, ?_⟩
    · rintro ⟨_, _, _, _, h⟩; rw [hk] at h; cases h
    · intro _ _ _ _ h; cases h
    · intro _ h; cases h
  | annotation =>
    refine ⟨_, rfl, List.prefix_append _ _, fun s hs => ?_, ?_, ?_, ?_⟩
    · exact lookup_ne (by simpa using hs) _ _
    · rintro ⟨_, _, _, _, h⟩; rw [hk] at h; cases h
    · intro _ _ _ _ h; cases h
    · intro _ h; cases h
  | enum ms =>
    have hu := hx.under_upper ok (.inr ⟨ms, hk⟩)
    simp only
    refine ⟨⟨(itemTypeName (under p), .itemType σ.heap.length) :: (under p, .ref σ.heap.length) :: σ.globals,
      σ.heap ++ [memDict 0 ms ++ [("_new".toList, .value), ("__members__".toList, .value),
        ("__capnpy_id__".toList, .int t.node.id)]]⟩, ?_, List.prefix_append _ _, fun s hs => ?_, ?_, ?_, fun _ h => ?_⟩
    · have hne : ms ≠ [] := by rintro rfl; exact sup.enums _ _ hx hk
      rw [State.run, State.exec, enumDict_ok _ hne]
      show State.run _ _ = _
      rw [State.run, State.exec]
      have : State.lookup ⟨(under p, .ref σ.heap.length) :: σ.globals, σ.heap ++ [
          memDict 0 ms ++ [("_new".toList, .value), ("__members__".toList, .value),
        ("__capnpy_id__".toList, .int t.node.id)]]⟩ [] (under p) = .ok (.ref σ.heap.length) := by
        unfold State.lookup
        simp only [lookup_self]
        rfl
      rw [bind_okP this]
      rfl
    · rw [List.mem_cons, List.mem_singleton, not_or] at hs
      rw [lookup_ne hs.2, lookup_ne hs.1]
    · rintro ⟨_, _, _, _, h⟩; rw [hk] at h; cases h
    · intro _ _ _ _ h; cases h
    · injection h with h
      subst h
      refine ⟨σ.heap.length, _, Nat.le_refl _, ?_, List.getElem?_concat_length, ?_, ?_, ?_⟩
      · rw [lookup_ne (by rw [itemTypeName_eq]; exact upper_ne_under hu _), lookup_self]
      · rw [lookup_skip]
        · rw [lookup_ne (by decide), lookup_ne (by decide), lookup_self]
        · intro y hy
          exact lower_ne_under (ok.members _ _ hx _ hk _ (memDict_keys hy)) _
      · rw [lookup_skip]
        · rw [lookup_ne (by decide), lookup_ne (by decide), lookup_ne (by decide)]; rfl
        · intro y hy
          exact lower_ne_under (ok.members _ _ hx _ hk _ (memDict_keys hy)) _
      · exact lookup_self _ _ _
  | struct gr count fields key =>
    have hi := (hx.enumItems ok hk).2
    simp only
    by_cases ht : tagItems count fields = []
    · rw [if_pos ht]
      refine ⟨_, rfl, List.prefix_append _ _, fun s hs => ?_, fun _ => ?_, ?_, ?_⟩
      · rw [List.mem_cons, not_or] at hs
        exact lookup_ne hs.1 _ _
      · exact ⟨σ.heap.length, Nat.le_refl _, lookup_self _ _ _, List.getElem?_concat_length⟩
      · intro _ _ _ _ h h'
        injection h with _ h1 h2
        subst h1 h2
        exact absurd ht h'
      · intro _ h; cases h
    · rw [if_neg ht]
      obtain ⟨names, hn⟩ : ∃ names : List Str, tagItems count fields = names.map some := by
        clear ht
        revert hi
        generalize tagItems count fields = items
        intro hi
        induction items with
        | nil => exact ⟨[], rfl⟩
        | cons o items ih =>
          obtain ⟨names, rfl⟩ := ih (fun o ho => hi o (List.mem_cons_of_mem _ ho))
          obtain ⟨fs, -, f, -, rfl⟩ := hi o List.mem_cons_self
          exact ⟨f.pyname :: names, rfl⟩
      have hne : names ≠ [] := by rintro rfl; exact ht hn
      have ed := enumDict_ok none hne
      rw [← hn] at ed
      refine ⟨⟨(tagName p, .ref (σ.heap.length + 1)) :: (under p, .ref σ.heap.length) :: σ.globals,
        (σ.heap ++ [[("__name__".toList, .str (dotted p))]]) ++ [memDict 0 names ++ [("_new".toList, .value), ("__members__".toList, .value),
          ("__capnpy_id__".toList, .value)]]⟩,
          ?_, ?_, fun s hs => ?_, fun _ => ?_, ?_, ?_⟩
      · rw [State.run, State.exec]
        show State.run _ _ = _
        rw [State.run, State.exec, ed]
        show (Except.ok _ : Py State) = Except.ok _
        simp only [List.length_append, List.length_cons, List.length_nil]
        rfl
      · rw [List.append_assoc]; exact List.prefix_append _ _
      · rw [List.mem_cons, List.mem_singleton, not_or] at hs
        rw [lookup_ne hs.2, lookup_ne hs.1]
      · refine ⟨σ.heap.length, Nat.le_refl _, ?_, ?_⟩
        · rw [lookup_ne (fun e => tagName_ne ok hx hx e.symm), lookup_self]
        · rw [List.getElem?_append_left (by simp)]
          exact List.getElem?_concat_length
      · intro _ _ _ _ h _
        injection h with _ h1 h2
        subst h1 h2
        refine ⟨_, names, [("_new".toList, .value), ("__members__".toList, .value), ("__capnpy_id__".toList, .value)],
          lookup_self _ _ _, hn, ?_, ?_⟩
        · rw [show σ.heap.length + 1 = (σ.heap ++ [[("__name__".toList, Obj.str (dotted p))]]).length by simp]
          exact List.getElem?_concat_length
        · rw [lookup_skip]
          · decide
          · intro y hy
            obtain ⟨fs, e, f, hf, e'⟩ := hi (some y.1) (by rw [hn]; exact List.mem_map_of_mem (memDict_keys hy))
            injection e' with e'
            rw [e']
            exact lower_ne_under (ok.fields _ _ hx _ _ _ _ (e ▸ hk) f hf) _
      · intro _ h; cases h

/-- The names that nodes of different paths bind are different, except for annotations. -/
theorem declNames_disjoint (ok : FileOK g file) {x y : List Str × Tree} (hx : Sub file x.1 x.2) (hy : Sub file y.1 y.2)
    (hc : Classy x.2.node) (hne : x.1 ≠ y.1) : ∀ s ∈ declNames x, s ∉ declNames y := by
  obtain ⟨p, t⟩ := x
  obtain ⟨q, u⟩ := y
  simp only at hx hy hc hne
  have hu := hx.under_upper ok hc
  intro s hs hs'
  have h1 : s = under p ∨ s = tagName p ∨ s = itemTypeName (under p) := by
    unfold declNames at hs
    simp only at hs
    split at hs <;> simp at hs <;> rcases hs with rfl | rfl
    · exact .inl rfl
    · exact .inr (.inl rfl)
    · exact .inl rfl
    · exact .inr (.inr rfl)
    · rename_i h; exact absurd h (by rintro h; rcases hc with ⟨_, _, _, _, h'⟩ | ⟨_, h'⟩ <;> rw [h'] at h <;> cases h)
  unfold declNames at hs'
  simp only at hs'
  have hcl : (∃ a b c d, u.node.kind = .struct a b c d) ∨ (∃ ms, u.node.kind = .enum ms) → 
      (s = under q ∨ s = tagName q ∨ s = itemTypeName (under q)) → False := by
    intro hcu h2
    have hcu : Classy u.node := hcu
    have hu' := hy.under_upper ok hcu
    rcases h1 with rfl | rfl | rfl <;> rcases h2 with h2 | h2 | h2
    · exact hne (hx.under_inj ok hy h2)
    · exact tagName_ne ok hy hx h2.symm
    · exact upper_ne_under hu _ h2
    · exact tagName_ne ok hx hy h2
    · exact hne (tagName_inj ok hx hy h2)
    · exact upper_ne_under (hu.append _) _ h2
    · exact upper_ne_under hu' _ h2.symm
    · exact upper_ne_under (hu'.append _) _ h2.symm
    · exact hne (itemTypeName_inj ok hx hy h2)
  split at hs'
  · rename_i h
    refine hcl (.inl ⟨_, _, _, _, h⟩) ?_
    rw [List.mem_cons, List.mem_singleton] at hs'
    rcases hs' with h | h
    · exact .inl h
    · exact .inr (.inl h)
  · rename_i h
    refine hcl (.inr ⟨_, h⟩) ?_
    rw [List.mem_cons, List.mem_singleton] at hs'
    rcases hs' with h | h
    · exact .inl h
    · exact .inr (.inr h)
  · rename_i h
    have hl := ok.lower _ _ hy (.inl h)
    rw [List.mem_singleton] at hs'
    subst hs'
    rcases h1 with h1 | h1 | h1
    · exact upper_ne_lower hu hl h1.symm
    · exact upper_ne_lower (hu.append _) hl h1.symm
    · exact lower_ne_under hl _ h1
  · cases hs'

theorem decl_run (ok : FileOK g file) (sup : Supported g file) : ∀ {L : List (List Str × Tree)}, (∀ x ∈ L, Sub file x.1 x.2) →
    (L.map (·.1)).Nodup → ∀ σ : State, ∃ σ', σ.run (L.flatMap declOwn) = .ok σ' ∧ σ.heap <+: σ'.heap ∧
      (∀ s, (∀ x ∈ L, s ∉ declNames x) → σ'.globals.lookup s = σ.globals.lookup s) ∧
      ∀ x ∈ L, Declared σ.heap.length σ' x := by
  intro L
  induction L with
  | nil => intro _ _ σ; exact ⟨σ, rfl, List.prefix_refl _, fun s _ => rfl, by simp⟩
  | cons x L ih =>
    intro hs hn σ
    rw [List.map_cons, List.nodup_cons] at hn
    have hx := hs x List.mem_cons_self
    obtain ⟨σ1, e1, p1, f1, d1⟩ := declOwn_run ok sup hx σ
    obtain ⟨σ2, e2, p2, f2, d2⟩ := ih (fun x hx => hs x (List.mem_cons_of_mem _ hx)) hn.2 σ1
    refine ⟨σ2, ?_, p1.trans p2, ?_, ?_⟩
    · rw [List.flatMap_cons, run_append, bind_okP e1]; exact e2
    · intro s h
      rw [f2 s (fun x hx => h x (List.mem_cons_of_mem _ hx)), f1 s (h x List.mem_cons_self)]
    · intro y hy
      rcases List.mem_cons.mp hy with rfl | hy
      · have fr : ∀ s ∈ declNames y, Classy y.2.node → σ2.globals.lookup s = σ1.globals.lookup s := by
          intro s hs' hc
          refine f2 s fun z hz => ?_
          refine declNames_disjoint ok hx (hs z (List.mem_cons_of_mem _ hz)) hc ?_ s hs'
          intro e
          exact hn.1 (e ▸ List.mem_map_of_mem hz)
        obtain ⟨a1, a2, a3⟩ := d1
        refine ⟨?_, ?_, ?_⟩
        · intro hc
          obtain ⟨a, b1, b2, b3⟩ := a1 hc
          refine ⟨a, b1, ?_, heap_prefix p2 b3⟩
          rw [fr _ ?_ (.inl hc)]
          · exact b2
          · obtain ⟨_, _, _, _, h⟩ := hc
            unfold declNames; rw [h]; exact List.mem_cons_self
        · intro _ _ _ _ h ht
          obtain ⟨a, names, r, b2, b3, b4, b5⟩ := a2 _ _ _ _ h ht
          refine ⟨a, names, r, ?_, b3, heap_prefix p2 b4, b5⟩
          rw [fr _ ?_ (.inl ⟨_, _, _, _, h⟩)]
          · exact b2
          · unfold declNames; rw [h]; simp
        · intro ms h
          obtain ⟨a, d, b1, b2, b3, b4, b5, b6⟩ := a3 ms h
          refine ⟨a, d, b1, ?_, heap_prefix p2 b3, b4, b5, ?_⟩
          · rw [fr _ ?_ (.inr ⟨_, h⟩)]
            · exact b2
            · unfold declNames; rw [h]; exact List.mem_cons_self
          · rw [fr _ ?_ (.inr ⟨_, h⟩)]
            · exact b6
            · unfold declNames; rw [h]; simp
      · obtain ⟨a1, a2, a3⟩ := d2 y hy
        have hl := p1.length_le
        refine ⟨?_, a2, ?_⟩
        · intro hc
          obtain ⟨a, b1, b2⟩ := a1 hc
          exact ⟨a, Nat.le_trans hl b1, b2⟩
        · intro ms hc
          obtain ⟨a, d, b1, b2⟩ := a3 ms hc
          exact ⟨a, d, Nat.le_trans hl b1, b2⟩

/-- The class of an annotation whose name no other annotation has. -/
theorem decl_run_ann (ok : FileOK g file) (sup : Supported g file) {L : List (List Str × Tree)}
    (hs : ∀ x ∈ L, Sub file x.1 x.2) (hn : (L.map (·.1)).Nodup) {σ σ' : State} (hr : σ.run (L.flatMap declOwn) = .ok σ')
    {x : List Str × Tree} (hx : x ∈ L) (hk : x.2.node.kind = .annotation)
    (hu : ∀ y ∈ L, y.2.node.kind = .annotation → y.2.node.short = x.2.node.short → y.1 = x.1) :
    ∃ a, σ'.globals.lookup x.2.node.short = some (.ref a) ∧
      σ'.heap[a]? = some [("__capnpy_id__".toList, .int x.2.node.id)] := by
  obtain ⟨L1, L2, rfl⟩ := List.append_of_mem hx
  have hl := ok.lower _ _ (hs x hx) (.inl hk)
  rw [List.map_append, List.map_cons] at hn
  obtain ⟨hn1, hn2, hn3⟩ := List.nodup_append.mp hn
  rw [List.nodup_cons] at hn2
  obtain ⟨σ1, e1, -, -, -⟩ := decl_run ok sup (L := L1) (fun y hy => hs y (List.mem_append_left _ hy)) hn1 σ
  obtain ⟨σ2, hσ2⟩ : ∃ σ2 : State, σ2 = ⟨(x.2.node.short, .ref σ1.heap.length) :: σ1.globals,
    σ1.heap ++ [[("__capnpy_id__".toList, .int x.2.node.id)]]⟩ := ⟨_, rfl⟩
  have e2 : σ1.run (declOwn x) = .ok σ2 := by
    unfold declOwn
    rw [hk, hσ2]
    rfl
  have hm2 : ∀ y ∈ L2, Sub file y.1 y.2 := fun y hy => hs y (List.mem_append_right _ (List.mem_cons_of_mem _ hy))
  obtain ⟨σ3, e3, p3, f3, -⟩ := decl_run ok sup (L := L2) hm2 hn2.2 σ2
  have hr' : σ.run ((L1 ++ x :: L2).flatMap declOwn) = .ok σ3 := by
    rw [List.flatMap_append, List.flatMap_cons, run_append, bind_okP e1, run_append, bind_okP e2]
    exact e3
  rw [hr] at hr'
  injection hr' with hr'
  subst hr'
  refine ⟨σ1.heap.length, ?_, ?_⟩
  · rw [f3 _ ?_, hσ2]
    · exact lookup_self _ _ _
    · intro y hy hm
      have hy' := hm2 y hy
      unfold declNames at hm
      split at hm
      · rename_i h
        have hup := hy'.under_upper ok (.inl ⟨_, _, _, _, h⟩)
        rw [List.mem_cons, List.mem_singleton] at hm
        rcases hm with hm | hm
        · exact upper_ne_lower hup hl hm.symm
        · exact upper_ne_lower (hup.append _) hl hm.symm
      · rename_i h
        have hup := hy'.under_upper ok (.inr ⟨_, h⟩)
        rw [List.mem_cons, List.mem_singleton] at hm
        rcases hm with hm | hm
        · exact upper_ne_lower hup hl hm.symm
        · exact lower_ne_under hl _ hm
      · rename_i h
        rw [List.mem_singleton] at hm
        have := hu y (List.mem_append_right _ (List.mem_cons_of_mem _ hy)) h hm.symm
        exact hn2.1 (this ▸ List.mem_map_of_mem hy)
      · cases hm
  · exact heap_prefix p3 (by rw [hσ2]; exact List.getElem?_concat_length)

end Capnpy.Spec
