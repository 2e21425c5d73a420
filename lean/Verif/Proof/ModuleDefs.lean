import Verif.Proof.ModuleExec

/-!
# Proofs about the generated module: the class bodies and the constants
-/

namespace Capnpy.Spec

open Capnpy.Module

variable {g : Gen} {file : Tree}

theorem mem_join_iff {c : Char} {p : List Str} (h : 2 ≤ p.length) : c ∈ joinWith c p := by
  match p, h with
  | x :: y :: r, _ => rw [joinWith]; simp

theorem Sub.under_no_dot (ok : FileOK g file) {p : List Str} {t : Tree} (h : Sub file p t) : '.' ∉ under p := by
  intro hm
  rcases mem_join hm with h' | ⟨s, hs, h'⟩
  · exact absurd h' (by decide)
  · exact h.no_dot ok s hs h'

theorem evalPath_nodot {σ : State} {loc : Dict} {s : Str} {o : Obj} (hd : '.' ∉ s) (hl : loc.lookup s = none)
    (hg : σ.globals.lookup s = some o) : σ.evalPath loc s = .ok o := by
  unfold State.evalPath
  rw [split_single hd]
  unfold State.lookup
  simp only [hl, hg]
  rfl

/-! ## Constants -/

/-- An item type, in terms of addresses. -/
def IsItemA (file : Tree) (A : List Str → Nat) : Ty → Obj → Prop
  | .builtin, .builtin => True
  | .struct i, .itemType a => ∃ q u, Sub file q u ∧ u.node.id = i ∧ Classy u.node ∧ a = A q
  | .enum i, .itemType a => ∃ q u, Sub file q u ∧ u.node.id = i ∧ Classy u.node ∧ a = A q
  | .list e, .listItem o => IsItemA file A e o
  | _, _ => False

/-- A constant, in terms of addresses. -/
def IsConstA (file : Tree) (A : List Str → Nat) : ConstTy → Obj → Prop
  | .plain, .value => True
  | .struct i, .instance_ a => ∃ q u, Sub file q u ∧ u.node.id = i ∧ Classy u.node ∧ a = A q
  | .list e, .list o => IsItemA file A e o
  | _, _ => False

/-- The types of the file are bound. -/
structure Typed (file : Tree) (A B : List Str → Nat) (σ : State) : Prop where
  cls : ∀ q u, Sub file q u → Classy u.node → σ.globals.lookup (under q) = some (.ref (A q))
  item : ∀ q u, Sub file q u → Node.isEnum u.node → σ.globals.lookup (itemTypeName (under q)) = some (.itemType (A q))
  tag : ∀ q u, Sub file q u → ∀ gr count fields key, u.node.kind = .struct gr count fields key →
    tagItems count fields ≠ [] → σ.globals.lookup (tagName q) = some (.ref (B q))

theorem itemTypeName_no_dot (ok : FileOK g file) {p : List Str} {t : Tree} (h : Sub file p t) :
    '.' ∉ itemTypeName (under p) := by
  unfold itemTypeName
  rw [List.mem_append, List.mem_append, not_or, not_or]
  exact ⟨⟨by decide, h.under_no_dot ok⟩, by decide⟩

theorem tagName_no_dot (ok : FileOK g file) {p : List Str} {t : Tree} (h : Sub file p t) :
    '.' ∉ tagName p := by
  unfold tagName
  rw [List.mem_append, not_or]
  exact ⟨h.under_no_dot ok, by decide⟩

theorem eval_item (ok : FileOK g file) {σ : State} {A B : List Str → Nat} {loc : Dict} {structs : Bool}
    (T : Typed file A B σ) (hloc : ∀ q u, Sub file q u → Classy u.node → loc.lookup (itemTypeName (under q)) = none)
    (hst : structs = true → ∀ q u, Sub file q u → Node.isStruct u.node →
      σ.globals.lookup (itemTypeName (under q)) = some (.itemType (A q))) :
    ∀ {e : Ty} {x : Expr}, ItemExprOK file structs e x → ∃ o, σ.eval loc x = .ok o ∧ IsItemA file A e o := by
  intro e
  induction e with
  | builtin =>
    intro x h
    cases x <;> first | exact ⟨.builtin, rfl, trivial⟩ | exact h.elim
  | other => intro x h; cases x <;> exact h.elim
  | list e ih =>
    intro x h
    cases x <;> first | exact h.elim | skip
    obtain ⟨o, h1, h2⟩ := ih h
    refine ⟨.listItem o, ?_, h2⟩
    rw [State.eval, bind_okP h1]; rfl
  | struct i =>
    intro x h
    cases x <;> first | exact h.elim | skip
    obtain ⟨hs, q, u, hq, rfl, hk, rfl⟩ := h
    refine ⟨.itemType (A q), ?_, q, u, hq, rfl, .inl hk, rfl⟩
    rw [State.eval]
    exact evalPath_nodot (itemTypeName_no_dot ok hq) (hloc _ _ hq (.inl hk)) (hst hs _ _ hq hk)
  | enum i =>
    intro x h
    cases x <;> first | exact h.elim | skip
    obtain ⟨q, u, hq, rfl, hk, rfl⟩ := h
    refine ⟨.itemType (A q), ?_, q, u, hq, rfl, .inr hk, rfl⟩
    rw [State.eval]
    exact evalPath_nodot (itemTypeName_no_dot ok hq) (hloc _ _ hq (.inr hk)) (T.item _ _ hq hk)

theorem eval_const (ok : FileOK g file) {σ : State} {A B : List Str → Nat} {loc : Dict} {sib : Option (List Tree)}
    (T : Typed file A B σ) (hloc : ∀ q u, Sub file q u → Classy u.node → loc.lookup (itemTypeName (under q)) = none)
    (hloc' : ∀ q u, Sub file q u → Classy u.node → (∀ ks, sib = some ks → ∀ k ∈ ks, q ≠ [k.node.short]) →
      loc.lookup (under q) = none)
    (hst : sib = none → ∀ q u, Sub file q u → Node.isStruct u.node →
      σ.globals.lookup (itemTypeName (under q)) = some (.itemType (A q)))
    {c : ConstTy} {x : Expr} (h : ConstExprOK file sib c x) : ∃ o, σ.eval loc x = .ok o ∧ IsConstA file A c o := by
  cases c with
  | plain => cases x <;> first | exact ⟨.value, rfl, trivial⟩ | exact h.elim
  | struct i =>
    cases x <;> first | exact h.elim | skip
    obtain ⟨q, u, hq, rfl, hk, rfl, hn⟩ := h
    refine ⟨.instance_ (A q), ?_, q, u, hq, rfl, .inl hk, rfl⟩
    rw [State.eval, bind_okP (evalPath_nodot (hq.under_no_dot ok) (hloc' _ _ hq (.inl hk) hn) (T.cls _ _ hq (.inl hk)))]
  | list e =>
    cases x <;> first | exact h.elim | skip
    obtain ⟨o, h1, h2⟩ := eval_item ok T hloc (fun hn => hst (by simpa using hn)) h
    refine ⟨.list o, ?_, h2⟩
    rw [State.eval, bind_okP h1]; rfl

/-! ## Class bodies -/

/-- The local variables of a class body before the attributes of the accessors. -/
def LocOK (t : Tree) (loc : Dict) : Prop :=
  ∀ x ∈ loc, (∃ r, x.1 = '_' :: '_' :: r) ∨ ∃ k ∈ t.kids, x.1 = k.node.short

theorem LocOK.item (ok : FileOK g file) {p q : List Str} {t u : Tree} {loc : Dict} (h : LocOK t loc) (ht : Sub file p t)
    (hq : Sub file q u) (hc : Classy u.node) : loc.lookup (itemTypeName (under q)) = none := by
  apply lookup_none
  intro x hx e
  rcases h x hx with ⟨r, h⟩ | ⟨k, hk, h⟩
  · exact itemTypeName_ne (hq.under_upper ok hc) r (e.symm.trans h)
  · have := (ok.plain _ _ (.kid ht hk)).not_mem (d := '_') (by decide)
    rw [← h, e] at this
    exact this (by rw [itemTypeName_eq]; exact List.mem_cons_self)

theorem LocOK.tag (ok : FileOK g file) {p : List Str} {t : Tree} {loc : Dict} (h : LocOK t loc) (ht : Sub file p t)
    (hc : Classy t.node) : loc.lookup (tagName p) = none := by
  apply lookup_none
  intro x hx e
  rcases h x hx with ⟨r, h⟩ | ⟨k, hk, h⟩
  · exact upper_ne_under ((ht.under_upper ok hc).append _) _ (e.symm.trans h)
  · have := (ok.plain _ _ (.kid ht hk)).not_mem (d := '_') (by decide)
    rw [← h, e] at this
    exact this (by unfold tagName; rw [List.mem_append]; exact .inr (by decide))

theorem LocOK.cls (ok : FileOK g file) {p q : List Str} {t u : Tree} {loc : Dict} (h : LocOK t loc) (ht : Sub file p t)
    (hq : Sub file q u) (hc : Classy u.node) (hn : ∀ k ∈ t.kids, q ≠ [k.node.short]) : loc.lookup (under q) = none := by
  apply lookup_none
  intro x hx e
  rcases h x hx with ⟨r, h⟩ | ⟨k, hk, h⟩
  · exact upper_ne_under (hq.under_upper ok hc) _ (e.symm.trans h)
  · refine hn k hk (join_inj hq.ne_nil (by simp) (hq.no_underscore ok) ?_ (e.symm.trans h))
    intro s hs
    rw [List.mem_singleton.mp hs]
    exact (ok.plain _ _ (.kid ht hk)).not_mem (by decide)

/-- The reference to a child. -/
theorem refOwn_step (ok : FileOK g file) (sup : Supported g file) {F : Nat} (hA : Adequate file F) {A B : List Str → Nat}
    {σ : State} (T : Typed file A B σ) {p : List Str} {t k : Tree} (ht : Sub file p t) (hk : k ∈ t.kids) {loc : Dict}
    (hl : LocOK t loc) :
    (refOwn g F p k = [] ∧ ¬ Node.isType k.node ∧ ∀ c, k.node.kind ≠ .const c) ∨
    (∃ e o, refOwn g F p k = [(k.node.short, e)] ∧ σ.eval loc e = .ok o ∧
      (Node.isType k.node → o = .ref (A (p ++ [k.node.short]))) ∧
      ∀ c, k.node.kind = .const c → IsConstA file A c o) := by
  have hs := Sub.kid ht hk
  have hpl : ∀ k' ∈ t.kids, p ++ [k.node.short] ≠ [k'.node.short] := by
    intro k' _ e
    have h1 := congrArg List.length e
    have h2 := List.length_pos_iff.mpr ht.ne_nil
    rw [List.length_append, List.length_cons, List.length_nil, List.length_cons, List.length_nil] at h1
    omega
  have hev : Classy k.node → σ.eval loc (.path (under (p ++ [k.node.short]))) = .ok (.ref (A (p ++ [k.node.short]))) := by
    intro hc
    rw [State.eval]
    exact evalPath_nodot (hs.under_no_dot ok) (hl.cls ok ht hs hc hpl) (T.cls _ _ hs hc)
  unfold refOwn
  cases hkk : k.node.kind with
  | file => exact absurd hkk (ok.kinds _ _ hs).1
  | interface => exact absurd hkk (ok.kinds _ _ hs).2
  | annotation =>
    refine .inl ⟨rfl, ?_, by rintro c h; cases h⟩
    rintro (⟨⟨_, _, _, _, h⟩, _⟩ | ⟨_, h⟩) <;> rw [hkk] at h <;> cases h
  | enum ms =>
    refine .inr ⟨_, _, if_neg ht.ne_nil, hev (.inr ⟨ms, hkk⟩), fun _ => rfl, by rintro c h; cases h⟩
  | struct gr a b c =>
    cases gr with
    | true =>
      refine .inl ⟨rfl, ?_, by rintro c h; cases h⟩
      rintro (⟨_, h⟩ | ⟨_, h⟩)
      · exact h ⟨_, _, _, hkk⟩
      · rw [hkk] at h; cases h
    | false =>
      refine .inr ⟨_, _, if_neg ht.ne_nil, hev (.inl ⟨_, _, _, _, hkk⟩), fun _ => rfl, by rintro c h; cases h⟩
  | const c =>
    obtain ⟨x, h1, h2⟩ := constExpr_spec ok (sup.consts _ _ ht k hk c hkk)
    obtain ⟨o, h3, h4⟩ := eval_const ok T (fun q u hq hc => hl.item ok ht hq hc)
      (fun q u hq hc hn => hl.cls ok ht hq hc (hn t.kids rfl)) (by intro h; cases h) h2
    refine .inr ⟨x, o, ?_, h3, ?_, ?_⟩
    · unfold constRhs; simp only [h1 F hA]
    · rintro (⟨⟨_, _, _, _, h⟩, _⟩ | ⟨_, h⟩) <;> rw [hkk] at h <;> cases h
    · rintro c' h; injection h with h; subst h; exact h4

theorem refs_run (ok : FileOK g file) (sup : Supported g file) {F : Nat} (hA : Adequate file F) {A B : List Str → Nat}
    {σ : State} (T : Typed file A B σ) {p : List Str} {t : Tree} (ht : Sub file p t) : ∀ {ks : List Tree},
    (∀ k ∈ ks, k ∈ t.kids) → (ks.map fun k => k.node.short).Nodup → ∀ {loc : Dict}, LocOK t loc →
    ∃ loc', σ.execBody loc (ks.flatMap (refOwn g F p)) = .ok loc' ∧ LocOK t loc' ∧
      (∀ s, (∀ k ∈ ks, s ≠ k.node.short) → loc'.lookup s = loc.lookup s) ∧
      (∀ k ∈ ks, Node.isType k.node → loc'.lookup k.node.short = some (.ref (A (p ++ [k.node.short])))) ∧
      ∀ k ∈ ks, ∀ c, k.node.kind = .const c → ∃ o, loc'.lookup k.node.short = some o ∧ IsConstA file A c o := by
  intro ks
  induction ks with
  | nil => intro _ _ loc hl; exact ⟨loc, rfl, hl, fun s _ => rfl, by simp, by simp⟩
  | cons k ks ih =>
    intro hm hn loc hl
    rw [List.map_cons, List.nodup_cons] at hn
    have hk := hm k List.mem_cons_self
    have hne : ∀ k' ∈ ks, k.node.short ≠ k'.node.short := by
      intro k' hk' e
      exact hn.1 (e ▸ List.mem_map_of_mem (f := fun k : Tree => k.node.short) hk')
    rcases refOwn_step ok sup hA T ht hk hl with ⟨h1, h2, h3⟩ | ⟨e, o, h1, h2, h3, h4⟩
    · obtain ⟨loc', a1, a2, a3, a4, a5⟩ := ih (fun k hk => hm k (List.mem_cons_of_mem _ hk)) hn.2 hl
      refine ⟨loc', ?_, a2, fun s hs => a3 s (fun k hk => hs k (List.mem_cons_of_mem _ hk)), ?_, ?_⟩
      · rw [List.flatMap_cons, h1]; exact a1
      · intro k' hk' ht'
        rcases List.mem_cons.mp hk' with rfl | hk'
        · exact absurd ht' h2
        · exact a4 k' hk' ht'
      · intro k' hk' c hc
        rcases List.mem_cons.mp hk' with rfl | hk'
        · exact absurd hc (h3 c)
        · exact a5 k' hk' c hc
    · have hl' : LocOK t ((k.node.short, o) :: loc) := by
        intro x hx
        rcases List.mem_cons.mp hx with rfl | hx
        · exact .inr ⟨k, hk, rfl⟩
        · exact hl x hx
      obtain ⟨loc', a1, a2, a3, a4, a5⟩ := ih (fun k hk => hm k (List.mem_cons_of_mem _ hk)) hn.2 hl'
      have hown : loc'.lookup k.node.short = some o := by rw [a3 _ hne, lookup_self]
      refine ⟨loc', ?_, a2, fun s hs => ?_, ?_, ?_⟩
      · rw [List.flatMap_cons, h1, List.singleton_append, State.execBody, bind_okP h2]; exact a1
      · rw [a3 s (fun k hk => hs k (List.mem_cons_of_mem _ hk)), lookup_ne (hs k List.mem_cons_self)]
      · intro k' hk' ht'
        rcases List.mem_cons.mp hk' with rfl | hk'
        · rw [hown, h3 ht']
        · exact a4 k' hk' ht'
      · intro k' hk' c hc
        rcases List.mem_cons.mp hk' with rfl | hk'
        · exact ⟨o, hown, h4 c hc⟩
        · exact a5 k' hk' c hc

theorem execBody_values (σ : State) (l : List Str) (loc : Dict) :
    σ.execBody loc (l.map fun s => (s, Expr.value)) = .ok ((l.map fun s => (s, Obj.value)).reverse ++ loc) := by
  induction l generalizing loc with
  | nil => rfl
  | cons s l ih =>
    rw [List.map_cons, State.execBody, State.eval]
    show State.execBody _ _ _ = _
    rw [ih, List.map_cons, List.reverse_cons, List.append_assoc]
    rfl

/-! ## The attributes of the accessors -/

theorem upper_of_lower {c : Char} (h : c.isLower = true) : (Char.ofNat (c.toNat - 32)).isUpper = true := by
  unfold Char.isLower at h
  simp only [Bool.and_eq_true, decide_eq_true_eq, ge_iff_le, UInt32.le_iff_toNat_le] at h
  have e1 : 'a'.val.toNat = 97 := rfl
  have e2 : 'z'.val.toNat = 122 := rfl
  have e3 : c.val.toNat = c.toNat := rfl
  obtain ⟨n, hn⟩ : ∃ n, n = c.toNat - 32 := ⟨_, rfl⟩
  have h1 : 65 ≤ n := by omega
  have h2 : n ≤ 90 := by omega
  rw [← hn]
  clear h hn e1 e2 e3
  have key : ∀ m : Fin 26, (Char.ofNat (m.val + 65)).isUpper = true := by decide
  have := key ⟨n - 65, by omega⟩
  have e : n - 65 + 65 = n := by omega
  simpa [e] using this

theorem capitalize_upper {s : Str} (h : LowerFirst s) : UpperFirst (capitalize s) := by
  obtain ⟨c, r, rfl, hc⟩ := h
  unfold capitalize
  have e : Names.isLower c = true := by
    unfold Names.isLower
    unfold Char.isLower at hc
    exact hc
  simp only [if_pos e]
  exact ⟨_, _, rfl, upper_of_lower hc⟩

/-- What the names of the accessors look like. -/
theorem classAttrs_cases {name : Str} (hn : UpperFirst name) {gr : Bool} {items : List (Option Str)}
    {fields : Option (List Field)} {key : Bool} (hf : ∀ fs, fields = some fs → ∀ f ∈ fs, LowerFirst f.pyname)
    {s : Str} (h : s ∈ classAttrs name gr items fields key) :
    LowerFirst s ∨ (∃ r, s = '_' :: r ∧ s ≠ "__capnpy_id__".toList ∧ s ≠ "__name__".toList ∧ s ≠ "__tag__".toList) ∨
    ∃ fs, fields = some fs ∧ ∃ f ∈ fs, f.shape = .group false ∧ s = capitalize f.pyname := by
  have lit : ∀ (c : Char) (r r' : Str), c.isLower = true → LowerFirst ((c :: r) ++ r') :=
    fun c r r' hc => ⟨c, r ++ r', rfl, hc⟩
  have one : ∀ (c : Char) (r : Str), ('_' == c) = false → (∃ r', '_' :: c :: r = '_' :: r' ∧
      '_' :: c :: r ≠ "__capnpy_id__".toList ∧ '_' :: c :: r ≠ "__name__".toList ∧ '_' :: c :: r ≠ "__tag__".toList) := by
    intro c r hc
    refine ⟨_, rfl, ?_, ?_, ?_⟩ <;>
    · intro e
      injection e with _ e
      injection e with e
      subst e
      cases hc
  unfold classAttrs at h
  rw [List.mem_append, List.mem_append, List.mem_append] at h
  rcases h with ((h | h) | h) | h
  · split at h
    · cases h
    · rcases List.mem_cons.mp h with rfl | h
      · exact .inr (.inl ⟨_, rfl, by decide, by decide, by decide⟩)
      · obtain ⟨i, -, rfl⟩ := List.mem_map.mp h
        exact .inl (lit 'i' _ _ (by decide))
  · cases fields with
    | none => cases h
    | some fs =>
      simp only at h
      rcases List.mem_append.mp h with h | h
      · obtain ⟨f, hfm, h⟩ := List.mem_flatMap.mp h
        have hl := hf fs rfl f hfm
        unfold fieldAttrs at h
        cases hs : f.shape with
        | plain =>
          rw [hs] at h
          rw [List.mem_singleton.mp h]
          exact .inl hl
        | pointer =>
          rw [hs] at h
          simp only [List.mem_cons, List.not_mem_nil, or_false] at h
          rcases h with rfl | rfl | rfl
          · exact .inl hl
          · exact .inl (lit 'g' _ _ (by decide))
          · exact .inl (lit 'h' _ _ (by decide))
        | anyPointer =>
          rw [hs] at h
          simp only [List.mem_cons, List.not_mem_nil, or_false] at h
          rcases h with rfl | rfl
          · exact .inl hl
          · exact .inl (lit 'h' _ _ (by decide))
        | group b =>
          rw [hs] at h
          cases b with
          | true =>
            simp only [List.mem_cons, List.not_mem_nil, or_false] at h
            rcases h with rfl | rfl
            · exact .inl hl
            · obtain ⟨c, r, e, hc⟩ := hl
              rw [e]
              refine .inr (.inl (one c r ?_))
              cases h : ('_' == c) with
              | false => rfl
              | true =>
                have : '_' = c := by simpa using h
                subst this
                cases hc
          | false =>
            simp only [List.mem_cons, List.not_mem_nil, or_false] at h
            rcases h with rfl | rfl
            · exact .inl hl
            · exact .inr (.inr ⟨fs, rfl, f, hfm, hs, rfl⟩)
      · split at h
        · cases h
        · rcases List.mem_cons.mp h with rfl | h
          · obtain ⟨c, r, rfl, hc⟩ := hn
            refine .inr (.inl ?_)
            refine one c (r ++ "__new".toList) ?_
            cases h : ('_' == c) with
            | false => rfl
            | true =>
              have : '_' = c := by simpa using h
              subst this
              cases hc
          · rcases List.mem_cons.mp h with rfl | h
            · exact .inr (.inl ⟨_, rfl, by decide, by decide, by decide⟩)
            · obtain ⟨i, -, rfl⟩ := List.mem_map.mp h
              exact .inl (lit 'n' _ _ (by decide))
  · rw [List.mem_singleton.mp h]
    exact .inl ⟨_, _, rfl, by decide⟩
  · split at h
    · rw [List.mem_singleton.mp h]
      exact .inr (.inl ⟨_, rfl, by decide, by decide, by decide⟩)
    · cases h

/-- The dict of a class that is defined. -/
def DictOK (file : Tree) (A B : List Str → Nat) (p : List Str) (t : Tree) (d : Dict) : Prop :=
  d.lookup "__capnpy_id__".toList = some (.int t.node.id) ∧
  d.lookup "__name__".toList = some (.str (dotted p)) ∧
  (∀ k ∈ t.kids, Node.isType k.node → d.lookup k.node.short = some (.ref (A (p ++ [k.node.short])))) ∧
  (∀ gr count fields key, t.node.kind = .struct gr count fields key → tagItems count fields ≠ [] →
    d.lookup "__tag__".toList = some (.ref (B p))) ∧
  (∀ gr count fields key, t.node.kind = .struct gr count fields key → ∀ k ∈ t.kids, ∀ c, k.node.kind = .const c →
    k.node.short ∉ classAttrs (under p) gr (tagItems count fields) fields key →
    ∃ o, d.lookup k.node.short = some o ∧ IsConstA file A c o) ∧
  ∀ gr count fields key, t.node.kind = .struct gr count fields key →
    ∀ s ∈ classAttrs (under p) gr (tagItems count fields) fields key, d.lookup s = some .value

theorem lookup_values {l : List Str} {s : Str} (h : s ∈ l) (r : Dict) :
    ((l.map fun s => (s, Obj.value)).reverse ++ r).lookup s = some .value := by
  have key : ∀ d : Dict, (∀ x ∈ d, x.2 = Obj.value) → (∃ x ∈ d, x.1 = s) → (d ++ r).lookup s = some .value := by
    intro d
    induction d with
    | nil => rintro _ ⟨x, hx, _⟩; cases hx
    | cons y d ih =>
      rintro hv ⟨x, hx, e⟩
      obtain ⟨y1, y2⟩ := y
      have hy : y2 = Obj.value := hv (y1, y2) List.mem_cons_self
      subst hy
      rw [List.cons_append]
      by_cases e' : s = y1
      · subst e'; exact lookup_self _ _ _
      · rw [lookup_ne e']
        refine ih (fun x hx => hv x (List.mem_cons_of_mem _ hx)) ⟨x, ?_, e⟩
        rcases List.mem_cons.mp hx with rfl | hx
        · exact absurd e.symm e'
        · exact hx
  refine key _ ?_ ?_
  · intro x hx
    obtain ⟨y, -, rfl⟩ := List.mem_map.mp (List.mem_reverse.mp hx)
    rfl
  · exact ⟨(s, .value), List.mem_reverse.mpr (List.mem_map.mpr ⟨s, h, rfl⟩), rfl⟩

theorem body_run (ok : FileOK g file) (sup : Supported g file) {F : Nat} (hA : Adequate file F) {A B : List Str → Nat}
    {σ : State} (T : Typed file A B σ) {p : List Str} {t : Tree} (ht : Sub file p t) {gr : Bool} {count : Nat}
    {fields : Option (List Field)} {key : Bool} (hk : t.node.kind = .struct gr count fields key) :
    ∃ d, σ.execBody [] (bodyOwn g F p t gr (tagItems count fields) fields key) = .ok d ∧
      DictOK file A B p t (d ++ [("__name__".toList, .str (dotted p))]) := by
  have hc : Classy t.node := .inl ⟨_, _, _, _, hk⟩
  have hu := ht.under_upper ok hc
  have hl0 : LocOK t [("__static_ptrs_size__".toList, .value), ("__static_data_size__".toList, .value),
      ("__capnpy_id__".toList, .int t.node.id)] := by
    intro x hx
    simp only [List.mem_cons, List.not_mem_nil, or_false] at hx
    rcases hx with rfl | rfl | rfl <;> exact .inl ⟨_, rfl⟩
  obtain ⟨loc, b1, b2, b3, b4, b5⟩ := refs_run ok sup hA T ht (ks := t.kids) (fun k hk => hk) (ok.names _ _ ht) hl0
  have hattr : ∀ s ∈ classAttrs (under p) gr (tagItems count fields) fields key, _ := fun s hs =>
    classAttrs_cases hu (fun fs e f hf => ok.fields _ _ ht _ _ _ _ (e ▸ hk) f hf) hs
  -- the tag
  obtain ⟨tg, c1, c2, c3⟩ : ∃ tg : Dict, σ.execBody loc (if tagItems count fields = [] then []
      else [("__tag__".toList, Expr.path (under p ++ "__tag__".toList))]) = .ok (tg ++ loc) ∧
      (∀ x ∈ tg, x.1 = "__tag__".toList) ∧
      (tagItems count fields ≠ [] → tg = [("__tag__".toList, .ref (B p))]) := by
    by_cases htg : tagItems count fields = []
    · rw [if_pos htg]; exact ⟨[], rfl, by simp, fun h => absurd htg h⟩
    · rw [if_neg htg]
      have ha := T.tag _ _ ht _ _ _ _ hk htg
      refine ⟨[("__tag__".toList, .ref (B p))], ?_, by simp, fun _ => rfl⟩
      have := evalPath_nodot (tagName_no_dot ok ht) (b2.tag ok ht hc) ha
      unfold tagName at this
      rw [State.execBody, State.eval, bind_okP this]
      rfl
  obtain ⟨d, hd⟩ : ∃ d : Dict, d = ((classAttrs (under p) gr (tagItems count fields) fields key).map
      fun s => (s, Obj.value)).reverse ++ (tg ++ loc) := ⟨_, rfl⟩
  refine ⟨d, ?_, ?_⟩
  · unfold bodyOwn
    have hb : σ.execBody [] [("__capnpy_id__".toList, Expr.id t.node.id), ("__static_data_size__".toList, .value),
      ("__static_ptrs_size__".toList, .value)] = .ok [("__static_ptrs_size__".toList, .value),
      ("__static_data_size__".toList, .value), ("__capnpy_id__".toList, .int t.node.id)] := rfl
    rw [execBody_append, execBody_append, execBody_append, bind_okP hb, bind_okP b1, bind_okP c1, execBody_values, hd]
  · have look : ∀ s, s ∉ classAttrs (under p) gr (tagItems count fields) fields key → s ≠ "__tag__".toList →
        (d ++ [("__name__".toList, Obj.str (dotted p))]).lookup s
          = (loc ++ [("__name__".toList, Obj.str (dotted p))]).lookup s := by
      intro s h1 h2
      rw [hd, List.append_assoc, List.append_assoc, lookup_skip, lookup_skip]
      · intro x hx e
        exact h2 (e.symm.trans (c2 x hx))
      · intro x hx e
        obtain ⟨s', hs', rfl⟩ := List.mem_map.mp (List.mem_reverse.mp hx)
        exact h1 (e ▸ hs')
    have hund : ∀ s : Str, s = "__capnpy_id__".toList ∨ s = "__name__".toList ∨ s = "__tag__".toList → ∃ r, s = '_' :: r := by
      rintro s (rfl | rfl | rfl) <;> exact ⟨_, rfl⟩
    have hshort : ∀ s : Str, s = "__capnpy_id__".toList ∨ s = "__name__".toList ∨ s = "__tag__".toList → ∀ k ∈ t.kids, s ≠ k.node.short := by
      intro s hs k hk e
      obtain ⟨r, rfl⟩ := hund s hs
      have := (ok.plain _ _ (.kid ht hk)).not_mem (d := '_') (by decide)
      rw [← e] at this
      exact this List.mem_cons_self
    have hdun : ∀ s : Str, s = "__capnpy_id__".toList ∨ s = "__name__".toList ∨ s = "__tag__".toList →
        s ∉ classAttrs (under p) gr (tagItems count fields) fields key := by
      intro s hs0 hm
      obtain ⟨r, hr⟩ := hund s hs0
      rcases hattr _ hm with h | ⟨_, _, h1, h2, h3⟩ | ⟨fs, e, f, hf, hs, h⟩
      · exact lower_ne_under h _ hr
      · rcases hs0 with h0 | h0 | h0
        · exact h1 h0
        · exact h2 h0
        · exact h3 h0
      · exact upper_ne_under (capitalize_upper (ok.fields _ _ ht _ _ _ _ (e ▸ hk) f hf)) _ (h.symm.trans hr)
    have hloc : ∀ s o, loc.lookup s = some o → (loc ++ [("__name__".toList, Obj.str (dotted p))]).lookup s = some o := by
      intro s o h
      rw [List.lookup_append, h]; rfl
    refine ⟨?_, ?_, ?_, ?_, ?_, ?_⟩
    · rw [look _ (hdun _ (.inl rfl)) (by decide)]
      apply hloc
      rw [b3 _ (hshort _ (.inl rfl)), lookup_ne (by decide), lookup_ne (by decide), lookup_self]
    · rw [look _ (hdun _ (.inr (.inl rfl))) (by decide), List.lookup_append, b3 _ (hshort _ (.inr (.inl rfl)))]
      rw [lookup_ne (by decide), lookup_ne (by decide), lookup_ne (by decide), lookup_self]
      rfl
    · intro k hkm hty
      have hup := ok.upper _ _ (.kid ht hkm) hty
      rw [look _ ?_ ?_]
      · exact hloc _ _ (b4 k hkm hty)
      · intro hm
        rcases hattr _ hm with h | ⟨_, h, _⟩ | ⟨fs, e, f, hf, hs, h⟩
        · exact upper_ne_lower hup h rfl
        · exact upper_ne_under hup _ h
        · exact sup.groupNames _ _ ht _ _ _ _ (e ▸ hk) f hf hs k hkm hty h.symm
      · exact upper_ne_under hup _
    · intro gr' count' fields' key' hk' htg
      rw [hk] at hk'
      injection hk' with h1 h2 h3 h4
      subst h1 h2 h3 h4
      rw [hd, List.append_assoc, lookup_skip, c3 htg]
      · rfl
      · intro x hx e
        obtain ⟨s', hs', rfl⟩ := List.mem_map.mp (List.mem_reverse.mp hx)
        exact hdun _ (.inr (.inr rfl)) (e ▸ hs')
    · intro gr' count' fields' key' hk' k hkm c hc hnot
      rw [hk] at hk'
      injection hk' with h1 h2 h3 h4
      subst h1 h2 h3 h4
      obtain ⟨o, ho, hio⟩ := b5 k hkm c hc
      refine ⟨o, ?_, hio⟩
      rw [look _ hnot (lower_ne_under (ok.lower _ _ (.kid ht hkm) (.inr ⟨c, hc⟩)) _)]
      exact hloc _ _ ho
    · intro gr' count' fields' key' hk' s hs
      rw [hk] at hk'
      injection hk' with h1 h2 h3 h4
      subst h1 h2 h3 h4
      rw [hd, List.append_assoc]
      exact lookup_values hs _

end Capnpy.Spec
