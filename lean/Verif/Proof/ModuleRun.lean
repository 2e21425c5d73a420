import Verif.Proof.ModuleDefs

/-!
# Proofs about the generated module: the whole import
-/

namespace Capnpy.Spec

open Capnpy.Module

variable {g : Gen} {file : Tree}

/-- A defined struct. -/
def Defined (file : Tree) (A B : List Str → Nat) (σ : State) (x : List Str × Tree) : Prop :=
  (∃ d, σ.heap[A x.1]? = some d ∧ DictOK file A B x.1 x.2 d) ∧
  σ.globals.lookup (itemTypeName (under x.1)) = some (.itemType (A x.1))

/-- The frame of the definitions of one struct. -/
theorem defOwn_run (ok : FileOK g file) (sup : Supported g file) {F : Nat} (hA : Adequate file F)
    {A B : List Str → Nat} {σ : State} (T : Typed file A B σ) {x : List Str × Tree} (hx : Sub file x.1 x.2)
    (hs : Node.isStruct x.2.node) (hh : σ.heap[A x.1]? = some [("__name__".toList, .str (dotted x.1))]) :
    ∃ σ', σ.run (defOwn g F x) = .ok σ' ∧ Typed file A B σ' ∧
      (∀ a, a ≠ A x.1 → σ'.heap[a]? = σ.heap[a]?) ∧
      (∀ s, s ≠ itemTypeName (under x.1) → s ≠ under x.1 → σ'.globals.lookup s = σ.globals.lookup s) ∧
      Defined file A B σ' x := by
  obtain ⟨p, t⟩ := x
  simp only at hx hs hh
  obtain ⟨gr, count, fields, key, hk⟩ := id hs
  have hc : Classy t.node := .inl hs
  have hu := hx.under_upper ok hc
  obtain ⟨d, e1, e2⟩ := body_run ok sup hA T hx hk
  have hg := T.cls _ _ hx hc
  have hd : defOwn g F (p, t) =
      [.extend (under p) (bodyOwn g F p t gr (tagItems count fields) fields key), .itemType (under p)] := by
    unfold defOwn; simp only [hk]
  have hr : σ.run (defOwn g F (p, t)) = .ok ⟨(itemTypeName (under p), .itemType (A p)) :: (under p, .ref (A p)) ::
      σ.globals, σ.heap.set (A p) (d ++ [("__name__".toList, .str (dotted p))])⟩ := by
    rw [hd, State.run, State.exec]
    have h1 : σ.lookup [] (under p) = .ok (.ref (A p)) := by
      unfold State.lookup
      simp only [List.lookup_nil, hg]
    rw [bind_okP h1]
    simp only [hh]
    rw [bind_okP e1]
    show State.run _ _ = _
    rw [State.run, State.exec]
    have h2 : State.lookup ⟨(under p, .ref (A p)) :: σ.globals,
        σ.heap.set (A p) (d ++ [("__name__".toList, .str (dotted p))])⟩ [] (under p) = .ok (.ref (A p)) := by
      unfold State.lookup
      simp only [List.lookup_nil, lookup_self]
    rw [bind_okP h2]
    rfl
  have fr : ∀ s, s ≠ itemTypeName (under p) → s ≠ under p → List.lookup s ((itemTypeName (under p), Obj.itemType (A p)) ::
      (under p, .ref (A p)) :: σ.globals) = σ.globals.lookup s := by
    intro s h1 h2
    rw [lookup_ne h1, lookup_ne h2]
  have hlt := (List.getElem?_eq_some_iff.mp hh).1
  refine ⟨_, hr, ⟨?_, ?_, ?_⟩, ?_, fr, ⟨_, List.getElem?_set_self hlt, e2⟩, lookup_self _ _ _⟩
  · intro q u hq hcq
    have h1 : under q ≠ itemTypeName (under p) := by
      rw [itemTypeName_eq]; exact upper_ne_under (hq.under_upper ok hcq) _
    show List.lookup _ (_ :: _) = _
    rw [lookup_ne h1]
    by_cases h2 : q = p
    · subst h2; exact lookup_self _ _ _
    · rw [lookup_ne (fun e => h2 (hq.under_inj ok hx e))]
      exact T.cls _ _ hq hcq
  · intro q u hq hcq
    show List.lookup _ (_ :: _) = _
    by_cases h2 : q = p
    · subst h2; exact lookup_self _ _ _
    · rw [fr _ (fun e => h2 (itemTypeName_inj ok hq hx e)) ?_]
      · exact T.item _ _ hq hcq
      · rw [itemTypeName_eq]; exact (upper_ne_under hu _).symm
  · intro q u hq _ _ _ _ hkq htg
    show List.lookup _ (_ :: _) = _
    rw [fr _ ?_ (tagName_ne ok hq hx)]
    · exact T.tag _ _ hq _ _ _ _ hkq htg
    · rw [itemTypeName_eq]
      exact upper_ne_under ((hq.under_upper ok (.inl ⟨_, _, _, _, hkq⟩)).append _) _
  · intro a ha
    exact List.getElem?_set_ne (fun e => ha e.symm)

theorem def_run (ok : FileOK g file) (sup : Supported g file) {F : Nat} (hA : Adequate file F)
    {A B : List Str → Nat} (hinj : ∀ p t q u, Sub file p t → Sub file q u → Node.isStruct t.node → Node.isStruct u.node →
      A p = A q → p = q) : ∀ {L : List (List Str × Tree)}, (∀ x ∈ L, Sub file x.1 x.2) →
    (L.map (·.1)).Nodup → ∀ {σ : State}, Typed file A B σ →
    (∀ x ∈ L, Node.isStruct x.2.node → σ.heap[A x.1]? = some [("__name__".toList, .str (dotted x.1))]) →
    ∃ σ', σ.run (L.flatMap (defOwn g F)) = .ok σ' ∧ Typed file A B σ' ∧
      (∀ a, (∀ x ∈ L, Node.isStruct x.2.node → a ≠ A x.1) → σ'.heap[a]? = σ.heap[a]?) ∧
      (∀ s, (∀ x ∈ L, Node.isStruct x.2.node → s ≠ itemTypeName (under x.1) ∧ s ≠ under x.1) →
        σ'.globals.lookup s = σ.globals.lookup s) ∧
      ∀ x ∈ L, Node.isStruct x.2.node → Defined file A B σ' x := by
  intro L
  induction L with
  | nil => intro _ _ σ T _; exact ⟨σ, rfl, T, fun _ _ => rfl, fun _ _ => rfl, by simp⟩
  | cons x L ih =>
    intro hs hn σ T hh
    rw [List.map_cons, List.nodup_cons] at hn
    have hx := hs x List.mem_cons_self
    have hs' : ∀ x ∈ L, Sub file x.1 x.2 := fun x hx => hs x (List.mem_cons_of_mem _ hx)
    by_cases hst : Node.isStruct x.2.node
    · obtain ⟨σ1, a1, a2, a3, a4, a5⟩ := defOwn_run ok sup hA T hx hst (hh x List.mem_cons_self hst)
      have hne : ∀ y ∈ L, x.1 ≠ y.1 := by
        intro y hy e
        exact hn.1 (e ▸ List.mem_map_of_mem hy)
      have hneA : ∀ y ∈ L, Node.isStruct y.2.node → A x.1 ≠ A y.1 := by
        intro y hy hsy e
        exact hne y hy (hinj _ _ _ _ hx (hs' y hy) hst hsy e)
      obtain ⟨σ2, b1, b2, b3, b4, b5⟩ := ih hs' hn.2 a2 (by
        intro y hy hsy
        rw [a3 _ (fun e => hneA y hy hsy e.symm)]
        exact hh y (List.mem_cons_of_mem _ hy) hsy)
      refine ⟨σ2, ?_, b2, ?_, ?_, ?_⟩
      · rw [List.flatMap_cons, run_append, bind_okP a1]; exact b1
      · intro a ha
        rw [b3 a (fun y hy => ha y (List.mem_cons_of_mem _ hy)), a3 a (ha x List.mem_cons_self hst)]
      · intro s hs
        have := hs x List.mem_cons_self hst
        rw [b4 s (fun y hy => hs y (List.mem_cons_of_mem _ hy)), a4 s this.1 this.2]
      · intro y hy hsy
        rcases List.mem_cons.mp hy with rfl | hy
        · obtain ⟨⟨d, c1, c2⟩, c3⟩ := a5
          refine ⟨⟨d, ?_, c2⟩, ?_⟩
          · rw [b3 _ (fun z hz hsz => hneA z hz hsz)]; exact c1
          · rw [b4 _ (fun z hz hsz => ⟨fun e => hne z hz (itemTypeName_inj ok hx (hs' z hz) e), ?_⟩)]
            · exact c3
            · rw [itemTypeName_eq]
              exact (upper_ne_under ((hs' z hz).under_upper ok (.inl hsz)) _).symm
        · exact b5 y hy hsy
    · have hd : defOwn g F x = [] := by
        unfold defOwn
        split
        · rename_i h; exact absurd ⟨_, _, _, _, h⟩ hst
        · rfl
      obtain ⟨σ2, b1, b2, b3, b4, b5⟩ := ih hs' hn.2 T (fun y hy => hh y (List.mem_cons_of_mem _ hy))
      refine ⟨σ2, ?_, b2, ?_, ?_, ?_⟩
      · rw [List.flatMap_cons, hd]; exact b1
      · intro a ha
        exact b3 a (fun y hy => ha y (List.mem_cons_of_mem _ hy))
      · intro s hs
        exact b4 s (fun y hy => hs y (List.mem_cons_of_mem _ hy))
      · intro y hy hsy
        rcases List.mem_cons.mp hy with rfl | hy
        · exact absurd hsy hst
        · exact b5 y hy hsy

/-- The references at module level. -/
theorem const_run (ok : FileOK g file) (sup : Supported g file) {F : Nat} (hA : Adequate file F)
    {A B : List Str → Nat} : ∀ {ks : List Tree}, (∀ k ∈ ks, k ∈ file.kids) → (ks.map fun k => k.node.short).Nodup →
    ∀ {σ : State}, Typed file A B σ →
    (∀ q u, Sub file q u → Node.isStruct u.node →
      σ.globals.lookup (itemTypeName (under q)) = some (.itemType (A q))) →
    ∃ σ', σ.run ((ks.flatMap (refOwn g F [])).map fun p => Stmt.assign p.1 p.2) = .ok σ' ∧ σ'.heap = σ.heap ∧
      (∀ s, (∀ k ∈ ks, (∃ c, k.node.kind = .const c) → s ≠ k.node.short) → σ'.globals.lookup s = σ.globals.lookup s) ∧
      ∀ k ∈ ks, ∀ c, k.node.kind = .const c → ∃ o, σ'.globals.lookup k.node.short = some o ∧ IsConstA file A c o := by
  intro ks
  induction ks with
  | nil => intro _ _ σ _ _; exact ⟨σ, rfl, rfl, fun _ _ => rfl, by simp⟩
  | cons k ks ih =>
    intro hm hn σ T hit
    rw [List.map_cons, List.nodup_cons] at hn
    have hk := hm k List.mem_cons_self
    have hm' : ∀ k ∈ ks, k ∈ file.kids := fun k hk => hm k (List.mem_cons_of_mem _ hk)
    by_cases hc : ∃ c, k.node.kind = .const c
    · obtain ⟨c, hc⟩ := hc
      have hlow := ok.lower _ _ (.top hk) (.inr ⟨c, hc⟩)
      obtain ⟨x, h1, h2⟩ := constExpr_spec ok (sup.topConsts k hk c hc)
      obtain ⟨o, h3, h4⟩ := eval_const (loc := []) ok T (fun _ _ _ _ => rfl) (fun _ _ _ _ _ => rfl) (fun _ => hit) h2
      have hr : refOwn g F [] k = [(k.node.short, x)] := by
        unfold refOwn constRhs
        simp only [hc, h1 F hA]
      have T' : Typed file A B { σ with globals := (k.node.short, o) :: σ.globals } := by
        refine ⟨?_, ?_, ?_⟩
        · intro q u hq hcq
          show List.lookup _ (_ :: _) = _
          rw [lookup_ne (upper_ne_lower (hq.under_upper ok hcq) hlow)]
          exact T.cls _ _ hq hcq
        · intro q u hq hcq
          show List.lookup _ (_ :: _) = _
          rw [lookup_ne (by rw [itemTypeName_eq]; exact (lower_ne_under hlow _).symm)]
          exact T.item _ _ hq hcq
        · intro q u hq _ _ _ _ hkq htg
          show List.lookup _ (_ :: _) = _
          have hut : UpperFirst (tagName q) := (hq.under_upper ok (.inl ⟨_, _, _, _, hkq⟩)).append _
          rw [lookup_ne (upper_ne_lower hut hlow)]
          exact T.tag _ _ hq _ _ _ _ hkq htg
      obtain ⟨σ', b1, b2, b3, b4⟩ := ih hm' hn.2 T' (by
        intro q u hq hsq
        show List.lookup _ (_ :: _) = _
        rw [lookup_ne (by rw [itemTypeName_eq]; exact (lower_ne_under hlow _).symm)]
        exact hit q u hq hsq)
      refine ⟨σ', ?_, b2, ?_, ?_⟩
      · rw [List.flatMap_cons, hr, List.singleton_append, List.map_cons, State.run, State.exec]
        simp only
        rw [bind_okP h3]
        exact b1
      · intro s hs
        rw [b3 s (fun k hk => hs k (List.mem_cons_of_mem _ hk))]
        exact lookup_ne (hs k List.mem_cons_self ⟨c, hc⟩) _ _
      · intro k' hk' c' hc'
        rcases List.mem_cons.mp hk' with rfl | hk'
        · rw [hc] at hc'
          injection hc' with hc'
          subst hc'
          refine ⟨o, ?_, h4⟩
          rw [b3 _ ?_]
          · exact lookup_self _ _ _
          · intro k2 hk2 _ e
            exact hn.1 (e ▸ List.mem_map_of_mem (f := fun k : Tree => k.node.short) hk2)
        · exact b4 k' hk' c' hc'
    · have hr : refOwn g F [] k = [] := by
        unfold refOwn
        split
        · rfl
        · rfl
        · rename_i h; exact absurd ⟨_, h⟩ hc
        · rfl
      obtain ⟨σ', b1, b2, b3, b4⟩ := ih hm' hn.2 T hit
      refine ⟨σ', ?_, b2, fun s hs => b3 s (fun k hk => hs k (List.mem_cons_of_mem _ hk)), ?_⟩
      · rw [List.flatMap_cons, hr]; exact b1
      · intro k' hk' c' hc'
        rcases List.mem_cons.mp hk' with rfl | hk'
        · exact absurd ⟨_, hc'⟩ hc
        · exact b4 k' hk' c' hc'

/-- The address of a class. -/
def addr (σ : State) (s : Str) : Nat :=
  match σ.globals.lookup s with
  | some (.ref a) => a
  | _ => 0

theorem addr_eq {σ : State} {s : Str} {a : Nat} (h : σ.globals.lookup s = some (.ref a)) : addr σ s = a := by
  unfold addr; rw [h]

/-- What holds after the import. -/
structure Imported (g : Gen) (file : Tree) (A B : List Str → Nat) (σ0 σ : State) : Prop where
  typed : Typed file A B σ
  structs : ∀ p t, Sub file p t → Node.isStruct t.node → Defined file A B σ (p, t)
  enums : ∀ p t, Sub file p t → ∀ ms, t.node.kind = .enum ms → ∃ r, σ.heap[A p]? = some (memDict 0 ms ++ r) ∧
    (memDict 0 ms ++ r).lookup "__capnpy_id__".toList = some (.int t.node.id)
  tags : ∀ p t, Sub file p t → ∀ gr count fields key, t.node.kind = .struct gr count fields key →
    tagItems count fields ≠ [] → ∃ (names : List Str) (r : Dict), tagItems count fields = names.map some ∧
      σ.heap[B p]? = some (memDict 0 names ++ r)
  consts : ∀ k ∈ file.kids, ∀ c, k.node.kind = .const c →
    ∃ o, σ.globals.lookup k.node.short = some o ∧ IsConstA file A c o
  anns : ∀ p t, Sub file p t → t.node.kind = .annotation →
    (∀ q u, Sub file q u → u.node.kind = .annotation → u.node.short = t.node.short → q = p) →
    (∀ k ∈ file.kids, (∃ c, k.node.kind = .const c) → k.node.short ≠ t.node.short) →
    ∃ a, σ.globals.lookup t.node.short = some (.ref a) ∧
      σ.heap[a]? = some [("__capnpy_id__".toList, .int t.node.id)]
  modId : σ.globals.lookup "__capnpy_id__".toList = some (.int file.node.id)
  old : ∀ (a : Nat) (d : Dict), σ0.heap[a]? = some d → σ.heap[a]? = some d
  fresh : ∀ p t, Sub file p t → Classy t.node → σ0.heap.length ≤ A p

theorem dotted_inj (ok : FileOK g file) {p q : List Str} {t u : Tree} (h : Sub file p t) (h' : Sub file q u)
    (e : dotted p = dotted q) : p = q := join_inj h.ne_nil h'.ne_nil (h.no_dot ok) (h'.no_dot ok) e

theorem import_spec (ok : FileOK g file) (sup : Supported g file) {F : Nat}
    (hF : ∀ p t, Sub file p t → 2 * p.length ≤ F) (σ0 : State) :
    ∃ A B σ, importModule g F σ0 = .ok σ ∧ Imported g file A B σ0 σ := by
  have hA : Adequate file F := by
    intro p t h
    have := hF p t h
    have := List.length_pos_iff.mpr h.ne_nil
    omega
  obtain ⟨σa, hσa⟩ : ∃ σa : State, σa = { σ0 with globals := ("__capnpy_id__".toList, .int file.node.id) :: σ0.globals } :=
    ⟨_, rfl⟩
  have r0 : σ0.run [.assign "__capnpy_id__".toList (.id file.node.id)] = .ok σa := by rw [hσa]; rfl
  have hheap : σa.heap = σ0.heap := by rw [hσa]
  obtain ⟨σ1, r1, p1, f1, d1⟩ := decl_run ok sup (L := file.all) (fun x hx => all_sub hx) (all_nodup ok) σa
  have dst : ∀ p t, Sub file p t → Node.isStruct t.node → ∃ a, σa.heap.length ≤ a ∧
      σ1.globals.lookup (under p) = some (.ref a) ∧ σ1.heap[a]? = some [("__name__".toList, .str (dotted p))] :=
    fun p t h hs => (d1 _ (sub_all h)).1 hs
  have dtg := fun p t (h : Sub file p t) => (d1 _ (sub_all h)).2.1
  have den := fun p t (h : Sub file p t) => (d1 _ (sub_all h)).2.2
  simp only at dtg den
  obtain ⟨A, hAdef⟩ : ∃ A : List Str → Nat, A = fun p => addr σ1 (under p) := ⟨_, rfl⟩
  obtain ⟨B, hBdef⟩ : ∃ B : List Str → Nat, B = fun p => addr σ1 (tagName p) := ⟨_, rfl⟩
  have hst : ∀ p t, Sub file p t → Node.isStruct t.node → σa.heap.length ≤ A p ∧
      σ1.globals.lookup (under p) = some (.ref (A p)) ∧
      σ1.heap[A p]? = some [("__name__".toList, .str (dotted p))] := by
    intro p t h hs
    obtain ⟨a, a1, a2, a3⟩ := dst p t h hs
    have : A p = a := by rw [hAdef]; exact addr_eq a2
    rw [this]; exact ⟨a1, a2, a3⟩
  have hen : ∀ p t, Sub file p t → ∀ ms, t.node.kind = .enum ms → ∃ r, σa.heap.length ≤ A p ∧
      σ1.globals.lookup (under p) = some (.ref (A p)) ∧ σ1.heap[A p]? = some (memDict 0 ms ++ r) ∧
      (memDict 0 ms ++ r).lookup "__capnpy_id__".toList = some (.int t.node.id) ∧
      (memDict 0 ms ++ r).lookup "__name__".toList = none ∧
      σ1.globals.lookup (itemTypeName (under p)) = some (.itemType (A p)) := by
    intro p t h ms hk
    obtain ⟨a, r, a1, a2, a3, a4, a5, a6⟩ := den p t h ms hk
    have : A p = a := by rw [hAdef]; exact addr_eq a2
    rw [this]; exact ⟨r, a1, a2, a3, a4, a5, a6⟩
  have htg : ∀ p t, Sub file p t → ∀ gr count fields key, t.node.kind = .struct gr count fields key →
      tagItems count fields ≠ [] → ∃ (names : List Str) (r : Dict), σ1.globals.lookup (tagName p) = some (.ref (B p)) ∧
      tagItems count fields = names.map some ∧
      σ1.heap[B p]? = some (memDict 0 names ++ r) ∧ (memDict 0 names ++ r).lookup "__name__".toList = none := by
    intro p t h _ _ _ _ hk hne
    obtain ⟨a, names, r, a1, a2, a3, a4⟩ := dtg p t h _ _ _ _ hk hne
    have : B p = a := by rw [hBdef]; exact addr_eq a1
    rw [this]; exact ⟨names, r, a1, a2, a3, a4⟩
  have T1 : Typed file A B σ1 := by
    refine ⟨?_, ?_, ?_⟩
    · rintro q u hq (hc | ⟨ms, hc⟩)
      · exact (hst q u hq hc).2.1
      · obtain ⟨r, -, a2, -⟩ := hen q u hq ms hc
        exact a2
    · rintro q u hq ⟨ms, hc⟩
      obtain ⟨r, -, -, -, -, -, a6⟩ := hen q u hq ms hc
      exact a6
    · intro q u hq _ _ _ _ hk hne
      obtain ⟨_, _, a1, -⟩ := htg q u hq _ _ _ _ hk hne
      exact a1
  have hinj : ∀ p t q u, Sub file p t → Sub file q u → Node.isStruct t.node → Node.isStruct u.node →
      A p = A q → p = q := by
    intro p t q u hp hq hsp hsq e
    have h1 := (hst p t hp hsp).2.2
    have h2 := (hst q u hq hsq).2.2
    rw [e, h2] at h1
    injection h1 with h1
    injection h1 with h1
    injection h1 with _ h1
    injection h1 with h1
    exact (dotted_inj ok hq hp h1).symm
  obtain ⟨σ2, r2, T2, h2, g2, D2⟩ := def_run ok sup hA hinj (L := file.all) (fun x hx => all_sub hx) (all_nodup ok) T1
    (fun x hx hs => (hst x.1 x.2 (all_sub hx) hs).2.2)
  obtain ⟨σ3, r3, h3, g3, C3⟩ := const_run ok sup hA (ks := file.kids) (fun k hk => hk) ok.topNames T2
    (fun q u hq hs => (D2 _ (sub_all hq) hs).2)
  have upC : ∀ s, UpperFirst s → σ3.globals.lookup s = σ2.globals.lookup s := by
    intro s hs
    exact g3 s (fun k hk hc => upper_ne_lower hs (ok.lower _ _ (.top hk) (.inr hc)))
  have unC : ∀ r, σ3.globals.lookup ('_' :: r) = σ2.globals.lookup ('_' :: r) := by
    intro r
    exact g3 _ (fun k hk hc => (lower_ne_under (ok.lower _ _ (.top hk) (.inr hc)) _).symm)
  -- addresses without `__name__` are not those of structs
  have notStruct : ∀ (a : Nat) (d : Dict), σ1.heap[a]? = some d → d.lookup "__name__".toList = none → σ3.heap[a]? = some d := by
    intro a d hd hn
    rw [h3, h2 a ?_]
    · exact hd
    · intro x hx hs e
      have := (hst x.1 x.2 (all_sub hx) hs).2.2
      rw [← e, hd] at this
      injection this with this
      rw [this] at hn
      have h' := lookup_self "__name__".toList (.str (dotted x.1)) []
      rw [hn] at h'
      cases h'
  refine ⟨A, B, σ3, ?_, ?_⟩
  · unfold importModule
    rw [bind_okP (emitModule_spec ok sup hF)]
    rw [run_append, run_append, run_append, bind_okP r0, bind_okP r1, bind_okP r2]
    exact r3
  · refine ⟨⟨?_, ?_, ?_⟩, ?_, ?_, ?_, C3, ?_, ?_, ?_, ?_⟩
    · intro q u hq hc
      rw [upC _ (hq.under_upper ok hc)]
      exact T2.cls _ _ hq hc
    · intro q u hq hc
      rw [itemTypeName_eq, unC, ← itemTypeName_eq]
      exact T2.item _ _ hq hc
    · intro q u hq _ _ _ _ hk hne
      have hut : UpperFirst (tagName q) := (hq.under_upper ok (.inl ⟨_, _, _, _, hk⟩)).append _
      rw [upC _ hut]
      exact T2.tag _ _ hq _ _ _ _ hk hne
    · intro p t h hs
      obtain ⟨⟨d, c1, c2⟩, c3⟩ := D2 _ (sub_all h) hs
      refine ⟨⟨d, by rw [h3]; exact c1, c2⟩, ?_⟩
      rw [itemTypeName_eq, unC, ← itemTypeName_eq]
      exact c3
    · intro p t h ms hk
      obtain ⟨r, a1, a2, a3, a4, a5, a6⟩ := hen p t h ms hk
      exact ⟨r, notStruct _ _ a3 a5, a4⟩
    · intro p t h _ _ _ _ hk hne
      obtain ⟨names, r, a1, a2, a3, a4⟩ := htg p t h _ _ _ _ hk hne
      exact ⟨names, r, a2, notStruct _ _ a3 a4⟩
    · intro p t h hk hu hc
      have hl := ok.lower _ _ h (.inl hk)
      obtain ⟨a, a1, a2⟩ := decl_run_ann ok sup (L := file.all) (fun x hx => all_sub hx) (all_nodup ok) r1 (sub_all h) hk
        (fun y hy => hu y.1 y.2 (all_sub hy))
      refine ⟨a, ?_, notStruct _ _ a2 (by rw [lookup_ne (by decide)]; rfl)⟩
      rw [g3 _ (fun k hk hcc => (hc k hk hcc).symm), g2 _ ?_]
      · exact a1
      · intro x hx hs
        have hup := (all_sub hx).under_upper ok (.inl hs)
        refine ⟨?_, (upper_ne_lower hup hl).symm⟩
        rw [itemTypeName_eq]
        exact lower_ne_under hl _
    · have hund : ∃ r, "__capnpy_id__".toList = '_' :: '_' :: r := ⟨_, rfl⟩
      obtain ⟨r, hr⟩ := hund
      have e1 : σa.globals.lookup "__capnpy_id__".toList = some (.int file.node.id) := by
        rw [hσa]; exact lookup_self _ _ _
      rw [hr] at e1 ⊢
      rw [unC, g2, f1, e1]
      · intro x hx hm
        have hsx := all_sub hx
        unfold declNames at hm
        split at hm
        · rename_i h
          have hu := hsx.under_upper ok (.inl ⟨_, _, _, _, h⟩)
          rw [List.mem_cons, List.mem_singleton] at hm
          rcases hm with hm | hm
          · exact upper_ne_under hu _ hm.symm
          · exact upper_ne_under (hu.append _) _ hm.symm
        · rename_i h
          have hu := hsx.under_upper ok (.inr ⟨_, h⟩)
          rw [List.mem_cons, List.mem_singleton] at hm
          rcases hm with hm | hm
          · exact upper_ne_under hu _ hm.symm
          · exact itemTypeName_ne hu _ hm.symm
        · rename_i h
          rw [List.mem_singleton] at hm
          exact lower_ne_under (ok.lower _ _ hsx (.inl h)) _ hm.symm
        · cases hm
      · intro x hx hs
        have hu := (all_sub hx).under_upper ok (.inl hs)
        exact ⟨(itemTypeName_ne hu _).symm, (upper_ne_under hu _).symm⟩
    · intro a d hd
      rw [h3, h2 a ?_]
      · exact heap_prefix p1 (by rw [hheap]; exact hd)
      · intro x hx hs e
        have := (hst x.1 x.2 (all_sub hx) hs).1
        have := (List.getElem?_eq_some_iff.mp hd).1
        rw [hheap] at *
        omega
    · rintro p t h (hc | ⟨ms, hc⟩)
      · have := (hst p t h hc).1
        rw [hheap] at this; exact this
      · obtain ⟨r, a1, -⟩ := hen p t h ms hc
        rw [hheap] at a1; exact a1

end Capnpy.Spec
