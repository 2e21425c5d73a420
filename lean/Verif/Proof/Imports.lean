import Verif.Spec.Imports
import Verif.Proof.ModuleRun
import Verif.Proof.List

/-!
# Proofs about schema files that import each other
-/

namespace Capnpy.Spec

open Capnpy.Module

/-! ## The generator does not depend on the import names as far as the file itself goes -/

theorem fileOK_names {r : Request} {a b : ImportNames} {file : Tree} (h : FileOK (r.gen a) file) : FileOK (r.gen b) file :=
  { ids := h.ids, nonzero := h.nonzero, mem := h.mem, current := h.current, isFile := h.isFile, root := h.root,
    topKids := h.topKids, kids := h.kids, topNames := h.topNames, names := h.names, plain := h.plain, upper := h.upper,
    lower := h.lower, kinds := h.kinds, leaves := h.leaves, topGroups := h.topGroups, groups := h.groups,
    unions := h.unions, fields := h.fields, members := h.members }

theorem constOK_names {r : Request} {a b : ImportNames} {file : Tree} {sib : Option (List Tree)} {c : ConstTy}
    (h : ConstOK (r.gen a) file sib c) : ConstOK (r.gen b) file sib c := by
  cases c <;> exact h

theorem supported_names {r : Request} {a b : ImportNames} {file : Tree} (h : Supported (r.gen a) file) :
    Supported (r.gen b) file :=
  { groupNames := h.groupNames, enums := h.enums, topConsts := fun k hk c hc => constOK_names (h.topConsts k hk c hc),
    consts := fun p t ht k hk c hc => constOK_names (h.consts p t ht k hk c hc) }

/-! ## Declaring the imports -/

/-- The imports that are used. -/
def usedImports (r : Request) (is : List Import) : List Import :=
  is.filter fun i => r.nodes.any fun n => n.id == i.id

theorem node_used {r : Request} {i : Nat} (h : (r.nodes.any fun n => n.id == i) = true) :
    ∃ n, (r.gen []).node i = .ok n ∧ n.id = i ∧ n ∈ r.nodes := by
  unfold Gen.node
  show ∃ n, (match r.nodes.reverse.find? (fun n => n.id == i) with | some n => (Except.ok n : Py Node) | none => .error .keyError) = .ok n ∧ _
  cases hf : r.nodes.reverse.find? (fun n => n.id == i) with
  | some n =>
    have h1 := List.find?_some hf
    have h2 := List.mem_of_find?_eq_some hf
    exact ⟨n, rfl, by simpa using h1, List.mem_reverse.mp h2⟩
  | none =>
    obtain ⟨n, hn, hi⟩ := List.any_eq_true.mp h
    have := List.find?_eq_none.mp hf n (List.mem_reverse.mpr hn)
    exact absurd hi this

theorem node_unused {r : Request} {i : Nat} (h : ¬ (r.nodes.any fun n => n.id == i) = true) :
    (r.gen []).node i = .error .keyError := by
  unfold Gen.node
  show (match r.nodes.reverse.find? (fun n => n.id == i) with | some n => (Except.ok n : Py Node) | none => .error .keyError) = _
  cases hf : r.nodes.reverse.find? (fun n => n.id == i) with
  | none => rfl
  | some n =>
    refine absurd (List.any_eq_true.mpr ⟨n, List.mem_reverse.mp (List.mem_of_find?_eq_some hf), List.find?_some hf⟩) h

/-- The statement of an import in dynamic mode. -/
def loadStmt (r : Request) (i : Import) : List ImportStmt :=
  if i.name = "/capnp/c++.capnp".toList then [] else [.load (importName (r.display i.id)) i.name]

theorem importStmt_dyn (r : Request) (i : Import) :
    importStmt false (importName (r.display i.id)) i.name = .ok (loadStmt r i) := by
  unfold importStmt loadStmt
  split <;> rfl

theorem declare_ok {r : Request} : ∀ {is : List Import} {names : ImportNames},
    (names.map (·.2) ++ (usedImports r is).map fun i => importName (r.display i.id)).Nodup →
    r.declare false is names = .ok (((usedImports r is).map fun i => (r.display i.id, importName (r.display i.id))).reverse
      ++ names, (usedImports r is).flatMap (loadStmt r)) := by
  intro is
  induction is with
  | nil => intro names _; rfl
  | cons i is ih =>
    intro names h
    by_cases hu : (r.nodes.any fun n => n.id == i.id) = true
    · obtain ⟨n, h1, h2, -⟩ := node_used hu
      have hused : usedImports r (i :: is) = i :: usedImports r is := by
        unfold usedImports; rw [List.filter_cons, if_pos hu]
      rw [hused] at h ⊢
      rw [List.map_cons] at h
      have hfresh : importName (r.display i.id) ∉ names.map (·.2) := by
        intro hm
        have := (List.nodup_append.mp h).2.2 _ hm _ (List.mem_cons_self)
        exact this rfl
      have hr : registerImport names (r.display n.id)
          = .ok (importName (r.display i.id), (r.display i.id, importName (r.display i.id)) :: names) := by
        unfold registerImport
        rw [h2]
        simp only
        rw [if_neg hfresh]
      have hrest := ih (names := (r.display i.id, importName (r.display i.id)) :: names) (by
        rw [List.map_cons]
        exact List.perm_middle.nodup_iff.mp h)
      unfold Request.declare
      simp only [h1]
      rw [bind_okP hr]
      simp only
      rw [bind_okP (importStmt_dyn r i), bind_okP hrest]
      simp only [List.map_cons, List.reverse_cons, List.append_assoc, List.singleton_append, List.flatMap_cons]
      rfl
    · have hused : usedImports r (i :: is) = usedImports r is := by
        unfold usedImports; rw [List.filter_cons, if_neg hu]
      rw [hused] at h ⊢
      unfold Request.declare
      simp only [node_unused hu]
      exact ih h

theorem declare_clash {r : Request} : ∀ {is : List Import} {names : ImportNames}, (names.map (·.2)).Nodup →
    ¬ (names.map (·.2) ++ (usedImports r is).map fun i => importName (r.display i.id)).Nodup →
    r.declare false is names = .error .attributeError := by
  intro is
  induction is with
  | nil =>
    intro names h1 h
    exact absurd (by simpa [usedImports] using h1) h
  | cons i is ih =>
    intro names hn h
    by_cases hu : (r.nodes.any fun n => n.id == i.id) = true
    · obtain ⟨n, h1, h2, -⟩ := node_used hu
      have hused : usedImports r (i :: is) = i :: usedImports r is := by
        unfold usedImports; rw [List.filter_cons, if_pos hu]
      rw [hused, List.map_cons] at h
      unfold Request.declare
      simp only [h1]
      by_cases hm : importName (r.display i.id) ∈ names.map (·.2)
      · have hr : registerImport names (r.display n.id) = .error .attributeError := by
          unfold registerImport
          rw [h2]
          simp only
          rw [if_pos hm]
        rw [hr]
        rfl
      · have hr : registerImport names (r.display n.id)
            = .ok (importName (r.display i.id), (r.display i.id, importName (r.display i.id)) :: names) := by
          unfold registerImport
          rw [h2]
          simp only
          rw [if_neg hm]
        have hrest := ih (names := (r.display i.id, importName (r.display i.id)) :: names)
          (by rw [List.map_cons]; exact List.nodup_cons.mpr ⟨hm, hn⟩) (by
          rw [List.map_cons]
          intro h'
          exact h (List.perm_middle.nodup_iff.mpr h'))
        rw [bind_okP hr]
        simp only
        rw [bind_okP (importStmt_dyn r i), hrest]
        rfl
    · have hused : usedImports r (i :: is) = usedImports r is := by
        unfold usedImports; rw [List.filter_cons, if_neg hu]
      rw [hused] at h
      unfold Request.declare
      simp only [node_unused hu]
      exact ih hn h

theorem lookup_of_mem {l : ImportNames} {k v : Str} (h : (k, v) ∈ l) (hu : ∀ v', (k, v') ∈ l → v' = v) :
    l.lookup k = some v := by
  induction l with
  | nil => cases h
  | cons x l ih =>
    obtain ⟨k', v'⟩ := x
    by_cases hk : k = k'
    · subst hk
      rw [List.lookup_cons_self, hu v' List.mem_cons_self]
    · rw [List.lookup_cons, show (k == k') = false by simpa using hk]
      refine ih ?_ (fun v'' hm => hu v'' (List.mem_cons_of_mem _ hm))
      rcases List.mem_cons.mp h with h | h
      · injection h with h1 h2; exact absurd h1 hk
      · exact h

/-- The import name of a file that is used. -/
theorem names_lookup {r : Request} {is : List Import} {i : Import} (h : i ∈ usedImports r is) :
    (((usedImports r is).map fun i => (r.display i.id, importName (r.display i.id))).reverse ++ ([] : ImportNames)).lookup
      (r.display i.id) = some (importName (r.display i.id)) := by
  rw [List.append_nil]
  refine lookup_of_mem (List.mem_reverse.mpr (List.mem_map.mpr ⟨i, h, rfl⟩)) ?_
  intro v' hm
  obtain ⟨j, -, hj⟩ := List.mem_map.mp (List.mem_reverse.mp hm)
  injection hj with h1 h2
  rw [← h2, h1]

/-! ## Import names are not the names of anything else -/

/-- The shape of import names. -/
def ImportShape (s : Str) : Prop := ∃ m, s = ['_'] ++ m ++ "_capnp".toList

theorem importName_shape (fname : Str) : ImportShape (importName fname) := ⟨_, rfl⟩

/-- The name that a statement binds. -/
def boundName : Stmt → Str
  | .declStruct name _ => name
  | .declEnum name _ _ => name
  | .declAnnotation name _ => name
  | .itemType name => itemTypeName name
  | .extend name _ => name
  | .assign name _ => name

theorem exec_frame {σ σ' : State} {st : Stmt} (h : σ.exec st = .ok σ') {s : Str} (hs : s ≠ boundName st) :
    σ'.globals.lookup s = σ.globals.lookup s := by
  cases st with
  | declStruct name dotname =>
    simp only [State.exec, Except.ok.injEq] at h
    rw [← h]; exact lookup_ne hs _ _
  | declEnum name id ms =>
    simp only [State.exec] at h
    cases he : enumDict id ms with
    | error e => rw [he] at h; cases h
    | ok d =>
      rw [he] at h
      have h : Except.ok _ = Except.ok σ' := h
      injection h with h
      rw [← h]; exact lookup_ne hs _ _
  | declAnnotation name id =>
    simp only [State.exec, Except.ok.injEq] at h
    rw [← h]; exact lookup_ne hs _ _
  | itemType name =>
    simp only [State.exec] at h
    cases he : σ.lookup [] name with
    | error e => rw [he] at h; cases h
    | ok o =>
      rw [bind_okP he] at h
      cases o with
      | ref a =>
        simp only [Except.ok.injEq] at h
        rw [← h]; exact lookup_ne hs _ _
      | _ => cases h
  | extend name body =>
    simp only [State.exec] at h
    cases he : σ.lookup [] name with
    | error e => rw [he] at h; cases h
    | ok o =>
      rw [bind_okP he] at h
      cases o with
      | ref a =>
        simp only at h
        cases hd : σ.heap[a]? with
        | none => rw [hd] at h; cases h
        | some d =>
          rw [hd] at h
          simp only at h
          cases hb : σ.execBody [] body with
          | error e => rw [hb] at h; cases h
          | ok loc =>
            rw [bind_okP hb] at h
            have h : Except.ok _ = Except.ok σ' := h
            injection h with h
            rw [← h]; exact lookup_ne hs _ _
      | _ => cases h
  | assign name e =>
    simp only [State.exec] at h
    cases he : σ.eval [] e with
    | error e => rw [he] at h; cases h
    | ok o =>
      rw [bind_okP he] at h
      have h : Except.ok _ = Except.ok σ' := h
      injection h with h
      rw [← h]; exact lookup_ne hs _ _

theorem run_frame : ∀ {l : List Stmt} {σ σ' : State}, σ.run l = .ok σ' → ∀ {s : Str}, (∀ st ∈ l, s ≠ boundName st) →
    σ'.globals.lookup s = σ.globals.lookup s := by
  intro l
  induction l with
  | nil => intro σ σ' h s _; injection h with h; rw [h]
  | cons st l ih =>
    intro σ σ' h s hs
    unfold State.run at h
    cases he : σ.exec st with
    | error e => rw [he] at h; cases h
    | ok σ1 =>
      rw [bind_okP he] at h
      rw [ih h (fun st hst => hs st (List.mem_cons_of_mem _ hst)), exec_frame he (hs st List.mem_cons_self)]

theorem shape_ne_upper {s x : Str} (h : ImportShape s) (hx : UpperFirst x) : s ≠ x := by
  obtain ⟨m, rfl⟩ := h
  intro e
  exact upper_ne_under hx (m ++ "_capnp".toList) (by rw [← e]; rfl)

theorem shape_ne_lower {s x : Str} (h : ImportShape s) (hx : LowerFirst x) : s ≠ x := by
  obtain ⟨m, rfl⟩ := h
  intro e
  exact lower_ne_under hx (m ++ "_capnp".toList) (by rw [← e]; rfl)

theorem shape_last {s : Str} (h : ImportShape s) : s.getLast? = some 'p' := by
  obtain ⟨m, rfl⟩ := h
  rw [List.getLast?_append]
  rfl

theorem shape_ne_item {s x : Str} (h : ImportShape s) : s ≠ itemTypeName x := by
  intro e
  have := shape_last h
  rw [e] at this
  unfold itemTypeName at this
  rw [List.getLast?_append, show "_list_item_type".toList.getLast? = some 'e' by decide, Option.some_or] at this
  exact absurd this (by decide)

variable {g : Gen} {file : Tree}

theorem under_first (ok : FileOK g file) {p : List Str} {t : Tree} (h : Sub file p t) (hc : Classy t.node) :
    UpperFirst (under p) := h.under_upper ok hc

/-- Import names are not bound by the body of a module. -/
theorem body_names (ok : FileOK g file) (sup : Supported g file) {F : Nat}
    (hF : ∀ p t, Sub file p t → 2 * p.length ≤ F) {body : List Stmt} (hb : g.emitModule F = .ok body) {s : Str}
    (hs : ImportShape s) : ∀ st ∈ body, s ≠ boundName st := by
  rw [emitModule_spec ok sup hF] at hb
  injection hb with hb
  subst hb
  intro st hst
  rcases List.mem_append.mp hst with hst | hst
  · rcases List.mem_append.mp hst with hst | hst
    · rcases List.mem_append.mp hst with hst | hst
      · rw [List.mem_singleton.mp hst]
        intro e
        have := shape_last hs
        rw [e] at this
        have this : "__capnpy_id__".toList.getLast? = some 'p' := this
        exact absurd this (by decide)
      · obtain ⟨x, hx, hst⟩ := List.mem_flatMap.mp hst
        have hsub := all_sub hx
        unfold declOwn at hst
        cases hk : x.2.node.kind with
        | struct gr count fields key =>
          have hu := hsub.under_upper ok (.inl ⟨_, _, _, _, hk⟩)
          rw [hk] at hst
          simp only at hst
          rcases List.mem_cons.mp hst with rfl | hst
          · exact shape_ne_upper hs hu
          · split at hst
            · cases hst
            · rw [List.mem_singleton.mp hst]
              exact shape_ne_upper hs (hu.append _)
        | enum ms =>
          have hu := hsub.under_upper ok (.inr ⟨_, hk⟩)
          rw [hk] at hst
          simp only at hst
          rcases List.mem_cons.mp hst with rfl | hst
          · exact shape_ne_upper hs hu
          · rw [List.mem_singleton.mp hst]
            exact shape_ne_item hs
        | annotation =>
          rw [hk] at hst
          simp only at hst
          rw [List.mem_singleton.mp hst]
          exact shape_ne_lower hs (ok.lower _ _ hsub (.inl hk))
        | file => rw [hk] at hst; cases hst
        | const c => rw [hk] at hst; cases hst
        | interface => rw [hk] at hst; cases hst
    · obtain ⟨x, hx, hst⟩ := List.mem_flatMap.mp hst
      have hsub := all_sub hx
      unfold defOwn at hst
      cases hk : x.2.node.kind with
      | struct gr count fields key =>
        have hu := hsub.under_upper ok (.inl ⟨_, _, _, _, hk⟩)
        rw [hk] at hst
        simp only at hst
        rcases List.mem_cons.mp hst with rfl | hst
        · exact shape_ne_upper hs hu
        · rw [List.mem_singleton.mp hst]
          exact shape_ne_item hs
      | enum ms => rw [hk] at hst; cases hst
      | annotation => rw [hk] at hst; cases hst
      | file => rw [hk] at hst; cases hst
      | const c => rw [hk] at hst; cases hst
      | interface => rw [hk] at hst; cases hst
  · obtain ⟨x, hx, rfl⟩ := List.mem_map.mp hst
    obtain ⟨k, hk, hx⟩ := List.mem_flatMap.mp hx
    unfold refOwn at hx
    simp only [if_true] at hx
    cases hkk : k.node.kind with
    | struct gr count fields key => rw [hkk] at hx; cases gr <;> cases hx
    | enum ms => rw [hkk] at hx; cases hx
    | annotation => rw [hkk] at hx; cases hx
    | file => rw [hkk] at hx; cases hx
    | interface => rw [hkk] at hx; cases hx
    | const c =>
      rw [hkk] at hx
      rw [List.mem_singleton.mp hx]
      exact shape_ne_lower hs (ok.lower _ _ (.top hk) (.inr ⟨_, hkk⟩))

/-! ## Loading -/

/-- The import names of a module. -/
def impNames (r : Request) (is : List Import) : ImportNames :=
  ((usedImports r is).map fun i => (r.display i.id, importName (r.display i.id))).reverse ++ []

/-- `a` is the module of file `f`. -/
def Loaded (P : Project) (depth : Nat) (w : World) (f a : Nat) : Prop :=
  ∃ r is σ0 σ, P.request f = .ok r ∧ r.imports = some is ∧ importModule (r.gen (impNames r is)) depth σ0 = .ok σ ∧
    w.heap[a]? = some σ.globals ∧ (∀ (b : Nat) (d : Dict), σ.heap[b]? = some d → w.heap[b]? = some d) ∧
    ∀ i ∈ is, RealImport r i → ∃ f' b, P.resolve i.name = .ok f' ∧ w.modules.lookup f' = some b ∧
      σ.globals.lookup (importName (r.display i.id)) = some (.ref b)

/-- All modules of the cache are the modules of their files. -/
def GoodWorld (P : Project) (files : List Nat) (depth : Nat) (w : World) : Prop :=
  ∀ f a, w.modules.lookup f = some a → f ∈ files ∧ Loaded P depth w f a

/-- Nothing gets lost. -/
def WorldExt (w w' : World) : Prop :=
  (∀ f a, w.modules.lookup f = some a → w'.modules.lookup f = some a) ∧
  ∀ (b : Nat) (d : Dict), w.heap[b]? = some d → w'.heap[b]? = some d

theorem WorldExt.refl (w : World) : WorldExt w w := ⟨fun _ _ h => h, fun _ _ h => h⟩

theorem WorldExt.trans {a b c : World} (h : WorldExt a b) (h' : WorldExt b c) : WorldExt a c :=
  ⟨fun f x hx => h'.1 f x (h.1 f x hx), fun i d hd => h'.2 i d (h.2 i d hd)⟩

theorem Loaded.mono {P : Project} {depth : Nat} {w w' : World} {f a : Nat} (h : Loaded P depth w f a) (e : WorldExt w w') :
    Loaded P depth w' f a := by
  obtain ⟨r, is, σ0, σ, h1, h2, h3, h4, h5, h6⟩ := h
  refine ⟨r, is, σ0, σ, h1, h2, h3, e.2 _ _ h4, fun b d hd => e.2 _ _ (h5 b d hd), ?_⟩
  intro i hi hr
  obtain ⟨f', b, e1, e2, e3⟩ := h6 i hi hr
  exact ⟨f', b, e1, e.1 _ _ e2, e3⟩

theorem mem_used {r : Request} {is : List Import} {i : Import} : i ∈ usedImports r is ↔ i ∈ is ∧ UsedImport r i := by
  unfold usedImports UsedImport
  rw [List.mem_filter, List.any_eq_true]
  simp

theorem runImports_spec {P : Project} {files : List Nat} {depth fuel n : Nat} {rank : Nat → Nat} {r : Request}
    (hload : ∀ f ∈ files, rank f < n → ∀ w, GoodWorld P files depth w → ∃ a w', P.load depth fuel f w = .ok (a, w') ∧
      GoodWorld P files depth w' ∧ WorldExt w w' ∧ w'.modules.lookup f = some a ∧
      ∀ g, rank f < rank g → w'.modules.lookup g = w.modules.lookup g) :
    ∀ {us : List Import}, (us.map fun i => importName (r.display i.id)).Nodup →
    (∀ i ∈ us, i.name ≠ "/capnp/c++.capnp".toList → ∃ f, P.resolve i.name = .ok f ∧ f ∈ files ∧ rank f < n) →
    ∀ (d : Dict) (w : World), GoodWorld P files depth w →
    ∃ d' w', runImportStmts P.resolve (P.load depth fuel) (us.flatMap (loadStmt r)) d w = .ok (d', w') ∧
      GoodWorld P files depth w' ∧ WorldExt w w' ∧
      (∀ i ∈ us, i.name ≠ "/capnp/c++.capnp".toList → ∃ f b, P.resolve i.name = .ok f ∧ w'.modules.lookup f = some b ∧
        d'.lookup (importName (r.display i.id)) = some (.ref b)) ∧
      (∀ s, (∀ i ∈ us, s ≠ importName (r.display i.id)) → d'.lookup s = d.lookup s) ∧
      ∀ g, n ≤ rank g → w'.modules.lookup g = w.modules.lookup g := by
  intro us
  induction us with
  | nil =>
    intro _ _ d w hw
    exact ⟨d, w, rfl, hw, WorldExt.refl w, (fun i hi => absurd hi (by simp)), fun _ _ => rfl, fun _ _ => rfl⟩
  | cons i us ih =>
    intro hn hr d w hw
    rw [List.map_cons, List.nodup_cons] at hn
    have hr' := fun j (hj : j ∈ us) => hr j (List.mem_cons_of_mem _ hj)
    by_cases hc : i.name = "/capnp/c++.capnp".toList
    · obtain ⟨d', w', e1, e2, e3, e4, e5, e6⟩ := ih hn.2 hr' d w hw
      refine ⟨d', w', ?_, e2, e3, ?_, (fun s hs => e5 s fun j hj => hs j (List.mem_cons_of_mem _ hj)), e6⟩
      · rw [List.flatMap_cons, show loadStmt r i = [] by unfold loadStmt; rw [if_pos hc], List.nil_append]
        exact e1
      · intro j hj hjc
        rcases List.mem_cons.mp hj with rfl | hj
        · exact absurd hc hjc
        · exact e4 j hj hjc
    · obtain ⟨f, hf, hfm, hfr⟩ := hr i List.mem_cons_self hc
      obtain ⟨a, w1, l1, l2, l3, l4, l5⟩ := hload f hfm hfr w hw
      obtain ⟨d', w', e1, e2, e3, e4, e5, e6⟩ := ih hn.2 hr' ((importName (r.display i.id), .ref a) :: d) w1 l2
      have hself : ∀ j ∈ us, importName (r.display i.id) ≠ importName (r.display j.id) := by
        intro j hj e
        exact hn.1 (List.mem_map.mpr ⟨j, hj, e.symm⟩)
      refine ⟨d', w', ?_, e2, l3.trans e3, ?_, ?_, fun g hg => (e6 g hg).trans (l5 g (by omega))⟩
      · rw [List.flatMap_cons, show loadStmt r i = [.load (importName (r.display i.id)) i.name] by
          unfold loadStmt; rw [if_neg hc]]
        rw [List.singleton_append]
        unfold runImportStmts
        rw [bind_okP hf, bind_okP l1]
        exact e1
      · intro j hj hjc
        rcases List.mem_cons.mp hj with rfl | hj
        · exact ⟨f, a, hf, e3.1 _ _ l4, by rw [e5 _ hself]; exact lookup_self _ _ _⟩
        · exact e4 j hj hjc
      · intro s hs
        rw [e5 s fun j hj => hs j (List.mem_cons_of_mem _ hj)]
        exact lookup_ne (hs i List.mem_cons_self) _ _

theorem word_not_bad {n p : Str} (h : Word n) : (ImportStmt.load n p).bad = false := by
  unfold ImportStmt.bad
  rw [List.any_eq_false]
  intro c hc
  have := h c hc
  intro hb
  simp only [Bool.or_eq_true, beq_iff_eq] at hb
  rcases hb with rfl | rfl
  · exact absurd this (by decide)
  · exact absurd this (by decide)

theorem load_spec {P : Project} {files : List Nat} {tree : Nat → Tree} {rank : Nat → Nat} {depth : Nat}
    (ok : ProjectOK P files tree rank) (hd : ∀ f ∈ files, ∀ p t, Sub (tree f) p t → 2 * p.length ≤ depth) :
    ∀ {fuel f : Nat}, f ∈ files → rank f < fuel → ∀ w, GoodWorld P files depth w →
    ∃ a w', P.load depth fuel f w = .ok (a, w') ∧ GoodWorld P files depth w' ∧ WorldExt w w' ∧
      w'.modules.lookup f = some a ∧ ∀ g, rank f < rank g → w'.modules.lookup g = w.modules.lookup g := by
  intro fuel
  induction fuel with
  | zero => intro f _ h; omega
  | succ fuel ih =>
    intro f hf hr w hw
    unfold Project.load
    cases hl : w.modules.lookup f with
    | some a => exact ⟨a, w, rfl, hw, WorldExt.refl w, hl, fun _ _ => rfl⟩
    | none =>
      obtain ⟨r, hfp⟩ := ok.each f hf
      obtain ⟨is, his, hnd, himp⟩ := hfp.imports
      have hdecl : r.declareImports false = .ok (impNames r is, (usedImports r is).flatMap (loadStmt r)) := by
        unfold Request.declareImports
        rw [his]
        exact declare_ok (names := []) (by rw [List.map_nil, List.nil_append]; exact hnd)
      have fok : FileOK (r.gen (impNames r is)) (tree f) := fileOK_names hfp.ok
      have fsup : Supported (r.gen (impNames r is)) (tree f) := supported_names hfp.supported
      obtain ⟨body, hbody⟩ : ∃ body, (r.gen (impNames r is)).emitModule depth = .ok body :=
        ⟨_, emitModule_spec fok fsup (hd f hf)⟩
      have hreal : ∀ i ∈ usedImports r is, i.name ≠ "/capnp/c++.capnp".toList → RealImport r i :=
        fun i hi hc => ⟨(mem_used.mp hi).2, hc⟩
      have hbad : ((usedImports r is).flatMap (loadStmt r)).any ImportStmt.bad = false := by
        rw [List.any_eq_false]
        intro st hst
        obtain ⟨i, hi, hst⟩ := List.mem_flatMap.mp hst
        unfold loadStmt at hst
        split at hst
        · cases hst
        · rename_i hc
          rw [List.mem_singleton.mp hst, word_not_bad (himp i (mem_used.mp hi).1 (hreal i hi hc)).1]
          exact Bool.false_ne_true
      obtain ⟨dg, w1, r1, g1, x1, b1, -, k1⟩ := runImports_spec (P := P) (files := files) (depth := depth) (fuel := fuel)
        (n := rank f) (rank := rank) (r := r) (fun f' hf' hr' => ih hf' (by omega)) (us := usedImports r is) hnd (by
          intro i hi hc
          obtain ⟨-, -, g, e1, e2, e3, -⟩ := himp i (mem_used.mp hi).1 (hreal i hi hc)
          exact ⟨g, e1, e2, e3⟩) [] w hw
      have hfree : w1.modules.lookup f = none := (k1 f (Nat.le_refl _)).trans hl
      obtain ⟨A, B, σ, hσ, im⟩ := import_spec fok fsup (hd f hf) (State.mk dg w1.heap)
      have hrun : (State.mk dg w1.heap).run body = .ok σ := by
        have := hσ
        unfold importModule at this
        rw [bind_okP hbody] at this
        exact this
      refine ⟨σ.heap.length, ⟨(f, σ.heap.length) :: w1.modules, σ.heap ++ [σ.globals]⟩, ?_, ?_, ?_, ?_, ?_⟩
      · simp only
        rw [bind_okP hfp.request, bind_okP hdecl]
        simp only
        rw [bind_okP hbody, hbad]
        simp only [Bool.false_eq_true, if_false]
        rw [bind_okP r1]
        simp only
        rw [bind_okP hrun]
        rfl
      · have hx : ∀ (b : Nat) (d : Dict), σ.heap[b]? = some d → (σ.heap ++ [σ.globals])[b]? = some d := by
          intro b d hb
          rw [List.getElem?_append_left (List.getElem?_eq_some_iff.mp hb).1]
          exact hb
        have hw1x : ∀ f' a', f' ≠ f → w1.modules.lookup f' = some a' →
            List.lookup f' ((f, σ.heap.length) :: w1.modules) = some a' := by
          intro f' a' hne h'
          rw [List.lookup_cons, show (f' == f) = false by simpa using hne]
          exact h'
        intro f' a' hl'
        simp only at hl'
        by_cases hne : f' = f
        · subst hne
          rw [List.lookup_cons_self] at hl'
          injection hl' with hl'
          subst hl'
          refine ⟨hf, r, is, _, σ, hfp.request, his, hσ, ?_, hx, ?_⟩
          · simp
          · intro i hi hri
            have hiu : i ∈ usedImports r is := mem_used.mpr ⟨hi, hri.1⟩
            obtain ⟨g, b, e1, e2, e3⟩ := b1 i hiu hri.2
            obtain ⟨-, -, g', e1', -, hrank, -⟩ := himp i hi hri
            rw [e1] at e1'
            injection e1' with e1'
            subst e1'
            refine ⟨g, b, e1, hw1x g b (by rintro rfl; omega) e2, ?_⟩
            rw [run_frame hrun (body_names fok fsup (hd _ hf) hbody (importName_shape _))]
            exact e3
        · rw [List.lookup_cons, show (f' == f) = false by simpa using hne] at hl'
          have hg := g1 f' a' hl'
          refine ⟨hg.1, ?_⟩
          obtain ⟨r', is', σ0', σ', h1, h2, h3, h4, h5, h6⟩ := hg.2
          refine ⟨r', is', σ0', σ', h1, h2, h3, hx _ _ (im.old _ _ h4), fun b d hb => hx _ _ (im.old _ _ (h5 b d hb)), ?_⟩
          intro i hi hri
          obtain ⟨g, b, e1, e2, e3⟩ := h6 i hi hri
          refine ⟨g, b, e1, hw1x g b ?_ e2, e3⟩
          rintro rfl
          rw [hfree] at e2
          cases e2
      · refine ⟨fun f' a' h' => ?_, fun b d hb => ?_⟩
        · have h1 := x1.1 _ _ h'
          show List.lookup f' ((f, σ.heap.length) :: w1.modules) = some a'
          rw [List.lookup_cons, show (f' == f) = false by
            have : f' ≠ f := by rintro rfl; rw [hl] at h'; cases h'
            simpa using this]
          exact h1
        · have := im.old _ _ (x1.2 _ _ hb)
          show (σ.heap ++ [σ.globals])[b]? = some d
          rw [List.getElem?_append_left (List.getElem?_eq_some_iff.mp this).1]
          exact this
      · exact List.lookup_cons_self
      · intro g hg
        show List.lookup g ((f, σ.heap.length) :: w1.modules) = _
        rw [List.lookup_cons, show (g == f) = false by
          have : g ≠ f := by rintro rfl; omega
          simpa using this]
        exact k1 g (by omega)

end Capnpy.Spec
