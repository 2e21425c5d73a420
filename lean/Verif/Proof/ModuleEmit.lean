import Verif.Proof.ModuleNames

/-!
# Proofs about the generated module: which statements are emitted
-/

namespace Capnpy.Spec

open Capnpy.Module

mutual
/-- The nodes of a tree in the order of emission: the children first. -/
def Tree.post : List Str → Tree → List (List Str × Tree)
  | pre, .mk n ks => postList (pre ++ [n.short]) ks ++ [(pre ++ [n.short], .mk n ks)]

def postList : List Str → List Tree → List (List Str × Tree)
  | _, [] => []
  | pre, t :: ts => t.post pre ++ postList pre ts
end

theorem postList_eq (pre : List Str) (ts : List Tree) : postList pre ts = ts.flatMap (Tree.post pre) := by
  induction ts with
  | nil => rfl
  | cons t ts ih => rw [postList, ih, List.flatMap_cons]

theorem post_eq (pre : List Str) (t : Tree) : t.post pre
    = t.kids.flatMap (Tree.post (pre ++ [t.node.short])) ++ [(pre ++ [t.node.short], t)] := by
  cases t with
  | mk n ks => rw [Tree.post, postList_eq]; rfl

/-- All nodes of a file in the order of emission. -/
def Tree.all (file : Tree) : List (List Str × Tree) := file.kids.flatMap (Tree.post [])

variable {g : Gen} {file : Tree}

theorem post_sub (t : Tree) : ∀ pre, Sub file (pre ++ [t.node.short]) t → ∀ x ∈ t.post pre, Sub file x.1 x.2 := by
  induction t using Tree.induct with
  | h t ih =>
    intro pre hs x hx
    rw [post_eq] at hx
    rcases List.mem_append.mp hx with hx | hx
    · obtain ⟨k, hk, hx⟩ := List.mem_flatMap.mp hx
      exact ih k hk _ (.kid hs hk) x hx
    · rw [List.mem_singleton.mp hx]; exact hs

theorem all_sub {x : List Str × Tree} (h : x ∈ file.all) : Sub file x.1 x.2 := by
  obtain ⟨k, hk, hx⟩ := List.mem_flatMap.mp h
  exact post_sub k [] (.top hk) x hx

theorem post_self (pre : List Str) (t : Tree) : (pre ++ [t.node.short], t) ∈ t.post pre := by
  rw [post_eq]; simp

theorem post_trans (t : Tree) : ∀ pre, ∀ x ∈ t.post pre, ∀ k ∈ x.2.kids, (x.1 ++ [k.node.short], k) ∈ t.post pre := by
  induction t using Tree.induct with
  | h t ih =>
    intro pre x hx k hk
    rw [post_eq] at hx ⊢
    rcases List.mem_append.mp hx with hx | hx
    · obtain ⟨k', hk', hx⟩ := List.mem_flatMap.mp hx
      exact List.mem_append.mpr (.inl (List.mem_flatMap.mpr ⟨k', hk', ih k' hk' _ x hx k hk⟩))
    · rw [List.mem_singleton.mp hx] at hk ⊢
      exact List.mem_append.mpr (.inl (List.mem_flatMap.mpr ⟨k, hk, post_self _ k⟩))

theorem sub_all {p : List Str} {t : Tree} (h : Sub file p t) : (p, t) ∈ file.all := by
  induction h with
  | @top k h => exact List.mem_flatMap.mpr ⟨k, h, post_self [] k⟩
  | @kid p t k ht h ih =>
    obtain ⟨k', hk', hx⟩ := List.mem_flatMap.mp ih
    exact List.mem_flatMap.mpr ⟨k', hk', post_trans k' [] _ hx k h⟩

theorem post_prefix (t : Tree) : ∀ pre, ∀ x ∈ t.post pre, (pre ++ [t.node.short]) <+: x.1 := by
  induction t using Tree.induct with
  | h t ih =>
    intro pre x hx
    rw [post_eq] at hx
    rcases List.mem_append.mp hx with hx | hx
    · obtain ⟨k, hk, hx⟩ := List.mem_flatMap.mp hx
      exact (List.prefix_append _ _).trans (ih k hk _ x hx)
    · rw [List.mem_singleton.mp hx]
      exact List.prefix_refl _

theorem prefix_snoc_inj {pre x : List Str} {a b : Str} (h1 : pre ++ [a] <+: x) (h2 : pre ++ [b] <+: x) : a = b := by
  obtain ⟨r, hr⟩ := h1
  obtain ⟨r', hr'⟩ := h2
  rw [← hr', List.append_assoc, List.append_assoc] at hr
  have := List.append_cancel_left hr
  injection this

theorem flatMap_paths_nodup {pre : List Str} : ∀ {ks : List Tree},
    (∀ k ∈ ks, ((k.post pre).map (·.1)).Nodup) → (ks.map fun k => k.node.short).Nodup →
    ((ks.flatMap (Tree.post pre)).map (·.1)).Nodup := by
  intro ks
  induction ks with
  | nil => intro _ _; exact List.nodup_nil
  | cons k ks ih =>
    intro h1 h2
    rw [List.flatMap_cons, List.map_append]
    rw [List.map_cons, List.nodup_cons] at h2
    refine List.nodup_append.mpr ⟨h1 k List.mem_cons_self, ih (fun k hk => h1 k (List.mem_cons_of_mem _ hk)) h2.2, ?_⟩
    intro a ha b hb hab
    subst hab
    obtain ⟨x, hx, rfl⟩ := List.mem_map.mp ha
    obtain ⟨y, hy, e⟩ := List.mem_map.mp hb
    obtain ⟨k', hk', hy⟩ := List.mem_flatMap.mp hy
    have e1 := post_prefix k pre x hx
    have e2 := post_prefix k' pre y hy
    rw [e] at e2
    exact h2.1 (List.mem_map.mpr ⟨k', hk', (prefix_snoc_inj e1 e2).symm⟩)

theorem post_nodup (ok : FileOK g file) (t : Tree) : ∀ pre, Sub file (pre ++ [t.node.short]) t →
    ((t.post pre).map (·.1)).Nodup := by
  induction t using Tree.induct with
  | h t ih =>
    intro pre hs
    rw [post_eq, List.map_append]
    refine List.nodup_append.mpr ⟨flatMap_paths_nodup (fun k hk => ih k hk _ (.kid hs hk)) (ok.names _ _ hs), by simp, ?_⟩
    intro a ha b hb hab
    subst hab
    obtain ⟨x, hx, rfl⟩ := List.mem_map.mp ha
    obtain ⟨k, hk, hx⟩ := List.mem_flatMap.mp hx
    have := (post_prefix k _ x hx).length_le
    rw [List.mem_singleton.mp hb] at this
    simp at this

theorem all_nodup (ok : FileOK g file) : ((file.all).map (·.1)).Nodup :=
  flatMap_paths_nodup (fun k hk => post_nodup ok k [] (.top hk)) ok.topNames

/-! ## Unions -/

theorem setItems {fs : List Field} : ∀ {items : List (Option Str)}, (∀ f ∈ fs, ∀ d, f.disc = some d → d < items.length) →
    ∃ r, fs.foldlM (init := items) (fun items f =>
      match f.disc with
      | none => (Except.ok items : Py _)
      | some d => if d < items.length then .ok (items.set d (some f.pyname)) else .error .indexError) = .ok r ∧
    r.length = items.length ∧ (∀ (i : Nat) (x : Str), items[i]? = some (some x) → ∃ y : Str, r[i]? = some (some y)) ∧
    (∀ f ∈ fs, ∀ (d : Nat), f.disc = some d → ∃ y : Str, r[d]? = some (some y)) ∧
    (∀ (i : Nat) (y : Str), r[i]? = some (some y) → items[i]? = some (some y) ∨ ∃ f ∈ fs, f.disc = some i ∧ f.pyname = y) := by
  induction fs with
  | nil => intro items _; exact ⟨items, rfl, rfl, fun i x h => ⟨x, h⟩, by simp, fun i y h => .inl h⟩
  | cons f fs ih =>
    intro items h
    cases hd : f.disc with
    | none =>
      obtain ⟨r, h1, h2, h3, h4, h5⟩ := ih (items := items) (fun f hf => h f (List.mem_cons_of_mem _ hf))
      refine ⟨r, ?_, h2, h3, ?_, ?_⟩
      · rw [List.foldlM_cons]; simp only [hd]; exact h1
      · intro f' hf' d hd'
        rcases List.mem_cons.mp hf' with rfl | hf'
        · rw [hd] at hd'; cases hd'
        · exact h4 f' hf' d hd'
      · intro i y hy
        rcases h5 i y hy with h | ⟨f', hf', h⟩
        · exact .inl h
        · exact .inr ⟨f', List.mem_cons_of_mem _ hf', h⟩
    | some d =>
      have hlt := h f List.mem_cons_self d hd
      obtain ⟨r, h1, h2, h3, h4, h5⟩ := ih (items := items.set d (some f.pyname))
        (fun f hf => by rw [List.length_set]; exact h f (List.mem_cons_of_mem _ hf))
      refine ⟨r, ?_, by rw [h2, List.length_set], ?_, ?_, ?_⟩
      · rw [List.foldlM_cons]; simp only [hd, if_pos hlt]; exact h1
      · intro i x hx
        by_cases hi : d = i
        · subst hi
          exact h3 d f.pyname (by rw [List.getElem?_set_self hlt])
        · exact h3 i x (by rw [List.getElem?_set_ne hi]; exact hx)
      · intro f' hf' d' hd'
        rcases List.mem_cons.mp hf' with rfl | hf'
        · rw [hd] at hd'; injection hd' with hd'; subst hd'
          exact h3 d f'.pyname (by rw [List.getElem?_set_self hlt])
        · exact h4 f' hf' d' hd'
      · intro i y hy
        rcases h5 i y hy with h | ⟨f', hf', h⟩
        · by_cases hi : d = i
          · subst hi
            rw [List.getElem?_set_self hlt] at h
            injection h with h; injection h with h
            exact .inr ⟨f, List.mem_cons_self, hd, h⟩
          · rw [List.getElem?_set_ne hi] at h
            exact .inl h
        · exact .inr ⟨f', List.mem_cons_of_mem _ hf', h⟩

/-- The members of the tag enum: for a complete union, item `i` is the name of a field
with discriminant `i`. -/
theorem getEnumItems_spec {count : Nat} {fs : List Field} (h1 : ∀ f ∈ fs, ∀ d, f.disc = some d → d < count)
    (h2 : ∀ i, i < count → ∃ f ∈ fs, f.disc = some i) :
    ∃ names : List Str, getEnumItems count fs = .ok (names.map some) ∧ names.length = count ∧
      ∀ (i : Nat) (y : Str), names[i]? = some y → ∃ f ∈ fs, f.disc = some i ∧ f.pyname = y := by
  obtain ⟨r, e1, e2, -, e4, e5⟩ := setItems (fs := fs) (items := List.replicate count none) (by simpa using h1)
  rw [List.length_replicate] at e2
  have hall : ∀ i, i < count → ∃ y, r[i]? = some (some y) := by
    intro i hi
    obtain ⟨f, hf, hd⟩ := h2 i hi
    exact e4 f hf i hd
  refine ⟨r.map (fun o => o.getD []), ?_, by simpa using e2, ?_⟩
  · unfold getEnumItems
    refine e1.trans ?_
    congr 1
    rw [List.map_map]
    refine List.ext_getElem? fun i => ?_
    rw [List.getElem?_map]
    by_cases hi : i < count
    · obtain ⟨y, hy⟩ := hall i hi
      rw [hy]; rfl
    · rw [List.getElem?_eq_none (by omega)]; rfl
  · intro i y hy
    rw [List.getElem?_map] at hy
    cases hr : r[i]? with
    | none => rw [hr] at hy; cases hy
    | some o =>
      rw [hr] at hy
      have hi : i < count := by
        have := (List.getElem?_eq_some_iff.mp hr).1
        omega
      obtain ⟨z, hz⟩ := hall i hi
      rw [hz] at hr
      injection hr with hr
      subst hr
      injection hy with hy
      have hy : z = y := hy
      subst hy
      rcases e5 i z hz with h | h
      · rw [List.getElem?_replicate] at h
        split at h <;> simp at h
      · exact h

/-- The items of the tag of a node's union. -/
def tagItems (count : Nat) (fields : Option (List Field)) : List (Option Str) :=
  match enumItems count fields with
  | .ok items => items
  | .error _ => []

theorem Sub.enumItems (ok : FileOK g file) {p : List Str} {t : Tree} (ht : Sub file p t) {gr : Bool} {count : Nat}
    {fields : Option (List Field)} {key : Bool} (hk : t.node.kind = .struct gr count fields key) :
    Module.enumItems count fields = .ok (tagItems count fields) ∧ (∀ o ∈ tagItems count fields, ∃ fs, fields = some fs ∧
      ∃ f ∈ fs, o = some f.pyname) := by
  by_cases hc : count = 0
  · have : Module.enumItems count fields = .ok [] := by unfold Module.enumItems; rw [if_pos hc]
    unfold tagItems
    rw [this]
    exact ⟨rfl, by simp⟩
  · obtain ⟨fs, rfl, h2, h1⟩ := ok.unions _ _ ht _ _ _ _ hk (by omega)
    obtain ⟨names, e1, e2, e3⟩ := getEnumItems_spec h1 h2
    have e : Module.enumItems count (some fs) = .ok (names.map some) := by
      unfold Module.enumItems
      rw [if_neg hc]
      exact e1
    unfold tagItems
    rw [e]
    refine ⟨rfl, ?_⟩
    intro o ho
    obtain ⟨y, hy, rfl⟩ := List.mem_map.mp ho
    obtain ⟨i, hi⟩ := List.getElem?_of_mem hy
    obtain ⟨f, hf, -, rfl⟩ := e3 i y hi
    exact ⟨fs, rfl, f, hf, rfl⟩

/-! ## Emission -/

/-- The declarations of a node itself. -/
def declOwn (x : List Str × Tree) : List Stmt :=
  match x.2.node.kind with
  | .struct _ count fields _ => .declStruct (under x.1) (dotted x.1) ::
      (if tagItems count fields = [] then [] else [.declEnum (under x.1 ++ "__tag__".toList) none (tagItems count fields)])
  | .enum members => [.declEnum (under x.1) (some x.2.node.id) (members.map some), .itemType (under x.1)]
  | .annotation => [.declAnnotation x.2.node.short x.2.node.id]
  | _ => []

theorem mapPy_flatten {α β γ} {f : α → Py (List β)} {F : α → List γ} {G : γ → List β} : ∀ {l : List α},
    (∀ a ∈ l, f a = .ok ((F a).flatMap G)) → ∃ r, ListObj.mapPy f l = .ok r ∧ r.flatten = (l.flatMap F).flatMap G := by
  intro l
  induction l with
  | nil => intro _; exact ⟨[], rfl, rfl⟩
  | cons a l ih =>
    intro h
    obtain ⟨r, h1, h2⟩ := ih (fun a ha => h a (List.mem_cons_of_mem _ ha))
    refine ⟨(F a).flatMap G :: r, ?_, ?_⟩
    · rw [ListObj.mapPy, bind_okP (h a List.mem_cons_self), bind_okP h1]; rfl
    · rw [List.flatten_cons, h2, List.flatMap_cons, List.flatMap_append]

theorem mapPy_map {α β γ} {f : α → Py γ} {h : β → α} : ∀ {l : List β},
    ListObj.mapPy f (l.map h) = ListObj.mapPy (fun b => f (h b)) l := by
  intro l
  induction l with
  | nil => rfl
  | cons b l ih => rw [List.map_cons, ListObj.mapPy, ListObj.mapPy, ih]

theorem emitDecl_spec (ok : FileOK g file) {F : Nat} (hF : ∀ p t, Sub file p t → 2 * p.length ≤ F) (t : Tree) :
    ∀ pre fuel, Sub file (pre ++ [t.node.short]) t → fuel + pre.length = F →
      g.emitDecl fuel t.node = .ok ((t.post pre).flatMap declOwn) := by
  induction t using Tree.induct with
  | h t ih =>
    intro pre fuel hs hfu
    have hlen := hF _ _ hs
    rw [List.length_append, List.length_cons, List.length_nil] at hlen
    cases fuel with
    | zero => omega
    | succ fuel =>
      have hpl : (pre ++ [t.node.short]).length < fuel + 1 := by
        rw [List.length_append, List.length_cons, List.length_nil]; omega
      have hcn := hs.compileName ok [] hpl
      rw [List.nil_append] at hcn
      rw [post_eq, List.flatMap_append, List.flatMap_cons, List.flatMap_nil, List.append_nil]
      rw [Gen.emitDecl]
      cases hk : t.node.kind with
      | file => exact absurd hk (ok.kinds _ _ hs).1
      | interface => exact absurd hk (ok.kinds _ _ hs).2
      | const c =>
        have hd : declOwn (pre ++ [t.node.short], t) = [] := by unfold declOwn; simp only [hk]
        rw [hd, ok.leaves _ _ hs (by rintro ⟨_, _, _, _, h⟩; rw [hk] at h; cases h)]
        rfl
      | annotation =>
        have hd : declOwn (pre ++ [t.node.short], t) = [.declAnnotation t.node.short t.node.id] := by
          unfold declOwn; simp only [hk]
        rw [hd, ok.leaves _ _ hs (by rintro ⟨_, _, _, _, h⟩; rw [hk] at h; cases h)]
        simp only
        rw [bind_okP (hs.shortname ok)]
        rfl
      | enum ms =>
        have hd : declOwn (pre ++ [t.node.short], t) = [.declEnum (under (pre ++ [t.node.short])) (some t.node.id)
            (ms.map some), .itemType (under (pre ++ [t.node.short]))] := by
          unfold declOwn; simp only [hk]
        rw [hd, ok.leaves _ _ hs (by rintro ⟨_, _, _, _, h⟩; rw [hk] at h; cases h)]
        simp only
        rw [bind_okP hcn]
        rfl
      | struct gr count fields key =>
        have hd : declOwn (pre ++ [t.node.short], t) =
            .declStruct (under (pre ++ [t.node.short])) (dotted (pre ++ [t.node.short])) ::
            (if tagItems count fields = [] then []
              else [.declEnum (under (pre ++ [t.node.short]) ++ "__tag__".toList) none (tagItems count fields)]) := by
          unfold declOwn; simp only [hk]
        have hk1 : ∀ k ∈ t.kids, g.emitDecl fuel k.node
            = .ok ((k.post (pre ++ [t.node.short])).flatMap declOwn) := by
          intro k hkm
          exact ih k hkm _ fuel (.kid hs hkm) (by rw [List.length_append, List.length_cons, List.length_nil]; omega)
        obtain ⟨r, e1, e2⟩ := mapPy_flatten (f := fun k : Tree => g.emitDecl fuel k.node) hk1
        simp only
        rw [ok.kids _ _ hs, mapPy_map]
        rw [bind_okP e1, bind_okP hcn, bind_okP (hs.runtimeName ok (by omega)), bind_okP (hs.enumItems ok hk).1, e2, hd]
        show Except.ok _ = Except.ok _
        rw [List.append_assoc]
        rfl

/-! ## Constants -/

/-- Expressions for item types. -/
def ItemExprOK (file : Tree) (structs : Bool) : Ty → Expr → Prop
  | .builtin, .builtin => True
  | .struct i, .path s => structs = true ∧ ∃ p t, Sub file p t ∧ t.node.id = i ∧ Node.isStruct t.node ∧
      s = itemTypeName (under p)
  | .enum i, .path s => ∃ p t, Sub file p t ∧ t.node.id = i ∧ Node.isEnum t.node ∧ s = itemTypeName (under p)
  | .list e, .listItem x => ItemExprOK file structs e x
  | _, _ => False

/-- Expressions for constants. -/
def ConstExprOK (file : Tree) (siblings : Option (List Tree)) : ConstTy → Expr → Prop
  | .plain, .value => True
  | .struct i, .instance_ s => ∃ p t, Sub file p t ∧ t.node.id = i ∧ Node.isStruct t.node ∧ s = under p ∧
      ∀ ks, siblings = some ks → ∀ k ∈ ks, p ≠ [k.node.short]
  | .list e, .list x => ItemExprOK file siblings.isNone e x
  | _, _ => False

/-- Enough recursion depth for the names. -/
def Adequate (file : Tree) (fuel : Nat) : Prop := ∀ p t, Sub file p t → p.length < fuel

theorem listItemType_spec (ok : FileOK g file) {structs : Bool} : ∀ {e : Ty}, ElemOK file structs e →
    ∃ x, (∀ fuel, Adequate file fuel → g.listItemType fuel e = .ok x) ∧ ItemExprOK file structs e x := by
  intro e
  induction e with
  | builtin => intro _; exact ⟨.builtin, fun _ _ => rfl, trivial⟩
  | other => intro h; cases h
  | list e ih =>
    intro h
    obtain ⟨x, h1, h2⟩ := ih h
    refine ⟨.listItem x, fun fuel hf => ?_, h2⟩
    unfold Gen.listItemType
    rw [bind_okP (h1 fuel hf)]
    rfl
  | struct i =>
    rintro ⟨hs, p, t, ht, rfl, hk⟩
    refine ⟨.path (itemTypeName (under p)), fun fuel hf => ?_, hs, p, t, ht, rfl, hk, rfl⟩
    unfold Gen.listItemType
    rw [bind_okP (node_eq ok (ht.mem ok)), bind_okP (ht.compileName ok ['_'] (hf _ _ ht))]
    rfl
  | enum i =>
    rintro ⟨p, t, ht, rfl, hk⟩
    refine ⟨.path (itemTypeName (under p)), fun fuel hf => ?_, p, t, ht, rfl, hk, rfl⟩
    unfold Gen.listItemType
    rw [bind_okP (node_eq ok (ht.mem ok)), bind_okP (ht.compileName ok ['_'] (hf _ _ ht))]
    rfl

theorem constExpr_spec (ok : FileOK g file) {sib : Option (List Tree)} {c : ConstTy} (h : ConstOK g file sib c) :
    ∃ x, (∀ fuel, Adequate file fuel → g.constExpr fuel c = .ok x) ∧ ConstExprOK file sib c x := by
  cases c with
  | plain => exact ⟨.value, fun _ _ => rfl, trivial⟩
  | struct i =>
    obtain ⟨p, t, ht, rfl, hk, hn⟩ := h
    refine ⟨.instance_ (under p), fun fuel hf => ?_, p, t, ht, rfl, hk, rfl, hn⟩
    unfold Gen.constExpr
    simp only
    rw [bind_okP (node_eq ok (ht.mem ok)), bind_okP (ht.compileName ok [] (hf _ _ ht))]
    rfl
  | list e =>
    obtain ⟨hr, he⟩ := h
    obtain ⟨x, h1, h2⟩ := listItemType_spec ok he
    refine ⟨.list x, fun fuel hf => ?_, h2⟩
    unfold Gen.constExpr
    simp only
    rw [if_pos hr, bind_okP (h1 fuel hf)]
    rfl

/-! ## Definitions -/

/-- The right-hand side for a constant. -/
def constRhs (g : Gen) (F : Nat) (c : ConstTy) : Expr :=
  match g.constExpr F c with
  | .ok e => e
  | .error _ => .value

/-- The reference to a child that is in the class body of its parent, whose path is `p`, or
(`p = []`) at module level. -/
def refOwn (g : Gen) (F : Nat) (p : List Str) (k : Tree) : List (Str × Expr) :=
  match k.node.kind with
  | .struct false _ _ _ => if p = [] then [] else [(k.node.short, .path (under (p ++ [k.node.short])))]
  | .enum _ => if p = [] then [] else [(k.node.short, .path (under (p ++ [k.node.short])))]
  | .const c => [(k.node.short, constRhs g F c)]
  | _ => []

/-- The class body of a struct. -/
def bodyOwn (g : Gen) (F : Nat) (p : List Str) (t : Tree) (gr : Bool) (items : List (Option Str))
    (fields : Option (List Field)) (key : Bool) : List (Str × Expr) :=
  [("__capnpy_id__".toList, Expr.id t.node.id), ("__static_data_size__".toList, .value),
      ("__static_ptrs_size__".toList, .value)] ++ t.kids.flatMap (refOwn g F p) ++
    (if items = [] then [] else [("__tag__".toList, Expr.path (under p ++ "__tag__".toList))]) ++
    (classAttrs (under p) gr items fields key).map fun s => (s, Expr.value)

/-- The definitions of a node itself. -/
def defOwn (g : Gen) (F : Nat) (x : List Str × Tree) : List Stmt :=
  match x.2.node.kind with
  | .struct gr count fields key =>
    [.extend (under x.1) (bodyOwn g F x.1 x.2 gr (tagItems count fields) fields key), .itemType (under x.1)]
  | _ => []

theorem mapPy_flatten' {α β} {f : α → Py (List β)} {F : α → List β} : ∀ {l : List α},
    (∀ a ∈ l, f a = .ok (F a)) → ∃ r, ListObj.mapPy f l = .ok r ∧ r.flatten = l.flatMap F := by
  intro l h
  obtain ⟨r, h1, h2⟩ := mapPy_flatten (f := f) (F := F) (G := fun x => [x]) (l := l) (by
    intro a ha; rw [h a ha]; congr 1; induction F a with
    | nil => rfl
    | cons x r ih => rw [List.flatMap_cons, ← ih]; rfl)
  refine ⟨r, h1, ?_⟩
  rw [h2]
  induction l.flatMap F with
  | nil => rfl
  | cons x r ih => rw [List.flatMap_cons, ih]; rfl

theorem emitRef_spec (ok : FileOK g file) (sup : Supported g file) {F : Nat} (hF : Adequate file F) {p : List Str}
    {t k : Tree} (ht : Sub file p t) (hk : k ∈ t.kids) {fuel : Nat} (hf : Adequate file fuel) :
    g.emitRef fuel k.node = .ok (refOwn g F p k) := by
  have hs := Sub.kid ht hk
  have hcn := hs.compileName ok [] (hf _ _ hs)
  rw [List.nil_append] at hcn
  unfold Gen.emitRef refOwn
  cases hkk : k.node.kind with
  | struct gr a b c =>
    cases gr with
    | true =>
      simp only
      rw [bind_okP (Sub.nested ok ht hk)]
      rfl
    | false =>
      simp only
      rw [bind_okP (Sub.nested ok ht hk), if_neg ht.ne_nil]
      simp only [Bool.not_false, Bool.and_self, if_true]
      rw [bind_okP (hs.shortname ok), bind_okP hcn]
      rfl
  | enum ms =>
    simp only
    rw [bind_okP (Sub.nested ok ht hk), if_neg ht.ne_nil]
    simp only [if_true]
    rw [bind_okP (hs.shortname ok), bind_okP hcn]
    rfl
  | const c =>
    obtain ⟨x, h1, -⟩ := constExpr_spec ok (sup.consts _ _ ht k hk c hkk)
    simp only
    rw [bind_okP (hs.shortname ok), bind_okP (h1 fuel hf)]
    unfold constRhs
    rw [h1 F hF]
    rfl
  | file => rfl
  | annotation => rfl
  | interface => rfl

theorem emitRef_top (ok : FileOK g file) (sup : Supported g file) {F : Nat} (hF : Adequate file F)
    {k : Tree} (hk : k ∈ file.kids) : g.emitRef F k.node = .ok (refOwn g F [] k) := by
  have hs := Sub.top hk
  unfold Gen.emitRef refOwn
  cases hkk : k.node.kind with
  | struct gr a b c =>
    cases gr <;>
    · simp only
      rw [bind_okP (Sub.nested_top ok hk)]
      rfl
  | enum ms =>
    simp only
    rw [bind_okP (Sub.nested_top ok hk)]
    rfl
  | const c =>
    obtain ⟨x, h1, -⟩ := constExpr_spec ok (sup.topConsts k hk c hkk)
    simp only
    rw [bind_okP (hs.shortname ok), bind_okP (h1 F hF)]
    unfold constRhs
    rw [h1 F hF]
    rfl
  | file => rfl
  | annotation => rfl
  | interface => rfl

theorem emitDef_spec (ok : FileOK g file) (sup : Supported g file) {F : Nat}
    (hF : ∀ p t, Sub file p t → 2 * p.length ≤ F) (hA : Adequate file F) (t : Tree) :
    ∀ pre fuel, Sub file (pre ++ [t.node.short]) t → fuel + pre.length = F →
      g.emitDef fuel t.node = .ok ((t.post pre).flatMap (defOwn g F)) := by
  induction t using Tree.induct with
  | h t ih =>
    intro pre fuel hs hfu
    have hlen := hF _ _ hs
    rw [List.length_append, List.length_cons, List.length_nil] at hlen
    cases fuel with
    | zero => omega
    | succ fuel =>
      have hpl : (pre ++ [t.node.short]).length < fuel + 1 := by
        rw [List.length_append, List.length_cons, List.length_nil]; omega
      have had : Adequate file (fuel + 1) := by
        intro p' t' h'
        have := hF p' t' h'
        omega
      have hcn := hs.compileName ok [] hpl
      rw [List.nil_append] at hcn
      rw [post_eq, List.flatMap_append, List.flatMap_cons, List.flatMap_nil, List.append_nil]
      rw [Gen.emitDef]
      have hleaf : (∀ gr c f k, t.node.kind ≠ .struct gr c f k) →
          (match t.node.kind with
            | .struct isGroup count fields key => do
              let kids ← ListObj.mapPy (g.emitDef fuel) (g.children t.node.id)
              let name ← g.compileName (fuel + 1) t.node
              let body ← g.classBody (fuel + 1) t.node name isGroup count fields key
              pure (kids.flatten ++ [Stmt.extend name body, .itemType name])
            | _ => .ok []) = Except.ok (List.flatMap (defOwn g F) (t.kids.flatMap (Tree.post (pre ++ [t.node.short]))) ++
              defOwn g F (pre ++ [t.node.short], t)) := by
        intro hno
        have hd : defOwn g F (pre ++ [t.node.short], t) = [] := by
          unfold defOwn
          split
          · rename_i h; exact absurd h (hno _ _ _ _)
          · rfl
        rw [hd, ok.leaves _ _ hs (by rintro ⟨_, _, _, _, h⟩; exact hno _ _ _ _ h)]
        split
        · rename_i h; exact absurd h (hno _ _ _ _)
        · rfl
      cases hk : t.node.kind with
      | file => rw [← hk]; exact hleaf (by rintro _ _ _ _ h; rw [hk] at h; cases h)
      | interface => rw [← hk]; exact hleaf (by rintro _ _ _ _ h; rw [hk] at h; cases h)
      | const c => rw [← hk]; exact hleaf (by rintro _ _ _ _ h; rw [hk] at h; cases h)
      | annotation => rw [← hk]; exact hleaf (by rintro _ _ _ _ h; rw [hk] at h; cases h)
      | enum ms => rw [← hk]; exact hleaf (by rintro _ _ _ _ h; rw [hk] at h; cases h)
      | struct gr count fields key =>
        have hd : defOwn g F (pre ++ [t.node.short], t) =
            [.extend (under (pre ++ [t.node.short])) (bodyOwn g F (pre ++ [t.node.short]) t gr (tagItems count fields) fields key),
              .itemType (under (pre ++ [t.node.short]))] := by
          unfold defOwn; simp only [hk]
        have hk1 : ∀ k ∈ t.kids, g.emitDef fuel k.node
            = .ok ((k.post (pre ++ [t.node.short])).flatMap (defOwn g F)) := by
          intro k hkm
          exact ih k hkm _ fuel (.kid hs hkm) (by rw [List.length_append, List.length_cons, List.length_nil]; omega)
        obtain ⟨r, e1, e2⟩ := mapPy_flatten (f := fun k : Tree => g.emitDef fuel k.node) hk1
        obtain ⟨r', e3, e4⟩ := mapPy_flatten' (f := fun k : Tree => g.emitRef (fuel + 1) k.node)
          (F := refOwn g F (pre ++ [t.node.short])) (l := t.kids)
          (fun k hkm => emitRef_spec ok sup hA hs hkm had)
        have hbody : g.classBody (fuel + 1) t.node (under (pre ++ [t.node.short])) gr count fields key
            = .ok (bodyOwn g F (pre ++ [t.node.short]) t gr (tagItems count fields) fields key) := by
          unfold Gen.classBody
          rw [ok.kids _ _ hs, mapPy_map, bind_okP e3, bind_okP (hs.enumItems ok hk).1, e4]
          rfl
        simp only
        rw [ok.kids _ _ hs, mapPy_map]
        rw [bind_okP e1, bind_okP hcn, bind_okP hbody, e2, hd]
        rfl

/-- The statements of the module. -/
theorem emitModule_spec (ok : FileOK g file) (sup : Supported g file) {F : Nat}
    (hF : ∀ p t, Sub file p t → 2 * p.length ≤ F) :
    g.emitModule F = .ok ([.assign "__capnpy_id__".toList (.id file.node.id)] ++ file.all.flatMap declOwn ++
      file.all.flatMap (defOwn g F) ++
      (file.kids.flatMap (refOwn g F [])).map fun p => Stmt.assign p.1 p.2) := by
  have hA : Adequate file F := by
    intro p t h
    have := hF p t h
    have := List.length_pos_iff.mpr h.ne_nil
    omega
  obtain ⟨r1, d1, d2⟩ := mapPy_flatten (f := fun k : Tree => g.emitDecl F k.node) (l := file.kids)
    (F := Tree.post []) (G := declOwn) (fun k hk => emitDecl_spec ok hF k [] F (.top hk) rfl)
  obtain ⟨r2, d3, d4⟩ := mapPy_flatten (f := fun k : Tree => g.emitDef F k.node) (l := file.kids)
    (F := Tree.post []) (G := defOwn g F) (fun k hk => emitDef_spec ok sup hF hA k [] F (.top hk) rfl)
  obtain ⟨r3, d5, d6⟩ := mapPy_flatten' (f := fun k : Tree => g.emitRef F k.node) (l := file.kids)
    (F := refOwn g F []) (fun k hk => emitRef_top ok sup hA hk)
  unfold Gen.emitModule
  rw [ok.current, bind_okP (node_eq ok ok.mem)]
  simp only
  rw [ok.topKids, mapPy_map, mapPy_map, mapPy_map, bind_okP d1, bind_okP d3, bind_okP d5, d2, d4, d6]
  rfl

end Capnpy.Spec
