import Verif.Spec.Reflection
import Verif.Props.Options
import Verif.Proof.List

/-! # The options of a request are those of its tree (Model/Options.lean) -/

namespace Capnpy.Spec

open Capnpy.Reflection (Req Member EntId Generator)

/-- The `options` annotations. -/
def convAnns (anns : Option (List Reflection.Annotation)) : List Ann :=
  (anns.getD []).filterMap fun a =>
    if a.id = optionsAnnId then
      match a.options with
      | .ok o => some ⟨a.id, o⟩
      | .error _ => none
    else none

def leafOf (id : Nat) (m : Member) : Entity EntId := .mk (.inr (id, m.name)) (convAnns m.annotations) [] []

mutual

def entityOf : RTree → Entity EntId
  | .mk n ks => .mk (.inl n.id) (convAnns n.annotations) (entitiesOf ks) ((membersOf n).map (leafOf n.id))

def entitiesOf : List RTree → List (Entity EntId)
  | [] => []
  | k :: ks => entityOf k :: entitiesOf ks

end

theorem firstAnn_eq (i : Nat) (l : List Reflection.Annotation) : Reflection.firstAnn i l = l.find? fun a => a.id == i := by
  induction l with
  | nil => rfl
  | cons a l ih =>
    unfold Reflection.firstAnn
    by_cases h : a.id = i
    · rw [if_pos h, List.find?_cons_of_pos (by simp [h])]
    · rw [if_neg h, List.find?_cons_of_neg (by simp [h]), ih]

theorem hasAnn_eq (anns : Option (List Reflection.Annotation)) (i : Nat) :
    Reflection.hasAnn anns i = (anns.getD []).find? fun a => a.id == i := by
  cases anns with
  | none => rfl
  | some l => exact firstAnn_eq i l

theorem annStruct_options {a : Reflection.Annotation} {o : StructObj} (h : AnnStruct a o) : a.options = .ok o := by
  obtain ⟨h1, p, h2, h3⟩ := h
  have : a.value.getattr "struct" = .ok (.anyPointer p) := by
    unfold Reflection.Value.getattr
    rw [show Reflection.valueMembers.idxOf? "struct" = some 16 by decide +kernel]
    simp only
    rw [if_pos h1.symm, h2]
  unfold Reflection.Annotation.options
  rw [bind_okP this]
  simp only
  rw [bind_okP h3]

theorem annStruct_unique {a : Reflection.Annotation} {o o' : StructObj} (h : AnnStruct a o) (h' : AnnStruct a o') : o = o' := by
  have := (annStruct_options h).symm.trans (annStruct_options h')
  injection this

theorem conv_find {anns : Option (List Reflection.Annotation)} (h : OptionsReadable anns) :
    (firstOptions anns = none ∧ findAnn optionsAnnId (convAnns anns) = none) ∨
    ∃ a o, firstOptions anns = some a ∧ AnnStruct a o ∧ (∃ w, OptReads o w) ∧
      findAnn optionsAnnId (convAnns anns) = some ⟨optionsAnnId, o⟩ := by
  unfold OptionsReadable at h
  unfold firstOptions convAnns
  revert h
  generalize anns.getD [] = l
  intro h
  induction l with
  | nil => exact .inl ⟨rfl, rfl⟩
  | cons a l ih =>
    by_cases e : a.id = optionsAnnId
    · obtain ⟨o, w, h1, h2⟩ := h a List.mem_cons_self e
      refine .inr ⟨a, o, List.find?_cons_of_pos (by simp [e]), h1, ⟨w, h2⟩, ?_⟩
      rw [List.filterMap_cons, if_pos e, annStruct_options h1]
      simp only
      unfold findAnn
      rw [if_pos e, e]
    · rw [List.find?_cons_of_neg (by simp [e]), List.filterMap_cons, if_neg e]
      exact ih (fun a' ha => h a' (List.mem_cons_of_mem _ ha))

theorem generic_eq {anns : Option (List Reflection.Annotation)} (h : OptionsReadable anns) (t : OptTable EntId) (parent : StructObj)
    (id : EntId) : Reflection.computeGeneric t parent id anns = computeGeneric t parent id (convAnns anns) := by
  unfold Reflection.computeGeneric computeGeneric
  rw [hasAnn_eq]
  rcases conv_find h with ⟨h1, h2⟩ | ⟨a, o, h1, h2, -, h3⟩
  · unfold firstOptions at h1
    rw [h1, h2]
  · unfold firstOptions at h1
    rw [h1, h3]
    simp only
    rw [bind_okP (annStruct_options h2)]

theorem leaf_eq (t : OptTable EntId) (parent : StructObj) (id : EntId) (anns : List Ann) {t' : OptTable EntId}
    (h : computeOptions t parent (.mk id anns [] []) = .ok t') : computeGeneric t parent id anns = .ok t' := by
  rw [computeOptions] at h
  cases hg : computeGeneric t parent id anns with
  | error e => rw [hg] at h; cases h
  | ok t1 =>
    rw [bind_okP hg] at h
    cases ho : t1.get id with
    | error e => rw [ho] at h; cases h
    | ok o =>
      rw [bind_okP ho, computeChildren] at h
      have : (pure t1 : Py (OptTable EntId)) = .ok t1 := rfl
      rw [bind_okP this, bind_okP ho, computeChildren] at h
      exact h

theorem members_eq {nid : Nat} {opt : StructObj} : ∀ {fs : List Member} {t t' : OptTable EntId},
    (∀ m ∈ fs, OptionsReadable m.annotations) → computeChildren t opt (fs.map (leafOf nid)) = .ok t' →
    Reflection.computeMembers opt (fs.map fun f => { f with id := some (nid, f.name) }) t = .ok t' := by
  intro fs
  induction fs with
  | nil => intro t t' _ h; exact h
  | cons f fs ih =>
    intro t t' hr h
    rw [List.map_cons, computeChildren] at h
    cases h1 : computeOptions t opt (leafOf nid f) with
    | error e => rw [h1] at h; cases h
    | ok t1 =>
      rw [bind_okP h1] at h
      have h2 := leaf_eq _ _ _ _ h1
      rw [← generic_eq (hr f List.mem_cons_self)] at h2
      rw [List.map_cons, Reflection.computeMembers]
      show (do let t ← Reflection.computeGeneric t opt (.inr (nid, f.name)) f.annotations; _) = _
      rw [bind_okP h2]
      exact ih (fun m hm => hr m (List.mem_cons_of_mem _ hm)) h

theorem own_eq {n : Reflection.Node} (he : n.kind ≠ .enum none) (hr : ∀ m ∈ membersOf n, OptionsReadable m.annotations)
    {t t' : OptTable EntId} {opt : StructObj} (ho : t.get (.inl n.id) = .ok opt)
    (h : computeChildren t opt ((membersOf n).map (leafOf n.id)) = .ok t') : Reflection.computeOwn n t = .ok t' := by
  unfold membersOf at h hr
  unfold Reflection.computeOwn Reflection.Node.getStructFields Reflection.Node.getEnumEnumerants
  cases hk : n.kind with
  | struct g c fs =>
    rw [hk] at h hr
    simp only
    rw [bind_okP ho]
    cases fs with
    | none => exact h
    | some fs => exact members_eq hr h
  | enum es =>
    rw [hk] at h hr
    simp only
    rw [bind_okP ho]
    cases es with
    | none => exact absurd hk he
    | some es => exact members_eq hr h
  | _ => rw [hk] at h; exact h

/-- What is used about every node of a tree. -/
structure NodeOK (r : Req) (t : RTree) : Prop where
  kids : r.children t.node.id = t.kids.map RTree.node
  enums : t.node.kind ≠ .enum none
  nodeOptions : OptionsReadable t.node.annotations
  memberOptions : ∀ m ∈ membersOf t.node, OptionsReadable m.annotations

mutual

theorem computeNode_eq {r : Req} : ∀ {t : RTree} {fuel : Nat} {tbl tbl' : OptTable EntId} {parent : StructObj},
    (∀ u, t.Has u → NodeOK r u) → t.height ≤ fuel → computeOptions tbl parent (entityOf t) = .ok tbl' →
    r.computeNode fuel parent t.node tbl = .ok tbl'
  | .mk n ks, fuel, tbl, tbl', parent, hok, hf, h => by
    have own := hok _ (.self _)
    cases fuel with
    | zero => simp [RTree.height] at hf
    | succ fuel =>
      simp only [RTree.height, Nat.add_le_add_iff_right] at hf
      rw [entityOf, computeOptions] at h
      rw [Req.computeNode]
      show (do let t ← Reflection.computeGeneric tbl parent (.inl n.id) n.annotations; _ : Py (OptTable EntId)) = _
      rw [generic_eq (anns := n.annotations) own.nodeOptions]
      cases hg : computeGeneric tbl parent (.inl n.id) (convAnns n.annotations) with
      | error e => rw [hg] at h; cases h
      | ok t1 =>
        rw [bind_okP hg] at h
        rw [bind_okP (rfl : (Except.ok t1 : Py _) = .ok t1)]
        cases ho : t1.get (.inl n.id) with
        | error e => rw [ho] at h; cases h
        | ok opt =>
          rw [bind_okP ho] at h
          show (do let opt ← t1.get (.inl n.id); _ : Py (OptTable EntId)) = _
          rw [bind_okP ho]
          cases hc : computeChildren t1 opt (entitiesOf ks) with
          | error e => rw [hc] at h; cases h
          | ok t2 =>
            rw [bind_okP hc] at h
            have hkids := computeKids_eq (r := r) (ks := ks) (fuel := fuel) (fun k hk u hu => hok u (.kid hk hu)) hf hc
            have hch : r.children n.id = ks.map RTree.node := own.kids
            show ((r.children n.id).foldlM _ t1 >>= _ : Py (OptTable EntId)) = _
            rw [hch, bind_okP hkids]
            cases ho2 : t2.get (.inl n.id) with
            | error e => rw [ho2] at h; cases h
            | ok opt2 =>
              rw [bind_okP ho2] at h
              exact own_eq own.enums own.memberOptions ho2 h

theorem computeKids_eq {r : Req} : ∀ {ks : List RTree} {fuel : Nat} {tbl tbl' : OptTable EntId} {opt : StructObj},
    (∀ k ∈ ks, ∀ u, RTree.Has k u → NodeOK r u) → RTree.heightOf ks ≤ fuel →
    computeChildren tbl opt (entitiesOf ks) = .ok tbl' →
    (ks.map RTree.node).foldlM (fun t c => r.computeNode fuel opt c t) tbl = .ok tbl'
  | [], fuel, tbl, tbl', opt, _, _, h => by
    rw [entitiesOf, computeChildren] at h
    exact h
  | k :: ks, fuel, tbl, tbl', opt, hok, hf, h => by
    simp only [RTree.heightOf] at hf
    rw [entitiesOf, computeChildren] at h
    cases h1 : computeOptions tbl opt (entityOf k) with
    | error e => rw [h1] at h; cases h
    | ok t1 =>
      rw [bind_okP h1] at h
      rw [List.map_cons, List.foldlM_cons]
      rw [bind_okP (computeNode_eq (fun u hu => hok k List.mem_cons_self u hu) (by omega) h1)]
      exact computeKids_eq (fun k' hk' u hu => hok k' (List.mem_cons_of_mem _ hk') u hu) (by omega) h

end

/-! ## Ids -/

def nodePart : EntId → Nat
  | .inl i => i
  | .inr x => x.1

theorem leaf_ids (nid : Nat) (ms : List Member) :
    entitiesIds (ms.map (leafOf nid)) = ms.map fun m => Sum.inr (nid, m.name) := by
  induction ms with
  | nil => rfl
  | cons m ms ih =>
    rw [List.map_cons, entitiesIds, ih, leafOf, entityIds, entitiesIds]
    rfl

mutual

theorem part_mem : ∀ {t : RTree} {i : EntId}, i ∈ entityIds (entityOf t) → nodePart i ∈ t.ids
  | .mk n ks, i, h => by
    rw [entityOf, entityIds, leaf_ids] at h
    rw [RTree.ids]
    rcases List.mem_cons.mp h with rfl | h
    · exact List.mem_cons_self
    · rcases List.mem_append.mp h with h | h
      · exact List.mem_cons_of_mem _ (parts_mem h)
      · obtain ⟨m, -, rfl⟩ := List.mem_map.mp h
        exact List.mem_cons_self

theorem parts_mem : ∀ {ks : List RTree} {i : EntId}, i ∈ entitiesIds (entitiesOf ks) → nodePart i ∈ RTree.idsOf ks
  | [], i, h => by
    rw [entitiesOf, entitiesIds] at h
    cases h
  | k :: ks, i, h => by
    rw [entitiesOf, entitiesIds] at h
    rw [RTree.idsOf]
    rcases List.mem_append.mp h with h | h
    · exact List.mem_append_left _ (part_mem h)
    · exact List.mem_append_right _ (parts_mem h)

end

mutual

theorem ids_nodup : ∀ {t : RTree}, t.ids.Nodup → (∀ u, t.Has u → ((membersOf u.node).map (·.name)).Nodup) →
    (entityIds (entityOf t)).Nodup
  | .mk n ks, hd, hn => by
    rw [RTree.ids, List.nodup_cons] at hd
    rw [entityOf, entityIds, leaf_ids, List.nodup_cons]
    refine ⟨?_, List.nodup_append.mpr ⟨idss_nodup hd.2 (fun k hk u hu => hn u (.kid hk hu)), ?_, ?_⟩⟩
    · intro h
      rcases List.mem_append.mp h with h | h
      · exact hd.1 (parts_mem h)
      · obtain ⟨m, -, h⟩ := List.mem_map.mp h
        cases h
    · have := hn _ (.self _)
      have key : ∀ l : List Member, (l.map (·.name)).Nodup →
          (l.map fun m => (Sum.inr (n.id, m.name) : EntId)).Nodup := by
        intro l
        induction l with
        | nil => intro _; exact List.nodup_nil
        | cons m l ih =>
          intro h
          rw [List.map_cons, List.nodup_cons] at h ⊢
          refine ⟨?_, ih h.2⟩
          intro hm
          obtain ⟨m', hm', e⟩ := List.mem_map.mp hm
          injection e with e
          injection e with _ e
          exact h.1 (List.mem_map.mpr ⟨m', hm', e⟩)
      exact key _ this
    · intro a ha b hb e
      subst e
      obtain ⟨m, -, rfl⟩ := List.mem_map.mp hb
      exact hd.1 (parts_mem ha)

theorem idss_nodup : ∀ {ks : List RTree}, (RTree.idsOf ks).Nodup →
    (∀ k ∈ ks, ∀ u, RTree.Has k u → ((membersOf u.node).map (·.name)).Nodup) → (entitiesIds (entitiesOf ks)).Nodup
  | [], _, _ => by
    rw [entitiesOf, entitiesIds]
    exact List.nodup_nil
  | k :: ks, hd, hn => by
    rw [RTree.idsOf] at hd
    obtain ⟨h1, h2, h3⟩ := List.nodup_append.mp hd
    rw [entitiesOf, entitiesIds]
    refine List.nodup_append.mpr ⟨ids_nodup h1 (hn k List.mem_cons_self),
      idss_nodup h2 (fun k' hk' => hn k' (List.mem_cons_of_mem _ hk')), ?_⟩
    intro a ha b hb e
    subst e
    exact h3 _ (part_mem ha) _ (parts_mem hb) rfl

end

mutual

theorem entity_ok {t : RTree} (h : ∀ u, t.Has u → OptionsReadable u.node.annotations ∧
    ∀ m ∈ membersOf u.node, OptionsReadable m.annotations) : EntityOK (entityOf t) := by
  match t with
  | .mk n ks =>
    rw [entityOf, EntityOK]
    have conv : ∀ anns, OptionsReadable anns → ∀ o, explicitAt (convAnns anns) = some o → ∃ v, OptReads o v := by
      intro anns hr o ho
      rw [← Props.findAnn_eq] at ho
      rcases conv_find hr with ⟨-, h2⟩ | ⟨a, o', -, -, h3, h4⟩
      · rw [h2] at ho; cases ho
      · rw [h4] at ho
        injection ho with ho
        subst ho
        exact h3
    refine ⟨conv _ (h _ (.self _)).1, entities_ok (fun k hk u hu => h u (.kid hk hu)), ?_⟩
    have := (h _ (.self _)).2
    revert this
    show (∀ m ∈ membersOf n, _) → _
    generalize membersOf n = ms
    intro hms
    induction ms with
    | nil => trivial
    | cons m ms ih =>
      rw [List.map_cons, EntitiesOK]
      refine ⟨?_, ih (fun m hm => hms m (List.mem_cons_of_mem _ hm))⟩
      rw [leafOf, EntityOK]
      exact ⟨conv _ (hms m List.mem_cons_self), trivial, trivial⟩

theorem entities_ok {ks : List RTree} (h : ∀ k ∈ ks, ∀ u, RTree.Has k u → OptionsReadable u.node.annotations ∧
    ∀ m ∈ membersOf u.node, OptionsReadable m.annotations) : EntitiesOK (entitiesOf ks) := by
  match ks with
  | [] => rw [entitiesOf]; trivial
  | k :: ks =>
    rw [entitiesOf, EntitiesOK]
    exact ⟨entity_ok (h k List.mem_cons_self), entities_ok (fun k' hk' => h k' (List.mem_cons_of_mem _ hk'))⟩

end

theorem mem_entitiesOf {k : RTree} : ∀ {ks : List RTree}, k ∈ ks → entityOf k ∈ entitiesOf ks
  | k' :: ks, h => by
    rw [entitiesOf]
    rcases List.mem_cons.mp h with rfl | h
    · exact List.mem_cons_self
    · exact List.mem_cons_of_mem _ (mem_entitiesOf h)

theorem AnnPath.onPath {t : RTree} {i : EntId} {path : List (Option (List Reflection.Annotation))} (h : AnnPath t i path) :
    OnPath (entityOf t) i (path.map fun anns => explicitAt (convAnns anns)) := by
  induction h with
  | here n ks => rw [entityOf]; exact .here _ _ _ _
  | member hm =>
    rw [entityOf]
    exact .field (List.mem_map_of_mem hm) (.here _ _ _ _)
  | kid hk _ ih =>
    rw [entityOf]
    exact .node (mem_entitiesOf hk) ih

theorem AnnPath.readable {t : RTree} {i : EntId} {path : List (Option (List Reflection.Annotation))} (h : AnnPath t i path)
    (hok : ∀ u, t.Has u → OptionsReadable u.node.annotations ∧ ∀ m ∈ membersOf u.node, OptionsReadable m.annotations) :
    ∀ anns ∈ path, OptionsReadable anns := by
  induction h with
  | here n ks =>
    intro anns ha
    rw [List.mem_singleton.mp ha]
    exact (hok _ (.self _)).1
  | member hm =>
    intro anns ha
    rcases List.mem_cons.mp ha with rfl | ha
    · exact (hok _ (.self _)).1
    · rw [List.mem_singleton.mp ha]
      exact (hok _ (.self _)).2 _ hm
  | kid hk _ ih =>
    intro anns ha
    rcases List.mem_cons.mp ha with rfl | ha
    · exact (hok _ (.self _)).1
    · exact ih (fun u hu => hok u (.kid hk hu)) anns ha

theorem path_forall {path : List (Option (List Reflection.Annotation))} (hr : ∀ anns ∈ path, OptionsReadable anns) {ws : List OptVals}
    (h : List.Forall₂ OptReads ((path.map fun anns => explicitAt (convAnns anns)).filterMap id) ws) :
    List.Forall₂ (fun (a : Reflection.Annotation) w => ∃ o, AnnStruct a o ∧ OptReads o w) (path.filterMap firstOptions) ws := by
  induction path generalizing ws with
  | nil => cases h; exact .nil
  | cons anns path ih =>
    have hr' : ∀ anns ∈ path, OptionsReadable anns := fun a ha => hr a (List.mem_cons_of_mem _ ha)
    rw [List.map_cons, List.filterMap_cons, ← Props.findAnn_eq] at h
    rw [List.filterMap_cons]
    rcases conv_find (hr anns List.mem_cons_self) with ⟨h1, h2⟩ | ⟨a, o, h1, h2, -, h3⟩
    · rw [h2] at h
      rw [h1]
      exact ih hr' h
    · rw [h3] at h
      rw [h1]
      simp only [Option.map_some, id] at h ⊢
      cases h with
      | cons hh ht => exact .cons ⟨o, h2, hh⟩ (ih hr' ht)

theorem RTree.Has.trans_kid {t u k : RTree} (h : t.Has u) (hk : k ∈ u.kids) : t.Has k := by
  induction h with
  | self t =>
    obtain ⟨n, ks⟩ := t
    exact .kid hk (.self _)
  | kid hk' _ ih => exact .kid hk' (ih hk)

variable {r : Req} {file : RTree}

theorem RequestOK.nodeOK (ok : RequestOK r file) : ∀ u, file.Has u → NodeOK r u := fun u hu =>
  ⟨ok.kids u hu, ok.enums u hu, ok.nodeOptions u hu, ok.memberOptions u hu⟩

theorem node_of_mem {r : Req} (hd : (r.nodes.map (·.id)).Nodup) {n : Reflection.Node} (h : n ∈ r.nodes) :
    r.node n.id = .ok n := by
  unfold Req.node
  cases hf : r.nodes.reverse.find? (fun m => m.id == n.id) with
  | none =>
    have := List.find?_eq_none.mp hf n (List.mem_reverse.mpr h)
    simp at this
  | some m =>
    have h1 := List.mem_reverse.mp (List.mem_of_find?_eq_some hf)
    have h2 := List.find?_some hf
    have h3 : m.id = n.id := by simpa using h2
    have key : ∀ l : List Reflection.Node, (l.map (·.id)).Nodup → m ∈ l → n ∈ l → m = n := by
      intro l
      induction l with
      | nil => intro _ hm; cases hm
      | cons x l ih =>
        intro hd hm hn
        rw [List.map_cons, List.nodup_cons] at hd
        rcases List.mem_cons.mp hm with hm' | hm' <;> rcases List.mem_cons.mp hn with hn' | hn'
        · rw [hm', hn']
        · exact absurd (List.mem_map.mpr ⟨n, hn', by rw [← h3, hm']⟩) hd.1
        · exact absurd (List.mem_map.mpr ⟨m, hm', by rw [h3, hn']⟩) hd.1
        · exact ih hd.2 hm' hn'
    rw [key _ hd h1 h]

theorem RTree.Has.ids {t u : RTree} (h : t.Has u) : u.node.id ∈ t.ids := by
  induction h with
  | self t => obtain ⟨n, ks⟩ := t; rw [RTree.ids]; exact List.mem_cons_self
  | kid hk _ ih =>
    rw [RTree.ids]
    refine List.mem_cons_of_mem _ ?_
    clear * - hk ih
    rename_i ks k t
    induction ks with
    | nil => cases hk
    | cons k' ks ih' =>
      rw [RTree.idsOf]
      rcases List.mem_cons.mp hk with rfl | hk
      · exact List.mem_append_left _ ih
      · exact List.mem_append_right _ (ih' hk)

mutual

theorem ids_has : ∀ {t : RTree} {i : Nat}, i ∈ t.ids → ∃ u, t.Has u ∧ u.node.id = i
  | .mk n ks, i, h => by
    rw [RTree.ids] at h
    rcases List.mem_cons.mp h with rfl | h
    · exact ⟨_, .self _, rfl⟩
    · obtain ⟨k, hk, u, hu, e⟩ := idsOf_has h
      exact ⟨u, .kid hk hu, e⟩

theorem idsOf_has : ∀ {ks : List RTree} {i : Nat}, i ∈ RTree.idsOf ks → ∃ k ∈ ks, ∃ u, RTree.Has k u ∧ u.node.id = i
  | [], i, h => by rw [RTree.idsOf] at h; cases h
  | k :: ks, i, h => by
    rw [RTree.idsOf] at h
    rcases List.mem_append.mp h with h | h
    · exact ⟨k, List.mem_cons_self, ids_has h⟩
    · obtain ⟨k', hk', r⟩ := idsOf_has h
      exact ⟨k', List.mem_cons_of_mem _ hk', r⟩

end

theorem has_cases {t u : RTree} (h : t.Has u) : u = t ∨ ∃ w, t.Has w ∧ u ∈ w.kids := by
  induction h with
  | self t => exact .inl rfl
  | kid hk _ ih =>
    rename_i n ks k u _
    rcases ih with rfl | ⟨w, hw, hu⟩
    · exact .inr ⟨.mk n ks, .self _, hk⟩
    · exact .inr ⟨w, .kid hk hw, hu⟩

/-- The nodes of the tree are nodes of the request. -/
theorem RequestOK.node_mem (ok : RequestOK r file) {u : RTree} (h : file.Has u) : u.node ∈ r.nodes := by
  rcases has_cases h with rfl | ⟨w, hw, hu⟩
  · exact ok.mem
  · have : u.node ∈ r.children w.node.id := by rw [ok.kids w hw]; exact List.mem_map_of_mem hu
    exact (List.mem_filter.mp this).1

/-- The generator of a request exists, and has the options of every entity. -/
theorem generator_new (ok : RequestOK r file) {dflt : StructObj} {v : OptVals} (hv : OptReads dflt v) {fuel : Nat}
    (hf : file.height ≤ fuel) :
    ∃ t, Generator.new r dflt fuel = .ok ⟨r, t⟩ ∧
      (∀ i path, AnnPath file i path → ∃ o, t.get i = .ok o ∧ ∀ k, ∃ x, optGet o k = .ok x ∧ OptionIs v path k x) ∧
      ∀ i, nodePart i ∉ file.ids → t.get i = .error .keyError := by
  have hread : ∀ u, file.Has u → OptionsReadable u.node.annotations ∧
      ∀ m ∈ membersOf u.node, OptionsReadable m.annotations := fun u hu => ⟨ok.nodeOptions u hu, ok.memberOptions u hu⟩
  obtain ⟨t, e, hfr, h⟩ := Props.computeOptions_spec [] dflt v hv (entityOf file) (entity_ok hread)
    (ids_nodup ok.distinct ok.names)
  refine ⟨t, ?_, ?_, ?_⟩
  · unfold Generator.new
    rw [ok.requested, List.foldlM_cons]
    have h1 : (do r.computeNode fuel dflt (← r.node file.node.id) []) = .ok t := by
      rw [bind_okP (node_of_mem ok.ids ok.mem)]
      exact computeNode_eq ok.nodeOK hf e
    rw [bind_okP h1]
    rfl
  · intro i path hp
    obtain ⟨o, ws, h1, h2, h3⟩ := h i _ hp.onPath
    exact ⟨o, h1, fun k => ⟨_, (h3 k).1, ws, path_forall (hp.readable hread) h2, rfl⟩⟩
  · intro i hi
    have := hfr i fun h => hi (part_mem h)
    unfold OptTable.get
    rw [this]
    rfl

end Capnpy.Spec
