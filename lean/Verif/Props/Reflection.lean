import Verif.Proof.ReflectionEmit
import Verif.Props.ModuleExamples
import Verif.Props.Names

/-!
# C68: the reflection API

`capnpy.get_reflection_data(module)` and the methods of the result (capnpy/reflection.py).  The
module is the one that the compiler emits for the same request (C51, C52): `g.gen` is what the
generator `g` emits, `importModule` imports it.
-/

namespace Capnpy.Props

open Spec Capnpy.Module
open Capnpy.Reflection (Req Member EntId Generator ReflectionData)

variable {r : Req} {file : RTree} {dflt : StructObj} {v : OptVals} {fuel : Nat} {kw : List Str} {key : Nat → Bool}
  {imp : Nat → Option Str}

/-- C68: the generator of a request exists, and the options of every node, field and enumerant of the
file are, option by option, the innermost ones that an `options` annotation sets on the way
from the file down to it, and otherwise the defaults. -/
theorem C68_options (ok : RequestOK r file) (hv : OptReads dflt v) (hf : file.height ≤ fuel) :
    ∃ g, Generator.new r dflt fuel = .ok g ∧ g.req = r ∧
      ∀ i path, AnnPath file i path → ∃ o, g.table.get i = .ok o ∧ ∀ k x, optGet o k = .ok x ↔ OptionIs v path k x := by
  obtain ⟨t, e, h, -⟩ := generator_new ok hv hf
  refine ⟨_, e, rfl, fun i path hp => ?_⟩
  obtain ⟨o, h1, h2⟩ := h i path hp
  refine ⟨o, h1, fun k x => ?_⟩
  obtain ⟨y, h3, h4⟩ := h2 k
  constructor
  · intro hx
    rw [h3] at hx
    injection hx with hx
    rw [← hx]
    exact h4
  · intro hx
    rw [h3, h4.unique hx]

/-- The facts about the generator that the proofs below use. -/
theorem generator_facts (ok : RequestOK r file) (hv : OptReads dflt v) (hf : file.height ≤ fuel) {g : Generator}
    (hg : Generator.new r dflt fuel = .ok g) :
    ∃ t, g = ⟨r, t⟩ ∧
      (∀ i path, AnnPath file i path → ∃ o, t.get i = .ok o ∧ ∀ k, ∃ x, optGet o k = .ok x ∧ OptionIs v path k x) ∧
      ∀ i, nodePart i ∉ file.ids → t.get i = .error .keyError := by
  obtain ⟨t, e, h, h'⟩ := generator_new ok hv hf
  rw [hg] at e
  injection e with e
  exact ⟨t, e, h, h'⟩

theorem included_spec (ok : RequestOK r file) {t : OptTable EntId}
    (ht : ∀ i path, AnnPath file i path → ∃ o, t.get i = .ok o ∧ ∀ k, ∃ x, optGet o k = .ok x ∧ OptionIs v path k x)
    (hir : v .includeReflectionData ≠ 2) :
    ∃ x, OptionIs v [file.node.annotations] .includeReflectionData x ∧
      (Generator.mk r t).included file.node.id = .ok (x != 0) := by
  have hp : AnnPath file (.inl file.node.id) [file.node.annotations] := by
    obtain ⟨n, ks⟩ := file
    exact .here n ks
  obtain ⟨o, h1, h2⟩ := ht _ _ hp
  obtain ⟨x, h3, h4⟩ := h2 .includeReflectionData
  refine ⟨x, h4, ?_⟩
  have hx : x ≠ 2 := by
    obtain ⟨ws, -, rfl⟩ := h4
    exact (C36_never_notset .includeReflectionData _ ws hir).1
  unfold Generator.included
  rw [bind_okP h1, bind_okP h3]
  unfold boolOption
  rw [if_neg hx]
  rfl

/-- C68: the generator emits the module, if the default options are set. -/
theorem C68_emits (ok : RequestOK r file) (hv : OptReads dflt v) (hf : file.height ≤ fuel) {g : Generator}
    (hg : Generator.new r dflt fuel = .ok g) (hcc : v .convertCase ≠ 2) (hir : v .includeReflectionData ≠ 2) :
    ∃ gm, g.gen kw key imp = .ok gm := by
  obtain ⟨t, rfl, h1, h2⟩ := generator_facts ok hv hf hg
  obtain ⟨x, -, hx⟩ := included_spec ok h1 hir
  have names : ∀ n ∈ r.nodes, ∀ m ∈ membersOf n, ∃ s,
      (Generator.mk r t).emittedName kw { m with id := some (n.id, m.name) } = .ok s := by
    intro n hn m hm
    by_cases hi : n.id ∈ file.ids
    · obtain ⟨u, hu, e⟩ := ids_has hi
      have hnu : n = u.node := by
        have a := node_of_mem ok.ids hn
        have b := node_of_mem ok.ids (ok.node_mem hu)
        rw [e, a] at b
        injection b
      subst hnu
      obtain ⟨path, hp⟩ := AnnPath.exists_member hu hm
      obtain ⟨x, -, -, hx⟩ := name_spec ok h1 hcc hu hm kw hp (m' := { m with id := some (u.node.id, m.name) }) rfl rfl
      exact ⟨_, hx⟩
    · refine ⟨m.name, ?_⟩
      unfold Generator.emittedName Reflection.Member.getId
      simp only
      rw [bind_okP (rfl : (Except.ok (n.id, m.name) : Py _) = _)]
      simp only [h2 (.inr (n.id, m.name)) hi]
  have nodes : ∀ n ∈ r.nodes, ∃ m, (Generator.mk r t).emitNode kw key n = .ok m := by
    intro n hn
    have hnm := names n hn
    unfold Generator.emitNode
    cases hk : n.kind with
    | struct gr c fs =>
      simp only
      cases fs with
      | none =>
        have hs : n.getStructFields = .ok none := by unfold Reflection.Node.getStructFields; rw [hk]
        rw [bind_okP hs]
        exact ⟨_, rfl⟩
      | some fs =>
        have hs : n.getStructFields = .ok (some (fs.map fun f => { f with id := some (n.id, f.name) })) := by
          unfold Reflection.Node.getStructFields; rw [hk]
        rw [bind_okP hs]
        simp only
        have hmem : membersOf n = fs := by unfold membersOf; rw [hk]
        obtain ⟨l, hl⟩ : ∃ l, ListObj.mapPy ((Generator.mk r t).emitField kw)
            (fs.map fun f => { f with id := some (n.id, f.name) }) = .ok l := by
          refine mapPy_total fun f' hf' => ?_
          obtain ⟨f, hf, rfl⟩ := List.mem_map.mp hf'
          obtain ⟨s, hs⟩ := hnm f (by rw [hmem]; exact hf)
          unfold Generator.emitField
          rw [bind_okP hs]
          exact ⟨_, rfl⟩
        rw [bind_okP hl]
        exact ⟨_, rfl⟩
    | enum es =>
      simp only
      cases es with
      | none =>
        have hs : n.getEnumEnumerants = .ok none := by unfold Reflection.Node.getEnumEnumerants; rw [hk]
        rw [bind_okP hs]
        exact ⟨_, rfl⟩
      | some es =>
        have hs : n.getEnumEnumerants = .ok (some (es.map fun f => { f with id := some (n.id, f.name) })) := by
          unfold Reflection.Node.getEnumEnumerants; rw [hk]
        rw [bind_okP hs]
        simp only
        have hmem : membersOf n = es := by unfold membersOf; rw [hk]
        obtain ⟨l, hl⟩ : ∃ l, ListObj.mapPy ((Generator.mk r t).emittedName kw)
            (es.map fun f => { f with id := some (n.id, f.name) }) = .ok l := by
          refine mapPy_total fun f' hf' => ?_
          obtain ⟨f, hf, rfl⟩ := List.mem_map.mp hf'
          exact hnm f (by rw [hmem]; exact hf)
        rw [bind_okP hl]
        exact ⟨_, rfl⟩
    | _ => exact ⟨_, rfl⟩
  obtain ⟨l, hl⟩ := mapPy_total nodes
  unfold Generator.gen
  rw [show (Generator.mk r t).req.requested = [file.node.id] from ok.requested]
  simp only
  rw [bind_okP hl, bind_okP hx]
  exact ⟨_, rfl⟩

/-- C68: `get_reflection_data(module)` returns the data, with the request that the module was compiled
from and the default options, if and only if the option `include_reflection_data` holds for the file;
otherwise it raises ValueError. -/
theorem C68_get_reflection_data (ok : RequestOK r file) (hv : OptReads dflt v) (hf : file.height ≤ fuel)
    {g : Generator} (hg : Generator.new r dflt fuel = .ok g) (hir : v .includeReflectionData ≠ 2) :
    ∃ x attr, OptionIs v [file.node.annotations] .includeReflectionData x ∧
      g.reflectionData dflt file.node.id = .ok attr ∧
      Reflection.getReflectionData attr = if x = 0 then .error .valueError else .ok ⟨r, dflt, none⟩ := by
  obtain ⟨t, rfl, h1, -⟩ := generator_facts ok hv hf hg
  obtain ⟨x, hx, hi⟩ := included_spec ok h1 hir
  refine ⟨x, ?_⟩
  unfold Generator.reflectionData
  rw [bind_okP hi]
  by_cases h0 : x = 0
  · subst h0
    exact ⟨none, hx, rfl, rfl⟩
  · have : (x != 0) = true := by simpa using h0
    rw [this, if_neg h0]
    exact ⟨some ⟨r, dflt, none⟩, hx, rfl, rfl⟩

/-! ## History -/

theorem data_getM {g : Generator} {rd : ReflectionData} (hd : IsData r dflt fuel rd)
    (hg : Generator.new r dflt fuel = .ok g) : rd.getM fuel = .ok (g, ⟨r, dflt, some g⟩) := by
  obtain ⟨r', d', m⟩ := rd
  obtain ⟨h1, h2, h3⟩ := hd
  simp only at h1 h2 h3
  subst h1 h2
  cases m with
  | none =>
    unfold ReflectionData.getM
    simp only
    rw [bind_okP hg]
    rfl
  | some g' =>
    have := h3 g' rfl
    rw [hg] at this
    injection this with this
    subst this
    rfl

theorem isData_after {g : Generator} (hg : Generator.new r dflt fuel = .ok g) : IsData r dflt fuel ⟨r, dflt, some g⟩ :=
  ⟨rfl, rfl, fun g' h => by injection h with h; rw [← h]; exact hg⟩

theorem isData_fresh : IsData r dflt fuel ⟨r, dflt, none⟩ := ⟨rfl, rfl, fun _ h => by cases h⟩

theorem getM_same {rd : ReflectionData} (hd : IsData r dflt fuel rd) :
    rd.getM fuel = ReflectionData.getM ⟨r, dflt, none⟩ fuel ∧
      ∀ g rd', rd.getM fuel = .ok (g, rd') → IsData r dflt fuel rd' ∧ rd'.getM fuel = .ok (g, rd') := by
  cases hg : Generator.new r dflt fuel with
  | ok g =>
    rw [data_getM hd hg, data_getM isData_fresh hg]
    refine ⟨rfl, fun g' rd' h => ?_⟩
    injection h with h
    injection h with h1 h2
    subst h1 h2
    exact ⟨isData_after hg, data_getM (isData_after hg) hg⟩
  | error e =>
    obtain ⟨r', d', m⟩ := rd
    obtain ⟨h1, h2, h3⟩ := hd
    simp only at h1 h2 h3
    subst h1 h2
    cases m with
    | some g => have := h3 g rfl; rw [hg] at this; cases this
    | none =>
      refine ⟨rfl, fun g' rd' h => ?_⟩
      unfold ReflectionData.getM at h
      simp only [hg] at h
      cases h

theorem getNode_same {rd : ReflectionData} (hd : IsData r dflt fuel rd) (a : Reflection.Arg) :
    rd.getNode fuel a = ReflectionData.getNode ⟨r, dflt, none⟩ fuel a ∧
      ∀ n rd', rd.getNode fuel a = .ok (n, rd') → IsData r dflt fuel rd' ∧ ∃ g, rd.getM fuel = .ok (g, rd') := by
  unfold ReflectionData.getNode
  rw [(getM_same hd).1]
  refine ⟨rfl, fun n rd' h => ?_⟩
  cases hc : a.capnpyId with
  | error e => rw [hc] at h; cases h
  | ok i =>
    rw [bind_okP hc] at h
    cases hm : ReflectionData.getM ⟨r, dflt, none⟩ fuel with
    | error e => rw [hm] at h; cases h
    | ok x =>
      obtain ⟨g, rd1⟩ := x
      rw [bind_okP hm] at h
      cases i with
      | none => cases h
      | some i =>
        simp only at h
        cases hn : g.req.node i with
        | error e => rw [hn] at h; cases h
        | ok n' =>
          rw [bind_okP hn] at h
          injection h with h
          injection h with h1 h2
          subst h1 h2
          exact ⟨((getM_same isData_fresh).2 _ _ hm).1, g, rfl⟩

theorem lookupAnn_same {rd : ReflectionData} (hd : IsData r dflt fuel rd) (a : Reflection.Arg) (i : Nat) :
    rd.lookupAnn fuel a i = ReflectionData.lookupAnn ⟨r, dflt, none⟩ fuel a i ∧
      ∀ x rd', rd.lookupAnn fuel a i = .ok (x, rd') → IsData r dflt fuel rd' := by
  have direct : ∀ anns : Option (List Reflection.Annotation), ∀ x rd',
      (do let (_, rd) ← ReflectionData.getM ⟨r, dflt, none⟩ fuel; pure (Reflection.hasAnn anns i, rd) :
        Py (Option Reflection.Annotation × ReflectionData)) = .ok (x, rd') → IsData r dflt fuel rd' := by
    intro anns x rd' h
    cases hm : ReflectionData.getM ⟨r, dflt, none⟩ fuel with
    | error e => rw [hm] at h; cases h
    | ok y =>
      rw [bind_okP hm] at h
      injection h with h
      injection h with h1 h2
      subst h2
      exact ((getM_same isData_fresh).2 _ _ hm).1
  have indirect : ∀ a, ∀ x rd',
      (do
        let (n, rd) ← ReflectionData.getNode ⟨r, dflt, none⟩ fuel a
        let (_, rd) ← rd.getM fuel
        pure (Reflection.hasAnn n.annotations i, rd) : Py (Option Reflection.Annotation × ReflectionData)) = .ok (x, rd') →
      IsData r dflt fuel rd' := by
    intro a x rd' h
    cases hm : ReflectionData.getNode ⟨r, dflt, none⟩ fuel a with
    | error e => rw [hm] at h; cases h
    | ok y =>
      obtain ⟨n, rd1⟩ := y
      rw [bind_okP hm] at h
      have h1 := ((getNode_same isData_fresh a).2 _ _ hm).1
      simp only at h
      cases hm2 : rd1.getM fuel with
      | error e => rw [hm2] at h; cases h
      | ok y =>
        rw [bind_okP hm2] at h
        injection h with h
        injection h with _ h2
        subst h2
        exact ((getM_same h1).2 _ _ hm2).1
  unfold ReflectionData.lookupAnn
  cases a with
  | node n => simp only; rw [(getM_same hd).1]; exact ⟨rfl, direct _⟩
  | field f => simp only; rw [(getM_same hd).1]; exact ⟨rfl, direct _⟩
  | enumerant f => simp only; rw [(getM_same hd).1]; exact ⟨rfl, direct _⟩
  | int j => simp only; rw [(getNode_same hd _).1]; exact ⟨rfl, indirect _⟩
  | obj σ o => simp only; rw [(getNode_same hd _).1]; exact ⟨rfl, indirect _⟩

theorem run_same {rd : ReflectionData} (hd : IsData r dflt fuel rd) (c : Call) :
    c.run kw fuel rd = c.run kw fuel ⟨r, dflt, none⟩ ∧
      ∀ x rd', c.run kw fuel rd = .ok (x, rd') → IsData r dflt fuel rd' := by
  cases c with
  | node a =>
    unfold Call.run
    simp only
    rw [(getNode_same hd a).1]
    refine ⟨rfl, fun x rd' h => ?_⟩
    cases hm : ReflectionData.getNode ⟨r, dflt, none⟩ fuel a with
    | error e => rw [hm] at h; cases h
    | ok y =>
      rw [bind_okP hm] at h
      injection h with h
      injection h with _ h2
      subst h2
      exact ((getNode_same isData_fresh a).2 _ _ hm).1
  | has a i =>
    unfold Call.run ReflectionData.hasAnnotation
    simp only
    rw [(lookupAnn_same hd a i).1]
    refine ⟨rfl, fun x rd' h => ?_⟩
    cases hm : ReflectionData.lookupAnn ⟨r, dflt, none⟩ fuel a i with
    | error e => rw [hm] at h; cases h
    | ok y =>
      rw [bind_okP hm] at h
      injection h with h
      injection h with _ h2
      subst h2
      exact (lookupAnn_same isData_fresh a i).2 _ _ hm
  | get a i =>
    unfold Call.run ReflectionData.getAnnotation
    simp only
    rw [(lookupAnn_same hd a i).1]
    refine ⟨rfl, fun x rd' h => ?_⟩
    cases hm : ReflectionData.lookupAnn ⟨r, dflt, none⟩ fuel a i with
    | error e => rw [hm] at h; cases h
    | ok y =>
      obtain ⟨ann, rd1⟩ := y
      rw [bind_okP hm] at h
      have := (lookupAnn_same isData_fresh a i).2 _ _ hm
      cases ann with
      | none => cases h
      | some ann =>
        simp only at h
        cases hp : ann.value.asPyobj with
        | error e => rw [hp] at h; cases h
        | ok z =>
          rw [hp] at h
          injection h with h
          injection h with _ h2
          subst h2
          exact this
  | name f =>
    unfold Call.run ReflectionData.fieldName
    simp only
    rw [(getM_same hd).1]
    refine ⟨rfl, fun x rd' h => ?_⟩
    cases hm : ReflectionData.getM ⟨r, dflt, none⟩ fuel with
    | error e => rw [hm] at h; cases h
    | ok y =>
      obtain ⟨g, rd1⟩ := y
      rw [bind_okP hm] at h
      have := ((getM_same isData_fresh).2 _ _ hm).1
      simp only at h
      cases hp : g.pyFieldName kw f with
      | error e => rw [hp] at h; cases h
      | ok z =>
        rw [hp] at h
        injection h with h
        injection h with _ h2
        subst h2
        exact this

theorem reached_data {rd : ReflectionData} (h : Reached kw fuel ⟨r, dflt, none⟩ rd) : IsData r dflt fuel rd := by
  induction h with
  | fresh => exact isData_fresh
  | call _ hc ih => exact (run_same ih _).2 _ _ hc
  | failed _ _ hm ih => exact ((getM_same ih).2 _ _ hm).1

/-- C68: the answers do not depend on the calls that were made before on the same object (some of
which may have raised an exception). -/
theorem C68_history {rd : ReflectionData} (h : Reached kw fuel ⟨r, dflt, none⟩ rd) (c : Call) :
    c.run kw fuel rd = c.run kw fuel ⟨r, dflt, none⟩ := by
  exact (run_same (reached_data h) c).1

/-! ## Nodes -/

variable {g : Generator} {rd : ReflectionData}

theorem getNode_eq (hd : Reached kw fuel ⟨r, dflt, none⟩ rd) (hg : Generator.new r dflt fuel = .ok g) {a : Reflection.Arg} {i : Nat}
    (ha : a.capnpyId = .ok (some i)) :
    rd.getNode fuel a = (do pure (← g.req.node i, (⟨r, dflt, some g⟩ : ReflectionData))) := by
  unfold ReflectionData.getNode
  rw [bind_okP ha, bind_okP (data_getM (reached_data hd) hg)]

/-- The request of a new generator. -/
theorem new_req (hg : Generator.new r dflt fuel = .ok g) : g.req = r := by
  unfold Generator.new at hg
  cases h : r.requested.foldlM (fun t f => do r.computeNode fuel dflt (← r.node f) t) [] with
  | error e => rw [h] at hg; cases hg
  | ok t =>
    rw [bind_okP h] at hg
    injection hg with hg
    rw [← hg]

theorem getNode_mem (hd : Reached kw fuel ⟨r, dflt, none⟩ rd) (hg : Generator.new r dflt fuel = .ok g)
    (ids : (r.nodes.map (·.id)).Nodup) {a : Reflection.Arg} {n : Reflection.Node} (ha : a.capnpyId = .ok (some n.id))
    (hn : n ∈ r.nodes) : ∃ rd', rd.getNode fuel a = .ok (n, rd') := by
  rw [getNode_eq hd hg ha, new_req hg, bind_okP (node_of_mem ids hn)]
  exact ⟨_, rfl⟩

/-- C68: `get_node(i)` with an int: the node with the id, of this or of an imported file; KeyError if
there is none. -/
theorem C68_get_node (hd : Reached kw fuel ⟨r, dflt, none⟩ rd) (hg : Generator.new r dflt fuel = .ok g)
    (ids : (r.nodes.map (·.id)).Nodup) (i : Nat) :
    (∀ n ∈ r.nodes, n.id = i → ∃ rd', rd.getNode fuel (.int i) = .ok (n, rd')) ∧
    ((∀ n ∈ r.nodes, n.id ≠ i) → rd.getNode fuel (.int i) = .error .keyError) := by
  constructor
  · rintro n hn rfl
    exact getNode_mem hd hg ids rfl hn
  · intro h
    rw [getNode_eq hd hg rfl, new_req hg]
    have : r.node i = .error .keyError := by
      unfold Reflection.Req.node
      rw [List.find?_eq_none.mpr]
      intro n hn
      have := h n (List.mem_reverse.mp hn)
      simpa using this
    rw [this]
    rfl

section

variable {gm : Gen} {mfile : Spec.Tree} {F : Nat} {σ0 σ : State}

/-- What the theorems about the imported module assume: the request is in order, it was compiled
with the generator, the emitted file is in order (C52), and it has been imported. -/
structure Loaded (r : Req) (file : RTree) (dflt : StructObj) (v : OptVals) (fuel : Nat) (kw : List Str) (key : Nat → Bool)
    (imp : Nat → Option Str) (g : Generator) (gm : Gen) (mfile : Spec.Tree) (F : Nat) (σ0 σ : State) : Prop where
  request : RequestOK r file
  options : OptReads dflt v
  convert : v .convertCase ≠ 2
  limit : file.height ≤ fuel
  new : Generator.new r dflt fuel = .ok g
  gen : g.gen kw key imp = .ok gm
  file : FileOK gm mfile
  supported : Supported gm mfile
  deep : Deep mfile F
  imported : importModule gm F σ0 = .ok σ

variable (L : Loaded r file dflt v fuel kw key imp g gm mfile F σ0 σ)

include L

theorem Loaded.req : g.req = r := new_req L.new

theorem Loaded.emits : List.Forall₂ (Emits g kw key) g.req.nodes gm.nodes := by
  obtain ⟨_, -, -, -, -, h⟩ := gen_spec L.gen
  exact h

theorem Loaded.fileId : mfile.node.id = file.node.id := by
  obtain ⟨f, h1, h2, -⟩ := gen_spec L.gen
  rw [L.req, L.request.requested] at h1
  injection h1 with h1
  rw [← L.file.current, h2, h1]

theorem Loaded.sub {p : List Str} {u : RTree} (h : RSub file p u) :
    u.node ∈ r.nodes ∧ ∃ t, Sub mfile p t ∧ Emits g kw key u.node t.node := by
  have ok : RequestOK g.req file := by rw [L.req]; exact L.request
  obtain ⟨h1, h2⟩ := h.emitted ok L.emits L.file L.fileId
  exact ⟨L.request.node_mem h1, h2⟩

/-- Is it a struct that is not a group, or an enum? -/
def isRType (n : Reflection.Node) : Prop := (∃ c fs, n.kind = .struct false c fs) ∨ ∃ es, n.kind = .enum es

omit L in
theorem Emits.type {n : Reflection.Node} {m : Node} (h : Emits g kw key n m) (hn : isRType n) : Node.isType m := by
  rcases hn with ⟨c, fs, e⟩ | ⟨es, e⟩
  · obtain ⟨fs', e', -⟩ := h.struct _ _ _ e
    refine .inl ⟨⟨_, _, _, _, e'⟩, ?_⟩
    rintro ⟨_, _, _, e''⟩
    rw [e'] at e''
    cases e''
  · obtain ⟨ms, e', -⟩ := h.enum _ e
    exact .inr ⟨ms, e'⟩

omit L in
theorem capnpyId_ref {a i : Nat} (h : HasId σ (.ref a) i) :
    (Reflection.Arg.obj σ (.ref a)).capnpyId = .ok (some i) ∧ (Reflection.Arg.obj σ (.instance_ a)).capnpyId = .ok (some i) := by
  constructor <;>
  · unfold Reflection.Arg.capnpyId
    simp only
    rw [bind_okP h]

/-- C68: `get_node` of a class: for every struct and enum of the file, the object that is found in the
module under its dotted name gives the node from which it was generated; so does an instance of
the class. -/
theorem C68_get_node_type (hd : Reached kw fuel ⟨r, dflt, none⟩ rd) {p : List Str} {u : RTree} (h : RSub file p u)
    (ht : isRType u.node) :
    ∃ a, σ.evalPath [] (dotted p) = .ok (.ref a) ∧ (∃ rd', rd.getNode fuel (.obj σ (.ref a)) = .ok (u.node, rd')) ∧
      ∃ rd', rd.getNode fuel (.obj σ (.instance_ a)) = .ok (u.node, rd') := by
  obtain ⟨hm, t, hs, he⟩ := L.sub h
  obtain ⟨a, h1, -, h2, -⟩ := C52_types L.file L.supported L.deep L.imported hs (Emits.type he ht)
  rw [he.id] at h2
  exact ⟨a, h1, getNode_mem hd L.new L.request.ids (capnpyId_ref h2).1 hm,
    getNode_mem hd L.new L.request.ids (capnpyId_ref h2).2 hm⟩

/-- C68: `get_node` of the class of a group (which is found only under the name with
underscores). -/
theorem C68_get_node_group (hd : Reached kw fuel ⟨r, dflt, none⟩ rd) {p : List Str} {u : RTree} (h : RSub file p u)
    {c : Nat} {fs : Option (List Member)} (ht : u.node.kind = .struct true c fs) :
    ∃ a rd', σ.evalPath [] (under p) = .ok (.ref a) ∧ rd.getNode fuel (.obj σ (.ref a)) = .ok (u.node, rd') := by
  obtain ⟨hm, t, hs, he⟩ := L.sub h
  obtain ⟨fs', e, -⟩ := he.struct _ _ _ ht
  obtain ⟨a, h1, h2⟩ := C52_groups L.file L.supported L.deep L.imported hs ⟨_, _, _, e⟩
  rw [he.id] at h2
  obtain ⟨rd', h3⟩ := getNode_mem hd L.new L.request.ids (capnpyId_ref h2).1 hm
  exact ⟨a, rd', h1, h3⟩

/-- C68: `get_node(module)` is the node of the file.  (`m` is the address of the module in a later
state.) -/
theorem C68_get_node_module (hd : Reached kw fuel ⟨r, dflt, none⟩ rd) {τ : State} {m : Nat}
    (hm : τ.heap[m]? = some σ.globals) : ∃ rd', rd.getNode fuel (.obj τ (.ref m)) = .ok (file.node, rd') := by
  have h1 := C52_module_id L.file L.supported L.deep L.imported
  have h2 : σ.globals.lookup "__capnpy_id__".toList = some (.int mfile.node.id) := by
    obtain ⟨A, B, im⟩ := the_import L.file L.supported L.deep L.imported
    exact im.modId
  have h3 : HasId τ (.ref m) file.node.id := by
    rw [← L.fileId]
    exact getattr_ref hm h2
  exact getNode_mem hd L.new L.request.ids (capnpyId_ref h3).1 L.request.mem

/-- C68: `get_node` of an annotation class. -/
theorem C68_get_node_annotation (hd : Reached kw fuel ⟨r, dflt, none⟩ rd) {p : List Str} {u : RTree} (h : RSub file p u)
    (ht : u.node.kind = .annotation)
    (hu : ∀ q t, Sub mfile q t → t.node.kind = .annotation → t.node.short = u.node.short → q = p)
    (hc : ∀ k ∈ mfile.kids, (∃ c, k.node.kind = .const c) → k.node.short ≠ u.node.short) :
    ∃ a rd', σ.evalPath [] u.node.short = .ok (.ref a) ∧ HasId σ (.ref a) u.node.id ∧
      rd.getNode fuel (.obj σ (.ref a)) = .ok (u.node, rd') := by
  obtain ⟨hm, t, hs, he⟩ := L.sub h
  rw [← he.short] at hu hc
  obtain ⟨a, h1, h2⟩ := C52_annotation L.file L.supported L.deep L.imported hs (he.annotation ht) hu hc
  rw [he.id] at h2
  rw [he.short] at h1
  obtain ⟨rd', h3⟩ := getNode_mem hd L.new L.request.ids (capnpyId_ref h2).1 hm
  exact ⟨a, rd', h1, h2, h3⟩

/-! ## Names of fields and enumerants -/

omit L in
theorem fieldName_eq (hd : Reached kw fuel ⟨r, dflt, none⟩ rd) (hg : Generator.new r dflt fuel = .ok g) (f : Member) :
    rd.fieldName kw fuel f = (do pure (← g.pyFieldName kw f, (⟨r, dflt, some g⟩ : ReflectionData))) := by
  unfold ReflectionData.fieldName
  rw [bind_okP (data_getM (reached_data hd) hg)]

/-- C68: `field_name(f)` for a field of a struct or group of the file: it is the name that
`py_field_name` gives (C34) with the option `convert_case` of the field, and the class has an
accessor with this name. -/
theorem C68_field_name (hd : Reached kw fuel ⟨r, dflt, none⟩ rd) {p : List Str} {u : RTree} (h : RSub file p u)
    {fs : List Member} (hs : u.node.getStructFields = .ok (some fs)) {f : Member} (hf : f ∈ fs)
    {path : List (Option (List Reflection.Annotation))} (hp : AnnPath file (.inr (u.node.id, f.name)) path) :
    ∃ x a rd', OptionIs v path .convertCase x ∧ rd.fieldName kw fuel f = .ok (Names.pyFieldName kw (x != 0) f.name, rd') ∧
      σ.evalPath [] (under p) = .ok (.ref a) ∧ HasId σ (.ref a) u.node.id ∧
      σ.getattr (.ref a) (Names.pyFieldName kw (x != 0) f.name) = .ok .value := by
  obtain ⟨tb, rfl, h1, -⟩ := generator_facts L.request L.options L.limit L.new
  obtain ⟨hm, t, hsub, he⟩ := L.sub h
  unfold Reflection.Node.getStructFields at hs
  cases hk : u.node.kind with
  | struct gr c fs0 =>
    rw [hk] at hs
    cases fs0 with
    | none => cases hs
    | some fs0 =>
      simp only at hs
      injection hs with hs
      injection hs with hs
      rw [← hs] at hf
      obtain ⟨m, hm0, rfl⟩ := List.mem_map.mp hf
      have hmem : m ∈ membersOf u.node := by unfold membersOf; rw [hk]; exact hm0
      obtain ⟨x, hx, n1, n2⟩ := name_spec L.request h1 L.convert h.has hmem kw hp
        (m' := { m with id := some (u.node.id, m.name) }) rfl rfl
      obtain ⟨fs', e1, e2⟩ := he.struct _ _ _ hk
      obtain ⟨l', rfl, hall⟩ := e2 _ rfl
      obtain ⟨f', hf', hemit⟩ := forall2_left hall hm0
      have hpy : f'.pyname = Names.pyFieldName kw (x != 0) m.name := by
        unfold Generator.emitField at hemit
        rw [bind_okP n2] at hemit
        injection hemit with hemit
        rw [← hemit]
      obtain ⟨a, a1, a2, a3⟩ := C52_accessors L.file L.supported L.deep L.imported hsub e1 hf'
      rw [he.id] at a2
      rw [hpy] at a3
      refine ⟨x, a, ⟨r, dflt, some ⟨r, tb⟩⟩, hx, ?_, a1, a2, a3⟩
      rw [fieldName_eq hd L.new, bind_okP n1]
      rfl
  | _ => rw [hk] at hs; cases hs

/-- C68: the `__tag__` enum of a class with a union: the attribute with the `field_name` of a member of
the union is its discriminant in the schema. -/
theorem C68_union_tag (hd : Reached kw fuel ⟨r, dflt, none⟩ rd) {p : List Str} {u : RTree} (h : RSub file p u)
    {gr : Bool} {count : Nat} {fs0 : Option (List Member)} (hkind : u.node.kind = .struct gr count fs0) (hc : 0 < count)
    {fs : List Member} (hs : u.node.getStructFields = .ok (some fs))
    (hn : ∀ f ∈ fs, ∀ f' ∈ fs, f.disc ≠ none → f'.disc ≠ none →
      f.disc = f'.disc ∨ rd.fieldName kw fuel f = rd.fieldName kw fuel f' → f = f')
    {f : Member} (hf : f ∈ fs) {d : Nat} (hfd : f.disc = some d) :
    ∃ name rd' a b, rd.fieldName kw fuel f = .ok (name, rd') ∧ σ.evalPath [] (under p) = .ok (.ref a) ∧
      σ.getattr (.ref a) "__tag__".toList = .ok (.ref b) ∧ σ.getattr (.ref b) name = .ok (.int d) := by
  obtain ⟨tb, rfl, h1, -⟩ := generator_facts L.request L.options L.limit L.new
  obtain ⟨hm, t, hsub, he⟩ := L.sub h
  unfold Reflection.Node.getStructFields at hs
  rw [hkind] at hs
  cases fs0 with
  | none => cases hs
  | some fs0 =>
    simp only at hs
    injection hs with hs
    injection hs with hs
    obtain ⟨fs', e1, e2⟩ := he.struct _ _ _ hkind
    obtain ⟨l', rfl, hall⟩ := e2 _ rfl
    have emitted : ∀ {m : Member} {f' : Module.Field}, m ∈ fs0 →
        (Generator.mk r tb).emitField kw { m with id := some (u.node.id, m.name) } = .ok f' → f'.disc = m.disc ∧
        rd.fieldName kw fuel { m with id := some (u.node.id, m.name) } = .ok (f'.pyname, ⟨r, dflt, some ⟨r, tb⟩⟩) := by
      intro m f' hm0 hemit
      have hmem : m ∈ membersOf u.node := by unfold membersOf; rw [hkind]; exact hm0
      obtain ⟨path, hp⟩ := AnnPath.exists_member h.has hmem
      obtain ⟨x, hx, n1, n2⟩ := name_spec L.request h1 L.convert h.has hmem kw hp
        (m' := { m with id := some (u.node.id, m.name) }) rfl rfl
      unfold Generator.emitField at hemit
      rw [bind_okP n2] at hemit
      injection hemit with hemit
      rw [← hemit, fieldName_eq hd L.new, bind_okP n1]
      exact ⟨rfl, rfl⟩
    have back : ∀ f' ∈ l', ∃ m ∈ fs0, (Generator.mk r tb).emitField kw { m with id := some (u.node.id, m.name) } = .ok f' := by
      intro f' hf'
      obtain ⟨m, hm0, hR⟩ := forall2_left hall.flip hf'
      exact ⟨m, hm0, hR⟩
    rw [← hs] at hf hn
    obtain ⟨m, hm0, rfl⟩ := List.mem_map.mp hf
    obtain ⟨f', hf', hemit⟩ := forall2_left hall hm0
    obtain ⟨q1, q2⟩ := emitted hm0 hemit
    obtain ⟨a, b, a1, a2, a3⟩ := C52_union_tag L.file L.supported L.deep L.imported hsub e1 hc (by
      intro x hx y hy x1 y1 hxy
      obtain ⟨mx, mx0, ex⟩ := back x hx
      obtain ⟨my, my0, ey⟩ := back y hy
      obtain ⟨dx, nx⟩ := emitted mx0 ex
      obtain ⟨dy, ny⟩ := emitted my0 ey
      have := hn _ (List.mem_map_of_mem mx0) _ (List.mem_map_of_mem my0) (by rw [← dx]; exact x1) (by rw [← dy]; exact y1) (by
        rcases hxy with hxy | hxy
        · exact .inl (by rw [← dx, ← dy]; exact hxy)
        · exact .inr (by rw [nx, ny, hxy]))
      rw [this, ey] at ex
      injection ex with ex
      exact ex.symm) hf' (d := d) (by rw [q1]; exact hfd)
    exact ⟨f'.pyname, _, a, b, q2, a1, a2, a3⟩

/-- C68: a group is nullable, i.e. the class has the attribute with an underscore, if and only if the schema has the
annotation `nullable`; otherwise the class has the constructor of the group. -/
theorem C68_group_attrs (hd : Reached kw fuel ⟨r, dflt, none⟩ rd) {p : List Str} {u : RTree} (h : RSub file p u)
    {fs : List Member} (hs : u.node.getStructFields = .ok (some fs)) {f : Member} (hf : f ∈ fs) (hk : f.kind = .group)
    [Decidable (∃ x ∈ f.annotations.getD [], x.id = 0x9cc3dea2b1b5e7dd)] :
    ∃ name rd' a, rd.fieldName kw fuel f = .ok (name, rd') ∧ σ.evalPath [] (under p) = .ok (.ref a) ∧
      if ∃ x ∈ f.annotations.getD [], x.id = 0x9cc3dea2b1b5e7dd then σ.getattr (.ref a) (['_'] ++ name) = .ok .value
      else σ.getattr (.ref a) (capitalize name) = .ok .value := by
  obtain ⟨tb, rfl, h1, -⟩ := generator_facts L.request L.options L.limit L.new
  obtain ⟨hm, t, hsub, he⟩ := L.sub h
  unfold Reflection.Node.getStructFields at hs
  cases hkind : u.node.kind with
  | struct gr c fs0 =>
    rw [hkind] at hs
    cases fs0 with
    | none => cases hs
    | some fs0 =>
      simp only at hs
      injection hs with hs
      injection hs with hs
      rw [← hs] at hf
      obtain ⟨m, hm0, rfl⟩ := List.mem_map.mp hf
      have hmem : m ∈ membersOf u.node := by unfold membersOf; rw [hkind]; exact hm0
      obtain ⟨path, hp⟩ := AnnPath.exists_member h.has hmem
      obtain ⟨x, hx, n1, n2⟩ := name_spec L.request h1 L.convert h.has hmem kw hp
        (m' := { m with id := some (u.node.id, m.name) }) rfl rfl
      obtain ⟨fs', e1, e2⟩ := he.struct _ _ _ hkind
      obtain ⟨l', rfl, hall⟩ := e2 _ rfl
      obtain ⟨f', hf', hemit⟩ := forall2_left hall hm0
      refine ⟨Names.pyFieldName kw (x != 0) m.name, ⟨r, dflt, some ⟨r, tb⟩⟩, ?_⟩
      have hname : rd.fieldName kw fuel { m with id := some (u.node.id, m.name) } =
          .ok (Names.pyFieldName kw (x != 0) m.name, ⟨r, dflt, some ⟨r, tb⟩⟩) := by
        rw [fieldName_eq hd L.new, bind_okP n1]
        rfl
      unfold Generator.emitField at hemit
      rw [bind_okP n2] at hemit
      injection hemit with hemit
      have hk : m.kind = .group := hk
      rw [hk] at hemit
      simp only at hemit
      have hnull : (Reflection.hasAnn m.annotations Reflection.nullableId).isSome = true ↔
          ∃ x ∈ m.annotations.getD [], x.id = 0x9cc3dea2b1b5e7dd := by
        rw [hasAnn_eq, List.find?_isSome]
        simp only [beq_iff_eq]
        rfl
      have attrs := fun s (hs : s ∈ fieldAttrs f') => C52_field_attrs L.file L.supported L.deep L.imported hsub e1 hf' hs
      rw [← hemit] at attrs
      unfold fieldAttrs at attrs
      by_cases hn : ∃ x ∈ m.annotations.getD [], x.id = 0x9cc3dea2b1b5e7dd
      · rw [hnull.mpr hn] at attrs
        obtain ⟨a, a1, -, a2⟩ := attrs _ (List.mem_cons_of_mem _ List.mem_cons_self)
        refine ⟨a, hname, a1, ?_⟩
        rw [if_pos hn]
        exact a2
      · have : (Reflection.hasAnn m.annotations Reflection.nullableId).isSome = false := by
          rw [← Bool.not_eq_true]
          exact fun h => hn (hnull.mp h)
        rw [this] at attrs
        obtain ⟨a, a1, -, a2⟩ := attrs _ (List.mem_cons_of_mem _ List.mem_cons_self)
        refine ⟨a, hname, a1, ?_⟩
        rw [if_neg hn]
        exact a2
  | _ => rw [hkind] at hs; cases hs

/-- C68: `field_name(e)` for enumerant number `i` of an enum of the file: the class has an
attribute with this name, and its value is `i`, if the Python names of the enumerants are different. -/
theorem C68_enumerant_name (hd : Reached kw fuel ⟨r, dflt, none⟩ rd) {p : List Str} {u : RTree} (h : RSub file p u)
    {es : List Member} (hs : u.node.getEnumEnumerants = .ok (some es))
    (hn : ∀ (i j : Nat) (e e' : Member) s rd1 rd2, es[i]? = some e → es[j]? = some e' → rd.fieldName kw fuel e = .ok (s, rd1) →
      rd.fieldName kw fuel e' = .ok (s, rd2) → i = j)
    {i : Nat} {e : Member} (hi : es[i]? = some e)
    {path : List (Option (List Reflection.Annotation))} (hp : AnnPath file (.inr (u.node.id, e.name)) path) :
    ∃ x a rd', OptionIs v path .convertCase x ∧ rd.fieldName kw fuel e = .ok (Names.pyFieldName kw (x != 0) e.name, rd') ∧
      σ.evalPath [] (dotted p) = .ok (.ref a) ∧ σ.getattr (.ref a) (Names.pyFieldName kw (x != 0) e.name) = .ok (.int i) := by
  obtain ⟨tb, rfl, h1, -⟩ := generator_facts L.request L.options L.limit L.new
  obtain ⟨hm, t, hsub, he⟩ := L.sub h
  unfold Reflection.Node.getEnumEnumerants at hs
  cases hk : u.node.kind with
  | enum es0 =>
    rw [hk] at hs
    cases es0 with
    | none => cases hs
    | some es0 =>
      simp only at hs
      injection hs with hs
      injection hs with hs
      obtain ⟨ms, e1, e2⟩ := he.enum _ hk
      have hall := e2 _ rfl
      have get : ∀ {i : Nat} {e : Member}, es[i]? = some e → ∃ m, es0[i]? = some m ∧ e = { m with id := some (u.node.id, m.name) } := by
        intro i e hi
        rw [← hs, List.getElem?_map] at hi
        cases hm0 : es0[i]? with
        | none => rw [hm0] at hi; cases hi
        | some m =>
          rw [hm0] at hi
          injection hi with hi
          exact ⟨m, rfl, hi.symm⟩
      have mem : ∀ {i : Nat} {m : Member}, es0[i]? = some m → m ∈ membersOf u.node := by
        intro i m hi
        unfold membersOf
        rw [hk]
        exact List.mem_of_getElem? hi
      have hnodup : ms.Nodup := by
        rw [List.nodup_iff_injective_getElem]
        rintro ⟨i, hi⟩ ⟨j, hj⟩ heq
        have hlen := hall.length_eq
        simp only at heq
        have hi' : i < es0.length := by omega
        have hj' : j < es0.length := by omega
        have gi := List.getElem?_eq_getElem hi'
        have gj := List.getElem?_eq_getElem hj'
        obtain ⟨bi, b1, b2⟩ := forall2_get hall gi
        obtain ⟨bj, c1, c2⟩ := forall2_get hall gj
        rw [List.getElem?_eq_getElem hi] at b1
        rw [List.getElem?_eq_getElem hj] at c1
        injection b1 with b1
        injection c1 with c1
        obtain ⟨pi, hpi⟩ := AnnPath.exists_member h.has (mem gi)
        obtain ⟨pj, hpj⟩ := AnnPath.exists_member h.has (mem gj)
        obtain ⟨x, -, n1, n2⟩ := name_spec L.request h1 L.convert h.has (mem gi) kw hpi
          (m' := { es0[i] with id := some (u.node.id, es0[i].name) }) rfl rfl
        obtain ⟨y, -, o1, o2⟩ := name_spec L.request h1 L.convert h.has (mem gj) kw hpj
          (m' := { es0[j] with id := some (u.node.id, es0[j].name) }) rfl rfl
        rw [b2] at n2
        rw [c2] at o2
        injection n2 with n2
        injection o2 with o2
        have same : bi = bj := by rw [← b1, ← c1]; exact heq
        rw [← n2] at n1
        rw [← o2, ← same] at o1
        have : i = j := by
          refine hn i j { es0[i] with id := some (u.node.id, es0[i].name) } { es0[j] with id := some (u.node.id, es0[j].name) }
            bi ⟨r, dflt, some ⟨r, tb⟩⟩ ⟨r, dflt, some ⟨r, tb⟩⟩ ?_ ?_ ?_ ?_
          · rw [← hs, List.getElem?_map, gi]; rfl
          · rw [← hs, List.getElem?_map, gj]; rfl
          · rw [fieldName_eq hd L.new, bind_okP n1]; rfl
          · rw [fieldName_eq hd L.new, bind_okP o1]; rfl
        exact Fin.ext this
      obtain ⟨m, hm0, rfl⟩ := get hi
      obtain ⟨x, hx, n1, n2⟩ := name_spec L.request h1 L.convert h.has (mem hm0) kw hp
        (m' := { m with id := some (u.node.id, m.name) }) rfl rfl
      obtain ⟨b, hb, hemit⟩ := forall2_get hall hm0
      rw [hemit] at n2
      injection n2 with n2
      subst n2
      obtain ⟨a, a1, a2⟩ := C52_enum_members L.file L.supported L.deep L.imported hsub e1 hnodup hb
      refine ⟨x, a, ⟨r, dflt, some ⟨r, tb⟩⟩, hx, ?_, a1, a2⟩
      rw [fieldName_eq hd L.new, bind_okP n1]
      rfl
  | _ => rw [hk] at hs; cases hs

end

/-- C68: a field that does not come from `get_struct_fields` (but, say, from `node.struct.fields`) has
no id: ValueError. -/
theorem C68_field_without_id (hd : Reached kw fuel ⟨r, dflt, none⟩ rd) (hg : Generator.new r dflt fuel = .ok g) {f : Member}
    (h : f.id = none) : rd.fieldName kw fuel f = .error .valueError := by
  rw [fieldName_eq hd hg]
  unfold Generator.pyFieldName Reflection.Member.getId
  cases hi : Reflection.asIdentifier f.name with
  | error e =>
    unfold Reflection.asIdentifier at hi
    split at hi
    · cases hi
    · injection hi with hi
      rw [← hi]
      rfl
  | ok s =>
    rw [h]
    rfl

/-- C68, negative: `field_name` of a field of an imported file raises KeyError, although `get_node` and
`allnodes` give the nodes of imported files: only the nodes of the file itself have options. -/
theorem C68_field_of_import (hd : Reached kw fuel ⟨r, dflt, none⟩ rd) (hg : Generator.new r dflt fuel = .ok g)
    (ok : RequestOK r file) (hv : OptReads dflt v) (hf : file.height ≤ fuel) {n : Reflection.Node} (hi : n.id ∉ file.ids)
    {fs : List Member} (hs : n.getStructFields = .ok (some fs)) {f : Member} (hm : f ∈ fs) (ha : ∀ c ∈ f.name, c.toNat < 128) :
    rd.fieldName kw fuel f = .error .keyError := by
  obtain ⟨t, rfl, -, h2⟩ := generator_facts ok hv hf hg
  rw [fieldName_eq hd hg]
  have hid : f.id = some (n.id, f.name) := by
    unfold Reflection.Node.getStructFields at hs
    cases hk : n.kind with
    | struct gr c fs0 =>
      rw [hk] at hs
      cases fs0 with
      | none => cases hs
      | some fs0 =>
        simp only at hs
        injection hs with hs
        injection hs with hs
        rw [← hs] at hm
        obtain ⟨m, -, rfl⟩ := List.mem_map.mp hm
        rfl
    | _ => rw [hk] at hs; cases hs
  have : (Generator.mk r t).pyFieldName kw f = .error .keyError := by
    unfold Generator.pyFieldName Reflection.Member.getId
    rw [bind_okP (asIdentifier_ok ha), hid]
    simp only
    rw [bind_okP (rfl : (Except.ok (n.id, f.name) : Py _) = _), h2 (.inr (n.id, f.name)) hi]
    rfl
  rw [this]
  rfl

/-! ## Annotations -/

/-- The entity has this annotation: the first one with the id. -/
def FirstAnn (anns : Option (List Reflection.Annotation)) (i : Nat) (a : Reflection.Annotation) : Prop :=
  ∃ l1 l2, anns.getD [] = l1 ++ a :: l2 ∧ a.id = i ∧ ∀ b ∈ l1, b.id ≠ i

theorem hasAnn_some {anns : Option (List Reflection.Annotation)} {i : Nat} {a : Reflection.Annotation} (h : FirstAnn anns i a) :
    Reflection.hasAnn anns i = some a := by
  obtain ⟨l1, l2, e, ha, hb⟩ := h
  rw [hasAnn_eq, e, List.find?_append, List.find?_eq_none.mpr, Option.none_or, List.find?_cons_of_pos (by simp [ha])]
  intro b hb'
  simpa using hb b hb'

theorem hasAnn_none {anns : Option (List Reflection.Annotation)} {i : Nat} (h : ∀ a ∈ anns.getD [], a.id ≠ i) :
    Reflection.hasAnn anns i = none := by
  rw [hasAnn_eq, List.find?_eq_none.mpr]
  intro b hb
  simpa using h b hb

/-- What an argument of `has_annotation` and `get_annotation` stands for: nodes, fields and enumerants
for themselves, other objects for the node that `get_node` gives. -/
inductive Annotates (rd : ReflectionData) (fuel : Nat) : Reflection.Arg → Option (List Reflection.Annotation) → Prop
  | node (n : Reflection.Node) : Annotates rd fuel (.node n) n.annotations
  | field (f : Member) : Annotates rd fuel (.field f) f.annotations
  | enumerant (f : Member) : Annotates rd fuel (.enumerant f) f.annotations
  | int {i : Nat} {n : Reflection.Node} {rd' : ReflectionData} (h : rd.getNode fuel (.int i) = .ok (n, rd')) :
      Annotates rd fuel (.int i) n.annotations
  | obj {σ : State} {o : Obj} {n : Reflection.Node} {rd' : ReflectionData} (h : rd.getNode fuel (.obj σ o) = .ok (n, rd')) :
      Annotates rd fuel (.obj σ o) n.annotations

theorem lookupAnn_eq (hd : Reached kw fuel ⟨r, dflt, none⟩ rd) (hg : Generator.new r dflt fuel = .ok g) {a : Reflection.Arg}
    {anns : Option (List Reflection.Annotation)} (ha : Annotates rd fuel a anns) (i : Nat) :
    ∃ rd', rd.lookupAnn fuel a i = .ok (Reflection.hasAnn anns i, rd') := by
  have hm := data_getM (reached_data hd) hg
  unfold ReflectionData.lookupAnn
  cases ha with
  | node n => exact ⟨_, by simp only; rw [bind_okP hm]; rfl⟩
  | field f => exact ⟨_, by simp only; rw [bind_okP hm]; rfl⟩
  | enumerant f => exact ⟨_, by simp only; rw [bind_okP hm]; rfl⟩
  | int h =>
    have h1 := (getNode_same (reached_data hd) _).2 _ _ h
    have h2 := data_getM h1.1 hg
    exact ⟨_, by simp only; rw [bind_okP h]; simp only; rw [bind_okP h2]; rfl⟩
  | obj h =>
    have h1 := (getNode_same (reached_data hd) _).2 _ _ h
    have h2 := data_getM h1.1 hg
    exact ⟨_, by simp only; rw [bind_okP h]; simp only; rw [bind_okP h2]; rfl⟩

/-- C68: `has_annotation(entity, anncls)` is True if and only if the schema has the annotation. -/
theorem C68_has_annotation (hd : Reached kw fuel ⟨r, dflt, none⟩ rd) (hg : Generator.new r dflt fuel = .ok g)
    {a : Reflection.Arg} {anns : Option (List Reflection.Annotation)} (ha : Annotates rd fuel a anns) (i : Nat) :
    ∃ b rd', rd.hasAnnotation fuel a i = .ok (b, rd') ∧ (b = true ↔ ∃ x ∈ anns.getD [], x.id = i) := by
  obtain ⟨rd', h⟩ := lookupAnn_eq hd hg ha i
  refine ⟨(Reflection.hasAnn anns i).isSome, rd', ?_, ?_⟩
  · unfold ReflectionData.hasAnnotation
    rw [bind_okP h]
    rfl
  · rw [hasAnn_eq, List.find?_isSome]
    simp only [beq_iff_eq]

theorem value_names (i : Nat) (hi : i < 19) :
    ∃ s, Reflection.valueMembers[i]? = some s ∧ Reflection.valueMembers.idxOf? s = some i := by
  have key : ∀ i < 19, (Reflection.valueMembers[i]?.bind fun s => Reflection.valueMembers.idxOf? s) = some i := by
    decide +kernel
  have := key i hi
  cases h : Reflection.valueMembers[i]? with
  | none => rw [h] at this; cases this
  | some s => rw [h] at this; exact ⟨s, rfl, this⟩

/-- C68: `get_annotation(entity, anncls)` is the value of the annotation (of the first one with the id),
whatever member of the union `Value` it is; without the annotation it is a KeyError. -/
theorem C68_get_annotation (hd : Reached kw fuel ⟨r, dflt, none⟩ rd) (hg : Generator.new r dflt fuel = .ok g)
    {a : Reflection.Arg} {anns : Option (List Reflection.Annotation)} (ha : Annotates rd fuel a anns) (i : Nat) :
    (∀ x, FirstAnn anns i x → x.value.tag < 19 → ∃ rd', rd.getAnnotation fuel a i = .ok (x.value.payload, rd')) ∧
    ((∀ x ∈ anns.getD [], x.id ≠ i) → rd.getAnnotation fuel a i = .error .keyError) := by
  obtain ⟨rd', h⟩ := lookupAnn_eq hd hg ha i
  constructor
  · intro x hx ht
    rw [hasAnn_some hx] at h
    refine ⟨rd', ?_⟩
    unfold ReflectionData.getAnnotation
    rw [bind_okP h]
    have : x.value.asPyobj = .ok x.value.payload := by
      unfold Reflection.Value.asPyobj
      obtain ⟨s, h1, h2⟩ := value_names x.value.tag ht
      obtain ⟨s', -, e, hs, -⟩ := C35_name Reflection.valueMembers (by decide +kernel) (x.value.tag : Int)
      rw [bind_okP e, hs _ _ h1 (.inl rfl)]
      unfold Reflection.Value.getattr
      rw [h2]
      simp
    simp only
    rw [bind_okP this]
    rfl
  · intro hx
    rw [hasAnn_none hx] at h
    unfold ReflectionData.getAnnotation
    rw [bind_okP h]

theorem unknown_not_member (n : Int) : Reflection.valueMembers.idxOf? ("unknown<" ++ toString n ++ ">") = none := by
  rw [List.idxOf?_eq_none_iff]
  intro h
  have key : ∀ s ∈ Reflection.valueMembers, '<' ∉ s.toList := by decide +kernel
  refine key _ h ?_
  rw [String.toList_append, String.toList_append]
  exact List.mem_append_left _ (List.mem_append_left _ (by decide))

/-- C68: a value with a tag from a newer schema.capnp: AttributeError. -/
theorem C68_unknown_value (hd : Reached kw fuel ⟨r, dflt, none⟩ rd) (hg : Generator.new r dflt fuel = .ok g)
    {a : Reflection.Arg} {anns : Option (List Reflection.Annotation)} (ha : Annotates rd fuel a anns) {i : Nat}
    {x : Reflection.Annotation} (hx : FirstAnn anns i x) (ht : 19 ≤ x.value.tag) :
    rd.getAnnotation fuel a i = .error .attributeError := by
  obtain ⟨rd', h⟩ := lookupAnn_eq hd hg ha i
  rw [hasAnn_some hx] at h
  unfold ReflectionData.getAnnotation
  rw [bind_okP h]
  have : x.value.asPyobj = .error .attributeError := by
    unfold Reflection.Value.asPyobj
    obtain ⟨s', -, e, -, hs⟩ := C35_name Reflection.valueMembers (by decide +kernel) (x.value.tag : Int)
    rw [bind_okP e, hs (.inr (by show ((19 : Nat) : Int) ≤ _; omega))]
    unfold Reflection.Value.getattr
    rw [unknown_not_member]
  simp only
  rw [this]
  rfl

end Capnpy.Props
