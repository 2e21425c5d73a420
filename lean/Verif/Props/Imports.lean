import Verif.Proof.Imports
import Verif.Props.ModuleExamples

/-!
# C67: schema files that import each other

The user loads schema files in any order; a file may import others with
`using P = import "/p.capnp"`, directly and through other files.
-/

namespace Capnpy.Props

open Spec Capnpy.Module

/-! ## Attributes survive -/

theorem getattr_mono {σ τ : State} (hold : ∀ (a : Nat) (d : Dict), σ.heap[a]? = some d → τ.heap[a]? = some d)
    {o o' : Obj} {s : Str} (ho : σ.getattr o s = .ok o') : τ.getattr o s = .ok o' := by
  unfold State.getattr at ho ⊢
  cases o <;> try cases ho
  rename_i a
  simp only at ho ⊢
  cases hd : σ.heap[a]? with
  | none => rw [hd] at ho; cases ho
  | some d =>
    rw [hd] at ho
    rw [hold a d hd]
    exact ho

theorem attrs_mono {σ τ : State} (hold : ∀ (a : Nat) (d : Dict), σ.heap[a]? = some d → τ.heap[a]? = some d) :
    ∀ {r : List Str} {o o' : Obj}, attrs σ o r = .ok o' → attrs τ o r = .ok o' := by
  intro r
  induction r with
  | nil => intro o o' h; exact h
  | cons s r ih =>
    intro o o' h
    unfold attrs at h ⊢
    rw [List.foldlM_cons] at h ⊢
    cases ho : σ.getattr o s with
    | error e => rw [ho] at h; cases h
    | ok o1 =>
      rw [ho] at h
      rw [getattr_mono hold ho]
      exact ih h

/-! ## Loading -/

variable {P : Project} {files : List Nat} {tree : Nat → Tree} {rank : Nat → Nat} {depth fuel : Nat}

/-- No file of the project is nested too deeply for the generator, and no chain of imports is too
long for the loader. -/
structure Limits (files : List Nat) (tree : Nat → Tree) (rank : Nat → Nat) (depth fuel : Nat) : Prop where
  deep : ∀ f ∈ files, Deep (tree f) depth
  chain : ∀ f ∈ files, rank f < fuel

theorem loadAll_spec (ok : ProjectOK P files tree rank) (lim : Limits files tree rank depth fuel) :
    ∀ {fs : List Nat}, (∀ f ∈ fs, f ∈ files) → ∀ {w : World}, GoodWorld P files depth w →
    ∃ w', P.loadAll depth fuel fs w = .ok w' ∧ GoodWorld P files depth w' ∧ WorldExt w w' ∧
      ∀ f ∈ fs, ∃ a, w'.modules.lookup f = some a := by
  intro fs
  induction fs with
  | nil => intro _ w hw; exact ⟨w, rfl, hw, WorldExt.refl w, by simp⟩
  | cons f fs ih =>
    intro hfs w hw
    have hf := hfs f List.mem_cons_self
    obtain ⟨a, w1, l1, l2, l3, l4, -⟩ := load_spec ok lim.deep hf (lim.chain f hf) w hw
    obtain ⟨w2, m1, m2, m3, m4⟩ := ih (fun g hg => hfs g (List.mem_cons_of_mem _ hg)) l2
    refine ⟨w2, ?_, m2, l3.trans m3, ?_⟩
    · unfold Project.loadAll
      rw [bind_okP l1]
      exact m1
    · intro g hg
      rcases List.mem_cons.mp hg with rfl | hg
      · exact ⟨a, m3.1 _ _ l4⟩
      · exact m4 g hg

/-- The world before the first call. -/
def World.empty : World := ⟨[], []⟩

theorem goodEmpty : GoodWorld P files depth World.empty := by
  intro f a h
  cases h

theorem goodAfter (ok : ProjectOK P files tree rank) (lim : Limits files tree rank depth fuel) {fs : List Nat}
    (hfs : ∀ f ∈ fs, f ∈ files) {w : World} (h : P.loadAll depth fuel fs World.empty = .ok w) :
    GoodWorld P files depth w := by
  obtain ⟨w', h1, h2, -⟩ := loadAll_spec ok lim hfs goodEmpty
  rw [h] at h1
  injection h1 with h1
  rw [h1]
  exact h2

/-- C67: the files of a project can be loaded in any order, any number of times. -/
theorem C67_load (ok : ProjectOK P files tree rank) (lim : Limits files tree rank depth fuel) {fs : List Nat}
    (hfs : ∀ f ∈ fs, f ∈ files) :
    ∃ w, P.loadAll depth fuel fs World.empty = .ok w ∧ ∀ f ∈ fs, ∃ a, w.modules.lookup f = some a := by
  obtain ⟨w, h1, -, -, h2⟩ := loadAll_spec ok lim hfs goodEmpty
  exact ⟨w, h1, h2⟩

/-- C67: loading more files does not change the modules, classes and other objects that are
there; a file that was loaded, directly or as an import, is not loaded again. -/
theorem C67_stable (ok : ProjectOK P files tree rank) (lim : Limits files tree rank depth fuel) {fs : List Nat}
    (hfs : ∀ f ∈ fs, f ∈ files) {w : World} (h : P.loadAll depth fuel fs World.empty = .ok w) {f : Nat} (hf : f ∈ files) :
    ∃ a w', P.load depth fuel f w = .ok (a, w') ∧ w'.modules.lookup f = some a ∧
      (∀ g b, w.modules.lookup g = some b → w'.modules.lookup g = some b) ∧
      (∀ (b : Nat) (d : Dict), w.heap[b]? = some d → w'.heap[b]? = some d) ∧
      ∀ b, w.modules.lookup f = some b → a = b ∧ w' = w := by
  obtain ⟨a, w', l1, -, l3, l4, -⟩ := load_spec ok lim.deep hf (lim.chain f hf) w (goodAfter ok lim hfs h)
  refine ⟨a, w', l1, l4, l3.1, l3.2, ?_⟩
  intro b hb
  have hpos := lim.chain f hf
  obtain ⟨k, rfl⟩ : ∃ k, fuel = k + 1 := ⟨fuel - 1, by omega⟩
  unfold Project.load at l1
  rw [hb] at l1
  injection l1 with l1
  injection l1 with l1 l2
  exact ⟨l1.symm, l2.symm⟩

/-- C67: in each module, every struct and enum of the file is found under its dotted name, and it
has the id of the schema. -/
theorem C67_types (ok : ProjectOK P files tree rank) (lim : Limits files tree rank depth fuel) {fs : List Nat}
    (hfs : ∀ f ∈ fs, f ∈ files) {w : World} (h : P.loadAll depth fuel fs World.empty = .ok w) {f a : Nat}
    (hf : w.modules.lookup f = some a) {p : List Str} {t : Tree} (hs : Sub (tree f) p t) (ht : Node.isType t.node) :
    ∃ c, attrs (viewOf w a) (.ref a) p = .ok (.ref c) ∧ HasId (viewOf w a) (.ref c) t.node.id := by
  obtain ⟨hfm, r, is, σ0, σ, h1, h2, h3, h4, h5, h6⟩ := goodAfter ok lim hfs h f a hf
  obtain ⟨r', hfp⟩ := ok.each f hfm
  have : r' = r := by
    have := hfp.request
    rw [h1] at this
    injection this with this
    exact this.symm
  subst this
  obtain ⟨A, B, im⟩ := the_import (fileOK_names hfp.ok) (supported_names hfp.supported) (lim.deep f hfm) h3
  obtain ⟨x, q, rfl, e1, e2⟩ := attrs_of (fileOK_names hfp.ok) im hs ht
  refine ⟨A (x :: q), ?_, getattr_mono (τ := viewOf w a) h5 (id_of im hs (Classy.of_type ht))⟩
  unfold attrs
  rw [List.foldlM_cons]
  have : (viewOf w a).getattr (.ref a) x = .ok (.ref (A [x])) := by
    unfold State.getattr viewOf
    simp only [h4, Option.bind_some, e1]
  rw [bind_okP this]
  exact attrs_mono (τ := viewOf w a) h5 e2

/-- C67: the module of a file has, for each import that is used, the module of the imported file
under the import name.  It is the one module of that file: the object that loading the file
directly gives, and the same object in all modules that import it. -/
theorem C67_import_bound (ok : ProjectOK P files tree rank) (lim : Limits files tree rank depth fuel) {fs : List Nat}
    (hfs : ∀ f ∈ fs, f ∈ files) {w : World} (h : P.loadAll depth fuel fs World.empty = .ok w) {f a : Nat}
    (hf : w.modules.lookup f = some a) {r : Request} (hr : P.request f = .ok r) {is : List Import}
    (his : r.imports = some is) {i : Import} (hi : i ∈ is) (hreal : RealImport r i) {f' : Nat}
    (hres : P.resolve i.name = .ok f') :
    ∃ b, w.modules.lookup f' = some b ∧
      (viewOf w a).evalPath [] (importName (r.display i.id)) = .ok (.ref b) ∧
      ∃ fuel', P.load depth fuel' f' w = .ok (b, w) := by
  obtain ⟨hfm, r', is', σ0, σ, h1, h2, h3, h4, h5, h6⟩ := goodAfter ok lim hfs h f a hf
  rw [hr] at h1; injection h1 with h1; subst h1
  rw [his] at h2; injection h2 with h2; subst h2
  obtain ⟨g, b, e1, e2, e3⟩ := h6 i hi hreal
  rw [hres] at e1; injection e1 with e1; subst e1
  obtain ⟨r', hfp⟩ := ok.each f hfm
  have : r' = r := by
    have := hfp.request
    rw [hr] at this
    injection this with this
    exact this.symm
  subst this
  obtain ⟨is', his', -, himp⟩ := hfp.imports
  rw [his] at his'; injection his' with his'; subst his'
  refine ⟨b, e2, ?_, 1, ?_⟩
  · refine evalPath_nodot ?_ rfl ?_
    · intro hd
      have := (himp i hi hreal).1 _ hd
      exact absurd this (by decide)
    · unfold viewOf
      simp only [h4, Option.getD_some]
      exact e3
  · unfold Project.load
    rw [e2]

/-- C67: the name that the generated code uses for a struct or an enum `n` of an imported file,
whose path there is `p`, gives in the importing module the class of that file's module: the
object that the user gets as `module.p₁.p₂…`, with the right id. -/
theorem C67_imported_type (ok : ProjectOK P files tree rank) (lim : Limits files tree rank depth fuel) {fs : List Nat}
    (hfs : ∀ f ∈ fs, f ∈ files) {w : World} (h : P.loadAll depth fuel fs World.empty = .ok w) {f a : Nat}
    (hf : w.modules.lookup f = some a) {r : Request} (hr : P.request f = .ok r) {is : List Import}
    (his : r.imports = some is) {i : Import} (hi : i ∈ is) (hreal : RealImport r i) {f' : Nat}
    (hres : P.resolve i.name = .ok f') {names : ImportNames} {stmts : List ImportStmt}
    (hdecl : r.declareImports false = .ok (names, stmts))
    {p : List Str} {t : Tree} (hs : Sub (tree f') p t) (ht : Node.isType t.node)
    (hn : Chain (r.gen names) (tree f').node p t.node) {k : Nat} (hk : p.length < k) :
    ∃ s b c, (r.gen names).compileName k t.node = .ok s ∧ w.modules.lookup f' = some b ∧
      (viewOf w a).evalPath [] s = .ok (.ref c) ∧ attrs (viewOf w b) (.ref b) p = .ok (.ref c) ∧
      HasId (viewOf w a) (.ref c) t.node.id := by
  obtain ⟨hfm, r', is', σ0, σ, h1, h2, h3, h4, h5, h6⟩ := goodAfter ok lim hfs h f a hf
  rw [hr] at h1; injection h1 with h1; subst h1
  rw [his] at h2; injection h2 with h2; subst h2
  obtain ⟨g, b, e1, e2, e3⟩ := h6 i hi hreal
  rw [hres] at e1; injection e1 with e1; subst e1
  obtain ⟨r', hfp⟩ := ok.each f hfm
  have : r' = r := by
    have := hfp.request
    rw [hr] at this
    injection this with this
    exact this.symm
  subst this
  obtain ⟨is', his', hnd, himp⟩ := hfp.imports
  rw [his] at his'; injection his' with his'; subst his'
  obtain ⟨hword, hcur, g', hres', hgm, -, hid, hgn⟩ := himp i hi hreal
  rw [hres] at hres'; injection hres' with hres'; subst hres'
  have hnames : names = impNames r' is := by
    unfold Request.declareImports at hdecl
    rw [his] at hdecl
    simp only at hdecl
    rw [declare_ok (names := []) (by rw [List.map_nil, List.nil_append]; exact hnd)] at hdecl
    injection hdecl with hdecl
    injection hdecl with hdecl _
    exact hdecl.symm
  subst hnames
  obtain ⟨rg, hgp⟩ := ok.each f' hgm
  obtain ⟨-, rg', isg, σ0', σ', g1, g2, g3, g4, g5, -⟩ := goodAfter ok lim hfs h f' b e2
  rw [hgp.request] at g1; injection g1 with g1; subst g1
  have himpn : (r'.gen (impNames r' is)).importname (tree f').node.id = some (importName (r'.display i.id)) := by
    rw [hid]
    exact names_lookup (mem_used.mpr ⟨hi, hreal.1⟩)
  have hdot : '.' ∉ importName (r'.display i.id) := by
    intro hd
    exact absurd (hword _ hd) (by decide)
  have hlook : (viewOf w a).globals.lookup (importName (r'.display i.id)) = some (.ref b) := by
    unfold viewOf
    simp only [h4, Option.getD_some]
    exact e3
  have hfile : (tree f').node.isFile = true := by
    unfold Node.isFile
    rw [hgp.ok.isFile]
  have hc : (tree f').node.id ≠ (r'.gen (impNames r' is)).current := by
    rw [hid]
    exact hcur
  obtain ⟨s, c, c1, c2, c3⟩ := C52_imported_type (τ := viewOf w a) (fileOK_names hgp.ok) (supported_names hgp.supported)
    (lim.deep f' hgm) g3 hs ht hfile hgp.ok.root hc himpn hdot hn hk hlook g4 g5
  have hse := C51_imported hfile hgp.ok.root hc himpn hn hk
  rw [c1] at hse
  injection hse with hse
  refine ⟨s, b, c, c1, e2, c2, ?_, c3⟩
  rw [hse] at c2
  unfold State.evalPath dotted at c2
  rw [split_join (by simp) (by
    intro x hx
    rcases List.mem_cons.mp hx with rfl | hx
    · exact hdot
    · exact hs.no_dot hgp.ok x hx)] at c2
  simp only at c2
  have hl2 : (viewOf w a).lookup [] (importName (r'.display i.id)) = .ok (.ref b) := by
    unfold State.lookup
    simp only [List.lookup_nil, hlook]
  rw [bind_okP hl2] at c2
  exact c2

/-- C67: two modules that import the same file use the same classes. -/
theorem C67_shared (ok : ProjectOK P files tree rank) (lim : Limits files tree rank depth fuel) {fs : List Nat}
    (hfs : ∀ f ∈ fs, f ∈ files) {w : World} (h : P.loadAll depth fuel fs World.empty = .ok w) {f₁ f₂ a₁ a₂ : Nat}
    (hf₁ : w.modules.lookup f₁ = some a₁) (hf₂ : w.modules.lookup f₂ = some a₂) {r₁ r₂ : Request}
    (hr₁ : P.request f₁ = .ok r₁) (hr₂ : P.request f₂ = .ok r₂) {is₁ is₂ : List Import}
    (his₁ : r₁.imports = some is₁) (his₂ : r₂.imports = some is₂) {i₁ i₂ : Import} (hi₁ : i₁ ∈ is₁) (hi₂ : i₂ ∈ is₂)
    (hreal₁ : RealImport r₁ i₁) (hreal₂ : RealImport r₂ i₂) {f' : Nat} (hres₁ : P.resolve i₁.name = .ok f')
    (hres₂ : P.resolve i₂.name = .ok f') {names₁ names₂ : ImportNames} {stmts₁ stmts₂ : List ImportStmt}
    (hdecl₁ : r₁.declareImports false = .ok (names₁, stmts₁)) (hdecl₂ : r₂.declareImports false = .ok (names₂, stmts₂))
    {p : List Str} {t : Tree} (hs : Sub (tree f') p t) (ht : Node.isType t.node)
    (hn₁ : Chain (r₁.gen names₁) (tree f').node p t.node) (hn₂ : Chain (r₂.gen names₂) (tree f').node p t.node) {k : Nat}
    (hk : p.length < k) :
    ∃ s₁ s₂ c, (r₁.gen names₁).compileName k t.node = .ok s₁ ∧ (r₂.gen names₂).compileName k t.node = .ok s₂ ∧
      (viewOf w a₁).evalPath [] s₁ = .ok (.ref c) ∧ (viewOf w a₂).evalPath [] s₂ = .ok (.ref c) := by
  obtain ⟨s₁, b₁, c₁, x1, x2, x3, x4, -⟩ := C67_imported_type ok lim hfs h hf₁ hr₁ his₁ hi₁ hreal₁ hres₁ hdecl₁ hs ht hn₁ hk
  obtain ⟨s₂, b₂, c₂, y1, y2, y3, y4, -⟩ := C67_imported_type ok lim hfs h hf₂ hr₂ his₂ hi₂ hreal₂ hres₂ hdecl₂ hs ht hn₂ hk
  rw [x2] at y2
  injection y2 with y2
  subst y2
  rw [x4] at y4
  injection y4 with y4
  injection y4 with y4
  subst y4
  exact ⟨s₁, s₂, c₁, x1, y1, x3, y3⟩

/-! ## Declaring the imports -/

theorem split_last {c : Char} : ∀ {d b : Str}, c ∉ b → (split c (d ++ c :: b)).getLast? = some b := by
  intro d
  induction d with
  | nil =>
    intro b hb
    rw [List.nil_append]
    have := split_cons (c := c) (s := []) (r := b) (by simp)
    rw [List.nil_append] at this
    rw [this, split_single hb]
    rfl
  | cons x d ih =>
    intro b hb
    have h := ih hb
    rw [List.cons_append]
    unfold split
    by_cases hx : x = c
    · rw [if_pos hx]
      cases hsp : split c (d ++ c :: b) with
      | nil => rw [hsp] at h; cases h
      | cons y ys => rw [hsp] at h; rw [List.getLast?_cons_cons]; exact h
    · rw [if_neg hx]
      cases hsp : split c (d ++ c :: b) with
      | nil => rw [hsp] at h; cases h
      | cons y ys =>
        rw [hsp] at h
        cases ys with
        | nil =>
          exfalso
          have hl : 2 ≤ (split c (d ++ c :: b)).length := by
            clear hsp h ih
            induction d with
            | nil =>
              have := split_cons (c := c) (s := []) (r := b) (by simp)
              rw [List.nil_append] at this ⊢
              rw [this, split_single hb]
              simp
            | cons z d ihd =>
              rw [List.cons_append]
              unfold split
              split
              · simp; omega
              · cases hsp : split c (d ++ c :: b) with
                | nil => rw [hsp] at ihd; simp at ihd
                | cons y ys => rw [hsp] at ihd; simpa using ihd
          rw [hsp] at hl
          simp at hl
        | cons z zs => rw [List.getLast?_cons_cons] at h ⊢; exact h

/-- C67: the import name of `dir/base.capnp` is `_base_capnp`, whatever the directory, with `PLUS`
for each `+`. -/
theorem C67_import_name {dir base : Str} (h1 : '/' ∉ base) :
    importName (dir ++ '/' :: (base ++ ".capnp".toList)) =
      ['_'] ++ base.flatMap (fun c => if c = '+' then "PLUS".toList else [c]) ++ "_capnp".toList ∧
    importName (base ++ ".capnp".toList) =
      ['_'] ++ base.flatMap (fun c => if c = '+' then "PLUS".toList else [c]) ++ "_capnp".toList := by
  have hns : '/' ∉ base ++ ".capnp".toList := by
    intro h
    rcases List.mem_append.mp h with h | h
    · exact h1 h
    · exact absurd h (by decide)
  have key : ∀ s : Str, basename s = base ++ ".capnp".toList → purebasename s = base := by
    intro s hs
    unfold purebasename
    simp only [hs]
    rw [if_pos (List.mem_append.mpr (.inr (by decide)))]
    rw [List.reverse_append, show ".capnp".toList.reverse = "pnpac.".toList by decide]
    show (List.drop 1 (('.' :: base.reverse))).reverse = base
    simp
  constructor
  · unfold importName
    rw [key _ (by unfold basename; rw [split_last hns]; rfl)]
  · unfold importName
    rw [key _ (by unfold basename; rw [split_single hns]; rfl)]

/-- C67: the imports can be declared iff the base names of the files that are used are all
different: otherwise the compiler raises AttributeError.  This also happens if one file is
imported under two names. -/
theorem C67_clash {r : Request} {is : List Import} (his : r.imports = some is) :
    (((is.filter fun i => r.nodes.any fun n => n.id == i.id).map fun i => importName (r.display i.id)).Nodup →
      ∃ names stmts, r.declareImports false = .ok (names, stmts)) ∧
    (¬ ((is.filter fun i => r.nodes.any fun n => n.id == i.id).map fun i => importName (r.display i.id)).Nodup →
      r.declareImports false = .error .attributeError) := by
  unfold Request.declareImports
  rw [his]
  constructor
  · intro h
    exact ⟨_, _, declare_ok (names := []) (by rw [List.map_nil, List.nil_append]; exact h)⟩
  · intro h
    exact declare_clash (names := []) List.nodup_nil (by rw [List.map_nil, List.nil_append]; exact h)

/-- C67: imports that are not used are ignored: it is as if they were not in the schema. -/
theorem C67_unused (r : Request) (standalone : Bool) (is : List Import) (names : ImportNames) :
    r.declare standalone is names =
      r.declare standalone (is.filter fun i => r.nodes.any fun n => n.id == i.id) names := by
  induction is generalizing names with
  | nil => rfl
  | cons i is ih =>
    by_cases hu : (r.nodes.any fun n => n.id == i.id) = true
    · obtain ⟨n, h1, -⟩ := node_used hu
      rw [List.filter_cons, if_pos hu]
      unfold Request.declare
      simp only [h1, ih]
    · rw [List.filter_cons, if_neg hu]
      rw [← ih]
      conv => lhs; unfold Request.declare
      simp only [node_unused hu]

/-- C67: the statements of the module: one for each import that is used, in the order of the
schema, except for the C++ annotations. -/
theorem C67_statements {r : Request} {is : List Import} (his : r.imports = some is) {names : ImportNames}
    {stmts : List ImportStmt} (h : r.declareImports false = .ok (names, stmts)) :
    stmts = (is.filter fun i => (r.nodes.any fun n => n.id == i.id) && decide (i.name ≠ "/capnp/c++.capnp".toList)).map
      fun i => .load (importName (r.display i.id)) i.name := by
  by_cases hn : ((is.filter fun i => r.nodes.any fun n => n.id == i.id).map fun i => importName (r.display i.id)).Nodup
  · unfold Request.declareImports at h
    rw [his] at h
    simp only at h
    rw [declare_ok (names := []) (by rw [List.map_nil, List.nil_append]; exact hn)] at h
    injection h with h
    injection h with hnm h
    rw [← h]
    clear h hn his hnm
    unfold usedImports
    induction is with
    | nil => rfl
    | cons i is ih =>
      rw [List.filter_cons, List.filter_cons]
      cases hu : (r.nodes.any fun n => n.id == i.id) with
      | false => simp only [Bool.false_and, Bool.false_eq_true, if_false]; exact ih
      | true =>
        simp only [if_true, Bool.true_and, List.flatMap_cons, ih]
        unfold loadStmt
        by_cases hc : i.name = "/capnp/c++.capnp".toList
        · rw [if_pos hc, if_neg (fun h => absurd hc (of_decide_eq_true h)), List.nil_append]
        · rw [if_neg hc, if_pos (decide_eq_true hc), List.map_cons, List.singleton_append]
  · rw [(C67_clash his).2 hn] at h
    cases h

/-- C67: a request without a list of imports cannot be compiled. -/
theorem C67_null_imports {r : Request} (h : r.imports = none) (standalone : Bool) :
    r.declareImports standalone = .error .typeError := by
  unfold Request.declareImports
  rw [h]

/-- C67, negative: the module of a file that imports a file with a minus sign or a blank in the
name is not valid Python. -/
theorem C67_bad_name {f : Nat} {r : Request} (hr : P.request f = .ok r) {names : ImportNames} {stmts : List ImportStmt}
    (hd : r.declareImports false = .ok (names, stmts)) {body : List Stmt}
    (hb : (r.gen names).emitModule depth = .ok body) {is : List Import} (his : r.imports = some is) {i : Import}
    (hi : i ∈ is) (hreal : RealImport r i) (hbad : '-' ∈ importName (r.display i.id) ∨ ' ' ∈ importName (r.display i.id))
    {w : World} (hw : w.modules.lookup f = none) (hfuel : 0 < fuel) : P.load depth fuel f w = .error .syntaxError := by
  obtain ⟨k, rfl⟩ : ∃ k, fuel = k + 1 := ⟨fuel - 1, by omega⟩
  unfold Project.load
  rw [hw]
  simp only
  rw [bind_okP hr, bind_okP hd]
  simp only
  rw [bind_okP hb, if_pos]
  rw [C67_statements his hd, List.any_eq_true]
  refine ⟨_, List.mem_map.mpr ⟨i, List.mem_filter.mpr ⟨hi, ?_⟩, rfl⟩, ?_⟩
  · rw [Bool.and_eq_true, List.any_eq_true]
    obtain ⟨⟨n, hn, hni⟩, hc⟩ := hreal
    exact ⟨⟨n, hn, beq_iff_eq.mpr hni⟩, decide_eq_true hc⟩
  · unfold ImportStmt.bad
    rw [List.any_eq_true]
    rcases hbad with h | h
    · exact ⟨_, h, rfl⟩
    · exact ⟨_, h, rfl⟩

/-- C67, negative: files that import each other in a cycle cannot be loaded, although Cap'n Proto
allows it: the recursion never ends.  `S` is a set of files each of which has an import in
`S`. -/
theorem C67_cycle {S : Nat → Prop} (hS : ∀ f, S f → ∀ r, P.request f = .ok r → ∃ is i, r.imports = some is ∧ i ∈ is ∧
      RealImport r i ∧ ∀ g, P.resolve i.name = .ok g → S g) :
    ∀ (fuel f : Nat) (w w' : World) (a : Nat), (∀ g, S g → w.modules.lookup g = none) →
      P.load depth fuel f w = .ok (a, w') → ¬ S f ∧ ∀ g, S g → w'.modules.lookup g = none := by
  intro fuel
  induction fuel with
  | zero => intro f w w' a _ h; cases h
  | succ fuel ih =>
    intro f w w' a hw h
    unfold Project.load at h
    cases hl : w.modules.lookup f with
    | some b =>
      rw [hl] at h
      injection h with h
      injection h with h1 h2
      subst h2
      refine ⟨fun hf => ?_, hw⟩
      rw [hw f hf] at hl
      cases hl
    | none =>
      rw [hl] at h
      simp only at h
      cases hr : P.request f with
      | error e => rw [hr] at h; cases h
      | ok r =>
        rw [bind_okP hr] at h
        cases hd : r.declareImports false with
        | error e => rw [hd] at h; cases h
        | ok x =>
          obtain ⟨names, stmts⟩ := x
          rw [bind_okP hd] at h
          simp only at h
          cases hb : (r.gen names).emitModule depth with
          | error e => rw [hb] at h; cases h
          | ok body =>
            rw [bind_okP hb] at h
            split at h
            · cases h
            · cases hi : runImportStmts P.resolve (P.load depth fuel) stmts [] w with
              | error e => rw [hi] at h; cases h
              | ok y =>
                obtain ⟨dg, w1⟩ := y
                rw [bind_okP hi] at h
                simp only at h
                have key : ∀ (l : List ImportStmt) (d : Dict) (w : World) (d' : Dict) (w1 : World),
                    (∀ g, S g → w.modules.lookup g = none) →
                    runImportStmts P.resolve (P.load depth fuel) l d w = .ok (d', w1) →
                    (∀ g, S g → w1.modules.lookup g = none) ∧
                      ∀ n p, ImportStmt.load n p ∈ l → ∃ g, P.resolve p = .ok g ∧ ¬ S g := by
                  intro l
                  induction l with
                  | nil =>
                    intro d w d' w1 hw h
                    injection h with h
                    injection h with h1 h2
                    subst h2
                    exact ⟨hw, by simp⟩
                  | cons st l ihl =>
                    intro d w d' w1 hw h
                    cases st with
                    | importAs m n => cases h
                    | load n p =>
                      unfold runImportStmts at h
                      cases hp : P.resolve p with
                      | error e => rw [hp] at h; cases h
                      | ok g =>
                        rw [bind_okP hp] at h
                        cases hg : P.load depth fuel g w with
                        | error e => rw [hg] at h; cases h
                        | ok z =>
                          obtain ⟨b, w2⟩ := z
                          rw [bind_okP hg] at h
                          obtain ⟨i1, i2⟩ := ih g w w2 b hw hg
                          obtain ⟨j1, j2⟩ := ihl _ w2 d' w1 i2 h
                          refine ⟨j1, ?_⟩
                          intro n' p' hm
                          rcases List.mem_cons.mp hm with hm | hm
                          · injection hm with _ hm
                            subst hm
                            exact ⟨g, hp, i1⟩
                          · exact j2 n' p' hm
                obtain ⟨k1, k2⟩ := key stmts [] w dg w1 hw hi
                have hnf : ¬ S f := by
                  intro hf
                  obtain ⟨is, i, his, him, hreal, hall⟩ := hS f hf r hr
                  have hmem : ImportStmt.load (importName (r.display i.id)) i.name ∈ stmts := by
                    rw [C67_statements his hd]
                    refine List.mem_map.mpr ⟨i, List.mem_filter.mpr ⟨him, ?_⟩, rfl⟩
                    rw [Bool.and_eq_true, List.any_eq_true]
                    obtain ⟨⟨n, hn, hni⟩, hc⟩ := hreal
                    exact ⟨⟨n, hn, beq_iff_eq.mpr hni⟩, decide_eq_true hc⟩
                  obtain ⟨g, g1, g2⟩ := k2 _ _ hmem
                  exact g2 (hall g g1)
                refine ⟨hnf, ?_⟩
                cases hσ : (State.mk dg w1.heap).run body with
                | error e => rw [hσ] at h; cases h
                | ok σ =>
                  rw [bind_okP hσ] at h
                  have h : Except.ok _ = Except.ok (a, w') := h
                  injection h with h
                  injection h with h1 h2
                  subst h2
                  intro g hg
                  show List.lookup g ((f, σ.heap.length) :: w1.modules) = none
                  rw [List.lookup_cons, show (g == f) = false by
                    have : g ≠ f := by rintro rfl; exact hnf hg
                    simpa using this]
                  exact k1 g hg

/-! ## Standalone modules -/

/-- C67: in a standalone module, the import of `"/a/b/c.capnp"` is `import a.b.c`: where Python
looks for this module, `a/b/c.py`, is where the compiler puts the module of the file, provided
that the names have no dots. -/
theorem C67_standalone {p : List Str} (hp : p ≠ []) (h0 : p.head? ≠ some []) (hs : ∀ s ∈ p, '/' ∉ s) (hd : ∀ s ∈ p, '.' ∉ s)
    (name : Str) (hc : p ≠ ["capnp".toList, "c++".toList]) :
    importStmt true name ('/' :: (joinWith '/' p ++ ".capnp".toList)) = .ok [.importAs (dotted p) name] ∧
    (dotted p).map (fun c => if c = '.' then '/' else c) = joinWith '/' p := by
  have hlast : ∀ q : Str, q.length - (".capnp".toList).length = q.length - 6 := fun q => rfl
  have hsub : ∀ (q : List Str), (∀ s ∈ q, '/' ∉ s) → (joinWith '/' q).map (fun c => if c = '/' then '.' else c) = dotted q := by
    intro q
    induction q with
    | nil => intro _; rfl
    | cons x q ih =>
      intro hq
      have hx : x.map (fun c => if c = '/' then '.' else c) = x := by
        have hx := hq x List.mem_cons_self
        refine (List.map_congr_left (g := id) fun c hc => ?_).trans (List.map_id x)
        rw [if_neg (by rintro rfl; exact hx hc)]
        rfl
      cases q with
      | nil => exact hx
      | cons y q =>
        show (x ++ ['/'] ++ joinWith '/' (y :: q)).map _ = x ++ ['.'] ++ dotted (y :: q)
        rw [List.map_append, List.map_append, hx, ih fun s hs => hq s (List.mem_cons_of_mem _ hs)]
        rfl
  have hback : ∀ (q : List Str), (∀ s ∈ q, '.' ∉ s) → (dotted q).map (fun c => if c = '.' then '/' else c) = joinWith '/' q := by
    intro q
    induction q with
    | nil => intro _; rfl
    | cons x q ih =>
      intro hq
      have hx : x.map (fun c => if c = '.' then '/' else c) = x := by
        have hx := hq x List.mem_cons_self
        refine (List.map_congr_left (g := id) fun c hc => ?_).trans (List.map_id x)
        rw [if_neg (by rintro rfl; exact hx hc)]
        rfl
      cases q with
      | nil => exact hx
      | cons y q =>
        show (x ++ ['.'] ++ dotted (y :: q)).map _ = x ++ ['/'] ++ joinWith '/' (y :: q)
        rw [List.map_append, List.map_append, hx, ih fun s hs => hq s (List.mem_cons_of_mem _ hs)]
        rfl
  refine ⟨?_, hback p hd⟩
  unfold importStmt
  rw [if_neg, if_pos rfl, if_pos]
  · congr 1
    congr 1
    congr 1
    unfold standaloneName
    have hdrop : List.dropWhile (fun c => c == '/') ('/' :: (joinWith '/' p ++ ".capnp".toList)) =
        joinWith '/' p ++ ".capnp".toList := by
      rw [List.dropWhile_cons, if_pos (by decide)]
      cases p with
      | nil => exact absurd rfl hp
      | cons x q =>
        cases x with
        | nil => exact absurd rfl h0
        | cons c x =>
          have hcx : c ≠ '/' := by
            rintro rfl
            exact hs _ List.mem_cons_self List.mem_cons_self
          obtain ⟨y, hy⟩ : ∃ y, joinWith '/' ((c :: x) :: q) ++ ".capnp".toList = c :: y := by
            cases q with
            | nil => exact ⟨_, rfl⟩
            | cons z q => exact ⟨_, rfl⟩
          rw [hy, List.dropWhile_cons, if_neg (by simpa using hcx)]
    rw [hdrop]
    simp only
    rw [List.length_append, show (".capnp".toList).length = 6 by decide, Nat.add_sub_cancel, List.take_left]
    exact hsub p hs
  · exact ⟨'/' :: joinWith '/' p, rfl⟩
  · intro e
    have e : '/' :: (joinWith '/' p ++ ".capnp".toList) =
        '/' :: (joinWith '/' ["capnp".toList, "c++".toList] ++ ".capnp".toList) := e
    injection e with _ e
    have e := List.append_cancel_right e
    refine hc (join_inj hp (by simp) hs ?_ e)
    intro s hs
    rcases List.mem_cons.mp hs with rfl | hs
    · decide
    · rw [List.mem_singleton.mp hs]; decide

/-! ## A concrete project

```
base.capnp:   struct Outer { enum Color { red; green; } }
mid+1.capnp:  using B = import "/lib/base.capnp";  struct Mid { o :B.Outer; c :B.Outer.Color; }
main.capnp:   both imports, and the C++ annotations, which are used, and an unused import
```
-/

def baseFile : Spec.Tree := .mk (nd 100 0 "base.capnp" .file) [
  .mk (nd 101 100 "Outer" (.struct false 0 (some []) false)) [leaf (nd 102 101 "Color" (.enum ["red".toList, "green".toList]))]]

def midFile : Spec.Tree := .mk (nd 200 0 "mid+1.capnp" .file) [
  leaf (nd 201 200 "Mid" (.struct false 0 (some [fld "o" none .pointer, fld "c" none .plain]) false))]

def mainFile : Spec.Tree := .mk (nd 300 0 "main.capnp" .file) [
  leaf (nd 301 300 "Main" (.struct false 0 (some [fld "o" none .pointer, fld "m" none .pointer]) false))]

def exDisplay (i : Nat) : Str :=
  if i = 100 then "lib/base.capnp".toList else if i = 200 then "lib/mid+1.capnp".toList
  else if i = 400 then "capnp/c++.capnp".toList else "main.capnp".toList

def exTree (f : Nat) : Spec.Tree := if f = 0 then baseFile else if f = 1 then midFile else mainFile

def exReq (f : Nat) : Request :=
  if f = 0 then ⟨nodesOf baseFile, exDisplay, 100, some [], true⟩
  else if f = 1 then ⟨nodesOf midFile ++ nodesOf baseFile, exDisplay, 200, some [⟨100, "/lib/base.capnp".toList⟩], true⟩
  else ⟨nodesOf mainFile ++ nodesOf midFile ++ nodesOf baseFile ++ [nd 400 0 "c++.capnp" .file], exDisplay, 300,
    some [⟨400, "/capnp/c++.capnp".toList⟩, ⟨200, "/lib/mid+1.capnp".toList⟩, ⟨999, "/unused.capnp".toList⟩,
      ⟨100, "/lib/base.capnp".toList⟩], true⟩

def exProject : Project :=
  ⟨fun s => if s = "/lib/base.capnp".toList then .ok 0 else if s = "/lib/mid+1.capnp".toList then .ok 1
    else if s = "/main.capnp".toList then .ok 2 else .error .valueError, fun f => .ok (exReq f)⟩

def wordB (s : Str) : Bool := s.all fun c => c.isAlphanum || c == '_'

theorem wordB_spec {s : Str} (h : wordB s = true) : Word s := by
  intro c hc
  have := List.all_eq_true.mp h c hc
  simpa using this

def importB (P : Project) (files : List Nat) (f : Nat) (r : Request) (i : Import) : Bool :=
  !(r.nodes.any fun n => n.id == i.id) || decide (i.name = "/capnp/c++.capnp".toList) ||
  (wordB (importName (r.display i.id)) && i.id != r.file &&
    match P.resolve i.name with
    | .ok g => decide (g ∈ files) && decide (g < f) && decide ((exTree g).node.id = i.id) &&
        decide ((exTree g).node ∈ r.nodes)
    | .error _ => false)

theorem importB_spec {P : Project} {files : List Nat} {f : Nat} {r : Request} {i : Import}
    (h : importB P files f r i = true) (hr : RealImport r i) : Word (importName (r.display i.id)) ∧ i.id ≠ r.file ∧
      ∃ g, P.resolve i.name = .ok g ∧ g ∈ files ∧ g < f ∧ (exTree g).node.id = i.id ∧ (exTree g).node ∈ r.nodes := by
  unfold importB at h
  obtain ⟨⟨n, hn, hni⟩, hc⟩ := hr
  rw [Bool.or_eq_true, Bool.or_eq_true] at h
  rcases h with (h | h) | h
  · rw [Bool.not_eq_true', List.any_eq_false] at h
    exact absurd (beq_iff_eq.mpr hni) (h n hn)
  · exact absurd (of_decide_eq_true h) hc
  · rw [Bool.and_eq_true, Bool.and_eq_true] at h
    obtain ⟨⟨h1, h2⟩, h3⟩ := h
    refine ⟨wordB_spec h1, bne_iff_ne.mp h2, ?_⟩
    cases hg : P.resolve i.name with
    | error e => rw [hg] at h3; cases h3
    | ok g =>
      rw [hg] at h3
      simp only [Bool.and_eq_true] at h3
      obtain ⟨⟨⟨h4, h5⟩, h6⟩, h7⟩ := h3
      exact ⟨g, rfl, of_decide_eq_true h4, of_decide_eq_true h5, of_decide_eq_true h6, of_decide_eq_true h7⟩

/-- C67: the hypotheses of the theorems are met by a project with a diamond. -/
theorem exProject_ok : ProjectOK exProject [0, 1, 2] exTree id ∧ Limits [0, 1, 2] exTree id 10 3 := by
  have key : ∀ f ∈ [0, 1, 2], (fileB ((exReq f).gen []) (exTree f) && supportedB ((exReq f).gen []) (exTree f) &&
      (match (exReq f).imports with
       | none => false
       | some is => nodupB ((is.filter fun i => (exReq f).nodes.any fun n => n.id == i.id).map
          fun i => importName ((exReq f).display i.id)) && is.all (importB exProject [0, 1, 2] f (exReq f)))) = true := by
    decide +kernel
  refine ⟨⟨fun f hf => ⟨exReq f, ?_⟩⟩, ?_⟩
  · have h := key f hf
    rw [Bool.and_eq_true, Bool.and_eq_true] at h
    obtain ⟨⟨h1, h2⟩, h3⟩ := h
    refine ⟨rfl, fileB_spec h1, supportedB_spec h2, ?_⟩
    cases his : (exReq f).imports with
    | none => rw [his] at h3; cases h3
    | some is =>
      rw [his] at h3
      simp only [Bool.and_eq_true] at h3
      exact ⟨is, rfl, of_decide_eq_true h3.1, fun i hi hr => importB_spec (List.all_eq_true.mp h3.2 i hi) hr⟩
  · refine ⟨?_, by decide⟩
    have : ∀ f ∈ [0, 1, 2], ((exTree f).all.all fun x => decide (2 * x.1.length ≤ 10)) = true := by decide +kernel
    exact fun f hf => deepB_spec (this f hf)

example : ∃ w, exProject.loadAll 10 3 [2, 0, 1, 2] World.empty = .ok w ∧
    ∀ f ∈ [2, 0, 1, 2], ∃ a, w.modules.lookup f = some a :=
  C67_load exProject_ok.1 exProject_ok.2 (by decide)

/-- An expression in the module of file `f`, after all files were loaded. -/
def afterLoad (f : Nat) (s : String) : Py Obj := do
  let w ← exProject.loadAll 10 3 [2, 0, 1] World.empty
  match w.modules.lookup f with
  | some a => (viewOf w a).evalPath [] s.toList
  | none => .error .keyError

example : afterLoad 2 "_base_capnp.Outer.Color.__capnpy_id__" = .ok (.int 102) ∧
    afterLoad 2 "_base_capnp.Outer.Color" = afterLoad 1 "_base_capnp.Outer.Color" ∧
    afterLoad 2 "_base_capnp.Outer.Color" = afterLoad 0 "Outer.Color" ∧
    afterLoad 2 "_mid1_capnp" = .error .nameError ∧
    afterLoad 2 "_midPLUS1_capnp.Mid.__capnpy_id__" = .ok (.int 201) ∧
    afterLoad 2 "_cPLUSPLUS_capnp" = .error .nameError := by decide +kernel

/-- The class of `Color` in the two modules that import it. -/
example {w : World} (h : exProject.loadAll 10 3 [1, 2] World.empty = .ok w) {a₁ a₂ : Nat}
    (h₁ : w.modules.lookup 1 = some a₁) (h₂ : w.modules.lookup 2 = some a₂) {n₁ n₂ : ImportNames}
    {s₁ s₂ : List ImportStmt} (d₁ : (exReq 1).declareImports false = .ok (n₁, s₁))
    (d₂ : (exReq 2).declareImports false = .ok (n₂, s₂)) :
    ∃ x₁ x₂ c, ((exReq 1).gen n₁).compileName 9 (nd 102 101 "Color" (.enum ["red".toList, "green".toList])) = .ok x₁ ∧
      ((exReq 2).gen n₂).compileName 9 (nd 102 101 "Color" (.enum ["red".toList, "green".toList])) = .ok x₂ ∧
      (viewOf w a₁).evalPath [] x₁ = .ok (.ref c) ∧ (viewOf w a₂).evalPath [] x₂ = .ok (.ref c) := by
  have hs : Sub baseFile ["Outer".toList, "Color".toList] (leaf (nd 102 101 "Color" (.enum ["red".toList, "green".toList]))) :=
    .kid (.top (k := .mk (nd 101 100 "Outer" (.struct false 0 (some []) false))
      [leaf (nd 102 101 "Color" (.enum ["red".toList, "green".toList]))]) List.mem_cons_self) List.mem_cons_self
  have hc : ∀ f ∈ [1, 2], ∀ n, Chain ((exReq f).gen n) baseFile.node ["Outer".toList, "Color".toList]
      (nd 102 101 "Color" (.enum ["red".toList, "green".toList])) := by
    intro f hf n
    have h0 : ∀ f ∈ [1, 2], ∀ i ∈ [100, 101], ((exReq f).gen []).node i = (if i = 100 then Except.ok baseFile.node
        else .ok (nd 101 100 "Outer" (.struct false 0 (some []) false))) ∧ i ≠ (exReq f).file := by decide +kernel
    have c1 := Chain.kid (n := nd 101 100 "Outer" (.struct false 0 (some []) false)) (Chain.file (g := (exReq f).gen n)
      (f := baseFile.node)) rfl (by decide) (h0 f hf 100 (by decide)).1 (h0 f hf 100 (by decide)).2 rfl
    exact Chain.kid (n := nd 102 101 "Color" (.enum ["red".toList, "green".toList])) c1
      rfl (by decide) (h0 f hf 101 (by decide)).1 (h0 f hf 101 (by decide)).2 rfl
  exact C67_shared exProject_ok.1 exProject_ok.2 (by decide) h h₁ h₂ (r₁ := exReq 1) (r₂ := exReq 2) rfl rfl
    (is₁ := [⟨100, "/lib/base.capnp".toList⟩]) (is₂ := [⟨400, "/capnp/c++.capnp".toList⟩,
      ⟨200, "/lib/mid+1.capnp".toList⟩, ⟨999, "/unused.capnp".toList⟩, ⟨100, "/lib/base.capnp".toList⟩]) rfl rfl
    (i₁ := ⟨100, "/lib/base.capnp".toList⟩) (i₂ := ⟨100, "/lib/base.capnp".toList⟩) (by decide) (by decide)
    ⟨⟨baseFile.node, by decide +kernel, rfl⟩, by decide⟩ ⟨⟨baseFile.node, by decide +kernel, rfl⟩, by decide⟩
    (f' := 0) (by decide +kernel) (by decide +kernel) d₁ d₂ hs (.inr ⟨_, rfl⟩) (hc 1 (by decide) _) (hc 2 (by decide) _)
    (by decide)

/-- Two files `a/x.capnp` and `b/x.capnp`, both used. -/
def clashReq : Request :=
  ⟨[nd 1 0 "main.capnp" .file, nd 2 0 "x.capnp" .file, nd 3 0 "x.capnp" .file],
    fun i => if i = 2 then "a/x.capnp".toList else if i = 3 then "b/x.capnp".toList else "main.capnp".toList, 1,
    some [⟨2, "/a/x.capnp".toList⟩, ⟨3, "/b/x.capnp".toList⟩], true⟩

/-- C67, negative: files with the same base name in different directories cannot be imported by
one file. -/
theorem C67_same_base : clashReq.declareImports false = .error .attributeError ∧
    clashReq.declareImports true = .error .attributeError := by decide +kernel

/-- One file, imported by an absolute and by a relative name. -/
def twiceReq : Request :=
  ⟨[nd 1 0 "main.capnp" .file, nd 2 0 "x.capnp" .file], fun i => if i = 2 then "a/x.capnp".toList else "a/main.capnp".toList,
    1, some [⟨2, "/a/x.capnp".toList⟩, ⟨2, "x.capnp".toList⟩], true⟩

/-- C67, negative: nor can one file be imported under two names. -/
theorem C67_two_names : twiceReq.declareImports false = .error .attributeError := by decide +kernel

/-- Two files that import each other. -/
def cycleProject : Project :=
  ⟨fun s => if s = "/a.capnp".toList then .ok 0 else .ok 1, fun f =>
    .ok (if f = 0 then ⟨[nd 1 0 "a.capnp" .file, nd 2 0 "b.capnp" .file], fun i => if i = 2 then "b.capnp".toList else "a.capnp".toList,
        1, some [⟨2, "/b.capnp".toList⟩], true⟩
      else ⟨[nd 2 0 "b.capnp" .file, nd 1 0 "a.capnp" .file], fun i => if i = 2 then "b.capnp".toList else "a.capnp".toList,
        2, some [⟨1, "/a.capnp".toList⟩], true⟩)⟩

/-- The hypothesis of C67_cycle is met by two files that import each other; they cannot be loaded,
whatever the recursion limit is. -/
example (fuel : Nat) : ∀ a w', cycleProject.load 10 fuel 0 World.empty ≠ .ok (a, w') := by
  intro a w' h
  refine (C67_cycle (P := cycleProject) (S := fun f => f = 0 ∨ f = 1) ?_ fuel 0 World.empty w' a (fun g _ => rfl) h).1 (.inl rfl)
  intro f hf r hr
  rcases hf with rfl | rfl
  · injection hr with hr
    subst hr
    exact ⟨_, ⟨2, "/b.capnp".toList⟩, rfl, List.mem_cons_self,
      ⟨⟨nd 2 0 "b.capnp" .file, List.mem_cons_of_mem _ List.mem_cons_self, rfl⟩, by decide⟩,
      fun g hg => .inr (by injection hg with hg; exact hg.symm)⟩
  · injection hr with hr
    subst hr
    exact ⟨_, ⟨1, "/a.capnp".toList⟩, rfl, List.mem_cons_self,
      ⟨⟨nd 1 0 "a.capnp" .file, List.mem_cons_of_mem _ List.mem_cons_self, rfl⟩, by decide⟩,
      fun g hg => .inl (by injection hg with hg; exact hg.symm)⟩

example : cycleProject.load 10 50 0 World.empty = .error .recursionError := by decide +kernel

/-- A file `my-schema.capnp` is imported. -/
def minusProject : Project :=
  ⟨fun _ => .ok 1, fun _ => .ok ⟨[nd 1 0 "main.capnp" .file, nd 2 0 "my-schema.capnp" .file],
    fun i => if i = 2 then "my-schema.capnp".toList else "main.capnp".toList, 1, some [⟨2, "/my-schema.capnp".toList⟩], true⟩⟩

example : minusProject.load 10 10 0 World.empty = .error .syntaxError := by decide +kernel

example : importStmt true "_c_capnp".toList "/a/b/c.capnp".toList =
    .ok [.importAs "a.b.c".toList "_c_capnp".toList] := by decide +kernel

/-- C67, negative: with a dot in a directory the standalone module imports something else:
`/v1.0/c.capnp` is `v1/0/c.py` for Python. -/
theorem C67_standalone_dot : importStmt true "_c_capnp".toList "/v1.0/c.capnp".toList =
    .ok [.importAs "v1.0.c".toList "_c_capnp".toList] ∧
    ("v1.0.c".toList).map (fun c => if c = '.' then '/' else c) = "v1/0/c".toList := by decide +kernel

end Capnpy.Props
