import Verif.Props.Reflection
import Verif.Props.AnyPointer

/-!
# C68: a concrete request

```
annotation dbTable @0x5 (struct) :Text;
annotation dbPrimaryKey @0x6 (field) :Void;
struct Person $dbTable("people") {
  firstName @0 :Text $dbPrimaryKey;
  lastName @1 :Text $Py.options(convertCase = false);
  class @2 :Int32;
  homeAddress :group { postCode @3 :Text; }
}
enum Color { lightRed @0; darkBlue @1; }
struct Shape { union { radius @0 :Int32; sideLength @1 :Int32; } }
```
The request also has a struct `Other` of an imported file.
-/

namespace Capnpy.Props

open Spec Capnpy.Module
open Capnpy.Reflection (Req Member EntId Generator ReflectionData)

/-- `Py.options(convertCase = false)`; the value is behind a pointer. -/
def exOptAnn : Reflection.Annotation :=
  ⟨optionsAnnId, ⟨16, .anyPointer ⟨⟨⟨[0, 0, 0, 0, 1, 0, 0, 0, 0, 0, 2, 0, 0, 0, 0, 0], none⟩, 0, 0, 0, 1⟩, 0⟩⟩⟩

/-- The default options: everything enabled, text as bytes. -/
def exDflt : StructObj := ⟨⟨[3, 0, 3, 0, 1, 0, 3, 0], none⟩, 0, 8, 1, 0⟩

def exVals : OptVals := fun _ => 1

theorem exDflt_reads : OptReads exDflt exVals := by
  intro k
  cases k <;> exact ⟨by decide +kernel, by simp [InRange, exVals, isSigned, Fmt.size]⟩

def exMem (s : String) (anns : Option (List Reflection.Annotation)) (kind : Reflection.FieldKind := .plain) : Member :=
  { name := s.toList, annotations := anns, kind := kind }

def rn (id scope : Nat) (s : String) (anns : Option (List Reflection.Annotation)) (k : Reflection.Kind) : Reflection.Node :=
  ⟨id, scope, s.toList, anns, k⟩

def exTable : Reflection.Annotation := ⟨5, ⟨12, .bytes [112]⟩⟩
def exPk : Reflection.Annotation := ⟨6, ⟨0, .none⟩⟩

def nFile := rn 1 0 "x.capnp" none .file
def nTable := rn 5 1 "dbTable" none .annotation
def nPk := rn 6 1 "dbPrimaryKey" none .annotation
def nPerson := rn 2 1 "Person" (some [exTable]) (.struct false 0 (some [exMem "firstName" (some [exPk]) .pointer,
  exMem "lastName" (some [exOptAnn]) .pointer, exMem "class" none, exMem "homeAddress" none .group]))
def nAddress := rn 3 2 "homeAddress" none (.struct true 0 (some [exMem "postCode" none .pointer]))
def nColor := rn 4 1 "Color" none (.enum (some [exMem "lightRed" none, exMem "darkBlue" none]))
def nShape := rn 7 1 "Shape" none (.struct false 2 (some [{ exMem "radius" none with disc := some 0 },
  { exMem "sideLength" none with disc := some 1 }]))
def nOtherFile := rn 20 0 "y.capnp" none .file
def nOther := rn 21 20 "Other" none (.struct false 0 (some [exMem "someField" none]))

def tAddress : RTree := .mk nAddress []
def tTable : RTree := .mk nTable []
def tPk : RTree := .mk nPk []
def tPerson : RTree := .mk nPerson [tAddress]
def tColor : RTree := .mk nColor []
def tShape : RTree := .mk nShape []
def exRFile : RTree := .mk nFile [tTable, tPk, tPerson, tColor, tShape]

def refReq : Req := ⟨[nFile, nTable, nPk, nPerson, nAddress, nColor, nShape, nOtherFile, nOther], [1]⟩

theorem exHas {t : RTree} (h : exRFile.Has t) :
    t = exRFile ∨ t = tTable ∨ t = tPk ∨ t = tPerson ∨ t = tColor ∨ t = tAddress ∨ t = tShape := by
  have leaf : ∀ {n : Reflection.Node} {t : RTree}, (RTree.mk n []).Has t → t = .mk n [] := by
    intro n t h
    cases h with
    | self => rfl
    | kid hk _ => cases hk
  cases h with
  | self => exact .inl rfl
  | kid hk ht =>
    simp only [List.mem_cons, List.not_mem_nil, or_false] at hk
    rcases hk with rfl | rfl | rfl | rfl | rfl
    · exact .inr (.inl (leaf ht))
    · exact .inr (.inr (.inl (leaf ht)))
    · refine .inr (.inr (.inr ?_))
      cases ht with
      | self => exact .inl rfl
      | kid hk ht =>
        simp only [List.mem_cons, List.not_mem_nil, or_false] at hk
        subst hk
        exact .inr (.inr (.inl (leaf ht)))
    · exact .inr (.inr (.inr (.inr (.inl (leaf ht)))))
    · exact .inr (.inr (.inr (.inr (.inr (.inr (leaf ht))))))

def exOpts : StructObj := ⟨⟨[0, 0, 0, 0, 1, 0, 0, 0, 0, 0, 2, 0, 0, 0, 0, 0], none⟩, 8, 16, 1, 0⟩

theorem exOptAnn_reads : AnnStruct exOptAnn exOpts ∧
    OptReads exOpts (fun k => match k with | .convertCase => 0 | k => k.notset) := by
  constructor
  · exact ⟨rfl, _, rfl, by decide +kernel⟩
  · intro k
    cases k <;> exact ⟨by decide +kernel, by simp [InRange, isSigned, Fmt.size, OptName.notset]⟩

theorem no_options : OptionsReadable none := by intro a ha; cases ha
theorem other_options {a : Reflection.Annotation} (h : a.id ≠ optionsAnnId) : OptionsReadable (some [a]) := by
  intro b hb e
  rw [List.mem_singleton.mp hb] at e
  exact absurd e h
theorem exOpt_readable : OptionsReadable (some [exOptAnn]) := by
  intro b hb e
  rw [List.mem_singleton.mp hb]
  exact ⟨_, _, exOptAnn_reads.1, exOptAnn_reads.2⟩

/-- C68: the request meets `RequestOK`. -/
theorem refReq_ok : RequestOK refReq exRFile where
  requested := rfl
  mem := List.mem_cons_self
  ids := by decide +kernel
  kids := by
    intro t h
    rcases exHas h with rfl | rfl | rfl | rfl | rfl | rfl | rfl <;> rfl
  distinct := by decide +kernel
  names := by
    intro t h
    rcases exHas h with rfl | rfl | rfl | rfl | rfl | rfl | rfl <;> decide +kernel
  ascii := by
    intro t h m hm
    have : ((membersOf t.node).all fun m => m.name.all fun c => decide (c.toNat < 128)) = true := by
      rcases exHas h with rfl | rfl | rfl | rfl | rfl | rfl | rfl <;> decide +kernel
    intro c hc
    exact of_decide_eq_true (List.all_eq_true.mp (List.all_eq_true.mp this m hm) c hc)
  enums := by
    intro t h e
    rcases exHas h with rfl | rfl | rfl | rfl | rfl | rfl | rfl <;> cases e
  nodeOptions := by
    intro t h
    rcases exHas h with rfl | rfl | rfl | rfl | rfl | rfl | rfl
    · exact no_options
    · exact no_options
    · exact no_options
    · exact other_options (by decide)
    · exact no_options
    · exact no_options
    · exact no_options
  memberOptions := by
    intro t h m hm
    rcases exHas h with rfl | rfl | rfl | rfl | rfl | rfl | rfl
    · cases hm
    · cases hm
    · cases hm
    · have hm : m ∈ [exMem "firstName" (some [exPk]) .pointer, exMem "lastName" (some [exOptAnn]) .pointer, exMem "class" none,
        exMem "homeAddress" none .group] := hm
      simp only [List.mem_cons, List.not_mem_nil, or_false] at hm
      rcases hm with rfl | rfl | rfl | rfl
      · exact other_options (by decide)
      · exact exOpt_readable
      · exact no_options
      · exact no_options
    · have hm : m ∈ [exMem "lightRed" none, exMem "darkBlue" none] := hm
      simp only [List.mem_cons, List.not_mem_nil, or_false] at hm
      rcases hm with rfl | rfl <;> exact no_options
    · have hm : m ∈ [exMem "postCode" none .pointer] := hm
      rw [List.mem_singleton.mp hm]
      exact no_options
    · have hm : m ∈ [{ exMem "radius" none with disc := some 0 }, { exMem "sideLength" none with disc := some 1 }] := hm
      simp only [List.mem_cons, List.not_mem_nil, or_false] at hm
      rcases hm with rfl | rfl <;> exact no_options

/-- The generator, and what it emits. -/
def exNew : Py Generator := Generator.new refReq exDflt 10
def exKw : List Str := ["class".toList]
def exGen : Py Gen := exNew >>= fun g => g.gen exKw (fun _ => false) (fun _ => none)
def okB {α : Type} : Py α → Bool
  | .ok _ => true
  | .error _ => false
def exGm : Gen := match exGen with | .ok g => g | .error _ => ⟨[], 0, fun _ => none, false⟩

/-- The emitted file. -/
def exMFile : Spec.Tree := fileOf [
  leaf (nd 5 1 "dbTable" .annotation), leaf (nd 6 1 "dbPrimaryKey" .annotation),
  .mk (nd 2 1 "Person" (.struct false 0 (some [fld "first_name" none .pointer, fld "lastName" none .pointer,
      fld "class_" none .plain, fld "home_address" none (.group false)]) false)) [
    leaf (nd 3 2 "homeAddress" (.struct true 0 (some [fld "post_code" none .pointer]) false))],
  leaf (nd 4 1 "Color" (.enum ["light_red".toList, "dark_blue".toList])),
  leaf (nd 7 1 "Shape" (.struct false 2 (some [fld "radius" (some 0) .plain, fld "side_length" (some 1) .plain]) false))]

theorem exGm_ok : FileOK exGm exMFile ∧ Supported exGm exMFile ∧ Deep exMFile 10 :=
  ⟨fileB_spec (by decide +kernel), supportedB_spec (by decide +kernel), deepB_spec (by decide +kernel)⟩

/-- C68: the hypotheses of the theorems about the imported module are met. -/
theorem exLoaded : ∃ g σ, Loaded refReq exRFile exDflt exVals 10 exKw (fun _ => false) (fun _ => none) g exGm exMFile 10 fresh σ := by
  obtain ⟨g, hg, -⟩ := C68_options refReq_ok exDflt_reads (fuel := 10) (by decide +kernel)
  obtain ⟨gm, hgm⟩ := C68_emits (kw := exKw) (key := fun _ => false) (imp := fun _ => none) refReq_ok exDflt_reads
    (by decide +kernel) hg (by decide) (by decide)
  have e : exGm = gm := by
    unfold exGm exGen exNew
    rw [bind_okP hg, hgm]
  obtain ⟨σ, hσ⟩ := C52_imports exGm_ok.1 exGm_ok.2.1 exGm_ok.2.2 fresh
  exact ⟨g, σ, refReq_ok, exDflt_reads, by decide, by decide +kernel, hg, by rw [e]; exact hgm, exGm_ok.1, exGm_ok.2.1, exGm_ok.2.2, hσ⟩

def exData : ReflectionData := ⟨refReq, exDflt, none⟩

/-- The first part of the result. -/
def answer {α : Type} (x : Py (α × ReflectionData)) : Py α := x.map Prod.fst

def fieldsOf (n : Reflection.Node) : List Member := match n.getStructFields with | .ok (some fs) => fs | _ => []
def enumerantsOf (n : Reflection.Node) : List Member := match n.getEnumEnumerants with | .ok (some fs) => fs | _ => []

example : (fieldsOf nPerson).map (fun f => answer (exData.fieldName exKw 10 f)) =
    [.ok "first_name".toList, .ok "lastName".toList, .ok "class_".toList, .ok "home_address".toList] := by decide +kernel

example : (enumerantsOf nColor).map (fun f => answer (exData.fieldName exKw 10 f)) =
    [.ok "light_red".toList, .ok "dark_blue".toList] := by decide +kernel

example : (importModule exGm 10 fresh >>= fun σ => σ.evalPath [] "Shape.__tag__.side_length".toList) = .ok (.int 1) := by
  decide +kernel

example : (importModule exGm 10 fresh >>= fun σ => σ.evalPath [] "Person.Home_address".toList) = .ok .value := by decide +kernel

/-- C68: the theorems apply to the request: the field `lastName`, whose options annotation says
`convertCase = false`, keeps its name, and the class `Person` has it. -/
example : ∃ σ a, importModule exGm 10 fresh = .ok σ ∧ σ.evalPath [] "Person".toList = .ok (.ref a) ∧
    σ.getattr (.ref a) "lastName".toList = .ok .value ∧
    (∃ rd', exData.getNode 10 (.obj σ (.ref a)) = .ok (nPerson, rd')) ∧
    (∃ rd', exData.getAnnotation 10 (.obj σ (.ref a)) 5 = .ok (.bytes [112], rd')) ∧
    exData.getAnnotation 10 (.obj σ (.ref a)) 6 = .error .keyError := by
  obtain ⟨g, σ, L⟩ := exLoaded
  have hs : RSub exRFile ["Person".toList] tPerson := RSub.top (file := exRFile) (k := tPerson) (by simp [exRFile, RTree.kids])
  have hd : Reached exKw 10 ⟨refReq, exDflt, none⟩ exData := .fresh
  obtain ⟨a, h1, ⟨rd', h2⟩, -⟩ := C68_get_node_type L hd hs (.inl ⟨_, _, rfl⟩)
  have hp : AnnPath exRFile (.inr (2, "lastName".toList)) [none, some [exTable], some [exOptAnn]] :=
    .kid (k := tPerson) (by simp) (AnnPath.member (n := nPerson) (m := exMem "lastName" (some [exOptAnn]) .pointer)
      (List.mem_cons_of_mem _ List.mem_cons_self))
  obtain ⟨x, b, -, hx, -, h4, -, h5⟩ := C68_field_name L hd hs (fs := fieldsOf nPerson) rfl
    (f := { exMem "lastName" (some [exOptAnn]) .pointer with id := some (2, "lastName".toList) })
    (List.mem_cons_of_mem _ List.mem_cons_self) hp
  have hx0 : x = 0 := by
    refine hx.unique ⟨[_], .cons ⟨_, exOptAnn_reads.1, exOptAnn_reads.2⟩ .nil, by decide⟩
  have hab : a = b := by
    have : σ.evalPath [] (dotted ["Person".toList]) = σ.evalPath [] (under ["Person".toList]) := rfl
    rw [h1, h4] at this
    injection this with this
    injection this
  subst hx0 hab
  have ha : Annotates exData 10 (.obj σ (.ref a)) (some [exTable]) := .obj h2
  have h6 := C68_get_annotation hd L.new ha
  refine ⟨σ, a, L.imported, h1, h5, ⟨rd', h2⟩, ?_, ?_⟩
  · exact (h6 5).1 exTable ⟨[], [], rfl, rfl, by simp⟩ (by decide)
  · refine (h6 6).2 ?_
    intro y hy
    rw [List.mem_singleton.mp hy]
    decide

/-- C68, negative: a loop over `allnodes` that calls `field_name` for the fields of each struct, as in
the documentation, raises KeyError if the schema imports a file with a struct. -/
theorem C68_loop_over_allnodes : RequestOK refReq exRFile ∧ nOther ∈ refReq.nodes ∧
    (fieldsOf nOther).map (fun f => answer (exData.fieldName exKw 10 f)) = [.error .keyError] :=
  ⟨refReq_ok, by simp [refReq], by decide +kernel⟩

/-- C68, negative: `get_node` of a member of an enum does not give the enum: the member is an int, which
is taken for an id.  (Real ids are large, so that this is a KeyError, as for 0 here.) -/
theorem C68_enum_member : ∃ σ, importModule exGm 10 fresh = .ok σ ∧
    σ.evalPath [] "Color.dark_blue".toList = .ok (.int 1) ∧
    answer (exData.getNode 10 (.obj σ (.int 1))) = .ok nFile ∧
    answer (exData.getNode 10 (.obj σ (.int 0))) = .error .keyError := by
  obtain ⟨g, σ, L⟩ := exLoaded
  have hd : Reached exKw 10 ⟨refReq, exDflt, none⟩ exData := .fresh
  have n1 := C68_get_node hd L.new L.request.ids
  refine ⟨σ, L.imported, ?_, ?_, ?_⟩
  · have : (importModule exGm 10 fresh >>= fun σ => σ.evalPath [] "Color.dark_blue".toList) = .ok (.int 1) := by decide +kernel
    rw [bind_okP L.imported] at this
    exact this
  · obtain ⟨rd', h⟩ := (n1 1).1 nFile List.mem_cons_self rfl
    have h : exData.getNode 10 (.obj σ (.int 1)) = .ok (nFile, rd') := h
    unfold answer
    rw [h]
    rfl
  · have h := (n1 0).2 (by
      intro n hn
      have : (refReq.nodes.all fun n => n.id != 0) = true := by decide +kernel
      have := List.all_eq_true.mp this n hn
      simpa using this)
    have h : exData.getNode 10 (.obj σ (.int 0)) = .error .keyError := h
    unfold answer
    rw [h]
    rfl

end Capnpy.Props
