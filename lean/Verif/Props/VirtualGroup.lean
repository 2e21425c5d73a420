import Verif.Spec.VirtualGroup
import Verif.Proof.VirtualGroup
import Verif.Props.Ctor

/-!
# C59: virtual groups

`position @3 :Void $Py.group("x, y")`: the attribute `position` of an object is a group with the
attributes `x` and `y`, which are those of the object.
-/

namespace Capnpy.Props

open Spec

/-- C59: the names in the annotation may be separated by commas with any white space around them. -/
theorem C59_parse {names : List Bytes} {text : Bytes} (h : Spells names text) (hn : ∀ s ∈ names, IsName s) :
    groupNames text = names :=
  spells_names h hn

/-- C59: the fields of the virtual group are the fields of the struct with the names in the annotation, in the
order of the annotation. -/
theorem C59_fields {hash : Bytes → Int} {structId : Int} {all : List AField} {ids ids' : List Int} {vs : List VGroup}
    (hr : registerGroups hash structId all ids all = .ok (ids', vs)) {f : AField} (hf : f ∈ all) {text : Bytes}
    (ht : f.group = some text) {names : List Bytes} (hs : Spells names text) (hn : ∀ s ∈ names, IsName s) :
    ∃ v ∈ vs, v.origin = f ∧ v.fields.map AField.cname = names ∧ ∀ g ∈ v.fields, g ∈ all := by
  have ho := registerGroups_origins hr
  have hm : f ∈ annotated all := List.mem_filter.mpr ⟨hf, by simp [ht]⟩
  rw [← ho] at hm
  obtain ⟨v, hv, e⟩ := List.mem_map.mp hm
  obtain ⟨_, _, _, t, ht', hp⟩ := registerGroups_mem hr v hv
  rw [e, ht] at ht'
  cases ht'
  rw [spells_names hs hn] at hp
  obtain ⟨h1, h2⟩ := pickFields_ok hp
  exact ⟨v, hv, e, h1, h2⟩

/-- C59: the attribute of the annotated field is a group object (if the annotated field is not a member of a union), and the attributes of that
object are those of the struct: `obj.position.x` is `obj.x`, be it a value or an exception. -/
theorem C59_reads {hash : Bytes → Int} {structId : Int} {all : List AField} {ids ids' : List Int} {vs : List VGroup}
    (hr : registerGroups hash structId all ids all = .ok (ids', vs))
    (hnames : ∀ f ∈ all, ∀ g ∈ all, f.field.name = g.field.name → f = g)
    {seg : Seg} {off ds ps : Int} {o : StructObj} (ho : StructObj.initFromBuffer seg off ds ps = .ok o)
    (union : Option Nat) {f : AField} (hf : f ∈ all) (hd : f.field.disc = none) {text : Bytes}
    (ht : f.group = some text) {names : List Bytes} (hs : Spells names text) (hn : ∀ s ∈ names, IsName s) :
    ∃ v g, v ∈ vs ∧ v.origin = f ∧ getVoid o union vs f = .ok (.group g) ∧
      ∀ x ∈ all, x.cname ∈ names → (∀ y ∈ all, y.cname = x.cname → y = x) → x.field.disc = none →
        v.getAttr g x.field.name = Capnpy.getAttr o union x.field.name (all.map AField.field) := by
  obtain ⟨v, hv, e, h1, h2⟩ := C59_fields hr hf ht hs hn
  refine ⟨v, o, hv, e, ?_, ?_⟩
  · unfold getVoid
    rw [if_pos (List.any_eq_true.mpr ⟨v, hv, by simp [e]⟩), hd]
    have e1 : ensureMember o union none = .ok () := rfl
    rw [bind_okP e1, bind_okP (initFromBuffer_self ho)]
    rfl
  · intro x hx hxn huniq hxd
    have hmem : ∃ y ∈ v.fields, y.cname = x.cname := by
      rw [← h1] at hxn
      exact List.mem_map.mp hxn
    obtain ⟨y, hy, hyc⟩ := hmem
    have hyx := huniq y (h2 y hy) hyc
    subst hyx
    unfold VGroup.getAttr
    rw [getAttr_of_mem (List.mem_map_of_mem hy) ?_, getAttr_of_mem (List.mem_map_of_mem hx) ?_]
    · rw [getField_union hxd]
    · intro g hg hgn
      obtain ⟨z, hz, rfl⟩ := List.mem_map.mp hg
      rw [hnames z hz y hx hgn]
    · intro g hg hgn
      obtain ⟨z, hz, rfl⟩ := List.mem_map.mp hg
      rw [hnames z (h2 z hz) y hx hgn]

/-- C59: other names are not attributes of the group. -/
theorem C59_only {hash : Bytes → Int} {structId : Int} {all : List AField} {ids ids' : List Int} {vs : List VGroup}
    (hr : registerGroups hash structId all ids all = .ok (ids', vs)) {v : VGroup} (hv : v ∈ vs) {text : Bytes}
    (ht : v.origin.group = some text) {names : List Bytes} (hs : Spells names text) (hn : ∀ s ∈ names, IsName s)
    (g : StructObj) {x : String} (hx : ∀ f ∈ all, f.cname ∈ names → f.field.name ≠ x) : v.getAttr g x = none := by
  obtain ⟨_, _, _, t, ht', hp⟩ := registerGroups_mem hr v hv
  rw [ht] at ht'
  cases ht'
  rw [spells_names hs hn] at hp
  obtain ⟨h1, h2⟩ := pickFields_ok hp
  unfold VGroup.getAttr
  have : ∀ fs : List Field, (∀ g ∈ fs, g.name ≠ x) → Capnpy.getAttr g none x fs = none := by
    intro fs
    induction fs with
    | nil => intro _; unfold Capnpy.getAttr; rfl
    | cons g gs ih =>
      intro h
      unfold Capnpy.getAttr
      rw [ih fun x hx => h x (List.mem_cons_of_mem _ hx)]
      simp only
      rw [if_neg (h g List.mem_cons_self)]
  refine this _ fun f hf => ?_
  obtain ⟨z, hz, rfl⟩ := List.mem_map.mp hf
  refine hx z (h2 z hz) ?_
  rw [← h1]
  exact List.mem_map_of_mem hz

/-- C59: if the annotated field is itself a member of the union, its attribute is the group object when it is the current
member and `ValueError` otherwise. -/
theorem C59_origin_member {hash : Bytes → Int} {structId : Int} {all : List AField} {ids ids' : List Int} {vs : List VGroup}
    (hr : registerGroups hash structId all ids all = .ok (ids', vs)) {seg : Seg} {off ds ps : Int} {o : StructObj}
    (ho : StructObj.initFromBuffer seg off ds ps = .ok o) {u tag : Nat} {w : Int}
    (hw : o.whichRaw (some ((u * 2 : Nat) : Int)) = .ok w) {f : AField} (hf : f ∈ all) (hg : f.group.isSome)
    (hd : f.field.disc = some tag) :
    (w = tag → getVoid o (some u) vs f = .ok (.group o)) ∧
    (w ≠ tag → getVoid o (some u) vs f = .error .valueError) := by
  have hm : f ∈ annotated all := List.mem_filter.mpr ⟨hf, hg⟩
  rw [← registerGroups_origins hr] at hm
  obtain ⟨v, hv, e⟩ := List.mem_map.mp hm
  unfold getVoid
  rw [if_pos (List.any_eq_true.mpr ⟨v, hv, by simp [e]⟩), hd]
  constructor
  · intro h
    have e1 : ensureMember o (some u) (some tag) = .ok () := by
      unfold ensureMember StructObj.ensureUnion
      simp only [Option.map_some]
      rw [bind_okP hw, if_neg (by simpa using h)]
      rfl
    rw [bind_okP e1, bind_okP (initFromBuffer_self ho)]
    rfl
  · intro h
    have e1 : ensureMember o (some u) (some tag) = .error .valueError := by
      unfold ensureMember StructObj.ensureUnion
      simp only [Option.map_some]
      rw [bind_okP hw, if_pos h]
      rfl
    rw [e1]
    rfl

/-- Finding: a member of the union of the struct cannot be read through a virtual group, even if it is the current
member: `TypeError` always (the class of the group has no union). -/
theorem C59_union_member {v : VGroup} {f : AField} (hf : f ∈ v.fields)
    (hnames : ∀ g ∈ v.fields, g.field.name = f.field.name → g = f) (hd : f.field.disc.isSome) (g : StructObj) :
    v.getAttr g f.field.name = some (.error .typeError) := by
  unfold VGroup.getAttr
  rw [getAttr_of_mem (List.mem_map_of_mem hf) ?_, getField_wrong hd]
  intro x hx hxn
  obtain ⟨z, hz, rfl⟩ := List.mem_map.mp hx
  rw [hnames z hz hxn]

/-- Finding: a virtual group named inside another virtual group reads `None`. -/
theorem C59_nested {v : VGroup} {f : AField} (hf : f ∈ v.fields)
    (hnames : ∀ g ∈ v.fields, g.field.name = f.field.name → g = f) (hvoid : f.isVoid = true) (hd : f.field.disc = none)
    (g : StructObj) : v.getAttr g f.field.name = some (.ok .none) := by
  unfold VGroup.getAttr
  rw [getAttr_of_mem (List.mem_map_of_mem hf) ?_]
  · unfold AField.isVoid at hvoid
    split at hvoid
    · rename_i n c d off df e
      rw [e] at hd ⊢
      have hd : d = none := hd
      subst hd
      unfold getField
      rfl
    · cases hvoid
  · intro x hx hxn
    obtain ⟨z, hz, rfl⟩ := List.mem_map.mp hx
    rw [hnames z hz hxn]

/-- C59: a virtual group is not an argument of the constructor: it has no storage. -/
theorem C59_not_a_parameter (fuel : Nat) (S : Schema) {f : AField}
    (hvoid : f.isVoid = true) (hd : f.field.disc = none)
    (hnames : ∀ g ∈ S.fields, g.name = f.field.name → g = f.field) (a : Arg) (kw : List (String × Arg)) :
    S.call fuel ((f.field.name, a) :: kw) = .error .typeError := by
  refine C30_unknown_keyword fuel S _ (f.field.name, a) List.mem_cons_self fun g hg hgn => ?_
  unfold Schema.params at hg
  rw [List.mem_filter] at hg
  rw [hnames g hg.1 hgn] at hg
  unfold AField.isVoid at hvoid
  split at hvoid
  · rename_i n c d off df e
    rw [e] at hd hg
    have hd : d = none := hd
    subst hd
    simp [Field.skipped] at hg
  · cases hvoid

/-- C59: exactly when a struct with such annotations compiles (as far as they are concerned): they are on `Void`
fields, name fields of the struct and the hashes of the names of the annotated fields differ modulo 10000 from each
other and from the ids of other nodes. -/
theorem C59_compiles {hash : Bytes → Int} {structId : Int} {all : List AField} {ids : List Int} :
    ((∃ r, registerGroups hash structId all ids all = .ok r) ↔
      (∀ f ∈ all, ∀ text, f.group = some text →
        f.isVoid = true ∧ ∀ x ∈ groupNames text, ∃ g ∈ all, g.cname = x) ∧
      (∀ (i j : Nat) (f g : AField), all[i]? = some f → all[j]? = some g → f.group.isSome → g.group.isSome → i ≠ j →
        hash f.cname % 10000 ≠ hash g.cname % 10000) ∧
      ∀ f ∈ all, f.group.isSome → structId + hash f.cname % 10000 ∉ ids) ∧
    (∀ e, registerGroups hash structId all ids all = .error e → e = .keyError ∨ e = .assertionError) := by
  refine ⟨registerGroups_iff.1.trans ⟨fun h => ⟨h.1, ?_, ?_⟩, fun h => ⟨h.1, ?_, ?_⟩⟩, registerGroups_iff.2⟩
  · have key : ∀ fs : List AField, ((annotated fs).map (nodeId hash structId)).Nodup →
        ∀ (i j : Nat) (f g : AField), fs[i]? = some f → fs[j]? = some g → f.group.isSome → g.group.isSome → i ≠ j →
        hash f.cname % 10000 ≠ hash g.cname % 10000 := by
      intro fs
      induction fs with
      | nil => intro _ i j f g hi; simp at hi
      | cons a fs ih =>
        intro hnd i j f g hi hj hf hg hij
        have hin : ∀ x : AField, ∀ k : Nat, fs[k]? = some x → x.group.isSome → x ∈ annotated fs := fun x k hk hx =>
          List.mem_filter.mpr ⟨List.mem_of_getElem? hk, hx⟩
        unfold annotated at hnd
        have hnd' : ((annotated fs).map (nodeId hash structId)).Nodup := by
          by_cases ha : a.group.isSome
          · rw [List.filter_cons_of_pos (p := fun f : AField => f.group.isSome) ha, List.map_cons, List.nodup_cons] at hnd
            exact hnd.2
          · rw [List.filter_cons_of_neg (p := fun f : AField => f.group.isSome) ha] at hnd
            exact hnd
        have hh : ∀ x ∈ annotated fs, a.group.isSome → hash a.cname % 10000 ≠ hash x.cname % 10000 := by
          intro x hx ha hc
          rw [List.filter_cons_of_pos (p := fun f : AField => f.group.isSome) ha, List.map_cons, List.nodup_cons] at hnd
          exact hnd.1 (List.mem_map.mpr ⟨x, hx, by unfold nodeId; rw [hc]⟩)
        cases i with
        | zero =>
          cases j with
          | zero => exact absurd rfl hij
          | succ j =>
            have e : a = f := by simpa using hi
            subst e
            have hj : fs[j]? = some g := by simpa using hj
            exact hh g (hin g j hj hg) hf
        | succ i =>
          have hi : fs[i]? = some f := by simpa using hi
          cases j with
          | zero =>
            have e : a = g := by simpa using hj
            subst e
            exact fun hc => hh f (hin f i hi hf) hg hc.symm
          | succ j =>
            have hj : fs[j]? = some g := by simpa using hj
            exact ih hnd' i j f g hi hj hf hg (by omega)
    exact key all h.2.1
  · exact fun f hf hg => h.2.2 f (List.mem_filter.mpr ⟨hf, hg⟩)
  · have key : ∀ fs : List AField, (∀ (i j : Nat) (f g : AField), fs[i]? = some f → fs[j]? = some g →
        f.group.isSome → g.group.isSome → i ≠ j → hash f.cname % 10000 ≠ hash g.cname % 10000) →
        ((annotated fs).map (nodeId hash structId)).Nodup := by
      intro fs
      induction fs with
      | nil => intro _; exact List.nodup_nil
      | cons a fs ih =>
        intro h
        have ih' := ih fun i j f g hi hj hf hg hij => h (i + 1) (j + 1) f g (by simpa using hi) (by simpa using hj) hf hg
          (by omega)
        unfold annotated
        by_cases ha : a.group.isSome
        · rw [List.filter_cons_of_pos (p := fun f : AField => f.group.isSome) ha, List.map_cons, List.nodup_cons]
          refine ⟨fun hc => ?_, ih'⟩
          obtain ⟨x, hx, e⟩ := List.mem_map.mp hc
          obtain ⟨hx1, hx2⟩ := List.mem_filter.mp hx
          obtain ⟨k, hk, e2⟩ := List.getElem_of_mem hx1
          refine h 0 (k + 1) a x rfl (by rw [List.getElem?_cons_succ, List.getElem?_eq_getElem hk, e2]) ha hx2 (by omega) ?_
          unfold nodeId at e
          omega
        · rw [List.filter_cons_of_neg (p := fun f : AField => f.group.isSome) ha]
          exact ih'
    exact key all h.2.1
  · intro f hf
    obtain ⟨h1, h2⟩ := List.mem_filter.mp hf
    exact h.2.2 f h1 h2

/-! ## Examples -/

def xField : AField := ⟨[120], .slot "x" 0 none (.prim .q) 0 none, none⟩
def yField : AField := ⟨[121], .slot "y" 1 none (.prim .q) 1 (some 42), none⟩
/-- `position @2 :Void $Py.group("x, y")` -/
def positionField : AField := ⟨[112], .slot "position" 2 none .void 0 none, some [120, 44, 32, 121]⟩
/-- `rev @3 :Void $Py.group("y,x")` -/
def revField : AField := ⟨[114], .slot "rev" 3 none .void 0 none, some [121, 44, 120]⟩

theorem positionSpells : Spells [[120], [121]] [120, 44, 32, 121] :=
  .cons [] [120] [] [[121]] [32, 121] (by simp) (by simp) (.one [32] [121] [] (by simp [IsSpace]) (by simp))

/-- `p.position.y` is `p.y` for every object `p`: the hypotheses of `C59_reads` are met. -/
example {seg : Seg} {off ds ps : Int} {o : StructObj} (ho : StructObj.initFromBuffer seg off ds ps = .ok o) :
    ∃ (v : VGroup) (g : StructObj), getVoid o none [v] positionField = .ok (.group g) ∧
      v.getAttr g "y" = Capnpy.getAttr o none "y" [xField.field, yField.field, positionField.field] := by
  have hr : registerGroups (fun _ => 7) 5 [xField, yField, positionField] [5] [xField, yField, positionField] =
      .ok ([12, 5], [⟨positionField, 12, [xField, yField]⟩]) := rfl
  obtain ⟨v, g, hv, e, h1, h2⟩ := C59_reads hr (by
      intro f hf g hg h
      simp only [List.mem_cons, List.not_mem_nil, or_false] at hf hg
      rcases hf with rfl | rfl | rfl <;> rcases hg with rfl | rfl | rfl <;>
        first | rfl | exact absurd h (by decide +kernel))
    ho none (f := positionField) (by simp) rfl rfl positionSpells (by
      intro s hs
      simp only [List.mem_cons, List.not_mem_nil, or_false] at hs
      rcases hs with rfl | rfl
      · exact ⟨by simp, by simp [IsSpace]⟩
      · exact ⟨by simp, by simp [IsSpace]⟩)
  rw [List.mem_singleton] at hv
  subst hv
  refine ⟨_, g, h1, h2 yField (by simp) (by simp [yField]) (by
    intro y hy h
    simp only [List.mem_cons, List.not_mem_nil, or_false] at hy
    rcases hy with rfl | rfl | rfl <;> first | rfl | exact absurd h (by decide +kernel)) rfl⟩

/-- Finding: with two virtual groups in a struct, whether the schema compiles depends on the (randomized) hashes of their
names. -/
theorem C59_hash_dependent :
    (∃ r, registerGroups (fun s => s.sum.toNat) 5 [xField, yField, positionField, revField] [5]
      [xField, yField, positionField, revField] = .ok r) ∧
    registerGroups (fun _ => 7) 5 [xField, yField, positionField, revField] [5]
      [xField, yField, positionField, revField] = .error .assertionError :=
  ⟨⟨_, rfl⟩, rfl⟩

/-- A name which is not a field of the struct: `KeyError` (at compile time). -/
theorem C59_unknown_name (hash : Bytes → Int) (structId : Int) (all : List AField) (ids : List Int) {f : AField}
    (hf : f ∈ all) {text : Bytes} (ht : f.group = some text) {names : List Bytes} (hs : Spells names text)
    (hn : ∀ s ∈ names, IsName s) {x : Bytes} (hx : x ∈ names) (h : ∀ g ∈ all, g.cname ≠ x) :
    ∃ e, registerGroups hash structId all ids all = .error e ∧ (e = .keyError ∨ e = .assertionError) := by
  cases hr : registerGroups hash structId all ids all with
  | error e => exact ⟨e, rfl, C59_compiles.2 e hr⟩
  | ok r =>
    obtain ⟨h1, _⟩ := C59_compiles.1.mp ⟨r, hr⟩
    obtain ⟨g, hg, e⟩ := (h1 f hf text ht).2 x (by rw [spells_names hs hn]; exact hx)
    exact absurd e (h g hg)

/-- Finding: a name twice in the annotation makes the generated module a syntax error (the constructor of the group
has that parameter twice). -/
theorem C59_duplicate (kwlist : List String) {v : VGroup} (h : ¬ ((groupParams (v.fields.map AField.field)).map Field.name).Nodup)
    (name : String) (code : Nat) (disc : Option Nat) (fs : List Field) :
    groupMethods kwlist (.group name code disc false none (v.fields.map AField.field) :: fs) = .error .syntaxError := by
  unfold groupMethods
  rw [if_neg (by simp), if_pos (.inr (.inr h))]

end Capnpy.Props
