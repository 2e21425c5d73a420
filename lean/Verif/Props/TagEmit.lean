import Verif.Model.TagEmit
import Verif.Props.ReprEmit
import Verif.Props.Names

/-!
# C80: `which()` names the member of the union, from the struct nodes of the request
-/

namespace Capnpy.Props

open Spec StructEmit ReprEmit TagEmit Short
open Names (enumStr classAttr fillEnum)

/-! ## The members of the enum -/

theorem setTags_some {d : Nat} : ∀ {fs : List SField} {items r : List (Option String)}, setTags fs items = .ok r →
    ((∃ s, items[d]? = some (some s)) ∨ ∃ f ∈ fs, f.inUnion = true ∧ f.disc = d) → ∃ s, r[d]? = some (some s)
  | [], items, r, h, hd => by
    unfold setTags at h
    cases h
    rcases hd with hd | ⟨f, hf, -⟩
    · exact hd
    · cases hf
  | f :: fs, items, r, h, hd => by
    unfold setTags at h
    split at h
    · rename_i hu
      split at h
      · rename_i hlt
        refine setTags_some h ?_
        by_cases he : f.disc = d
        · subst he
          exact .inl ⟨f.pyname, List.getElem?_set_self hlt⟩
        · rw [List.getElem?_set_ne he]
          rcases hd with hd | ⟨g, hg, h1, h2⟩
          · exact .inl hd
          · rcases List.mem_cons.mp hg with rfl | hg
            · exact absurd h2 he
            · exact .inr ⟨g, hg, h1, h2⟩
      · cases h
    · rename_i hu
      refine setTags_some h ?_
      rcases hd with hd | ⟨g, hg, h1, h2⟩
      · exact .inl hd
      · rcases List.mem_cons.mp hg with rfl | hg
        · exact absurd h1 hu
        · exact .inr ⟨g, hg, h1, h2⟩

theorem memberNames_iff : ∀ {items : List (Option String)} {ms : List String}, memberNames items = .ok ms ↔ items = ms.map some
  | [], ms => by
    unfold memberNames
    cases ms with
    | nil => exact ⟨fun _ => rfl, fun _ => rfl⟩
    | cons m ms => exact ⟨fun h => (by cases h), fun h => (by cases h)⟩
  | none :: items, ms => by
    unfold memberNames
    cases ms with
    | nil => exact ⟨fun h => (by cases h), fun h => (by cases h)⟩
    | cons m ms => exact ⟨fun h => (by cases h), fun h => (by cases h)⟩
  | some s :: items, ms => by
    unfold memberNames
    constructor
    · intro h
      obtain ⟨r, hr, h⟩ := py_inv h
      rw [← Except.ok.inj h, memberNames_iff.mp hr]
      rfl
    · intro h
      cases ms with
      | nil => cases h
      | cons m ms =>
        have h1 := Option.some.inj (List.cons.inj h).1
        rw [bind_okP (memberNames_iff.mpr (List.cons.inj h).2), h1]
        rfl

theorem emitTag_iff {n : SNode} {ms : List String} : emitTag n = .ok (some ms) ↔
    n.discCount ≠ 0 ∧ setTags n.fields (List.replicate n.discCount none) = .ok (ms.map some) := by
  constructor
  · intro h
    unfold emitTag at h
    obtain ⟨items, hi, h⟩ := py_inv h
    unfold enumItems at hi
    split at h
    · cases h
    · rename_i hne
      obtain ⟨ms', hm, h⟩ := py_inv h
      have h := Option.some.inj (Except.ok.inj h)
      subst h
      rw [memberNames_iff.mp hm] at hi
      split at hi
      · have := Except.ok.inj hi
        rw [memberNames_iff.mp hm, ← this] at hne
        exact absurd rfl hne
      · rename_i h0
        exact ⟨h0, hi⟩
  · rintro ⟨h0, h⟩
    have hl := setTags_length h
    rw [List.length_replicate] at hl
    have hi : enumItems n = .ok (ms.map some) := by unfold enumItems; rw [if_neg h0, h]
    unfold emitTag
    rw [bind_okP hi, if_neg (by intro hc; rw [hc] at hl; exact h0 hl.symm), bind_okP (memberNames_iff.mpr rfl)]
    rfl

/-- C80: the enum of the union can be generated and imported exactly if the discriminants of the members are all the
numbers below their number. -/
theorem C80_emits (n : SNode) (h0 : n.discCount ≠ 0) : (∃ ms, emitTag n = .ok (some ms)) ↔
    (∀ f ∈ n.fields, f.inUnion = true → f.disc < n.discCount) ∧ ∀ d < n.discCount, ∃ f ∈ n.fields, f.inUnion = true ∧ f.disc = d := by
  constructor
  · rintro ⟨ms, h⟩
    obtain ⟨-, h⟩ := emitTag_iff.mp h
    refine ⟨?_, ?_⟩
    · have := setTags_ok.mp ⟨_, h⟩
      rwa [List.length_replicate] at this
    · intro d hd
      by_contra hc
      have hk := setTags_keep (d := d) h (fun f hf hu he => hc ⟨f, hf, hu, he⟩)
      rw [List.getElem?_replicate, if_pos hd, List.getElem?_map] at hk
      cases hm : ms[d]? with
      | none => rw [hm] at hk; cases hk
      | some m => rw [hm] at hk; cases hk
  · rintro ⟨h1, h2⟩
    obtain ⟨r, hr⟩ := setTags_ok.mpr (show ∀ f ∈ n.fields, f.inUnion = true → f.disc < (List.replicate n.discCount (none : Option String)).length by
      rwa [List.length_replicate])
    have hl := setTags_length hr
    rw [List.length_replicate] at hl
    refine ⟨r.map (·.getD ""), emitTag_iff.mpr ⟨h0, ?_⟩⟩
    rw [hr]
    refine congrArg Except.ok (List.ext_getElem? fun d => ?_)
    rw [List.map_map, List.getElem?_map]
    by_cases hd : d < n.discCount
    · obtain ⟨s, hs⟩ := setTags_some hr (.inr (h2 d hd))
      rw [hs]
      rfl
    · rw [List.getElem?_eq_none (by omega)]
      rfl

/-- C80: the members of the enum are those of the union, in the order of their discriminants. -/
theorem C80_members {n : SNode} {ms : List String} (h : emitTag n = .ok (some ms)) : ms.length = n.discCount ∧
    ∀ f ∈ n.fields, f.inUnion = true → (∀ g ∈ n.fields, g.inUnion = true → g.disc = f.disc → g.pyname = f.pyname) →
      ms[f.disc]? = some f.pyname := by
  obtain ⟨h0, h⟩ := emitTag_iff.mp h
  refine ⟨?_, fun f hf hu hd => ?_⟩
  · have := setTags_length h
    rwa [List.length_map, List.length_replicate] at this
  · have := setTags_get hu h hf hd
    rw [List.getElem?_map] at this
    cases hm : ms[f.disc]? with
    | none => rw [hm] at this; cases this
    | some m => rw [hm] at this; exact Option.some.inj this

theorem which_spec {n : SNode} (h0 : n.discCount ≠ 0) {o : StructObj} {data : Bytes} {ptrs : List Val}
    (ho : Denotes o (.struct data ptrs)) (ht : tagOf data n.discOffset < 2 ^ 15) :
    which n o = .ok (tagOf data n.discOffset : Nat) := by
  have hd := isMember_spec ho n.discOffset ht
  have h : StructObj.readInt16 o ((n.discOffset * 2 : Nat) : Int) = .ok (tagOf data n.discOffset : Nat) := by
    unfold isMember at hd
    obtain ⟨v, hv, hd⟩ := py_inv hd
    have hd := Except.ok.inj hd
    rw [decide_eq_true rfl] at hd
    rw [hv, eq_of_beq hd]
  unfold which StructObj.whichRaw
  rw [if_neg h0]
  exact h

/-- C80: for a message which has the member `f`, `which()` is the discriminant of `f`, and its text is the name of `f`. -/
theorem C80_which {n : SNode} {ms : List String} (h : emitTag n = .ok (some ms)) (hname : "name" ∉ ms) {f : SField} (hf : f ∈ n.fields)
    (hu : f.inUnion = true) (hd : ∀ g ∈ n.fields, g.inUnion = true → g.disc = f.disc → g.pyname = f.pyname) (hlt : f.disc < 2 ^ 15)
    {o : StructObj} {data : Bytes} {ptrs : List Val} (ho : Denotes o (.struct data ptrs)) (ht : tagOf data n.discOffset = f.disc) :
    which n o = .ok (f.disc : Nat) ∧ whichStr n o = .ok f.pyname := by
  have h0 := (emitTag_iff.mp h).1
  have hw := which_spec h0 ho (by omega)
  rw [ht] at hw
  obtain ⟨-, hm⟩ := C80_members h
  obtain ⟨s, -, hs, hspec, -⟩ := C35_name ms hname (f.disc : Nat)
  refine ⟨hw, ?_⟩
  unfold whichStr
  rw [bind_okP hw, bind_okP h]
  show enumStr ms _ = _
  rw [hs, hspec f.disc f.pyname (hm f hf hu hd) (.inl rfl)]

/-- C80: a member which only a newer version of the schema has is called `unknown<tag>`. -/
theorem C80_newer {n : SNode} {ms : List String} (h : emitTag n = .ok (some ms)) (hname : "name" ∉ ms)
    {o : StructObj} {data : Bytes} {ptrs : List Val} (ho : Denotes o (.struct data ptrs)) (ht : tagOf data n.discOffset < 2 ^ 15)
    (hn : n.discCount ≤ tagOf data n.discOffset) :
    whichStr n o = .ok ("unknown<" ++ toString (tagOf data n.discOffset : Int) ++ ">") := by
  have h0 := (emitTag_iff.mp h).1
  have hw := which_spec h0 ho ht
  obtain ⟨hl, -⟩ := C80_members h
  obtain ⟨s, -, hs, -, hspec⟩ := C35_name ms hname (tagOf data n.discOffset : Nat)
  unfold whichStr
  rw [bind_okP hw, bind_okP h]
  show enumStr ms _ = _
  rw [hs, hspec (.inr (by omega))]

/-- C80: `S.__tag__.f` is the discriminant of `f`: comparing it with `which()` tells if the message has the member `f`. -/
theorem C80_tag_attribute {n : SNode} {ms : List String} (h : emitTag n = .ok (some ms)) (hnd : ms.Nodup) {f : SField} (hf : f ∈ n.fields)
    (hu : f.inUnion = true) (hd : ∀ g ∈ n.fields, g.inUnion = true → g.disc = f.disc → g.pyname = f.pyname) :
    classAttr ms f.pyname = some (.member (f.disc : Nat)) := by
  obtain ⟨-, hm⟩ := C80_members h
  have hm := hm f hf hu hd
  have hmem : (f.pyname, Names.Attr.member (f.disc : Nat)) ∈ (fillEnum ms).reverse := by
    rw [List.mem_reverse]
    unfold fillEnum
    exact List.mem_map.mpr ⟨(f.pyname, f.disc), List.mem_zipIdx_iff_getElem?.mpr hm, rfl⟩
  have hlook : (fillEnum ms).reverse.lookup f.pyname = some (.member (f.disc : Nat)) := by
    cases hl : (fillEnum ms).reverse.lookup f.pyname with
    | none =>
      have := List.lookup_eq_none_iff.mp hl _ hmem
      simp at this
    | some a =>
      obtain ⟨l1, l2, he, -⟩ := List.lookup_eq_some_iff.mp hl
      have hin : (f.pyname, a) ∈ fillEnum ms := by
        rw [← List.mem_reverse, he]; simp
      unfold fillEnum at hin
      obtain ⟨⟨m, i⟩, hi, heq⟩ := List.mem_map.mp hin
      have h1 := (Prod.mk.inj heq).1
      have h2 := (Prod.mk.inj heq).2
      have hi := List.mem_zipIdx_iff_getElem?.mp hi
      simp only at h1 h2 hi
      subst h1
      have : i = f.disc := by
        obtain ⟨a1, a2⟩ := List.getElem?_eq_some_iff.mp hi
        obtain ⟨b1, b2⟩ := List.getElem?_eq_some_iff.mp hm
        exact (List.Nodup.getElem_inj_iff hnd).mp (a2.trans b2.symm)
      rw [← h2, this]
  unfold classAttr
  rw [hlook]

/-! ## Example -/

example : emitTag reprNode = .ok (some ["xs", "nothing"]) := by rfl

example : which reprNode sampleObj = .ok 0 ∧ whichStr reprNode sampleObj = .ok "xs" := by
  obtain ⟨data, ptrs, hv⟩ : ∃ data ptrs, Denotes sampleObj (.struct data ptrs) ∧ tagOf data 1 = 0 := ⟨_, _, sample_denotes, by rfl⟩
  exact C80_which (n := reprNode) (ms := ["xs", "nothing"]) rfl (by decide)
    (f := reqSlot "xs" "xs" 4 0 (.list (.prim .b)) 1 .none false) (by unfold reprNode; simp) rfl (by unfold reprNode; decide) (by decide) hv.1 hv.2

/-- `union { name @0 :Text; other @1 :Void; }` -/
def tagNamed : SNode := ⟨1, 1, 2, 0,
  [reqSlot "name" "name" 0 0 .text 0 .none false, reqSlot "other" "other" 1 1 .void 0 .none false]⟩

/-- C80: the name of the member `name` hides the property: no object of this struct can print its `which()`. -/
theorem C80_member_called_name {o : StructObj} {data : Bytes} {ptrs : List Val} (ho : Denotes o (.struct data ptrs))
    (ht : tagOf data 0 < 2 ^ 15) : emitTag tagNamed = .ok (some ["name", "other"]) ∧ whichStr tagNamed o = .error .typeError := by
  have h : emitTag tagNamed = .ok (some ["name", "other"]) := by rfl
  refine ⟨h, ?_⟩
  have hw := which_spec (n := tagNamed) (emitTag_iff.mp h).1 ho ht
  unfold whichStr
  rw [bind_okP hw, bind_okP h]
  exact (C35_member_called_name [] ["other"] (by decide) _).2

/-- A hole in the discriminants: the generated module cannot be imported. -/
example : emitTag ⟨1, 0, 2, 0, [reqSlot "b" "b" 0 1 .void 0 .none false]⟩ = .error .typeError := by rfl

end Capnpy.Props
