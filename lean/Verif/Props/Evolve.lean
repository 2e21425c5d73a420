import Verif.Proof.EvolveUnion
import Verif.Props.Ctor
import Verif.Props.Message

/-!
# C63: schema evolution

A message constructed with one version of a schema, read with another one.  The
specification is in Spec/Evolve.lean.  In all the theorems `o'` is any object with the
same value as the constructed one: itself, a copy, what `loads(dumps(o))` gives
(C17), the field of a message it was stored in (`C63_nested`), an item of a list.
-/

namespace Capnpy.Props

open Spec

/-- The objects that stand for what a constructor call makes. -/
def MadeBy (fuel : Nat) (S : Schema) (args : List Arg) (o' : StructObj) : Prop :=
  ∃ o v, S.construct fuel args = .ok o ∧ Denotes o v ∧ Denotes o' v

theorem madeBy_spec {fuel : Nat} {S : Schema} {args : List Arg} {n : Nat} {o' : StructObj} (hS : S.WF)
    (hl : S.locals.Nodup) (ha : AccFields fuel S.fields args n) (hm : (members S.fields args).length ≤ 1)
    (hsz : 8 * (S.dataWords + S.ptrs) + n ≤ 2 ^ 32) (h : MadeBy fuel S args o') :
    ∃ C data ptrs, Denotes (objAt C none 0 S.dataWords S.ptrs) (.struct data ptrs) ∧ Denotes o' (.struct data ptrs) ∧
      HoldsFields S.dataWords C S.union S.fields args ∧ ∀ c, ¬ schemaCells S c → Unset data ptrs c := by
  obtain ⟨C, data, ptrs, e, hd, hh, hz⟩ := construct_unset fuel S args n hS hl ha hm hsz
  obtain ⟨o, v, e', h1, h2⟩ := h
  rw [e] at e'
  injection e' with e'
  subst e'
  rw [denotes_unique h1 hd] at h2
  exact ⟨C, data, ptrs, hd, h2, hh, hz⟩

/-- C63: the constructor makes such an object. -/
theorem C63_made (fuel : Nat) (S : Schema) (args : List Arg) (n : Nat) (hS : S.WF) (hl : S.locals.Nodup)
    (ha : AccFields fuel S.fields args n) (hm : (members S.fields args).length ≤ 1)
    (hsz : 8 * (S.dataWords + S.ptrs) + n ≤ 2 ^ 32) :
    ∃ o, S.construct fuel args = .ok o ∧ MadeBy fuel S args o := by
  obtain ⟨C, data, ptrs, e, hd, _⟩ := construct_unset fuel S args n hS hl ha hm hsz
  exact ⟨_, e, _, _, e, hd, hd⟩

/-- C63: whatever was given to the constructor is read from every copy of the message,
with any schema that has the field at the same place: the name (and the other fields)
may have changed. -/
theorem C63_renamed (fuel : Nat) (S : Schema) (args : List Arg) (n : Nat) (o' : StructObj) (hS : S.WF)
    (hl : S.locals.Nodup) (ha : AccFields fuel S.fields args n) (hm : (members S.fields args).length ≤ 1)
    (hsz : 8 * (S.dataWords + S.ptrs) + n ≤ 2 ^ 32) (ho : MadeBy fuel S args o')
    (k : Nat) (f : Field) (a : Arg) (hf : S.params[k]? = some f) (hk : args[k]? = some a) (hab : absent f a = false) :
    ReadsVal o' f a (getField o' S.union f) ∧
    ∀ name code name' code' ty off dflt, f = .slot name code f.disc ty off dflt →
      SlotReads ty a (getField o' S.union (.slot name' code' f.disc ty off dflt)) := by
  obtain ⟨C, data, ptrs, hd, hd', hh, _⟩ := madeBy_spec hS hl ha hm hsz ho
  have hr := readsFields_get (reads_fields_copy hd hd' _ _ _ hS.tag hS.fields hh) k f a hf hk hab
  refine ⟨hr, fun name code name' code' ty off dflt e => ?_⟩
  rw [e] at hr
  unfold ReadsVal at hr
  have : getField o' S.union (.slot name code f.disc ty off dflt) = getField o' S.union (.slot name' code' f.disc ty off dflt) := by
    unfold getField; rfl
  rw [← this]
  exact hr

/-- C63: a field that the schema of the writer does not have (it is in cells which that
schema does not use: in its padding, or beyond its sections) reads as its default,
whatever its type, also groups and nullable groups. -/
theorem C63_new_field (fuel : Nat) (S : Schema) (args : List Arg) (n : Nat) (o' : StructObj) (hS : S.WF)
    (hl : S.locals.Nodup) (ha : AccFields fuel S.fields args n) (hm : (members S.fields args).length ≤ 1)
    (hsz : 8 * (S.dataWords + S.ptrs) + n ≤ 2 ^ 32) (ho : MadeBy fuel S args o')
    (ds ps : Nat) (union : Option Nat) (f : Field) (hf : FieldWF ds ps f)
    (hnew : ∀ c, fieldCells f c → ¬ schemaCells S c) : ReadsDefault o' union f := by
  obtain ⟨C, data, ptrs, _, hd', _, hz⟩ := madeBy_spec hS hl ha hm hsz ho
  exact readsDefault_unset hd' union f hf (fun c hc => hz c (hnew c hc))

/-- The field outside of its union. -/
def Field.free : Field → Field
  | .slot n c _ ty off df => .slot n c none ty off df
  | .group n c _ nl u ch => .group n c none nl u ch

/-- C63: in a union that the schema of the writer does not have, the first member is set:
`which()` is 0, the first member (which may be an older field, now moved into the
union) reads as if it were outside of the union, and the others raise ValueError. -/
theorem C63_new_union (fuel : Nat) (S : Schema) (args : List Arg) (n : Nat) (o' : StructObj) (hS : S.WF)
    (hl : S.locals.Nodup) (ha : AccFields fuel S.fields args n) (hm : (members S.fields args).length ≤ 1)
    (hsz : 8 * (S.dataWords + S.ptrs) + n ≤ 2 ^ 32) (ho : MadeBy fuel S args o')
    (u : Nat) (hnew : ∀ c, tagCells u c → ¬ schemaCells S c) :
    o'.whichRaw (some ((u * 2 : Nat) : Int)) = .ok 0 ∧
    (∀ f, f.disc = some 0 → ∀ union, getField o' (some u) f = getField o' union (Field.free f)) ∧
    (∀ f tag, f.disc = some (tag + 1) → getField o' (some u) f = .error .valueError) := by
  obtain ⟨C, data, ptrs, _, hd', _, hz⟩ := madeBy_spec hS hl ha hm hsz ho
  have h0 : o'.whichRaw (some ((u * 2 : Nat) : Int)) = .ok 0 :=
    holds_unset hd' (g := (u, 0)) rfl (fun c hc => hz c (hnew c hc))
  refine ⟨h0, fun f hf union => ?_, fun f tag hf => ?_⟩
  · have he : ensureMember o' (some u) (some 0) = .ok () := by
      unfold ensureMember StructObj.ensureUnion
      simp only [Option.map_some]
      rw [bind_okP h0, if_neg (by simp)]
      rfl
    cases f with
    | slot n c d ty off df =>
      have hf : d = some 0 := hf
      subst hf
      unfold Field.free getField
      rw [bind_okP he]
      rfl
    | group n c d nl gu ch =>
      have hf : d = some 0 := hf
      subst hf
      unfold Field.free getField
      rw [bind_okP he]
      rfl
  · exact C31_wrong_member o' u 0 f (tag + 1) hf h0 (by omega)

theorem findField_mem {x : String} : ∀ {fs : List Field} {f : Field}, findField x fs = some f → f ∈ fs
  | [], f, h => by cases h
  | g :: gs, f, h => by
    unfold findField at h
    split at h
    · rename_i hg
      injection h with h
      subst h
      exact List.mem_cons_of_mem _ (findField_mem hg)
    · split at h
      · injection h with h
        subst h
        exact List.mem_cons_self
      · cases h

theorem leads_wf {ds ps : Nat} {union : Option Nat} {fields : List Field} {path : List String} {G : List Guard}
    {s : SlotOf} (h : Leads union fields path G s) (hwf : FieldsWF ds ps union fields) : SlotWF ds ps s.ty s.off s.dflt := by
  induction h with
  | slot hf _ =>
    have := fieldsWF_mem hwf (findField_mem hf)
    unfold FieldWF at this
    exact this
  | group hf _ _ ih =>
    have := fieldsWF_mem hwf (findField_mem hf)
    unfold FieldWF at this
    exact ih this.2.1

theorem holds_same {o o' : StructObj} {data : Bytes} {ptrs : List Val} (ho : Denotes o (.struct data ptrs))
    (ho' : Denotes o' (.struct data ptrs)) (g : Guard) : Holds o g ↔ Holds o' g := by
  unfold Holds
  rw [whichRaw_same ho ho' g.1]

/-- C63, a newer reader: if `S'` is a newer version of the schema `S` of the writer, then
every attribute path of `S'` is one of these:
* the path of a slot of `S` (which may have had another name, or have been outside of a
  group or of a new union); it reads what the reader with `S` reads, including the
  errors for inactive members;
* the path of a new slot; it reads as its default, unless it is an inactive member of a
  union: then it raises ValueError;
* the path of (a slot in) a new member of a union; it raises ValueError. -/
theorem C63_new_reader (fuel : Nat) (S S' : Schema) (args : List Arg) (n : Nat) (o' : StructObj) (hS : S.WF)
    (hS' : S'.WF) (hdt : DistinctTags S.fields) (hev : Evolves S S')
    (hl : S.locals.Nodup) (ha : AccFields fuel S.fields args n) (hm : (members S.fields args).length ≤ 1)
    (hsz : 8 * (S.dataWords + S.ptrs) + n ≤ 2 ^ 32) (ho : MadeBy fuel S args o')
    (path' : List String) (G' : List Guard) (s' : SlotOf) (hp : Leads S'.union S'.fields path' G' s') :
    (∃ path G, Leads S.union S.fields path G s' ∧
      getPath o' S'.union S'.fields path' = getPath o' S.union S.fields path) ∨
    (Fresh S s' ∧
      ((∀ g ∈ G', Holds o' g) → getPath o' S'.union S'.fields path' = .ok (declaredDefault s'.ty s'.dflt)) ∧
      ((∃ g ∈ G', ¬ Holds o' g) → getPath o' S'.union S'.fields path' = .error .valueError)) ∨
    ((InNewUnion S G' ∨ NewMember S G') ∧ getPath o' S'.union S'.fields path' = .error .valueError) := by
  obtain ⟨C, data, ptrs, hd, hd', hh, hz⟩ := madeBy_spec hS hl ha hm hsz ho
  obtain ⟨q1, q2⟩ := getPath_leads hd' hp
  rcases hev path' G' s' hp with ⟨path, G, s, hle, rfl, hG1, hG2⟩ | hfr | hin | hnm
  · refine .inl ⟨path, G, hle, ?_⟩
    obtain ⟨r1, r2⟩ := getPath_leads hd' hle
    have hiff : (∀ g ∈ G', Holds o' g) ↔ ∀ g ∈ G, Holds o' g := by
      refine ⟨fun h g hg => h g (hG1 g hg), fun h g hg => ?_⟩
      rcases hG2 g hg with h1 | ⟨h1, h2⟩
      · exact h g h1
      · exact holds_unset hd' h1 (fun c hc => hz c (h2 c hc))
    by_cases h : ∀ g ∈ G', Holds o' g
    · rw [q1 h, r1 (hiff.mp h)]
    · have hn : ¬ ∀ g ∈ G, Holds o' g := fun hc => h (hiff.mpr hc)
      rw [q2 (by push Not at h; exact h), r2 (by push Not at hn; exact hn)]
  · refine .inr (.inl ⟨hfr, fun h => ?_, q2⟩)
    rw [q1 h]
    refine getSlot_unset hd' (fun fmt hf => ?_) (fun c hc => hz c (hfr c hc))
    have := leads_wf hp hS'.fields
    rw [hf] at this
    exact this.2
  · refine .inr (.inr ⟨.inl hin, q2 ?_⟩)
    obtain ⟨g, hg, h0, hfr⟩ := hin
    refine ⟨g, hg, fun hc => h0 ?_⟩
    have hz0 : Holds o' (g.1, 0) := holds_unset hd' rfl (fun c hc => hz c (hfr c hc))
    unfold Holds at hz0 hc
    rw [hz0] at hc
    injection hc with hc
    exact_mod_cast hc.symm
  · refine .inr (.inr ⟨.inr hnm, q2 ?_⟩)
    obtain ⟨G, u, fields, tag, hgr, hsub, hmem, h0, hnew⟩ := hnm
    by_cases hall : ∀ g ∈ G, Holds o' g
    · refine ⟨_, hmem, fun hc => ?_⟩
      obtain ⟨C2, _, e2, _, _, hh2, hz2⟩ := construct_spec fuel S args n hS hl ha hm hsz
      obtain ⟨oo, v, e4, g1, g2⟩ := ho
      rw [e2] at e4
      injection e4 with e4
      subst e4
      obtain ⟨_, _, _, _, _, d5, p5, _, _, _, _, _, _, rfl⟩ := id g1
      have hb := (denotes_sections g1).1
      refine newMember_not_holds hb hgr hS.tag hS.fields hdt (.inr ⟨args, n, ha, hm, hh2, fun i hi => hz2 i ?_⟩) h0 hnew
        (fun g hg => (holds_same g1 g2 g).mpr (hall g hg)) ((holds_same g1 g2 _).mpr hc)
      rcases hi with hi | hi
      · have := tagBits_lt hS.tag hi; omega
      · exact fieldsBits_lt _ _ _ _ hS.fields i hi
    · push Not at hall
      obtain ⟨g, hg, hn⟩ := hall
      exact ⟨g, hsub g hg, hn⟩

/-- C63, an older reader: on any message (in particular one made with the newer schema
`S'`), a path of the older schema `S` gives what the path of the same slot in `S'` gives,
if that can be read; and raises ValueError if one of the unions of `S` around it has
another tag. -/
theorem C63_old_reader (S S' : Schema) (o : StructObj) (v : Val) (ho : Denotes o v)
    (path path' : List String) (G G' : List Guard) (s s' : SlotOf) (hp : Leads S.union S.fields path G s)
    (hp' : Leads S'.union S'.fields path' G' s') (hmv : Moved S G G' s s') :
    (∀ r, getPath o S'.union S'.fields path' = .ok r → getPath o S.union S.fields path = .ok r) ∧
    ((∃ g ∈ G, ¬ Holds o g) → getPath o S.union S.fields path = .error .valueError ∧
      getPath o S'.union S'.fields path' = .error .valueError) := by
  obtain ⟨q1, q2⟩ := getPath_leads ho hp'
  obtain ⟨r1, r2⟩ := getPath_leads ho hp
  obtain ⟨rfl, hG1, hG2⟩ := hmv
  refine ⟨fun r hr => ?_, fun h => ⟨r2 h, q2 ?_⟩⟩
  · by_cases h : ∀ g ∈ G', Holds o g
    · rw [r1 (fun g hg => h g (hG1 g hg)), ← q1 h, hr]
    · rw [q2 (by push Not at h; exact h)] at hr
      cases hr
  · obtain ⟨g, hg, hn⟩ := h
    exact ⟨g, hG1 g hg, hn⟩

/-- C63, an older reader: if the message was made with a newer schema that has more
members in the union, and one of these is set, `which()` is its number, and every member
known to the older schema raises ValueError. -/
theorem C63_unknown_member (fuel : Nat) (S S' : Schema) (args : List Arg) (n u tag : Nat) (o' : StructObj)
    (hS' : S'.WF) (hl : S'.locals.Nodup) (ha : AccFields fuel S'.fields args n)
    (hm : members S'.fields args = [tag]) (hsz : 8 * (S'.dataWords + S'.ptrs) + n ≤ 2 ^ 32)
    (hu : S.union = some u) (hu' : S'.union = some u) (hnew : ∀ f ∈ S.fields, f.disc ≠ some tag)
    (ho : MadeBy fuel S' args o') :
    o'.whichRaw (some ((u * 2 : Nat) : Int)) = .ok tag ∧
    ∀ f ∈ S.fields, f.disc.isSome → getField o' S.union f = .error .valueError := by
  obtain ⟨o, v, e, h1, h2⟩ := ho
  obtain ⟨o2, e2, hw, _⟩ := C31_which fuel S' args n u hS' hl hu' ha (by rw [hm]; simp) hsz
  rw [e] at e2
  injection e2 with e2
  subst e2
  obtain ⟨_, _, _, _, _, data, ptrs, _, _, _, _, _, _, rfl⟩ := id h1
  have hw' : o'.whichRaw (some ((u * 2 : Nat) : Int)) = .ok tag := by
    rw [← whichRaw_same h1 h2 u]
    exact (hw tag hm).1
  refine ⟨hw', fun f hf hd => ?_⟩
  obtain ⟨t, ht⟩ := Option.isSome_iff_exists.mp hd
  rw [hu]
  refine C31_wrong_member o' u tag f t ht hw' ?_
  intro hc
  apply hnew f hf
  rw [ht]
  congr 1
  exact_mod_cast hc.symm

/-- C63: a message stored in a field of another message, however the classes of the two
have evolved: reading that field gives an object with the same value. -/
theorem C63_nested (fuel fuel' : Nat) (S T : Schema) (args targs : List Arg) (n : Nat) (t' : StructObj) (hT : T.WF)
    (hl : T.locals.Nodup) (ha : AccFields fuel' T.fields targs n) (hm : (members T.fields targs).length ≤ 1)
    (hsz : 8 * (T.dataWords + T.ptrs) + n ≤ 2 ^ 32) (ht : MadeBy fuel' T targs t')
    (o : StructObj) (ho : MadeBy fuel S args o)
    (k : Nat) (name : String) (code : Nat) (disc : Option Nat) (off : Nat) (dflt : Option Int)
    (hf : T.params[k]? = some (.slot name code disc .struct off dflt)) (hk : targs[k]? = some (.struct o)) :
    ∃ o', getField t' T.union (.slot name code disc .struct off dflt) = .ok (.struct o') ∧ MadeBy fuel S args o' := by
  obtain ⟨hr, _⟩ := C63_renamed fuel' T targs n t' hT hl ha hm hsz ht k _ _ hf hk (by simp [absent, Arg.isUndefined])
  unfold ReadsVal at hr
  rcases hr with ⟨h, _⟩ | ⟨o1, o', v, h1, h2, h3, h4⟩
  · cases h
  · injection h1 with h1
    subst h1
    obtain ⟨oo, w, e, d1, d2⟩ := ho
    exact ⟨o', h2, oo, w, e, d1, by rw [denotes_unique d2 h3]; exact h4⟩

/-- C63: a message that was dumped and loaded. -/
theorem C63_dumped (fuel fuel' : Nat) (S : Schema) (args : List Arg) (o : StructObj) (v : Val)
    (ho : MadeBy fuel S args o) (hv : Denotes o v) (hf : v.Fits)
    (hlen : o.seg.buf.length ≤ 2 ^ 32) (hsz : 16 + v.size ≤ 2 ^ 32) (hfuel : 2 * v.depth ≤ fuel' + 1) :
    ∃ s o', dumps o false fuel' = .ok s ∧ loads s = .ok (some o') ∧ MadeBy fuel S args o' := by
  obtain ⟨s, o', h1, h2, h3⟩ := C17_slow_path hv hf hlen hsz hfuel
  obtain ⟨oo, w, e, d1, d2⟩ := ho
  exact ⟨s, o', h1, h2, oo, w, e, d1, by rw [denotes_unique d2 hv]; exact h3⟩

/-! ## Examples -/

/-- `struct A { x @0 :Int32; }` -/
def oldA : Schema := ⟨1, 0, none, [.slot "x" 0 none (.prim .i) 0 none]⟩

/-- Some versions later: `x` has been renamed and moved into a union, and there is a
group of new fields, one of them in the padding of the old struct.

    struct A {
        union { ex @0 :Int32; z @1 :Int16; }
        g :group { y @2 :UInt8 = 9; t @3 :Text; }
    } -/
def newA : Schema := ⟨1, 1, some 2,
  [ .slot "ex" 0 (some 0) (.prim .i) 0 none,
    .slot "z" 1 (some 1) (.prim .h) 0 none,
    .group "g" 2 none false none
      [ .slot "y" 2 none (.prim .B) 6 (some 9),
        .slot "t" 3 none .text 0 none ] ]⟩

theorem oldA_wf : oldA.WF := by
  refine ⟨by decide, by decide, ?_, ?_⟩
  · intro u hu; cases hu
  · unfold oldA
    simp only [FieldsWF, FieldWF, SlotWF, Field.disc, fieldBits, slotBits, tagBits, Fmt.size, List.not_mem_nil]
    simp

theorem newA_wf : newA.WF := by
  refine ⟨by decide, by decide, ?_, ?_⟩
  · intro u hu
    cases hu
    decide
  · unfold newA
    simp only [FieldsWF, FieldWF, TagWF, SlotWF, Field.disc, fieldBits, fieldsBits, slotBits, tagBits, Fmt.size,
      List.mem_cons, List.not_mem_nil, or_false, forall_eq_or_imp, forall_eq,
      Option.isSome_some, Option.isSome_none, true_and, and_true, Bool.false_eq_true, false_and, false_or]
    simp [InRange, isSigned, Fmt.size]
    repeat' apply And.intro
    all_goals
      intros
      omega

theorem oldA_cells (c : Cell) : schemaCells oldA c ↔ ∃ i, c = .bit i ∧ i < 32 := by
  unfold schemaCells oldA
  simp [fieldsCells, fieldCells, slotCells, Fmt.size]

theorem oldA_leads : Leads oldA.union oldA.fields ["x"] [] ⟨.prim .i, 0, none⟩ :=
  .slot (union := none) (disc := none) (code := 0) rfl (by simp)

theorem newA_tag (c : Cell) (h : tagCells 2 c) : ¬ schemaCells oldA c := by
  rw [oldA_cells]
  obtain ⟨i, rfl, h1, h2⟩ := h
  rintro ⟨j, e, hj⟩
  injection e with e
  omega

theorem newA_evolves : Evolves oldA newA := by
  intro path G s h
  cases h with
  | @slot _ _ x code disc ty off dflt hf hu =>
    have hm := findField_mem hf
    simp only [newA, List.mem_cons, List.not_mem_nil, or_false] at hm
    rcases hm with h | h | h <;> cases h
    · refine .inl ⟨["x"], [], _, oldA_leads, rfl, by simp, ?_⟩
      intro g hg
      obtain rfl : g = (2, 0) := by simpa [guardOf, newA] using hg
      exact .inr ⟨rfl, newA_tag⟩
    · exact .inr (.inr (.inl ⟨(2, 1), by simp [guardOf, newA], by decide, newA_tag⟩))
  | @group _ _ x y xs code disc gunion children G s hf hu hl =>
    have hm := findField_mem hf
    simp only [newA, List.mem_cons, List.not_mem_nil, or_false] at hm
    rcases hm with h | h | h <;> cases h
    cases hl with
    | @slot _ _ x code disc ty off dflt hf hu =>
      have hm := findField_mem hf
      simp only [List.mem_cons, List.not_mem_nil, or_false] at hm
      rcases hm with h | h <;> cases h
      · refine .inr (.inl fun c hc => ?_)
        obtain ⟨i, rfl, h1, h2⟩ := hc
        rw [oldA_cells]
        rintro ⟨j, e, hj⟩
        injection e with e
        simp only [Fmt.size] at h1
        omega
      · refine .inr (.inl fun c hc => ?_)
        have hc : c = .ptr 0 := hc
        subst hc
        rw [oldA_cells]
        rintro ⟨j, e, hj⟩
        cases e
    | @group _ _ x y xs code disc gunion children G s hf hu hl =>
      have hm := findField_mem hf
      simp only [List.mem_cons, List.not_mem_nil, or_false] at hm
      rcases hm with h | h <;> cases h

theorem oldA_args (i : Int) (h : InRange .i i) : AccFields 0 oldA.fields [.int i] 0 := by
  simp only [oldA, AccFields, Field.skipped, absent, Field.disc]
  refine ⟨0, 0, rfl, ?_, by simp⟩
  simp only [Option.isSome_none, Bool.false_and, Bool.false_eq_true, if_false]
  unfold AccField SlotArg
  exact ⟨i, rfl, h, rfl⟩

/-- `A(x=77)` written with the old schema: `ex` is 77, `g.y` is 9, `g.t` is None and `z` raises
ValueError, on every copy of the message. -/
theorem newA_reads (o' : StructObj) (ho : MadeBy 0 oldA [.int 77] o') :
    getPath o' newA.union newA.fields ["ex"] = .ok (.int 77) ∧
    getPath o' newA.union newA.fields ["g", "y"] = .ok (.int 9) ∧
    getPath o' newA.union newA.fields ["g", "t"] = .ok .none ∧
    getPath o' newA.union newA.fields ["z"] = .error .valueError := by
  have hm : (members oldA.fields [Arg.int 77]).length ≤ 1 := by
    simp [oldA, members, Field.skipped, Field.disc]
  have ha := oldA_args 77 (by simp [InRange, isSigned, Fmt.size])
  have hl : oldA.locals.Nodup := by decide +kernel
  have hx := (C63_renamed 0 oldA _ 0 o' oldA_wf hl ha hm (by decide) ho 0 _ _ rfl rfl rfl).1
  obtain ⟨hw, hu1, hu2⟩ := C63_new_union 0 oldA _ 0 o' oldA_wf hl ha hm (by decide) ho 2 newA_tag
  have hg := C63_new_field 0 oldA _ 0 o' oldA_wf hl ha hm (by decide) ho 1 1 (some 2)
    (.group "g" 2 none false none [.slot "y" 2 none (.prim .B) 6 (some 9), .slot "t" 3 none .text 0 none])
    (fieldsWF_mem newA_wf.fields (by simp [newA])) (by
      intro c hc
      simp only [fieldCells, fieldsCells, slotCells, Fmt.size] at hc
      rw [oldA_cells]
      rintro ⟨j, e, hj⟩
      subst e
      rcases hc with ⟨u, h, _⟩ | ⟨i, h, h1, h2⟩ | h | h
      · cases h
      · cases h
        omega
      · cases h
      · exact h)
  unfold ReadsVal at hx
  obtain ⟨i, h1, hx⟩ := hx
  cases h1
  unfold ReadsDefault at hg
  obtain ⟨g1, g2⟩ := hg rfl
  unfold ReadsDefaults ReadsDefault ReadsDefaults ReadsDefault ReadsDefaults at g2
  obtain ⟨g2, g3, _⟩ := g2
  refine ⟨?_, ?_, ?_, ?_⟩
  · have e : getField o' (some 2) (.slot "ex" 0 (some 0) (.prim .i) 0 none) = .ok (.int 77) := by
      rw [hu1 _ rfl none]
      exact hx
    show (getField o' (some 2) (.slot "ex" 0 (some 0) (.prim .i) 0 none) >>= _) = _
    rw [bind_okP e]
    rfl
  · show (getField o' (some 2) _ >>= _) = _
    rw [bind_okP g1]
    show (getField o' none _ >>= _) = _
    rw [bind_okP (g2 rfl)]
    rfl
  · show (getField o' (some 2) _ >>= _) = _
    rw [bind_okP g1]
    show (getField o' none _ >>= _) = _
    rw [bind_okP (g3 rfl)]
    rfl
  · show (getField o' (some 2) (.slot "z" 1 (some 1) (.prim .h) 0 none) >>= _) = _
    rw [hu2 _ 0 rfl]
    rfl

theorem oldA_tags : DistinctTags oldA.fields := by
  unfold DistinctTags
  exact ⟨List.nodup_nil, by simp [oldA, fieldsTags, fieldTags]⟩

/-- The hypotheses of `C63_new_reader` are met. -/
example (o' : StructObj) (ho : MadeBy 0 oldA [.int 77] o') :
    ∃ path G, Leads oldA.union oldA.fields path G ⟨.prim .i, 0, none⟩ ∧
      getPath o' newA.union newA.fields ["ex"] = getPath o' oldA.union oldA.fields path := by
  have h := C63_new_reader 0 oldA newA [.int 77] 0 o' oldA_wf newA_wf
    oldA_tags newA_evolves (by decide +kernel)
    (oldA_args 77 (by simp [InRange, isSigned, Fmt.size])) (by simp [oldA, members, Field.skipped, Field.disc])
    (by decide) ho ["ex"] [(2, 0)] ⟨.prim .i, 0, none⟩
    (.slot (union := some 2) (disc := some 0) (code := 0) rfl (by simp))
  rcases h with h | ⟨h, _⟩ | ⟨h, _⟩
  · exact h
  · exact absurd ((oldA_cells _).mpr ⟨0, rfl, by decide⟩) (h (.bit 0) ⟨0, rfl, by decide, by decide⟩)
  · rcases h with ⟨g, hg, h0, _⟩ | ⟨_, u, _, tag, _, _, hmem, h0, _⟩
    · obtain rfl : g = (2, 0) := by simpa using hg
      exact absurd rfl h0
    · simp at hmem
      exact absurd hmem.2 h0

/-- Messages made with the newer schema can be read with the older one: `A(ex=5, g=(1, "hi"))`
has `x = 5`. -/
example (o : StructObj) (v : Val) (ho : Denotes o v)
    (h : getPath o newA.union newA.fields ["ex"] = .ok (.int 5)) :
    getPath o oldA.union oldA.fields ["x"] = .ok (.int 5) :=
  (C63_old_reader oldA newA o v ho ["x"] ["ex"] [] [(2, 0)] ⟨.prim .i, 0, none⟩ ⟨.prim .i, 0, none⟩ oldA_leads
    (.slot (union := some 2) (disc := some 0) (code := 0) rfl (by simp))
    ⟨rfl, by simp, by
      intro g hg
      obtain rfl : g = (2, 0) := by simpa using hg
      exact .inr ⟨rfl, newA_tag⟩⟩).1 _ h

/-- `struct B { u :group { union { a @0 :Int32; b @1 :Int16; } } }`, and a newer version with a
third member in the place of the others. -/
def oldB : Schema := ⟨1, 0, none, [.group "u" 0 none false (some 2)
  [.slot "a" 0 (some 0) (.prim .i) 0 none, .slot "b" 1 (some 1) (.prim .h) 0 none]]⟩

def newB : Schema := ⟨1, 0, none, [.group "u" 0 none false (some 2)
  [.slot "a" 0 (some 0) (.prim .i) 0 none, .slot "b" 1 (some 1) (.prim .h) 0 none,
    .slot "c" 2 (some 2) (.prim .i) 0 (some 3)]]⟩

theorem newB_new : NewMember oldB [(2, 2)] :=
  ⟨[], 2, [.slot "a" 0 (some 0) (.prim .i) 0 none, .slot "b" 1 (some 1) (.prim .h) 0 none], 2,
    .group (union := none) (disc := none) (code := 0) (x := "u") (by simp [oldB]) .self, by simp, by simp, by decide,
    by simp [Field.disc]⟩

theorem newB_evolves : Evolves oldB newB := by
  intro path G s h
  cases h with
  | @slot _ _ x code disc ty off dflt hf hu =>
    have hm := findField_mem hf
    simp only [newB, List.mem_cons, List.not_mem_nil, or_false] at hm
    cases hm
  | @group _ _ x y xs code disc gunion children G s hf hu hl =>
    have hm := findField_mem hf
    simp only [newB, List.mem_cons, List.not_mem_nil, or_false] at hm
    cases hm
    cases hl with
    | @slot _ _ x code disc ty off dflt hf hu =>
      have hm := findField_mem hf
      simp only [List.mem_cons, List.not_mem_nil, or_false] at hm
      rcases hm with h | h | h <;> cases h
      · exact .inl ⟨["u", "a"], _, _, .group (union := none) (disc := none) (code := 0) rfl (by simp)
          (.slot (union := some 2) (disc := some 0) (code := 0) rfl (by simp)), rfl, by simp [guardOf, newB],
          by simp [guardOf, newB]⟩
      · exact .inl ⟨["u", "b"], _, _, .group (union := none) (disc := none) (code := 0) rfl (by simp)
          (.slot (union := some 2) (disc := some 1) (code := 1) rfl (by simp)), rfl, by simp [guardOf, newB],
          by simp [guardOf, newB]⟩
      · exact .inr (.inr (.inr newB_new))
    | @group _ _ x y xs code disc gunion children G s hf hu hl =>
      have hm := findField_mem hf
      simp only [List.mem_cons, List.not_mem_nil, or_false] at hm
      rcases hm with h | h | h <;> cases h

/-! ## What is not true -/

/-- Giving the cells of a removed field to a new one, changing the default of a field,
and moving a field into a union as another member than the first are not allowed
by Cap'n Proto, and nothing detects them: with `A(x=77)`,
* a new `Int16` field in the place of `x` reads 77;
* `x` with the default 3 reads 78;
* as second member of a new union, `x` raises ValueError. -/
theorem C63_incompatible (o' : StructObj) (ho : MadeBy 0 oldA [.int 77] o') :
    getField o' none (.slot "other" 1 none (.prim .h) 0 none) = .ok (.int 77) ∧
    getField o' none (.slot "x" 0 none (.prim .i) 0 (some 3)) = .ok (.int 78) ∧
    getField o' (some 2) (.slot "x" 0 (some 1) (.prim .i) 0 none) = .error .valueError := by
  have hm : (members oldA.fields [Arg.int 77]).length ≤ 1 := by
    simp [oldA, members, Field.skipped, Field.disc]
  have ha := oldA_args 77 (by simp [InRange, isSigned, Fmt.size])
  have hl : oldA.locals.Nodup := by decide +kernel
  refine ⟨?_, ?_, (C63_new_union 0 oldA _ 0 o' oldA_wf hl ha hm (by decide) ho 2 newA_tag).2.2 _ 0 rfl⟩
  all_goals
    obtain ⟨o, v, e, d1, d2⟩ := ho
    have ec : oldA.construct 0 [.int 77] = .ok (objAt [77, 0, 0, 0, 0, 0, 0, 0] none 0 1 0) := by decide +kernel
    rw [ec] at e
    injection e with e
    subst e
    obtain ⟨_, _, _, _, _, data, ptrs, _, _, _, _, _, _, rfl⟩ := id d1
    obtain ⟨_, hdata, _⟩ := denotes_sections d1
    have hdata : data = [77, 0, 0, 0, 0, 0, 0, 0] := hdata
    subst hdata
  · show (o'.primField ((0 : Nat) : Int) .h 0 >>= _) = _
    rw [bind_okP (C09_prim o' _ _ d2 0 .h (by decide) 0)]
    exact congrArg (fun x => Except.ok (RVal.int x)) (by decide +kernel)
  · show (o'.primField ((0 : Nat) : Int) .i 3 >>= _) = _
    rw [bind_okP (C09_prim o' _ _ d2 0 .i (by decide) 3)]
    exact congrArg (fun x => Except.ok (RVal.int x)) (by decide +kernel)

/-- The Cap'n Proto rules also allow to change a list of numbers, texts, ... to a list of
structs that begin with such a field.  capnpy does not support it.  The newer reader:
the items of a list that is not a list of structs on the wire, read as structs, raise
AssertionError, unless the buffer has more than half a megabyte after the item. -/
theorem C63_list_upgrade (seg : Seg) (offset sizeTag count : Int) (d p : Int) (l : ListObj)
    (hl : ListObj.init seg offset sizeTag count (.struct d p) = .ok l) (ht : sizeTag ≠ Ptr.LIST_SIZE_COMPOSITE) (i : Int)
    (hi : seg.buf.length < l.offsetForItem i + 524280) : l.readItem i = .error .assertionError := by
  unfold ListObj.init at hl
  rw [if_neg ht] at hl
  cases hl
  unfold ListObj.readItem
  simp only
  unfold StructObj.initFromBuffer
  have e : Ptr.structDataSize (-1) = 65535 := by decide +kernel
  simp only [e]
  rw [if_pos (by omega)]
  rfl

/-- The older reader: a list of structs read as a list of numbers.  The items are shifted:
item 0 is the tag of the list, item `i + 1` is the first field of struct `i`. -/
theorem C63_list_downgrade (seg : Seg) (offset count : Int) (fmt : Fmt) (l : ListObj)
    (hl : ListObj.init seg offset Ptr.LIST_SIZE_COMPOSITE count (.prim fmt) = .ok l) (i : Int) :
    l.readItem i = (do pure (Item.int (← Capnpy.readPrimitive seg.buf (offset + i * l.itemLength) fmt))) ∧
    l.offsetForItem i = offset + i * l.itemLength + 8 := by
  unfold ListObj.init at hl
  rw [if_pos rfl] at hl
  cases ht : seg.readPtr offset with
  | error e => rw [ht] at hl; cases hl
  | ok tag =>
    rw [bind_okP ht] at hl
    cases hl
    refine ⟨rfl, ?_⟩
    unfold ListObj.offsetForItem
    simp only
    ring

/-- Two structs with an `Int16`, 7 and 9, read as a list of `Int16`: the items are 8 (of the
tag word) and 7. -/
example : ∃ l, ListObj.init ⟨[8, 0, 0, 0, 1, 0, 0, 0, 7, 0, 0, 0, 0, 0, 0, 0, 9, 0, 0, 0, 0, 0, 0, 0], none⟩ 0
    Ptr.LIST_SIZE_COMPOSITE 2 (.prim .h) = .ok l ∧ l.len = 2 ∧ l.readItem 0 = .ok (.int 8) ∧ l.readItem 1 = .ok (.int 7) :=
  ⟨_, rfl, by decide +kernel, by decide +kernel, by decide +kernel⟩

end Capnpy.Props
