import Verif.Props.StructEmit

/-!
# C78: the constructors of the members of the union, from the struct nodes of the request
-/

namespace Capnpy.Props

open Spec StructEmit
open Const (STy TextType PyVal)
open Module (Str Gen)
open FieldEmit (Slot Getter Setter Ctx emitGetter emitSetter)

/-- Names tell fields apart after the conversion to Python as they did before. -/
def NamesAgree (e : Env) : Prop :=
  ∀ f g, FieldOf e f → FieldOf e g → f.code = g.code → (f.cname = g.cname ↔ f.pyname = g.pyname)

theorem code_same {e : Env} {cls : Nat → Option Const.Cls} {f : SField} {lf : Field} (h : IsField e cls f lf) : lf.code = f.code := by
  cases lf with
  | slot => rw [IsField.eq_1] at h; obtain ⟨s, -, -, h, -⟩ := h; exact h
  | group => rw [IsField.eq_2] at h; obtain ⟨i, n, -, -, -, h, -⟩ := h; exact h

theorem disc_same {e : Env} {cls : Nat → Option Const.Cls} {f : SField} {lf : Field} (h : IsField e cls f lf) : lf.disc = discOf f := by
  cases lf with
  | slot => rw [IsField.eq_1] at h; obtain ⟨s, -, -, -, h, -⟩ := h; exact h
  | group => rw [IsField.eq_2] at h; obtain ⟨i, n, -, -, -, -, h, -⟩ := h; exact h

theorem same_iff {e : Env} (hA : NamesAgree e) {f g : SField} (hf : FieldOf e f) (hg : FieldOf e g) :
    f.same g = (f.pyname == g.pyname && f.code == g.code) := by
  unfold SField.same
  rw [Bool.eq_iff_iff]
  simp only [Bool.and_eq_true, beq_iff_eq]
  constructor
  · rintro ⟨h1, h2⟩; exact ⟨(hA f g hf hg h2).mp h1, h2⟩
  · rintro ⟨h1, h2⟩; exact ⟨(hA f g hf hg h2).mpr h1, h2⟩

/-! ## The defaults -/

theorem nullable_nodes {e : Env} {items : Str → Option ItemType} {cls : Nat → Option Const.Cls} {classes : Nat → PyClass}
    (R : RequestOK e items cls classes) {f : SField} (ho : FieldOf e f) {gid : Nat} {g : SNode} (hk : f.kind = .group gid)
    (hg : e.nodes gid = some g) (hx : f.nullable = true) {children : List Field} (hfs : IsFields e cls g.fields children)
    {c o : Nat} {ty : SlotType} {d : Option Int} {c2 : Field} (hc : children = [.slot "is_null" c none ty o d, c2])
    (hty : IsNullType ty) (hc2 : c2.skipped = false) :
    ∃ isNull value s, check e f = .ok (isNull, value) ∧ isNull.kind = .slot s ∧ FieldOf e isNull ∧ slotTypeOf cls isNull.tt s.ty = some ty ∧
      d = explicitDefault s ∧ g.fields.filter (fun f => !(f.isVoid && !f.inUnion)) = [isNull, value] := by
  have hnode : e.node gid = .ok g := by unfold Env.node; rw [hg]
  obtain ⟨id, n, hn, hm⟩ := ho
  obtain ⟨a, ha⟩ := R.field hn hm
  rcases (C77_nullable_check hk hg hx).mp ⟨a, ha⟩ with ⟨q1, q2, hgf, h1, h2, h3⟩
  unfold emitField at ha
  rw [hk] at ha
  have ha : (do
    let _ ← e.node gid
    if f.nullable then do
      let _ ← check e f
      pure [(f.pyname, PyProp.nullable ("_" ++ f.pyname)), ("_" ++ f.pyname, .group (if f.inUnion then some f.disc else none) gid)]
    else pure [(f.pyname, .group (if f.inUnion then some f.disc else none) gid)]) = Except.ok a := ha
  rw [bind_okP hnode, if_pos hx] at ha
  obtain ⟨⟨isNull, value⟩, hck, -⟩ := py_inv ha
  have hck0 := hck
  unfold check at hck
  rw [hk] at hck
  have hck : (do
    let group ← e.node gid
    match group.fields with
    | [isNull, value] =>
      if isNull.cname != "isNull" || value.cname != "value" then .error .valueError
      else if value.isPointer then .error .valueError
      else pure (isNull, value)
    | _ => .error .typeError : Py (SField × SField)) = .ok (isNull, value) := hck
  rw [bind_okP hnode] at hck
  rw [hgf] at hck
  have hck : (if (q1.cname != "isNull" || q2.cname != "value") = true then .error .valueError
      else if q2.isPointer = true then .error .valueError
      else pure (q1, q2) : Py (SField × SField)) = .ok (isNull, value) := hck
  split at hck
  · cases hck
  split at hck
  · cases hck
  cases hck
  rw [hgf, hc, isFields_cons, isFields_cons, IsFields.eq_1] at hfs
  obtain ⟨i1, i2, -⟩ := hfs
  have s1 : (q1.isVoid && !q1.inUnion) = false := by
    rw [← skipped_same i1]
    cases ty <;> first | rfl | exact hty.elim
  have s2 : (q2.isVoid && !q2.inUnion) = false := by rw [← skipped_same i2, hc2]
  rw [IsField.eq_1] at i1
  obtain ⟨s, hs1, -, -, -, hst, -, hd⟩ := i1
  refine ⟨q1, q2, s, hck0, hs1, ⟨gid, g, hg, by rw [hgf]; simp⟩, hst, hd, ?_⟩
  rw [hgf, List.filter_cons_of_pos (by simp [s1]), List.filter_cons_of_pos (by simp [s2]), List.filter_nil]

theorem mkNode_field {e : Env} {force : Option SField} : ∀ {fuel : Nat} {pfx : String} (f : SField) (nd : Node),
    mkNode e force fuel pfx f = .ok nd → nd.f = f ∧ nd.varname = varname pfx f.pyname
  | 0, pfx, f, nd, h => by unfold mkNode at h; cases h
  | fuel + 1, pfx, f, nd, h => by
    unfold mkNode at h
    cases hk : f.kind with
    | slot s =>
      rw [hk] at h
      obtain ⟨d, _, h⟩ := py_inv h
      cases h; exact ⟨rfl, rfl⟩
    | group id =>
      rw [hk] at h
      obtain ⟨n, _, h⟩ := py_inv h
      obtain ⟨ch, _, h⟩ := py_inv h
      obtain ⟨d, _, h⟩ := py_inv h
      cases h; exact ⟨rfl, rfl⟩

mutual

theorem field_default {e : Env} {items : Str → Option ItemType} {cls : Nat → Option Const.Cls} {classes : Nat → PyClass}
    (R : RequestOK e items cls classes) {tag : SField} (hA : NamesAgree e) (ht : FieldOf e tag) {ds ps : Nat} :
    ∀ (lf : Field), FieldWF ds ps lf → GroupsSettable lf → ∃ F0, ∀ fuel, F0 ≤ fuel → ∀ pfx f, FieldOf e f → IsField e cls f lf →
      ∃ nd, mkNode e (some tag) fuel pfx f = .ok nd ∧ nd.dflt.eval = .ok (defaultArg (some (tag.pyname, tag.code)) lf)
  | .slot name code disc ty off dflt, _, _ => by
    refine ⟨1, fun fuel hf pfx f ho hi => ?_⟩
    obtain ⟨id, n, hn, hm⟩ := id ho
    rw [IsField.eq_1] at hi
    obtain ⟨s, hk, rfl, rfl, rfl, hty, -, rfl⟩ := hi
    obtain ⟨fuel, rfl⟩ : ∃ k, fuel = k + 1 := ⟨fuel - 1, by omega⟩
    have sf := (R.nodes id n hn f hm).slot s hk
    have hforce : forcedBy (some tag) f = forced (some (tag.pyname, tag.code)) f.pyname f.code := by
      show f.same tag = (tag.pyname == f.pyname && tag.code == f.code)
      rw [same_iff hA ho ht, Bool.beq_comm (a := f.pyname), Bool.beq_comm (a := f.code)]
    have hd : ∃ d, getDefault e (some tag) f [] = .ok d ∧
        d.eval = .ok (if (discOf f).isSome && !forced (some (tag.pyname, tag.code)) f.pyname f.code then .undefined
          else slotDefault ty (explicitDefault s)) := by
      unfold getDefault
      rw [hk, hforce, inUnion_disc]
      by_cases hu : ((discOf f).isSome && !forced (some (tag.pyname, tag.code)) f.pyname f.code) = true
      · rw [if_pos hu, if_pos hu]; exact ⟨_, rfl, by rw [Dflt.eval.eq_1]⟩
      · rw [if_neg hu, if_neg hu]; exact ⟨_, rfl, (slot_default hty sf.dflt sf.zero sf.null).1⟩
    obtain ⟨d, hd, hev⟩ := hd
    refine ⟨.mk f (varname pfx f.pyname) [] none d, ?_, hev⟩
    unfold mkNode
    rw [hk]
    show (do pure (Node.mk f (varname pfx f.pyname) [] none (← getDefault e (some tag) f [])) : Py Node) = _
    rw [bind_okP hd]; rfl
  | .group name code disc nullable union children, hw, hs => by
    rw [FieldWF.eq_2] at hw
    rw [GroupsSettable.eq_2] at hs
    obtain ⟨-, hw, hnull⟩ := hw
    obtain ⟨F0, ih⟩ := fields_default R hA ht children hw hs.2
    refine ⟨F0 + 1, fun fuel hf pfx f ho hi => ?_⟩
    rw [IsField.eq_2] at hi
    obtain ⟨gid, g, hk, hg, rfl, rfl, rfl, rfl, rfl, hfs⟩ := hi
    obtain ⟨fuel, rfl⟩ : ∃ k, fuel = k + 1 := ⟨fuel - 1, by omega⟩
    obtain ⟨nds, hch, hev⟩ := ih fuel (by omega) (varname pfx f.pyname) g.fields (fun q hq => ⟨gid, g, hg, hq⟩) hfs
    have hnode : e.node gid = .ok g := by unfold Env.node; rw [hg]
    have hfl := addChildren_fields (fun f nd h => (mkNode_field f nd h).1) hch
    have hforce : forcedBy (some tag) f = forced (some (tag.pyname, tag.code)) f.pyname f.code := by
      show f.same tag = (tag.pyname == f.pyname && tag.code == f.code)
      rw [same_iff hA ho ht, Bool.beq_comm (a := f.pyname), Bool.beq_comm (a := f.code)]
    have hd : ∃ d, getDefault e (some tag) f nds = .ok d ∧
        d.eval = .ok (if (discOf f).isSome && !forced (some (tag.pyname, tag.code)) f.pyname f.code then .undefined
          else if f.nullable then
            match defaultArgs (some (tag.pyname, tag.code)) children with
            | [isNull, value] => if isNull.truthy then .none else value
            | _ => .none
          else .tuple (defaultArgs (some (tag.pyname, tag.code)) children)) := by
      unfold getDefault
      rw [hk, hforce, inUnion_disc]
      by_cases hu : ((discOf f).isSome && !forced (some (tag.pyname, tag.code)) f.pyname f.code) = true
      · rw [if_pos hu, if_pos hu]; exact ⟨_, rfl, by rw [Dflt.eval.eq_1]⟩
      rw [if_neg hu, if_neg hu]
      cases hx : f.nullable with
      | false =>
        refine ⟨_, rfl, ?_⟩
        have hem : ¬ (nds.map Node.dflt).isEmpty = true := by
          intro h
          have h0 : nds = [] := List.map_eq_nil_iff.mp (List.isEmpty_iff.mp h)
          rw [h0, List.map_nil] at hfl
          exact filter_settable hfs (hs.1 hx) hfl.symm
        rw [Dflt.eval.eq_9, if_neg hem, hev]
        rfl
      | true =>
        obtain ⟨-, -, c, o, ty, dd, c2, hc, hty, -, hcd, hc2⟩ := hnull hx
        obtain ⟨isNull, value, s, h1, h2, h3, h4, h5, h6⟩ := nullable_nodes R ho hk hg hx hfs hc hty hc2
        rw [h6] at hfl
        match nds, hfl with
        | [nd1, nd2], _ =>
        obtain ⟨i, m, hi, hmm⟩ := h3
        have sf := (R.nodes i m hi isNull hmm).slot s h2
        obtain ⟨-, htr⟩ := slot_default h4 sf.dflt sf.zero sf.null
        have hD : defaultArgs (some (tag.pyname, tag.code)) children =
            [slotDefault ty (explicitDefault s), defaultArg (some (tag.pyname, tag.code)) c2] := by
          have hsk : (Field.slot "is_null" c none ty o dd).skipped = false := by
            cases ty <;> first | rfl | exact hty.elim
          rw [hc, defaultArgs.eq_2, hsk, if_neg (by simp), defaultArgs.eq_2, hc2, if_neg (by simp), defaultArgs.eq_1, defaultArg.eq_1, h5]
          rfl
        rw [hD] at hev
        rw [hD]
        have hv : nd2.dflt.eval = .ok (defaultArg (some (tag.pyname, tag.code)) c2) := by
          obtain ⟨a, ha, hae⟩ := evalAll_get hev (i := 1) (d := nd2.dflt) rfl
          rw [hae]
          exact congrArg Except.ok (Option.some.inj ha).symm
        show ∃ d, (check e f >>= fun p => match p.1.kind with
          | .group _ => .error .valueError
          | .slot s => if StructEmit.truthy s.dflt then pure .none else pure nd2.dflt : Py Dflt) = .ok d ∧ _
        rw [bind_okP h1]
        show ∃ d, (match isNull.kind with
          | .group _ => .error .valueError
          | .slot s => if StructEmit.truthy s.dflt then pure .none else pure nd2.dflt : Py Dflt) = .ok d ∧ _
        rw [h2]
        show ∃ d, (if StructEmit.truthy s.dflt = true then pure .none else pure nd2.dflt : Py Dflt) = .ok d ∧
          d.eval = .ok (if (slotDefault ty (explicitDefault s)).truthy = true then .none else defaultArg (some (tag.pyname, tag.code)) c2)
        rw [htr]
        by_cases hb : StructEmit.truthy s.dflt = true
        · rw [if_pos hb, if_pos hb]; exact ⟨_, rfl, by rw [Dflt.eval.eq_2]⟩
        · rw [if_neg hb, if_neg hb]; exact ⟨_, rfl, hv⟩
    obtain ⟨d, hd, hde⟩ := hd
    refine ⟨.mk f (varname pfx f.pyname) nds (if g.isUnion then some (varname pfx f.pyname, g.discOffset * 2) else none) d, ?_, hde⟩
    unfold mkNode
    rw [hk]
    show (do
      let group ← e.node gid
      let children ← addChildren (mkNode e (some tag) fuel (varname pfx f.pyname)) group.fields
      let union := if group.isUnion then some (varname pfx f.pyname, group.discOffset * 2) else none
      pure (Node.mk f (varname pfx f.pyname) children union (← getDefault e (some tag) f children)) : Py Node) = _
    rw [bind_okP hnode, bind_okP hch, bind_okP hd]; rfl

theorem fields_default {e : Env} {items : Str → Option ItemType} {cls : Nat → Option Const.Cls} {classes : Nat → PyClass}
    (R : RequestOK e items cls classes) {tag : SField} (hA : NamesAgree e) (ht : FieldOf e tag) {ds ps : Nat} {union : Option Nat} :
    ∀ (lfs : List Field), FieldsWF ds ps union lfs → AllSettable lfs → ∃ F0, ∀ fuel, F0 ≤ fuel → ∀ pfx fs, (∀ f ∈ fs, FieldOf e f) →
      IsFields e cls fs lfs → ∃ nds, addChildren (mkNode e (some tag) fuel pfx) fs = .ok nds ∧
        evalAll (nds.map Node.dflt) = .ok (defaultArgs (some (tag.pyname, tag.code)) lfs)
  | [], _, _ => by
    refine ⟨0, fun fuel _ pfx fs _ h => ?_⟩
    rw [IsFields.eq_1] at h
    subst h
    exact ⟨[], rfl, by rw [List.map_nil, evalAll.eq_1, defaultArgs.eq_1]⟩
  | g :: gs, hw, hs => by
    rw [FieldsWF.eq_2] at hw
    rw [AllSettable.eq_2] at hs
    obtain ⟨A, ha⟩ := field_default R hA ht g hw.1 hs.1
    obtain ⟨B, hb⟩ := fields_default R hA ht gs hw.2.2.2.2 hs.2
    refine ⟨max A B, fun fuel hf pfx fs ho h => ?_⟩
    cases fs with
    | nil => exact absurd h isFields_nil
    | cons f fs =>
    rw [isFields_cons] at h
    obtain ⟨nd, h1, h2⟩ := ha fuel (by omega) pfx f (ho f (by simp)) h.1
    obtain ⟨nds, h3, h4⟩ := hb fuel (by omega) pfx fs (fun q hq => ho q (List.mem_cons_of_mem _ hq)) h.2
    unfold addChildren
    rw [defaultArgs.eq_2, skipped_same h.1]
    by_cases hsk : (f.isVoid && !f.inUnion) = true
    · rw [if_pos hsk, if_pos hsk]
      exact ⟨nds, h3, h4⟩
    · rw [if_neg hsk, if_neg hsk, bind_okP h1, bind_okP h3]
      refine ⟨nd :: nds, rfl, ?_⟩
      rw [List.map_cons, evalAll.eq_2, bind_okP h2, bind_okP h4]; rfl

end

/-! ## The call -/

theorem lookup_unique {β : Type} {k : String} {v : β} : ∀ {l : List (String × β)}, (k, v) ∈ l → (∀ w, (k, w) ∈ l → w = v) → l.lookup k = some v
  | [], h, _ => by cases h
  | (x, w) :: l, h, hu => by
    by_cases hx : k = x
    · subst hx
      rw [List.lookup_cons_self, hu w (by simp)]
    · rw [List.lookup_cons, beq_false_of_ne hx]
      refine lookup_unique ?_ fun w hw => hu w (List.mem_cons_of_mem _ hw)
      rcases List.mem_cons.mp h with h | h
      · exact absurd (congrArg Prod.fst h) hx
      · exact h

theorem name_inj {fs : List Field} (hnd : (fs.map Field.name).Nodup) {f g : Field} (hf : f ∈ fs) (hg : g ∈ fs) (h : f.name = g.name) : f = g :=
  List.inj_on_of_nodup_map hnd hf hg h

/-- The parameters which `new_foo` has, and those which it does not have. -/
theorem lookup_split {v : Field → Arg} {u : Arg} {p : Field → Bool} {fs : List Field} (hnd : (fs.map Field.name).Nodup) {f : Field} (hf : f ∈ fs) :
    (((fs.filter p).map fun f => (f.name, v f)) ++ (fs.filter fun f => !p f).map fun f => (f.name, u)).lookup f.name =
      some (if p f then v f else u) := by
  refine lookup_unique ?_ ?_
  · by_cases hp : p f = true
    · rw [if_pos hp]
      exact List.mem_append_left _ (List.mem_map.mpr ⟨f, List.mem_filter.mpr ⟨hf, hp⟩, rfl⟩)
    · rw [if_neg hp]
      exact List.mem_append_right _ (List.mem_map.mpr ⟨f, List.mem_filter.mpr ⟨hf, by simpa using hp⟩, rfl⟩)
  · intro w hw
    rcases List.mem_append.mp hw with hw | hw
    · obtain ⟨g, hg, e⟩ := List.mem_map.mp hw
      obtain ⟨hg, hp⟩ := List.mem_filter.mp hg
      have : g = f := name_inj hnd hg hf (congrArg Prod.fst e)
      subst this
      rw [if_pos hp]; exact (congrArg Prod.snd e).symm
    · obtain ⟨g, hg, e⟩ := List.mem_map.mp hw
      obtain ⟨hg, hp⟩ := List.mem_filter.mp hg
      have : g = f := name_inj hnd hg hf (congrArg Prod.fst e)
      subst this
      rw [if_neg (by simpa using hp)]; exact (congrArg Prod.snd e).symm

theorem isFields_filter {e : Env} {cls : Nat → Option Const.Cls} {p : SField → Bool} {q : Field → Bool} : ∀ {fs : List SField} {lfs : List Field},
    IsFields e cls fs lfs → (∀ f ∈ fs, ∀ lf, IsField e cls f lf → q lf = p f) → IsFields e cls (fs.filter p) (lfs.filter q)
  | fs, [], h, _ => by rw [IsFields.eq_1] at h; subst h; rw [List.filter_nil, List.filter_nil, IsFields.eq_1]
  | [], _ :: _, h, _ => absurd h isFields_nil
  | f :: fs, g :: gs, h, hp => by
    rw [isFields_cons] at h
    have hr := isFields_filter h.2 fun f hf => hp f (List.mem_cons_of_mem _ hf)
    have hq := hp f (by simp) g h.1
    by_cases hb : p f = true
    · rw [List.filter_cons_of_pos hb, List.filter_cons_of_pos (by rw [hq, hb]), isFields_cons]
      exact ⟨h.1, hr⟩
    · rw [List.filter_cons_of_neg hb, List.filter_cons_of_neg (by rw [hq]; exact hb)]
      exact hr

theorem isFields_names {e : Env} {cls : Nat → Option Const.Cls} : ∀ {fs : List SField} {lfs : List Field}, IsFields e cls fs lfs →
    lfs.map Field.name = fs.map SField.pyname
  | fs, [], h => by rw [IsFields.eq_1] at h; subst h; rfl
  | [], _ :: _, h => absurd h isFields_nil
  | f :: fs, g :: gs, h => by
    rw [isFields_cons] at h
    rw [List.map_cons, List.map_cons, isFields_names h.2, (name_same h.1).1]

/-- The fields which `new_foo` has, by the definition of Model/Ctor.lean. -/
def ofMember (tag f : Field) : Bool := f.disc.isNone || (f.name == tag.name && f.code == tag.code)

theorem fieldsWF_filter {ds ps : Nat} {union : Option Nat} (q : Field → Bool) : ∀ {lfs : List Field}, FieldsWF ds ps union lfs →
    FieldsWF ds ps union (lfs.filter q)
  | [], h => h
  | f :: fs, h => by
    rw [FieldsWF.eq_2] at h
    have hr := fieldsWF_filter q h.2.2.2.2
    by_cases hb : q f = true
    · rw [List.filter_cons_of_pos hb, FieldsWF.eq_2]
      exact ⟨h.1, h.2.1, h.2.2.1, fun g hg => h.2.2.2.1 g (List.mem_of_mem_filter hg), hr⟩
    · rw [List.filter_cons_of_neg hb]; exact hr

theorem settable_filter (q : Field → Bool) : ∀ {lfs : List Field}, AllSettable lfs → AllSettable (lfs.filter q)
  | [], h => h
  | f :: fs, h => by
    rw [AllSettable.eq_2] at h
    have hr := settable_filter q h.2
    by_cases hb : q f = true
    · rw [List.filter_cons_of_pos hb, AllSettable.eq_2]; exact ⟨h.1, hr⟩
    · rw [List.filter_cons_of_neg hb]; exact hr

theorem defaultArgs_force (force : Option (String × Nat)) (fs : List Field) :
    defaultArgs force fs = (fs.filter (!·.skipped)).map fun f => defaultArg force f := by
  induction fs with
  | nil => rw [defaultArgs.eq_1]; rfl
  | cons f fs ih =>
    rw [defaultArgs.eq_2]
    by_cases hs : f.skipped = true
    · rw [if_pos hs, List.filter_cons_of_neg (by simp [hs]), ih]
    · rw [if_neg hs, List.filter_cons_of_pos (by simp [hs]), ih]; rfl

theorem addChildren_names {e : Env} {force : Option SField} {fuel : Nat} {pfx : String} : ∀ {fs : List SField} {nds : List Node},
    addChildren (mkNode e force fuel pfx) fs = .ok nds →
    nds.map Node.varname = (fs.filter fun f => !(f.isVoid && !f.inUnion)).map fun f => varname pfx f.pyname
  | [], nds, h => by unfold addChildren at h; cases h; rfl
  | f :: fs, nds, h => by
    unfold addChildren at h
    by_cases hs : (f.isVoid && !f.inUnion) = true
    · rw [if_pos hs] at h
      rw [List.filter_cons_of_neg (by simpa using hs)]
      exact addChildren_names h
    · rw [if_neg hs] at h
      obtain ⟨nd, h1, h⟩ := py_inv h
      obtain ⟨rest, h2, h⟩ := py_inv h
      cases h
      rw [List.filter_cons_of_pos (p := fun f : SField => !(f.isVoid && !f.inUnion)) (by rw [Bool.not_eq_true']; exact Bool.eq_false_iff.mpr hs),
        List.map_cons, List.map_cons, (mkNode_field f nd h1).2, addChildren_names h2]

/-- C78: from some recursion limit on, `new_foo` is emitted for each member of the union, and for all keyword arguments it
makes the object, or raises the exception, which the schema prescribes (`Schema.newMember` in Model/Ctor.lean, of which
`C31_new_member` says what the result is). -/
theorem C78_new_member {e : Env} {items : Str → Option ItemType} {cls : Nat → Option Const.Cls} {classes : Nat → PyClass}
    (R : RequestOK e items cls classes) (hA : NamesAgree e) {id : Nat} {n : SNode} (hn : e.nodes id = some n) {S : Schema}
    (hS : IsSchema e cls n S) (hwf : S.WF) (hs : AllSettable S.fields) (hp : (n.fields.map SField.pyname).Nodup)
    {F : Nat} {fn : NewFn} (hfn : emitNew e F n = .ok fn)
    {tag : SField} (ht : tag ∈ n.fields) {ltag : Field} (hlt : IsField e cls tag ltag) :
    ∃ F0, ∀ F, F0 ≤ F → ∃ nm, emitNewMember e F n tag = .ok nm ∧ nm.name = "new_" ++ ltag.name ∧
      ∀ fuel kw, nm.call items fuel n fn kw = S.newMember fuel ltag kw := by
  have hof : ∀ f ∈ n.fields, FieldOf e f := fun f hf => ⟨id, n, hn, hf⟩
  have htn := (name_same hlt).1
  have htc := code_same hlt
  have hfs := hS.2.2.2
  have hlnd : (S.fields.map Field.name).Nodup := by rw [isFields_names hfs]; exact hp
  have hpnd : (S.params.map Field.name).Nodup := hlnd.sublist (List.Sublist.map _ List.filter_sublist)
  -- the fields of `new_foo`
  have hkeep : ∀ f ∈ n.fields, ∀ lf, IsField e cls f lf → ofMember ltag lf = (!f.inUnion || f.same tag) := by
    intro f hf lf hl
    unfold ofMember
    rw [same_iff hA (hof f hf) (hof tag ht), disc_same hl, (name_same hl).1, code_same hl, htn, htc, inUnion_disc]
    cases discOf f <;> rfl
  have hfields : IsFields e cls (n.fields.filter fun f => !f.inUnion || f.same tag) (S.fields.filter (ofMember ltag)) :=
    isFields_filter hfs hkeep
  obtain ⟨F0, h⟩ := fields_default R hA (hof tag ht) (S.fields.filter (ofMember ltag)) (fieldsWF_filter _ hwf.fields) (settable_filter _ hs)
  refine ⟨F0, fun F' hF => ?_⟩
  obtain ⟨nds, hch, hev⟩ := h F' hF "" _ (fun f hf => hof f (List.mem_of_mem_filter hf)) hfields
  have hvar : ∀ x : String, varname "" x = x := fun x => by unfold varname; rw [if_pos rfl]
  have hnames : nds.map Node.varname = (S.params.filter (ofMember ltag)).map Field.name := by
    rw [addChildren_names hch, List.map_congr_left fun f _ => hvar f.pyname]
    have := isFields_filter (p := fun f => !(f.isVoid && !f.inUnion)) (q := fun f => !f.skipped) hfields (fun f _ lf hl => by
      rw [skipped_same hl])
    rw [← isFields_names this, List.filter_comm]
    rfl
  -- the others
  have hundef : (n.fields.filter fun f => !(n.fields.filter fun f => !f.inUnion || f.same tag).any fun g => f.same g).map SField.pyname =
      (S.params.filter fun f => !ofMember ltag f).map Field.name := by
    have h1 := isFields_filter (q := fun f => !ofMember ltag f)
      (p := fun f => !(n.fields.filter fun f => !f.inUnion || f.same tag).any fun g => f.same g) hfs (by
      intro f hf lf hl
      rw [hkeep f hf lf hl]
      congr 1
      rw [Bool.eq_iff_iff]
      constructor
      · intro hk
        refine List.any_eq_true.mpr ⟨f, List.mem_filter.mpr ⟨hf, hk⟩, ?_⟩
        unfold SField.same
        rw [beq_self_eq_true, beq_self_eq_true]; rfl
      · intro hk
        obtain ⟨g, hg, hfg⟩ := List.any_eq_true.mp hk
        obtain ⟨hg, hk⟩ := List.mem_filter.mp hg
        rw [same_iff hA (hof f hf) (hof g hg), Bool.and_eq_true, beq_iff_eq] at hfg
        have : f = g := List.inj_on_of_nodup_map hp hf hg hfg.1
        rw [this]; exact hk)
    rw [← isFields_names h1]
    unfold Schema.params
    rw [List.filter_filter]
    congr 1
    apply List.filter_congr
    intro f hf
    by_cases hk : ofMember ltag f = true
    · rw [hk]; rfl
    · have hk : ofMember ltag f = false := by simpa using hk
      rw [hk]
      unfold ofMember at hk
      rw [Bool.or_eq_false_iff] at hk
      cases f with
      | slot name code disc ty off dflt =>
        cases disc with
        | none => cases hk.1
        | some d => cases ty <;> rfl
      | group => rfl
  refine ⟨⟨"new_" ++ tag.pyname, nds.map fun c => (c.varname, c.dflt), _⟩, by unfold emitNewMember; rw [bind_okP hch]; rfl,
    by rw [htn], ?_⟩
  intro fuel kw
  obtain ⟨c1, c2, c3⟩ := C77_constructor R hn hS hfn
  unfold NewMember.call Schema.newMember
  have hd : evalAll ((nds.map fun c => (c.varname, c.dflt)).map Prod.snd) =
      .ok ((S.params.filter (ofMember ltag)).map fun f => defaultArg (some (ltag.name, ltag.code)) f) := by
    rw [List.map_map]
    show evalAll (nds.map Node.dflt) = _
    rw [hev, defaultArgs_force, htn, htc, List.filter_comm]
    rfl
  have hpn : (nds.map fun c => (c.varname, c.dflt)).map Prod.fst = (S.params.filter (ofMember ltag)).map Field.name := by
    rw [List.map_map]; exact hnames
  rw [bind_okP hd]
  have hany : ∀ x : String × Arg, ((nds.map fun c => (c.varname, c.dflt)).any fun p => p.1 == x.1) =
      (S.params.filter (ofMember ltag)).any fun f => f.name == x.1 := by
    intro x
    have a1 : ((nds.map fun c => (c.varname, c.dflt)).any fun p => p.1 == x.1) =
        ((nds.map fun c => (c.varname, c.dflt)).map Prod.fst).any fun y => y == x.1 := by simp only [List.any_map]; rfl
    rw [a1, hpn, List.any_map]; rfl
  have hall : (kw.all fun x => (nds.map fun c => (c.varname, c.dflt)).any fun p => p.1 == x.1) =
      kw.all fun x => (S.params.filter fun f => f.disc.isNone || (f.name == ltag.name && f.code == ltag.code)).any fun f => f.name == x.1 := by
    rw [funext hany]; rfl
  by_cases hk : (kw.all fun x => (nds.map fun c => (c.varname, c.dflt)).any fun p => p.1 == x.1) = true
  · have hk' := hk
    rw [hall] at hk'
    show (if (kw.all fun x => (nds.map fun c => (c.varname, c.dflt)).any fun p => p.1 == x.1) = true then _ else _) = (if _ then _ else _)
    rw [if_pos hk, if_pos hk', hpn, hundef]
    have hgiven : ((((S.params.filter (ofMember ltag)).map Field.name).zip
          ((S.params.filter (ofMember ltag)).map fun f => defaultArg (some (ltag.name, ltag.code)) f)).map fun p =>
            (p.1, (kw.lookup p.1).getD p.2)) ++ ((S.params.filter fun f => !ofMember ltag f).map Field.name).map (fun x => (x, Arg.undefined)) =
        ((S.params.filter (ofMember ltag)).map fun f => (f.name, (kw.lookup f.name).getD (defaultArg (some (ltag.name, ltag.code)) f))) ++
          (S.params.filter fun f => !ofMember ltag f).map fun f => (f.name, Arg.undefined) := by
      rw [List.zip_map', List.map_map, List.map_map]; rfl
    rw [hgiven]
    have hkw : fn.kwargs (((S.params.filter (ofMember ltag)).map fun f => (f.name, (kw.lookup f.name).getD (defaultArg (some (ltag.name, ltag.code)) f))) ++
          (S.params.filter fun f => !ofMember ltag f).map fun f => (f.name, Arg.undefined)) =
        .ok (S.params.map fun f => if f.disc.isNone || (f.name == ltag.name && f.code == ltag.code) then
          (kw.lookup f.name).getD (defaultArg (some (ltag.name, ltag.code)) f) else .undefined) := by
      unfold NewFn.kwargs
      rw [bind_okP c2]
      rw [if_pos]
      · rw [List.map_map]
        refine congrArg Except.ok (List.map_congr_left fun f hf => ?_)
        show (List.lookup f.name _).getD _ = _
        rw [lookup_split (v := fun f => (kw.lookup f.name).getD (defaultArg (some (ltag.name, ltag.code)) f)) hpnd hf]
        rfl
      · refine List.all_eq_true.mpr fun x hx => ?_
        have hx' : ∃ f ∈ S.params, f.name = x.1 := by
          rcases List.mem_append.mp hx with hx | hx
          · obtain ⟨f, hf, rfl⟩ := List.mem_map.mp hx
            exact ⟨f, List.mem_of_mem_filter hf, rfl⟩
          · obtain ⟨f, hf, rfl⟩ := List.mem_map.mp hx
            exact ⟨f, List.mem_of_mem_filter hf, rfl⟩
        obtain ⟨f, hf, hfx⟩ := hx'
        have hmem : f.name ∈ fn.params.map Prod.fst := by rw [c1]; exact List.mem_map_of_mem hf
        obtain ⟨p, hp, hp'⟩ := List.mem_map.mp hmem
        exact List.any_eq_true.mpr ⟨p, hp, by rw [hp', hfx]; exact beq_self_eq_true _⟩
    rw [bind_okP hkw]
    exact c3 fuel _
  · have hk' := hk
    rw [hall] at hk'
    show (if (kw.all fun x => (nds.map fun c => (c.varname, c.dflt)).any fun p => p.1 == x.1) = true then _ else _) = (if _ then _ else _)
    rw [if_neg hk, if_neg hk']

/-- C78: constructing a member of the union and reading back, from the struct node: `which()` is the member, and the emitted
properties of the fields which were passed read what was passed. -/
theorem C78_roundtrip {e : Env} {items : Str → Option ItemType} {cls : Nat → Option Const.Cls} {classes : Nat → PyClass}
    (R : RequestOK e items cls classes) (hA : NamesAgree e) {id : Nat} {n : SNode} (hn : e.nodes id = some n) {S : Schema}
    (hS : IsSchema e cls n S) (hwf : S.WF) (hs : AllSettable S.fields) (hp : (n.fields.map SField.pyname).Nodup) (hl : S.locals.Nodup)
    {F : Nat} {fn : NewFn} (hfn : emitNew e F n = .ok fn)
    {tag : SField} (ht : tag ∈ n.fields) {ltag : Field} (hlt : IsField e cls tag ltag) (hg : ltag ∈ S.params)
    (hu : tag.inUnion = true) {kw : List (String × Arg)} {k fuel : Nat}
    (hk : ∀ x ∈ kw, ∃ f ∈ S.params, (f.disc = none ∨ f = ltag) ∧ f.name = x.1) (hgu : kw.lookup ltag.name ≠ some .undefined)
    (ha : AccFields fuel S.fields (newMemberArgs S ltag kw) k) (hsz : 8 * (S.dataWords + S.ptrs) + k ≤ 2 ^ 32) :
    ∃ F0, ∀ F, F0 ≤ F → ∃ nm o, emitNewMember e F n tag = .ok nm ∧ nm.call items fuel n fn kw = .ok o ∧
      o.whichRaw (some ((n.discOffset * 2 : Nat) : Int)) = .ok (tag.disc : Int) ∧
      ∃ G0, ∀ G, G0 ≤ G → ∀ f ∈ S.params, (f.disc = none ∨ f = ltag) → ∀ a, kw.lookup f.name = some a → absent f a = false →
        ReadsVal o f a ((getattr classes items G o (classes id) f.name).map Res.toRVal) := by
  have hd : ltag.disc = some tag.disc := by rw [disc_same hlt, disc_some hu]
  have hsu : S.union = some n.discOffset := by
    have := union_some hwf.fields ltag (List.mem_of_mem_filter hg) (by rw [hd]; rfl)
    rw [hS.2.2.1] at this ⊢
    unfold unionOf at this ⊢
    by_cases h0 : n.discCount = 0
    · rw [if_pos h0] at this; cases this
    · rw [if_neg h0]
  obtain ⟨o, ho, hw, hr⟩ := C31_new_member fuel S ltag tag.disc kw k n.discOffset hwf hl hsu hg hd hk hgu ha hsz
  obtain ⟨F0, hF⟩ := C78_new_member R hA hn hS hwf hs hp hfn ht hlt (items := items)
  obtain ⟨G0, hG⟩ := C77_properties R hn hS
  refine ⟨F0, fun F' hf => ?_⟩
  obtain ⟨nm, h1, -, h2⟩ := hF F' hf
  refine ⟨nm, o, h1, by rw [h2, ho], hw, G0, fun G hge f hfm hfd a hka hab => ?_⟩
  have hmem : f ∈ S.fields := List.mem_of_mem_filter hfm
  have hnm := isFields_names hS.2.2.2
  have hpriv : ∀ g ∈ n.fields, f.name ≠ "_" ++ g.pyname := by
    have : f.name ∈ n.fields.map SField.pyname := by rw [← hnm]; exact List.mem_map_of_mem hmem
    obtain ⟨q, hq, hq'⟩ := List.mem_map.mp this
    intro g hg
    rw [← hq']
    exact R.priv id n hn q hq g hg
  rw [hG G hge o f.name hpriv, getAttr_mem (by rw [hnm]; exact hp) f hmem o S.union]
  exact hr f hfm hfd a hka hab

/-! ## Example: `Sample.new_bar(x=1, pos2=(3, 4, _undefined))` -/

theorem reqNames_agree : NamesAgree reqEnv := by
  have hall : ∀ f, FieldOf reqEnv f → f ∈ reqSample.fields ++ reqPos2.fields ++ reqMaybe.fields := by
    rintro f ⟨id, n, hn, hf⟩
    revert f
    revert id n
    refine reqNodes_cases ?_ ?_ ?_
    · intro f hf; simp only [List.mem_append]; exact .inl (.inl hf)
    · intro f hf; simp only [List.mem_append]; exact .inl (.inr hf)
    · intro f hf; simp only [List.mem_append]; exact .inr hf
  have key : ∀ f ∈ reqSample.fields ++ reqPos2.fields ++ reqMaybe.fields, ∀ g ∈ reqSample.fields ++ reqPos2.fields ++ reqMaybe.fields,
      f.code = g.code → (f.cname = g.cname ↔ f.pyname = g.pyname) := by decide +kernel
  exact fun f g hf hg => key f (hall f hf) g (hall g hg)

theorem reqSample_settable : AllSettable sampleSchema.fields := by
  show AllSettable sampleFields
  unfold sampleFields
  simp [AllSettable, GroupsSettable, Field.skipped]

/-- The field `bar` of `reqSample`. -/
def reqBar : SField := reqSlot "bar" "bar" 10 1 (.prim .h) 10 (.int 0) false

/-- The hypotheses of `C78_roundtrip` are met. -/
example (items : Str → Option ItemType) : ∃ fn F nm o G, emitNew reqEnv 10 reqSample = .ok fn ∧
    emitNewMember reqEnv F reqSample reqBar = .ok nm ∧
    nm.call items 10 reqSample fn sampleKw = .ok o ∧ o.whichRaw (some 18) = .ok 1 ∧
    (getattr reqClasses items G o (reqClasses 10) "x").map Res.toRVal = .ok (.int 1) := by
  have hn : reqEnv.nodes 10 = some reqSample := rfl
  have he : ∃ fn, emitNew reqEnv 10 reqSample = .ok fn := ⟨_, rfl⟩
  obtain ⟨fn, he⟩ := he
  obtain ⟨F0, h⟩ := C78_roundtrip (reqEnv_ok items) reqNames_agree hn reqSample_schema sampleSchema_wf reqSample_settable
    (by decide +kernel) sampleSchema_locals he (tag := reqBar) (ltag := sampleBar) (by simp [reqSample, reqBar])
    (by rw [sampleBar, IsField.eq_1]; exact ⟨_, rfl, rfl, rfl, rfl, rfl, rfl, rfl⟩)
    (by simp [Schema.params, sampleSchema, sampleFields, Field.skipped, sampleBar]) rfl (kw := sampleKw) (k := 0) (fuel := 10)
    (by simp [Schema.params, sampleSchema, sampleFields, Field.skipped, Field.disc, Field.name, sampleKw])
    (by intro h; cases h)
    (by
      rw [sampleBar_args]
      show AccFields 10 sampleFields _ 0
      simp [sampleFields, AccFields, AccField, SlotArg, Field.skipped, absent, Field.disc, Arg.isUndefined,
        nullablePair, Arg.isNone, members, PtrArg, Arg.toInt?, Props.InRange, isSigned, Fmt.size, Val.size, Val.Fits, Val.depth])
    (by decide)
  obtain ⟨nm, o, h1, h2, h3, G0, h4⟩ := h F0 le_rfl
  refine ⟨fn, F0, nm, o, G0, he, h1, h2, h3, ?_⟩
  have := h4 G0 le_rfl (.slot "x" 0 none (.prim .i) 0 (some 5))
    (by simp [Schema.params, sampleSchema, sampleFields, Field.skipped]) (.inl rfl) (.int 1) rfl rfl
  unfold ReadsVal at this
  obtain ⟨i, hi, h⟩ := this
  cases hi
  exact h

/-! ## What does not hold -/

/-- ```
struct A {
  union { x @0 :Int16; w @1 :Int16; }
  g :group { union { x @3 :Int16; y @2 :Int16; } }
}
``` -/
def reqNested : SNode := ⟨2, 0, 2, 1,
  [reqSlot "x" "x" 0 0 (.prim .h) 0 (.int 0) false,
   reqSlot "w" "w" 1 1 (.prim .h) 0 (.int 0) false,
   ⟨"g", "g", 2, 65535, false, .bytes, .group 2⟩]⟩

def reqNestedGroup : SNode := ⟨2, 0, 2, 3,
  [reqSlot "x" "x" 0 1 (.prim .h) 2 (.int 0) false,
   reqSlot "y" "y" 1 0 (.prim .h) 2 (.int 0) false]⟩

/-- The buffer of the object, if there is one. -/
def reqBuf : Py StructObj → Option Bytes
  | .ok o => some o.seg.buf
  | .error _ => none

/-- C78, a finding: `new_x` forces the default of each field that is called like the member and has the same place in
its scope, in groups too: `A.new_x()` makes an object with `g.which() == x`, `A(x=0)` one with `g.which() == y`. -/
theorem C78_nested_forced : ∃ fn nm, emitNew (reqPair reqNested reqNestedGroup) 10 reqNested = .ok fn ∧
    emitNewMember (reqPair reqNested reqNestedGroup) 10 reqNested (reqSlot "x" "x" 0 0 (.prim .h) 0 (.int 0) false) = .ok nm ∧
    reqBuf (nm.call (fun _ => none) 10 reqNested fn []) = some [0, 0, 0, 0, 0, 0, 1, 0, 0, 0, 0, 0, 0, 0, 0, 0] ∧
    reqBuf (fn.kwargs [("x", .int 0)] >>= construct (fun _ => none) 10 reqNested fn) = some [0, 0, 0, 0, 0, 0, 0, 0, 0, 0, 0, 0, 0, 0, 0, 0] :=
  ⟨_, _, rfl, rfl, by decide +kernel, by decide +kernel⟩

end Capnpy.Props
