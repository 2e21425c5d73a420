import Verif.Proof.StructEmitGet
import Verif.Props.ModuleExamples
import Verif.Props.Ctor

/-!
# C77: the struct nodes of the request become constructors and properties which round-trip
-/

namespace Capnpy.Props

open Spec StructEmit
open Const (STy TextType PyVal)
open Module (Str Gen)
open FieldEmit (Slot Getter Setter Ctx emitGetter emitSetter)

/-! ## The request -/

/-- The request: the classes of all structs and groups have been emitted; the names of the item types of the module
stand for the item types of the lists; the default of a slot is a value of its type, and zero (for pointers, `None`)
unless it is explicit; nullable groups have no union; no field of a class is called like the private name of a nullable
group. -/
structure RequestOK (e : Env) (items : Str → Option ItemType) (cls : Nat → Option Const.Cls) (classes : Nat → PyClass) : Prop where
  emitted : ∀ id n, e.nodes id = some n → emitClass e n = .ok (classes id)
  slots : ∀ id n, e.nodes id = some n → ∀ f ∈ n.fields, ∀ s, f.kind = .slot s →
    DefaultOK s ∧ ZeroDefault s ∧ (¬ Numeric s.ty → s.dflt = .none) ∧ ItemsOK (e.ctx f) items cls s.ty
  nullable : ∀ id n, e.nodes id = some n → ∀ f ∈ n.fields, f.nullable = true → ∀ gid g, f.kind = .group gid →
    e.nodes gid = some g → g.discCount = 0
  priv : ∀ id n, e.nodes id = some n → ∀ f ∈ n.fields, ∀ g ∈ n.fields, f.pyname ≠ "_" ++ g.pyname

theorem emitFields_mem {e : Env} : ∀ {fs : List SField} {l : List (String × PyProp)}, emitFields e fs = .ok l → ∀ f ∈ fs,
    ∃ a, emitField e f = .ok a
  | [], _, _, f, hf => by cases hf
  | g :: fs, l, h, f, hf => by
    unfold emitFields at h
    obtain ⟨a, ha, h⟩ := py_inv h
    obtain ⟨b, hb, h⟩ := py_inv h
    rcases List.mem_cons.mp hf with rfl | hf
    · exact ⟨a, ha⟩
    · exact emitFields_mem hb f hf

theorem RequestOK.field {e : Env} {items : Str → Option ItemType} {cls : Nat → Option Const.Cls} {classes : Nat → PyClass}
    (R : RequestOK e items cls classes) {id : Nat} {n : SNode} (hn : e.nodes id = some n) {f : SField} (hf : f ∈ n.fields) :
    ∃ a, emitField e f = .ok a := by
  have h := R.emitted id n hn
  unfold emitClass at h
  obtain ⟨props, hp, -⟩ := py_inv h
  exact emitFields_mem hp f hf

theorem RequestOK.nodes {e : Env} {items : Str → Option ItemType} {cls : Nat → Option Const.Cls} {classes : Nat → PyClass}
    (R : RequestOK e items cls classes) : NodesFine e items cls := by
  intro id n hn f hf
  refine ⟨fun s hk => ?_, fun hnu gid g hk hg => R.nullable id n hn f hf hnu gid g hk hg⟩
  obtain ⟨h1, h2, h3, h4⟩ := R.slots id n hn f hf s hk
  refine ⟨h1, h2, h3, h4, ?_⟩
  obtain ⟨a, ha⟩ := R.field hn hf
  rcases emitField_cases ha with ⟨s', code, c1, c2, -⟩ | ⟨gid, c1, -⟩ | ⟨gid, c1, -⟩
  · rw [hk] at c1; cases c1; exact ⟨code, c2⟩
  · rw [hk] at c1; cases c1
  · rw [hk] at c1; cases c1

theorem RequestOK.classes {e : Env} {items : Str → Option ItemType} {cls : Nat → Option Const.Cls} {classes : Nat → PyClass}
    (R : RequestOK e items cls classes) : ClassesFine e classes := ⟨R.emitted, R.priv⟩

/-! ## The schema of a node -/

theorem slotType_some {e : Env} {items : Str → Option ItemType} {cls : Nat → Option Const.Cls} {f : SField} {s : Slot}
    (h : SlotFine e items cls f s) : ∃ ty, slotTypeOf cls f.tt s.ty = some ty := by
  obtain ⟨-, hni, -, hw⟩ := (C76_compiles (e.ctx f) s).mp h.compiles
  have hi := h.items
  obtain ⟨t, off, d, ex⟩ := s
  cases t with
  | interface => exact absurd rfl hni
  | prim fmt => cases fmt <;> exact ⟨_, rfl⟩
  | list el =>
    obtain ⟨nm, hnm⟩ := hw
    obtain ⟨it, hit, -⟩ := hi el rfl nm hnm
    exact ⟨.list it.toItemType, by show (itemOf cls f.tt el).map _ = _; rw [show itemOf cls f.tt el = some it from hit]; rfl⟩
  | _ => exact ⟨_, rfl⟩

theorem fields_exist {e : Env} {items : Str → Option ItemType} {cls : Nat → Option Const.Cls} (H : NodesFine e items cls)
    {fuel : Nat} {pfx : String} (one : ∀ f nd, FieldFine e items cls f → mkNode e none fuel pfx f = .ok nd → ∃ lf, IsField e cls f lf) :
    ∀ (fs : List SField) (nds : List Node), (∀ f ∈ fs, FieldFine e items cls f) → addChildren (mkNode e none fuel pfx) fs = .ok nds →
      ∃ lfs, IsFields e cls fs lfs
  | [], _, _, _ => ⟨[], by rw [IsFields.eq_1]⟩
  | f :: fs, nds, hf, h => by
    unfold addChildren at h
    by_cases hs : (f.isVoid && !f.inUnion) = true
    · rw [if_pos hs] at h
      obtain ⟨lfs, hl⟩ := fields_exist H one fs nds (fun g hg => hf g (List.mem_cons_of_mem _ hg)) h
      cases hk : f.kind with
      | group id =>
        unfold SField.isVoid at hs
        rw [hk] at hs
        cases hs
      | slot s =>
        obtain ⟨ty, hty⟩ := slotType_some ((hf f (by simp)).slot s hk)
        refine ⟨.slot f.pyname f.code (discOf f) ty s.off (explicitDefault s) :: lfs, isFields_cons.mpr ⟨?_, hl⟩⟩
        rw [IsField.eq_1]
        exact ⟨s, hk, rfl, rfl, rfl, hty, rfl, rfl⟩
    · rw [if_neg hs] at h
      obtain ⟨nd, h1, h⟩ := py_inv h
      obtain ⟨rest, h2, h⟩ := py_inv h
      obtain ⟨lf, hlf⟩ := one f nd (hf f (by simp)) h1
      obtain ⟨lfs, hl⟩ := fields_exist H one fs rest (fun g hg => hf g (List.mem_cons_of_mem _ hg)) h2
      exact ⟨lf :: lfs, isFields_cons.mpr ⟨hlf, hl⟩⟩

theorem field_exists {e : Env} {items : Str → Option ItemType} {cls : Nat → Option Const.Cls} (H : NodesFine e items cls) :
    ∀ (fuel : Nat) (pfx : String) (f : SField) (nd : Node), FieldFine e items cls f → mkNode e none fuel pfx f = .ok nd → ∃ lf, IsField e cls f lf
  | 0, _, _, _, _, h => by unfold mkNode at h; cases h
  | fuel + 1, pfx, f, nd, hf, h => by
    unfold mkNode at h
    cases hk : f.kind with
    | slot s =>
      obtain ⟨ty, hty⟩ := slotType_some (hf.slot s hk)
      refine ⟨.slot f.pyname f.code (discOf f) ty s.off (explicitDefault s), ?_⟩
      rw [IsField.eq_1]
      exact ⟨s, hk, rfl, rfl, rfl, hty, rfl, rfl⟩
    | group id =>
      rw [hk] at h
      obtain ⟨n, hn, h⟩ := py_inv h
      obtain ⟨ch, hch, -⟩ := py_inv h
      have hn' : e.nodes id = some n := by
        unfold Env.node at hn
        cases hx : e.nodes id with
        | none => rw [hx] at hn; cases hn
        | some m => rw [hx] at hn; cases hn; rfl
      obtain ⟨lfs, hl⟩ := fields_exist H (fun f nd => field_exists H fuel _ f nd) n.fields ch (H id n hn') hch
      refine ⟨.group f.pyname f.code (discOf f) f.nullable (unionOf n) lfs, ?_⟩
      rw [IsField.eq_2]
      exact ⟨id, n, hk, hn', rfl, rfl, rfl, rfl, rfl, hl⟩

/-- C77: a struct node for which a constructor is emitted describes a schema. -/
theorem C77_schema {e : Env} {items : Str → Option ItemType} {cls : Nat → Option Const.Cls} {classes : Nat → PyClass}
    (R : RequestOK e items cls classes) {id : Nat} {n : SNode} (hn : e.nodes id = some n) {F : Nat} {fn : NewFn}
    (h : emitNew e F n = .ok fn) : ∃ S, IsSchema e cls n S := by
  unfold emitNew at h
  obtain ⟨nds, hnds, -⟩ := py_inv h
  obtain ⟨lfs, hl⟩ := fields_exist R.nodes (fun f nd => field_exists R.nodes F "" f nd) n.fields nds (R.nodes id n hn) hnds
  exact ⟨⟨n.dataWords, n.ptrs, unionOf n, lfs⟩, rfl, rfl, rfl, hl⟩

mutual

theorem field_unique {e : Env} {cls : Nat → Option Const.Cls} : ∀ {f : SField} (a b : Field), IsField e cls f a → IsField e cls f b → a = b
  | f, .slot .., .slot .., ha, hb => by
    rw [IsField.eq_1] at ha hb
    obtain ⟨s, hk, rfl, rfl, rfl, h1, rfl, rfl⟩ := ha
    obtain ⟨s', hk', rfl, rfl, rfl, h2, rfl, rfl⟩ := hb
    rw [hk] at hk'
    cases hk'
    rw [h1] at h2
    cases h2
    rfl
  | f, .slot .., .group .., ha, hb => by
    rw [IsField.eq_1] at ha
    rw [IsField.eq_2] at hb
    obtain ⟨s, hk, -⟩ := ha
    obtain ⟨i, m, hk', -⟩ := hb
    rw [hk] at hk'; cases hk'
  | f, .group .., .slot .., ha, hb => by
    rw [IsField.eq_2] at ha
    rw [IsField.eq_1] at hb
    obtain ⟨s, hk, -⟩ := hb
    obtain ⟨i, m, hk', -⟩ := ha
    rw [hk] at hk'; cases hk'
  | f, .group _ _ _ _ _ ca, .group _ _ _ _ _ cb, ha, hb => by
    rw [IsField.eq_2] at ha hb
    obtain ⟨i, m, hk, hm, rfl, rfl, rfl, rfl, rfl, h1⟩ := ha
    obtain ⟨i', m', hk', hm', rfl, rfl, rfl, rfl, rfl, h2⟩ := hb
    rw [hk] at hk'
    cases hk'
    rw [hm] at hm'
    cases hm'
    rw [fields_unique ca cb h1 h2]

theorem fields_unique {e : Env} {cls : Nat → Option Const.Cls} : ∀ {fs : List SField} (a b : List Field), IsFields e cls fs a →
    IsFields e cls fs b → a = b
  | [], [], [], _, _ => rfl
  | [], _ :: _, _, ha, _ => absurd ha isFields_nil
  | [], [], _ :: _, _, hb => absurd hb isFields_nil
  | _ :: _, [], _, ha, _ => by rw [IsFields.eq_1] at ha; cases ha
  | _ :: _, _ :: _, [], _, hb => by rw [IsFields.eq_1] at hb; cases hb
  | f :: fs, a :: as, b :: bs, ha, hb => by
    rw [isFields_cons] at ha hb
    rw [field_unique a b ha.1 hb.1, fields_unique as bs ha.2 hb.2]

end

/-- C77: … and only one. -/
theorem C77_schema_unique {e : Env} {cls : Nat → Option Const.Cls} {n : SNode} {S S' : Schema} (h : IsSchema e cls n S)
    (h' : IsSchema e cls n S') : S = S' := by
  obtain ⟨d, p, u, fs⟩ := S
  obtain ⟨d', p', u', fs'⟩ := S'
  obtain ⟨h1, h2, h3, h4⟩ := h
  obtain ⟨h1', h2', h3', h4'⟩ := h'
  simp only at h1 h2 h3 h4 h1' h2' h3' h4'
  subst h1; subst h2; subst h3; subst h1'; subst h2'; subst h3'
  rw [fields_unique fs fs' h4 h4']

/-! ## The constructor -/

theorem bind_same : ∀ (l : List Field) (as : List Arg) (fr : Frame), bindNames (l.map Field.name) as fr = Schema.bindParams l as fr
  | [], [], _ => rfl
  | [], _ :: _, _ => rfl
  | _ :: _, [], _ => rfl
  | f :: l, a :: as, fr => bind_same l as (fr.set f.name a)

theorem defaultArgs_map (fs : List Field) : defaultArgs none fs = (fs.filter (!·.skipped)).map fun f => defaultArg none f := by
  induction fs with
  | nil => rw [defaultArgs.eq_1]; rfl
  | cons f fs ih =>
    rw [defaultArgs.eq_2]
    by_cases hs : f.skipped = true
    · rw [if_pos hs, List.filter_cons_of_neg (by simp [hs]), ih]
    · rw [if_neg hs, List.filter_cons_of_pos (by simp [hs]), ih]; rfl

/-- C77: the constructor which is emitted for a struct node is the one of the schema it describes: its parameters, their
defaults, and, for all arguments, the object it makes or the exception it raises.  What is proved of constructors in
Props/Ctor.lean (C30, C31, …) is true of it. -/
theorem C77_constructor {e : Env} {items : Str → Option ItemType} {cls : Nat → Option Const.Cls} {classes : Nat → PyClass}
    (R : RequestOK e items cls classes) {id : Nat} {n : SNode} (hn : e.nodes id = some n) {S : Schema} (hS : IsSchema e cls n S)
    {F : Nat} {fn : NewFn} (h : emitNew e F n = .ok fn) :
    fn.params.map Prod.fst = S.params.map Field.name ∧
    fn.defaults = .ok (S.params.map fun f => (f.name, defaultArg none f)) ∧
    ∀ fuel args, construct items fuel n fn args = S.construct fuel args := by
  obtain ⟨hd, hp, hu, hfs⟩ := hS
  unfold emitNew at h
  obtain ⟨nds, hnds, h⟩ := py_inv h
  have h : (if ¬ (nds.map Node.varname).Nodup then .error .valueError
    else do
      let body ← StructEmit.handleNodes e n.dataWords (if n.isUnion then some ("anonymous", n.discOffset * 2) else none) nds
      pure ⟨nds.map fun c => (c.varname, c.dflt), (n.dataWords + n.ptrs) * 8,
        ((match (if n.isUnion then some ("anonymous", n.discOffset * 2) else none) with | some (v, _) => [v] | none => []) ++
          unionsAll nds).map curtagVar, body⟩ : Py NewFn) = .ok fn := h
  have hroot : (if n.isUnion then some ("anonymous", n.discOffset * 2) else none) = uniOf S.rootUnion := by
    rw [groupUnion_same "anonymous" n]
    unfold Schema.rootUnion groupUnion
    rw [hu]
  rw [hroot] at h
  split at h
  · cases h
  obtain ⟨body, hbody, h⟩ := py_inv h
  have h := (Except.ok.inj h).symm
  obtain ⟨a1, a2, a3⟩ := nodes_same R.nodes S.fields hfs (R.nodes id n hn) hnds
  obtain ⟨hev, hrun⟩ := a3 n.dataWords S.rootUnion body hbody
  have hvar : ∀ f : Field, varname "" f.name = f.name := fun f => by unfold varname; rw [if_pos rfl]
  have hnames : nds.map Node.varname = S.params.map Field.name := by
    rw [a1]
    exact List.map_congr_left fun f _ => hvar f
  have hpn : fn.params.map Prod.fst = S.params.map Field.name := by
    rw [h, ← hnames, List.map_map]; rfl
  refine ⟨hpn, ?_, ?_⟩
  · unfold NewFn.defaults
    rw [hpn]
    have : fn.params.map Prod.snd = nds.map Node.dflt := by rw [h, List.map_map]; rfl
    rw [this, hev, defaultArgs_map]
    show Except.ok ((S.params.map Field.name).zip (S.params.map fun f => defaultArg none f)) = _
    rw [List.zip_map']
  · intro fuel args
    unfold construct NewFn.call Schema.construct Schema.new
    rw [hpn, bind_same, hd, hp]
    have hl : fn.length = (n.dataWords + n.ptrs) * 8 := by rw [h]
    have hc : fn.curtags = (match S.union with | some _ => [curtagVar "anonymous"] | none => []) ++ curtagsAll "" S.fields := by
      rw [h]
      show ((match uniOf S.rootUnion with | some (v, _) => [v] | none => []) ++ unionsAll nds).map curtagVar = _
      rw [List.map_append, a2]
      unfold Schema.rootUnion
      cases S.union <;> rfl
    have hb : fn.body = body := by rw [h]
    rw [hl, hc, hb, funext (hrun fuel)]
    rfl

/-! ## The properties -/

/-- C77: the properties which are emitted for a struct node are those of the schema it describes: from some recursion
limit on, `o.x` gives what the schema says, for all objects. -/
theorem C77_properties {e : Env} {items : Str → Option ItemType} {cls : Nat → Option Const.Cls} {classes : Nat → PyClass}
    (R : RequestOK e items cls classes) {id : Nat} {n : SNode} (hn : e.nodes id = some n) {S : Schema} (hS : IsSchema e cls n S) :
    ∃ G0, ∀ G, G0 ≤ G → ∀ o x, (∀ f ∈ n.fields, x ≠ "_" ++ f.pyname) →
      (getattr classes items G o (classes id) x).map Res.toRVal = (getAttr o S.union x S.fields).getD (.error .attributeError) := by
  obtain ⟨G0, hG⟩ := groups_same R.nodes R.classes S.fields (items := items) (cls := cls)
  refine ⟨G0 + 2, ?_⟩
  rw [hS.2.2.1]
  exact class_same R.nodes R.classes hn hS.2.2.2 hG

theorem getAttr_mem : ∀ {lfs : List Field}, (lfs.map Field.name).Nodup → ∀ lf ∈ lfs, ∀ o u, getAttr o u lf.name lfs = some (getField o u lf)
  | [], _, lf, h, _, _ => by cases h
  | g :: gs, hnd, lf, h, o, u => by
    rw [List.map_cons, List.nodup_cons] at hnd
    rw [getAttr.eq_2]
    rcases List.mem_cons.mp h with rfl | h
    · have : getAttr o u lf.name gs = none := by
        clear h
        have hnm := hnd.1
        clear hnd
        induction gs with
        | nil => rw [getAttr.eq_1]
        | cons g gs ih =>
          rw [List.map_cons, List.mem_cons, not_or] at hnm
          rw [getAttr.eq_2, ih hnm.2]
          show (if g.name = lf.name then _ else _) = _
          rw [if_neg (fun hc => hnm.1 hc.symm)]
      rw [this]
      show (if lf.name = lf.name then _ else _) = _
      rw [if_pos rfl]
    · rw [getAttr_mem hnd.2 lf h o u]

/-- C77: constructing and reading back, from the struct node: if the layout is one of the capnp compiler (`Schema.WF`)
and the names are distinct, then the emitted constructor succeeds for all acceptable arguments and the emitted property
of each field reads the argument which was given for it. -/
theorem C77_roundtrip {e : Env} {items : Str → Option ItemType} {cls : Nat → Option Const.Cls} {classes : Nat → PyClass}
    (R : RequestOK e items cls classes) {id : Nat} {n : SNode} (hn : e.nodes id = some n) {S : Schema} (hS : IsSchema e cls n S)
    {F : Nat} {fn : NewFn} (h : emitNew e F n = .ok fn) (hwf : S.WF) (hl : S.locals.Nodup) (hnames : (n.fields.map SField.pyname).Nodup)
    {fuel : Nat} {args : List Arg} {k : Nat} (ha : AccFields fuel S.fields args k) (hm : (members S.fields args).length ≤ 1)
    (hsz : 8 * (S.dataWords + S.ptrs) + k ≤ 2 ^ 32) :
    ∃ o, construct items fuel n fn args = .ok o ∧ ∃ G0, ∀ G, G0 ≤ G →
      ∀ (i : Nat) (f : Field) (a : Arg), S.params[i]? = some f → args[i]? = some a → absent f a = false →
        ReadsVal o f a ((getattr classes items G o (classes id) f.name).map Res.toRVal) := by
  obtain ⟨o, ho, -, -, -, -, hr, -⟩ := C30_roundtrip fuel S args k hwf hl ha hm hsz
  obtain ⟨G0, hG⟩ := C77_properties R hn hS
  have hnm : ∀ {fs : List SField} {lfs : List Field}, IsFields e cls fs lfs → lfs.map Field.name = fs.map SField.pyname := by
    intro fs lfs
    induction lfs generalizing fs with
    | nil => intro h; rw [IsFields.eq_1] at h; rw [h]; rfl
    | cons g gs ih =>
      intro h
      cases fs with
      | nil => exact absurd h isFields_nil
      | cons f fs =>
        rw [isFields_cons] at h
        rw [List.map_cons, List.map_cons, ih h.2, (name_same h.1).1]
  have hnf := hnm hS.2.2.2
  refine ⟨o, by rw [(C77_constructor R hn hS h).2.2, ho], G0, ?_⟩
  intro G hge i f a hf hai hab
  have hmem : f ∈ S.fields := (List.mem_filter.mp (List.mem_of_getElem? hf)).1
  have hpriv : ∀ g ∈ n.fields, f.name ≠ "_" ++ g.pyname := by
    have : f.name ∈ n.fields.map SField.pyname := by rw [← hnf]; exact List.mem_map_of_mem hmem
    obtain ⟨q, hq, hq'⟩ := List.mem_map.mp this
    intro g hg
    rw [← hq']
    exact R.priv id n hn q hq g hg
  rw [hG G hge o f.name hpriv, getAttr_mem (by rw [hnf]; exact hnames) f hmem o S.union]
  exact hr i f a hf hai hab

/-! ## When a constructor is emitted -/

mutual

/-- Every group which is not nullable has a field which a constructor can set. -/
def GroupsSettable : Field → Prop
  | .slot .. => True
  | .group _ _ _ nullable _ children => (nullable = false → ∃ f ∈ children, f.skipped = false) ∧ AllSettable children

def AllSettable : List Field → Prop
  | [] => True
  | f :: fs => GroupsSettable f ∧ AllSettable fs

end

theorem addChildren_fields {mk : SField → Py Node} (hmk : ∀ f nd, mk f = .ok nd → nd.f = f) : ∀ {fs : List SField} {nds : List Node},
    addChildren mk fs = .ok nds → nds.map Node.f = fs.filter fun f => !(f.isVoid && !f.inUnion)
  | [], nds, h => by unfold addChildren at h; cases h; rfl
  | f :: fs, nds, h => by
    unfold addChildren at h
    by_cases hs : (f.isVoid && !f.inUnion) = true
    · rw [if_pos hs] at h
      rw [List.filter_cons_of_neg (by simpa using hs)]
      exact addChildren_fields hmk h
    · rw [if_neg hs] at h
      obtain ⟨nd, h1, h⟩ := py_inv h
      obtain ⟨rest, h2, h⟩ := py_inv h
      cases h
      rw [List.filter_cons_of_pos (p := fun f : SField => !(f.isVoid && !f.inUnion)) (by rw [Bool.not_eq_true'] ; exact Bool.eq_false_iff.mpr hs), List.map_cons, hmk f nd h1, addChildren_fields hmk h2]

/-- `nullable` is only on groups. -/
def NullableGroups (e : Env) : Prop :=
  ∀ id n, e.nodes id = some n → ∀ f ∈ n.fields, f.nullable = true → ∃ gid, f.kind = .group gid

/-- A field of a node of the request. -/
def FieldOf (e : Env) (f : SField) : Prop := ∃ id n, e.nodes id = some n ∧ f ∈ n.fields

theorem filter_settable {e : Env} {cls : Nat → Option Const.Cls} : ∀ {fs : List SField} {lfs : List Field}, IsFields e cls fs lfs →
    (∃ g ∈ lfs, g.skipped = false) → fs.filter (fun f => !(f.isVoid && !f.inUnion)) ≠ []
  | fs, [], _, h => by obtain ⟨g, hg, -⟩ := h; cases hg
  | [], g :: gs, h, _ => absurd h isFields_nil
  | f :: fs, g :: gs, h, he => by
    rw [isFields_cons] at h
    by_cases hs : (f.isVoid && !f.inUnion) = true
    · rw [List.filter_cons_of_neg (by simpa using hs)]
      refine filter_settable h.2 ?_
      obtain ⟨q, hq, hq'⟩ := he
      rcases List.mem_cons.mp hq with rfl | hq
      · rw [skipped_same h.1, hs] at hq'; cases hq'
      · exact ⟨q, hq, hq'⟩
    · rw [List.filter_cons_of_pos (p := fun f : SField => !(f.isVoid && !f.inUnion)) (by rw [Bool.not_eq_true'] ; exact Bool.eq_false_iff.mpr hs)]
      exact List.cons_ne_nil _ _

theorem union_some {ds ps : Nat} {union : Option Nat} : ∀ {lfs : List Field}, FieldsWF ds ps union lfs → ∀ g ∈ lfs, g.disc.isSome → union.isSome
  | [], _, g, h, _ => by cases h
  | c :: cs, hw, g, h, hd => by
    rw [FieldsWF.eq_2] at hw
    rcases List.mem_cons.mp h with rfl | h
    · obtain ⟨tag, ht⟩ := Option.isSome_iff_exists.mp hd
      exact (hw.2.1 tag ht).1
    · exact union_some hw.2.2.2.2 g h hd

mutual

theorem field_emits {e : Env} {items : Str → Option ItemType} {cls : Nat → Option Const.Cls} {classes : Nat → PyClass}
    (R : RequestOK e items cls classes) (hN : NullableGroups e) {ds ps : Nat} :
    ∀ (lf : Field), FieldWF ds ps lf → GroupsSettable lf → ∃ F0, ∀ fuel, F0 ≤ fuel → ∀ pfx f, FieldOf e f → IsField e cls f lf →
      ∃ nd, mkNode e none fuel pfx f = .ok nd ∧ ∀ ds' uni, (lf.disc.isSome → uni.isSome) → ∃ st, StructEmit.handleNode e ds' uni nd = .ok st
  | .slot name code disc ty off dflt, _, _ => by
    refine ⟨1, fun fuel hf pfx f ho hi => ?_⟩
    obtain ⟨id, n, hn, hm⟩ := ho
    rw [IsField.eq_1] at hi
    obtain ⟨s, hk, rfl, rfl, rfl, -, -, -⟩ := hi
    obtain ⟨fuel, rfl⟩ : ∃ k, fuel = k + 1 := ⟨fuel - 1, by omega⟩
    have hd : ∃ d, getDefault e none f [] = .ok d := by
      rw [getDefault_none]
      rw [hk]
      by_cases hu : f.inUnion = true
      · exact ⟨_, if_pos hu⟩
      · exact ⟨_, if_neg hu⟩
    obtain ⟨d, hd⟩ := hd
    refine ⟨.mk f (varname pfx f.pyname) [] none d, ?_, ?_⟩
    · unfold mkNode
      rw [hk]
      show (do pure (Node.mk f (varname pfx f.pyname) [] none (← getDefault e none f [])) : Py Node) = _
      rw [bind_okP hd]; rfl
    · intro ds' uni hu
      have hnn : f.nullable = false := by
        cases hx : f.nullable with
        | false => rfl
        | true => obtain ⟨g, hg⟩ := hN id n hn f hm hx; rw [hk] at hg; cases hg
      obtain ⟨code, hc, -⟩ := C76_setter_compiles (e.ctx f) s ds' ((R.nodes id n hn f hm).slot s hk).compiles
      rw [StructEmit.handleNode.eq_1, if_neg (by
        intro h
        rw [Bool.and_eq_true, inUnion_disc] at h
        have := hu h.1
        cases uni with
        | none => cases this
        | some x => exact absurd h.2 (by simp)), hnn, hk]
      exact ⟨_, by rw [if_neg (by simp)]; show ((do pure [Stmt.slot _ (← emitSetter (e.ctx f) ds' s)] : Py (List Stmt)) >>= fun b => pure (wrap f _ uni b)) = _
                   rw [hc]; rfl⟩
  | .group name code disc nullable union children, hw, hs => by
    rw [FieldWF.eq_2] at hw
    rw [GroupsSettable.eq_2] at hs
    obtain ⟨-, hw, hnull⟩ := hw
    obtain ⟨F0, ih⟩ := fields_emit R hN children hw hs.2
    refine ⟨F0 + 1, fun fuel hf pfx f ho hi => ?_⟩
    have hi0 := hi
    rw [IsField.eq_2] at hi
    obtain ⟨gid, g, hk, hg, rfl, rfl, rfl, rfl, rfl, hfs⟩ := hi
    obtain ⟨fuel, rfl⟩ : ∃ k, fuel = k + 1 := ⟨fuel - 1, by omega⟩
    obtain ⟨nds, hch, hst⟩ := ih fuel (by omega) (varname pfx f.pyname) g.fields (fun q hq => ⟨gid, g, hg, hq⟩) hfs
    have hnode : e.node gid = .ok g := by unfold Env.node; rw [hg]
    obtain ⟨id, n, hn, hm⟩ := ho
    have hfl := addChildren_fields (fun f nd h => mkNode_f f nd h) hch
    -- the children of a nullable group
    have hnull2 : f.nullable = true → ∃ isNull value nd1 nd2 s, check e f = .ok (isNull, value) ∧ isNull.kind = .slot s ∧
        nds = [nd1, nd2] ∧ nd2.f = value ∧ value.cname = "value" := by
      intro hx
      obtain ⟨-, -, c, o, ty, d, c2, hc, hty, -, -, hc2⟩ := hnull hx
      obtain ⟨a, ha⟩ := R.field hn hm
      unfold emitField at ha
      rw [hk] at ha
      have ha : (do
        let _ ← e.node gid
        if f.nullable then do
          let _ ← check e f
          pure [(f.pyname, PyProp.nullable ("_" ++ f.pyname)), ("_" ++ f.pyname, .group (if f.inUnion then some f.disc else none) gid)]
        else pure [(f.pyname, .group (if f.inUnion then some f.disc else none) gid)]) = Except.ok a := ha
      rw [bind_okP hnode, if_pos hx] at ha
      obtain ⟨⟨isNull, value⟩, hck, -⟩ := py_inv ha
      have hck0 := hck
      unfold check at hck
      rw [hk] at hck
      have hck : (do
        let group ← e.node gid
        match group.fields with
        | [isNull, value] =>
          if isNull.cname != "isNull" || value.cname != "value" then .error .valueError
          else if value.isPointer then .error .valueError
          else pure (isNull, value)
        | _ => .error .typeError : Py (SField × SField)) = .ok (isNull, value) := hck
      rw [bind_okP hnode] at hck
      rw [hc] at hfs
      cases hgf : g.fields with
      | nil => rw [hgf] at hfs; exact absurd hfs isFields_nil
      | cons q1 r1 =>
      rw [hgf] at hfs hck hfl
      rw [isFields_cons] at hfs
      obtain ⟨i1, hfs⟩ := hfs
      cases r1 with
      | nil => exact absurd hfs isFields_nil
      | cons q2 r2 =>
      rw [isFields_cons, IsFields.eq_1] at hfs
      obtain ⟨i2, rfl⟩ := hfs
      have hck : (if (q1.cname != "isNull" || q2.cname != "value") = true then .error .valueError
          else if q2.isPointer = true then .error .valueError
          else pure (q1, q2) : Py (SField × SField)) = .ok (isNull, value) := hck
      split at hck
      · cases hck
      rename_i hcn
      split at hck
      · cases hck
      cases hck
      have s1 : (isNull.isVoid && !isNull.inUnion) = false := by
        rw [← skipped_same i1]
        cases ty <;> first | rfl | exact hty.elim
      have s2 : (value.isVoid && !value.inUnion) = false := by rw [← skipped_same i2, hc2]
      rw [List.filter_cons_of_pos (by simp [s1]), List.filter_cons_of_pos (by simp [s2]), List.filter_nil] at hfl
      rw [IsField.eq_1] at i1
      obtain ⟨s, hs1, -⟩ := i1
      match nds, hfl with
      | [nd1, nd2], hfl =>
        have h2 : nd2.f = value := by
          have := (List.cons.inj hfl).2
          exact (List.cons.inj this).1
        refine ⟨isNull, value, nd1, nd2, s, hck0, hs1, rfl, h2, ?_⟩
        by_contra hne
        exact hcn (by simp [hne])
    have hd : ∃ d, getDefault e none f nds = .ok d := by
      rw [getDefault_none]
      by_cases hu : f.inUnion = true
      · exact ⟨_, if_pos hu⟩
      rw [if_neg hu, hk]
      cases hx : f.nullable with
      | false => exact ⟨_, rfl⟩
      | true =>
        obtain ⟨isNull, value, nd1, nd2, s, h1, h2, h3, -⟩ := hnull2 hx
        show ∃ d, (if true = true then do
          let (isNull, _) ← check e f
          match isNull.kind with
          | .group _ => .error .valueError
          | .slot s =>
            if StructEmit.truthy s.dflt then pure .none
            else
              match nds[1]? with
              | some c => pure c.dflt
              | Option.none => .error .indexError
          else .ok (.tuple (nds.map Node.dflt)) : Py Dflt) = .ok d
        rw [if_pos rfl, bind_okP h1]
        show ∃ d, (match isNull.kind with
          | .group _ => .error .valueError
          | .slot s =>
            if StructEmit.truthy s.dflt then pure .none
            else
              match nds[1]? with
              | some c => pure c.dflt
              | Option.none => .error .indexError : Py Dflt) = .ok d
        rw [h2, h3]
        show ∃ d, (if StructEmit.truthy s.dflt = true then pure .none else pure nd2.dflt : Py Dflt) = .ok d
        split
        · exact ⟨_, rfl⟩
        · exact ⟨_, rfl⟩
    obtain ⟨d, hd⟩ := hd
    refine ⟨.mk f (varname pfx f.pyname) nds (if g.isUnion then some (varname pfx f.pyname, g.discOffset * 2) else none) d, ?_, ?_⟩
    · unfold mkNode
      rw [hk]
      show (do
        let group ← e.node gid
        let children ← addChildren (mkNode e none fuel (varname pfx f.pyname)) group.fields
        let union := if group.isUnion then some (varname pfx f.pyname, group.discOffset * 2) else none
        pure (Node.mk f (varname pfx f.pyname) children union (← getDefault e none f children)) : Py Node) = _
      rw [bind_okP hnode, bind_okP hch, bind_okP hd]; rfl
    · intro ds' uni hu
      have hun : ∀ q ∈ children, q.disc.isSome →
          (if g.isUnion then some (varname pfx f.pyname, g.discOffset * 2) else none).isSome := by
        intro q hq hqd
        have : (unionOf g).isSome := by
          exact union_some hw q hq hqd
        unfold unionOf at this
        unfold SNode.isUnion
        by_cases h0 : g.discCount = 0
        · rw [if_pos h0] at this; cases this
        · rw [if_pos (by simpa using Nat.pos_of_ne_zero h0)]; rfl
      obtain ⟨rest, hrest⟩ := hst ds' _ hun
      rw [StructEmit.handleNode.eq_1, if_neg (by
        intro h
        rw [Bool.and_eq_true, inUnion_disc] at h
        have := hu h.1
        cases uni with
        | none => cases this
        | some x => exact absurd h.2 (by simp)), hk]
      cases hx : f.nullable with
      | true =>
        obtain ⟨isNull, value, nd1, nd2, s, h1, h2, h3, h4, h5⟩ := hnull2 hx
        rw [if_pos rfl, h3]
        rw [h3] at hrest
        show ∃ st, ((if (nd2.f.cname != "value") = true then .error PyErr.assertionError
            else do
              let rest ← StructEmit.handleNodes e ds' _ [nd1, nd2]
              pure (Stmt.ifNone (varname pfx f.pyname) nd2.dflt :: rest) : Py (List Stmt)) >>= fun b => pure (wrap f _ uni b)) = .ok st
        rw [if_neg (by rw [h4, h5]; decide), bind_okP hrest]
        exact ⟨_, rfl⟩
      | false =>
        have hem : ¬ nds.isEmpty = true := by
          intro h
          have h0 : nds = [] := List.isEmpty_iff.mp h
          rw [h0, List.map_nil] at hfl
          exact filter_settable hfs (hs.1 hx) hfl.symm
        rw [if_neg (by simp)]
        show ∃ st, ((if nds.isEmpty = true then .error PyErr.syntaxError
            else do
              let rest ← StructEmit.handleNodes e ds' _ nds
              pure (Stmt.unpack (nds.map Node.varname) (varname pfx f.pyname) :: rest) : Py (List Stmt)) >>= fun b => pure (wrap f _ uni b)) = .ok st
        rw [if_neg hem, bind_okP hrest]
        exact ⟨_, rfl⟩

theorem fields_emit {e : Env} {items : Str → Option ItemType} {cls : Nat → Option Const.Cls} {classes : Nat → PyClass}
    (R : RequestOK e items cls classes) (hN : NullableGroups e) {ds ps : Nat} {union : Option Nat} :
    ∀ (lfs : List Field), FieldsWF ds ps union lfs → AllSettable lfs → ∃ F0, ∀ fuel, F0 ≤ fuel → ∀ pfx fs, (∀ f ∈ fs, FieldOf e f) →
      IsFields e cls fs lfs → ∃ nds, addChildren (mkNode e none fuel pfx) fs = .ok nds ∧
        ∀ ds' uni, (∀ g ∈ lfs, g.disc.isSome → uni.isSome) → ∃ st, StructEmit.handleNodes e ds' uni nds = .ok st
  | [], _, _ => by
    refine ⟨0, fun fuel _ pfx fs _ h => ?_⟩
    rw [IsFields.eq_1] at h
    subst h
    exact ⟨[], rfl, fun _ _ _ => ⟨[], by rw [StructEmit.handleNodes.eq_1]⟩⟩
  | g :: gs, hw, hs => by
    rw [FieldsWF.eq_2] at hw
    rw [AllSettable.eq_2] at hs
    obtain ⟨A, ha⟩ := field_emits R hN g hw.1 hs.1
    obtain ⟨B, hb⟩ := fields_emit R hN gs hw.2.2.2.2 hs.2
    refine ⟨max A B, fun fuel hf pfx fs ho h => ?_⟩
    cases fs with
    | nil => exact absurd h isFields_nil
    | cons f fs =>
    rw [isFields_cons] at h
    obtain ⟨nd, h1, h2⟩ := ha fuel (by omega) pfx f (ho f (by simp)) h.1
    obtain ⟨nds, h3, h4⟩ := hb fuel (by omega) pfx fs (fun q hq => ho q (List.mem_cons_of_mem _ hq)) h.2
    unfold addChildren
    by_cases hsk : (f.isVoid && !f.inUnion) = true
    · rw [if_pos hsk]
      exact ⟨nds, h3, fun ds' uni hu => h4 ds' uni fun q hq => hu q (List.mem_cons_of_mem _ hq)⟩
    · rw [if_neg hsk, bind_okP h1, bind_okP h3]
      refine ⟨nd :: nds, rfl, fun ds' uni hu => ?_⟩
      obtain ⟨a, ea⟩ := h2 ds' uni (hu g (by simp))
      obtain ⟨b, eb⟩ := h4 ds' uni fun q hq => hu q (List.mem_cons_of_mem _ hq)
      exact ⟨a ++ b, by rw [StructEmit.handleNodes.eq_2, bind_okP ea, bind_okP eb]; rfl⟩

end

/-- C77: from some recursion limit on, a constructor is emitted exactly if the parameters have different names, otherwise
there is a `ValueError`; provided that the layout is one of the capnp compiler, `nullable` is only on groups, and each
other group has a field to set. -/
theorem C77_accepts {e : Env} {items : Str → Option ItemType} {cls : Nat → Option Const.Cls} {classes : Nat → PyClass}
    (R : RequestOK e items cls classes) (hN : NullableGroups e) {id : Nat} {n : SNode} (hn : e.nodes id = some n) {S : Schema}
    (hS : IsSchema e cls n S) (hwf : S.WF) (hs : AllSettable S.fields) :
    ∃ F0, ∀ F, F0 ≤ F → ((S.params.map Field.name).Nodup → ∃ fn, emitNew e F n = .ok fn) ∧
      (¬ (S.params.map Field.name).Nodup → emitNew e F n = .error .valueError) := by
  obtain ⟨-, -, hu, hfs⟩ := hS
  obtain ⟨F0, h⟩ := fields_emit R hN S.fields hwf.fields hs
  refine ⟨F0, fun F hF => ?_⟩
  obtain ⟨nds, hch, hst⟩ := h F hF "" n.fields (fun f hf => ⟨id, n, hn, hf⟩) hfs
  obtain ⟨a1, -, -⟩ := nodes_same R.nodes S.fields hfs (R.nodes id n hn) hch
  have hvar : ∀ f : Field, varname "" f.name = f.name := fun f => by unfold varname; rw [if_pos rfl]
  have hnames : nds.map Node.varname = S.params.map Field.name := by
    rw [a1]
    exact List.map_congr_left fun f _ => hvar f
  obtain ⟨st, hst⟩ := hst n.dataWords (if n.isUnion then some ("anonymous", n.discOffset * 2) else none) (by
    intro g hg hd
    have := union_some hwf.fields g hg hd
    rw [hu] at this
    unfold unionOf at this
    unfold SNode.isUnion
    by_cases h0 : n.discCount = 0
    · rw [if_pos h0] at this; cases this
    · rw [if_pos (by simpa using Nat.pos_of_ne_zero h0)]; rfl)
  have hE : emitNew e F n = (if ¬ (S.params.map Field.name).Nodup then .error .valueError
    else do
      let body ← StructEmit.handleNodes e n.dataWords (if n.isUnion then some ("anonymous", n.discOffset * 2) else none) nds
      pure ⟨nds.map fun c => (c.varname, c.dflt), (n.dataWords + n.ptrs) * 8,
        ((match (if n.isUnion then some ("anonymous", n.discOffset * 2) else none) with | some (v, _) => [v] | none => []) ++
          unionsAll nds).map curtagVar, body⟩ : Py NewFn) := by
    unfold emitNew
    rw [bind_okP hch, ← hnames]
    rfl
  rw [hE]
  refine ⟨fun hp => ?_, fun hp => if_pos hp⟩
  rw [if_neg (fun hc => hc hp), bind_okP hst]
  exact ⟨_, rfl⟩

/-- C77: the property of a nullable group is emitted exactly if the group consists of `isNull` and `value`, and `value` is
not a pointer. -/
theorem C77_nullable_check {e : Env} {f : SField} {id : Nat} {g : SNode} (hk : f.kind = .group id) (hg : e.nodes id = some g)
    (hn : f.nullable = true) :
    (∃ props, emitField e f = .ok props) ↔ ∃ a b, g.fields = [a, b] ∧ a.cname = "isNull" ∧ b.cname = "value" ∧
      ∀ s, b.kind = .slot s → s.ty ≠ .text ∧ s.ty ≠ .data ∧ s.ty ≠ .anyPointer ∧ (∀ i, s.ty ≠ .struct i) ∧ ∀ t, s.ty ≠ .list t := by
  have hnode : e.node id = .ok g := by unfold Env.node; rw [hg]
  have hE : emitField e f = (check e f >>= fun _ => pure [(f.pyname, .nullable ("_" ++ f.pyname)),
      ("_" ++ f.pyname, .group (if f.inUnion then some f.disc else none) id)]) := by
    unfold emitField
    rw [hk]
    show (e.node id >>= fun _ => if f.nullable then _ else _) = _
    rw [bind_okP hnode, if_pos hn]
  have hC : check e f = (match g.fields with
      | [isNull, value] =>
        if isNull.cname != "isNull" || value.cname != "value" then .error .valueError
        else if value.isPointer then .error .valueError
        else pure (isNull, value)
      | _ => .error .typeError : Py (SField × SField)) := by
    unfold check
    rw [hk]
    show (e.node id >>= fun group => _) = _
    rw [bind_okP hnode]
    rfl
  have hP : ∀ b : SField, b.isPointer = false ↔
      ∀ s, b.kind = .slot s → s.ty ≠ .text ∧ s.ty ≠ .data ∧ s.ty ≠ .anyPointer ∧ (∀ i, s.ty ≠ .struct i) ∧ ∀ t, s.ty ≠ .list t := by
    intro b
    unfold SField.isPointer
    cases hb : b.kind with
    | group i => exact ⟨fun _ s hs => (by cases hs), fun _ => rfl⟩
    | slot s =>
      obtain ⟨t, off, d, ex⟩ := s
      constructor
      · intro h s hs
        cases hs
        cases t <;> first | (cases h; done) | exact ⟨nofun, nofun, nofun, nofun, nofun⟩
      · intro h
        obtain ⟨h1, h2, h3, h4, h5⟩ := h _ rfl
        cases t with
        | text => exact absurd rfl h1
        | data => exact absurd rfl h2
        | anyPointer => exact absurd rfl h3
        | struct i => exact absurd rfl (h4 i)
        | list t => exact absurd rfl (h5 t)
        | prim fmt => cases fmt <;> rfl
        | _ => rfl
  rw [hE, hC]
  constructor
  · rintro ⟨props, h⟩
    obtain ⟨p, h, -⟩ := py_inv h
    split at h
    · rename_i a b hgf
      split at h
      · cases h
      rename_i hc
      split at h
      · cases h
      rename_i hp
      rw [Bool.or_eq_true, not_or] at hc
      exact ⟨a, b, hgf, by simpa using hc.1, by simpa using hc.2, (hP b).mp (by simpa using hp)⟩
    · cases h
  · rintro ⟨a, b, hgf, ha, hb, hp⟩
    rw [hgf]
    show ∃ props, ((if (a.cname != "isNull" || b.cname != "value") = true then .error .valueError
        else if b.isPointer = true then .error .valueError
        else pure (a, b) : Py (SField × SField)) >>= _) = .ok props
    rw [if_neg (by rw [ha, hb]; decide), if_neg (by rw [(hP b).mpr hp]; decide)]
    exact ⟨_, rfl⟩

/-! ## Example: the struct `Sample` of Props/Ctor.lean, as the nodes of a request -/

def reqSlot (cname pyname : String) (code disc : Nat) (ty : STy) (off : Nat) (d : PyVal) (ex : Bool) : SField :=
  ⟨cname, pyname, code, disc, false, .bytes, .slot ⟨ty, off, d, ex⟩⟩

/-- `struct Sample` -/
def reqSample : SNode := ⟨3, 1, 2, 9,
  [reqSlot "x" "x" 0 65535 (.prim .i) 0 (.int 5) true,
   reqSlot "b" "b" 1 65535 .bool 32 (.bool true) true,
   reqSlot "e" "e" 2 65535 (.enum 4) 3 (.int 0) false,
   reqSlot "name" "name" 3 65535 .text 0 .none false,
   ⟨"pos2", "pos2", 4, 65535, false, .bytes, .group 20⟩,
   ⟨"maybe", "maybe", 7, 65535, true, .bytes, .group 21⟩,
   reqSlot "foo" "foo" 9 0 (.prim .i) 5 (.int 0) false,
   reqSlot "bar" "bar" 10 1 (.prim .h) 10 (.int 0) false,
   reqSlot "nothing" "nothing" 11 65535 .void 0 .none false]⟩

/-- `pos2 :group` -/
def reqPos2 : SNode := ⟨3, 1, 2, 5,
  [reqSlot "lat" "lat" 4 65535 (.prim .h) 4 (.int 0) false,
   reqSlot "up" "up" 5 0 (.prim .h) 6 (.int 0) false,
   reqSlot "down" "down" 6 1 .void 0 .none false]⟩

/-- `maybe :group $Py.nullable` -/
def reqMaybe : SNode := ⟨3, 1, 0, 0,
  [reqSlot "isNull" "is_null" 7 65535 (.prim .b) 14 (.int 0) false,
   reqSlot "value" "value" 8 65535 (.prim .h) 8 (.int 7) true]⟩

def reqNodes : Nat → Option SNode
  | 10 => some reqSample
  | 20 => some reqPos2
  | 21 => some reqMaybe
  | _ => none

def reqEnv : Env := ⟨genOf exFile, false, 10, reqNodes⟩

def reqClassOf (n : SNode) : PyClass := ((emitClass reqEnv n).toOption).getD ⟨[], none⟩

def reqClasses : Nat → PyClass
  | 10 => reqClassOf reqSample
  | 20 => reqClassOf reqPos2
  | 21 => reqClassOf reqMaybe
  | _ => ⟨[], none⟩

theorem reqNodes_cases {P : Nat → SNode → Prop} (h1 : P 10 reqSample) (h2 : P 20 reqPos2) (h3 : P 21 reqMaybe) :
    ∀ id n, reqEnv.nodes id = some n → P id n := by
  intro id n h
  have h : reqNodes id = some n := h
  unfold reqNodes at h
  split at h
  · cases h; exact h1
  · cases h; exact h2
  · cases h; exact h3
  · cases h

theorem reqEnv_ok (items : Str → Option ItemType) : RequestOK reqEnv items (fun _ => none) reqClasses where
  emitted := by
    refine reqNodes_cases ?_ ?_ ?_
    · rfl
    · rfl
    · rfl
  slots := by
    have key : ∀ (c : Ctx) t off d ex, DefaultOK ⟨t, off, d, ex⟩ → ZeroDefault ⟨t, off, d, ex⟩ →
        (¬ Numeric t → d = .none) → (∀ e, t ≠ .list e) →
        DefaultOK ⟨t, off, d, ex⟩ ∧ ZeroDefault ⟨t, off, d, ex⟩ ∧ (¬ Numeric t → d = .none) ∧ ItemsOK c items (fun _ => none) t :=
      fun c t off d ex h1 h2 h3 h4 => ⟨h1, h2, h3, fun e he => absurd he (h4 e)⟩
    have slot : ∀ cname pyname code disc t off d ex, DefaultOK ⟨t, off, d, ex⟩ → ZeroDefault ⟨t, off, d, ex⟩ →
        (¬ Numeric t → d = .none) → (∀ e, t ≠ .list e) → ∀ s, (reqSlot cname pyname code disc t off d ex).kind = .slot s →
        DefaultOK s ∧ ZeroDefault s ∧ (¬ Numeric s.ty → s.dflt = .none) ∧
          ItemsOK (reqEnv.ctx (reqSlot cname pyname code disc t off d ex)) items (fun _ => none) s.ty := by
      intro cname pyname code disc t off d ex h1 h2 h3 h4 s hs
      cases hs
      exact ⟨h1, h2, h3, fun e he => absurd he (h4 e)⟩
    refine reqNodes_cases ?_ ?_ ?_
    all_goals
      repeat'
        first
        | refine List.forall_mem_cons.mpr ⟨?_, ?_⟩
        | exact List.forall_mem_nil _
        | exact slot _ _ _ _ _ _ _ _ (by simp [DefaultOK, numberType]) (by simp [ZeroDefault]) (by simp [Numeric]) nofun
        | exact nofun
  nullable := by
    refine reqNodes_cases ?_ ?_ ?_
    all_goals
      repeat'
        first
        | refine List.forall_mem_cons.mpr ⟨?_, ?_⟩
        | exact List.forall_mem_nil _
        | (intro _ gid g hk hg; cases hk; cases hg; rfl)
        | (intro h; cases h)
  priv := by
    refine reqNodes_cases ?_ ?_ ?_
    all_goals decide +kernel

theorem reqSample_schema : IsSchema reqEnv (fun _ => none) reqSample sampleSchema := by
  refine ⟨rfl, rfl, rfl, ?_⟩
  show IsFields reqEnv _ reqSample.fields sampleFields
  unfold reqSample sampleFields
  have slot : ∀ name cname code disc ty off d ex dc st df, dc = discOf (reqSlot cname name code disc ty off d ex) →
      slotTypeOf (fun _ => none) .bytes ty = some st → df = explicitDefault ⟨ty, off, d, ex⟩ →
      IsField reqEnv (fun _ => none) (reqSlot cname name code disc ty off d ex) (.slot name code dc st off df) := by
    intro name cname code disc ty off d ex dc st df h1 h2 h3
    rw [IsField.eq_1]
    exact ⟨_, rfl, rfl, rfl, h1, h2, rfl, h3⟩
  have group : ∀ f id n name code dc nullable union children, f.kind = .group id → reqNodes id = some n → name = f.pyname →
      code = f.code → dc = discOf f → nullable = f.nullable → union = unionOf n →
      IsFields reqEnv (fun _ => none) n.fields children →
      IsField reqEnv (fun _ => none) f (.group name code dc nullable union children) := by
    intro f id n name code dc nullable union children h1 h2 h3 h4 h5 h6 h7 h8
    rw [IsField.eq_2]
    exact ⟨id, n, h1, h2, h3, h4, h5, h6, h7, h8⟩
  have nil : IsFields reqEnv (fun _ => none) [] [] := by rw [IsFields.eq_1]
  refine isFields_cons.mpr ⟨slot _ _ _ _ _ _ _ _ _ _ _ rfl rfl rfl, ?_⟩
  refine isFields_cons.mpr ⟨slot _ _ _ _ _ _ _ _ _ _ _ rfl rfl rfl, ?_⟩
  refine isFields_cons.mpr ⟨slot _ _ _ _ _ _ _ _ _ _ _ rfl rfl rfl, ?_⟩
  refine isFields_cons.mpr ⟨slot _ _ _ _ _ _ _ _ _ _ _ rfl rfl rfl, ?_⟩
  refine isFields_cons.mpr ⟨group _ 20 reqPos2 _ _ _ _ _ _ rfl rfl rfl rfl rfl rfl rfl ?_, ?_⟩
  · refine isFields_cons.mpr ⟨slot _ _ _ _ _ _ _ _ _ _ _ rfl rfl rfl, ?_⟩
    refine isFields_cons.mpr ⟨slot _ _ _ _ _ _ _ _ _ _ _ rfl rfl rfl, ?_⟩
    exact isFields_cons.mpr ⟨slot _ _ _ _ _ _ _ _ _ _ _ rfl rfl rfl, nil⟩
  refine isFields_cons.mpr ⟨group _ 21 reqMaybe _ _ _ _ _ _ rfl rfl rfl rfl rfl rfl rfl ?_, ?_⟩
  · refine isFields_cons.mpr ⟨slot _ _ _ _ _ _ _ _ _ _ _ rfl rfl rfl, ?_⟩
    exact isFields_cons.mpr ⟨slot _ _ _ _ _ _ _ _ _ _ _ rfl rfl rfl, nil⟩
  refine isFields_cons.mpr ⟨slot _ _ _ _ _ _ _ _ _ _ _ rfl rfl rfl, ?_⟩
  refine isFields_cons.mpr ⟨slot _ _ _ _ _ _ _ _ _ _ _ rfl rfl rfl, ?_⟩
  exact isFields_cons.mpr ⟨slot _ _ _ _ _ _ _ _ _ _ _ rfl rfl rfl, nil⟩

/-- The constructor is emitted; `Sample(-7, False, 2, b"hi", (3, _undefined, None), None, _undefined, 9)` succeeds, and the
properties give what was passed. -/
example (items : Str → Option ItemType) : ∃ fn o G, emitNew reqEnv 10 reqSample = .ok fn ∧
    construct items 10 reqSample fn sampleArgs = .ok o ∧
    (getattr reqClasses items G o (reqClasses 10) "x").map Res.toRVal = .ok (.int (-7)) ∧
    (getattr reqClasses items G o (reqClasses 10) "name").map Res.toRVal = .ok (.bytes [104, 105]) ∧
    (getattr reqClasses items G o (reqClasses 10) "maybe").map Res.toRVal = .ok .none ∧
    (getattr reqClasses items G o (reqClasses 10) "pos").map Res.toRVal = .error .attributeError := by
  have hn : reqEnv.nodes 10 = some reqSample := rfl
  have hm : (members sampleSchema.fields sampleArgs).length ≤ 1 := by rw [sampleArgs_members]; simp
  have he : ∃ fn, emitNew reqEnv 10 reqSample = .ok fn := ⟨_, rfl⟩
  obtain ⟨fn, he⟩ := he
  obtain ⟨o, ho, G0, hr⟩ := C77_roundtrip (reqEnv_ok items) hn reqSample_schema he sampleSchema_wf sampleSchema_locals
    (by decide +kernel) sampleArgs_ok hm (by decide)
  obtain ⟨G1, hp⟩ := C77_properties (reqEnv_ok items) hn reqSample_schema
  have hr := hr (max G0 G1) (le_max_left _ _)
  have hp := hp (max G0 G1) (le_max_right _ _) o
  refine ⟨fn, o, max G0 G1, he, ho, ?_, ?_, ?_, ?_⟩
  · have := hr 0 _ _ rfl rfl rfl
    unfold ReadsVal at this
    obtain ⟨i, hi, h⟩ := this
    cases hi
    exact h
  · have := hr 3 _ _ rfl rfl rfl
    unfold ReadsVal at this
    rcases this with ⟨hn, _⟩ | ⟨t, ht, h⟩
    · cases hn
    · cases ht
      exact h
  · have hc := (C77_constructor (reqEnv_ok items) hn reqSample_schema he).2.2 10 sampleArgs
    obtain ⟨o', e, h, _⟩ := C32_nullable 10 sampleSchema sampleArgs 8 sampleSchema_wf sampleSchema_locals
      sampleArgs_ok hm (by decide) (k := 5) rfl rfl
    rw [ho, e] at hc
    cases hc
    rw [hp "maybe" (by decide +kernel)]
    show (some (getField o (some 9) _)).getD _ = _
    exact h rfl
  · exact hp "pos" (by decide +kernel)

/-- `C77_accepts` for it. -/
example (items : Str → Option ItemType) : ∃ F0, ∀ F, F0 ≤ F → ∃ fn, emitNew reqEnv F reqSample = .ok fn := by
  obtain ⟨F0, h⟩ := C77_accepts (reqEnv_ok items) (id := 10) (by
      unfold NullableGroups
      refine reqNodes_cases ?_ ?_ ?_
      all_goals
        repeat'
          first
          | refine List.forall_mem_cons.mpr ⟨?_, ?_⟩
          | exact List.forall_mem_nil _
          | (intro h; exact ⟨_, rfl⟩)
          | (intro h; cases h)) rfl reqSample_schema sampleSchema_wf (by
      show AllSettable sampleFields
      unfold sampleFields
      simp [AllSettable, GroupsSettable, Field.skipped])
  exact ⟨F0, fun F hF => (h F hF).1 (by decide +kernel)⟩

/-! ## Where it fails -/

/-- A request with one struct `n`, which has the id 1, and a group `g`, which has the id 2. -/
def reqPair (n g : SNode) : Env := ⟨genOf exFile, false, 10, fun i => if i = 1 then some n else if i = 2 then some g else none⟩

/-- The error, if any. -/
def reqErr {α} : Py α → Option PyErr
  | .ok _ => none
  | .error er => some er

/-- C77, negative: `struct A { g :group { v @0 :Void; } }` is accepted by capnp; the constructor would be a syntax error,
in the text `, = g`. -/
theorem C77_void_group_rejected :
    reqErr (emitNew (reqPair ⟨0, 0, 0, 0, [⟨"g", "g", 0, 65535, false, .bytes, .group 2⟩]⟩
      ⟨0, 0, 0, 0, [reqSlot "v" "v" 0 65535 .void 0 .none false]⟩) 10
      ⟨0, 0, 0, 0, [⟨"g", "g", 0, 65535, false, .bytes, .group 2⟩]⟩) = some .syntaxError := by decide +kernel

/-- C77, negative: a group with `$Py.nullable` which has three fields is rejected, but with a `TypeError`: the message is
missing. -/
theorem C77_nullable_three :
    reqErr (emitField (reqPair ⟨1, 0, 0, 0, []⟩ ⟨1, 0, 0, 0, [reqSlot "isNull" "is_null" 0 65535 (.prim .b) 0 (.int 0) false,
      reqSlot "value" "value" 1 65535 (.prim .b) 1 (.int 0) false, reqSlot "x" "x" 2 65535 (.prim .b) 2 (.int 0) false]⟩)
      ⟨"g", "g", 0, 65535, true, .bytes, .group 2⟩) = some .typeError := by decide +kernel

/-- C77, negative: `$Py.nullable` on a slot is not checked when the property is emitted; the constructor raises an
`IndexError` in the compiler. -/
theorem C77_nullable_slot : ∃ f : SField, f.nullable = true ∧
    reqErr (emitField (reqPair ⟨1, 0, 0, 0, [f]⟩ ⟨1, 0, 0, 0, []⟩) f) = none ∧
    reqErr (emitNew (reqPair ⟨1, 0, 0, 0, [f]⟩ ⟨1, 0, 0, 0, []⟩) 10 ⟨1, 0, 0, 0, [f]⟩) = some .indexError :=
  ⟨⟨"x", "x", 0, 65535, true, .bytes, .slot ⟨.prim .h, 0, .int 0, false⟩⟩, rfl, by decide +kernel, by decide +kernel⟩

/-- C77, negative: with `isNull` in lower camel case (`$Py.options(convertCase=false)`), the nullable group is accepted,
but its property raises `AttributeError`: it looks for `is_null`. -/
theorem C77_nullable_camel (items : Str → Option ItemType) : ∃ (e : Env) (n g : SNode) (props gprops : PyClass),
    e.nodes 1 = some n ∧ e.nodes 2 = some g ∧ emitClass e n = .ok props ∧ emitClass e g = .ok gprops ∧
    ∀ G o, o.dataOffset = 0 → o.dataSize = 1 → o.ptrsSize = 0 → o.seg = ⟨List.replicate 8 0, none⟩ →
      (getattr (fun i => if i = 2 then gprops else props) items (G + 3) o props "g").map Res.toRVal = .error .attributeError := by
  refine ⟨reqPair ⟨1, 0, 0, 0, [⟨"g", "g", 0, 65535, true, .bytes, .group 2⟩]⟩
    ⟨1, 0, 0, 0, [reqSlot "isNull" "isNull" 0 65535 (.prim .b) 0 (.int 0) false,
      reqSlot "value" "value" 1 65535 (.prim .b) 1 (.int 0) false]⟩, _, _, _, _, rfl, rfl, rfl, rfl, ?_⟩
  intro G o h1 h2 h3 h4
  obtain ⟨seg, off, ds, ps⟩ := o
  cases h1; cases h2; cases h3; cases h4
  rfl

/-- C77: the check accepts a nullable group which consists of a union of `isNull` and `value`; so `RequestOK.nullable` says
more than the compiler checks. -/
theorem C77_nullable_union : ∃ (e : Env) (f : SField) (g : SNode), f.kind = .group 2 ∧ e.nodes 2 = some g ∧ g.discCount = 2 ∧
    f.nullable = true ∧ reqErr (emitField e f) = none :=
  ⟨reqPair ⟨1, 0, 0, 0, []⟩ ⟨1, 0, 2, 1, [reqSlot "isNull" "is_null" 0 0 .void 0 .none false,
      reqSlot "value" "value" 1 1 (.prim .h) 0 (.int 0) false]⟩, ⟨"g", "g", 0, 65535, true, .bytes, .group 2⟩, _, rfl, rfl, rfl, rfl,
    by decide +kernel⟩

end Capnpy.Props
