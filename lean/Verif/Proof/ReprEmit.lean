import Verif.Spec.ReprEmit
import Verif.Proof.StructEmitGet
import Verif.Props.FieldWrite

/-!
# The `shortrepr` which is emitted for a struct node is that of the class it describes
-/

namespace Capnpy.Props

open Spec StructEmit ReprEmit
open Const (STy TextType PyVal)
open Module (Str Gen)
open FieldEmit (Slot Getter Ctx emitGetter tag)
open Capnpy.Repr (RItem Kind RField)

/-! ## The attributes -/

theorem lookup_nodup {α : Type} {x : String} {p : α} : ∀ {l : List (String × α)}, (l.map Prod.fst).Nodup → (x, p) ∈ l →
    StructEmit.lookupLast x l = some p
  | [], _, h => by cases h
  | (y, q) :: r, hn, h => by
    rw [List.map_cons, List.nodup_cons] at hn
    rw [lookupLast_cons]
    rcases List.mem_cons.mp h with h | h
    · cases h
      rw [lookupLast_none (fun z hz hc => hn.1 (List.mem_map.mpr ⟨z, hz, hc⟩))]
      show (if x = x then some p else none) = some p
      rw [if_pos rfl]
    · rw [lookup_nodup hn.2 h]

theorem lookup_absent {α : Type} {x : String} {l : List (String × α)} (h : x ∉ l.map Prod.fst) : StructEmit.lookupLast x l = none :=
  lookupLast_none fun p hp hc => h (List.mem_map.mpr ⟨p, hp, hc⟩)

theorem emitFields_sub {e : Env} : ∀ {fs : List SField} {l : List (String × PyProp)}, emitFields e fs = .ok l → ∀ f ∈ fs,
    ∃ a, emitField e f = .ok a ∧ ∀ p ∈ a, p ∈ l
  | [], _, _, f, hf => by cases hf
  | g :: fs, l, h, f, hf => by
    unfold emitFields at h
    obtain ⟨a, ha, h⟩ := py_inv h
    obtain ⟨b, hb, h⟩ := py_inv h
    cases h
    rcases List.mem_cons.mp hf with rfl | hf
    · exact ⟨a, ha, fun p hp => List.mem_append_left _ hp⟩
    · obtain ⟨a', h1, h2⟩ := emitFields_sub hb f hf
      exact ⟨a', h1, fun p hp => List.mem_append_right _ (h2 p hp)⟩

/-! ## The items of the tag -/

theorem setTags_length : ∀ {fs : List SField} {items r : List (Option String)}, setTags fs items = .ok r → r.length = items.length
  | [], items, r, h => by unfold setTags at h; cases h; rfl
  | f :: fs, items, r, h => by
    unfold setTags at h
    split at h
    · split at h
      · rw [setTags_length h, List.length_set]
      · cases h
    · exact setTags_length h

theorem setTags_keep {d : Nat} : ∀ {fs : List SField} {items r : List (Option String)}, setTags fs items = .ok r →
    (∀ f ∈ fs, f.inUnion = true → f.disc ≠ d) → r[d]? = items[d]?
  | [], items, r, h, _ => by unfold setTags at h; cases h; rfl
  | f :: fs, items, r, h, hd => by
    unfold setTags at h
    have ih := fun {items : List (Option String)} (h : setTags fs items = .ok r) => setTags_keep (d := d) h (fun g hg => hd g (List.mem_cons_of_mem _ hg))
    split at h
    · rename_i hu
      split at h
      · rw [ih h, List.getElem?_set_ne (hd f (by simp) hu)]
      · cases h
    · exact ih h

theorem setTags_get {f : SField} (hu : f.inUnion = true) : ∀ {fs : List SField} {items r : List (Option String)}, setTags fs items = .ok r →
    f ∈ fs → (∀ g ∈ fs, g.inUnion = true → g.disc = f.disc → g.pyname = f.pyname) → r[f.disc]? = some (some f.pyname)
  | [], _, _, _, hf, _ => by cases hf
  | g :: fs, items, r, h, hf, hd => by
    have hd' := fun q (hq : q ∈ fs) => hd q (List.mem_cons_of_mem _ hq)
    unfold setTags at h
    by_cases hlater : ∃ q ∈ fs, q.inUnion = true ∧ q.disc = f.disc
    · obtain ⟨q, hq, hqu, hqd⟩ := hlater
      have hn := hd' q hq hqu hqd
      have key : ∀ {items}, setTags fs items = .ok r → r[f.disc]? = some (some f.pyname) := by
        intro items h
        have := setTags_get hqu h hq (fun p hp hpu hpd => (hd' p hp hpu (hpd.trans hqd)).trans hn.symm)
        rwa [hqd, hn] at this
      split at h
      · split at h
        · exact key h
        · cases h
      · exact key h
    · have hfg : f = g := by
        rcases List.mem_cons.mp hf with h | h
        · exact h
        · exact absurd ⟨f, h, hu, rfl⟩ hlater
      subst hfg
      rw [if_pos hu] at h
      split at h
      · rename_i hlt
        rw [setTags_keep h (fun q hq hqu hqd => hlater ⟨q, hq, hqu, hqd⟩), List.getElem?_set_self hlt]
      · cases h

/-! ## The request -/

/-- The classes of all structs and groups have been emitted, and `M.renv` has the classes which their nodes describe; an id
without a node has an empty class.  The names in the text stand for the classes and the item types; the default of a
slot is a value of its type, and zero unless it is explicit.  Members of unions belong to a union and have different
discriminants.  No two attributes of a class have the same name. -/
structure ReprOK (e : Env) (members : Nat → Option (Repr.Str × List String)) (M : Mod) : Prop where
  emitted : ∀ id n, e.nodes id = some n → emitReprClass e n = .ok (M.classes id)
  described : ∀ id n, e.nodes id = some n → IsReprClass members n (M.renv.cls id)
  none : ∀ id, e.nodes id = none → (M.classes id).lines = [] ∧ (M.renv.cls id).fields = []
  slots : ∀ id n, e.nodes id = some n → ∀ f ∈ n.fields, ∀ s, f.kind = .slot s → DefaultOK s ∧ ZeroDefault s
  structs : ∀ id n, e.nodes id = some n → ∀ f ∈ n.fields, ∀ sl i, f.kind = .slot sl → sl.ty = .struct i → ∀ nd s,
    e.g.node i = .ok nd → e.g.runtimeName e.fuel nd = .ok s → M.structs s = some i
  enums : ∀ id n, e.nodes id = some n → ∀ f ∈ n.fields, ∀ sl i, f.kind = .slot sl → sl.ty = .enum i → ∀ s,
    Const.nodeName e.g e.fuel i [] = .ok s → M.enums s = (members i).map Prod.snd
  items : ∀ id n, e.nodes id = some n → ∀ f ∈ n.fields, ∀ sl t, f.kind = .slot sl → sl.ty = .list t → ∀ s,
    Const.listItemType e.g e.pyx f.tt e.fuel t = .ok s → M.items s = ritemOf members f.tt t
  union : ∀ id n, e.nodes id = some n → ∀ f ∈ n.fields, f.inUnion = true → n.discCount ≠ 0 ∧
    ∀ g ∈ n.fields, g.inUnion = true → g.disc = f.disc → g.pyname = f.pyname
  names : ∀ id n, e.nodes id = some n → ((M.classes id).attrs.map Prod.fst).Nodup
  priv : ∀ id n, e.nodes id = some n → ∀ f ∈ n.fields, f.nullable = true → "is_" ++ ("_" ++ f.pyname) ∉ (M.classes id).attrs.map Prod.fst

/-! ## Running the lines -/

theorem guardLine {f : SField} {l : Line} (h : reprLine f = .ok l) :
    ∃ x, ((f.nullable = false ∧ x = f.pyname) ∨ (f.nullable = true ∧ x = "_" ++ f.pyname ∧ ∃ id, f.kind = .group id)) ∧
      l = ⟨if f.inUnion && f.isPointer then Guard.isAndHas x (f.disc == 0)
        else if f.inUnion then .isTag x
        else if f.isPointer then .has x
        else .always, f.cname.toList, reprExpr f x⟩ := by
  unfold reprLine at h
  obtain ⟨x, hx, h⟩ := py_inv h
  cases h
  refine ⟨x, ?_, rfl⟩
  cases hn : f.nullable with
  | false => rw [hn] at hx; cases hx; exact .inl ⟨rfl, rfl⟩
  | true =>
    rw [hn] at hx
    cases hk : f.kind with
    | group id => rw [hk] at hx; cases hx; exact .inr ⟨rfl, rfl, id, rfl⟩
    | slot s => rw [hk] at hx; cases hx

theorem slotAttr_ok {M : Mod} {c : ReprClass} {o : StructObj} {x : String} {en : Option Nat} {code : Getter}
    (h : StructEmit.lookupLast x c.attrs = some (.prop (.slot en code))) :
    M.slotAttr c o x = (do
      ReprEmit.ensure o c en
      pure (← code.run M.itemTypes o, code)) := by
  unfold Mod.slotAttr
  rw [h]

theorem rensure_same (o : StructObj) (c : ReprClass) (n : SNode)
    (h : c.tagOffset = if n.discCount = 0 then none else some (n.discOffset * 2)) (d : Option Nat) :
    ReprEmit.ensure o c d = ensureMember o (unionOf n) d := by
  cases d with
  | none => rfl
  | some t =>
    unfold ReprEmit.ensure ensureMember unionOf
    show o.ensureUnion _ _ = o.ensureUnion _ _
    rw [h]
    by_cases h0 : n.discCount = 0
    · rw [if_pos h0, if_pos h0]; rfl
    · rw [if_neg h0, if_neg h0]; rfl

/-- A slot which is a number. -/
theorem number_run {c : Ctx} {s : Slot} {code : Getter} (hd : DefaultOK s) (hz : ZeroDefault s)
    (hn : Numeric s.ty) (h : emitGetter c s = .ok code) (items : Str → Option ItemType) (o : StructObj) :
    ∃ ty, slotTypeOf (fun _ => none) c.tt s.ty = some ty ∧ code.run items o = getSlot o ty s.off (explicitDefault s) :=
  C76_same_getter c items (fun _ => none) s hd hz (by intro e he; rw [he] at hn; exact hn.elim) h o

theorem reprGuard_member {o : StructObj} {u d : Nat} {cap : Repr.Str} {k : Kind} (hk : k.ptrOff = none) (hg : ∀ c, k ≠ .group c true) :
    Repr.reprGuard o (some u) ⟨cap, some d, k⟩ = isMember o u d := by
  cases k with
  | group c nl =>
    cases nl with
    | true => exact absurd rfl (hg c)
    | false => rfl
  | void => rfl
  | prim => rfl
  | float => rfl
  | bool => rfl
  | enum => rfl
  | textBytes => cases hk
  | textUnicode => cases hk
  | data => cases hk
  | struct => cases hk
  | list => cases hk
  | anyPointer => cases hk

theorem reprGuard_plain {o : StructObj} {u : Option Nat} {cap : Repr.Str} {k : Kind} (hk : k.ptrOff = none) :
    Repr.reprGuard o u ⟨cap, none, k⟩ = .ok true := by
  cases k <;> first | rfl | cases hk

theorem reprGuard_has {o : StructObj} {u : Option Nat} {cap : Repr.Str} {k : Kind} {off : Nat} (hk : k.ptrOff = some off) :
    Repr.reprGuard o u ⟨cap, none, k⟩ = o.hasField ((off * 8 : Nat) : Int) := by
  cases k <;> first | (cases hk; rfl) | cases hk

theorem reprGuard_both {o : StructObj} {u d : Nat} {cap : Repr.Str} {k : Kind} {off : Nat} (hk : k.ptrOff = some off) :
    Repr.reprGuard o (some u) ⟨cap, some d, k⟩ = (do
      if (← isMember o u d) then
        if (← o.hasField ((off * 8 : Nat) : Int)) then pure true
        else pure (d != 0)
      else pure false) := by
  cases k <;> first | (cases hk; rfl) | cases hk

/-- What is known of the class of a node. -/
structure ClassKnown (c : ReprClass) (n : SNode) : Prop where
  ens : ∀ o d, ReprEmit.ensure o c d = ensureMember o (unionOf n) d
  isTag : ∀ f ∈ n.fields, f.inUnion = true → unionOf n = some n.discOffset ∧
    StructEmit.lookupLast ("is_" ++ f.pyname) c.attrs = some (.isTag (n.discOffset * 2) f.disc)

theorem guard_nonptr {M : Mod} {c : ReprClass} {n : SNode} (K : ClassKnown c n) {f : SField} (hf : f ∈ n.fields) {k : Kind}
    (hp : f.isPointer = false) (hk : k.ptrOff = none) (hg : ∀ c, k ≠ .group c true) (o : StructObj) (cap : Repr.Str) :
    (if f.inUnion && f.isPointer then Guard.isAndHas f.pyname (f.disc == 0)
        else if f.inUnion then .isTag f.pyname
        else if f.isPointer then .has f.pyname
        else .always).eval M c o = Repr.reprGuard o (unionOf n) ⟨cap, discOf f, k⟩ := by
  rw [hp]
  cases hu : f.inUnion with
  | false => rw [disc_none hu]; exact (reprGuard_plain hk).symm
  | true =>
    obtain ⟨h1, h2⟩ := K.isTag f hf hu
    rw [disc_some hu, h1, reprGuard_member hk hg]
    show M.callBool c o ("is_" ++ f.pyname) = _
    unfold Mod.callBool
    rw [h2]
    rfl

theorem guard_ptr {M : Mod} {c : ReprClass} {n : SNode} (K : ClassKnown c n) {f : SField} (hf : f ∈ n.fields) {k : Kind} {off : Nat}
    (hp : f.isPointer = true) (hk : k.ptrOff = some off) (hh : StructEmit.lookupLast ("has_" ++ f.pyname) c.attrs = some (.has (off * 8)))
    (o : StructObj) (cap : Repr.Str) :
    (if f.inUnion && f.isPointer then Guard.isAndHas f.pyname (f.disc == 0)
        else if f.inUnion then .isTag f.pyname
        else if f.isPointer then .has f.pyname
        else .always).eval M c o = Repr.reprGuard o (unionOf n) ⟨cap, discOf f, k⟩ := by
  have hhas : M.callBool c o ("has_" ++ f.pyname) = o.hasField ((off * 8 : Nat) : Int) := by
    unfold Mod.callBool
    rw [hh]
  rw [hp]
  cases hu : f.inUnion with
  | false => rw [disc_none hu, reprGuard_has hk]; exact hhas
  | true =>
    obtain ⟨h1, h2⟩ := K.isTag f hf hu
    have his : M.callBool c o ("is_" ++ f.pyname) = isMember o n.discOffset f.disc := by
      unfold Mod.callBool
      rw [h2]
      rfl
    rw [disc_some hu, h1, reprGuard_both hk]
    show (do
      if (← M.callBool c o ("is_" ++ f.pyname)) then
        if (← M.callBool c o ("has_" ++ f.pyname)) then pure true else pure (!(f.disc == 0))
      else pure false : Py Bool) = _
    rw [his, hhas]
    rfl

theorem known {e : Env} {members : Nat → Option (Repr.Str × List String)} {M : Mod} (R : ReprOK e members M) {id : Nat} {n : SNode}
    (hn : e.nodes id = some n) : ClassKnown (M.classes id) n ∧ ∀ f ∈ n.fields, ∃ a, emitField e f = .ok a ∧
      ∀ p ∈ a, ∀ q ∈ propAttrs p, StructEmit.lookupLast q.1 (M.classes id).attrs = some q.2 := by
  have hem := R.emitted id n hn
  have hnd := R.names id n hn
  have hu := R.union id n hn
  unfold emitReprClass at hem
  obtain ⟨items, hitems, hem⟩ := py_inv hem
  obtain ⟨props, hprops, hem⟩ := py_inv hem
  obtain ⟨lines, hlines, hem⟩ := py_inv hem
  have hem := (Except.ok.inj hem).symm
  have ha : (M.classes id).attrs = isMethods (n.discOffset * 2) items ++ props.flatMap propAttrs := by rw [hem]
  have hto : (M.classes id).tagOffset = if n.discCount = 0 then none else some (n.discOffset * 2) := by rw [hem]
  refine ⟨⟨fun o d => rensure_same o _ n hto d, fun f hf hfu => ?_⟩, fun f hf => ?_⟩
  · obtain ⟨h0, hsame⟩ := hu f hf hfu
    refine ⟨by unfold unionOf; rw [if_neg h0], lookup_nodup hnd ?_⟩
    rw [ha]
    refine List.mem_append_left _ ?_
    unfold enumItems at hitems
    rw [if_neg h0] at hitems
    have hget := setTags_get hfu hitems hf hsame
    unfold isMethods
    obtain ⟨hlt, hval⟩ := List.getElem?_eq_some_iff.mp hget
    refine List.mem_mapIdx.mpr ⟨f.disc, hlt, ?_⟩
    rw [hval]
    rfl
  · obtain ⟨a, h1, h2⟩ := emitFields_sub hprops f hf
    refine ⟨a, h1, fun p hp q hq => ?_⟩
    refine lookup_nodup hnd ?_
    rw [ha]
    exact List.mem_append_right _ (List.mem_flatMap.mpr ⟨p, h2 p hp, hq⟩)

/-! ## One field -/

theorem attr_int {M : Mod} {c : ReprClass} {n : SNode} (K : ClassKnown c n) {x : String} {en : Option Nat} {code : Getter} {o : StructObj}
    (h : StructEmit.lookupLast x c.attrs = some (.prop (.slot en code))) {r : Py RVal} (hr : code.run M.itemTypes o = r) :
    M.slotAttr c o x = (do
      ensureMember o (unionOf n) en
      pure (← r, code)) := by
  rw [slotAttr_ok h, K.ens, hr]

theorem str_int {M : Mod} {code : Getter} (h : ∀ cls off d, code ≠ .enum cls off d) (v : Int) : M.str (.int v, code) = .ok (Repr.intRepr v) := by
  cases code with
  | enum cls off d => exact absurd rfl (h cls off d)
  | _ => rfl

theorem struct_call {M : Mod} {o : StructObj} {off : Int} {en : Option Nat} {u : Option Nat} {cls : Str} {i : Nat}
    {rec : Nat → StructObj → Py Repr.Str} {code : Getter} (h : M.structs cls = some i) :
    (do
      match (← (do
          ensureMember o u en
          pure (← (do pure (((← o.readStruct off).map RVal.struct).getD .none) : Py RVal), code) : Py (RVal × Getter))).1 with
      | .struct r =>
        match M.structs cls with
        | some id => rec id r
        | none => .error .nameError
      | .none =>
        match M.structs cls with
        | some id => do rec id (← StructObj.initFromBuffer ⟨[], none⟩ 0 0 0)
        | none => .error .nameError
      | _ => .error .typeError : Py Repr.Str) = (do
      ensureMember o u en
      rec i (← o.getStruct off)) := by
  unfold StructObj.getStruct
  cases ensureMember o u en with
  | error e => rfl
  | ok a =>
    cases o.readStruct off with
    | error e => rfl
    | ok r =>
      cases r with
      | none =>
        show (match M.structs cls with
          | some id => do rec id (← StructObj.initFromBuffer ⟨[], none⟩ 0 0 0)
          | none => .error .nameError : Py Repr.Str) = _
        rw [h]; rfl
      | some r =>
        show (match M.structs cls with
          | some id => rec id r
          | none => .error .nameError : Py Repr.Str) = _
        rw [h]; rfl

theorem list_call {M : Mod} {o : StructObj} {off : Int} {en : Option Nat} {u : Option Nat} {item : Str} {it : RItem}
    {rec : Nat → StructObj → Py Repr.Str} {code : Getter} (h : M.items item = some it) :
    (do
      match (← (do
          ensureMember o u en
          pure (← (do pure (((← o.readList off (it.toItemType M.renv)).map RVal.list).getD .none) : Py RVal), code) : Py (RVal × Getter))).1 with
      | .list l =>
        match M.items item with
        | some it => Repr.listRepr M.renv rec it l
        | none => .error .nameError
      | .none =>
        match M.items item with
        | some it => do Repr.listRepr M.renv rec it (← ListObj.init ⟨[], none⟩ 0 0 0 (it.toItemType M.renv))
        | none => .error .nameError
      | _ => .error .typeError : Py Repr.Str) = (do
      ensureMember o u en
      Repr.listRepr M.renv rec it (← o.getList off (it.toItemType M.renv))) := by
  unfold StructObj.getList
  cases ensureMember o u en with
  | error e => rfl
  | ok a =>
    cases o.readList off (it.toItemType M.renv) with
    | error e => rfl
    | ok r =>
      cases r with
      | none =>
        show (match M.items item with
          | some it => do Repr.listRepr M.renv rec it (← ListObj.init ⟨[], none⟩ 0 0 0 (it.toItemType M.renv))
          | none => .error .nameError : Py Repr.Str) = _
        rw [h]; rfl
      | some r =>
        show (match M.items item with
          | some it => Repr.listRepr M.renv rec it r
          | none => .error .nameError : Py Repr.Str) = _
        rw [h]; rfl

theorem fst_str {α β γ : Type} (a : Py Unit) (r : Py α) (c : β) (g : α → Py γ) :
    (do
      let p ← (do
        a
        pure (← r, c) : Py (α × β))
      g p.1) = (do
      a
      g (← r)) := by
  cases a with
  | error e => rfl
  | ok u => cases r <;> rfl

/-- A slot. -/
theorem slot_line {e : Env} {members : Nat → Option (Repr.Str × List String)} {M : Mod} (R : ReprOK e members M) {id : Nat} {n : SNode}
    (hn : e.nodes id = some n) {f : SField} (hf : f ∈ n.fields) {s : Slot} (hk : f.kind = .slot s) {code : Getter}
    (hc : emitGetter (e.ctx f) s = .ok code)
    (hl : ∀ q ∈ propAttrs (f.pyname, .slot (discOf f) code), StructEmit.lookupLast q.1 (M.classes id).attrs = some q.2)
    (K : ClassKnown (M.classes id) n) {k : Kind} (hkind : slotKind members f.tt s = some k) (o : StructObj)
    (rec : Nat → StructObj → Py Repr.Str) (cap : Repr.Str) :
    (if f.inUnion && f.isPointer then Guard.isAndHas f.pyname (f.disc == 0)
        else if f.inUnion then .isTag f.pyname
        else if f.isPointer then .has f.pyname
        else .always).eval M (M.classes id) o = Repr.reprGuard o (unionOf n) ⟨cap, discOf f, k⟩ ∧
      (reprExpr f f.pyname).eval M rec (M.classes id) o = Repr.reprField M.renv rec o (unionOf n) ⟨cap, discOf f, k⟩ := by
  obtain ⟨hd, hz⟩ := R.slots id n hn f hf s hk
  have hprop : StructEmit.lookupLast f.pyname (M.classes id).attrs = some (.prop (.slot (discOf f) code)) :=
    hl (f.pyname, .prop (.slot (discOf f) code)) (by simp [propAttrs])
  have hnum := fun (hnn : Numeric s.ty) => number_run hd hz hnn hc M.itemTypes o
  have hit := R.items id n hn f hf s
  have hcomp := (C76_compiles (e.ctx f) s).mp ⟨code, hc⟩
  have hptr : f.isPointer = FieldEmit.isPointer s.ty := by unfold SField.isPointer; rw [hk]
  have hexpr : reprExpr f f.pyname = (if tag s.ty = 10 then .float32 f.pyname
    else if tag s.ty = 11 then .float64 f.pyname
    else if FieldEmit.isPrimitive s.ty || tag s.ty == 15 then .attr f.pyname
    else if tag s.ty = 1 then .lower f.pyname
    else if tag s.ty = 0 then .void
    else if tag s.ty = 12 && f.tt == .bytes then .textBytes f.pyname
    else if tag s.ty = 12 && f.tt == .unicode then .textUnicode f.pyname
    else if tag s.ty = 13 then .data f.pyname
    else if tag s.ty = 16 || tag s.ty == 14 then .getShortrepr f.pyname
    else .unknown) := by unfold reprExpr; rw [hk]
  rw [hexpr]
  clear hexpr hd hz
  have guard0 := fun hp hk hg => guard_nonptr (M := M) K hf (k := k) hp hk hg o cap
  have guard1 := fun off hp hk hh => guard_ptr (M := M) K hf (k := k) (off := off) hp hk hh o cap
  have hctx : (e.ctx f).tt = f.tt := rfl
  obtain ⟨ty, off, d, ex⟩ := s
  obtain ⟨hex, hni, htt, -⟩ := hcomp
  have hg : (ex && !FieldEmit.defaultSupported ty) = false := by
    cases ex with
    | false => rfl
    | true => rw [(defaultSupported_iff ty).mpr (hex rfl)]; rfl
  unfold emitGetter at hc
  simp only at hc
  rw [hg] at hc
  have hkk := hk
  clear hk hg
  generalize hxd : explicitDefault ⟨ty, off, d, ex⟩ = xd at hnum
  have prim : ∀ fmt, k = .prim fmt off xd → (∀ cls o d, code ≠ .enum cls o d) →
      code.run M.itemTypes o = getSlot o (.prim fmt) off xd →
      (Expr.attr f.pyname).eval M rec (M.classes id) o = Repr.reprField M.renv rec o (unionOf n) ⟨cap, discOf f, k⟩ := by
    intro fmt hkk hne hrun
    subst hkk
    show (do M.str (← M.slotAttr (M.classes id) o f.pyname)) = (do
      ensureMember o (unionOf n) (discOf f)
      match (← getSlot o (.prim fmt) off xd) with
      | .int v => pure (Repr.intRepr v)
      | _ => .error .typeError)
    rw [attr_int K hprop hrun]
    cases ensureMember o (unionOf n) (discOf f) with
    | error e => rfl
    | ok u =>
      show (do M.str (← (do pure (← getSlot o (.prim fmt) off xd, code) : Py (RVal × Getter)))) = (do
        match (← getSlot o (.prim fmt) off xd) with
        | .int v => pure (Repr.intRepr v)
        | _ => .error .typeError)
      unfold getSlot
      show (do M.str (← (do pure (← (do pure (.int (← o.primField ((off * (SlotType.prim fmt).size : Nat) : Int) fmt (xd.getD 0))) : Py RVal), code) : Py (RVal × Getter)))) = (do
        match (← (do pure (.int (← o.primField ((off * (SlotType.prim fmt).size : Nat) : Int) fmt (xd.getD 0))) : Py RVal)) with
        | .int v => pure (Repr.intRepr v)
        | _ => .error .typeError)
      cases o.primField ((off * (SlotType.prim fmt).size : Nat) : Int) fmt (xd.getD 0) with
      | error e => rfl
      | ok v => exact str_int hne v
  cases ty with
  | interface => exact absurd rfl hni
  | void =>
    have hc := Except.ok.inj hc; subst hc
    cases hkind
    exact ⟨guard0 hptr rfl nofun, rfl⟩
  | bool =>
    have hc := Except.ok.inj hc; subst hc
    have hkind := Option.some.inj hkind; rw [hxd] at hkind
    obtain ⟨ty, h1, hrun⟩ := hnum trivial
    cases h1
    subst hkind
    refine ⟨guard0 hptr rfl nofun, ?_⟩
    show (do lowerBool (← M.slotAttr (M.classes id) o f.pyname).1) = (do
      ensureMember o (unionOf n) (discOf f)
      match (← getSlot o .bool off xd) with
      | .bool b => pure (if b then ['t', 'r', 'u', 'e'] else ['f', 'a', 'l', 's', 'e'])
      | _ => .error .typeError)
    rw [attr_int K hprop hrun, fst_str]
    rfl
  | prim fmt =>
    have flt : ∀ fmt' fmt'' (ex : Expr), (fmt' = .f ∧ fmt'' = .I ∧ ex = .float32 f.pyname) ∨ (fmt' = .d ∧ fmt'' = .Q ∧ ex = .float64 f.pyname) →
        k = .float fmt' off xd → code.run M.itemTypes o = getSlot o (.float fmt'') off xd →
        ex.eval M rec (M.classes id) o = Repr.reprField M.renv rec o (unionOf n) ⟨cap, discOf f, k⟩ := by
      intro fmt' fmt'' ex hfe hkk hrun
      subst hkk
      have hsame : getSlot o (.float fmt'') off xd = getSlot o (.float fmt') off xd := by
        rcases hfe with ⟨rfl, rfl, -⟩ | ⟨rfl, rfl, -⟩ <;> rfl
      have hev : ex.eval M rec (M.classes id) o = (do
          match (← M.slotAttr (M.classes id) o f.pyname).1 with
          | .float v => pure (M.renv.floatRepr fmt' v)
          | _ => .error .typeError) := by
        rcases hfe with ⟨rfl, -, rfl⟩ | ⟨rfl, -, rfl⟩ <;> rfl
      rw [hev, attr_int K hprop hrun, hsame]
      exact fst_str (ensureMember o (unionOf n) (discOf f)) (getSlot o (.float fmt') off xd) code
        (fun r => match r with
          | .float v => pure (M.renv.floatRepr fmt' v)
          | _ => .error .typeError)
    have hnm := hnum trivial
    cases fmt with
    | f =>
      have hc := Except.ok.inj hc; subst hc
      have hkind := Option.some.inj hkind; rw [hxd] at hkind
      obtain ⟨ty, h1, hrun⟩ := hnm
      cases h1
      refine ⟨guard0 hptr (by rw [← hkind]; rfl) (by rw [← hkind]; nofun), ?_⟩
      exact flt .f .I (.float32 f.pyname) (.inl ⟨rfl, rfl, rfl⟩) hkind.symm hrun
    | d =>
      have hc := Except.ok.inj hc; subst hc
      have hkind := Option.some.inj hkind; rw [hxd] at hkind
      obtain ⟨ty, h1, hrun⟩ := hnm
      cases h1
      refine ⟨guard0 hptr (by rw [← hkind]; rfl) (by rw [← hkind]; nofun), ?_⟩
      exact flt .d .Q (.float64 f.pyname) (.inr ⟨rfl, rfl, rfl⟩) hkind.symm hrun
    | b =>
      have hc := Except.ok.inj hc; subst hc
      have hkind := Option.some.inj hkind; rw [hxd] at hkind
      obtain ⟨ty, h1, hrun⟩ := hnm
      cases h1
      exact ⟨guard0 hptr (by rw [← hkind]; rfl) (by rw [← hkind]; nofun), prim .b hkind.symm nofun hrun⟩
    | B =>
      have hc := Except.ok.inj hc; subst hc
      have hkind := Option.some.inj hkind; rw [hxd] at hkind
      obtain ⟨ty, h1, hrun⟩ := hnm
      cases h1
      exact ⟨guard0 hptr (by rw [← hkind]; rfl) (by rw [← hkind]; nofun), prim .B hkind.symm nofun hrun⟩
    | h =>
      have hc := Except.ok.inj hc; subst hc
      have hkind := Option.some.inj hkind; rw [hxd] at hkind
      obtain ⟨ty, h1, hrun⟩ := hnm
      cases h1
      exact ⟨guard0 hptr (by rw [← hkind]; rfl) (by rw [← hkind]; nofun), prim .h hkind.symm nofun hrun⟩
    | H =>
      have hc := Except.ok.inj hc; subst hc
      have hkind := Option.some.inj hkind; rw [hxd] at hkind
      obtain ⟨ty, h1, hrun⟩ := hnm
      cases h1
      exact ⟨guard0 hptr (by rw [← hkind]; rfl) (by rw [← hkind]; nofun), prim .H hkind.symm nofun hrun⟩
    | i =>
      have hc := Except.ok.inj hc; subst hc
      have hkind := Option.some.inj hkind; rw [hxd] at hkind
      obtain ⟨ty, h1, hrun⟩ := hnm
      cases h1
      exact ⟨guard0 hptr (by rw [← hkind]; rfl) (by rw [← hkind]; nofun), prim .i hkind.symm nofun hrun⟩
    | I =>
      have hc := Except.ok.inj hc; subst hc
      have hkind := Option.some.inj hkind; rw [hxd] at hkind
      obtain ⟨ty, h1, hrun⟩ := hnm
      cases h1
      exact ⟨guard0 hptr (by rw [← hkind]; rfl) (by rw [← hkind]; nofun), prim .I hkind.symm nofun hrun⟩
    | q =>
      have hc := Except.ok.inj hc; subst hc
      have hkind := Option.some.inj hkind; rw [hxd] at hkind
      obtain ⟨ty, h1, hrun⟩ := hnm
      cases h1
      exact ⟨guard0 hptr (by rw [← hkind]; rfl) (by rw [← hkind]; nofun), prim .q hkind.symm nofun hrun⟩
    | Q =>
      have hc := Except.ok.inj hc; subst hc
      have hkind := Option.some.inj hkind; rw [hxd] at hkind
      obtain ⟨ty, h1, hrun⟩ := hnm
      cases h1
      exact ⟨guard0 hptr (by rw [← hkind]; rfl) (by rw [← hkind]; nofun), prim .Q hkind.symm nofun hrun⟩
  | enum i =>
    have hc : (do pure (Getter.enum (← Const.nodeName (e.ctx f).g (e.ctx f).fuel i []) (off * 2) d) : Py Getter) = .ok code := hc
    obtain ⟨s, hs, hc⟩ := py_inv hc
    have hc := Except.ok.inj hc; subst hc
    have hen := R.enums id n hn f hf _ i hkk rfl s hs
    obtain ⟨ty, h1, hrun⟩ := hnum trivial
    cases h1
    have hkind : (members i).map (fun m => Kind.enum m.2 off (explicitDefault ⟨.enum i, off, d, ex⟩)) = some k := hkind
    rw [hxd] at hkind
    obtain ⟨m, hm, hkind⟩ := Option.map_eq_some_iff.mp hkind
    subst hkind
    rw [hm] at hen
    refine ⟨guard0 hptr rfl nofun, ?_⟩
    show (do M.str (← M.slotAttr (M.classes id) o f.pyname)) = (do
      ensureMember o (unionOf n) (discOf f)
      match (← getSlot o .enum off xd) with
      | .int v => do pure (← Names.enumStr m.2 v).toList
      | _ => .error .typeError)
    rw [attr_int K hprop hrun]
    cases ensureMember o (unionOf n) (discOf f) with
    | error e => rfl
    | ok u =>
      show (do M.str (← (do pure (← (do pure (.int (← o.enumField ((off * SlotType.enum.size : Nat) : Int) (xd.getD 0))) : Py RVal), Getter.enum s (off * 2) d) : Py (RVal × Getter)))) = (do
        match (← (do pure (.int (← o.enumField ((off * SlotType.enum.size : Nat) : Int) (xd.getD 0))) : Py RVal)) with
        | .int v => do pure (← Names.enumStr m.2 v).toList
        | _ => .error .typeError)
      cases o.enumField ((off * SlotType.enum.size : Nat) : Int) (xd.getD 0) with
      | error e => rfl
      | ok v =>
        show (match M.enums s with
          | some members => do pure (← Names.enumStr members v).toList
          | none => .error .nameError : Py Repr.Str) = _
        rw [hen]
        rfl
  | text =>
    have ht : f.tt ≠ .notset := htt rfl
    have hc : (if (f.tt == TextType.bytes) = true then pure (Getter.textBytes (off * 8))
      else if (f.tt == TextType.unicode) = true then pure (Getter.textUnicode (off * 8))
      else .error .notImplemented : Py Getter) = .ok code := hc
    have hkind : (match f.tt with
      | .bytes => some (Kind.textBytes off)
      | .unicode => some (.textUnicode off)
      | .notset => none) = some k := hkind
    show _ ∧ (if (f.tt == TextType.bytes) = true then Expr.textBytes f.pyname
      else if (f.tt == TextType.unicode) = true then .textUnicode f.pyname else .unknown).eval M rec (M.classes id) o = _
    cases hff : f.tt with
    | notset => exact absurd hff ht
    | bytes =>
      rw [hff] at hc hkind
      have hc := Except.ok.inj hc; subst hc
      cases hkind
      have hget := hl ("get_" ++ f.pyname, .getText false (off * 8)) (List.Mem.tail _ (List.Mem.head _))
      have hhas := hl ("has_" ++ f.pyname, .has (off * 8)) (List.Mem.tail _ (List.Mem.tail _ (List.Mem.head _)))
      refine ⟨guard1 off hptr rfl hhas, ?_⟩
      show (match StructEmit.lookupLast ("get_" ++ f.pyname) (M.classes id).attrs with
        | some (.getText false off) => do Repr.textBytesRepr (← o.getText (off : Int))
        | some _ => .error .typeError
        | none => .error .attributeError : Py Repr.Str) = _
      rw [hget]
      rfl
    | unicode =>
      rw [hff] at hc hkind
      have hc := Except.ok.inj hc; subst hc
      cases hkind
      have hget := hl ("get_" ++ f.pyname, .getText true (off * 8)) (List.Mem.tail _ (List.Mem.head _))
      have hhas := hl ("has_" ++ f.pyname, .has (off * 8)) (List.Mem.tail _ (List.Mem.tail _ (List.Mem.head _)))
      refine ⟨guard1 off hptr rfl hhas, ?_⟩
      show (match StructEmit.lookupLast ("get_" ++ f.pyname) (M.classes id).attrs with
        | some (.getText true off) => do Repr.textUnicodeRepr (← Repr.decodeMaybe (← o.getText (off : Int)))
        | some _ => .error .typeError
        | none => .error .attributeError : Py Repr.Str) = _
      rw [hget]
      rfl
  | data =>
    have hc := Except.ok.inj hc; subst hc
    cases hkind
    have hget := hl ("get_" ++ f.pyname, .getData (off * 8)) (List.Mem.tail _ (List.Mem.head _))
    have hhas := hl ("has_" ++ f.pyname, .has (off * 8)) (List.Mem.tail _ (List.Mem.tail _ (List.Mem.head _)))
    refine ⟨guard1 off hptr rfl hhas, ?_⟩
    show (match StructEmit.lookupLast ("get_" ++ f.pyname) (M.classes id).attrs with
      | some (.getData off) => do
        match (← o.getData (off : Int)) with
        | some b => pure (Repr.dataRepr b)
        | none => .error .attributeError
      | some _ => .error .typeError
      | none => .error .attributeError : Py Repr.Str) = _
    rw [hget]
    rfl
  | struct i =>
    have hc : (do
      pure (Getter.struct (← (e.ctx f).g.runtimeName (e.ctx f).fuel (← (e.ctx f).g.node i)) (off * 8)) : Py Getter) = .ok code := hc
    obtain ⟨nd, hnd, hc⟩ := py_inv hc
    obtain ⟨s, hs, hc⟩ := py_inv hc
    have hc := Except.ok.inj hc; subst hc
    cases hkind
    have hget := hl ("get_" ++ f.pyname, .getStruct f.pyname s) (List.Mem.tail _ (List.Mem.head _))
    have hhas := hl ("has_" ++ f.pyname, .has (off * 8)) (List.Mem.tail _ (List.Mem.tail _ (List.Mem.head _)))
    refine ⟨guard1 off hptr rfl hhas, ?_⟩
    have hst := R.structs id n hn f hf _ i hkk rfl nd s hnd hs
    refine Eq.trans ?_ (struct_call (o := o) (off := ((off * 8 : Nat) : Int)) (en := discOf f) (u := unionOf n) (rec := rec)
      (code := Getter.struct s (off * 8)) hst)
    have ha := attr_int (M := M) K hprop (o := o) (r := (Getter.struct s (off * 8)).run M.itemTypes o) rfl
    show (match StructEmit.lookupLast ("get_" ++ f.pyname) (M.classes id).attrs with
      | some (.getStruct name cls) => do
        match (← M.slotAttr (M.classes id) o name).1 with
        | .struct r =>
          match M.structs cls with
          | some id => rec id r
          | none => .error .nameError
        | .none =>
          match M.structs cls with
          | some id => do rec id (← StructObj.initFromBuffer ⟨[], none⟩ 0 0 0)
          | none => .error .nameError
        | _ => .error .typeError
      | some (.getList name item) => do
        match (← M.slotAttr (M.classes id) o name).1 with
        | .list l =>
          match M.items item with
          | some it => Repr.listRepr M.renv rec it l
          | none => .error .nameError
        | .none =>
          match M.items item with
          | some it => do Repr.listRepr M.renv rec it (← ListObj.init ⟨[], none⟩ 0 0 0 (it.toItemType M.renv))
          | none => .error .nameError
        | _ => .error .typeError
      | some _ => .error .typeError
      | none => .error .attributeError : Py Repr.Str) = _
    rw [hget]
    show (do
        match (← M.slotAttr (M.classes id) o f.pyname).1 with
        | .struct r =>
          match M.structs s with
          | some id => rec id r
          | none => .error .nameError
        | .none =>
          match M.structs s with
          | some id => do rec id (← StructObj.initFromBuffer ⟨[], none⟩ 0 0 0)
          | none => .error .nameError
        | _ => .error .typeError : Py Repr.Str) = _
    rw [ha]
    rfl
  | list t =>
    have hc : (do
      pure (Getter.list (← Const.listItemType (e.ctx f).g (e.ctx f).pyx (e.ctx f).tt (e.ctx f).fuel t) (off * 8)) : Py Getter) = .ok code := hc
    obtain ⟨s, hs, hc⟩ := py_inv hc
    have hc := Except.ok.inj hc; subst hc
    have hits := hit t hkk rfl s hs
    have hkind : (ritemOf members f.tt t).map (fun it => Kind.list it off) = some k := hkind
    rw [← hits] at hkind
    obtain ⟨it, hit', hkind⟩ := Option.map_eq_some_iff.mp hkind
    subst hkind
    have hget := hl ("get_" ++ f.pyname, .getList f.pyname s) (List.Mem.tail _ (List.Mem.head _))
    have hhas := hl ("has_" ++ f.pyname, .has (off * 8)) (List.Mem.tail _ (List.Mem.tail _ (List.Mem.head _)))
    refine ⟨guard1 off hptr rfl hhas, ?_⟩
    have hitt : M.itemTypes s = some (it.toItemType M.renv) := by unfold Mod.itemTypes; rw [hit']; rfl
    have hrun : (Getter.list s (off * 8)).run M.itemTypes o =
        (do pure (((← o.readList ((off * 8 : Nat) : Int) (it.toItemType M.renv)).map RVal.list).getD .none) : Py RVal) := by
      show (match M.itemTypes s with
        | Option.none => .error .nameError
        | some it => do pure (((← o.readList ((off * 8 : Nat) : Int) it).map RVal.list).getD .none) : Py RVal) = _
      rw [hitt]
    refine Eq.trans ?_ (list_call (o := o) (off := ((off * 8 : Nat) : Int)) (en := discOf f) (u := unionOf n) (rec := rec)
      (code := Getter.list s (off * 8)) hit')
    have ha := attr_int K hprop (o := o) hrun
    show (match StructEmit.lookupLast ("get_" ++ f.pyname) (M.classes id).attrs with
      | some (.getStruct name cls) => do
        match (← M.slotAttr (M.classes id) o name).1 with
        | .struct r =>
          match M.structs cls with
          | some id => rec id r
          | none => .error .nameError
        | .none =>
          match M.structs cls with
          | some id => do rec id (← StructObj.initFromBuffer ⟨[], none⟩ 0 0 0)
          | none => .error .nameError
        | _ => .error .typeError
      | some (.getList name item) => do
        match (← M.slotAttr (M.classes id) o name).1 with
        | .list l =>
          match M.items item with
          | some it => Repr.listRepr M.renv rec it l
          | none => .error .nameError
        | .none =>
          match M.items item with
          | some it => do Repr.listRepr M.renv rec it (← ListObj.init ⟨[], none⟩ 0 0 0 (it.toItemType M.renv))
          | none => .error .nameError
        | _ => .error .typeError
      | some _ => .error .typeError
      | none => .error .attributeError : Py Repr.Str) = _
    rw [hget]
    show (do
        match (← M.slotAttr (M.classes id) o f.pyname).1 with
        | .list l =>
          match M.items s with
          | some it => Repr.listRepr M.renv rec it l
          | none => .error .nameError
        | .none =>
          match M.items s with
          | some it => do Repr.listRepr M.renv rec it (← ListObj.init ⟨[], none⟩ 0 0 0 (it.toItemType M.renv))
          | none => .error .nameError
        | _ => .error .typeError : Py Repr.Str) = _
    rw [ha]
  | anyPointer =>
    have hc := Except.ok.inj hc; subst hc
    cases hkind
    have hhas := hl ("has_" ++ f.pyname, .has (off * 8)) (List.Mem.tail _ (List.Mem.head _))
    exact ⟨guard1 off hptr rfl hhas, rfl⟩

/-- A field. -/
theorem line_same {e : Env} {members : Nat → Option (Repr.Str × List String)} {M : Mod} (R : ReprOK e members M) {id : Nat} {n : SNode}
    (hn : e.nodes id = some n) {f : SField} (hf : f ∈ n.fields) {r : RField} (hr : IsReprField members f r) {l : Line}
    (hl : reprLine f = .ok l) (o : StructObj) (rec : Nat → StructObj → Py Repr.Str) :
    l.guard.eval M (M.classes id) o = Repr.reprGuard o (unionOf n) r ∧
      l.expr.eval M rec (M.classes id) o = Repr.reprField M.renv rec o (unionOf n) r ∧ l.capname = r.capname := by
  obtain ⟨K, hattr⟩ := known R hn
  obtain ⟨a, ha, hlook⟩ := hattr f hf
  obtain ⟨x, hx, rfl⟩ := guardLine hl
  obtain ⟨cap, disc, k⟩ := r
  obtain ⟨h1, h2, h3⟩ := hr
  have h1 : cap = f.cname.toList := h1
  have h2 : disc = discOf f := h2
  have h3 : fieldKind members f = some k := h3
  subst h1 h2
  rcases emitField_cases ha with ⟨s, code, c1, c2, rfl⟩ | ⟨gid, c1, c2, rfl⟩ | ⟨gid, c1, c2, rfl⟩
  · rcases hx with ⟨-, rfl⟩ | ⟨-, -, gid, hg⟩
    · have hkind : slotKind members f.tt s = some k := by
        unfold fieldKind at h3; rw [c1] at h3; exact h3
      obtain ⟨g1, g2⟩ := slot_line R hn hf c1 c2 (fun q hq => hlook _ (List.Mem.head _) q hq) K hkind o rec f.cname.toList
      exact ⟨g1, g2, rfl⟩
    · rw [c1] at hg; cases hg
  · rcases hx with ⟨-, rfl⟩ | ⟨hnu, -⟩
    · have hkk : k = .group gid false := by
        unfold fieldKind at h3; rw [c1] at h3
        have this : Kind.group gid f.nullable = k := Option.some.inj h3
        rw [← this, c2]
      subst hkk
      have hp : f.isPointer = false := by unfold SField.isPointer; rw [c1]
      refine ⟨guard_nonptr K hf hp rfl (fun c hc => by cases hc) o f.cname.toList, ?_, rfl⟩
      have hlk := hlook _ (List.Mem.head _) (f.pyname, .prop (.group (discOf f) gid)) (by simp [propAttrs])
      have hex : reprExpr f f.pyname = .shortrepr f.pyname := by unfold reprExpr; rw [c1]
      show (reprExpr f f.pyname).eval M rec (M.classes id) o = _
      rw [hex]
      show (match StructEmit.lookupLast f.pyname (M.classes id).attrs with
        | some (.prop (.group en cls)) => do
          ReprEmit.ensure o (M.classes id) en
          rec cls (← StructObj.initFromBuffer o.seg o.dataOffset o.dataSize o.ptrsSize)
        | some _ => .error .typeError
        | none => .error .attributeError : Py Repr.Str) = _
      rw [hlk]
      show (do
          ReprEmit.ensure o (M.classes id) (discOf f)
          rec gid (← StructObj.initFromBuffer o.seg o.dataOffset o.dataSize o.ptrsSize) : Py Repr.Str) = _
      rw [K.ens]
      rfl
    · rw [hnu] at c2; cases c2
  · rcases hx with ⟨hnu, -⟩ | ⟨-, rfl, -⟩
    · rw [hnu] at c2; cases c2
    · have hkk : k = .group gid true := by
        unfold fieldKind at h3; rw [c1] at h3
        have this : Kind.group gid f.nullable = k := Option.some.inj h3
        rw [← this, c2]
      subst hkk
      have hp : f.isPointer = false := by unfold SField.isPointer; rw [c1]
      refine ⟨?_, ?_, rfl⟩
      · show (if f.inUnion && f.isPointer then Guard.isAndHas ("_" ++ f.pyname) (f.disc == 0)
          else if f.inUnion then .isTag ("_" ++ f.pyname)
          else if f.isPointer then .has ("_" ++ f.pyname)
          else .always).eval M (M.classes id) o = _
        rw [hp]
        cases hu : f.inUnion with
        | false => rw [disc_none hu]; rfl
        | true =>
          rw [disc_some hu]
          show M.callBool (M.classes id) o ("is_" ++ ("_" ++ f.pyname)) = .error .attributeError
          unfold Mod.callBool
          rw [lookup_absent (R.priv id n hn f hf c2)]
      · have hlk := hlook _ (List.Mem.tail _ (List.Mem.head _)) ("_" ++ f.pyname, .prop (.group (discOf f) gid)) (by simp [propAttrs])
        have hex : reprExpr f ("_" ++ f.pyname) = .shortrepr ("_" ++ f.pyname) := by unfold reprExpr; rw [c1]
        show (reprExpr f ("_" ++ f.pyname)).eval M rec (M.classes id) o = _
        rw [hex]
        show (match StructEmit.lookupLast ("_" ++ f.pyname) (M.classes id).attrs with
          | some (.prop (.group en cls)) => do
            ReprEmit.ensure o (M.classes id) en
            rec cls (← StructObj.initFromBuffer o.seg o.dataOffset o.dataSize o.ptrsSize)
          | some _ => .error .typeError
          | none => .error .attributeError : Py Repr.Str) = _
        rw [hlk]
        show (do
            ReprEmit.ensure o (M.classes id) (discOf f)
            rec gid (← StructObj.initFromBuffer o.seg o.dataOffset o.dataSize o.ptrsSize) : Py Repr.Str) = _
        rw [K.ens]
        rfl

theorem lines_same {e : Env} {members : Nat → Option (Repr.Str × List String)} {M : Mod} (R : ReprOK e members M) {id : Nat} {n : SNode}
    (hn : e.nodes id = some n) (o : StructObj) (rec : Nat → StructObj → Py Repr.Str) : ∀ {fs : List SField} {rs : List RField} {ls : List Line},
    (∀ f ∈ fs, f ∈ n.fields) → List.Forall₂ (IsReprField members) fs rs → reprLines fs = .ok ls →
      runLines M rec (M.classes id) o ls = Repr.reprFields M.renv rec o (unionOf n) rs
  | [], rs, ls, _, hr, hl => by
    cases hr
    unfold reprLines at hl
    cases hl
    rfl
  | f :: fs, rs, ls, hs, hr, hl => by
    cases hr with
    | cons h1 h2 =>
      rename_i r rs
      unfold reprLines at hl
      obtain ⟨l, hl1, hl⟩ := py_inv hl
      obtain ⟨ls, hl2, hl⟩ := py_inv hl
      cases hl
      obtain ⟨g1, g2, g3⟩ := line_same R hn (hs f (by simp)) h1 hl1 o rec
      have ih := lines_same R hn o rec (fun q hq => hs q (List.mem_cons_of_mem _ hq)) h2 hl2
      unfold runLines Repr.reprFields
      rw [g1, g2, g3, ih]

end Capnpy.Props
