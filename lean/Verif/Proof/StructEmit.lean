import Verif.Spec.StructEmit
import Verif.Props.FieldWrite

/-!
# The constructor which is emitted for a struct node is that of the schema it describes
-/

namespace Capnpy.Props

open Spec StructEmit
open Const (STy TextType PyVal)
open Module (Str Gen)
open FieldEmit (Slot Getter Setter Ctx emitGetter emitSetter)

/-- What the request has to be like at a slot: the defaults have the type of the field, the ones which are not explicit
are zero (or `None`), the slot can be compiled. -/
structure SlotFine (e : Env) (items : Str → Option ItemType) (cls : Nat → Option Const.Cls) (f : SField) (s : Slot) : Prop where
  dflt : DefaultOK s
  zero : ZeroDefault s
  null : ¬ Numeric s.ty → s.dflt = .none
  items : ItemsOK (e.ctx f) items cls s.ty
  compiles : ∃ code, emitGetter (e.ctx f) s = .ok code

/-- What the request has to be like at a field: moreover nullable groups have no union. -/
structure FieldFine (e : Env) (items : Str → Option ItemType) (cls : Nat → Option Const.Cls) (f : SField) : Prop where
  slot : ∀ s, f.kind = .slot s → SlotFine e items cls f s
  nullable : f.nullable = true → ∀ id n, f.kind = .group id → e.nodes id = some n → n.discCount = 0

/-- … at all nodes. -/
def NodesFine (e : Env) (items : Str → Option ItemType) (cls : Nat → Option Const.Cls) : Prop :=
  ∀ id n, e.nodes id = some n → ∀ f ∈ n.fields, FieldFine e items cls f

theorem py_inv {α β} {x : Py α} {f : α → Py β} {b : β} (h : (x >>= f) = .ok b) : ∃ a, x = .ok a ∧ f a = .ok b := by
  cases x with
  | error e => cases h
  | ok a => exact ⟨a, rfl, h⟩

theorem getDefault_none (e : Env) (f : SField) (children : List Node) : getDefault e none f children =
    (if f.inUnion then .ok .undefined
    else
      match f.kind with
      | .slot s => .ok (.val s.dflt)
      | .group _ =>
        if f.nullable then do
          let (isNull, _) ← check e f
          match isNull.kind with
          | .group _ => .error .valueError
          | .slot s =>
            if StructEmit.truthy s.dflt then pure .none
            else
              match children[1]? with
              | some c => pure c.dflt
              | Option.none => .error .indexError
        else .ok (.tuple (children.map Node.dflt))) := by
  unfold getDefault forcedBy
  cases f.inUnion <;> rfl

theorem inUnion_disc (f : SField) : f.inUnion = (discOf f).isSome := by
  unfold SField.inUnion discOf
  by_cases h : f.disc = 65535
  · rw [if_pos h]; simp [h]
  · rw [if_neg h]; simp [h]

theorem disc_some {f : SField} (h : f.inUnion = true) : discOf f = some f.disc := by
  unfold discOf
  rw [if_neg]
  simpa [SField.inUnion] using h

theorem disc_none {f : SField} (h : f.inUnion = false) : discOf f = none := by
  unfold discOf
  rw [if_pos]
  simpa [SField.inUnion] using h

/-! ## Defaults -/

theorem slot_default {cls : Nat → Option Const.Cls} {tt : TextType} {s : Slot} {ty : SlotType} (hty : slotTypeOf cls tt s.ty = some ty)
    (hd : DefaultOK s) (hz : ZeroDefault s) (hn : ¬ Numeric s.ty → s.dflt = .none) :
    (Dflt.val s.dflt).eval = .ok (slotDefault ty (explicitDefault s)) ∧
      (slotDefault ty (explicitDefault s)).truthy = StructEmit.truthy s.dflt := by
  have di := @explicitDefault_int s
  have db := @explicitDefault_bool s
  have none_case : ∀ (x : Option Int), ¬ Numeric s.ty → slotDefault ty x = .none →
      (Dflt.val s.dflt).eval = .ok (slotDefault ty x) ∧ (slotDefault ty x).truthy = StructEmit.truthy s.dflt := by
    intro x h e
    rw [hn h, e]
    exact ⟨rfl, rfl⟩
  have int_case : ∀ (d : Int), s.dflt = .int d → slotDefault ty (explicitDefault s) = .int ((explicitDefault s).getD 0) →
      (Dflt.val s.dflt).eval = .ok (slotDefault ty (explicitDefault s)) ∧
        (slotDefault ty (explicitDefault s)).truthy = StructEmit.truthy s.dflt := by
    intro d h e
    rw [e, di h hz, h]
    exact ⟨rfl, rfl⟩
  have float_case : ∀ fmt, s.dflt = .float fmt 0 → slotDefault ty (explicitDefault s) = .float ((explicitDefault s).getD 0) →
      (explicitDefault s).getD 0 = 0 → (Dflt.val s.dflt).eval = .ok (slotDefault ty (explicitDefault s)) ∧
        (slotDefault ty (explicitDefault s)).truthy = StructEmit.truthy s.dflt := by
    intro fmt h e e0
    rw [e, e0, h]
    cases fmt <;> exact ⟨rfl, rfl⟩
  have hf : ∀ fmt, s.dflt = .float fmt 0 → (explicitDefault s).getD 0 = 0 := by
    intro fmt e
    unfold explicitDefault; rw [e]; cases s.explicit <;> rfl
  clear di
  obtain ⟨t, off, d, ex⟩ := s
  cases t with
  | interface => cases hty
  | void => cases hty; exact none_case _ (by exact id) rfl
  | text => cases hty; exact none_case _ (by exact id) rfl
  | data => cases hty; exact none_case _ (by exact id) rfl
  | struct i => cases hty; exact none_case _ (by exact id) rfl
  | anyPointer => cases hty; exact none_case _ (by exact id) rfl
  | list el =>
    have hty : (itemOf cls tt el).map _ = some ty := hty
    cases hi : itemOf cls tt el with
    | none => rw [hi] at hty; cases hty
    | some it => rw [hi] at hty; cases hty; exact none_case _ (by exact id) rfl
  | bool =>
    cases hty
    obtain ⟨b, hb⟩ := hd
    have hb : d = .bool b := hb
    show (Dflt.val d).eval = .ok (.bool ((explicitDefault ⟨.bool, off, d, ex⟩).getD 0 != 0)) ∧
      (Arg.bool ((explicitDefault ⟨.bool, off, d, ex⟩).getD 0 != 0)).truthy = StructEmit.truthy d
    rw [db hb hz, hb]
    exact ⟨rfl, rfl⟩
  | enum i =>
    cases hty
    obtain ⟨v, hv, -⟩ := hd
    exact int_case v hv rfl
  | prim fmt =>
    cases fmt with
    | f => cases hty; exact float_case .f hd rfl (hf _ hd)
    | d => cases hty; exact float_case .d hd rfl (hf _ hd)
    | b => cases hty; obtain ⟨v, hv, -⟩ := hd; exact int_case v hv rfl
    | B => cases hty; obtain ⟨v, hv, -⟩ := hd; exact int_case v hv rfl
    | h => cases hty; obtain ⟨v, hv, -⟩ := hd; exact int_case v hv rfl
    | H => cases hty; obtain ⟨v, hv, -⟩ := hd; exact int_case v hv rfl
    | i => cases hty; obtain ⟨v, hv, -⟩ := hd; exact int_case v hv rfl
    | I => cases hty; obtain ⟨v, hv, -⟩ := hd; exact int_case v hv rfl
    | q => cases hty; obtain ⟨v, hv, -⟩ := hd; exact int_case v hv rfl
    | Q => cases hty; obtain ⟨v, hv, -⟩ := hd; exact int_case v hv rfl

/-! ## Statements -/

theorem runAll_append (items : Str → Option ItemType) (fuel : Nat) : ∀ (a b : List Stmt) (fr : Frame),
    runAll items fuel (a ++ b) fr = (do
      let fr ← runAll items fuel a fr
      runAll items fuel b fr)
  | [], b, fr => by
    show runAll items fuel b fr = _
    rw [runAll.eq_1]
    rfl
  | s :: a, b, fr => by
    rw [List.cons_append, runAll.eq_2, runAll.eq_2]
    cases s.run items fuel fr with
    | error e => rfl
    | ok fr' => exact runAll_append items fuel a b fr'

theorem runAll_one (items : Str → Option ItemType) (fuel : Nat) (s : Stmt) (fr : Frame) :
    runAll items fuel [s] fr = s.run items fuel fr := by
  rw [runAll.eq_2]
  cases s.run items fuel fr with
  | error e => rfl
  | ok fr' =>
    show runAll items fuel [] fr' = _
    rw [runAll.eq_1]; rfl

/-- The union of the parent: the model of Model/Ctor.lean keeps the offset in units of 16 bits. -/
def uniOf (uni : Option (String × Nat)) : Option (String × Nat) := uni.map fun p => (p.1, p.2 * 2)

theorem guard_same {items : Str → Option ItemType} {fuel : Nat} {f : SField} {var : String} {uni : Option (String × Nat)}
    {body : List Stmt} {fn : Frame → Py Frame} (hu : ¬ (f.inUnion && (uniOf uni).isNone) = true)
    (hb : ∀ fr, runAll items fuel body fr = fn fr) (fr : Frame) :
    runAll items fuel (wrap f var (uniOf uni) body) fr = guarded uni var f.pyname (discOf f) fn fr := by
  unfold wrap
  cases hi : f.inUnion with
  | false =>
    rw [disc_none hi]
    exact hb fr
  | true =>
    rw [disc_some hi]
    rw [hi] at hu
    cases uni with
    | none => exact absurd rfl hu
    | some p =>
      obtain ⟨u, off⟩ := p
      show runAll items fuel [Stmt.ifDefined var u (off * 2) f.disc f.pyname body] fr = _
      rw [runAll_one, Stmt.run.eq_4]
      unfold guarded
      have e : ∀ fr, (do runAll items fuel body fr : Py Frame) = fn fr := hb
      cases fr.get var with
      | error er => rfl
      | ok v =>
        show (if v.isUndefined = true then _ else _) = (if v.isUndefined = true then _ else _)
        by_cases hv : v.isUndefined = true
        · rw [if_pos hv, if_pos hv]
        · rw [if_neg hv, if_neg hv]
          cases fr.get (curtagVar u) with
          | error er => rfl
          | ok cur =>
            show (if cur.isNone = true then _ else _) = (if cur.isNone = true then _ else _)
            rw [funext hb]

/-! ## The tree -/

/-- The node of the tree of fields does what the field of the schema does. -/
def NodeSame (e : Env) (items : Str → Option ItemType) (f : SField) (lf : Field) (pfx : String) (nd : Node) : Prop :=
  nd.f = f ∧ nd.varname = varname pfx f.pyname ∧ (unions nd).map curtagVar = curtags pfx lf ∧
  ∀ ds uni stmts, StructEmit.handleNode e ds (uniOf uni) nd = .ok stmts →
    nd.dflt.eval = .ok (defaultArg none lf) ∧
      ∀ fuel fr, runAll items fuel stmts fr = Capnpy.handleNode fuel ds uni pfx lf fr

/-- The nodes of a list of fields. -/
def NodesSame (e : Env) (items : Str → Option ItemType) (lfs : List Field) (pfx : String) (nds : List Node) : Prop :=
  nds.map Node.varname = (lfs.filter (!·.skipped)).map (fun f => varname pfx f.name) ∧
  (unionsAll nds).map curtagVar = curtagsAll pfx lfs ∧
  ∀ ds uni stmts, StructEmit.handleNodes e ds (uniOf uni) nds = .ok stmts →
    evalAll (nds.map Node.dflt) = .ok (defaultArgs none lfs) ∧
      ∀ fuel fr, runAll items fuel stmts fr = Capnpy.handleNodes fuel ds uni pfx lfs fr

theorem slotType_void {cls : Nat → Option Const.Cls} {tt : TextType} {t : STy} {ty : SlotType} (h : slotTypeOf cls tt t = some ty) :
    (ty = .void) ↔ FieldEmit.tag t = 0 := by
  cases t with
  | prim fmt => cases fmt <;> · cases h; exact ⟨nofun, nofun⟩
  | void => cases h; exact ⟨fun _ => rfl, fun _ => rfl⟩
  | interface => cases h
  | list el =>
    have h : (itemOf cls tt el).map _ = some ty := h
    cases hi : itemOf cls tt el with
    | none => rw [hi] at h; cases h
    | some it => rw [hi] at h; cases h; exact ⟨nofun, nofun⟩
  | _ => cases h; exact ⟨nofun, nofun⟩

theorem skipped_same {e : Env} {cls : Nat → Option Const.Cls} {f : SField} {lf : Field} (h : IsField e cls f lf) :
    lf.skipped = (f.isVoid && !f.inUnion) := by
  cases lf with
  | group name code disc nullable union children =>
    rw [IsField.eq_2] at h
    obtain ⟨id, n, hk, -⟩ := h
    have : f.isVoid = false := by unfold SField.isVoid; rw [hk]
    rw [this]; rfl
  | slot name code disc ty off dflt =>
    rw [IsField.eq_1] at h
    obtain ⟨s, hk, -, -, hd, hty, -⟩ := h
    have hv : f.isVoid = decide (ty = .void) := by
      unfold SField.isVoid
      rw [hk]
      show (FieldEmit.tag s.ty == 0) = _
      rw [Bool.eq_iff_iff, beq_iff_eq, decide_eq_true_iff]
      exact (slotType_void hty).symm
    rw [hv, inUnion_disc, ← hd]
    cases disc with
    | none => cases ty <;> rfl
    | some d => cases ty <;> rfl

theorem name_same {e : Env} {cls : Nat → Option Const.Cls} {f : SField} {lf : Field} (h : IsField e cls f lf) :
    lf.name = f.pyname ∧ lf.disc = discOf f := by
  cases lf with
  | group name code disc nullable union children =>
    rw [IsField.eq_2] at h
    obtain ⟨id, n, -, -, h1, -, h2, -⟩ := h
    exact ⟨h1, h2⟩
  | slot name code disc ty off dflt =>
    rw [IsField.eq_1] at h
    obtain ⟨s, -, h1, -, h2, -⟩ := h
    exact ⟨h1, h2⟩

theorem handleNode_inv {e : Env} {ds : Nat} {uni : Option (String × Nat)} {f : SField} {var : String} {children : List Node}
    {union : Option (String × Nat)} {d : Dflt} {stmts : List Stmt}
    (h : StructEmit.handleNode e ds uni (.mk f var children union d) = .ok stmts) :
    ¬ (f.inUnion && uni.isNone) = true ∧ ∃ body, stmts = wrap f var uni body ∧
      (if f.nullable then
          match children[1]? with
          | Option.none => Except.error PyErr.indexError
          | some value =>
            if value.f.cname != "value" then .error .assertionError
            else do
              let rest ← StructEmit.handleNodes e ds union children
              pure (Stmt.ifNone var value.dflt :: rest)
        else
          match f.kind with
          | .group _ =>
            if children.isEmpty then .error .syntaxError
            else do
              let rest ← StructEmit.handleNodes e ds union children
              pure (Stmt.unpack (children.map Node.varname) var :: rest)
          | .slot s => do pure [Stmt.slot var (← FieldEmit.emitSetter (e.ctx f) ds s)]) = .ok body := by
  rw [StructEmit.handleNode.eq_1] at h
  by_cases hu : (f.inUnion && uni.isNone) = true
  · rw [if_pos hu] at h; cases h
  · rw [if_neg hu] at h
    obtain ⟨body, hb, hs⟩ := py_inv h
    exact ⟨hu, body, (Except.ok.inj hs).symm, hb⟩

theorem isFields_cons {e : Env} {cls : Nat → Option Const.Cls} {f : SField} {fs : List SField} {g : Field} {gs : List Field} :
    IsFields e cls (f :: fs) (g :: gs) ↔ IsField e cls f g ∧ IsFields e cls fs gs := by
  rw [IsFields]

theorem isFields_nil {e : Env} {cls : Nat → Option Const.Cls} {g : Field} {gs : List Field} :
    ¬ IsFields e cls [] (g :: gs) := by
  rw [IsFields]; exact id

theorem evalAll_get : ∀ {l : List Dflt} {as : List Arg}, evalAll l = .ok as → ∀ {i : Nat} {d : Dflt}, l[i]? = some d →
    ∃ a, as[i]? = some a ∧ d.eval = .ok a
  | [], as, _, i, d, hd => by cases hd
  | d0 :: l, as, h, i, d, hd => by
    rw [evalAll.eq_2] at h
    obtain ⟨a, ha, h⟩ := py_inv h
    obtain ⟨as', has, h⟩ := py_inv h
    cases h
    cases i with
    | zero => cases hd; exact ⟨a, rfl, ha⟩
    | succ i => exact evalAll_get has (i := i) hd

theorem evalAll_length : ∀ {l : List Dflt} {as : List Arg}, evalAll l = .ok as → as.length = l.length
  | [], as, h => by rw [evalAll.eq_1] at h; cases h; rfl
  | d0 :: l, as, h => by
    rw [evalAll.eq_2] at h
    obtain ⟨a, ha, h⟩ := py_inv h
    obtain ⟨as', has, h⟩ := py_inv h
    cases h
    rw [List.length_cons, List.length_cons, evalAll_length has]

theorem groupUnion_same (var : String) (n : SNode) :
    (if n.isUnion then some (var, n.discOffset * 2) else none) = uniOf (groupUnion var (unionOf n)) := by
  unfold SNode.isUnion unionOf
  by_cases h : n.discCount = 0
  · rw [if_neg (by simp [h]), if_pos h]; rfl
  · rw [if_pos (by simp; omega), if_neg h]; rfl

theorem null_ne (var : String) : var ++ "_is_null" ≠ var := by
  intro h
  have := congrArg String.length h
  rw [String.length_append] at this
  have e : "_is_null".length = 8 := by decide
  omega

/-- The assignments of a nullable group. -/
theorem ifNone_same (items : Str → Option ItemType) (fuel : Nat) (var : String) (d : Dflt) (a : Arg) (ha : d.eval = .ok a) (fr : Frame) :
    (Stmt.ifNone var d).run items fuel fr = nullableVars var a fr := by
  rw [Stmt.run.eq_3]
  unfold nullableVars
  cases hv : fr.get var with
  | error e => rfl
  | ok v =>
    show (if v.isNone = true then _ else _) = (if v.isNone = true then _ else _)
    by_cases h : v.isNone = true
    · rw [if_pos h, if_pos h, ha]; rfl
    · rw [if_neg h, if_neg h]
      have : (fr.set (var ++ "_is_null") (.int 0)).get var = .ok v := by
        unfold Frame.get at hv ⊢
        rw [Frame.set_ne _ _ (Ne.symm (null_ne var))]
        exact hv
      show (do pure ((fr.set (var ++ "_is_null") (.int 0)).set (var ++ "_value")
        (← (fr.set (var ++ "_is_null") (.int 0)).get var)) : Py Frame) = _
      rw [this]; rfl

/-- The default of a nullable group: what `_get_default` computes is what Model/Ctor.lean says. -/
theorem nullable_default {e : Env} {items : Str → Option ItemType} {cls : Nat → Option Const.Cls} {f : SField} {id : Nat}
    {n : SNode} {lfs : List Field} {nds : List Node} {value : Node} {d : Dflt} {fuel : Nat} {pfx : String} {ds : Nat} {stmts : List Stmt}
    (hk : f.kind = .group id) (hn : e.nodes id = some n) (hlf : IsFields e cls n.fields lfs)
    (hfine : ∀ f ∈ n.fields, FieldFine e items cls f) (hnull : f.nullable = true) (hu : f.inUnion = false)
    (hch : addChildren (mkNode e none fuel pfx) n.fields = .ok nds) (hv : nds[1]? = some value)
    (hh : StructEmit.handleNodes e ds none nds = .ok stmts) (hf : ∀ f nd, mkNode e none fuel pfx f = .ok nd → nd.f = f)
    (hev : evalAll (nds.map Node.dflt) = .ok (defaultArgs none lfs))
    (hd : getDefault e none f nds = .ok d) :
    d.eval = .ok (match defaultArgs none lfs with
      | [isNull, value] => if isNull.truthy then .none else value
      | _ => .none) := by
  rw [getDefault_none] at hd
  rw [hu, hk] at hd
  have hd : (do
      let (isNull, _) ← check e f
      match isNull.kind with
      | .group _ => Except.error PyErr.valueError
      | .slot s =>
        if StructEmit.truthy s.dflt then pure Dflt.none
        else
          match nds[1]? with
          | some c => pure c.dflt
          | Option.none => .error .indexError : Py Dflt) = .ok d := by
    rw [if_neg (by simp)] at hd
    rw [hnull] at hd
    exact hd
  obtain ⟨⟨isNull, val⟩, hc, hd⟩ := py_inv hd
  -- the fields of the group
  have hfs : n.fields = [isNull, val] := by
    unfold check at hc
    rw [hk] at hc
    have hnode : e.node id = .ok n := by unfold Env.node; rw [hn]
    have hc : (do
      let group ← e.node id
      match group.fields with
      | [isNull, value] =>
        if isNull.cname != "isNull" || value.cname != "value" then .error .valueError
        else if value.isPointer then .error .valueError
        else pure (isNull, value)
      | _ => Except.error PyErr.typeError : Py (SField × SField)) = .ok (isNull, val) := hc
    rw [bind_okP hnode] at hc
    match hfs : n.fields with
    | [] => rw [hfs] at hc; cases hc
    | [_] => rw [hfs] at hc; cases hc
    | _ :: _ :: _ :: _ => rw [hfs] at hc; cases hc
    | [a, b] =>
      rw [hfs] at hc
      have hc : (if (a.cname != "isNull" || b.cname != "value") = true then .error .valueError
        else if b.isPointer = true then .error .valueError
        else pure (a, b) : Py (SField × SField)) = .ok (isNull, val) := hc
      split at hc
      · cases hc
      · split at hc
        · cases hc
        · cases hc; rfl
  clear hc
  rw [hfs] at hch hlf hfine
  -- the fields of the schema
  match lfs, hlf, hev with
  | [], hlf, _ => cases hlf
  | [_], hlf, _ =>
    rw [isFields_cons, IsFields.eq_1] at hlf; exact absurd hlf.2 nofun
  | _ :: _ :: _ :: _, hlf, _ =>
    rw [isFields_cons, isFields_cons] at hlf; exact absurd hlf.2.2 isFields_nil
  | [c1, c2], hlf, hev =>
    rw [isFields_cons] at hlf
    obtain ⟨h1, -⟩ := hlf
    -- the first node
    have hn1 : ∃ n1 rest, nds = n1 :: rest ∧ rest ≠ [] ∧ n1.f = isNull := by
      unfold addChildren at hch
      by_cases hs : (isNull.isVoid && !isNull.inUnion) = true
      · rw [if_pos hs] at hch
        unfold addChildren at hch
        split at hch
        · cases hch; cases hv
        · obtain ⟨nd, _, hch⟩ := py_inv hch
          cases hch; cases hv
      · rw [if_neg hs] at hch
        obtain ⟨n1, h1', hch⟩ := py_inv hch
        obtain ⟨rest, hr, hch⟩ := py_inv hch
        cases hch
        refine ⟨n1, rest, rfl, ?_, hf _ _ h1'⟩
        rintro rfl
        cases hv
    obtain ⟨n1, rest, hnds, hrest, hn1f⟩ := hn1
    have hl := evalAll_length hev
    rw [List.length_map, hnds] at hl
    -- it is not in a union
    have hnu : isNull.inUnion = false := by
      rw [hnds, StructEmit.handleNodes.eq_2] at hh
      obtain ⟨a, ha, -⟩ := py_inv hh
      obtain ⟨f1, v1, ch1, u1, d1⟩ := n1
      have := (handleNode_inv ha).1
      have hn1f : f1 = isNull := hn1f
      rw [hn1f] at this
      simpa using this
    have hdisc : c1.disc = none := by rw [(name_same h1).2, disc_none hnu]
    -- neither field is skipped
    have hda : defaultArgs none [c1, c2] = [defaultArg none c1, defaultArg none c2] := by
      have h2 : 2 ≤ (defaultArgs none [c1, c2]).length := by
        rw [hl]
        cases rest with
        | nil => exact absurd rfl hrest
        | cons _ _ => simp
      rw [defaultArgs.eq_2, defaultArgs.eq_2, defaultArgs.eq_1] at h2 ⊢
      by_cases s1 : c1.skipped = true
      · rw [if_pos s1] at h2
        split at h2 <;> simp at h2
      · by_cases s2 : c2.skipped = true
        · rw [if_neg s1, if_pos s2] at h2; simp at h2
        · rw [if_neg s1, if_neg s2]
    obtain ⟨a, ha, hae⟩ := evalAll_get hev (i := 1) (d := value.dflt) (by rw [List.getElem?_map, hv]; rfl)
    rw [hda] at ha ⊢
    have ha : some (defaultArg none c2) = some a := ha
    have ha := (Option.some.inj ha).symm
    subst ha
    show d.eval = .ok (if (defaultArg none c1).truthy then .none else defaultArg none c2)
    -- `isNull` is a slot
    have hd : (match isNull.kind with
      | .group _ => Except.error PyErr.valueError
      | .slot s =>
        if StructEmit.truthy s.dflt then pure Dflt.none
        else
          match nds[1]? with
          | some c => pure c.dflt
          | Option.none => .error .indexError : Py Dflt) = .ok d := hd
    cases c1 with
    | group nm cd di nu un ch =>
      rw [IsField.eq_2] at h1
      obtain ⟨i1, _, hk1, -⟩ := h1
      rw [hk1] at hd
      cases hd
    | slot nm cd di ty off dflt =>
      have hdisc : di = none := hdisc
      subst hdisc
      rw [IsField.eq_1] at h1
      obtain ⟨s, hk1, -, -, -, hty, -, hx⟩ := h1
      have sf := (hfine isNull (by simp)).slot s hk1
      obtain ⟨-, htr⟩ := slot_default hty sf.dflt sf.zero sf.null
      rw [hk1] at hd
      have hd : (if StructEmit.truthy s.dflt = true then pure Dflt.none
        else
          match nds[1]? with
          | some c => pure c.dflt
          | Option.none => .error .indexError : Py Dflt) = .ok d := hd
      rw [hv] at hd
      rw [defaultArg.eq_1, hx]
      show d.eval = .ok (if (slotDefault ty (explicitDefault s)).truthy = true then .none else _)
      rw [htr]
      by_cases ht : StructEmit.truthy s.dflt = true
      · rw [if_pos ht] at hd ⊢
        cases hd; rw [Dflt.eval.eq_2]
      · rw [if_neg ht] at hd ⊢
        cases hd; exact hae

theorem mkNode_f {e : Env} : ∀ {fuel : Nat} {pfx : String} (f : SField) (nd : Node), mkNode e none fuel pfx f = .ok nd → nd.f = f
  | 0, pfx, f, nd, h => by unfold mkNode at h; cases h
  | fuel + 1, pfx, f, nd, h => by
    unfold mkNode at h
    cases hk : f.kind with
    | slot s =>
      rw [hk] at h
      obtain ⟨d, _, h⟩ := py_inv h
      cases h; rfl
    | group id =>
      rw [hk] at h
      obtain ⟨n, _, h⟩ := py_inv h
      obtain ⟨ch, _, h⟩ := py_inv h
      obtain ⟨d, _, h⟩ := py_inv h
      cases h; rfl

theorem varnames_eq {e : Env} {cls : Nat → Option Const.Cls} {g : Field} {f : SField} (h : IsField e cls f g) (pfx : String) :
    varname pfx g.name = varname pfx f.pyname := by rw [(name_same h).1]

mutual

theorem node_same {e : Env} {items : Str → Option ItemType} {cls : Nat → Option Const.Cls} (H : NodesFine e items cls) :
    ∀ (lf : Field) {fuel : Nat} {pfx : String} {f : SField} {nd : Node}, IsField e cls f lf → FieldFine e items cls f →
      mkNode e none fuel pfx f = .ok nd → NodeSame e items f lf pfx nd
  | .slot name code disc ty off dflt, fuel, pfx, f, nd, hf, hfine, h => by
    rw [IsField.eq_1] at hf
    obtain ⟨s, hk, rfl, rfl, rfl, hty, rfl, rfl⟩ := hf
    cases fuel with
    | zero => unfold mkNode at h; cases h
    | succ fuel =>
    unfold mkNode at h
    rw [hk] at h
    obtain ⟨d, hd, h⟩ := py_inv h
    cases h
    have sf := hfine.slot s hk
    refine ⟨rfl, rfl, by rw [unions.eq_2, curtags.eq_1, unionsAll.eq_1]; rfl, ?_⟩
    intro ds uni stmts hh
    obtain ⟨hu, body, rfl, hb⟩ := handleNode_inv hh
    have hnn : f.nullable = false := by
      by_contra hc
      rw [if_pos (by simpa using hc)] at hb
      cases hb
    rw [if_neg (by simp [hnn]), hk] at hb
    obtain ⟨code', hcode, hb⟩ := py_inv hb
    cases hb
    constructor
    · show d.eval = .ok (if ((discOf f).isSome && !forced none f.pyname f.code) = true then .undefined else slotDefault ty (explicitDefault s))
      rw [getDefault_none] at hd
      by_cases hi : f.inUnion = true
      · rw [if_pos hi] at hd
        cases hd
        rw [inUnion_disc] at hi
        rw [hi, Dflt.eval.eq_1]; rfl
      · rw [if_neg hi, hk] at hd
        cases hd
        rw [inUnion_disc] at hi
        rw [if_neg (by simp [hi])]
        exact (slot_default hty sf.dflt sf.zero sf.null).1
    · intro fuel' fr
      have hc := (C76_compiles (e.ctx f) s).mp sf.compiles
      obtain ⟨ty', hty', -⟩ := C76_same_setter (e.ctx f) items cls s sf.dflt sf.items ds hcode hc.2.1 hc.2.2.1 fuel' (varname pfx f.pyname) fr
      have hty'' : some ty' = some ty := hty'.symm.trans hty
      cases hty''
      rw [Capnpy.handleNode.eq_1]
      refine guard_same hu ?_ fr
      intro fr
      rw [runAll_one, Stmt.run.eq_1]
      obtain ⟨ty', hty', hrun⟩ := C76_same_setter (e.ctx f) items cls s sf.dflt sf.items ds hcode hc.2.1 hc.2.2.1 fuel' (varname pfx f.pyname) fr
      have hty'' : some ty' = some ty := hty'.symm.trans hty
      cases hty''
      exact hrun
  | .group name code disc nullable union children, fuel, pfx, f, nd, hf, hfine, h => by
    rw [IsField.eq_2] at hf
    obtain ⟨id, n, hk, hn, rfl, rfl, rfl, rfl, rfl, hfs⟩ := hf
    cases fuel with
    | zero => unfold mkNode at h; cases h
    | succ fuel =>
    unfold mkNode at h
    rw [hk] at h
    have hnode : e.node id = .ok n := by unfold Env.node; rw [hn]
    have h : (do
      let group ← e.node id
      let children ← addChildren (mkNode e none fuel (varname pfx f.pyname)) group.fields
      let union := if group.isUnion then some (varname pfx f.pyname, group.discOffset * 2) else none
      pure (Node.mk f (varname pfx f.pyname) children union (← getDefault e none f children)) : Py Node) = .ok nd := h
    rw [bind_okP hnode] at h
    obtain ⟨nds, hch, h⟩ := py_inv h
    obtain ⟨d, hd, h⟩ := py_inv h
    cases h
    obtain ⟨hvars, hun, hmain⟩ := nodes_same H children hfs (H id n hn) hch
    rw [groupUnion_same]
    refine ⟨rfl, rfl, ?_, ?_⟩
    · cases unionOf n with
      | none =>
        show (unions (Node.mk f (varname pfx f.pyname) nds none d)).map curtagVar = _
        rw [unions.eq_2, curtags.eq_3, ← hun]; rfl
      | some u =>
        show (unions (Node.mk f (varname pfx f.pyname) nds (some (varname pfx f.pyname, u * 2)) d)).map curtagVar = _
        rw [unions.eq_1, curtags.eq_2, ← hun]; rfl
    intro ds uni stmts hh
    obtain ⟨hu, body, rfl, hb⟩ := handleNode_inv hh
    have hg := hmain ds (groupUnion (varname pfx f.pyname) (unionOf n))
    cases hnl : f.nullable with
    | true =>
      rw [if_pos hnl] at hb
      cases hv : nds[1]? with
      | none => rw [hv] at hb; cases hb
      | some value =>
      rw [hv] at hb
      have hb : (if (value.f.cname != "value") = true then .error PyErr.assertionError
            else do
              let rest ← StructEmit.handleNodes e ds (uniOf (groupUnion (varname pfx f.pyname) (unionOf n))) nds
              pure (Stmt.ifNone (varname pfx f.pyname) value.dflt :: rest) : Py (List Stmt)) = .ok body := hb
      split at hb
      · cases hb
      obtain ⟨rest, hrest, hb⟩ := py_inv hb
      cases hb
      obtain ⟨hev, hrun⟩ := hg rest hrest
      have hnu : uniOf (groupUnion (varname pfx f.pyname) (unionOf n)) = none := by
        unfold unionOf
        rw [if_pos (hfine.nullable hnl id n hk hn)]; rfl
      constructor
      · show d.eval = .ok (if ((discOf f).isSome && !forced none f.pyname f.code) = true then .undefined
          else if true = true then
            match defaultArgs none children with
            | [isNull, value] => if isNull.truthy then .none else value
            | _ => .none
          else .tuple (defaultArgs none children))
        by_cases hi : f.inUnion = true
        · rw [getDefault_none] at hd
          rw [if_pos hi] at hd
          cases hd
          rw [inUnion_disc] at hi
          rw [hi, Dflt.eval.eq_1]; rfl
        · have hi' : (discOf f).isSome = false := by rw [← inUnion_disc]; simpa using hi
          rw [hi', if_neg (by simp), if_pos rfl]
          rw [hnu] at hrest
          exact nullable_default hk hn hfs (H id n hn) hnl (by simpa using hi) hch hv hrest (fun f nd h => mkNode_f f nd h) hev hd
      · intro fuel' fr
        rw [Capnpy.handleNode.eq_2]
        refine guard_same hu ?_ fr
        intro fr
        obtain ⟨a, ha, hae⟩ := evalAll_get hev (i := 1) (d := value.dflt) (by rw [List.getElem?_map, hv]; rfl)
        rw [runAll.eq_2, ifNone_same items fuel' _ _ a hae, if_pos rfl, ha]
        show _ = (do
          let fr ← nullableVars (varname pfx f.pyname) a fr
          Capnpy.handleNodes fuel' ds (groupUnion (varname pfx f.pyname) (unionOf n)) (varname pfx f.pyname) children fr : Py Frame)
        rw [funext (hrun fuel')]
    | false =>
      rw [if_neg (by simp [hnl]), hk] at hb
      have hb : (if nds.isEmpty = true then .error PyErr.syntaxError
            else do
              let rest ← StructEmit.handleNodes e ds (uniOf (groupUnion (varname pfx f.pyname) (unionOf n))) nds
              pure (Stmt.unpack (nds.map Node.varname) (varname pfx f.pyname) :: rest) : Py (List Stmt)) = .ok body := hb
      by_cases hem : nds.isEmpty = true
      · rw [if_pos hem] at hb; cases hb
      rw [if_neg hem] at hb
      obtain ⟨rest, hrest, hb⟩ := py_inv hb
      cases hb
      obtain ⟨hev, hrun⟩ := hg rest hrest
      constructor
      · show d.eval = .ok (if ((discOf f).isSome && !forced none f.pyname f.code) = true then .undefined
          else if false = true then _ else .tuple (defaultArgs none children))
        rw [getDefault_none] at hd
        by_cases hi : f.inUnion = true
        · rw [if_pos hi] at hd
          cases hd
          rw [inUnion_disc] at hi
          rw [hi, Dflt.eval.eq_1]; rfl
        · have hi' : (discOf f).isSome = false := by rw [← inUnion_disc]; simpa using hi
          rw [hi', if_neg (by simp), if_neg (by simp)]
          rw [if_neg hi, hk] at hd
          rw [hnl] at hd
          have hd : Except.ok (Dflt.tuple (nds.map Node.dflt)) = Except.ok d := hd
          cases hd
          rw [Dflt.eval.eq_9, if_neg (by simpa using hem), hev]
          rfl
      · intro fuel' fr
        rw [Capnpy.handleNode.eq_2]
        refine guard_same hu ?_ fr
        intro fr
        rw [runAll.eq_2, Stmt.run.eq_2, if_neg (by simp), hvars, funext (hrun fuel')]
        cases fr.get (varname pfx f.pyname) with
        | error er => rfl
        | ok v => cases v <;> rfl

theorem nodes_same {e : Env} {items : Str → Option ItemType} {cls : Nat → Option Const.Cls} (H : NodesFine e items cls) :
    ∀ (lfs : List Field) {fuel : Nat} {pfx : String} {fs : List SField} {nds : List Node}, IsFields e cls fs lfs →
      (∀ f ∈ fs, FieldFine e items cls f) → addChildren (mkNode e none fuel pfx) fs = .ok nds → NodesSame e items lfs pfx nds
  | [], fuel, pfx, fs, nds, hf, _, h => by
    rw [IsFields.eq_1] at hf
    subst hf
    unfold addChildren at h
    cases h
    refine ⟨rfl, by rw [unionsAll.eq_1, curtagsAll.eq_1]; rfl, ?_⟩
    intro ds uni stmts hh
    rw [StructEmit.handleNodes.eq_1] at hh
    cases hh
    refine ⟨by rw [List.map_nil, evalAll.eq_1, defaultArgs.eq_1], fun fuel fr => by rw [runAll.eq_1, Capnpy.handleNodes.eq_1]⟩
  | g :: gs, fuel, pfx, [], nds, hf, _, h => absurd hf isFields_nil
  | g :: gs, fuel, pfx, f :: fs, nds, hf, hfine, h => by
    rw [isFields_cons] at hf
    obtain ⟨h1, h2⟩ := hf
    unfold addChildren at h
    have hs := skipped_same h1
    by_cases hsk : (f.isVoid && !f.inUnion) = true
    · rw [if_pos hsk] at h
      obtain ⟨a1, a2, a3⟩ := nodes_same H gs h2 (fun f hf => hfine f (List.mem_cons_of_mem _ hf)) h
      rw [hsk] at hs
      have hc : curtags pfx g = [] := by
        cases g with
        | slot => rw [curtags.eq_1]
        | group => cases hs
      refine ⟨by rw [a1, List.filter_cons_of_neg (by simp [hs])], by rw [a2, curtagsAll.eq_2, hc]; rfl, ?_⟩
      intro ds uni stmts hh
      obtain ⟨b1, b2⟩ := a3 ds uni stmts hh
      refine ⟨by rw [b1, defaultArgs.eq_2, if_pos hs], fun fuel fr => ?_⟩
      rw [b2, Capnpy.handleNodes.eq_2, if_pos hs]
    · rw [if_neg hsk] at h
      obtain ⟨nd, hnd, h⟩ := py_inv h
      obtain ⟨rest, hrest, h⟩ := py_inv h
      cases h
      obtain ⟨-, c2, c3, c4⟩ := node_same H g h1 (hfine f (by simp)) hnd
      obtain ⟨a1, a2, a3⟩ := nodes_same H gs h2 (fun f hf => hfine f (List.mem_cons_of_mem _ hf)) hrest
      have hs' : ¬ g.skipped = true := by rw [hs]; exact hsk
      refine ⟨?_, by rw [unionsAll.eq_2, curtagsAll.eq_2, List.map_append, c3, a2], ?_⟩
      · rw [List.map_cons, c2, a1, List.filter_cons_of_pos (by simp [hs']), List.map_cons, varnames_eq h1]
      intro ds uni stmts hh
      rw [StructEmit.handleNodes.eq_2] at hh
      obtain ⟨sa, hsa, hh⟩ := py_inv hh
      obtain ⟨sb, hsb, hh⟩ := py_inv hh
      cases hh
      obtain ⟨d1, d2⟩ := c4 ds uni sa hsa
      obtain ⟨b1, b2⟩ := a3 ds uni sb hsb
      refine ⟨?_, fun fuel fr => ?_⟩
      · rw [List.map_cons, evalAll.eq_2, d1, defaultArgs.eq_2, if_neg hs']
        show (do
          let as ← evalAll (rest.map Node.dflt)
          pure (defaultArg none g :: as) : Py (List Arg)) = _
        rw [b1]; rfl
      · rw [runAll_append, Capnpy.handleNodes.eq_2, if_neg hs', d2, funext (b2 fuel)]

end

end Capnpy.Props
