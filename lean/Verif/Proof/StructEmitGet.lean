import Verif.Proof.StructEmit

/-!
# The properties which are emitted for a struct node are those of the schema it describes
-/

namespace Capnpy.Props

open Spec StructEmit
open Const (STy TextType PyVal)
open Module (Str Gen)
open FieldEmit (Slot Getter Setter Ctx emitGetter emitSetter)

/-! ## The attributes of the class -/

theorem lookupLast_cons {α : Type} (x y : String) (p : α) (r : List (String × α)) :
    StructEmit.lookupLast x ((y, p) :: r) = match StructEmit.lookupLast x r with
      | some q => some q
      | none => if y = x then some p else none := rfl

theorem lookupLast_append {α : Type} (x : String) : ∀ (a b : List (String × α)),
    StructEmit.lookupLast x (a ++ b) = match StructEmit.lookupLast x b with
      | some p => some p
      | none => StructEmit.lookupLast x a
  | [], b => by
    show StructEmit.lookupLast x b = _
    cases StructEmit.lookupLast x b <;> rfl
  | (y, p) :: a, b => by
    have ih := lookupLast_append x a b
    rw [List.cons_append, lookupLast_cons, lookupLast_cons, ih]
    cases StructEmit.lookupLast x b <;> rfl

theorem lookupLast_two {α : Type} (x y z : String) (p q : α) :
    StructEmit.lookupLast x [(y, p), (z, q)] = if z = x then some q else if y = x then some p else none := by
  rw [lookupLast_cons, lookupLast_cons]
  show (match (if z = x then some q else none) with
    | some q => some q
    | none => if y = x then some p else none) = _
  by_cases h : z = x
  · rw [if_pos h, if_pos h]
  · rw [if_neg h, if_neg h]

theorem lookupLast_none {α : Type} {x : String} : ∀ {a : List (String × α)}, (∀ p ∈ a, p.1 ≠ x) → StructEmit.lookupLast x a = none
  | [], _ => rfl
  | (y, p) :: a, h => by
    unfold StructEmit.lookupLast
    rw [lookupLast_none (fun q hq => h q (List.mem_cons_of_mem _ hq))]
    show (if y = x then some p else none) = none
    rw [if_neg (h (y, p) (by simp))]

theorem priv_inj {a b : String} (h : "_" ++ a = "_" ++ b) : a = b := by
  have := congrArg String.toList h
  rw [String.toList_append, String.toList_append] at this
  exact String.toList_inj.mp (List.append_cancel_left this)

theorem priv_ne {x a : String} (hx : x.toList.head? ≠ some '_') : x ≠ "_" ++ a := by
  rintro rfl
  apply hx
  rw [String.toList_append]
  rfl

/-- The definitions of a field: its own name and, if it is nullable, the private one. -/
theorem emitField_cases {e : Env} {f : SField} {l : List (String × PyProp)} (h : emitField e f = .ok l) :
    (∃ s code, f.kind = .slot s ∧ emitGetter (e.ctx f) s = .ok code ∧ l = [(f.pyname, .slot (discOf f) code)]) ∨
    (∃ id, f.kind = .group id ∧ f.nullable = false ∧ l = [(f.pyname, .group (discOf f) id)]) ∨
    (∃ id, f.kind = .group id ∧ f.nullable = true ∧
      l = [(f.pyname, .nullable ("_" ++ f.pyname)), ("_" ++ f.pyname, .group (discOf f) id)]) := by
  have hen : (if f.inUnion then some f.disc else none) = discOf f := by
    by_cases hi : f.inUnion = true
    · rw [if_pos hi, disc_some hi]
    · rw [if_neg hi, disc_none (by simpa using hi)]
  unfold emitField at h
  rw [hen] at h
  cases hk : f.kind with
  | slot s =>
    rw [hk] at h
    obtain ⟨code, hc, h⟩ := py_inv h
    cases h
    exact .inl ⟨s, code, rfl, hc, rfl⟩
  | group id =>
    rw [hk] at h
    obtain ⟨n, -, h⟩ := py_inv h
    cases hn : f.nullable with
    | true =>
      rw [hn] at h
      obtain ⟨c, -, h⟩ := py_inv h
      cases h
      exact .inr (.inr ⟨id, rfl, rfl, rfl⟩)
    | false =>
      rw [hn] at h
      cases h
      exact .inr (.inl ⟨id, rfl, rfl, rfl⟩)

/-- The names which are defined. -/
theorem emitFields_names {e : Env} : ∀ {fs : List SField} {l : List (String × PyProp)}, emitFields e fs = .ok l →
    ∀ p ∈ l, ∃ f ∈ fs, p.1 = f.pyname ∨ p.1 = "_" ++ f.pyname
  | [], l, h, p, hp => by unfold emitFields at h; cases h; cases hp
  | f :: fs, l, h, p, hp => by
    unfold emitFields at h
    obtain ⟨a, ha, h⟩ := py_inv h
    obtain ⟨b, hb, h⟩ := py_inv h
    cases h
    rcases List.mem_append.mp hp with hp | hp
    · refine ⟨f, by simp, ?_⟩
      rcases emitField_cases ha with ⟨s, code, -, -, rfl⟩ | ⟨id, -, -, rfl⟩ | ⟨id, -, -, rfl⟩
      · simp only [List.mem_singleton] at hp; subst hp; exact .inl rfl
      · simp only [List.mem_singleton] at hp; subst hp; exact .inl rfl
      · simp only [List.mem_cons, List.not_mem_nil, or_false] at hp
        rcases hp with rfl | rfl
        · exact .inl rfl
        · exact .inr rfl
    · obtain ⟨g, hg, hx⟩ := emitFields_names hb p hp
      exact ⟨g, List.mem_cons_of_mem _ hg, hx⟩

/-- What the attribute `x` of the class is: the property of the last field with this name. -/
def AttrIs (e : Env) (cls : Nat → Option Const.Cls) (fs : List SField) (lfs : List Field) (l : List (String × PyProp)) (x : String) : Prop :=
  (StructEmit.lookupLast x l = none ∧ (∀ f ∈ fs, f.pyname ≠ x) ∧ ∀ o u, getAttr o u x lfs = none) ∨
  ∃ f ∈ fs, ∃ lf ∈ lfs, IsField e cls f lf ∧ f.pyname = x ∧ (∀ o u, getAttr o u x lfs = some (getField o u lf)) ∧
    ((∃ s code, f.kind = .slot s ∧ emitGetter (e.ctx f) s = .ok code ∧ StructEmit.lookupLast x l = some (.slot (discOf f) code)) ∨
    (∃ id, f.kind = .group id ∧ f.nullable = false ∧ StructEmit.lookupLast x l = some (.group (discOf f) id)) ∨
    (∃ id, f.kind = .group id ∧ f.nullable = true ∧ StructEmit.lookupLast x l = some (.nullable ("_" ++ x)) ∧
      StructEmit.lookupLast ("_" ++ x) l = some (.group (discOf f) id)))

theorem attr_is {e : Env} {cls : Nat → Option Const.Cls} {x : String} : ∀ {fs : List SField} {lfs : List Field} {l : List (String × PyProp)},
    IsFields e cls fs lfs → emitFields e fs = .ok l → (∀ f ∈ fs, x ≠ "_" ++ f.pyname) →
      (∀ f ∈ fs, ∀ g ∈ fs, f.pyname ≠ "_" ++ g.pyname) → AttrIs e cls fs lfs l x
  | [], lfs, l, hf, h, _, _ => by
    unfold emitFields at h
    cases h
    cases lfs with
    | nil => exact .inl ⟨rfl, nofun, fun o u => by rw [getAttr.eq_1]⟩
    | cons g gs => exact absurd hf isFields_nil
  | f :: fs, [], l, hf, _, _, _ => by rw [IsFields.eq_1] at hf; cases hf
  | f :: fs, g :: gs, l, hf, h, hx, hp => by
    rw [isFields_cons] at hf
    obtain ⟨h1, h2⟩ := hf
    unfold emitFields at h
    obtain ⟨a, ha, h⟩ := py_inv h
    obtain ⟨b, hb, h⟩ := py_inv h
    cases h
    have hnm := (name_same h1).1
    have ih := attr_is h2 hb (fun f hf => hx f (List.mem_cons_of_mem _ hf))
      (fun f hf g hg => hp f (List.mem_cons_of_mem _ hf) g (List.mem_cons_of_mem _ hg))
    rcases ih with ⟨i1, i2, i3⟩ | ⟨f', hf', lf', hlf', i1, i2, i3, i4⟩
    · by_cases hfx : f.pyname = x
      · -- it is the first field
        subst hfx
        have hpriv : StructEmit.lookupLast ("_" ++ f.pyname) b = none := by
          refine lookupLast_none fun p hpm => ?_
          obtain ⟨q, hq, hq'⟩ := emitFields_names hb p hpm
          rcases hq' with hq' | hq'
          · rw [hq']; exact hp q (List.mem_cons_of_mem _ hq) f (by simp)
          · rw [hq']; exact fun hc => i2 q hq (priv_inj hc)
        refine .inr ⟨f, by simp, g, by simp, h1, rfl, ?_, ?_⟩
        · intro o u
          rw [getAttr.eq_2, i3]
          show (if g.name = f.pyname then _ else _) = _
          rw [if_pos hnm]
        · rw [lookupLast_append, lookupLast_append, i1, hpriv]
          rcases emitField_cases ha with ⟨s, code, c1, c2, rfl⟩ | ⟨id, c1, c2, rfl⟩ | ⟨id, c1, c2, rfl⟩
          · refine .inl ⟨s, code, c1, c2, ?_⟩
            show (if f.pyname = f.pyname then _ else _) = _
            rw [if_pos rfl]
          · refine .inr (.inl ⟨id, c1, c2, ?_⟩)
            show (if f.pyname = f.pyname then _ else _) = _
            rw [if_pos rfl]
          · refine .inr (.inr ⟨id, c1, c2, ?_, ?_⟩)
            · show StructEmit.lookupLast _ _ = _
              rw [lookupLast_two, if_neg (fun hc => hx f (by simp) hc.symm), if_pos rfl]
            · show StructEmit.lookupLast _ _ = _
              rw [lookupLast_two, if_pos rfl]
      · refine .inl ⟨?_, ?_, ?_⟩
        · rw [lookupLast_append, i1]
          refine lookupLast_none fun p hpm => ?_
          rcases emitField_cases ha with ⟨s, code, -, -, rfl⟩ | ⟨id, -, -, rfl⟩ | ⟨id, -, -, rfl⟩
          · simp only [List.mem_singleton] at hpm; subst hpm; exact hfx
          · simp only [List.mem_singleton] at hpm; subst hpm; exact hfx
          · simp only [List.mem_cons, List.not_mem_nil, or_false] at hpm
            rcases hpm with rfl | rfl
            · exact hfx
            · exact fun hc => hx f (by simp) hc.symm
        · intro q hq
          rcases List.mem_cons.mp hq with rfl | hq
          · exact hfx
          · exact i2 q hq
        · intro o u
          rw [getAttr.eq_2, i3]
          show (if g.name = x then _ else _) = _
          rw [if_neg (by rw [hnm]; exact hfx)]
    · refine .inr ⟨f', List.mem_cons_of_mem _ hf', lf', List.mem_cons_of_mem _ hlf', i1, i2, ?_, ?_⟩
      · intro o u
        rw [getAttr.eq_2, i3]
      · rcases i4 with ⟨s, code, c1, c2, c3⟩ | ⟨id, c1, c2, c3⟩ | ⟨id, c1, c2, c3, c4⟩
        · exact .inl ⟨s, code, c1, c2, by rw [lookupLast_append, c3]⟩
        · exact .inr (.inl ⟨id, c1, c2, by rw [lookupLast_append, c3]⟩)
        · exact .inr (.inr ⟨id, c1, c2, by rw [lookupLast_append, c3], by rw [lookupLast_append, c4]⟩)

/-! ## Running the properties -/

/-- The classes of the module are those which are emitted, and no field has the private name of a nullable one. -/
structure ClassesFine (e : Env) (classes : Nat → PyClass) : Prop where
  emitted : ∀ id n, e.nodes id = some n → emitClass e n = .ok (classes id)
  priv : ∀ id n, e.nodes id = some n → ∀ f ∈ n.fields, ∀ g ∈ n.fields, f.pyname ≠ "_" ++ g.pyname

/-- The class of a node, run with recursion limit at least `G0`, does what the schema says. -/
def ClassSame (items : Str → Option ItemType) (classes : Nat → PyClass) (G0 : Nat) (id : Nat) (n : SNode) (lfs : List Field) : Prop :=
  ∀ G, G0 ≤ G → ∀ o x, (∀ f ∈ n.fields, x ≠ "_" ++ f.pyname) →
    (getattr classes items G o (classes id) x).map Res.toRVal = (getAttr o (unionOf n) x lfs).getD (.error .attributeError)

/-- … for the groups. -/
def GroupSame (e : Env) (items : Str → Option ItemType) (cls : Nat → Option Const.Cls) (classes : Nat → PyClass) (G0 : Nat) : Field → Prop
  | .slot .. => True
  | .group _ _ _ _ _ children => ∀ id n, e.nodes id = some n → IsFields e cls n.fields children → ClassSame items classes G0 id n children

theorem ensure_same (o : StructObj) (c : PyClass) (n : SNode) (h : c.tagOffset = if n.discCount = 0 then none else some (n.discOffset * 2))
    (d : Option Nat) : ensure o c d = ensureMember o (unionOf n) d := by
  cases d with
  | none => rfl
  | some t =>
    unfold ensure ensureMember unionOf
    show o.ensureUnion _ _ = o.ensureUnion _ _
    rw [h]
    by_cases h0 : n.discCount = 0
    · rw [if_pos h0, if_pos h0]; rfl
    · rw [if_neg h0, if_neg h0]; rfl

theorem map_bind {α β γ : Type} (x : Py α) (f : α → Py β) (g : β → γ) : (x >>= f).map g = x >>= fun a => (f a).map g := by
  cases x <;> rfl

theorem class_same {e : Env} {items : Str → Option ItemType} {cls : Nat → Option Const.Cls} {classes : Nat → PyClass}
    (H : NodesFine e items cls) (C : ClassesFine e classes) {G0 : Nat} {id : Nat} {n : SNode} {lfs : List Field}
    (hn : e.nodes id = some n) (hfs : IsFields e cls n.fields lfs) (hg : ∀ lf ∈ lfs, GroupSame e items cls classes G0 lf) :
    ClassSame items classes (G0 + 2) id n lfs := by
  intro G hG o x hx
  obtain ⟨G, rfl⟩ : ∃ G', G = G' + 1 + 1 := ⟨G - 2, by omega⟩
  have hem := C.emitted id n hn
  unfold emitClass at hem
  obtain ⟨props, hprops, hem⟩ := py_inv hem
  have hem := (Except.ok.inj hem).symm
  have hpr : (classes id).props = props := by rw [hem]
  have hto : (classes id).tagOffset = if n.discCount = 0 then none else some (n.discOffset * 2) := by rw [hem]
  have hens := ensure_same o (classes id) n hto
  clear hem hto
  rcases attr_is (x := x) hfs hprops hx (C.priv id n hn) with ⟨i1, -, i3⟩ | ⟨f, hf, lf, hlf, h1, rfl, i3, i4⟩
  · rw [i3]
    unfold getattr
    rw [hpr, i1]
    rfl
  · rw [i3]
    show _ = getField o (unionOf n) lf
    have hdisc := (name_same h1).2
    rcases i4 with ⟨s, code, c1, c2, c3⟩ | ⟨gid, c1, c2, c3⟩ | ⟨gid, c1, c2, c3, c4⟩
    · unfold getattr
      rw [hpr, c3]
      show (do
        ensure o (classes id) (discOf f)
        pure (Res.val (← code.run items o)) : Py Res).map Res.toRVal = _
      cases lf with
      | group =>
        rw [IsField.eq_2] at h1
        obtain ⟨i, m, hk, -⟩ := h1
        rw [c1] at hk; cases hk
      | slot name cd di ty off df =>
        rw [IsField.eq_1] at h1
        obtain ⟨s', hk, -, -, hd, hty, ho, hx⟩ := h1
        rw [c1] at hk
        cases hk
        have sf := (H id n hn f hf).slot s c1
        obtain ⟨ty', hty', hrun⟩ := C76_same_getter (e.ctx f) items cls s sf.dflt sf.zero sf.items c2 o
        have hty'' : some ty' = some ty := hty'.symm.trans hty
        cases hty''
        rw [getField.eq_1, hrun, hens, hd, ho, hx]
        cases ensureMember o (unionOf n) (discOf f) with
        | error er => rfl
        | ok u =>
          show (do pure (Res.val (← getSlot o ty s.off (explicitDefault s))) : Py Res).map Res.toRVal = getSlot o ty s.off (explicitDefault s)
          cases getSlot o ty s.off (explicitDefault s) <;> rfl
    · unfold getattr
      rw [hpr, c3]
      show (do
        ensure o (classes id) (discOf f)
        pure (Res.inst (← StructObj.initFromBuffer o.seg o.dataOffset o.dataSize o.ptrsSize) gid) : Py Res).map Res.toRVal = _
      cases lf with
      | slot =>
        rw [IsField.eq_1] at h1
        obtain ⟨s', hk, -⟩ := h1
        rw [c1] at hk; cases hk
      | group name cd di nu un ch =>
        rw [IsField.eq_2] at h1
        obtain ⟨i, m, -, -, -, -, hd, hnu, -⟩ := h1
        rw [c2] at hnu
        rw [getField.eq_2, hens, hd, hnu]
        cases ensureMember o (unionOf n) (discOf f) with
        | error er => rfl
        | ok u =>
          show (do pure (Res.inst (← StructObj.initFromBuffer o.seg o.dataOffset o.dataSize o.ptrsSize) gid) : Py Res).map Res.toRVal =
            (do
              let g ← StructObj.initFromBuffer o.seg o.dataOffset o.dataSize o.ptrsSize
              pure (RVal.group g) : Py RVal)
          cases StructObj.initFromBuffer o.seg o.dataOffset o.dataSize o.ptrsSize <;> rfl
    · have hpriv : getattr classes items (G + 1) o (classes id) ("_" ++ f.pyname) = (do
          ensureMember o (unionOf n) (discOf f)
          pure (Res.inst (← StructObj.initFromBuffer o.seg o.dataOffset o.dataSize o.ptrsSize) gid) : Py Res) := by
        unfold getattr
        rw [hpr, c4]
        show (do
          ensure o (classes id) (discOf f)
          pure (Res.inst (← StructObj.initFromBuffer o.seg o.dataOffset o.dataSize o.ptrsSize) gid) : Py Res) = _
        rw [hens]
      rw [getattr.eq_2, hpr, c3]
      show (do
        match ← getattr classes items (G + 1) o (classes id) ("_" ++ f.pyname) with
        | .val _ => Except.error PyErr.attributeError
        | .inst g cls =>
          if (← getattr classes items (G + 1) g (classes cls) "is_null").toRVal.truthy then pure (Res.val .none)
          else getattr classes items (G + 1) g (classes cls) "value" : Py Res).map Res.toRVal = _
      rw [hpriv]
      cases lf with
      | slot =>
        rw [IsField.eq_1] at h1
        obtain ⟨s', hk, -⟩ := h1
        rw [c1] at hk; cases hk
      | group name cd di nu un ch =>
        have hgs := hg _ hlf
        rw [IsField.eq_2] at h1
        obtain ⟨i, m, hk, hm, -, -, hd, hnu, hun, hch⟩ := h1
        rw [c1] at hk
        cases hk
        rw [c2] at hnu
        have hcs : ClassSame items classes G0 gid m ch := hgs gid m hm hch
        rw [getField.eq_2, hd, hnu, hun]
        cases ensureMember o (unionOf n) (discOf f) with
        | error er => rfl
        | ok u =>
          cases hinit : StructObj.initFromBuffer o.seg o.dataOffset o.dataSize o.ptrsSize with
          | error er => rw [bind_okP rfl, bind_okP rfl]; rfl
          | ok g =>
            have e1 := hcs (G + 1) (by omega) g "is_null" (fun f _ => priv_ne (by decide))
            have e2 := hcs (G + 1) (by omega) g "value" (fun f _ => priv_ne (by decide))
            show (do
              if (← getattr classes items (G + 1) g (classes gid) "is_null").toRVal.truthy then pure (Res.val .none)
              else getattr classes items (G + 1) g (classes gid) "value" : Py Res).map Res.toRVal =
              (match getAttr g (unionOf m) "is_null" ch with
              | none => Except.error PyErr.attributeError
              | some r => do
                if (← r).truthy then pure RVal.none
                else
                  match getAttr g (unionOf m) "value" ch with
                  | none => Except.error PyErr.attributeError
                  | some r => r : Py RVal)
            have e3 : (match getAttr g (unionOf m) "is_null" ch with
              | none => Except.error PyErr.attributeError
              | some r => do
                if (← r).truthy then pure RVal.none
                else
                  match getAttr g (unionOf m) "value" ch with
                  | none => Except.error PyErr.attributeError
                  | some r => r : Py RVal) = (do
                if (← (getAttr g (unionOf m) "is_null" ch).getD (.error .attributeError)).truthy then pure RVal.none
                else (getAttr g (unionOf m) "value" ch).getD (.error .attributeError)) := by
              cases getAttr g (unionOf m) "is_null" ch with
              | none => rfl
              | some r =>
                cases getAttr g (unionOf m) "value" ch <;> rfl
            rw [e3, ← e1, ← e2]
            cases getattr classes items (G + 1) g (classes gid) "is_null" with
            | error er => rfl
            | ok r =>
              show (if r.toRVal.truthy = true then pure (Res.val .none) else getattr classes items (G + 1) g (classes gid) "value" : Py Res).map
                Res.toRVal = (if r.toRVal.truthy = true then pure RVal.none else _)
              split <;> rfl

theorem groupSame_mono {e : Env} {items : Str → Option ItemType} {cls : Nat → Option Const.Cls} {classes : Nat → PyClass} {G0 G1 : Nat}
    (h : G0 ≤ G1) {lf : Field} (hg : GroupSame e items cls classes G0 lf) : GroupSame e items cls classes G1 lf := by
  cases lf with
  | slot => trivial
  | group => exact fun id n hn hf G hG => hg id n hn hf G (by omega)

mutual

theorem group_same {e : Env} {items : Str → Option ItemType} {cls : Nat → Option Const.Cls} {classes : Nat → PyClass}
    (H : NodesFine e items cls) (C : ClassesFine e classes) : ∀ lf : Field, ∃ G0, GroupSame e items cls classes G0 lf
  | .slot .. => ⟨0, trivial⟩
  | .group _ _ _ _ _ children => by
    obtain ⟨G0, h⟩ := groups_same H C children
    exact ⟨G0 + 2, fun id n hn hf => class_same H C hn hf h⟩

theorem groups_same {e : Env} {items : Str → Option ItemType} {cls : Nat → Option Const.Cls} {classes : Nat → PyClass}
    (H : NodesFine e items cls) (C : ClassesFine e classes) : ∀ lfs : List Field, ∃ G0, ∀ lf ∈ lfs, GroupSame e items cls classes G0 lf
  | [] => ⟨0, nofun⟩
  | lf :: lfs => by
    obtain ⟨G0, h0⟩ := group_same H C lf
    obtain ⟨G1, h1⟩ := groups_same H C lfs
    refine ⟨max G0 G1, ?_⟩
    intro g hg
    rcases List.mem_cons.mp hg with rfl | hg
    · exact groupSame_mono (le_max_left _ _) h0
    · exact groupSame_mono (le_max_right _ _) (h1 g hg)

end

end Capnpy.Props
