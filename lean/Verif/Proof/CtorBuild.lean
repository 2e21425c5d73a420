import Verif.Model.Ctor
import Verif.Proof.Builder

/-!
# The generated constructor without local variables

`buildNodes` does what the generated code does, with the arguments passed along the
tree instead of through Python variables.  `handleNodes_build`: when the local
variables of the generated function are distinct, the two agree (also on the
exception raised).
-/

namespace Capnpy

/-- The statements for one slot, on the value of its variable. -/
def buildSlot (fuel ds : Nat) (ty : SlotType) (off : Nat) (dflt : Option Int) (a : Arg) : BM Unit :=
  match ty with
  | .void => pure ()
  | .text => allocBytesArg ((slotOffset ds ty off : Nat) : Int) a 1
  | .data => allocBytesArg ((slotOffset ds ty off : Nat) : Int) a 0
  | .struct => copyStructArg fuel ((slotOffset ds ty off : Nat) : Int) a
  | .list it => copyListArg fuel it ((slotOffset ds ty off : Nat) : Int) a
  | .anyPointer => BM.lift (.error .notImplemented)
  | .prim fmt => do writeArg fmt ((slotOffset ds ty off : Nat) : Int) (← BM.lift (xorArg dflt ty a))
  | .enum => do writeArg .h ((slotOffset ds ty off : Nat) : Int) (← BM.lift (xorArg dflt ty a))
  | .float fmt => do writeFloatArg fmt ((slotOffset ds ty off : Nat) : Int) (← BM.lift (xorArg dflt ty a))
  | .bool => do writeBoolArg off (← BM.lift (xorArg dflt ty a))

/-- The union check; `cur`: a member of the union has been set. -/
def guardedB (union : Option Nat) (cur : Bool) (disc : Option Nat) (a : Arg) (body : BM Unit) : BM Bool :=
  match disc with
  | none => do body; pure cur
  | some tag =>
    match union with
    | none => BM.lift (.error .attributeError)
    | some off =>
      if a.isUndefined then pure cur
      else if cur then BM.lift (.error .typeError)
      else do
        writeFmt .h ((off * 2 : Nat) : Int) tag
        body
        pure true

/-- The values given to the two fields of a nullable group. -/
def nullableArgs (children : List Field) (a : Arg) : List Arg :=
  if a.isNone then [.int 1, ((defaultArgs none children)[1]?).getD .none] else [.int 0, a]

mutual

def buildNode (fuel ds : Nat) (union : Option Nat) (cur : Bool) : Field → Arg → BM Bool
  | .slot _ _ disc ty off dflt, a => guardedB union cur disc a (buildSlot fuel ds ty off dflt a)
  | .group _ _ disc nullable gunion children, a =>
    guardedB union cur disc a
      (if nullable then do
        let _ ← buildNodes fuel ds gunion false children (nullableArgs children a)
      else
        match a with
        | .tuple as =>
          if as.length = (children.filter (!·.skipped)).length then do
            let _ ← buildNodes fuel ds gunion false children as
          else BM.lift (.error .valueError)
        | _ => BM.lift (.error .typeError))

def buildNodes (fuel ds : Nat) (union : Option Nat) (cur : Bool) : List Field → List Arg → BM Bool
  | [], _ => pure cur
  | f :: fs, as =>
    if f.skipped then buildNodes fuel ds union cur fs as
    else
      match as with
      | [] => BM.lift (.error .valueError)
      | a :: as => do
        let cur ← buildNode fuel ds union cur f a
        buildNodes fuel ds union cur fs as

end

/-! ## Local variables -/

mutual

/-- The local variables that belong to a node: its own, those of its children, and
the `__curtag` of its union. -/
def localsNode (pfx : String) : Field → List String
  | .slot name .. => [varname pfx name]
  | .group name _ _ _ union children =>
    varname pfx name ::
      ((match union with
        | some _ => [curtagVar (varname pfx name)]
        | none => []) ++ localsAll (varname pfx name) children)

def localsAll (pfx : String) : List Field → List String
  | [] => []
  | f :: fs => if f.skipped then localsAll pfx fs else localsNode pfx f ++ localsAll pfx fs

end

/-- All the local variables of the generated function (capnpy/compiler/structor.py:
53-63). -/
def Schema.locals (S : Schema) : List String :=
  "builder" :: "pos" ::
    ((match S.union with | some _ => [curtagVar "anonymous"] | none => []) ++ localsAll "" S.fields)

mutual

/-- Nullable groups have exactly the fields `is_null` and `value`
(capnpy/annotate_extended.py:7-25, with `convert_case`). -/
def NullableOK : Field → Prop
  | .slot .. => True
  | .group name _ _ nullable _ children =>
    (nullable = true → name ≠ "" ∧ ∃ c1 c2, children = [c1, c2] ∧ c1.name = "is_null" ∧ c2.name = "value" ∧
      c1.skipped = false ∧ c2.skipped = false) ∧ NullablesOK children

def NullablesOK : List Field → Prop
  | [] => True
  | f :: fs => NullableOK f ∧ NullablesOK fs

end

/-- The variables of the fields hold the arguments. -/
def Bound (vars : String → Option Arg) (pfx : String) : List Field → List Arg → Prop
  | [], as => as = []
  | f :: fs, as =>
    if f.skipped then Bound vars pfx fs as
    else
      match as with
      | [] => False
      | a :: as => vars (varname pfx f.name) = some a ∧ Bound vars pfx fs as

/-- The state of the `__curtag` variable of the union of the parent. -/
def CurOK (vars : String → Option Arg) : Option (String × Nat) → Bool → Prop
  | none, _ => True
  | some (u, _), true => ∃ s, vars (curtagVar u) = some (.str s)
  | some (u, _), false => vars (curtagVar u) = some .none

/-- The `__curtag` of the parent's union. -/
def uniVars : Option (String × Nat) → List String
  | none => []
  | some (u, _) => [curtagVar u]

/-- `builder` and `pos` are what the first two statements made them. -/
def BaseOK (vars : String → Option Arg) : Prop :=
  vars "builder" = some .builder ∧ vars "pos" = some (.int 0)

/-- The frame computation `h` does what the builder computation did. -/
def Sim (r : EStateM.Result PyErr Bytes Bool) (h : Py Frame)
    (P : (String → Option Arg) → Bool → Prop) : Prop :=
  match r with
  | .ok c b => ∃ v, h = .ok ⟨v, b⟩ ∧ P v c
  | .error e _ => h = .error e

/-- The same for the body of a node. -/
def Sim0 (r : EStateM.Result PyErr Bytes Unit) (h : Py Frame) (P : (String → Option Arg) → Prop) : Prop :=
  match r with
  | .ok _ b => ∃ v, h = .ok ⟨v, b⟩ ∧ P v
  | .error e _ => h = .error e

theorem Frame.get_ok {fr : Frame} {x : String} {a : Arg} (h : fr.vars x = some a) : fr.get x = .ok a := by
  unfold Frame.get; rw [h]

theorem Frame.posPlus_ok {fr : Frame} (h : BaseOK fr.vars) (n : Nat) : fr.posPlus n = .ok (n : Int) := by
  unfold Frame.posPlus
  rw [Frame.get_ok h.2]
  show (Except.ok ((0 : Int) + (n : Int)) : Py Int) = _
  rw [Int.zero_add]

theorem Frame.set_same (fr : Frame) (x : String) (a : Arg) : (fr.set x a).vars x = some a := by
  simp [Frame.set]

theorem Frame.set_ne (fr : Frame) {x y : String} (a : Arg) (h : y ≠ x) : (fr.set x a).vars y = fr.vars y := by
  simp [Frame.set, h]

theorem Frame.call_eq {α} {fr : Frame} (h : BaseOK fr.vars) (m : BM α) :
    fr.call m = match m fr.buf with
      | .ok _ b => .ok ⟨fr.vars, b⟩
      | .error e _ => .error e := by
  unfold Frame.call
  rw [h.1]
  show (match m fr.buf with
      | .ok _ b => _
      | .error e _ => _) = _
  cases m fr.buf <;> rfl

/-- One slot. -/
theorem handleSlot_build (fuel ds : Nat) (var : String) (ty : SlotType) (off : Nat) (dflt : Option Int)
    (fr : Frame) (a : Arg) (hb : BaseOK fr.vars) (hv : fr.vars var = some a) (h1 : var ≠ "builder")
    (h2 : var ≠ "pos") :
    Sim0 (buildSlot fuel ds ty off dflt a fr.buf) (handleSlot fuel ds var ty off dflt fr)
      (fun v => ∀ x, x ≠ var → v x = fr.vars x) := by
  have hget := Frame.get_ok hv
  have hpos := fun n => Frame.posPlus_ok hb n
  have ptr : ∀ (n : Nat) (m : Int → Arg → BM Unit),
      match m (n : Int) a fr.buf with
      | .ok _ b => ∃ v, (do fr.call (m (← fr.posPlus n) (← fr.get var)) : Py Frame) = .ok ⟨v, b⟩ ∧
          ∀ x, x ≠ var → v x = fr.vars x
      | .error e _ => (do fr.call (m (← fr.posPlus n) (← fr.get var)) : Py Frame) = .error e := by
    intro n m
    have e : (do fr.call (m (← fr.posPlus n) (← fr.get var)) : Py Frame) = fr.call (m (n : Int) a) := by
      rw [hpos, hget]; rfl
    rw [e, Frame.call_eq hb]
    cases m (n : Int) a fr.buf with
    | ok u b => exact ⟨fr.vars, rfl, fun _ _ => rfl⟩
    | error e b => rfl
  have num : ∀ (w : Frame → Py Frame) (m : Arg → BM Unit),
      (∀ fr' : Frame, BaseOK fr'.vars → ∀ a', fr'.vars var = some a' → w fr' = fr'.call (m a')) →
      match (do m (← BM.lift (xorArg dflt ty a)) : BM Unit) fr.buf with
      | .ok _ b => ∃ v, (do w (← xorInto dflt ty var fr) : Py Frame) = .ok ⟨v, b⟩ ∧ ∀ x, x ≠ var → v x = fr.vars x
      | .error e _ => (do w (← xorInto dflt ty var fr) : Py Frame) = .error e := by
    intro w m hw
    have hin : (do w (← xorInto dflt ty var fr) : Py Frame) = (do
            let a ← xorArg dflt ty (← fr.get var)
            let fr := if dflt.isSome then fr.set var a else fr
            w fr : Py Frame) := by
      rw [hget]
      cases dflt with
      | none => rfl
      | some d =>
        show (do w (← xorInto (some d) ty var fr) : Py Frame) = (do
            let a ← xorArg (some d) ty a
            w (fr.set var a) : Py Frame)
        unfold xorInto
        rw [hget]
        show (do w (← (do pure (fr.set var (← xorArg (some d) ty a)) : Py Frame)) : Py Frame) = _
        cases xorArg (some d) ty a <;> rfl
    rw [hin, hget]
    cases hx : xorArg dflt ty a with
    | error e =>
      show (do let a ← xorArg dflt ty a; _ : Py Frame) = _
      rw [hx]; rfl
    | ok a' =>
      have hb' : BaseOK (if dflt.isSome then fr.set var a' else fr).vars := by
        split
        · exact ⟨by rw [Frame.set_ne _ _ (Ne.symm h1)]; exact hb.1, by rw [Frame.set_ne _ _ (Ne.symm h2)]; exact hb.2⟩
        · exact hb
      have hv' : (if dflt.isSome then fr.set var a' else fr).vars var = some a' := by
        cases dflt with
        | none =>
          unfold xorArg at hx
          cases hx
          simpa using hv
        | some d => simp [Frame.set_same]
      have hbuf : (if dflt.isSome then fr.set var a' else fr).buf = fr.buf := by
        split <;> rfl
      have hvars : ∀ x, x ≠ var → (if dflt.isSome then fr.set var a' else fr).vars x = fr.vars x := by
        intro x hx
        split
        · exact Frame.set_ne _ _ hx
        · rfl
      have e : (do
            let a ← xorArg dflt ty (← (Except.ok a : Py Arg))
            let fr := if dflt.isSome then fr.set var a else fr
            w fr : Py Frame) = (if dflt.isSome then fr.set var a' else fr).call (m a') := by
        show (do
            let a ← xorArg dflt ty a
            let fr := if dflt.isSome then fr.set var a else fr
            w fr : Py Frame) = _
        rw [hx]
        exact hw _ hb' a' hv'
      rw [e, Frame.call_eq hb', hbuf]
      show match m a' fr.buf with | .ok _ b => _ | .error e _ => _
      cases m a' fr.buf with
      | ok u b => exact ⟨_, rfl, hvars⟩
      | error e b => rfl
  unfold handleSlot buildSlot
  cases ty with
  | void => exact ⟨fr.vars, rfl, fun _ _ => rfl⟩
  | anyPointer => rfl
  | text => exact ptr _ fun i a => allocBytesArg i a 1
  | data => exact ptr _ fun i a => allocBytesArg i a 0
  | struct => exact ptr _ fun i a => copyStructArg fuel i a
  | list it => exact ptr _ fun i a => copyListArg fuel it i a
  | prim fmt =>
    refine num (fun fr => do fr.call (writeArg fmt (← fr.posPlus _) (← fr.get var))) (writeArg fmt _) ?_
    intro fr' hb' a' hv'
    rw [Frame.posPlus_ok hb', Frame.get_ok hv']; rfl
  | enum =>
    refine num (fun fr => do fr.call (writeArg .h (← fr.posPlus _) (← fr.get var))) (writeArg .h _) ?_
    intro fr' hb' a' hv'
    rw [Frame.posPlus_ok hb', Frame.get_ok hv']; rfl
  | float fmt =>
    refine num (fun fr => do fr.call (writeFloatArg fmt (← fr.posPlus _) (← fr.get var))) (writeFloatArg fmt _) ?_
    intro fr' hb' a' hv'
    rw [Frame.posPlus_ok hb', Frame.get_ok hv']; rfl
  | bool =>
    refine num (fun fr => do fr.call (writeBoolArg off (← fr.get var))) (writeBoolArg off) ?_
    intro fr' hb' a' hv'
    rw [Frame.get_ok hv']; rfl

/-- The body of a node agrees with the builder computation `m`, from every frame
that agrees with `vars` outside `U`, and changes only variables of `L`. -/
def BodyOK (vars : String → Option Arg) (U L : List String) (body : Frame → Py Frame) (m : BM Unit) : Prop :=
  ∀ fr : Frame, (∀ x, x ∉ U → fr.vars x = vars x) →
    Sim0 (m fr.buf) (body fr) (fun v => ∀ x, x ∉ L → v x = fr.vars x)

theorem guarded_build {uni : Option (String × Nat)} {cur : Bool} {var name : String} {disc : Option Nat}
    {body : Frame → Py Frame} {m : BM Unit} {fr : Frame} {a : Arg} {L : List String}
    (hb : BaseOK fr.vars) (hv : fr.vars var = some a) (hc : CurOK fr.vars uni cur)
    (hU : ∀ x ∈ uniVars uni, x ∉ L ∧ x ≠ "builder" ∧ x ≠ "pos")
    (hbody : BodyOK fr.vars (uniVars uni) L body m) :
    Sim (guardedB (uni.map (·.2)) cur disc a m fr.buf) (guarded uni var name disc body fr)
      (fun v c => CurOK v uni c ∧ ∀ x, x ∉ uniVars uni → x ∉ L → v x = fr.vars x) := by
  cases disc with
  | none =>
    unfold guardedB guarded
    simp only
    have := hbody fr (fun _ _ => rfl)
    cases hm : m fr.buf with
    | error e b =>
      rw [hm] at this
      rw [BM.bind_error hm]
      exact this
    | ok u b =>
      rw [hm] at this
      obtain ⟨v, e, hx⟩ := this
      rw [BM.bind_ok hm]
      refine ⟨v, e, ?_, fun x _ h => hx x h⟩
      cases uni with
      | none => trivial
      | some uo =>
        obtain ⟨u', off⟩ := uo
        have := (hU (curtagVar u') (by simp [uniVars])).1
        cases cur
        · show v (curtagVar u') = _
          rw [hx _ this]; exact hc
        · show ∃ s, v (curtagVar u') = _
          rw [hx _ this]; exact hc
  | some tag =>
    cases uni with
    | none => rfl
    | some uo =>
      obtain ⟨u, off⟩ := uo
      obtain ⟨k1, k2, k3⟩ := hU (curtagVar u) (by simp [uniVars])
      unfold guardedB guarded
      simp only [Option.map_some]
      rw [Frame.get_ok hv]
      show Sim _ (if a.isUndefined = true then _ else _) _
      by_cases hu : a.isUndefined = true
      · rw [if_pos hu, if_pos hu]
        exact ⟨fr.vars, rfl, hc, fun _ _ _ => rfl⟩
      · rw [if_neg hu, if_neg hu]
        cases cur with
        | true =>
          obtain ⟨s, hs⟩ := hc
          rw [Frame.get_ok hs]
          rfl
        | false =>
          have hs : fr.vars (curtagVar u) = some .none := hc
          rw [Frame.get_ok hs]
          show Sim _ (do
            let fr ← (fr.set (curtagVar u) (.str name)).call (writeFmt .h ((off * 2 : Nat) : Int) tag)
            body fr) _
          rw [if_neg (by simp)]
          have hb' : BaseOK (fr.set (curtagVar u) (.str name)).vars :=
            ⟨by rw [Frame.set_ne _ _ (Ne.symm k2)]; exact hb.1, by rw [Frame.set_ne _ _ (Ne.symm k3)]; exact hb.2⟩
          rw [Frame.call_eq hb']
          have hbuf : (fr.set (curtagVar u) (.str name)).buf = fr.buf := rfl
          rw [hbuf]
          cases hw : writeFmt .h ((off * 2 : Nat) : Int) (tag : Int) fr.buf with
          | error e b => rw [BM.bind_error hw]; rfl
          | ok _ b =>
            rw [BM.bind_ok hw]
            have := hbody ⟨(fr.set (curtagVar u) (.str name)).vars, b⟩ (by
              intro x hx
              exact Frame.set_ne _ _ (by simpa [uniVars] using hx))
            show Sim _ (body ⟨(fr.set (curtagVar u) (.str name)).vars, b⟩) _
            simp only at this
            cases hm : m b with
            | error e b' => rw [hm] at this; rw [BM.bind_error hm]; exact this
            | ok _ b' =>
              rw [hm] at this
              obtain ⟨v, e, hx⟩ := this
              rw [BM.bind_ok hm]
              refine ⟨v, e, ⟨name, ?_⟩, ?_⟩
              · rw [hx _ k1]; exact Frame.set_same _ _ _
              · intro x h1 h2
                rw [hx x h2]
                exact Frame.set_ne _ _ (by simpa [uniVars] using h1)

/-- The variables of the fields of a list of fields (without those of nested
groups). -/
def fieldVars (pfx : String) (fs : List Field) : List String :=
  (fs.filter (!·.skipped)).map fun f => varname pfx f.name

theorem Bound.congr {v v' : String → Option Arg} {pfx : String} : ∀ {fs : List Field} {as : List Arg},
    Bound v pfx fs as → (∀ x ∈ localsAll pfx fs, v' x = v x) → Bound v' pfx fs as := by
  intro fs
  induction fs with
  | nil => intro as h _; exact h
  | cons f fs ih =>
    intro as h hx
    unfold Bound at h ⊢
    unfold localsAll at hx
    by_cases hs : f.skipped = true
    · rw [if_pos hs] at h hx ⊢; exact ih h hx
    · rw [if_neg hs] at h hx ⊢
      cases as with
      | nil => exact h
      | cons a as =>
        refine ⟨?_, ih h.2 fun x hx' => hx x (by simp [hx'])⟩
        rw [hx]
        · exact h.1
        · cases f <;> simp [localsNode, Field.name]

theorem bound_of_fieldVars {v v' : String → Option Arg} {pfx : String} : ∀ {fs : List Field} {as : List Arg},
    Bound v pfx fs as → (∀ x ∈ fieldVars pfx fs, v' x = v x) → Bound v' pfx fs as := by
  intro fs
  induction fs with
  | nil => intro as h _; exact h
  | cons f fs ih =>
    intro as h hx
    unfold Bound at h ⊢
    by_cases hs : f.skipped = true
    · have e : fieldVars pfx (f :: fs) = fieldVars pfx fs := by simp [fieldVars, hs]
      rw [e] at hx
      rw [if_pos hs] at h ⊢
      exact ih h hx
    · have e : fieldVars pfx (f :: fs) = varname pfx f.name :: fieldVars pfx fs := by simp [fieldVars, hs]
      rw [e] at hx
      rw [if_neg hs] at h ⊢
      cases as with
      | nil => exact h
      | cons a as =>
        refine ⟨?_, ih h.2 fun x hx' => hx x (List.mem_cons_of_mem _ hx')⟩
        rw [hx _ List.mem_cons_self]
        exact h.1

theorem unpack_ok {pfx : String} : ∀ (fs : List Field) (as : List Arg) (fr : Frame),
    (fieldVars pfx fs).Nodup → as.length = (fieldVars pfx fs).length →
    ∃ v, unpack (fieldVars pfx fs) as fr = .ok ⟨v, fr.buf⟩ ∧
      Bound v pfx fs as ∧ ∀ x, x ∉ fieldVars pfx fs → v x = fr.vars x := by
  intro fs
  induction fs with
  | nil =>
    intro as fr _ hl
    cases as with
    | nil => exact ⟨fr.vars, rfl, rfl, fun _ _ => rfl⟩
    | cons _ _ => simp [fieldVars] at hl
  | cons f fs ih =>
    intro as fr hn hl
    by_cases hs : f.skipped = true
    · have e : fieldVars pfx (f :: fs) = fieldVars pfx fs := by simp [fieldVars, hs]
      rw [e] at hn hl ⊢
      simp only [Bound, hs, if_true]
      exact ih as fr hn hl
    · have e : fieldVars pfx (f :: fs) = varname pfx f.name :: fieldVars pfx fs := by
        simp [fieldVars, hs]
      rw [e] at hn hl ⊢
      cases as with
      | nil => simp at hl
      | cons a as =>
        obtain ⟨n1, n2⟩ := List.nodup_cons.mp hn
        obtain ⟨v, e1, e2, e3⟩ := ih as (fr.set (varname pfx f.name) a) n2 (by simpa using hl)
        refine ⟨v, e1, ?_, ?_⟩
        · unfold Bound
          rw [if_neg hs]
          refine ⟨?_, e2⟩
          rw [e3 _ n1]
          exact Frame.set_same _ _ _
        · intro x hx
          simp only [List.mem_cons, not_or] at hx
          rw [e3 x hx.2]
          exact Frame.set_ne _ _ hx.1

theorem unpack_bad {xs : List String} : ∀ {as : List Arg} {fr : Frame}, as.length ≠ xs.length →
    unpack xs as fr = .error .valueError := by
  induction xs with
  | nil => intro as fr h; cases as with
    | nil => simp at h
    | cons _ _ => rfl
  | cons x xs ih =>
    intro as fr h
    cases as with
    | nil => rfl
    | cons a as => exact ih (by simpa using h)

theorem fieldVars_sublist (pfx : String) : ∀ fs, (fieldVars pfx fs).Sublist (localsAll pfx fs) := by
  intro fs
  induction fs with
  | nil => exact List.Sublist.refl _
  | cons f fs ih =>
    unfold localsAll
    by_cases hs : f.skipped = true
    · rw [if_pos hs]
      have e : fieldVars pfx (f :: fs) = fieldVars pfx fs := by simp [fieldVars, hs]
      rw [e]; exact ih
    · rw [if_neg hs]
      have e : fieldVars pfx (f :: fs) = varname pfx f.name :: fieldVars pfx fs := by
        simp [fieldVars, hs]
      rw [e]
      have : localsNode pfx f = varname pfx f.name :: (localsNode pfx f).tail := by
        cases f <;> simp [localsNode, Field.name]
      rw [this, List.cons_append]
      exact List.Sublist.cons_cons _ (ih.trans (List.sublist_append_right _ _))

mutual

theorem curtags_subset (pfx : String) : ∀ (f : Field) (x : String), x ∈ curtags pfx f → x ∈ localsNode pfx f
  | .slot .., x, h => by simp [curtags] at h
  | .group name _ _ _ union children, x, h => by
    simp only [curtags, List.mem_append] at h
    simp only [localsNode, List.mem_cons, List.mem_append]
    rcases h with h | h
    · exact .inr (.inl h)
    · exact .inr (.inr (curtagsAll_subset _ children x h))

theorem curtagsAll_subset (pfx : String) : ∀ (fs : List Field) (x : String), x ∈ curtagsAll pfx fs →
    x ∈ localsAll pfx fs
  | [], x, h => by simp [curtagsAll] at h
  | f :: fs, x, h => by
    unfold curtagsAll at h
    unfold localsAll
    rw [List.mem_append] at h
    by_cases hs : f.skipped = true
    · rw [if_pos hs]
      rcases h with h | h
      · cases f with
        | slot => simp [curtags] at h
        | group => simp [Field.skipped] at hs
      · exact curtagsAll_subset pfx fs x h
    · rw [if_neg hs, List.mem_append]
      rcases h with h | h
      · exact .inl (curtags_subset pfx f x h)
      · exact .inr (curtagsAll_subset pfx fs x h)

end

theorem curtag_not_fieldVar (pfx : String) : ∀ (fs : List Field), (localsAll pfx fs).Nodup → ∀ x,
    x ∈ curtagsAll pfx fs → x ∉ fieldVars pfx fs := by
  intro fs
  induction fs with
  | nil => intro _ x hx; simp [curtagsAll] at hx
  | cons f fs ih =>
    intro hn x hx hv
    unfold curtagsAll at hx
    rw [List.mem_append] at hx
    unfold localsAll at hn
    by_cases hs : f.skipped = true
    · rw [if_pos hs] at hn
      have e : fieldVars pfx (f :: fs) = fieldVars pfx fs := by simp [fieldVars, hs]
      rw [e] at hv
      rcases hx with hx | hx
      · cases f with
        | slot => simp [curtags] at hx
        | group => simp [Field.skipped] at hs
      · exact ih hn x hx hv
    · rw [if_neg hs] at hn
      have e : fieldVars pfx (f :: fs) = varname pfx f.name :: fieldVars pfx fs := by
        simp [fieldVars, hs]
      rw [e, List.mem_cons] at hv
      obtain ⟨n1, n2, n3⟩ := List.nodup_append.mp hn
      have hm : varname pfx f.name ∈ localsNode pfx f := by
        cases f <;> simp [localsNode, Field.name]
      rcases hx with hx | hx
      · rcases hv with hv | hv
        · subst hv
          cases f with
          | slot => simp [curtags] at hx
          | group n _ _ _ u ch =>
            simp only [localsNode, List.nodup_cons] at n1
            refine n1.1 ?_
            simp only [curtags, List.mem_append] at hx
            rw [List.mem_append]
            rcases hx with hx | hx
            · exact .inl hx
            · exact .inr (curtagsAll_subset _ _ _ hx)
        · exact n3 _ (curtags_subset _ _ _ hx) _ ((fieldVars_sublist _ _).subset hv) rfl
      · rcases hv with hv | hv
        · subst hv
          exact n3 _ hm _ (curtagsAll_subset _ _ _ hx) rfl
        · exact ih n2 x hx hv

theorem nodup_parts {U : List String} {L : List String}
    (h : ("builder" :: "pos" :: (U ++ L)).Nodup) :
    (∀ x ∈ U, x ∉ L ∧ x ≠ "builder" ∧ x ≠ "pos") ∧ L.Nodup ∧
      (∀ x ∈ L, x ≠ "builder" ∧ x ≠ "pos") := by
  simp only [List.nodup_cons, List.mem_cons, List.mem_append, not_or] at h
  obtain ⟨⟨h1, h2, h3⟩, ⟨h4, h5⟩, h6⟩ := h
  have h7 := List.nodup_append.mp h6
  refine ⟨fun x hx => ⟨fun hl => h7.2.2 x hx x hl rfl, ?_, ?_⟩, h7.2.1, fun x hx => ⟨?_, ?_⟩⟩
  · rintro rfl; exact h2 hx
  · rintro rfl; exact h4 hx
  · rintro rfl; exact h3 hx
  · rintro rfl; exact h5 hx

theorem varname_group {pfx name x : String} (h : varname pfx name ≠ "") :
    varname (varname pfx name) x = varname pfx name ++ "_" ++ x := by
  unfold varname at h ⊢
  rw [if_neg h]

theorem varname_ne_empty {pfx name : String} (h : name ≠ "") : varname pfx name ≠ "" := by
  unfold varname
  split
  · exact h
  · intro hc
    have := congrArg String.length hc
    simp [String.length_append] at this

mutual

/-- The code generated for a node does what `buildNode` does. -/
theorem handleNode_build (fuel ds : Nat) (uni : Option (String × Nat)) (pfx : String) (cur : Bool) :
    ∀ (f : Field) (a : Arg) (fr : Frame), BaseOK fr.vars → fr.vars (varname pfx f.name) = some a →
      CurOK fr.vars uni cur → (∀ x ∈ curtags pfx f, fr.vars x = some .none) →
      ("builder" :: "pos" :: (uniVars uni ++ localsNode pfx f)).Nodup → NullableOK f →
      Sim (buildNode fuel ds (uni.map (·.2)) cur f a fr.buf) (handleNode fuel ds uni pfx f fr)
        (fun v c => CurOK v uni c ∧ ∀ x, x ∉ uniVars uni → x ∉ localsNode pfx f → v x = fr.vars x)
  | .slot name code disc ty off dflt, a, fr, hb, hv, hc, _, hn, _ => by
    obtain ⟨n1, n2, n3⟩ := nodup_parts hn
    have hvl := n3 (varname pfx name) (by simp [localsNode])
    unfold buildNode handleNode
    refine guarded_build hb hv hc n1 ?_
    intro fr' hfr'
    have hnu : ∀ x ∈ localsNode pfx (.slot name code disc ty off dflt), x ∉ uniVars uni :=
      fun x hx hu => (n1 x hu).1 hx
    have hbu : "builder" ∉ uniVars uni := fun h => (n1 _ h).2.1 rfl
    have hpu : "pos" ∉ uniVars uni := fun h => (n1 _ h).2.2 rfl
    have := handleSlot_build fuel ds (varname pfx name) ty off dflt fr' a
      ⟨by rw [hfr' _ hbu]; exact hb.1, by rw [hfr' _ hpu]; exact hb.2⟩
      (by rw [hfr' _ (hnu _ (by simp [localsNode]))]; exact hv) hvl.1 hvl.2
    cases hm : buildSlot fuel ds ty off dflt a fr'.buf with
    | error e b => rw [hm] at this; exact this
    | ok u b =>
      rw [hm] at this
      obtain ⟨v, e, hx⟩ := this
      exact ⟨v, e, fun x h => hx x (by simpa [localsNode] using h)⟩
  | .group name code disc nullable union children, a, fr, hb, hv, hc, ht, hn, hnull => by
    obtain ⟨n1, n2, n3⟩ := nodup_parts hn
    have hvl := n3 (varname pfx name) (by simp [localsNode])
    unfold buildNode handleNode
    refine guarded_build hb hv hc n1 ?_
    intro fr' hfr'
    have hnu : ∀ x ∈ localsNode pfx (.group name code disc nullable union children), x ∉ uniVars uni :=
      fun x hx hu => (n1 x hu).1 hx
    have hbu : "builder" ∉ uniVars uni := fun h => (n1 _ h).2.1 rfl
    have hpu : "pos" ∉ uniVars uni := fun h => (n1 _ h).2.2 rfl
    have hb' : BaseOK fr'.vars := ⟨by rw [hfr' _ hbu]; exact hb.1, by rw [hfr' _ hpu]; exact hb.2⟩
    have hv' : fr'.vars (varname pfx name) = some a := by
      rw [hfr' _ (hnu _ (by simp [localsNode]))]; exact hv
    have ht' : ∀ x ∈ curtags pfx (.group name code disc nullable union children), fr'.vars x = some .none := by
      intro x hx
      rw [hfr' _ (hnu x (curtags_subset _ _ _ hx))]
      exact ht x hx
    -- the children, from a frame where their variables are bound
    have hloc : localsNode pfx (.group name code disc nullable union children)
        = varname pfx name :: (uniVars (groupUnion (varname pfx name) union) ++ localsAll (varname pfx name) children) := by
      cases union <;> simp [localsNode, groupUnion, uniVars]
    have hcur : curtags pfx (.group name code disc nullable union children)
        = uniVars (groupUnion (varname pfx name) union) ++ curtagsAll (varname pfx name) children := by
      cases union <;> simp [curtags, groupUnion, uniVars]
    rw [hloc] at n2 n3
    obtain ⟨m1, m2⟩ := List.nodup_cons.mp n2
    have hchild : ∀ (as : List Arg) (fr2 : Frame),
        (∀ x, x ∉ localsAll (varname pfx name) children → fr2.vars x = fr'.vars x) →
        (∀ x ∈ curtagsAll (varname pfx name) children, fr2.vars x = some .none) →
        Bound fr2.vars (varname pfx name) children as → fr2.buf = fr'.buf →
        Sim0 ((do let _ ← buildNodes fuel ds union false children as : BM Unit) fr'.buf)
          (handleNodes fuel ds (groupUnion (varname pfx name) union) (varname pfx name) children fr2)
          (fun v => ∀ x, x ∉ localsNode pfx (.group name code disc nullable union children) → v x = fr'.vars x) := by
      intro as fr2 hf2 htag hbound hbuf
      have hnd : ("builder" :: "pos" :: (uniVars (groupUnion (varname pfx name) union)
          ++ localsAll (varname pfx name) children)).Nodup := by
        refine List.nodup_cons.mpr ⟨?_, List.nodup_cons.mpr ⟨?_, m2⟩⟩
        · intro h
          rcases List.mem_cons.mp h with h | h
          · exact absurd h (by decide)
          · exact (n3 _ (List.mem_cons_of_mem _ h)).1 rfl
        · intro h
          exact (n3 _ (List.mem_cons_of_mem _ h)).2 rfl
      obtain ⟨q1, q2, q3⟩ := nodup_parts hnd
      have hb2 : BaseOK fr2.vars := by
        refine ⟨?_, ?_⟩
        · rw [hf2 _ (fun h => (q3 _ h).1 rfl)]; exact hb'.1
        · rw [hf2 _ (fun h => (q3 _ h).2 rfl)]; exact hb'.2
      have hc2 : CurOK fr2.vars (groupUnion (varname pfx name) union) false := by
        cases union with
        | none => trivial
        | some off =>
          show fr2.vars (curtagVar (varname pfx name)) = _
          rw [hf2 _ (q1 _ (by simp [groupUnion, uniVars])).1]
          exact ht' _ (by rw [hcur]; simp [groupUnion, uniVars])
      have := handleNodes_build fuel ds (groupUnion (varname pfx name) union) (varname pfx name) false children
        as fr2 hb2 hbound hc2 htag hnd hnull.2
      have hum : (groupUnion (varname pfx name) union).map (·.2) = union := by cases union <;> rfl
      rw [hum, hbuf] at this
      cases hm : buildNodes fuel ds union false children as fr'.buf with
      | error e b => rw [hm] at this; rw [BM.bind_error hm]; exact this
      | ok c b =>
        rw [hm] at this
        obtain ⟨v, e, hcc, hx⟩ := this
        rw [BM.bind_ok hm]
        refine ⟨v, e, fun x h => ?_⟩
        rw [hloc] at h
        simp only [List.mem_cons, List.mem_append, not_or] at h
        rw [hx x h.2.1 h.2.2, hf2 x h.2.2]
    have htagsub : ∀ x, x ∈ curtagsAll (varname pfx name) children → fr'.vars x = some .none := fun x hx =>
      ht' x (by rw [hcur]; simp [hx])
    by_cases hnl : nullable = true
    · rw [if_pos hnl]
      simp only [if_pos hnl]
      obtain ⟨hname, c1, c2, rfl, e1, e2, s1, s2⟩ := hnull.1 hnl
      have hla : localsAll (varname pfx name) [c1, c2]
          = localsNode (varname pfx name) c1 ++ (localsNode (varname pfx name) c2 ++ []) := by
        simp [localsAll, s1, s2]
      have w1 : varname (varname pfx name) c1.name ∈ localsNode (varname pfx name) c1 := by
        cases c1 <;> simp [localsNode, Field.name]
      have w2 : varname (varname pfx name) c2.name ∈ localsNode (varname pfx name) c2 := by
        cases c2 <;> simp [localsNode, Field.name]
      have hne : varname pfx name ≠ "" := varname_ne_empty hname
      have v1 : varname (varname pfx name) c1.name = varname pfx name ++ "_is_null" := by
        rw [varname_group hne, e1, String.append_assoc]; rfl
      have v2 : varname (varname pfx name) c2.name = varname pfx name ++ "_value" := by
        rw [varname_group hne, e2, String.append_assoc]; rfl
      rw [v1] at w1
      rw [v2] at w2
      have hnd2 := (List.nodup_append.mp m2).2.1
      rw [hla] at hnd2
      have hdis := (List.nodup_append.mp hnd2).2.2
      have hne12 : varname pfx name ++ "_is_null" ≠ varname pfx name ++ "_value" :=
        hdis _ w1 _ (by simp [w2])
      have hsub : ∀ x ∈ curtagsAll (varname pfx name) [c1, c2],
          x ≠ varname pfx name ++ "_is_null" ∧ x ≠ varname pfx name ++ "_value" := by
        intro x hx
        have hc1 : ∀ c : Field, curtags (varname pfx name) c ⊆ (localsNode (varname pfx name) c).tail := by
          intro c y hy
          cases c with
          | slot => simp [curtags] at hy
          | group n _ _ _ u ch =>
            simp only [curtags, List.mem_append] at hy
            simp only [localsNode, List.tail_cons, List.mem_append]
            rcases hy with hy | hy
            · exact .inl hy
            · exact .inr (curtagsAll_subset _ _ _ hy)
        have hh : ∀ c : Field, localsNode (varname pfx name) c
            = varname (varname pfx name) c.name :: (localsNode (varname pfx name) c).tail := by
          intro c; cases c <;> simp [localsNode, Field.name]
        have d1 := hh c1
        have d2 := hh c2
        rw [v1] at d1
        rw [v2] at d2
        simp only [curtagsAll, List.append_nil, List.mem_append] at hx
        have nd1 := (List.nodup_append.mp hnd2).1
        have nd2 := (List.nodup_append.mp hnd2).2.1
        simp only [List.append_nil] at nd2 hdis
        rw [d1] at nd1
        rw [d2] at nd2
        rcases hx with hx | hx
        · refine ⟨?_, ?_⟩
          · rintro rfl; exact (List.nodup_cons.mp nd1).1 (hc1 _ hx)
          · rintro rfl; exact hdis _ (curtags_subset _ _ _ hx) _ w2 rfl
        · refine ⟨?_, ?_⟩
          · rintro rfl; exact hdis _ w1 _ (curtags_subset _ _ _ hx) rfl
          · rintro rfl; exact (List.nodup_cons.mp nd2).1 (hc1 _ hx)
      have go : ∀ (x y : Arg),
          Sim0 ((do let _ ← buildNodes fuel ds union false [c1, c2] [x, y] : BM Unit) fr'.buf)
            (handleNodes fuel ds (groupUnion (varname pfx name) union) (varname pfx name) [c1, c2]
                ((fr'.set (varname pfx name ++ "_is_null") x).set (varname pfx name ++ "_value") y))
            (fun v => ∀ x, x ∉ localsNode pfx (.group name code disc nullable union [c1, c2]) → v x = fr'.vars x) := by
        intro x y
        refine hchild [x, y] _ ?_ ?_ ?_ rfl
        · intro z hz
          rw [hla] at hz
          simp only [List.mem_append, not_or] at hz
          rw [Frame.set_ne _ _ (by rintro rfl; exact hz.2.1 w2), Frame.set_ne _ _ (by rintro rfl; exact hz.1 w1)]
        · intro z hz
          rw [Frame.set_ne _ _ (hsub z hz).2, Frame.set_ne _ _ (hsub z hz).1]
          exact htagsub z hz
        · simp only [Bound, s1, s2]
          refine ⟨?_, ?_, trivial⟩
          · rw [v1, Frame.set_ne _ _ hne12]; exact Frame.set_same _ _ _
          · rw [v2]; exact Frame.set_same _ _ _
      unfold nullableVars nullableArgs
      rw [Frame.get_ok hv']
      by_cases han : a.isNone = true
      · rw [if_pos han]
        have := go (.int 1) (((defaultArgs none [c1, c2])[1]?).getD .none)
        simpa [han, bind, Except.bind, pure, Except.pure] using this
      · rw [if_neg han]
        have := go (.int 0) a
        simpa [han, bind, Except.bind, pure, Except.pure] using this
    · rw [if_neg hnl]
      simp only [if_neg hnl]
      rw [Frame.get_ok hv']
      cases a with
      | tuple as =>
        show Sim0 ((if as.length = (children.filter (!·.skipped)).length then _ else _ : BM Unit) _) (do
            let fr ← unpack (fieldVars (varname pfx name) children) as fr'
            handleNodes fuel ds (groupUnion (varname pfx name) union) (varname pfx name) children fr) _
        have hlen : (fieldVars (varname pfx name) children).length = (children.filter (!·.skipped)).length := by
          simp [fieldVars]
        by_cases hl : as.length = (children.filter (!·.skipped)).length
        · rw [if_pos hl]
          have hnd2 := (List.nodup_append.mp m2).2.1
          obtain ⟨v, u1, u2, u3⟩ := unpack_ok (pfx := varname pfx name) children as fr'
            (List.Nodup.sublist (fieldVars_sublist _ _) hnd2) (by omega)
          rw [u1]
          refine hchild as ⟨v, fr'.buf⟩ ?_ ?_ u2 rfl
          · intro x hx
            exact u3 x (fun h => hx ((fieldVars_sublist _ _).subset h))
          · intro x hx
            show v x = _
            rw [u3 x (fun h => curtag_not_fieldVar _ _ hnd2 x hx h)]
            exact htagsub x hx
        · rw [if_neg hl, unpack_bad (by omega)]
          rfl
      | undefined => rfl
      | none => rfl
      | int _ => rfl
      | bool _ => rfl
      | float _ => rfl
      | bytes _ => rfl
      | struct _ => rfl
      | list _ => rfl
      | builder => rfl
      | str _ => rfl

theorem handleNodes_build (fuel ds : Nat) (uni : Option (String × Nat)) (pfx : String) (cur : Bool) :
    ∀ (fs : List Field) (as : List Arg) (fr : Frame), BaseOK fr.vars → Bound fr.vars pfx fs as →
      CurOK fr.vars uni cur → (∀ x ∈ curtagsAll pfx fs, fr.vars x = some .none) →
      ("builder" :: "pos" :: (uniVars uni ++ localsAll pfx fs)).Nodup → NullablesOK fs →
      Sim (buildNodes fuel ds (uni.map (·.2)) cur fs as fr.buf) (handleNodes fuel ds uni pfx fs fr)
        (fun v c => CurOK v uni c ∧ ∀ x, x ∉ uniVars uni → x ∉ localsAll pfx fs → v x = fr.vars x)
  | [], as, fr, hb, hv, hc, ht, hn, hnull => by
    unfold buildNodes handleNodes
    exact ⟨fr.vars, rfl, hc, fun _ _ _ => rfl⟩
  | f :: fs, as, fr, hb, hv, hc, ht, hn, hnull => by
    by_cases hs : f.skipped = true
    · have e1 : localsAll pfx (f :: fs) = localsAll pfx fs := by
        conv_lhs => unfold localsAll
        rw [if_pos hs]
      have e2 : Bound fr.vars pfx fs as := by
        unfold Bound at hv; rw [if_pos hs] at hv; exact hv
      have ht2 : ∀ x ∈ curtagsAll pfx fs, fr.vars x = some .none := by
        intro x hx; apply ht; unfold curtagsAll; exact List.mem_append_right _ hx
      rw [e1] at hn ⊢
      unfold buildNodes handleNodes
      rw [if_pos hs, if_pos hs]
      exact handleNodes_build fuel ds uni pfx cur fs as fr hb e2 hc ht2 hn hnull.2
    · have e1 : localsAll pfx (f :: fs) = localsNode pfx f ++ localsAll pfx fs := by
        conv_lhs => unfold localsAll
        rw [if_neg hs]
      rw [e1] at hn ⊢
      unfold Bound at hv
      rw [if_neg hs] at hv
      unfold buildNodes handleNodes
      rw [if_neg hs, if_neg hs]
      cases as with
      | nil => exact hv.elim
      | cons a as =>
        obtain ⟨hv1, hv2⟩ := hv
        obtain ⟨n1, n2, n3⟩ := nodup_parts hn
        obtain ⟨p1, p2, p3⟩ := List.nodup_append.mp n2
        have hbu : "builder" ∉ uniVars uni := fun h => (n1 _ h).2.1 rfl
        have hpu : "pos" ∉ uniVars uni := fun h => (n1 _ h).2.2 rfl
        have hbl : "builder" ∉ localsNode pfx f := fun h => (n3 _ (List.mem_append_left _ h)).1 rfl
        have hpl : "pos" ∉ localsNode pfx f := fun h => (n3 _ (List.mem_append_left _ h)).2 rfl
        have hsl1 : ("builder" :: "pos" :: (uniVars uni ++ localsNode pfx f)).Sublist
            ("builder" :: "pos" :: (uniVars uni ++ (localsNode pfx f ++ localsAll pfx fs))) := by
          rw [← List.append_assoc]
          exact ((List.sublist_append_left _ _).cons_cons _).cons_cons _
        have hsl2 : ("builder" :: "pos" :: (uniVars uni ++ localsAll pfx fs)).Sublist
            ("builder" :: "pos" :: (uniVars uni ++ (localsNode pfx f ++ localsAll pfx fs))) :=
          ((List.Sublist.append_left (List.sublist_append_right _ _) _).cons_cons _).cons_cons _
        have h1 := handleNode_build fuel ds uni pfx cur f a fr hb hv1 hc
          (fun x hx => ht x (by unfold curtagsAll; exact List.mem_append_left _ hx)) (hn.sublist hsl1) hnull.1
        show Sim ((buildNode fuel ds (uni.map (·.2)) cur f a >>= fun cur =>
          buildNodes fuel ds (uni.map (·.2)) cur fs as) fr.buf) _ _
        cases hm : buildNode fuel ds (uni.map (·.2)) cur f a fr.buf with
        | error e b =>
          rw [hm] at h1
          rw [BM.bind_error hm, show handleNode fuel ds uni pfx f fr = _ from h1]
          rfl
        | ok c b =>
          rw [hm] at h1
          obtain ⟨v, e, hc', hx⟩ := h1
          rw [BM.bind_ok hm, e]
          have hx' : ∀ x ∈ localsAll pfx fs, v x = fr.vars x := by
            intro x hxx
            refine hx x (fun hu => (n1 x hu).1 (List.mem_append_right _ hxx)) ?_
            intro hl; exact p3 x hl x hxx rfl
          have h2 := handleNodes_build fuel ds uni pfx c fs as ⟨v, b⟩
            ⟨by show v _ = _; rw [hx _ hbu hbl]; exact hb.1, by show v _ = _; rw [hx _ hpu hpl]; exact hb.2⟩
            (hv2.congr hx') hc' (by
              intro x hxx
              show v x = _
              rw [hx' x (curtagsAll_subset _ _ _ hxx)]
              exact ht x (by unfold curtagsAll; exact List.mem_append_right _ hxx)) (hn.sublist hsl2) hnull.2
          show Sim _ (handleNodes fuel ds uni pfx fs ⟨v, b⟩) _
          simp only at h2
          cases hm2 : buildNodes fuel ds (uni.map (·.2)) c fs as b with
          | error e b' => rw [hm2] at h2; exact h2
          | ok c' b' =>
            rw [hm2] at h2
            obtain ⟨v', e', hc2, hx2⟩ := h2
            refine ⟨v', e', hc2, fun x h1 h2 => ?_⟩
            rw [List.mem_append, not_or] at h2
            rw [hx2 x h1 h2.2, hx x h1 h2.1]

end

/-! ## The whole constructor -/

/-- What `__new` computes when its local variables are distinct. -/
def buildNew (fuel : Nat) (S : Schema) (args : List Arg) : Py Bytes :=
  match buildNodes fuel S.dataWords S.union false S.fields args (List.replicate ((S.dataWords + S.ptrs) * 8) 0) with
  | .ok _ b => .ok b
  | .error e _ => .error e

theorem varname_root (name : String) : varname "" name = name := by unfold varname; rw [if_pos rfl]

theorem bindParams_eq (fs : List Field) : ∀ (as : List Arg) (fr : Frame),
    as.length = fs.length →
    Schema.bindParams fs as fr = unpack (fs.map fun f => f.name) as fr := by
  induction fs with
  | nil => intro as fr h; cases as with
    | nil => rfl
    | cons _ _ => simp at h
  | cons f fs ih =>
    intro as fr h
    cases as with
    | nil => simp at h
    | cons a as => exact ih as _ (by simpa using h)

theorem initCurtags_vars : ∀ (xs : List String) (fr : Frame),
    (Schema.initCurtags xs fr).buf = fr.buf ∧ (∀ x, x ∈ xs → (Schema.initCurtags xs fr).vars x = some .none) ∧
    (∀ x, x ∉ xs → (Schema.initCurtags xs fr).vars x = fr.vars x) := by
  intro xs
  induction xs with
  | nil => intro fr; exact ⟨rfl, by simp, fun _ _ => rfl⟩
  | cons y ys ih =>
    intro fr
    obtain ⟨h1, h2, h3⟩ := ih (fr.set y .none)
    refine ⟨h1, ?_, ?_⟩
    · intro x hx
      show (Schema.initCurtags ys (fr.set y .none)).vars x = _
      by_cases hy : x ∈ ys
      · exact h2 x hy
      · rw [h3 x hy]
        rcases List.mem_cons.mp hx with rfl | h
        · exact Frame.set_same _ _ _
        · exact absurd h hy
    · intro x hx
      rw [List.mem_cons, not_or] at hx
      show (Schema.initCurtags ys (fr.set y .none)).vars x = _
      rw [h3 x hx.2]
      exact Frame.set_ne _ _ hx.1

/-- The generated `__new` computes `buildNew` when its local variables are
distinct and it is given the right number of arguments. -/
theorem new_eq_build (fuel : Nat) (S : Schema) (args : List Arg) (hn : S.locals.Nodup)
    (hnull : NullablesOK S.fields) (hl : args.length = S.params.length) :
    S.new fuel args = buildNew fuel S args := by
  have huv : uniVars S.rootUnion = (match S.union with | some _ => [curtagVar "anonymous"] | none => []) := by
    unfold Schema.rootUnion; cases S.union <;> rfl
  have hloc : S.locals = "builder" :: "pos" :: (uniVars S.rootUnion ++ localsAll "" S.fields) := by
    rw [huv]; rfl
  rw [hloc] at hn
  obtain ⟨n1, n2, n3⟩ := nodup_parts hn
  have hfv : fieldVars "" S.fields = S.params.map fun f => f.name := by
    unfold fieldVars Schema.params
    simp only [varname_root]
  obtain ⟨v, u1, u2, u3⟩ := unpack_ok (pfx := "") S.fields args ⟨fun _ => none, []⟩
    (List.Nodup.sublist (fieldVars_sublist _ _) n2) (by rw [hfv, List.length_map]; exact hl)
  have hbp : Schema.bindParams S.params args ⟨fun _ => none, []⟩ = .ok ⟨v, []⟩ := by
    rw [bindParams_eq _ _ _ hl, ← hfv, u1]
  unfold Schema.new
  rw [hbp]
  show (handleNodes fuel S.dataWords S.rootUnion "" S.fields
    (Schema.initCurtags ((match S.union with | some _ => [curtagVar "anonymous"] | none => []) ++ curtagsAll "" S.fields)
      { (Frame.set { (Frame.set ⟨v, []⟩ "builder" .builder) with buf := newBuilder } "pos" (.int 0)) with
        buf := List.replicate ((S.dataWords + S.ptrs) * 8) 0 }) >>= fun fr => pure fr.buf) = _
  rw [← huv]
  generalize hfr : ({ (Frame.set { (Frame.set ⟨v, []⟩ "builder" .builder) with buf := newBuilder } "pos" (.int 0)) with
        buf := List.replicate ((S.dataWords + S.ptrs) * 8) 0 } : Frame) = fr
  have hb : BaseOK fr.vars ∧ (∀ x ∈ localsAll "" S.fields, fr.vars x = v x) ∧
      fr.buf = List.replicate ((S.dataWords + S.ptrs) * 8) 0 := by
    rw [← hfr]
    refine ⟨⟨by simp [Frame.set], by simp [Frame.set]⟩, ?_, rfl⟩
    intro x hx
    have := n3 x hx
    simp [Frame.set, this]
  obtain ⟨hb1, hb2, hb3⟩ := hb
  obtain ⟨i1, i2, i3⟩ := initCurtags_vars (uniVars S.rootUnion ++ curtagsAll "" S.fields) fr
  generalize hfr2 : Schema.initCurtags (uniVars S.rootUnion ++ curtagsAll "" S.fields) fr = fr2 at i1 i2 i3
  have hnot : ∀ x, x = "builder" ∨ x = "pos" → x ∉ uniVars S.rootUnion ++ curtagsAll "" S.fields := by
    intro x hx h
    rw [List.mem_append] at h
    rcases h with h | h
    · have := (n1 x h).2
      rcases hx with rfl | rfl
      · exact this.1 rfl
      · exact this.2 rfl
    · have := n3 x (curtagsAll_subset _ _ _ h)
      rcases hx with rfl | rfl
      · exact this.1 rfl
      · exact this.2 rfl
  have hbase : BaseOK fr2.vars :=
    ⟨by rw [i3 _ (hnot _ (.inl rfl))]; exact hb1.1, by rw [i3 _ (hnot _ (.inr rfl))]; exact hb1.2⟩
  have hbound : Bound fr2.vars "" S.fields args := by
    refine bound_of_fieldVars u2 fun x hx => ?_
    rw [i3 x, hb2 x ((fieldVars_sublist _ _).subset hx)]
    intro h
    rw [List.mem_append] at h
    rcases h with h | h
    · exact (n1 x h).1 ((fieldVars_sublist _ _).subset hx)
    · exact curtag_not_fieldVar _ _ n2 x h hx
  have hcur : CurOK fr2.vars S.rootUnion false := by
    have : ∀ x ∈ uniVars S.rootUnion, fr2.vars x = some .none := fun x hx => i2 x (List.mem_append_left _ hx)
    cases hr : S.rootUnion with
    | none => trivial
    | some uo =>
      obtain ⟨u, off⟩ := uo
      rw [hr] at this
      exact this _ (by simp [uniVars])
  have := handleNodes_build fuel S.dataWords S.rootUnion "" false S.fields args fr2 hbase hbound hcur
    (fun x hx => i2 x (List.mem_append_right _ hx)) hn hnull
  have hum : S.rootUnion.map (·.2) = S.union := by
    unfold Schema.rootUnion; cases S.union <;> rfl
  rw [hum, i1, hb3] at this
  unfold buildNew
  cases hm : buildNodes fuel S.dataWords S.union false S.fields args
      (List.replicate ((S.dataWords + S.ptrs) * 8) 0) with
  | error e b =>
    rw [hm] at this
    rw [show handleNodes fuel S.dataWords S.rootUnion "" S.fields fr2 = _ from this]
    rfl
  | ok c b =>
    rw [hm] at this
    obtain ⟨v', e, -⟩ := this
    rw [e]
    rfl

end Capnpy
