import Verif.Model.CyCtor
import Verif.Proof.CtorBuild
import Verif.Props.Builder

/-!
# The compiled constructor without local variables

The counterpart of Proof/CtorBuild.lean for the compiled code.
-/

namespace Capnpy

/-- Compiled code which acts on a builder, with two outcomes. -/
abbrev KM (α : Type) := EStateM Fail Pyx.Builder α

def KM.of {α} (x : Pyx.PM α) : KM α := fun s =>
  match x s with
  | .ok a s => .ok a s
  | .exc e s => .error (.exc e) s
  | .ub => .error .ub s

def KM.lift {α} (x : Py α) : KM α := fun s =>
  match x with
  | .ok a => .ok a s
  | .error e => .error (.exc e) s

theorem KM.bind_ok {α β} {x : KM α} {f : α → KM β} {s s' : Pyx.Builder} {a : α} (h : x s = .ok a s') :
    (x >>= f) s = f a s' := by
  change EStateM.bind x f s = _
  unfold EStateM.bind; rw [h]

theorem KM.bind_error {α β} {x : KM α} {f : α → KM β} {s s' : Pyx.Builder} {e : Fail}
    (h : x s = .error e s') : (x >>= f) s = .error e s' := by
  change EStateM.bind x f s = _
  unfold EStateM.bind; rw [h]

section

variable (junk : Pyx.Builder → Nat → UInt8)

/-- The statements for one slot, on the value of its variable. -/
def buildSlotC (fuel ds : Nat) (ty : SlotType) (off : Nat) (dflt : Option Int) (a : Arg) : KM Unit :=
  match ty with
  | .void => pure ()
  | .text => KM.of (allocBytesArgC junk ((slotOffset ds ty off : Nat) : Int) a 1)
  | .data => KM.of (allocBytesArgC junk ((slotOffset ds ty off : Nat) : Int) a 0)
  | .struct => KM.of (copyStructArgC junk fuel ((slotOffset ds ty off : Nat) : Int) a)
  | .list it => KM.of (copyListArgC junk fuel it ((slotOffset ds ty off : Nat) : Int) a)
  | .anyPointer => KM.lift (.error .notImplemented)
  | .prim fmt => do KM.of (writeArgC fmt ((slotOffset ds ty off : Nat) : Int) (← KM.lift (xorArg dflt ty a)))
  | .enum => do KM.of (writeArgC .h ((slotOffset ds ty off : Nat) : Int) (← KM.lift (xorArg dflt ty a)))
  | .float fmt => do KM.of (writeFloatArgC fmt ((slotOffset ds ty off : Nat) : Int) (← KM.lift (xorArg dflt ty a)))
  | .bool => do KM.of (writeBoolArgC off (← KM.lift (xorArg dflt ty a)))

/-- The union check; `cur`: a member of the union has been set. -/
def guardedBC (union : Option Nat) (cur : Bool) (disc : Option Nat) (a : Arg) (body : KM Unit) : KM Bool :=
  match disc with
  | none => do body; pure cur
  | some tag =>
    match union with
    | none => KM.lift (.error .attributeError)
    | some off =>
      if a.isUndefined then pure cur
      else if cur then KM.lift (.error .typeError)
      else do
        KM.of (Pyx.writeGenericC .h ((off * 2 : Nat) : Int) tag)
        body
        pure true

mutual

def buildNodeC (fuel ds : Nat) (union : Option Nat) (cur : Bool) : Field → Arg → KM Bool
  | .slot _ _ disc ty off dflt, a => guardedBC union cur disc a (buildSlotC junk fuel ds ty off dflt a)
  | .group _ _ disc nullable gunion children, a =>
    guardedBC union cur disc a
      (if nullable then do
        let _ ← buildNodesC fuel ds gunion false children (nullableArgs children a)
      else
        match a with
        | .tuple as =>
          if as.length = (children.filter (!·.skipped)).length then do
            let _ ← buildNodesC fuel ds gunion false children as
          else KM.lift (.error .valueError)
        | _ => KM.lift (.error .typeError))

def buildNodesC (fuel ds : Nat) (union : Option Nat) (cur : Bool) : List Field → List Arg → KM Bool
  | [], _ => pure cur
  | f :: fs, as =>
    if f.skipped then buildNodesC fuel ds union cur fs as
    else
      match as with
      | [] => KM.lift (.error .valueError)
      | a :: as => do
        let cur ← buildNodeC fuel ds union cur f a
        buildNodesC fuel ds union cur fs as

end

/-- The frame computation `h` does what the builder computation did. -/
def SimC (r : EStateM.Result Fail Pyx.Builder Bool) (h : Except Fail FrameC)
    (P : (String → Option Arg) → Bool → Prop) : Prop :=
  match r with
  | .ok c b => ∃ v, h = .ok ⟨v, 0, b⟩ ∧ P v c
  | .error e _ => h = .error e

/-- The same for the body of a node. -/
def Sim0C (r : EStateM.Result Fail Pyx.Builder Unit) (h : Except Fail FrameC)
    (P : (String → Option Arg) → Prop) : Prop :=
  match r with
  | .ok _ b => ∃ v, h = .ok ⟨v, 0, b⟩ ∧ P v
  | .error e _ => h = .error e

theorem FrameC.get_ok {fr : FrameC} {x : String} {a : Arg} (h : fr.vars x = some a) : fr.get x = .ok a := by
  unfold FrameC.get; rw [h]

theorem FrameC.set_same (fr : FrameC) (x : String) (a : Arg) : (fr.set x a).vars x = some a := by
  simp [FrameC.set]

theorem FrameC.set_ne (fr : FrameC) {x y : String} (a : Arg) (h : y ≠ x) : (fr.set x a).vars y = fr.vars y := by
  simp [FrameC.set, h]

theorem FrameC.call_eq {α} {fr : FrameC} (h : fr.pos = 0) (m : Pyx.PM α) :
    fr.call m = match KM.of m fr.buf with
      | .ok _ b => .ok ⟨fr.vars, 0, b⟩
      | .error e _ => .error e := by
  unfold FrameC.call KM.of
  rw [← h]
  cases m fr.buf <;> rfl

/-- One slot. -/
theorem handleSlot_buildC (fuel ds : Nat) (var : String) (ty : SlotType) (off : Nat) (dflt : Option Int)
    (fr : FrameC) (a : Arg) (hb : fr.pos = 0) (hv : fr.vars var = some a) :
    Sim0C (buildSlotC junk fuel ds ty off dflt a fr.buf) (handleSlotC junk fuel ds var ty off dflt fr)
      (fun v => ∀ x, x ≠ var → v x = fr.vars x) := by
  have hget := FrameC.get_ok hv
  have hpos : ∀ (fr' : FrameC), fr'.pos = 0 → ∀ n : Nat, fr'.pos + (n : Int) = n := by
    intro fr' h n; rw [h, Int.zero_add]
  have ptr : ∀ (n : Nat) (m : Int → Arg → Pyx.PM Unit),
      Sim0C (KM.of (m (n : Int) a) fr.buf) (do fr.call (m (fr.pos + (n : Int)) (← fr.get var)))
        (fun v => ∀ x, x ≠ var → v x = fr.vars x) := by
    intro n m
    have e : (do fr.call (m (fr.pos + (n : Int)) (← fr.get var)) : Except Fail FrameC) = fr.call (m (n : Int) a) := by
      rw [hpos fr hb, hget]; rfl
    rw [e, FrameC.call_eq hb]
    cases KM.of (m (n : Int) a) fr.buf with
    | ok u b => exact ⟨fr.vars, rfl, fun _ _ => rfl⟩
    | error e b => rfl
  have num : ∀ (w : FrameC → Except Fail FrameC) (m : Arg → Pyx.PM Unit),
      (∀ fr' : FrameC, fr'.pos = 0 → ∀ a', fr'.vars var = some a' → w fr' = fr'.call (m a')) →
      Sim0C ((do KM.of (m (← KM.lift (xorArg dflt ty a))) : KM Unit) fr.buf)
        (do
            let a ← ofPy (xorArg dflt ty (← fr.get var))
            let fr := if dflt.isSome then fr.set var a else fr
            w fr : Except Fail FrameC) (fun v => ∀ x, x ≠ var → v x = fr.vars x) := by
    intro w m hw
    rw [hget]
    cases hx : xorArg dflt ty a with
    | error e =>
      show (do let a ← ofPy (xorArg dflt ty a); _ : Except Fail FrameC) = _
      rw [hx]; rfl
    | ok a' =>
      have hb' : (if dflt.isSome then fr.set var a' else fr).pos = 0 := by
        split
        · exact hb
        · exact hb
      have hv' : (if dflt.isSome then fr.set var a' else fr).vars var = some a' := by
        cases dflt with
        | none =>
          unfold xorArg at hx
          cases hx
          simpa using hv
        | some d => simp [FrameC.set_same]
      have hbuf : (if dflt.isSome then fr.set var a' else fr).buf = fr.buf := by
        split <;> rfl
      have hvars : ∀ x, x ≠ var → (if dflt.isSome then fr.set var a' else fr).vars x = fr.vars x := by
        intro x hx
        split
        · exact FrameC.set_ne _ _ hx
        · rfl
      have e : (do
            let a ← ofPy (xorArg dflt ty (← (Except.ok a : Except Fail Arg)))
            let fr := if dflt.isSome then fr.set var a else fr
            w fr : Except Fail FrameC) = (if dflt.isSome then fr.set var a' else fr).call (m a') := by
        show (do
            let a ← ofPy (xorArg dflt ty a)
            let fr := if dflt.isSome then fr.set var a else fr
            w fr : Except Fail FrameC) = _
        rw [hx]
        exact hw _ hb' a' hv'
      rw [e, FrameC.call_eq hb', hbuf]
      show Sim0C (KM.of (m a') fr.buf) _ _
      cases KM.of (m a') fr.buf with
      | ok u b => exact ⟨_, rfl, hvars⟩
      | error e b => rfl
  unfold handleSlotC buildSlotC
  cases ty with
  | void => exact ⟨fr.vars, by rw [← hb]; rfl, fun _ _ => rfl⟩
  | anyPointer => rfl
  | text => exact ptr _ fun i a => allocBytesArgC junk i a 1
  | data => exact ptr _ fun i a => allocBytesArgC junk i a 0
  | struct => exact ptr _ fun i a => copyStructArgC junk fuel i a
  | list it => exact ptr _ fun i a => copyListArgC junk fuel it i a
  | prim fmt =>
    refine num (fun fr => do fr.call (writeArgC fmt (fr.pos + (_ : Nat)) (← fr.get var))) (writeArgC fmt _) ?_
    intro fr' hb' a' hv'
    rw [hpos fr' hb', FrameC.get_ok hv']; rfl
  | enum =>
    refine num (fun fr => do fr.call (writeArgC .h (fr.pos + (_ : Nat)) (← fr.get var))) (writeArgC .h _) ?_
    intro fr' hb' a' hv'
    rw [hpos fr' hb', FrameC.get_ok hv']; rfl
  | float fmt =>
    refine num (fun fr => do fr.call (writeFloatArgC fmt (fr.pos + (_ : Nat)) (← fr.get var))) (writeFloatArgC fmt _) ?_
    intro fr' hb' a' hv'
    rw [hpos fr' hb', FrameC.get_ok hv']; rfl
  | bool =>
    refine num (fun fr => do fr.call (writeBoolArgC off (← fr.get var))) (writeBoolArgC off) ?_
    intro fr' hb' a' hv'
    rw [FrameC.get_ok hv']; rfl

/-- The body of a node agrees with the builder computation `m`, from every frame
that agrees with `vars` outside `U`, and changes only variables of `L`. -/
def BodyOKC (vars : String → Option Arg) (U L : List String) (body : FrameC → Except Fail FrameC) (m : KM Unit) :
    Prop :=
  ∀ fr : FrameC, fr.pos = 0 → (∀ x, x ∉ U → fr.vars x = vars x) →
    Sim0C (m fr.buf) (body fr) (fun v => ∀ x, x ∉ L → v x = fr.vars x)

theorem guarded_buildC {uni : Option (String × Nat)} {cur : Bool} {var name : String} {disc : Option Nat}
    {body : FrameC → Except Fail FrameC} {m : KM Unit} {fr : FrameC} {a : Arg} {L : List String}
    (hb : fr.pos = 0) (hv : fr.vars var = some a) (hc : CurOK fr.vars uni cur)
    (hU : ∀ x ∈ uniVars uni, x ∉ L ∧ x ≠ "builder" ∧ x ≠ "pos")
    (hbody : BodyOKC fr.vars (uniVars uni) L body m) :
    SimC (guardedBC (uni.map (·.2)) cur disc a m fr.buf) (guardedC uni var name disc body fr)
      (fun v c => CurOK v uni c ∧ ∀ x, x ∉ uniVars uni → x ∉ L → v x = fr.vars x) := by
  cases disc with
  | none =>
    unfold guardedBC guardedC
    simp only
    have := hbody fr hb (fun _ _ => rfl)
    cases hm : m fr.buf with
    | error e b =>
      rw [hm] at this
      rw [KM.bind_error hm]
      exact this
    | ok u b =>
      rw [hm] at this
      obtain ⟨v, e, hx⟩ := this
      rw [KM.bind_ok hm]
      refine ⟨v, e, ?_, fun x _ h => hx x h⟩
      cases uni with
      | none => trivial
      | some uo =>
        obtain ⟨u', off⟩ := uo
        have := (hU (curtagVar u') (by simp [uniVars])).1
        cases cur
        · show v (curtagVar u') = _
          rw [hx _ this]; exact hc
        · show ∃ s, v (curtagVar u') = _
          rw [hx _ this]; exact hc
  | some tag =>
    cases uni with
    | none => rfl
    | some uo =>
      obtain ⟨u, off⟩ := uo
      obtain ⟨k1, k2, k3⟩ := hU (curtagVar u) (by simp [uniVars])
      unfold guardedBC guardedC
      simp only [Option.map_some]
      rw [FrameC.get_ok hv]
      show SimC _ (if a.isUndefined = true then _ else _) _
      by_cases hu : a.isUndefined = true
      · rw [if_pos hu, if_pos hu]
        exact ⟨fr.vars, by rw [← hb]; rfl, hc, fun _ _ _ => rfl⟩
      · rw [if_neg hu, if_neg hu]
        cases cur with
        | true =>
          obtain ⟨s, hs⟩ := hc
          rw [FrameC.get_ok hs]
          rfl
        | false =>
          have hs : fr.vars (curtagVar u) = some .none := hc
          rw [FrameC.get_ok hs]
          have step : ∀ (k e : Except Fail FrameC),
              ((Except.ok Arg.none : Except Fail Arg) >>= fun cur => if cur.isNone = true then k else e) = k := by
            intro k e; rfl
          rw [step, if_neg (by simp)]
          have hb' : (fr.set (curtagVar u) (.str name)).pos = 0 := hb
          rw [FrameC.call_eq hb']
          have hbuf : (fr.set (curtagVar u) (.str name)).buf = fr.buf := rfl
          rw [hbuf]
          cases hw : KM.of (Pyx.writeGenericC .h ((off * 2 : Nat) : Int) (tag : Int)) fr.buf with
          | error e b => rw [KM.bind_error hw]; rfl
          | ok _ b =>
            rw [KM.bind_ok hw]
            have := hbody ⟨(fr.set (curtagVar u) (.str name)).vars, 0, b⟩ rfl (by
              intro x hx
              exact FrameC.set_ne _ _ (by simpa [uniVars] using hx))
            show SimC _ (body ⟨(fr.set (curtagVar u) (.str name)).vars, 0, b⟩) _
            simp only at this
            cases hm : m b with
            | error e b' => rw [hm] at this; rw [KM.bind_error hm]; exact this
            | ok _ b' =>
              rw [hm] at this
              obtain ⟨v, e, hx⟩ := this
              rw [KM.bind_ok hm]
              refine ⟨v, e, ⟨name, ?_⟩, ?_⟩
              · rw [hx _ k1]; exact FrameC.set_same _ _ _
              · intro x h1 h2
                rw [hx x h2]
                exact FrameC.set_ne _ _ (by simpa [uniVars] using h1)

theorem unpack_okC {pfx : String} : ∀ (fs : List Field) (as : List Arg) (fr : FrameC),
    (fieldVars pfx fs).Nodup → as.length = (fieldVars pfx fs).length →
    ∃ v, unpackC (fieldVars pfx fs) as fr = .ok ⟨v, fr.pos, fr.buf⟩ ∧
      Bound v pfx fs as ∧ ∀ x, x ∉ fieldVars pfx fs → v x = fr.vars x := by
  intro fs
  induction fs with
  | nil =>
    intro as fr _ hl
    cases as with
    | nil => exact ⟨fr.vars, rfl, rfl, fun _ _ => rfl⟩
    | cons _ _ => simp [fieldVars] at hl
  | cons f fs ih =>
    intro as fr hn hl
    by_cases hs : f.skipped = true
    · have e : fieldVars pfx (f :: fs) = fieldVars pfx fs := by simp [fieldVars, hs]
      rw [e] at hn hl ⊢
      simp only [Bound, hs, if_true]
      exact ih as fr hn hl
    · have e : fieldVars pfx (f :: fs) = varname pfx f.name :: fieldVars pfx fs := by
        simp [fieldVars, hs]
      rw [e] at hn hl ⊢
      cases as with
      | nil => simp at hl
      | cons a as =>
        obtain ⟨n1, n2⟩ := List.nodup_cons.mp hn
        obtain ⟨v, e1, e2, e3⟩ := ih as (fr.set (varname pfx f.name) a) n2 (by simpa using hl)
        refine ⟨v, e1, ?_, ?_⟩
        · unfold Bound
          rw [if_neg hs]
          refine ⟨?_, e2⟩
          rw [e3 _ n1]
          exact FrameC.set_same _ _ _
        · intro x hx
          simp only [List.mem_cons, not_or] at hx
          rw [e3 x hx.2]
          exact FrameC.set_ne _ _ hx.1

theorem unpack_badC {xs : List String} : ∀ {as : List Arg} {fr : FrameC}, as.length ≠ xs.length →
    unpackC xs as fr = .error (.exc .valueError) := by
  induction xs with
  | nil => intro as fr h; cases as with
    | nil => simp at h
    | cons _ _ => rfl
  | cons x xs ih =>
    intro as fr h
    cases as with
    | nil => rfl
    | cons a as => exact ih (by simpa using h)

mutual

/-- The code generated for a node does what `buildNodeC` does. -/
theorem handleNode_buildC (fuel ds : Nat) (uni : Option (String × Nat)) (pfx : String) (cur : Bool) :
    ∀ (f : Field) (a : Arg) (fr : FrameC), fr.pos = 0 → fr.vars (varname pfx f.name) = some a →
      CurOK fr.vars uni cur → (∀ x ∈ curtags pfx f, fr.vars x = some .none) →
      ("builder" :: "pos" :: (uniVars uni ++ localsNode pfx f)).Nodup → NullableOK f →
      SimC (buildNodeC junk fuel ds (uni.map (·.2)) cur f a fr.buf) (handleNodeC junk fuel ds uni pfx f fr)
        (fun v c => CurOK v uni c ∧ ∀ x, x ∉ uniVars uni → x ∉ localsNode pfx f → v x = fr.vars x)
  | .slot name code disc ty off dflt, a, fr, hb, hv, hc, _, hn, _ => by
    obtain ⟨n1, n2, n3⟩ := nodup_parts hn
    have hvl := n3 (varname pfx name) (by simp [localsNode])
    unfold buildNodeC handleNodeC
    refine guarded_buildC hb hv hc n1 ?_
    intro fr' hb' hfr'
    have hnu : ∀ x ∈ localsNode pfx (.slot name code disc ty off dflt), x ∉ uniVars uni :=
      fun x hx hu => (n1 x hu).1 hx
    have hbu : "builder" ∉ uniVars uni := fun h => (n1 _ h).2.1 rfl
    have hpu : "pos" ∉ uniVars uni := fun h => (n1 _ h).2.2 rfl
    have := handleSlot_buildC junk fuel ds (varname pfx name) ty off dflt fr' a
      hb' (by rw [hfr' _ (hnu _ (by simp [localsNode]))]; exact hv)
    cases hm : buildSlotC junk fuel ds ty off dflt a fr'.buf with
    | error e b => rw [hm] at this; exact this
    | ok u b =>
      rw [hm] at this
      obtain ⟨v, e, hx⟩ := this
      exact ⟨v, e, fun x h => hx x (by simpa [localsNode] using h)⟩
  | .group name code disc nullable union children, a, fr, hb, hv, hc, ht, hn, hnull => by
    obtain ⟨n1, n2, n3⟩ := nodup_parts hn
    have hvl := n3 (varname pfx name) (by simp [localsNode])
    unfold buildNodeC handleNodeC
    refine guarded_buildC hb hv hc n1 ?_
    intro fr' hb' hfr'
    have hnu : ∀ x ∈ localsNode pfx (.group name code disc nullable union children), x ∉ uniVars uni :=
      fun x hx hu => (n1 x hu).1 hx
    have hbu : "builder" ∉ uniVars uni := fun h => (n1 _ h).2.1 rfl
    have hpu : "pos" ∉ uniVars uni := fun h => (n1 _ h).2.2 rfl
    have hv' : fr'.vars (varname pfx name) = some a := by
      rw [hfr' _ (hnu _ (by simp [localsNode]))]; exact hv
    have ht' : ∀ x ∈ curtags pfx (.group name code disc nullable union children), fr'.vars x = some .none := by
      intro x hx
      rw [hfr' _ (hnu x (curtags_subset _ _ _ hx))]
      exact ht x hx
    -- the children, from a frame where their variables are bound
    have hloc : localsNode pfx (.group name code disc nullable union children)
        = varname pfx name :: (uniVars (groupUnion (varname pfx name) union) ++ localsAll (varname pfx name) children) := by
      cases union <;> simp [localsNode, groupUnion, uniVars]
    have hcur : curtags pfx (.group name code disc nullable union children)
        = uniVars (groupUnion (varname pfx name) union) ++ curtagsAll (varname pfx name) children := by
      cases union <;> simp [curtags, groupUnion, uniVars]
    rw [hloc] at n2 n3
    obtain ⟨m1, m2⟩ := List.nodup_cons.mp n2
    have hchild : ∀ (as : List Arg) (fr2 : FrameC),
        (∀ x, x ∉ localsAll (varname pfx name) children → fr2.vars x = fr'.vars x) →
        (∀ x ∈ curtagsAll (varname pfx name) children, fr2.vars x = some .none) →
        Bound fr2.vars (varname pfx name) children as → fr2.pos = 0 → fr2.buf = fr'.buf →
        Sim0C ((do let _ ← buildNodesC junk fuel ds union false children as : KM Unit) fr'.buf)
          (handleNodesC junk fuel ds (groupUnion (varname pfx name) union) (varname pfx name) children fr2)
          (fun v => ∀ x, x ∉ localsNode pfx (.group name code disc nullable union children) → v x = fr'.vars x) := by
      intro as fr2 hf2 htag hbound hb2 hbuf
      have hnd : ("builder" :: "pos" :: (uniVars (groupUnion (varname pfx name) union)
          ++ localsAll (varname pfx name) children)).Nodup := by
        refine List.nodup_cons.mpr ⟨?_, List.nodup_cons.mpr ⟨?_, m2⟩⟩
        · intro h
          rcases List.mem_cons.mp h with h | h
          · exact absurd h (by decide)
          · exact (n3 _ (List.mem_cons_of_mem _ h)).1 rfl
        · intro h
          exact (n3 _ (List.mem_cons_of_mem _ h)).2 rfl
      obtain ⟨q1, q2, q3⟩ := nodup_parts hnd
      have hc2 : CurOK fr2.vars (groupUnion (varname pfx name) union) false := by
        cases union with
        | none => trivial
        | some off =>
          show fr2.vars (curtagVar (varname pfx name)) = _
          rw [hf2 _ (q1 _ (by simp [groupUnion, uniVars])).1]
          exact ht' _ (by rw [hcur]; simp [groupUnion, uniVars])
      have := handleNodes_buildC fuel ds (groupUnion (varname pfx name) union) (varname pfx name) false children
        as fr2 hb2 hbound hc2 htag hnd hnull.2
      have hum : (groupUnion (varname pfx name) union).map (·.2) = union := by cases union <;> rfl
      rw [hum, hbuf] at this
      cases hm : buildNodesC junk fuel ds union false children as fr'.buf with
      | error e b => rw [hm] at this; rw [KM.bind_error hm]; exact this
      | ok c b =>
        rw [hm] at this
        obtain ⟨v, e, hcc, hx⟩ := this
        rw [KM.bind_ok hm]
        refine ⟨v, e, fun x h => ?_⟩
        rw [hloc] at h
        simp only [List.mem_cons, List.mem_append, not_or] at h
        rw [hx x h.2.1 h.2.2, hf2 x h.2.2]
    have htagsub : ∀ x, x ∈ curtagsAll (varname pfx name) children → fr'.vars x = some .none := fun x hx =>
      ht' x (by rw [hcur]; simp [hx])
    by_cases hnl : nullable = true
    · rw [if_pos hnl]
      simp only [if_pos hnl]
      obtain ⟨hname, c1, c2, rfl, e1, e2, s1, s2⟩ := hnull.1 hnl
      have hla : localsAll (varname pfx name) [c1, c2]
          = localsNode (varname pfx name) c1 ++ (localsNode (varname pfx name) c2 ++ []) := by
        simp [localsAll, s1, s2]
      have w1 : varname (varname pfx name) c1.name ∈ localsNode (varname pfx name) c1 := by
        cases c1 <;> simp [localsNode, Field.name]
      have w2 : varname (varname pfx name) c2.name ∈ localsNode (varname pfx name) c2 := by
        cases c2 <;> simp [localsNode, Field.name]
      have hne : varname pfx name ≠ "" := varname_ne_empty hname
      have v1 : varname (varname pfx name) c1.name = varname pfx name ++ "_is_null" := by
        rw [varname_group hne, e1, String.append_assoc]; rfl
      have v2 : varname (varname pfx name) c2.name = varname pfx name ++ "_value" := by
        rw [varname_group hne, e2, String.append_assoc]; rfl
      rw [v1] at w1
      rw [v2] at w2
      have hnd2 := (List.nodup_append.mp m2).2.1
      rw [hla] at hnd2
      have hdis := (List.nodup_append.mp hnd2).2.2
      have hne12 : varname pfx name ++ "_is_null" ≠ varname pfx name ++ "_value" :=
        hdis _ w1 _ (by simp [w2])
      have hsub : ∀ x ∈ curtagsAll (varname pfx name) [c1, c2],
          x ≠ varname pfx name ++ "_is_null" ∧ x ≠ varname pfx name ++ "_value" := by
        intro x hx
        have hc1 : ∀ c : Field, curtags (varname pfx name) c ⊆ (localsNode (varname pfx name) c).tail := by
          intro c y hy
          cases c with
          | slot => simp [curtags] at hy
          | group n _ _ _ u ch =>
            simp only [curtags, List.mem_append] at hy
            simp only [localsNode, List.tail_cons, List.mem_append]
            rcases hy with hy | hy
            · exact .inl hy
            · exact .inr (curtagsAll_subset _ _ _ hy)
        have hh : ∀ c : Field, localsNode (varname pfx name) c
            = varname (varname pfx name) c.name :: (localsNode (varname pfx name) c).tail := by
          intro c; cases c <;> simp [localsNode, Field.name]
        have d1 := hh c1
        have d2 := hh c2
        rw [v1] at d1
        rw [v2] at d2
        simp only [curtagsAll, List.append_nil, List.mem_append] at hx
        have nd1 := (List.nodup_append.mp hnd2).1
        have nd2 := (List.nodup_append.mp hnd2).2.1
        simp only [List.append_nil] at nd2 hdis
        rw [d1] at nd1
        rw [d2] at nd2
        rcases hx with hx | hx
        · refine ⟨?_, ?_⟩
          · rintro rfl; exact (List.nodup_cons.mp nd1).1 (hc1 _ hx)
          · rintro rfl; exact hdis _ (curtags_subset _ _ _ hx) _ w2 rfl
        · refine ⟨?_, ?_⟩
          · rintro rfl; exact hdis _ w1 _ (curtags_subset _ _ _ hx) rfl
          · rintro rfl; exact (List.nodup_cons.mp nd2).1 (hc1 _ hx)
      have go : ∀ (x y : Arg),
          Sim0C ((do let _ ← buildNodesC junk fuel ds union false [c1, c2] [x, y] : KM Unit) fr'.buf)
            (handleNodesC junk fuel ds (groupUnion (varname pfx name) union) (varname pfx name) [c1, c2]
                ((fr'.set (varname pfx name ++ "_is_null") x).set (varname pfx name ++ "_value") y))
            (fun v => ∀ x, x ∉ localsNode pfx (.group name code disc nullable union [c1, c2]) → v x = fr'.vars x) := by
        intro x y
        refine hchild [x, y] _ ?_ ?_ ?_ hb' rfl
        · intro z hz
          rw [hla] at hz
          simp only [List.mem_append, not_or] at hz
          rw [FrameC.set_ne _ _ (by rintro rfl; exact hz.2.1 w2), FrameC.set_ne _ _ (by rintro rfl; exact hz.1 w1)]
        · intro z hz
          rw [FrameC.set_ne _ _ (hsub z hz).2, FrameC.set_ne _ _ (hsub z hz).1]
          exact htagsub z hz
        · simp only [Bound, s1, s2]
          refine ⟨?_, ?_, trivial⟩
          · rw [v1, FrameC.set_ne _ _ hne12]; exact FrameC.set_same _ _ _
          · rw [v2]; exact FrameC.set_same _ _ _
      unfold nullableVarsC nullableArgs
      rw [FrameC.get_ok hv']
      by_cases han : a.isNone = true
      · rw [if_pos han]
        have := go (.int 1) (((defaultArgs none [c1, c2])[1]?).getD .none)
        simpa [han, bind, Except.bind, pure, Except.pure] using this
      · rw [if_neg han]
        have := go (.int 0) a
        simpa [han, bind, Except.bind, pure, Except.pure] using this
    · rw [if_neg hnl]
      simp only [if_neg hnl]
      rw [FrameC.get_ok hv']
      cases a with
      | tuple as =>
        show Sim0C ((if as.length = (children.filter (!·.skipped)).length then _ else _ : KM Unit) _) (do
            let fr ← unpackC (fieldVars (varname pfx name) children) as fr'
            handleNodesC junk fuel ds (groupUnion (varname pfx name) union) (varname pfx name) children fr) _
        have hlen : (fieldVars (varname pfx name) children).length = (children.filter (!·.skipped)).length := by
          simp [fieldVars]
        by_cases hl : as.length = (children.filter (!·.skipped)).length
        · rw [if_pos hl]
          have hnd2 := (List.nodup_append.mp m2).2.1
          obtain ⟨v, u1, u2, u3⟩ := unpack_okC (pfx := varname pfx name) children as fr'
            (List.Nodup.sublist (fieldVars_sublist _ _) hnd2) (by omega)
          rw [u1]
          refine hchild as ⟨v, fr'.pos, fr'.buf⟩ ?_ ?_ u2 hb' rfl
          · intro x hx
            exact u3 x (fun h => hx ((fieldVars_sublist _ _).subset h))
          · intro x hx
            show v x = _
            rw [u3 x (fun h => curtag_not_fieldVar _ _ hnd2 x hx h)]
            exact htagsub x hx
        · rw [if_neg hl, unpack_badC (by omega)]
          rfl
      | undefined => rfl
      | none => rfl
      | int _ => rfl
      | bool _ => rfl
      | float _ => rfl
      | bytes _ => rfl
      | struct _ => rfl
      | list _ => rfl
      | builder => rfl
      | str _ => rfl

theorem handleNodes_buildC (fuel ds : Nat) (uni : Option (String × Nat)) (pfx : String) (cur : Bool) :
    ∀ (fs : List Field) (as : List Arg) (fr : FrameC), fr.pos = 0 → Bound fr.vars pfx fs as →
      CurOK fr.vars uni cur → (∀ x ∈ curtagsAll pfx fs, fr.vars x = some .none) →
      ("builder" :: "pos" :: (uniVars uni ++ localsAll pfx fs)).Nodup → NullablesOK fs →
      SimC (buildNodesC junk fuel ds (uni.map (·.2)) cur fs as fr.buf) (handleNodesC junk fuel ds uni pfx fs fr)
        (fun v c => CurOK v uni c ∧ ∀ x, x ∉ uniVars uni → x ∉ localsAll pfx fs → v x = fr.vars x)
  | [], as, fr, hb, hv, hc, ht, hn, hnull => by
    unfold buildNodesC handleNodesC
    exact ⟨fr.vars, by rw [← hb]; rfl, hc, fun _ _ _ => rfl⟩
  | f :: fs, as, fr, hb, hv, hc, ht, hn, hnull => by
    by_cases hs : f.skipped = true
    · have e1 : localsAll pfx (f :: fs) = localsAll pfx fs := by
        conv_lhs => unfold localsAll
        rw [if_pos hs]
      have e2 : Bound fr.vars pfx fs as := by
        unfold Bound at hv; rw [if_pos hs] at hv; exact hv
      have ht2 : ∀ x ∈ curtagsAll pfx fs, fr.vars x = some .none := by
        intro x hx; apply ht; unfold curtagsAll; exact List.mem_append_right _ hx
      rw [e1] at hn ⊢
      unfold buildNodesC handleNodesC
      rw [if_pos hs, if_pos hs]
      exact handleNodes_buildC fuel ds uni pfx cur fs as fr hb e2 hc ht2 hn hnull.2
    · have e1 : localsAll pfx (f :: fs) = localsNode pfx f ++ localsAll pfx fs := by
        conv_lhs => unfold localsAll
        rw [if_neg hs]
      rw [e1] at hn ⊢
      unfold Bound at hv
      rw [if_neg hs] at hv
      unfold buildNodesC handleNodesC
      rw [if_neg hs, if_neg hs]
      cases as with
      | nil => exact hv.elim
      | cons a as =>
        obtain ⟨hv1, hv2⟩ := hv
        obtain ⟨n1, n2, n3⟩ := nodup_parts hn
        obtain ⟨p1, p2, p3⟩ := List.nodup_append.mp n2
        have hbu : "builder" ∉ uniVars uni := fun h => (n1 _ h).2.1 rfl
        have hpu : "pos" ∉ uniVars uni := fun h => (n1 _ h).2.2 rfl
        have hbl : "builder" ∉ localsNode pfx f := fun h => (n3 _ (List.mem_append_left _ h)).1 rfl
        have hpl : "pos" ∉ localsNode pfx f := fun h => (n3 _ (List.mem_append_left _ h)).2 rfl
        have hsl1 : ("builder" :: "pos" :: (uniVars uni ++ localsNode pfx f)).Sublist
            ("builder" :: "pos" :: (uniVars uni ++ (localsNode pfx f ++ localsAll pfx fs))) := by
          rw [← List.append_assoc]
          exact ((List.sublist_append_left _ _).cons_cons _).cons_cons _
        have hsl2 : ("builder" :: "pos" :: (uniVars uni ++ localsAll pfx fs)).Sublist
            ("builder" :: "pos" :: (uniVars uni ++ (localsNode pfx f ++ localsAll pfx fs))) :=
          ((List.Sublist.append_left (List.sublist_append_right _ _) _).cons_cons _).cons_cons _
        have h1 := handleNode_buildC fuel ds uni pfx cur f a fr hb hv1 hc
          (fun x hx => ht x (by unfold curtagsAll; exact List.mem_append_left _ hx)) (hn.sublist hsl1) hnull.1
        show SimC ((buildNodeC junk fuel ds (uni.map (·.2)) cur f a >>= fun cur =>
          buildNodesC junk fuel ds (uni.map (·.2)) cur fs as) fr.buf) _ _
        cases hm : buildNodeC junk fuel ds (uni.map (·.2)) cur f a fr.buf with
        | error e b =>
          rw [hm] at h1
          rw [KM.bind_error hm, show handleNodeC junk fuel ds uni pfx f fr = _ from h1]
          rfl
        | ok c b =>
          rw [hm] at h1
          obtain ⟨v, e, hc', hx⟩ := h1
          rw [KM.bind_ok hm, e]
          have hx' : ∀ x ∈ localsAll pfx fs, v x = fr.vars x := by
            intro x hxx
            refine hx x (fun hu => (n1 x hu).1 (List.mem_append_right _ hxx)) ?_
            intro hl; exact p3 x hl x hxx rfl
          have h2 := handleNodes_buildC fuel ds uni pfx c fs as ⟨v, 0, b⟩
            rfl
            (hv2.congr hx') hc' (by
              intro x hxx
              show v x = _
              rw [hx' x (curtagsAll_subset _ _ _ hxx)]
              exact ht x (by unfold curtagsAll; exact List.mem_append_right _ hxx)) (hn.sublist hsl2) hnull.2
          show SimC _ (handleNodesC junk fuel ds uni pfx fs ⟨v, 0, b⟩) _
          simp only at h2
          cases hm2 : buildNodesC junk fuel ds (uni.map (·.2)) c fs as b with
          | error e b' => rw [hm2] at h2; exact h2
          | ok c' b' =>
            rw [hm2] at h2
            obtain ⟨v', e', hc2, hx2⟩ := h2
            refine ⟨v', e', hc2, fun x h1 h2 => ?_⟩
            rw [List.mem_append, not_or] at h2
            rw [hx2 x h1 h2.2, hx x h1 h2.1]

end
/-- What the compiled `__new` computes when its local variables are distinct. -/
def buildNewC (fuel : Nat) (S : Schema) (args : List Arg) : Except Fail Bytes :=
  match (do
      let _ ← KM.of (Pyx.allocateC junk (((S.dataWords + S.ptrs) * 8 : Nat) : Int))
      buildNodesC junk fuel S.dataWords S.union false S.fields args : KM Bool) (Pyx.new 512) with
  | .ok _ b => .ok (Pyx.asString b)
  | .error e _ => .error e

theorem bindParams_eqC (fs : List Field) : ∀ (as : List Arg) (fr : FrameC),
    as.length = fs.length →
    Schema.bindParamsC fs as fr = unpackC (fs.map fun f => f.name) as fr := by
  induction fs with
  | nil => intro as fr h; cases as with
    | nil => rfl
    | cons _ _ => simp at h
  | cons f fs ih =>
    intro as fr h
    cases as with
    | nil => simp at h
    | cons a as => exact ih as _ (by simpa using h)

theorem initCurtags_varsC : ∀ (xs : List String) (fr : FrameC),
    (Schema.initCurtagsC xs fr).buf = fr.buf ∧ (∀ x, x ∈ xs → (Schema.initCurtagsC xs fr).vars x = some .none) ∧
    (∀ x, x ∉ xs → (Schema.initCurtagsC xs fr).vars x = fr.vars x) ∧ (Schema.initCurtagsC xs fr).pos = fr.pos := by
  intro xs
  induction xs with
  | nil => intro fr; exact ⟨rfl, by simp, fun _ _ => rfl, rfl⟩
  | cons y ys ih =>
    intro fr
    obtain ⟨h1, h2, h3, h4⟩ := ih (fr.set y .none)
    refine ⟨h1, ?_, ?_, h4⟩
    · intro x hx
      show (Schema.initCurtagsC ys (fr.set y .none)).vars x = _
      by_cases hy : x ∈ ys
      · exact h2 x hy
      · rw [h3 x hy]
        rcases List.mem_cons.mp hx with rfl | h
        · exact FrameC.set_same _ _ _
        · exact absurd h hy
    · intro x hx
      rw [List.mem_cons, not_or] at hx
      show (Schema.initCurtagsC ys (fr.set y .none)).vars x = _
      rw [h3 x hx.2]
      exact FrameC.set_ne _ _ hx.1

/-- The first allocation of a new builder. -/
theorem allocateC_new (n : Nat) : ∃ s, Pyx.allocateC junk (n : Int) (Pyx.new 512) = .ok 0 s ∧
    Props.Repr s (List.replicate n 0) := by
  obtain ⟨s, e1, e2⟩ := Props.repr_allocate (Props.repr_new 512) (junk (Pyx.new 512)) n
  refine ⟨s, ?_, by simpa using e2⟩
  have e1 : Pyx.allocate (junk (Pyx.new 512)) (Pyx.new 512) (n : Int) = some (0, s) := e1
  unfold Pyx.allocateC Pyx.PM.ofOptionR
  simp only [e1]

/-- The compiled `__new` computes `buildNewC` when its local variables are distinct and it is
given the right number of arguments. -/
theorem new_eq_buildC (fuel : Nat) (S : Schema) (args : List Arg) (hn : S.locals.Nodup)
    (hnull : NullablesOK S.fields) (hl : args.length = S.params.length) :
    S.newC junk fuel args = buildNewC junk fuel S args := by
  have huv : uniVars S.rootUnion = (match S.union with | some _ => [curtagVar "anonymous"] | none => []) := by
    unfold Schema.rootUnion; cases S.union <;> rfl
  have hloc : S.locals = "builder" :: "pos" :: (uniVars S.rootUnion ++ localsAll "" S.fields) := by
    rw [huv]; rfl
  rw [hloc] at hn
  obtain ⟨n1, n2, n3⟩ := nodup_parts hn
  have hfv : fieldVars "" S.fields = S.params.map fun f => f.name := by
    unfold fieldVars Schema.params
    simp only [varname_root]
  obtain ⟨v, u1, u2, u3⟩ := unpack_okC (pfx := "") S.fields args ⟨fun _ => none, 0, Pyx.new 512⟩
    (List.Nodup.sublist (fieldVars_sublist _ _) n2) (by rw [hfv, List.length_map]; exact hl)
  have hbp : Schema.bindParamsC S.params args ⟨fun _ => none, 0, Pyx.new 512⟩ = .ok ⟨v, 0, Pyx.new 512⟩ := by
    rw [bindParams_eqC _ _ _ hl, ← hfv, u1]
  obtain ⟨s, ea, -⟩ := allocateC_new junk ((S.dataWords + S.ptrs) * 8)
  have hnew : S.newC junk fuel args = (handleNodesC junk fuel S.dataWords S.rootUnion "" S.fields
    (Schema.initCurtagsC (uniVars S.rootUnion ++ curtagsAll "" S.fields) ⟨v, 0, s⟩) >>= fun fr =>
      pure (Pyx.asString fr.buf)) := by
    unfold Schema.newC
    rw [hbp]
    simp only [bind, Except.bind, ea, huv]
    cases S.union <;> rfl
  rw [hnew]
  obtain ⟨i1, i2, i3, i4⟩ := initCurtags_varsC (uniVars S.rootUnion ++ curtagsAll "" S.fields) ⟨v, 0, s⟩
  generalize hfr2 : Schema.initCurtagsC (uniVars S.rootUnion ++ curtagsAll "" S.fields) ⟨v, 0, s⟩ = fr2 at i1 i2 i3 i4
  have hbound : Bound fr2.vars "" S.fields args := by
    refine bound_of_fieldVars u2 fun x hx => ?_
    rw [i3 x]
    intro h
    rw [List.mem_append] at h
    rcases h with h | h
    · exact (n1 x h).1 ((fieldVars_sublist _ _).subset hx)
    · exact curtag_not_fieldVar _ _ n2 x h hx
  have hcur : CurOK fr2.vars S.rootUnion false := by
    have : ∀ x ∈ uniVars S.rootUnion, fr2.vars x = some .none := fun x hx => i2 x (List.mem_append_left _ hx)
    cases hr : S.rootUnion with
    | none => trivial
    | some uo =>
      obtain ⟨u, off⟩ := uo
      rw [hr] at this
      exact this _ (by simp [uniVars])
  have := handleNodes_buildC junk fuel S.dataWords S.rootUnion "" false S.fields args fr2 i4 hbound hcur
    (fun x hx => i2 x (List.mem_append_right _ hx)) hn hnull
  have hum : S.rootUnion.map (·.2) = S.union := by
    unfold Schema.rootUnion; cases S.union <;> rfl
  rw [hum, i1] at this
  unfold buildNewC
  have ek : KM.of (Pyx.allocateC junk (((S.dataWords + S.ptrs) * 8 : Nat) : Int)) (Pyx.new 512) = .ok 0 s := by
    unfold KM.of; rw [ea]
  rw [KM.bind_ok ek]
  cases hm : buildNodesC junk fuel S.dataWords S.union false S.fields args s with
  | error e b =>
    rw [hm] at this
    rw [show handleNodesC junk fuel S.dataWords S.rootUnion "" S.fields fr2 = _ from this]
    rfl
  | ok c b =>
    rw [hm] at this
    obtain ⟨v', e, -⟩ := this
    rw [e]
    rfl

end

end Capnpy
