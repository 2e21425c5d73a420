import Verif.Proof.ReprEmit
import Verif.Props.Repr
import Verif.Props.StructEmit

/-!
# C79: `shortrepr()`, `is_x()` and `has_x()`, from the struct nodes of the request

`emitReprClass` is what the compiler writes for a struct node; `Mod.shortrepr` runs it, with the attributes found by name.
Spec/ReprEmit.lean says which class of Spec/Repr.lean a node describes.
-/

namespace Capnpy.Props

open Spec StructEmit ReprEmit Short
open Const (STy TextType PyVal)
open Module (Str Gen)
open FieldEmit (Slot Getter Ctx emitGetter tag)
open Capnpy.Repr (RItem Kind RField)

/-! ## Which structs have a class -/

theorem reprLines_ok : ∀ {fs : List SField}, (∃ ls, reprLines fs = .ok ls) ↔ ∀ f ∈ fs, f.nullable = true → ∃ id, f.kind = .group id
  | [] => ⟨fun _ => nofun, fun _ => ⟨[], rfl⟩⟩
  | f :: fs => by
    have ih := reprLines_ok (fs := fs)
    constructor
    · rintro ⟨ls, h⟩
      unfold reprLines at h
      obtain ⟨l, hl, h⟩ := py_inv h
      obtain ⟨ls, hls, h⟩ := py_inv h
      refine List.forall_mem_cons.mpr ⟨fun hn => ?_, ih.mp ⟨ls, hls⟩⟩
      obtain ⟨x, ⟨h1, -⟩ | ⟨-, -, hx⟩, -⟩ := guardLine hl
      · rw [hn] at h1; cases h1
      · exact hx
    · intro h
      obtain ⟨ls, hls⟩ := ih.mpr (fun q hq => h q (List.mem_cons_of_mem _ hq))
      have : ∃ l, reprLine f = .ok l := by
        unfold reprLine
        cases hn : f.nullable with
        | false => exact ⟨_, rfl⟩
        | true =>
          obtain ⟨id, hk⟩ := h f (by simp) hn
          rw [hk]
          exact ⟨_, rfl⟩
      obtain ⟨l, hl⟩ := this
      unfold reprLines
      rw [bind_okP hl, bind_okP hls]
      exact ⟨_, rfl⟩

theorem setTags_ok : ∀ {fs : List SField} {items : List (Option String)}, (∃ r, setTags fs items = .ok r) ↔
    ∀ f ∈ fs, f.inUnion = true → f.disc < items.length
  | [], items => ⟨fun _ => nofun, fun _ => ⟨items, rfl⟩⟩
  | f :: fs, items => by
    unfold setTags
    rw [List.forall_mem_cons]
    cases hu : f.inUnion with
    | false =>
      rw [if_neg (by decide)]
      rw [setTags_ok]
      exact ⟨fun h => ⟨nofun, h⟩, fun h => h.2⟩
    | true =>
      rw [if_pos rfl]
      by_cases hlt : f.disc < items.length
      · rw [if_pos hlt, setTags_ok, List.length_set]
        exact ⟨fun h => ⟨fun _ => hlt, h⟩, fun h => h.2⟩
      · rw [if_neg hlt]
        exact ⟨fun ⟨_, h⟩ => (by cases h), fun h => absurd (h.1 rfl) hlt⟩

/-- C79: the class can be emitted exactly if the properties of its fields can (C76_compiles, C77_nullable_check), only
groups are nullable, and the discriminants are less than their number. -/
theorem C79_emits (e : Env) (n : SNode) : (∃ c, emitReprClass e n = .ok c) ↔
    (∃ props, emitFields e n.fields = .ok props) ∧ (∀ f ∈ n.fields, f.nullable = true → ∃ id, f.kind = .group id) ∧
      (n.discCount ≠ 0 → ∀ f ∈ n.fields, f.inUnion = true → f.disc < n.discCount) := by
  have hitems : (∃ items, enumItems n = .ok items) ↔ (n.discCount ≠ 0 → ∀ f ∈ n.fields, f.inUnion = true → f.disc < n.discCount) := by
    unfold enumItems
    by_cases h0 : n.discCount = 0
    · rw [if_pos h0]; exact ⟨fun _ h => absurd h0 h, fun _ => ⟨_, rfl⟩⟩
    · rw [if_neg h0, setTags_ok, List.length_replicate]
      exact ⟨fun h _ => h, fun h => h h0⟩
  rw [← hitems, ← reprLines_ok]
  unfold emitReprClass
  constructor
  · rintro ⟨c, h⟩
    obtain ⟨items, h1, h⟩ := py_inv h
    obtain ⟨props, h2, h⟩ := py_inv h
    obtain ⟨lines, h3, h⟩ := py_inv h
    exact ⟨⟨_, h2⟩, ⟨_, h3⟩, ⟨_, h1⟩⟩
  · rintro ⟨⟨props, h2⟩, ⟨lines, h3⟩, items, h1⟩
    rw [bind_okP h1, bind_okP h2, bind_okP h3]
    exact ⟨_, rfl⟩

/-! ## The text -/

/-- C79: for every request, every struct or group and every object, valid or not, the emitted `shortrepr` does what
`shortrepr` of the class does which the node describes. -/
theorem C79_shortrepr {e : Env} {members : Nat → Option (Repr.Str × List String)} {M : Mod} (R : ReprOK e members M) :
    ∀ fuel id o, M.shortrepr fuel id o = Repr.shortrepr M.renv fuel id o
  | 0, _, _ => rfl
  | fuel + 1, id, o => by
    have ih : M.shortrepr fuel = Repr.shortrepr M.renv fuel := funext fun i => funext fun o => C79_shortrepr R fuel i o
    have key : runLines M (M.shortrepr fuel) (M.classes id) o (M.classes id).lines =
        Repr.reprFields M.renv (Repr.shortrepr M.renv fuel) o (M.renv.cls id).union (M.renv.cls id).fields := by
      rw [ih]
      cases hn : e.nodes id with
      | none =>
        obtain ⟨h1, h2⟩ := R.none id hn
        rw [h1, h2]
        rfl
      | some n =>
        obtain ⟨-, -, hu, hf⟩ := R.described id n hn
        have hem := R.emitted id n hn
        unfold emitReprClass at hem
        obtain ⟨items, -, hem⟩ := py_inv hem
        obtain ⟨props, -, hem⟩ := py_inv hem
        obtain ⟨lines, hl, hem⟩ := py_inv hem
        have hlines : (M.classes id).lines = lines := by rw [← Except.ok.inj hem]
        rw [hu, hlines]
        exact lines_same R hn o _ (fun f hf => hf) hf hl
    show (do
      let parts ← runLines M (M.shortrepr fuel) (M.classes id) o (M.classes id).lines
      pure (['('] ++ Repr.join parts ++ [')']) : Py Repr.Str) = _
    rw [key]
    rfl

/-- C79: the text of an object reads back as the tree of its value: all fields of the node, by their names in the schema,
without the null pointers and the members of the union which are not set. -/
theorem C79_parse {e : Env} {members : Nat → Option (Repr.Str × List String)} {M : Mod} (R : ReprOK e members M) (hE : Named M.renv)
    {fuel id : Nat} {v : Val} {t : Short.Tree} (h : treeOf true M.renv fuel id v = some t) {o : StructObj} (ho : Denotes o v) :
    ∃ s, M.shortrepr fuel id o = .ok s ∧ parse s = some t := by
  rw [C79_shortrepr R]
  exact C50_parse hE h ho

/-- C79: the text depends only on the value. -/
theorem C79_same_text {e : Env} {members : Nat → Option (Repr.Str × List String)} {M : Mod} (R : ReprOK e members M)
    {fuel id : Nat} {v : Val} {t : Short.Tree} (h : treeOf false M.renv fuel id v = some t) {o o' : StructObj} (ho : Denotes o v) (ho' : Denotes o' v) :
    ∃ s, M.shortrepr fuel id o = .ok s ∧ M.shortrepr fuel id o' = .ok s := by
  rw [C79_shortrepr R, C79_shortrepr R]
  exact C50_same_text h ho ho'

/-! ## The methods -/

/-- C79: `o.is_x()` for a member `x` of the union: is its discriminant the tag of the message? -/
theorem C79_is {e : Env} {members : Nat → Option (Repr.Str × List String)} {M : Mod} (R : ReprOK e members M) {id : Nat} {n : SNode}
    (hn : e.nodes id = some n) {f : SField} (hf : f ∈ n.fields) (hu : f.inUnion = true) (hd : f.disc < 2 ^ 15) {o : StructObj}
    {data : Bytes} {ptrs : List Val} (ho : Denotes o (.struct data ptrs)) :
    M.callBool (M.classes id) o ("is_" ++ f.pyname) = .ok (decide (tagOf data n.discOffset = f.disc)) := by
  obtain ⟨K, -⟩ := known R hn
  obtain ⟨-, h2⟩ := K.isTag f hf hu
  rw [← isMember_spec ho n.discOffset hd]
  unfold Mod.callBool
  rw [h2]
  rfl

/-- C79: `o.has_x()` for a pointer field `x`: is its pointer not null? -/
theorem C79_has {e : Env} {members : Nat → Option (Repr.Str × List String)} {M : Mod} (R : ReprOK e members M) {id : Nat} {n : SNode}
    (hn : e.nodes id = some n) {f : SField} (hf : f ∈ n.fields) {s : Slot} (hk : f.kind = .slot s)
    (hp : s.ty = .text ∨ s.ty = .data ∨ (∃ i, s.ty = .struct i) ∨ (∃ t, s.ty = .list t) ∨ s.ty = .anyPointer) {o : StructObj}
    {data : Bytes} {ptrs : List Val} (ho : Denotes o (.struct data ptrs)) :
    M.callBool (M.classes id) o ("has_" ++ f.pyname) = .ok (!isNull (child ptrs s.off)) := by
  have hhas : o.hasField ((s.off * 8 : Nat) : Int) = .ok (!isNull (child ptrs s.off)) := by
    obtain ⟨b, h1, h2⟩ := C11_has o data ptrs ho s.off
    rw [Nat.mul_comm s.off 8, h1]
    cases hc : child ptrs s.off <;> rw [hc] at h2 <;> cases b <;> simp_all [isNull]
  obtain ⟨-, hattr⟩ := known R hn
  obtain ⟨a, ha, hlook⟩ := hattr f hf
  have key : StructEmit.lookupLast ("has_" ++ f.pyname) (M.classes id).attrs = some (.has (s.off * 8)) := by
    rcases emitField_cases ha with ⟨s', code, c1, c2, rfl⟩ | ⟨gid, c1, -⟩ | ⟨gid, c1, -⟩
    · rw [hk] at c1
      cases c1
      have hl := fun q hq => hlook _ (List.Mem.head _) q hq
      obtain ⟨ty, off, d, ex⟩ := s
      have hg : (ex && !FieldEmit.defaultSupported ty) = false := by
        cases ex with
        | false => rfl
        | true =>
          have hh := ((C76_compiles _ _).mp ⟨code, c2⟩).1 rfl
          rw [(defaultSupported_iff ty).mpr hh]; rfl
      unfold emitGetter at c2
      simp only at c2
      rw [hg] at c2
      rcases hp with h | h | ⟨i, h⟩ | ⟨t, h⟩ | h
      · have h : ty = .text := h
        subst h
        have c2 : (if (f.tt == TextType.bytes) = true then pure (Getter.textBytes (off * 8))
          else if (f.tt == TextType.unicode) = true then pure (Getter.textUnicode (off * 8))
          else .error .notImplemented : Py Getter) = .ok code := c2
        split at c2
        · cases c2; exact hl ("has_" ++ f.pyname, .has (off * 8)) (List.Mem.tail _ (List.Mem.tail _ (List.Mem.head _)))
        · split at c2
          · cases c2; exact hl ("has_" ++ f.pyname, .has (off * 8)) (List.Mem.tail _ (List.Mem.tail _ (List.Mem.head _)))
          · cases c2
      · have h : ty = .data := h
        subst h
        have c2 := Except.ok.inj c2; subst c2
        exact hl ("has_" ++ f.pyname, .has (off * 8)) (List.Mem.tail _ (List.Mem.tail _ (List.Mem.head _)))
      · have h : ty = .struct i := h
        subst h
        have c2 : (do
          pure (Getter.struct (← (e.ctx f).g.runtimeName (e.ctx f).fuel (← (e.ctx f).g.node i)) (off * 8)) : Py Getter) = .ok code := c2
        obtain ⟨nd, -, c2⟩ := py_inv c2
        obtain ⟨nm, -, c2⟩ := py_inv c2
        have c2 := Except.ok.inj c2; subst c2
        exact hl ("has_" ++ f.pyname, .has (off * 8)) (List.Mem.tail _ (List.Mem.tail _ (List.Mem.head _)))
      · have h : ty = .list t := h
        subst h
        have c2 : (do
          pure (Getter.list (← Const.listItemType (e.ctx f).g (e.ctx f).pyx (e.ctx f).tt (e.ctx f).fuel t) (off * 8)) : Py Getter) = .ok code := c2
        obtain ⟨nm, -, c2⟩ := py_inv c2
        have c2 := Except.ok.inj c2; subst c2
        exact hl ("has_" ++ f.pyname, .has (off * 8)) (List.Mem.tail _ (List.Mem.tail _ (List.Mem.head _)))
      · have h : ty = .anyPointer := h
        subst h
        have c2 := Except.ok.inj c2; subst c2
        exact hl ("has_" ++ f.pyname, .has (off * 8)) (List.Mem.tail _ (List.Mem.head _))
    · rw [hk] at c1; cases c1
    · rw [hk] at c1; cases c1
  unfold Mod.callBool
  rw [key]
  exact hhas

/-! ## Example -/

/-- A struct with a number, a Bool, an enum, a struct, a union of a list and Void, and a group. -/
def reprNode : SNode := ⟨1, 2, 2, 1,
  [reqSlot "num" "num" 0 65535 (.prim .B) 0 (.int 0) false,
   reqSlot "isFlag" "is_flag" 1 65535 .bool 2 (.bool false) false,
   reqSlot "color" "color" 2 65535 (.enum 4) 3 (.int 1) true,
   reqSlot "sub" "sub" 3 65535 (.struct 3) 0 .none false,
   reqSlot "xs" "xs" 4 0 (.list (.prim .b)) 1 .none false,
   reqSlot "nothing" "nothing" 5 1 .void 0 .none false,
   ⟨"grp", "grp", 6, 65535, false, .bytes, .group 41⟩]⟩

/-- `grp :group` -/
def reprGroup : SNode := ⟨1, 2, 0, 0, [reqSlot "num2" "num2" 6 65535 (.prim .b) 0 (.int (-1)) true]⟩

def reprNodes : Nat → Option SNode
  | 40 => some reprNode
  | 41 => some reprGroup
  | _ => none

def reprReq : Env := ⟨genOf exFile, false, 10, reprNodes⟩

def reprMembers : Nat → Option (Repr.Str × List String) := fun i => if i = 4 then some ("Color".toList, ["red", "green"]) else none

def reprClassOf (n : SNode) : ReprClass := ((emitReprClass reprReq n).toOption).getD ⟨[], none, []⟩

def reprClasses : Nat → ReprClass
  | 40 => reprClassOf reprNode
  | 41 => reprClassOf reprGroup
  | _ => ⟨[], none, []⟩

/-- The classes, described as in C50. -/
def reprSpecs : Nat → Repr.Cls
  | 40 => ⟨1, 2, some 1, [⟨"num".toList, none, .prim .B 0 none⟩, ⟨"isFlag".toList, none, .bool 2 none⟩,
      ⟨"color".toList, none, .enum ["red", "green"] 3 (some 1)⟩, ⟨"sub".toList, none, .struct 3 0⟩,
      ⟨"xs".toList, some 0, .list (.prim .b) 1⟩, ⟨"nothing".toList, some 1, .void⟩, ⟨"grp".toList, none, .group 41 false⟩]⟩
  | 41 => ⟨1, 2, none, [⟨"num2".toList, none, .prim .b 0 (some (-1))⟩]⟩
  | _ => ⟨0, 0, none, []⟩

def reprMod : Mod where
  classes := reprClasses
  structs _ := some 3
  enums _ := some ["red", "green"]
  items _ := some (.prim .b)
  renv := { cls := reprSpecs, floatRepr := fun _ _ => "0.0".toList }

theorem reprNodes_cases {P : Nat → SNode → Prop} (h1 : P 40 reprNode) (h2 : P 41 reprGroup) : ∀ id n, reprReq.nodes id = some n → P id n := by
  intro id n h
  have h : reprNodes id = some n := h
  unfold reprNodes at h
  split at h
  · cases h; exact h1
  · cases h; exact h2
  · cases h

theorem reprMod_ok : ReprOK reprReq reprMembers reprMod where
  emitted := reprNodes_cases rfl rfl
  described := by
    refine reprNodes_cases ?_ ?_
    · refine ⟨rfl, rfl, rfl, ?_⟩
      show List.Forall₂ _ reprNode.fields _
      repeat' first
        | exact List.Forall₂.nil
        | refine List.Forall₂.cons ⟨rfl, rfl, rfl⟩ ?_
    · refine ⟨rfl, rfl, rfl, ?_⟩
      exact List.Forall₂.cons ⟨rfl, rfl, rfl⟩ List.Forall₂.nil
  none := by
    intro id h
    have h : reprNodes id = none := h
    unfold reprNodes at h
    split at h
    · cases h
    · cases h
    · rename_i h1 h2
      constructor
      · show (reprClasses id).lines = []
        unfold reprClasses
        split
        · exact absurd rfl h1
        · exact absurd rfl h2
        · rfl
      · show (reprSpecs id).fields = []
        unfold reprSpecs
        split
        · exact absurd rfl h1
        · exact absurd rfl h2
        · rfl
  slots := by
    have slot : ∀ cname pyname code disc t off d ex, DefaultOK ⟨t, off, d, ex⟩ → ZeroDefault ⟨t, off, d, ex⟩ →
        ∀ s, (reqSlot cname pyname code disc t off d ex).kind = .slot s → DefaultOK s ∧ ZeroDefault s := by
      intro cname pyname code disc t off d ex h1 h2 s hs
      cases hs
      exact ⟨h1, h2⟩
    refine reprNodes_cases ?_ ?_
    all_goals
      repeat'
        first
        | refine List.forall_mem_cons.mpr ⟨?_, ?_⟩
        | exact List.forall_mem_nil _
        | exact slot _ _ _ _ _ _ _ _ (by simp [DefaultOK, numberType]) (by simp [ZeroDefault])
        | exact nofun
  structs := by
    refine reprNodes_cases ?_ ?_
    all_goals
      repeat'
        first
        | refine List.forall_mem_cons.mpr ⟨?_, ?_⟩
        | exact List.forall_mem_nil _
        | (intro sl i h1; cases h1; done)
        | (intro sl i h1 h2 nd s _ _; cases h1; first | (cases h2; rfl) | cases h2)
  enums := by
    refine reprNodes_cases ?_ ?_
    all_goals
      repeat'
        first
        | refine List.forall_mem_cons.mpr ⟨?_, ?_⟩
        | exact List.forall_mem_nil _
        | (intro sl i h1; cases h1; done)
        | (intro sl i h1 h2 s _; cases h1; first | (cases h2; rfl) | cases h2)
  items := by
    refine reprNodes_cases ?_ ?_
    all_goals
      repeat'
        first
        | refine List.forall_mem_cons.mpr ⟨?_, ?_⟩
        | exact List.forall_mem_nil _
        | (intro sl i h1; cases h1; done)
        | (intro sl i h1 h2 s _; cases h1; first | (cases h2; rfl) | cases h2)
  union := by
    refine reprNodes_cases ?_ ?_ <;> decide +kernel
  names := by
    refine reprNodes_cases ?_ ?_ <;> decide +kernel
  priv := by
    refine reprNodes_cases ?_ ?_ <;> decide +kernel

theorem reprMod_named : Named reprMod.renv := by
  constructor
  · intro c f hf
    show f.capname ≠ [] ∧ _
    have hf : f ∈ (reprSpecs c).fields := hf
    unfold reprSpecs at hf
    split at hf
    · simp only [List.mem_cons, List.not_mem_nil, or_false] at hf
      rcases hf with rfl | rfl | rfl | rfl | rfl | rfl | rfl
      all_goals exact ⟨by decide, by decide, fun _ _ _ h => by cases h <;> decide⟩
    · simp only [List.mem_cons, List.not_mem_nil, or_false] at hf
      subst hf
      exact ⟨by decide, by decide, fun _ _ _ h => by cases h⟩
    · cases hf
  · intro _ _
    show "0.0".toList ≠ [] ∧ ∀ x ∈ "0.0".toList, isAtom x = true
    decide

/-- `(num = 77, isFlag = true, color = green, sub = (), xs = [1, 2, 3], grp = (num2 = -78))` -/
example : ∃ s, reprMod.shortrepr 2 40 sampleObj = .ok s ∧ parse s = some (.struct
    [("num".toList, .atom "77".toList), ("isFlag".toList, .atom "true".toList), ("color".toList, .atom "green".toList),
      ("sub".toList, .struct []), ("xs".toList, .list [.atom "1".toList, .atom "2".toList, .atom "3".toList]),
      ("grp".toList, .struct [("num2".toList, .atom "-78".toList)])]) :=
  C79_parse reprMod_ok reprMod_named (by rfl) sample_denotes

example : reprMod.callBool (reprMod.classes 40) sampleObj "is_xs" = .ok true ∧
    reprMod.callBool (reprMod.classes 40) sampleObj "is_nothing" = .ok false ∧
    reprMod.callBool (reprMod.classes 40) sampleObj "has_sub" = .ok true := by
  refine ⟨?_, ?_, ?_⟩ <;> decide +kernel

/-! ## What is not true -/

/-- `struct S { foo @0 :Text; hasFoo @1 :Bool; }` -/
def reprClash : SNode := ⟨1, 1, 0, 0,
  [reqSlot "foo" "foo" 0 65535 .text 0 .none false, reqSlot "hasFoo" "has_foo" 1 65535 .bool 0 (.bool false) false]⟩

/-- C79: the names of the methods are not reserved: the struct `S` compiles, but no object of it can be printed.  The
property of the field `hasFoo` replaces the method `has_foo` of the field `foo`, and `shortrepr` calls its value. -/
theorem C79_name_clash (e : Env) : ∃ c, emitReprClass e reprClash = .ok c ∧
    ∀ (M : Mod) id, M.classes id = c → ∀ fuel o data ptrs, Denotes o (.struct data ptrs) →
      M.shortrepr (fuel + 1) id o = .error .typeError := by
  refine ⟨_, rfl, fun M id hc fuel o data ptrs ho => ?_⟩
  have hb := reads_bool ho 0 false
  have h : M.callBool (M.classes id) o "has_foo" = .error .typeError := by
    unfold Mod.callBool
    have hl : StructEmit.lookupLast "has_foo" (M.classes id).attrs = some (.prop (.slot none (.bit 0 1 (.bool false)))) := by
      rw [hc]; rfl
    rw [hl]
    show (do
      let _ ← M.slotAttr (M.classes id) o "has_foo"
      .error .typeError : Py Bool) = _
    rw [slotAttr_ok hl]
    show (do
      let _ ← (do
        pure (← (do
          let value ← o.readBit ((0 / 8 : Nat) : Int) ((1 <<< (0 % 8) : Nat) : Int)
          if (← FieldEmit.defaultNonZero (.bool false)) then FieldEmit.xorBool value (.bool false) else pure (.bool value) : Py RVal),
          Getter.bit 0 1 (.bool false)) : Py (RVal × Getter))
      .error .typeError : Py Bool) = _
    rw [hb]
    rfl
  have hlines : ∃ l ls, (M.classes id).lines = l :: ls ∧ l.guard = .has "foo" := by rw [hc]; exact ⟨_, _, rfl, rfl⟩
  obtain ⟨l, ls, hl, hgd⟩ := hlines
  unfold Mod.shortrepr
  rw [hl]
  unfold runLines
  rw [hgd]
  show (do
    let parts ← (do
      if (← M.callBool (M.classes id) o ("has_" ++ "foo")) then _ else _ : Py (List Repr.Str))
    pure (['('] ++ Repr.join parts ++ [')'])) = _
  have h' : M.callBool (M.classes id) o ("has_" ++ "foo") = .error .typeError := h
  rw [h']
  rfl

end Capnpy.Props
