import Verif.Proof.PyExpr
import Verif.Spec.Const
import Verif.Props.AnyPointer
import Verif.Props.Module

/-!
# Proofs about the constants of generated modules
-/

namespace Capnpy.Const

open Capnpy.Module (Str Gen)
open Capnpy.Repr (bytesRepr intRepr join)
open Capnpy.PyExpr (Expr Rend IsName)

/-! ## The texts -/

theorem isName_of_decide {s : List Char} (h : (s.all PyExpr.isWord && s.head?.any fun c => !c.isDigit) = true) : IsName s := by
  rw [Bool.and_eq_true, List.all_eq_true] at h
  refine ⟨h.1, ?_⟩
  cases s with
  | nil => exact absurd h.2 (by decide)
  | cons c r => exact ⟨c, r, rfl, by simpa using h.2⟩

def offsExpr (xs : List Int) : Expr := .tuple (xs.map .int)

theorem rend_ints (xs : List Int) : List.Forall₂ Rend (xs.map intRepr) (xs.map Expr.int) := by
  induction xs with
  | nil => exact .nil
  | cons x xs ih => exact .cons (Rend.int x) ih

theorem rend_tuple (xs : List Int) : Rend (tupleRepr xs) (offsExpr xs) := by
  match xs with
  | [] =>
    refine ⟨by decide, by decide, fun n hn r _ => ?_⟩
    cases n with
    | zero => exact absurd hn (by decide)
    | succ n =>
      show PyExpr.expr (n + 1) ('(' :: ')' :: r) = _
      conv => lhs; unfold PyExpr.expr
      rfl
  | [x] => exact Rend.tuple1 (Rend.int x)
  | x :: y :: r => exact Rend.tuple (rend_ints (x :: y :: r))

def segExpr (s : Seg) : Expr :=
  match s.offs with
  | some offs => .call "_MultiSegment".toList [.bytes s.buf, offsExpr offs]
  | none => .call "_Segment".toList [.bytes s.buf]

theorem rend_seg (s : Seg) : Rend (segText s) (segExpr s) := by
  obtain ⟨buf, offs⟩ := s
  cases offs with
  | none =>
    have := Rend.call (f := "_Segment".toList) (isName_of_decide (by decide)) (.cons (Rend.bytes buf) .nil)
    exact this
  | some offs =>
    have := Rend.call (f := "_MultiSegment".toList) (isName_of_decide (by decide))
      (.cons (Rend.bytes buf) (.cons (rend_tuple offs) .nil))
    have e : segText ⟨buf, some offs⟩
        = "_MultiSegment".toList ++ ['('] ++ join [bytesRepr buf, tupleRepr offs] ++ [')'] := by
      show "_MultiSegment".toList ++ ['('] ++ bytesRepr buf ++ [',', ' '] ++ tupleRepr offs ++ [')'] = _
      simp only [join, List.append_assoc]
    rw [e]
    exact this

theorem ints_map (xs : List Int) : ints (xs.map .int) = .ok xs := by
  induction xs with
  | nil => rfl
  | cons x xs ih =>
    show (do pure (x :: (← ints (xs.map .int))) : Py _) = _
    rw [ih]
    rfl

theorem eval_seg (env : Env) (s : Seg) : evalSeg env (segExpr s) = .ok s := by
  obtain ⟨buf, offs⟩ := s
  cases offs with
  | none => rfl
  | some offs =>
    show (if "_MultiSegment".toList = "_MultiSegment".toList then
      (do pure ⟨buf, some (← ints (offs.map .int))⟩ : Py Seg) else .error .nameError) = _
    rw [if_pos rfl, ints_map]
    rfl

theorem rend_refl : Rend reflSeg (.name reflSeg) := Rend.name (isName_of_decide (by decide))

theorem eval_refl {env : Env} {s : Seg} (h : env.refl = some s) : evalSeg env (.name reflSeg) = .ok s := by
  show (if reflSeg = reflSeg then
    match env.refl with
    | some seg => .ok seg
    | none => .error .nameError
    else (.error .nameError : Py Seg)) = _
  rw [if_pos rfl, h]

theorem word_fromBuffer : ∀ c ∈ fromBuffer, PyExpr.isWord c = true := by decide

/-- The expression of a struct constant. -/
def structExpr (cls : Str) (seg : Expr) (o : StructObj) : Expr :=
  .call (cls ++ fromBuffer) [seg, .int o.dataOffset, .int o.dataSize, .int o.ptrsSize]

theorem rend_declare {cls : Str} (hc : IsName cls) (o : StructObj) {segment : Option Str} {seg : Expr}
    (hs : Rend (match segment with | some t => t | none => segText o.seg) seg) :
    Rend (declareConst cls o segment) (structExpr cls seg o) := by
  have := Rend.call (hc.append word_fromBuffer) (.cons hs (.cons (Rend.int o.dataOffset) (.cons (Rend.int o.dataSize)
    (.cons (Rend.int o.ptrsSize) .nil))))
  generalize ht : (match segment with | some t => t | none => segText o.seg) = t at this
  have e : declareConst cls o segment = cls ++ fromBuffer ++ ['('] ++
      join [t, intRepr o.dataOffset, intRepr o.dataSize, intRepr o.ptrsSize] ++ [')'] := by
    have h0 : ".from_buffer(".toList = fromBuffer ++ ['('] := by decide
    subst ht
    unfold declareConst
    rw [h0]
    cases segment <;> simp only [join, List.append_assoc]
  rw [e]
  exact this

theorem strip_fromBuffer (cls : Str) : stripFromBuffer (cls ++ fromBuffer) = some cls := by
  unfold stripFromBuffer
  have h : (cls ++ fromBuffer).length - fromBuffer.length = cls.length := by
    rw [List.length_append]; omega
  rw [h, List.drop_left, if_pos rfl, List.take_left]

theorem eval_struct {env : Env} {cls : Str} {c : Nat} {d p : Int} (hl : cls ≠ "_List".toList)
    (hc : env.cls cls = some (.struct c d p)) {seg : Expr} {s : Seg} (hs : evalSeg env seg = .ok s) (o : StructObj) :
    evalExpr env (structExpr cls seg o) =
      (StructObj.initFromBuffer s o.dataOffset o.dataSize o.ptrsSize).map (.struct c) := by
  have key : ∀ args, evalExpr env (.call (cls ++ fromBuffer) args) = structArgs env c args := by
    intro args
    unfold evalExpr
    simp only [strip_fromBuffer, hc, if_neg hl]
  unfold structExpr
  rw [key]
  show (do let o ← StructObj.initFromBuffer (← evalSeg env seg) o.dataOffset o.dataSize o.ptrsSize
           pure (Obj.struct c o) : Py Obj) = _
  rw [hs]
  show (do let o ← StructObj.initFromBuffer s o.dataOffset o.dataSize o.ptrsSize
           pure (Obj.struct c o) : Py Obj) = _
  cases StructObj.initFromBuffer s o.dataOffset o.dataSize o.ptrsSize <;> rfl

theorem made_again {seg : Seg} {off ds ps : Int} {o : StructObj} (h : StructObj.initFromBuffer seg off ds ps = .ok o) :
    StructObj.initFromBuffer o.seg o.dataOffset o.dataSize o.ptrsSize = .ok o := by
  have h' := h
  unfold StructObj.initFromBuffer at h
  simp only at h
  split at h
  · cases h
  · split at h
    · cases h
    · injection h with h
      subst h
      exact h'

theorem made_seg {seg : Seg} {off ds ps : Int} {o : StructObj} (h : StructObj.initFromBuffer seg off ds ps = .ok o) :
    o.seg = seg := by
  unfold StructObj.initFromBuffer at h
  simp only at h
  split at h
  · cases h
  · split at h
    · cases h
    · injection h with h
      subst h
      rfl

theorem evalText_of {env : Env} {s : Str} {e : Expr} (h : Rend s e) : evalText env s = evalExpr env e := by
  unfold evalText
  rw [h.parse]

theorem evalItemText_of {env : Env} {s : Str} {e : Expr} (h : Rend s e) : evalItemText env s = evalItem env e := by
  unfold evalItemText
  rw [h.parse]

/-! ## The struct of a pointer -/

open Spec in
theorem denotes_made {o : StructObj} {v : Val} (h : Denotes o v) :
    StructObj.initFromBuffer o.seg o.dataOffset o.dataSize o.ptrsSize = .ok o := by
  obtain ⟨B, offs, t, ds, ps, data, ptrs, rfl, -, -, -, -, ⟨hb, -, -, -⟩, -⟩ := h
  unfold objAt StructObj.initFromBuffer Seg.of
  simp only
  rw [if_neg (by push Not; push_cast; omega), if_neg (by push Not; push_cast; omega)]
  congr 2
  push_cast
  ring

theorem initFromPointer_seg {seg : Seg} {off p : Int} {o : StructObj} (h : StructObj.initFromPointer seg off p = .ok o) :
    o.seg = seg := by
  unfold StructObj.initFromPointer at h
  split at h
  · cases h
  · exact made_seg h

theorem readStruct_seg {v o : StructObj} {k : Int} (h : v.readStruct k = .ok (some o)) : o.seg = v.seg := by
  unfold StructObj.readStruct at h
  cases hr : v.resolve k with
  | error e => rw [hr] at h; cases h
  | ok x =>
    rw [bind_okP hr] at h
    obtain ⟨off, p⟩ := x
    simp only at h
    split at h
    · cases h
    · split at h
      · cases h
      · cases hi : StructObj.initFromPointer v.seg off p with
        | error e => rw [hi] at h; cases h
        | ok o' =>
          rw [bind_okP hi] at h
          have h : (Except.ok (some o') : Py _) = .ok (some o) := h
          injection h with h
          injection h with h
          subst h
          exact initFromPointer_seg hi

/-- A list object is what `init` makes of its attributes, for any item type. -/
theorem init_again {seg : Seg} {off tag count : Int} {it it' : ItemType} {l : ListObj}
    (h : ListObj.init seg off tag count it = .ok l) :
    l.seg = seg ∧ l.offset = off ∧ ListObj.init seg l.offset l.sizeTag l.itemCount it' = .ok { l with itemType := it' } := by
  unfold ListObj.init at h ⊢
  by_cases hc : tag = Ptr.LIST_SIZE_COMPOSITE
  · rw [if_pos hc] at h
    cases hr : seg.readPtr off with
    | error e => rw [hr] at h; cases h
    | ok w =>
      rw [bind_okP hr] at h
      have h : (Except.ok _ : Py ListObj) = .ok l := h
      injection h with h
      subst h
      refine ⟨rfl, rfl, ?_⟩
      simp only
      rw [if_pos hc, bind_okP hr]
      rfl
  · rw [if_neg hc] at h
    have h : (Except.ok _ : Py ListObj) = .ok l := h
    injection h with h
    subst h
    refine ⟨rfl, rfl, ?_⟩
    simp only
    rw [if_neg hc]
    rfl

theorem readList_init {v : StructObj} {k : Int} {it : ItemType} {l : ListObj} (h : v.readList k it = .ok (some l)) :
    ∃ off tag count, ListObj.init v.seg off tag count it = .ok l := by
  unfold StructObj.readList at h
  cases hr : v.resolve k with
  | error e => rw [hr] at h; cases h
  | ok x =>
    rw [bind_okP hr] at h
    obtain ⟨off, p⟩ := x
    simp only at h
    split at h
    · cases h
    · split at h
      · cases h
      · rename_i h1 h2
        cases hi : ListObj.init v.seg (Ptr.deref p off) (Ptr.listSizeTag p) (Ptr.listItemCount p) it with
        | error e => rw [hi] at h; cases h
        | ok l' =>
          rw [bind_okP hi] at h
          have h : (Except.ok (some l') : Py _) = .ok (some l) := h
          injection h with h
          injection h with h
          subst h
          exact ⟨_, _, _, hi⟩

theorem rend_list (l : ListObj) {item : Str} {e : Expr} (h : Rend item e) : Rend (declareListConst l item)
    (.call ("_List".toList ++ fromBuffer) [.name reflSeg, .int l.offset, .int l.sizeTag, .int l.itemCount, e]) := by
  have := Rend.call ((isName_of_decide (s := "_List".toList) (by decide)).append word_fromBuffer)
    (.cons rend_refl (.cons (Rend.int l.offset) (.cons (Rend.int l.sizeTag) (.cons (Rend.int l.itemCount) (.cons h .nil)))))
  have e : declareListConst l item = "_List".toList ++ fromBuffer ++ ['('] ++
      join [reflSeg, intRepr l.offset, intRepr l.sizeTag, intRepr l.itemCount, item] ++ [')'] := by
    have h0 : "_List.from_buffer(".toList = "_List".toList ++ fromBuffer ++ ['('] := by decide
    unfold declareListConst
    rw [h0]
    simp only [join, List.append_assoc]
  rw [e]
  exact this

theorem eval_list {env : Env} {s : Seg} (hr : env.refl = some s) {e : Expr} {it : Item}
    (hi : evalItem env e = .ok it) (off tag count : Int) :
    evalExpr env (.call ("_List".toList ++ fromBuffer) [.name reflSeg, .int off, .int tag, .int count, e]) =
      (ListObj.init s off tag count it.toItemType).map (.list it) := by
  have key : ∀ args, evalExpr env (.call ("_List".toList ++ fromBuffer) args) = listArgs env args := by
    intro args
    unfold evalExpr
    simp only [strip_fromBuffer, if_true]
  rw [key]
  show (do let seg ← evalSeg env (.name reflSeg)
           let it ← evalItem env e
           let l ← ListObj.init seg off tag count it.toItemType
           pure (Obj.list it l) : Py Obj) = _
  rw [bind_okP (eval_refl hr), bind_okP hi]
  cases ListObj.init s off tag count it.toItemType <;> rfl

/-! ## The accessors of `Value` -/

open Spec Props in
theorem ensure_ok {v : StructObj} {data : Bytes} {ptrs : List Val} (hv : Denotes v (.struct data ptrs)) (tag : Int) :
    v.ensureUnion (some 0) tag = if valueTag data = tag then .ok () else .error .valueError := by
  have := readPrimitive_zext hv (k := 0) (fmt := .h) (by decide)
  have e : v.whichRaw (some 0) = .ok (valueTag data) := this
  unfold StructObj.ensureUnion
  rw [bind_okP e]
  by_cases h : valueTag data = tag
  · rw [if_neg (by simpa using h), if_pos h]; rfl
  · rw [if_pos h, if_neg h]; rfl

open Spec Props in
theorem which_ok {v : StructObj} {data : Bytes} {ptrs : List Val} (hv : Denotes v (.struct data ptrs)) :
    v.whichRaw (some 0) = .ok (valueTag data) :=
  readPrimitive_zext hv (k := 0) (fmt := .h) (by decide)

open Spec Props in
theorem asPyobj_ok {v : StructObj} {data : Bytes} {ptrs : List Val} (hv : Denotes v (.struct data ptrs)) {tag : Nat}
    (ht : valueTag data = tag) (hl : tag < 19) : asPyobj v = valueGet v tag := by
  unfold asPyobj
  rw [bind_okP (which_ok hv), ht]
  have key : ∀ n : Fin 19, ∃ s, Names.enumStr Reflection.valueMembers ((n.val : Nat) : Int) = .ok s ∧
      Reflection.valueMembers.idxOf? s = some n.val := by
    intro n
    have : ∀ n : Fin 19, (match Names.enumStr Reflection.valueMembers ((n.val : Nat) : Int) with
        | .ok s => Reflection.valueMembers.idxOf? s == some n.val
        | .error _ => false) = true := by decide +kernel
    have := this n
    split at this
    · rename_i s hs
      exact ⟨s, hs, by simpa using this⟩
    · cases this
  obtain ⟨s, h1, h2⟩ := key ⟨tag, hl⟩
  rw [bind_okP h1]
  simp only [h2]

end Capnpy.Const
