import Verif.Proof.Const
import Verif.Props.Copy
import Verif.Props.ModuleExamples

/-!
# C70: the constants of a generated module; C71: item types

A constant of the schema is a `Value` in the request.  The compiler writes a Python expression for it (a text) into the
module.  The theorems say what comes out when this text is parsed and evaluated.  The value in the request is arbitrary:
any well-formed `Value`, in a message of one or many segments.
-/

namespace Capnpy.Props

open Spec Capnpy.Const
open Capnpy.Module (Str Gen State itemTypeName)
open Capnpy.Repr (bytesRepr intRepr)
open Capnpy.PyExpr (Expr Rend IsName)

/-! ## Literals -/

/-- C70: the `repr` of bytes is a Python expression for these bytes. -/
theorem C70_bytes_literal (env : Env) (b : Bytes) : evalText env (bytesRepr b) = .ok (.bytes b) := by
  rw [evalText_of (Rend.bytes b)]
  rfl

/-- C70: the `repr` of an int is a Python expression for this int. -/
theorem C70_int_literal (env : Env) (i : Int) : evalText env (intRepr i) = .ok (.int i) := by
  rw [evalText_of (Rend.int i)]
  rfl

/-! ## Structs -/

/-- C70: `declare_const` writes the whole segment and the position, and the class makes the same object of it: of any
struct object made by `from_buffer`, with one segment or many.  The class name must be a (dotted) name. -/
theorem C70_declare_const {env : Env} {name : Str} (hn : IsName name) (hl : name ≠ "_List".toList) {c : Nat} {ds ps : Int}
    (hc : env.cls name = some (.struct c ds ps)) {seg : Seg} {off d p : Int} {o : StructObj}
    (ho : StructObj.initFromBuffer seg off d p = .ok o) :
    evalText env (declareConst name o none) = .ok (.struct c o) := by
  rw [evalText_of (rend_declare hn o (segment := none) (rend_seg o.seg)), eval_struct hl hc (eval_seg env o.seg) o,
    made_again ho]
  rfl

/-- C70: after the line for the reflection data, the segment `_reflection_data.request._seg` has exactly the bytes (and
the segment table) of the request that the compiler got. -/
theorem C70_request {env : Env} {c : Nat} {ds ps : Int}
    (hc : env.cls "_CodeGeneratorRequest".toList = some (.struct c ds ps)) {req : StructObj} {v : Val} (hr : Denotes req v) :
    withReflection env (some (requestDecl req)) = .ok { env with refl := some req.seg } := by
  have h := C70_declare_const (isName_of_decide (s := "_CodeGeneratorRequest".toList) (by decide)) (by decide) hc (denotes_made hr)
  unfold withReflection requestDecl
  simp only
  rw [bind_okP h]
  rfl

theorem valueGet_struct {v : StructObj} {data : Bytes} {ptrs : List Val} (hv : Denotes v (.struct data ptrs))
    (ht : valueTag data = 16) : valueGet v 16 = valuePtr v := by
  show (do v.ensureUnion (some 0) ((16 : Nat) : Int); valuePtr v : Py PyVal) = _
  rw [ensure_ok hv, ht]
  rfl

theorem valueGet_list {v : StructObj} {data : Bytes} {ptrs : List Val} (hv : Denotes v (.struct data ptrs))
    (ht : valueTag data = 14) : valueGet v 14 = valuePtr v := by
  show (do v.ensureUnion (some 0) ((14 : Nat) : Int); valuePtr v : Py PyVal) = _
  rw [ensure_ok hv, ht]
  rfl

theorem valuePtr_some {v : StructObj} {data : Bytes} {ptrs : List Val} (hv : Denotes v (.struct data ptrs))
    (h : child ptrs 0 ≠ .null) : valuePtr v = .ok (.anyPointer ⟨v, 0⟩) := by
  obtain ⟨b, h1, h2⟩ := C11_has v data ptrs hv 0
  have hb : b = true := h2.mpr h
  subst hb
  have h1 : v.hasField 0 = .ok true := h1
  unfold valuePtr
  rw [bind_okP h1]
  rfl

theorem valuePtr_none {v : StructObj} {data : Bytes} {ptrs : List Val} (hv : Denotes v (.struct data ptrs))
    (h : child ptrs 0 = .null) : valuePtr v = .ok .none := by
  obtain ⟨b, h1, h2⟩ := C11_has v data ptrs hv 0
  have hb : b = false := by
    cases b with
    | false => rfl
    | true => exact absurd h (h2.mp rfl)
  subst hb
  have h1 : v.hasField 0 = .ok false := h1
  unfold valuePtr
  rw [bind_okP h1]
  rfl

/-- C70: a struct constant, with reflection data: the constant has the class of its type and the value from the
schema; it shares the segment of the reflection data. -/
theorem C70_struct {g : Gen} (hg : g.reflection = true) {pyx : Bool} {tt : TextType} {fr : Fmt → Int → Str} {fuel : Nat}
    {v : StructObj} {data : Bytes} {ptrs : List Val} (hv : Denotes v (.struct data ptrs)) (ht : valueTag data = 16)
    {d : Bytes} {q : List Val} (hc : child ptrs 0 = .struct d q)
    {id : Nat} {name : Str} (hname : nodeName g fuel id [] = .ok name) (hn : IsName name) (hl : name ≠ "_List".toList)
    {env : Env} {c : Nat} {ds ps : Int} (hcls : env.cls name = some (.struct c ds ps)) (hrefl : env.refl = some v.seg) :
    ∃ s o, constDecl g pyx tt fr fuel (.struct id) v = .ok s ∧ evalText env s = .ok (.struct c o) ∧
      Denotes o (.struct d q) ∧ o.seg = v.seg := by
  obtain ⟨o, h1, h2⟩ := (C10_struct v data ptrs hv 0).2.1 d q hc
  have h1 : v.readStruct 0 = .ok (some o) := h1
  have hs := readStruct_seg h1
  refine ⟨declareConst name o (some reflSeg), o, ?_, ?_, h2, hs⟩
  · show (do let clsname ← nodeName g fuel id []
             let val ← (← valueGet v 16).asStruct
             if g.reflection then pure (declareConst clsname val (some reflSeg))
             else do
               let val ← val.compact fuel
               pure (declareConst clsname val none) : Py Str) = _
    rw [bind_okP hname, bind_okP ((valueGet_struct hv ht).trans (valuePtr_some hv (by rw [hc]; simp)))]
    have h3 : (PyVal.anyPointer ⟨v, 0⟩).asStruct = .ok o := by
      show (do match (← v.readStruct 0) with
               | some o => .ok o
               | Option.none => .error .attributeError : Py StructObj) = _
      rw [bind_okP h1]
    rw [bind_okP h3, if_pos hg]
    rfl
  · rw [evalText_of (rend_declare hn o (segment := some reflSeg) rend_refl), eval_struct hl hcls (eval_refl hrefl) o, ← hs,
      denotes_made h2]
    rfl

/-- C70: a struct constant, without reflection data: the constant is a compact copy with the same value, in a segment
of its own. -/
theorem C70_struct_compact {g : Gen} (hg : g.reflection = false) {pyx : Bool} {tt : TextType} {fr : Fmt → Int → Str}
    {fuel : Nat} {v : StructObj} {data : Bytes} {ptrs : List Val} (hv : Denotes v (.struct data ptrs))
    (ht : valueTag data = 16) {d : Bytes} {q : List Val} (hc : child ptrs 0 = .struct d q)
    (hf : (Val.struct d q).Fits) (hlen : v.seg.buf.length ≤ 2 ^ 32) (hsz : 8 + (Val.struct d q).size ≤ 2 ^ 32)
    (hfuel : 2 * (Val.struct d q).depth ≤ fuel + 1)
    {id : Nat} {name : Str} (hname : nodeName g fuel id [] = .ok name) (hn : IsName name) (hl : name ≠ "_List".toList)
    {env : Env} {c : Nat} {ds ps : Int} (hcls : env.cls name = some (.struct c ds ps)) :
    ∃ s o, constDecl g pyx tt fr fuel (.struct id) v = .ok s ∧ evalText env s = .ok (.struct c o) ∧
      Denotes o (.struct d q) ∧ o.seg.buf.length = 8 + (Val.struct d q).size := by
  obtain ⟨o, h1, h2⟩ := (C10_struct v data ptrs hv 0).2.1 d q hc
  have h1 : v.readStruct 0 = .ok (some o) := h1
  have hs := readStruct_seg h1
  obtain ⟨o', k1, k2, k3⟩ := C14_compact h2 hf (by rw [hs]; exact hlen) hsz hfuel
  refine ⟨declareConst name o' none, o', ?_, ?_, k2, k3⟩
  · show (do let clsname ← nodeName g fuel id []
             let val ← (← valueGet v 16).asStruct
             if g.reflection then pure (declareConst clsname val (some reflSeg))
             else do
               let val ← val.compact fuel
               pure (declareConst clsname val none) : Py Str) = _
    rw [bind_okP hname, bind_okP ((valueGet_struct hv ht).trans (valuePtr_some hv (by rw [hc]; simp)))]
    have h3 : (PyVal.anyPointer ⟨v, 0⟩).asStruct = .ok o := by
      show (do match (← v.readStruct 0) with
               | some o => .ok o
               | Option.none => .error .attributeError : Py StructObj) = _
      rw [bind_okP h1]
    rw [bind_okP h3, if_neg (by rw [hg]; decide), bind_okP k1]
    rfl
  · exact C70_declare_const hn hl hcls (denotes_made k2)

/-- C70: a struct constant that is null: the compiler fails with AttributeError. -/
theorem C70_null_struct {g : Gen} {pyx : Bool} {tt : TextType} {fr : Fmt → Int → Str} {fuel : Nat} {v : StructObj}
    {data : Bytes} {ptrs : List Val} (hv : Denotes v (.struct data ptrs)) (ht : valueTag data = 16)
    (hc : child ptrs 0 = .null) {id : Nat} {name : Str} (hname : nodeName g fuel id [] = .ok name) :
    constDecl g pyx tt fr fuel (.struct id) v = .error .attributeError := by
  show (do let clsname ← nodeName g fuel id []
           let val ← (← valueGet v 16).asStruct
           if g.reflection then pure (declareConst clsname val (some reflSeg))
           else do
             let val ← val.compact fuel
             pure (declareConst clsname val none) : Py Str) = _
  rw [bind_okP hname, bind_okP ((valueGet_struct hv ht).trans (valuePtr_none hv hc))]
  rfl

/-! ## Lists -/

/-- C70: a list constant: the constant has the item type that its text says, and its value is that from the schema. -/
theorem C70_list {g : Gen} (hg : g.reflection = true) {pyx : Bool} {tt : TextType} {fr : Fmt → Int → Str} {fuel : Nat}
    {v : StructObj} {data : Bytes} {ptrs : List Val} (hv : Denotes v (.struct data ptrs)) (ht : valueTag data = 14)
    (h0 : child ptrs 0 ≠ .null) (hns : ∀ d p, child ptrs 0 ≠ .struct d p)
    {elem : STy} {item : Str} (hitem : listItemType g pyx tt fuel elem = .ok item) {env : Env} {e : Expr} (he : Rend item e)
    {it : Const.Item} (hit : evalItem env e = .ok it) (hrefl : env.refl = some v.seg) :
    ∃ s l, constDecl g pyx tt fr fuel (.list elem) v = .ok s ∧ evalText env s = .ok (.list it l) ∧
      l.itemType = it.toItemType ∧ ListDenotes l (child ptrs 0) ∧ l.seg = v.seg := by
  obtain ⟨l, h1, -, h2⟩ := (C10_list v data ptrs hv 0 .void).2.1 h0 hns
  have h1 : v.readList 0 .void = .ok (some l) := h1
  obtain ⟨off, tag, count, hi⟩ := readList_init h1
  obtain ⟨hs, -, hag⟩ := init_again (it' := it.toItemType) hi
  refine ⟨declareListConst l item, { l with itemType := it.toItemType }, ?_, ?_, rfl, ?_, hs⟩
  · show (do if !g.reflection then .error .notImplemented
             else do
               let val ← (← valueGet v 14).asList
               let itemType ← listItemType g pyx tt fuel elem
               pure (declareListConst val itemType) : Py Str) = _
    rw [if_neg (by rw [hg]; decide), bind_okP ((valueGet_list hv ht).trans (valuePtr_some hv h0))]
    have h3 : (PyVal.anyPointer ⟨v, 0⟩).asList = .ok l := by
      show (do match (← v.readList 0 .void) with
               | some l => .ok l
               | Option.none => .error .attributeError : Py ListObj) = _
      rw [bind_okP h1]
    rw [bind_okP h3, bind_okP hitem]
    rfl
  · rw [evalText_of (rend_list l he), eval_list hrefl hit, hag]
    rfl
  · obtain ⟨B, offs, q, w, t, it', rfl, k⟩ := h2
    exact ⟨B, offs, q, w, t, it.toItemType, (by unfold listAt; split <;> rfl), k⟩

/-- C70: a list constant that is null: AttributeError in the compiler. -/
theorem C70_null_list {g : Gen} (hg : g.reflection = true) {pyx : Bool} {tt : TextType} {fr : Fmt → Int → Str} {fuel : Nat}
    {v : StructObj} {data : Bytes} {ptrs : List Val} (hv : Denotes v (.struct data ptrs)) (ht : valueTag data = 14)
    (h0 : child ptrs 0 = .null) {elem : STy} : constDecl g pyx tt fr fuel (.list elem) v = .error .attributeError := by
  show (do if !g.reflection then .error .notImplemented
           else do
             let val ← (← valueGet v 14).asList
             let itemType ← listItemType g pyx tt fuel elem
             pure (declareListConst val itemType) : Py Str) = _
  rw [if_neg (by rw [hg]; decide), bind_okP ((valueGet_list hv ht).trans (valuePtr_none hv h0))]
  rfl

/-- C70: without reflection data, a list constant is a NotImplementedError, whatever its value. -/
theorem C70_list_needs_reflection {g : Gen} (hg : g.reflection = false) {pyx : Bool} {tt : TextType}
    {fr : Fmt → Int → Str} {fuel : Nat} {v : StructObj} {elem : STy} :
    constDecl g pyx tt fr fuel (.list elem) v = .error .notImplemented := by
  show (do if !g.reflection then .error .notImplemented
           else do
             let val ← (← valueGet v 14).asList
             let itemType ← listItemType g pyx tt fuel elem
             pure (declareListConst val itemType) : Py Str) = _
  rw [if_pos (by rw [hg]; decide)]

/-! ## The other types -/

theorem valueGet_eq {v : StructObj} {data : Bytes} {ptrs : List Val} (hv : Denotes v (.struct data ptrs)) {tag : Nat}
    (ht : valueTag data = tag) (r : Py PyVal)
    (hr : valueGet v tag = (do v.ensureUnion (some 0) (tag : Int); r)) : valueGet v tag = r := by
  rw [hr, ensure_ok hv, if_pos ht]
  rfl

/-- C70: the value of a constant that is neither a struct nor a list is the one from the schema: None for Void, bools,
ints, the bytes of texts and data (also with `text_type = unicode`), the number of an enum. -/
theorem C70_plain (g : Gen) (pyx : Bool) (tt : TextType) (fr : Fmt → Int → Str) (fuel : Nat) (env : Env)
    {v : StructObj} {data : Bytes} {ptrs : List Val} (hv : Denotes v (.struct data ptrs)) {ty : STy}
    (ht : valueTag data = tagOf ty) {x : Obj} (hx : PlainConst data ptrs ty x) :
    ∃ s, constDecl g pyx tt fr fuel ty v = .ok s ∧ evalText env s = .ok x := by
  have prim : ∀ (k : Nat) (fmt : Fmt), fmt.size ∣ k → v.primField k fmt 0 = .ok (valueOf fmt (bytesZ data k fmt.size)) := by
    intro k fmt hk
    have := C09_prim v data ptrs hv k fmt hk 0
    rwa [xor_zero_right] at this
  have key : ∀ (w : PyVal), tagOf ty < 19 → (∀ e, ty ≠ .list e) → (∀ i, ty ≠ .struct i) →
      valueGet v (tagOf ty) = .ok w → evalText env (w.repr fr) = .ok x →
      ∃ s, constDecl g pyx tt fr fuel ty v = .ok s ∧ evalText env s = .ok x := by
    intro w hl h1 h2 hg he
    refine ⟨w.repr fr, ?_, he⟩
    have e : constDecl g pyx tt fr fuel ty v = (do let val ← asPyobj v; pure (val.repr fr) : Py Str) := by
      cases ty with
      | list e => exact absurd rfl (h1 e)
      | struct i => exact absurd rfl (h2 i)
      | _ => rfl
    rw [e, asPyobj_ok hv ht hl, hg]
    rfl
  have hint : ∀ (fmt : Fmt) (i : Int), x = .int i → valueGet v (tagOf ty) = .ok (.int i) →
      tagOf ty < 19 → (∀ e, ty ≠ .list e) → (∀ i, ty ≠ .struct i) →
      ∃ s, constDecl g pyx tt fr fuel ty v = .ok s ∧ evalText env s = .ok x := by
    intro fmt i hi h1 h2 h3 h4
    refine key (.int i) h2 h3 h4 h1 ?_
    rw [hi]
    exact C70_int_literal env i
  have name : ∀ (n : String) (o : Obj), IsName n.toList → evalExpr env (.name n.toList) = .ok o →
      evalText env n.toList = .ok o := by
    intro n o hn he
    rw [evalText_of (Rend.name hn), he]
  cases hx with
  | void =>
    exact key .none (by decide) (by simp) (by simp) (valueGet_eq hv ht (.ok .none) rfl)
      (name "None" _ (isName_of_decide (by decide)) rfl)
  | bool =>
    have hb := C09_bool v data ptrs hv 16 false
    rw [Bool.xor_false] at hb
    refine key (.bool ((byteZ data 2).toNat.testBit 0)) (by decide) (by simp) (by simp) ?_ ?_
    · refine (valueGet_eq (tag := 1) hv ht (do pure (.bool (← v.boolField 16 false))) rfl).trans ?_
      rw [hb]
      rfl
    · cases (byteZ data 2).toNat.testBit 0 with
      | true => exact name "True" _ (isName_of_decide (by decide)) rfl
      | false => exact name "False" _ (isName_of_decide (by decide)) rfl
  | int fmt h =>
    refine hint fmt _ rfl ?_ (by cases fmt <;> decide) (by simp) (by simp)
    cases fmt with
    | f => cases h
    | d => cases h
    | b =>
      refine (valueGet_eq (tag := 2) hv ht (do pure (.int (← v.primField 2 .b 0))) rfl).trans ?_
      rw [show v.primField 2 .b 0 = _ from prim 2 .b (by decide)]; rfl
    | h =>
      refine (valueGet_eq (tag := 3) hv ht (do pure (.int (← v.primField 2 .h 0))) rfl).trans ?_
      rw [show v.primField 2 .h 0 = _ from prim 2 .h (by decide)]; rfl
    | i =>
      refine (valueGet_eq (tag := 4) hv ht (do pure (.int (← v.primField 4 .i 0))) rfl).trans ?_
      rw [show v.primField 4 .i 0 = _ from prim 4 .i (by decide)]; rfl
    | q =>
      refine (valueGet_eq (tag := 5) hv ht (do pure (.int (← v.primField 8 .q 0))) rfl).trans ?_
      rw [show v.primField 8 .q 0 = _ from prim 8 .q (by decide)]; rfl
    | B =>
      refine (valueGet_eq (tag := 6) hv ht (do pure (.int (← v.primField 2 .B 0))) rfl).trans ?_
      rw [show v.primField 2 .B 0 = _ from prim 2 .B (by decide)]; rfl
    | H =>
      refine (valueGet_eq (tag := 7) hv ht (do pure (.int (← v.primField 2 .H 0))) rfl).trans ?_
      rw [show v.primField 2 .H 0 = _ from prim 2 .H (by decide)]; rfl
    | I =>
      refine (valueGet_eq (tag := 8) hv ht (do pure (.int (← v.primField 4 .I 0))) rfl).trans ?_
      rw [show v.primField 4 .I 0 = _ from prim 4 .I (by decide)]; rfl
    | Q =>
      refine (valueGet_eq (tag := 9) hv ht (do pure (.int (← v.primField 8 .Q 0))) rfl).trans ?_
      rw [show v.primField 8 .Q 0 = _ from prim 8 .Q (by decide)]; rfl
  | text s h =>
    have hd : v.readTextBytes 0 = .ok (some s) := (C10_data v data ptrs hv 0).2.2 s h
    refine key (.bytes s) (by decide) (by simp) (by simp) ?_ (C70_bytes_literal env s)
    refine (valueGet_eq (tag := 12) hv ht (do pure (.ofBytes (← v.readTextBytes 0))) rfl).trans ?_
    rw [hd]; rfl
  | noText h =>
    have hd : v.readTextBytes 0 = .ok none := ((C10_data v data ptrs hv 0).1 h).2
    refine key .none (by decide) (by simp) (by simp) ?_ (name "None" _ (isName_of_decide (by decide)) rfl)
    refine (valueGet_eq (tag := 12) hv ht (do pure (.ofBytes (← v.readTextBytes 0))) rfl).trans ?_
    rw [hd]; rfl
  | data n b h =>
    have hd : v.readData 0 none 0 = .ok (some b) := ((C10_data v data ptrs hv 0).2.1 n b h).2
    refine key (.bytes b) (by decide) (by simp) (by simp) ?_ (C70_bytes_literal env b)
    refine (valueGet_eq (tag := 13) hv ht (do pure (.ofBytes (← v.readData 0 none 0))) rfl).trans ?_
    rw [hd]; rfl
  | noData h =>
    have hd : v.readData 0 none 0 = .ok none := ((C10_data v data ptrs hv 0).1 h).1
    refine key .none (by decide) (by simp) (by simp) ?_ (name "None" _ (isName_of_decide (by decide)) rfl)
    refine (valueGet_eq (tag := 13) hv ht (do pure (.ofBytes (← v.readData 0 none 0))) rfl).trans ?_
    rw [hd]; rfl
  | enum id =>
    refine hint .H _ rfl ?_ (by show 15 < 19; decide) (by simp) (by simp)
    refine (valueGet_eq (tag := 15) hv ht (do pure (.int (← v.primField 2 .H 0))) rfl).trans ?_
    rw [show v.primField 2 .H 0 = _ from prim 2 .H (by decide)]; rfl
  | interface =>
    exact key .none (by decide) (by simp) (by simp) (valueGet_eq hv ht (.ok .none) rfl)
      (name "None" _ (isName_of_decide (by decide)) rfl)

/-- C70: a float constant is written with `repr`; the text of a finite float is a number literal (not modelled), but
`inf` and `nan` are names that the module does not have: the import fails with NameError. -/
theorem C70_float_nonfinite (g : Gen) (pyx : Bool) (tt : TextType) (fr : Fmt → Int → Str) (fuel : Nat) (env : Env)
    {v : StructObj} {data : Bytes} {ptrs : List Val} (hv : Denotes v (.struct data ptrs)) {fmt : Fmt}
    (hf : isInt fmt = false) (ht : valueTag data = tagOf (.prim fmt)) {n : Str}
    (hr : fr fmt (valueOf fmt (bytesZ data fmt.size fmt.size)) = n) (hn : n = "inf".toList ∨ n = "nan".toList) :
    ∃ s, constDecl g pyx tt fr fuel (.prim fmt) v = .ok s ∧ evalText env s = .error .nameError := by
  have prim : v.primField fmt.size fmt 0 = .ok (valueOf fmt (bytesZ data fmt.size fmt.size)) := by
    have := C09_prim v data ptrs hv fmt.size fmt (dvd_refl _) 0
    rwa [xor_zero_right] at this
  have he : evalText env n = .error .nameError := by
    rcases hn with rfl | rfl
    · rw [evalText_of (Rend.name (s := "inf".toList) (isName_of_decide (by decide)))]; rfl
    · rw [evalText_of (Rend.name (s := "nan".toList) (isName_of_decide (by decide)))]; rfl
  refine ⟨n, ?_, he⟩
  show (do let val ← asPyobj v; pure (val.repr fr) : Py Str) = _
  rw [asPyobj_ok hv ht (by cases fmt <;> decide)]
  have hg : valueGet v (tagOf (.prim fmt)) = .ok (.float fmt (valueOf fmt (bytesZ data fmt.size fmt.size))) := by
    cases fmt with
    | f =>
      refine (valueGet_eq (tag := 10) hv ht (do pure (.float .f (← v.primField 4 .f 0))) rfl).trans ?_
      rw [show v.primField 4 .f 0 = _ from prim]; rfl
    | d =>
      refine (valueGet_eq (tag := 11) hv ht (do pure (.float .d (← v.primField 8 .d 0))) rfl).trans ?_
      rw [show v.primField 8 .d 0 = _ from prim]; rfl
    | _ => cases hf
  rw [hg]
  show (Except.ok (fr fmt _) : Py Str) = _
  rw [hr]

/-- C70: an AnyPointer constant that is not null: the text is no Python expression, the import fails with
SyntaxError. -/
theorem C70_any_pointer (g : Gen) (pyx : Bool) (tt : TextType) (fr : Fmt → Int → Str) (fuel : Nat) (env : Env)
    {v : StructObj} {data : Bytes} {ptrs : List Val} (hv : Denotes v (.struct data ptrs)) (ht : valueTag data = 18)
    (h0 : child ptrs 0 ≠ .null) :
    ∃ s, constDecl g pyx tt fr fuel .anyPointer v = .ok s ∧ evalText env s = .error .syntaxError := by
  refine ⟨(PyVal.anyPointer ⟨v, 0⟩).repr fr, ?_, ?_⟩
  · show (do let val ← asPyobj v; pure (val.repr fr) : Py Str) = _
    rw [asPyobj_ok (tag := 18) hv ht (by decide), valueGet_eq (tag := 18) hv ht (valuePtr v) rfl, valuePtr_some hv h0]
    rfl
  · unfold evalText
    have : PyExpr.parse ((PyVal.anyPointer ⟨v, 0⟩).repr fr) = none := by
      show PyExpr.parse "<capnpy.anypointer.AnyPointer object at 0x7f0000000000>".toList = none
      decide +kernel
    rw [this]

/-- C70: if the member of the `Value` that is set does not fit the type of a struct or list constant, the compiler
fails with ValueError. -/
theorem C70_wrong_member {g : Gen} (hg : g.reflection = true) {pyx : Bool} {tt : TextType} {fr : Fmt → Int → Str}
    {fuel : Nat} {v : StructObj} {data : Bytes} {ptrs : List Val} (hv : Denotes v (.struct data ptrs)) :
    (∀ elem, valueTag data ≠ 14 → constDecl g pyx tt fr fuel (.list elem) v = .error .valueError) ∧
    (∀ id name, nodeName g fuel id [] = .ok name → valueTag data ≠ 16 →
      constDecl g pyx tt fr fuel (.struct id) v = .error .valueError) := by
  refine ⟨fun elem h => ?_, fun id name hname h => ?_⟩
  · show (do if !g.reflection then .error .notImplemented
             else do
               let val ← (← valueGet v 14).asList
               let itemType ← listItemType g pyx tt fuel elem
               pure (declareListConst val itemType) : Py Str) = _
    have e : valueGet v 14 = .error .valueError := by
      show (do v.ensureUnion (some 0) ((14 : Nat) : Int); valuePtr v : Py PyVal) = _
      rw [ensure_ok hv, if_neg (by exact_mod_cast h)]
      rfl
    rw [if_neg (by rw [hg]; decide), e]
    rfl
  · show (do let clsname ← nodeName g fuel id []
             let val ← (← valueGet v 16).asStruct
             if g.reflection then pure (declareConst clsname val (some reflSeg))
             else do
               let val ← val.compact fuel
               pure (declareConst clsname val none) : Py Str) = _
    have e : valueGet v 16 = .error .valueError := by
      show (do v.ensureUnion (some 0) ((16 : Nat) : Int); valuePtr v : Py PyVal) = _
      rw [ensure_ok hv, if_neg (by exact_mod_cast h)]
      rfl
    rw [bind_okP hname, e]
    rfl

/-! ## In a module -/

variable {g : Gen} {file : Tree}

theorem isName_under (ok : FileOK g file) {p : List Str} {t : Tree} (h : Sub file p t) (hc : Classy t.node) :
    IsName (under p) ∧ under p ≠ "_List".toList := by
  obtain ⟨c, r, e, hu⟩ := h.under_upper ok hc
  refine ⟨⟨fun x hx => ?_, c, r, e, ?_⟩, ?_⟩
  · rcases mem_join hx with rfl | ⟨s, hs, hx⟩
    · decide
    · have := (h.plain ok s hs).2 x hx
      unfold PyExpr.isWord
      rw [this]
      rfl
  · unfold Char.isUpper at hu
    simp only [Bool.and_eq_true, decide_eq_true_eq, ge_iff_le, UInt32.le_iff_toNat_le] at hu
    have e1 : 'A'.val.toNat = 65 := rfl
    unfold Char.isDigit
    simp only [Bool.and_eq_false_imp, decide_eq_true_eq, decide_eq_false_iff_not, ge_iff_le, UInt32.le_iff_toNat_le]
    have e2 : '9'.val.toNat = 57 := rfl
    omega
  · intro h'
    rw [h'] at e
    have e : '_' :: "List".toList = c :: r := e
    injection e with e _
    subst e
    exact absurd hu (by decide)

theorem length_lt {F : Nat} (hF : Deep file F) {p : List Str} {t : Tree} (h : Sub file p t) : p.length < F := by
  have := hF p t h
  have : p ≠ [] := h.ne_nil
  have : 0 < p.length := List.length_pos_iff.mpr this
  omega

theorem nodeName_own (ok : FileOK g file) {F : Nat} (hF : Deep file F) {p : List Str} {t : Tree} (h : Sub file p t) (pre : Str) :
    nodeName g F t.node.id pre = .ok (pre ++ under p) := by
  unfold nodeName
  rw [bind_okP (node_eq ok (h.mem ok))]
  exact h.compileName ok pre (length_lt hF h)

theorem classAt_of {σ : State} {a : Nat} {id : Nat} (h : HasId σ (.ref a) id) (cls : Nat → Option Cls) :
    classAt σ cls a = cls id := by
  unfold classAt
  have h : σ.getattr (.ref a) "__capnpy_id__".toList = .ok (.int id) := h
  rw [h]

theorem cls_own {σ : State} {cls : Nat → Option Cls} {header : Str → Option Cls} {pyx : Bool} {refl : Option Seg}
    {s : Str} {a : Nat} (h : σ.evalPath [] s = .ok (.ref a)) {x : Cls} (hx : classAt σ cls a = some x) :
    (envOf σ cls header pyx refl).cls s = some x := by
  show (match σ.evalPath [] s with
    | .ok (.ref a) => classAt σ cls a
    | _ => header s) = _
  rw [h]
  exact hx

/-- C70: a struct constant in a module: its type is a struct of the file, the class is the one that the import of the
module made for this type, and its value is that from the schema. -/
theorem C70_struct_in_module (ok : FileOK g file) (sup : Supported g file) {F : Nat} (hF : Deep file F) {σ0 σ : State}
    (hi : Module.importModule g F σ0 = .ok σ) {cls : Nat → Option Cls} (hcl : ClassesOK file cls)
    (header : Str → Option Cls) (pyx : Bool) (tt : TextType) (fr : Fmt → Int → Str) (hg : g.reflection = true)
    {p : List Str} {t : Tree} (h : Sub file p t) (hst : Node.isStruct t.node) (hgr : ¬ Node.isGroup t.node)
    {v : StructObj} {data : Bytes} {ptrs : List Val} (hv : Denotes v (.struct data ptrs)) (ht : valueTag data = 16)
    {d : Bytes} {q : List Val} (hc : child ptrs 0 = .struct d q) :
    ∃ s o c ds ps, constDecl g pyx tt fr F (.struct t.node.id) v = .ok s ∧ cls t.node.id = some (.struct c ds ps) ∧
      evalText (envOf σ cls header pyx (some v.seg)) s = .ok (.struct c o) ∧ Denotes o (.struct d q) := by
  obtain ⟨a, -, h2, hid, -⟩ := C52_types ok sup hF hi h (.inl ⟨hst, hgr⟩)
  have k1 := classAt_of hid cls
  obtain ⟨c, ds, ps, k3⟩ := (hcl p t h).1 hst
  obtain ⟨hn, hl⟩ := isName_under ok h (.inl hst)
  obtain ⟨s, o, e1, e2, e3, -⟩ := C70_struct (pyx := pyx) (tt := tt) (fr := fr) hg hv ht hc (nodeName_own ok hF h []) hn hl
    (env := envOf σ cls header pyx (some v.seg)) (cls_own h2 (k1.trans k3)) rfl
  exact ⟨s, o, c, ds, ps, e1, k3, e2, e3⟩

/-- C70: the same without reflection data. -/
theorem C70_struct_compact_in_module (ok : FileOK g file) (sup : Supported g file) {F : Nat} (hF : Deep file F) {σ0 σ : State}
    (hi : Module.importModule g F σ0 = .ok σ) {cls : Nat → Option Cls} (hcl : ClassesOK file cls)
    (header : Str → Option Cls) (pyx : Bool) (tt : TextType) (fr : Fmt → Int → Str) (hg : g.reflection = false)
    {p : List Str} {t : Tree} (h : Sub file p t) (hst : Node.isStruct t.node) (hgr : ¬ Node.isGroup t.node)
    {v : StructObj} {data : Bytes} {ptrs : List Val} (hv : Denotes v (.struct data ptrs)) (ht : valueTag data = 16)
    {d : Bytes} {q : List Val} (hc : child ptrs 0 = .struct d q)
    (hf : (Val.struct d q).Fits) (hlen : v.seg.buf.length ≤ 2 ^ 32) (hsz : 8 + (Val.struct d q).size ≤ 2 ^ 32)
    (hfuel : 2 * (Val.struct d q).depth ≤ F + 1) :
    ∃ s o c ds ps, constDecl g pyx tt fr F (.struct t.node.id) v = .ok s ∧ cls t.node.id = some (.struct c ds ps) ∧
      evalText (envOf σ cls header pyx none) s = .ok (.struct c o) ∧ Denotes o (.struct d q) := by
  obtain ⟨a, -, h2, hid, -⟩ := C52_types ok sup hF hi h (.inl ⟨hst, hgr⟩)
  have k1 := classAt_of hid cls
  obtain ⟨c, ds, ps, k3⟩ := (hcl p t h).1 hst
  obtain ⟨hn, hl⟩ := isName_under ok h (.inl hst)
  obtain ⟨s, o, e1, e2, e3, -⟩ := C70_struct_compact (pyx := pyx) (tt := tt) (fr := fr) hg hv ht hc hf hlen hsz hfuel
    (nodeName_own ok hF h []) hn hl
    (env := envOf σ cls header pyx none) (cls_own h2 (k1.trans k3))
  exact ⟨s, o, c, ds, ps, e1, k3, e2, e3⟩

/-! ## C71 -/

theorem prebuilt_lower {s : Str} {i : Const.Item} (h : prebuilt s = some i) : ∃ c r, s = '_' :: c :: r ∧ c.isLower = true := by
  unfold prebuilt at h
  split at h
  · rename_i e; exact ⟨_, _, e, by decide⟩
  split at h
  · rename_i e; exact ⟨_, _, e, by decide⟩
  split at h
  · rename_i e; exact ⟨_, _, e, by decide⟩
  split at h
  · rename_i e; exact ⟨_, _, e, by decide⟩
  split at h
  · rename_i e; exact ⟨_, _, e, by decide⟩
  split at h
  · rename_i x e
    have := List.find?_some e
    have := beq_iff_eq.mp this
    have hm := List.mem_of_find?_eq_some e
    have key : ∀ x ∈ typesTable, ∃ c r, x.1.toList = c :: r ∧ c.isLower = true := by
      intro x hx
      have : (x.1.toList.head?.any Char.isLower) = true := (by decide : ∀ x ∈ typesTable, (x.1.toList.head?.any Char.isLower) = true) x hx
      cases h : x.1.toList with
      | nil => rw [h] at this; cases this
      | cons c r => rw [h] at this; exact ⟨c, r, rfl, this⟩
    obtain ⟨c, r, h1, h2⟩ := key x hm
    rw [this, h1]
    exact ⟨c, _, rfl, h2⟩
  · cases h

theorem items_own (ok : FileOK g file) {p : List Str} {t : Tree} (h : Sub file p t) (hc : Classy t.node) {σ : State}
    {cls : Nat → Option Cls} {header : Str → Option Cls} {pyx : Bool} {refl : Option Seg} {a : Nat}
    (hs : σ.evalPath [] (itemTypeName (under p)) = .ok (.itemType a)) :
    (envOf σ cls header pyx refl).items (['_'] ++ under p ++ itemSuffix) =
      match classAt σ cls a with
      | some (.struct c d p) => some (.struct c d p)
      | some (.enum c) => some (.enum c)
      | none => none := by
  have hp : (if pyx then prebuilt (['_'] ++ under p ++ itemSuffix) else none) = none := by
    cases pyx with
    | false => rfl
    | true =>
      rw [if_pos rfl]
      cases e : prebuilt (['_'] ++ under p ++ itemSuffix) with
      | none => rfl
      | some i =>
        obtain ⟨c, r, e', hl⟩ := prebuilt_lower e
        obtain ⟨c', r', e'', hu⟩ := h.under_upper ok hc
        rw [e''] at e'
        have e' : '_' :: c' :: (r' ++ itemSuffix) = '_' :: c :: r := e'
        injection e' with _ e'
        injection e' with e' _
        subst e'
        rw [isUpper_not_lower hu] at hl
        cases hl
  show (match if pyx then prebuilt (['_'] ++ under p ++ itemSuffix) else none with
    | some i => some i
    | none =>
      match σ.evalPath [] (['_'] ++ under p ++ itemSuffix) with
      | .ok (.itemType a) =>
        match classAt σ cls a with
        | some (.struct c d p) => some (Const.Item.struct c d p)
        | some (.enum c) => some (.enum c)
        | none => none
      | _ => none) = _
  rw [hp]
  show (match σ.evalPath [] (itemTypeName (under p)) with
      | .ok (.itemType a) =>
        match classAt σ cls a with
        | some (.struct c d p) => some (Const.Item.struct c d p)
        | some (.enum c) => some (.enum c)
        | none => none
      | _ => none) = _
  rw [hs]

theorem rend_call1 {f : Str} (hf : IsName f) {arg : Str} {e : Expr} (h : Rend arg e) : Rend (callText f arg) (.call f [e]) :=
  Rend.call hf (.cons h .nil)

theorem rend_call0 {f : Str} (hf : IsName f) : Rend (f ++ ['(', ')']) (.call f []) := by
  have := Rend.call hf .nil
  have e : f ++ ['('] ++ Repr.join [] ++ [')'] = f ++ ['(', ')'] := by simp [Repr.join]
  rwa [e] at this

theorem item_spec (ok : FileOK g file) (sup : Supported g file) {F : Nat} (hF : Deep file F) {σ0 σ : State}
    (hi : Module.importModule g F σ0 = .ok σ) {cls : Nat → Option Cls} (hcl : ClassesOK file cls)
    (header : Str → Option Cls) (pyx : Bool) (refl : Option Seg) {tt : TextType} (htt : tt ≠ .notset) {ty : STy}
    (own : OwnType file ty) (hc : Concrete ty) :
    ∃ s e it, listItemType g pyx tt F ty = .ok s ∧ Rend s e ∧ itemOf cls tt ty = some it ∧
      evalItem (envOf σ cls header pyx refl) e = .ok it := by
  have pre : pyx = true → ∀ (n : Str) (it : Const.Item), prebuilt n = some it →
      evalItem (envOf σ cls header pyx refl) (.name n) = .ok it := by
    intro hp n it hn
    subst hp
    have : (envOf σ cls header true refl).items n = some it := by
      show (match if true = true then prebuilt n else none with
        | some i => some i
        | none => _) = _
      rw [if_pos rfl, hn]
    unfold evalItem
    rw [this]
  have ow : ∀ p t, Sub file p t → Node.isType t.node → ∃ it,
      (match cls t.node.id with
      | some (.struct c d p) => some (Const.Item.struct c d p)
      | some (.enum c) => some (.enum c)
      | none => none) = some it ∧
      evalItem (envOf σ cls header pyx refl) (.name (['_'] ++ under p ++ itemSuffix)) = .ok it ∧
      Rend (['_'] ++ under p ++ itemSuffix) (.name (['_'] ++ under p ++ itemSuffix)) := by
    intro p t h ht
    obtain ⟨a, -, h2, hid, h4⟩ := C52_types ok sup hF hi h ht
    have k1 := classAt_of hid cls
    obtain ⟨k2, k3⟩ := hcl p t h
    have hi := items_own (cls := cls) (header := header) (pyx := pyx) (refl := refl) ok h (Classy.of_type ht) h4
    rw [k1] at hi
    have hn : IsName (['_'] ++ under p ++ itemSuffix) := by
      have h0 := (isName_under ok h (Classy.of_type ht)).1
      refine ⟨fun c hc => ?_, '_', under p ++ itemSuffix, rfl, by decide⟩
      rcases List.mem_append.mp hc with hc | hc
      · rcases List.mem_append.mp hc with hc | hc
        · rw [List.mem_singleton.mp hc]; decide
        · exact h0.1 c hc
      · exact (by decide : ∀ c ∈ itemSuffix, PyExpr.isWord c = true) c hc
    have hx : ∃ it, (match cls t.node.id with
      | some (.struct c d p) => some (Const.Item.struct c d p)
      | some (.enum c) => some (.enum c)
      | none => none) = some it := by
      rcases ht with ⟨ht, -⟩ | ht
      · obtain ⟨c, d, p, e⟩ := k2 ht
        rw [e]; exact ⟨_, rfl⟩
      · obtain ⟨c, e⟩ := k3 ht
        rw [e]; exact ⟨_, rfl⟩
    obtain ⟨it, hx⟩ := hx
    refine ⟨it, hx, ?_, Rend.name hn⟩
    rw [hx] at hi
    unfold evalItem
    rw [hi]
  induction ty with
  | interface => exact hc.elim
  | anyPointer => exact hc.elim
  | void =>
    cases pyx with
    | true => exact ⟨_, _, _, rfl, Rend.name (isName_of_decide (by cases tt <;> decide)), rfl, pre rfl _ _ (by cases tt <;> decide)⟩
    | false => exact ⟨_, _, _, rfl, rend_call0 (f := "_VoidItemType".toList) (isName_of_decide (by decide)), rfl, rfl⟩
  | bool =>
    cases pyx with
    | true => exact ⟨_, _, _, rfl, Rend.name (isName_of_decide (by cases tt <;> decide)), rfl, pre rfl _ _ (by cases tt <;> decide)⟩
    | false => exact ⟨_, _, _, rfl, rend_call0 (f := "_BoolItemType".toList) (isName_of_decide (by decide)), rfl, rfl⟩
  | prim fmt =>
    cases pyx with
    | true =>
      refine ⟨_, _, .prim fmt, rfl, Rend.name (isName_of_decide (by cases tt <;> cases fmt <;> decide)), rfl, pre rfl _ _ ?_⟩
      cases tt <;> cases fmt <;> decide
    | false =>
      refine ⟨_, _, .prim fmt, rfl, rend_call1 (isName_of_decide (by decide))
        (Rend.name (isName_of_decide (by cases fmt <;> decide))), rfl, ?_⟩
      cases fmt <;> rfl
  | text =>
    cases pyx with
    | true =>
      cases tt with
      | notset => exact absurd rfl htt
      | bytes => exact ⟨_, _, _, rfl, Rend.name (isName_of_decide (by decide)), rfl, pre rfl _ _ (by decide)⟩
      | unicode => exact ⟨_, _, _, rfl, Rend.name (isName_of_decide (by decide)), rfl, pre rfl _ _ (by decide)⟩
    | false =>
      cases tt with
      | notset => exact absurd rfl htt
      | bytes =>
        exact ⟨_, _, _, rfl, rend_call1 (isName_of_decide (by decide)) (Rend.name (isName_of_decide (by decide))), rfl, rfl⟩
      | unicode =>
        exact ⟨_, _, _, rfl, rend_call1 (isName_of_decide (by decide)) (Rend.name (isName_of_decide (by decide))), rfl, rfl⟩
  | data =>
    cases pyx with
    | true => exact ⟨_, _, _, rfl, Rend.name (isName_of_decide (by cases tt <;> decide)), rfl, pre rfl _ _ (by cases tt <;> decide)⟩
    | false =>
      exact ⟨_, _, _, rfl, rend_call1 (isName_of_decide (by decide)) (Rend.name (isName_of_decide (by decide))), rfl, rfl⟩
  | list e ih =>
    obtain ⟨s, x, it, h1, h2, h3, h4⟩ := ih own hc
    refine ⟨callText "_ListItemType".toList s, .call "_ListItemType".toList [x], .list it, ?_,
      rend_call1 (isName_of_decide (by decide)) h2, ?_, ?_⟩
    · show (do pure (callText "_ListItemType".toList (← listItemType g pyx tt F e)) : Py Str) = _
      rw [h1]
      rfl
    · show (itemOf cls tt e).map Const.Item.list = _
      rw [h3]
      rfl
    · show (do pure (Const.Item.list (← evalItem (envOf σ cls header pyx refl) x)) : Py Const.Item) = _
      rw [h4]
      rfl
  | enum i =>
    obtain ⟨p, t, h, rfl, ht⟩ := own
    obtain ⟨it, k1, k2, k3⟩ := ow p t h (.inr ht)
    refine ⟨_, _, it, ?_, k3, ?_, k2⟩
    · show (do let name ← nodeName g F t.node.id ['_']
               if pyx && (← g.isImported F (← g.node t.node.id)) then
                 pure (callText "_EnumItemType".toList (← nodeName g F t.node.id []))
               else pure (name ++ itemSuffix) : Py Str) = _
      rw [bind_okP (nodeName_own ok hF h ['_']), bind_okP (node_eq ok (h.mem ok)), bind_okP (h.isImported ok (length_lt hF h)),
        Bool.and_false]
      rfl
    · obtain ⟨c, e⟩ := (hcl p t h).2 ht
      rw [e] at k1
      show (match cls t.node.id with
        | some (.enum c) => some (Const.Item.enum c)
        | _ => none) = _
      rw [e]
      exact k1
  | struct i =>
    obtain ⟨p, t, h, rfl, ht, hgr⟩ := own
    obtain ⟨it, k1, k2, k3⟩ := ow p t h (.inl ⟨ht, hgr⟩)
    refine ⟨_, _, it, ?_, k3, ?_, k2⟩
    · show (do let name ← nodeName g F t.node.id ['_']
               if pyx && (← g.isImported F (← g.node t.node.id)) then
                 pure (callText "_StructItemType".toList (← nodeName g F t.node.id []))
               else pure (name ++ itemSuffix) : Py Str) = _
      rw [bind_okP (nodeName_own ok hF h ['_']), bind_okP (node_eq ok (h.mem ok)), bind_okP (h.isImported ok (length_lt hF h)),
        Bool.and_false]
      rfl
    · obtain ⟨c, d, q, e⟩ := (hcl p t h).1 ht
      rw [e] at k1
      show (match cls t.node.id with
        | some (.struct c d p) => some (Const.Item.struct c d p)
        | _ => none) = _
      rw [e]
      exact k1

/-- C71: the item type that the compiler writes for a list of `ty` (in Python and in Cython modules) is, when the module
is imported, the item type that a list of `ty` should have. -/
theorem C71_item (ok : FileOK g file) (sup : Supported g file) {F : Nat} (hF : Deep file F) {σ0 σ : State}
    (hi : Module.importModule g F σ0 = .ok σ) {cls : Nat → Option Cls} (hcl : ClassesOK file cls)
    (header : Str → Option Cls) (pyx : Bool) (refl : Option Seg) {tt : TextType} (htt : tt ≠ .notset) {ty : STy}
    (own : OwnType file ty) (hc : Concrete ty) :
    ∃ s it, listItemType g pyx tt F ty = .ok s ∧ itemOf cls tt ty = some it ∧
      evalItemText (envOf σ cls header pyx refl) s = .ok it := by
  obtain ⟨s, e, it, h1, h2, h3, h4⟩ := item_spec ok sup hF hi hcl header pyx refl htt own hc
  exact ⟨s, it, h1, h3, (evalItemText_of h2).trans h4⟩

/-- C71: `ItemType.from_type` gives this item type, too. -/
theorem C71_from_type {cls : Nat → Option Cls} {tt : TextType} {ty : STy} {it : Const.Item} (h : itemOf cls tt ty = some it) :
    ∃ t, ptOf cls tt ty = some t ∧ fromType t = .ok it := by
  induction ty generalizing it with
  | interface => cases h
  | anyPointer => cases h
  | void => cases h; exact ⟨_, rfl, rfl⟩
  | bool => cases h; exact ⟨_, rfl, rfl⟩
  | prim fmt => cases h; exact ⟨_, rfl, rfl⟩
  | data => cases h; exact ⟨_, rfl, rfl⟩
  | text =>
    cases tt with
    | notset => cases h
    | bytes => cases h; exact ⟨_, rfl, rfl⟩
    | unicode => cases h; exact ⟨_, rfl, rfl⟩
  | list e ih =>
    cases he : itemOf cls tt e with
    | none =>
      have h : (itemOf cls tt e).map Const.Item.list = some it := h
      rw [he] at h
      cases h
    | some i =>
      have h : (itemOf cls tt e).map Const.Item.list = some it := h
      rw [he] at h
      cases h
      obtain ⟨t, h1, h2⟩ := ih he
      refine ⟨.list [t], ?_, ?_⟩
      · show (ptOf cls tt e).map (fun t => PT.list [t]) = _
        rw [h1]
        rfl
      · show (do pure (Const.Item.list (← fromType t)) : Py Const.Item) = _
        rw [h2]
        rfl
  | enum i =>
    have h : (match cls i with | some (.enum c) => some (Const.Item.enum c) | _ => none) = some it := h
    show ∃ t, (match cls i with | some (.enum c) => some (PT.enum c) | _ => none) = some t ∧ _
    split at h
    · cases h; exact ⟨_, rfl, rfl⟩
    · cases h
  | struct i =>
    have h : (match cls i with | some (.struct c d p) => some (Const.Item.struct c d p) | _ => none) = some it := h
    show ∃ t, (match cls i with | some (.struct c d p) => some (PT.struct c d p) | _ => none) = some t ∧ _
    split at h
    · cases h; exact ⟨_, rfl, rfl⟩
    · cases h

/-- C71: so a list field (or constant) of the module has the item type that `as_list` makes of the corresponding Python
type. -/
theorem C71_same (ok : FileOK g file) (sup : Supported g file) {F : Nat} (hF : Deep file F) {σ0 σ : State}
    (hi : Module.importModule g F σ0 = .ok σ) {cls : Nat → Option Cls} (hcl : ClassesOK file cls)
    (header : Str → Option Cls) (pyx : Bool) (refl : Option Seg) {tt : TextType} (htt : tt ≠ .notset) {ty : STy}
    (own : OwnType file ty) (hc : Concrete ty) :
    ∃ s t it, listItemType g pyx tt F ty = .ok s ∧ ptOf cls tt ty = some t ∧ fromType t = .ok it ∧
      evalItemText (envOf σ cls header pyx refl) s = .ok it := by
  obtain ⟨s, it, h1, h2, h3⟩ := C71_item ok sup hF hi hcl header pyx refl htt own hc
  obtain ⟨t, k1, k2⟩ := C71_from_type h2
  exact ⟨s, t, it, h1, k1, k2, h3⟩

/-- C70: a list constant in a module: its item type is the one of its element type, its value that from the schema. -/
theorem C70_list_in_module (ok : FileOK g file) (sup : Supported g file) {F : Nat} (hF : Deep file F) {σ0 σ : State}
    (hi : Module.importModule g F σ0 = .ok σ) {cls : Nat → Option Cls} (hcl : ClassesOK file cls)
    (header : Str → Option Cls) (pyx : Bool) (fr : Fmt → Int → Str) (hg : g.reflection = true) {tt : TextType}
    (htt : tt ≠ .notset) {elem : STy} (own : OwnType file elem) (hcon : Concrete elem)
    {v : StructObj} {data : Bytes} {ptrs : List Val} (hv : Denotes v (.struct data ptrs)) (ht : valueTag data = 14)
    (h0 : child ptrs 0 ≠ .null) (hns : ∀ d p, child ptrs 0 ≠ .struct d p) :
    ∃ s it l, constDecl g pyx tt fr F (.list elem) v = .ok s ∧ itemOf cls tt elem = some it ∧
      evalText (envOf σ cls header pyx (some v.seg)) s = .ok (.list it l) ∧ l.itemType = it.toItemType ∧
      ListDenotes l (child ptrs 0) := by
  obtain ⟨s, e, it, h1, h2, h3, h4⟩ := item_spec ok sup hF hi hcl header pyx (some v.seg) htt own hcon
  obtain ⟨s', l, k1, k2, k3, k4, -⟩ := C70_list (fr := fr) hg hv ht h0 hns h1 h2 h4 rfl
  exact ⟨s', it, l, k1, h3, k2, k3, k4⟩

/-- C71: `list_item_type` is a NotImplementedError for interfaces and AnyPointers, and in Python modules for texts
without `text_type`; also inside lists. -/
theorem C71_unsupported (g : Gen) (pyx : Bool) (tt : TextType) (fuel n : Nat) :
    (∀ ty, ty = .interface ∨ ty = .anyPointer →
      listItemType g pyx tt fuel (Nat.rec ty (fun _ e => STy.list e) n) = .error .notImplemented) ∧
    listItemType g false .notset fuel (Nat.rec .text (fun _ e => STy.list e) n) = .error .notImplemented := by
  have step : ∀ pyx tt e, listItemType g pyx tt fuel e = .error .notImplemented →
      listItemType g pyx tt fuel (.list e) = .error .notImplemented := by
    intro pyx tt e h
    show (do pure (callText "_ListItemType".toList (← listItemType g pyx tt fuel e)) : Py Str) = _
    rw [h]
    rfl
  induction n with
  | zero => exact ⟨fun ty h => by rcases h with rfl | rfl <;> rfl, rfl⟩
  | succ n ih => exact ⟨fun ty h => step _ _ _ (ih.1 ty h), step _ _ _ ih.2⟩

/-- C71: `from_type` refuses `Types.text` (one has to say `bytes` or `str`), other types, and lists that do not have
exactly one item; also inside lists. -/
theorem C71_refused (n : Nat) :
    (∀ t, t = .builtin .text ∨ t = .other → fromType (Nat.rec t (fun _ e => PT.list [e]) n) = .error .notImplemented) ∧
    ∀ ts, ts.length ≠ 1 → fromType (Nat.rec (.list ts) (fun _ e => PT.list [e]) n) = .error .valueError := by
  have step : ∀ t e, fromType t = .error e → fromType (.list [t]) = .error e := by
    intro t e h
    show (do pure (Const.Item.list (← fromType t)) : Py Const.Item) = _
    rw [h]
    rfl
  induction n with
  | zero =>
    refine ⟨fun t h => by rcases h with rfl | rfl <;> rfl, fun ts h => ?_⟩
    match ts with
    | [] => rfl
    | [t] => exact absurd rfl h
    | a :: b :: r => rfl
  | succ n ih => exact ⟨fun t h => step _ _ (ih.1 t h), fun ts h => step _ _ (ih.2 ts h)⟩

/-- C71: `int` and `float` are `Types.int64` and `Types.float64`. -/
theorem C71_aliases (n : Nat) :
    fromType (Nat.rec .int (fun _ e => PT.list [e]) n) = fromType (Nat.rec (.builtin (.prim .q)) (fun _ e => PT.list [e]) n) ∧
    fromType (Nat.rec .float (fun _ e => PT.list [e]) n) = fromType (Nat.rec (.builtin (.prim .d)) (fun _ e => PT.list [e]) n) := by
  have step : ∀ t u, fromType t = fromType u → fromType (.list [t]) = fromType (.list [u]) := by
    intro t u h
    show (do pure (Const.Item.list (← fromType t)) : Py Const.Item) = (do pure (Const.Item.list (← fromType u)) : Py Const.Item)
    rw [h]
  induction n with
  | zero => exact ⟨rfl, rfl⟩
  | succ n ih => exact ⟨step _ _ ih.1, step _ _ ih.2⟩

/-- C71: the text for a type of another file.  In a Cython module it names the class.  In a Python module it is the name of
an item type in the other module, and every part of the path of the type gets an underscore. -/
theorem C71_imported {g : Gen} {f : Module.Node} (hf : f.isFile = true) (hs : f.scopeId = 0) (hc : f.id ≠ g.current) {imp : Str}
    (hi : g.importname f.id = some imp) {p : List Str} {n : Module.Node} (h : Chain g f p n) (hn : g.node n.id = .ok n)
    (tt : TextType) {fuel : Nat} (hl : p.length < fuel) :
    listItemType g false tt fuel (.struct n.id) = .ok (imp ++ (p.map fun s => "._".toList ++ s).flatten ++ "_list_item_type".toList) ∧
    listItemType g false tt fuel (.enum n.id) = .ok (imp ++ (p.map fun s => "._".toList ++ s).flatten ++ "_list_item_type".toList) ∧
    listItemType g true tt fuel (.struct n.id) = .ok ("_StructItemType(".toList ++ dotted (imp :: p) ++ ")".toList) ∧
    listItemType g true tt fuel (.enum n.id) = .ok ("_EnumItemType(".toList ++ dotted (imp :: p) ++ ")".toList) := by
  have e1 : nodeName g fuel n.id ['_'] = .ok (imp ++ (p.map fun s => "._".toList ++ s).flatten) := by
    unfold nodeName
    rw [bind_okP hn]
    unfold Module.Gen.compileName
    rw [bind_okP (chain_imported hf hc h hl), if_pos rfl]
    exact chain_fullname hf hs hi h _ hl
  have e2 : nodeName g fuel n.id [] = .ok (dotted (imp :: p)) := by
    unfold nodeName
    rw [bind_okP hn]
    exact C51_imported hf hs hc hi h hl
  have s1 : ∀ (b : Bool) (k : Str) (r : Py Str), r = (do
      let name ← nodeName g fuel n.id ['_']
      if b && (← g.isImported fuel (← g.node n.id)) then pure (callText k (← nodeName g fuel n.id []))
      else pure (name ++ itemSuffix) : Py Str) →
      r = .ok (if b then callText k (dotted (imp :: p)) else imp ++ (p.map fun s => "._".toList ++ s).flatten ++ itemSuffix) := by
    intro b k r hr
    rw [hr, bind_okP e1, bind_okP hn, bind_okP (chain_imported hf hc h hl), Bool.and_true]
    cases b with
    | false => rfl
    | true => rw [if_pos rfl, bind_okP e2]; rfl
  have s2 : ∀ (k k' : Str) (a : Str), k' = k ++ ['('] → callText k a = k' ++ a ++ ")".toList := by
    intro k k' a h
    rw [h]
    rfl
  refine ⟨s1 false "_StructItemType".toList _ rfl, s1 false "_EnumItemType".toList _ rfl, ?_, ?_⟩
  · rw [s1 true "_StructItemType".toList (listItemType g true tt fuel (.struct n.id)) rfl, if_pos rfl,
      s2 _ "_StructItemType(".toList _ (by decide)]
  · rw [s1 true "_EnumItemType".toList (listItemType g true tt fuel (.enum n.id)) rfl, if_pos rfl,
      s2 _ "_EnumItemType(".toList _ (by decide)]

/-! ## Concrete cases -/

/-- A `Value` of two data words and one pointer, and a payload of one word behind the pointer. -/
def exValueBuf (tag : Nat) (ptr payload : Nat) : Bytes :=
  leBytes 8 tag ++ leBytes 8 0 ++ leBytes 8 ptr ++ leBytes 8 payload

def exStructV : StructObj := objAt (exValueBuf 16 (structWord 0 1 0) 77) none 0 2 1
def exTextV : StructObj := objAt (exValueBuf 12 (listWord 0 2 3) 0x276e) none 0 2 1
def exListV : StructObj := objAt (exValueBuf 14 (listWord 0 4 2) 0x0000000700000009) none 0 2 1
def exIntV : StructObj := objAt (leBytes 8 (2 ^ 32 * 5 + 4) ++ leBytes 8 0 ++ leBytes 8 0) none 0 2 1

theorem exStructV_denotes : Denotes exStructV (.struct (leBytes 8 16 ++ leBytes 8 0) [.struct (leBytes 8 77) []]) := by
  refine ⟨_, none, 0, 2, 1, _, _, rfl, (by intro t h; cases h), by norm_num, by norm_num, by norm_num,
    ⟨by decide, by decide, rfl, ?_⟩, rfl⟩
  intro j v hj
  match j, hj with
  | 0, hj =>
    cases hj
    refine .struct _ _ 24 _ [] (by decide) (by decide) (by decide) (by decide) (by decide) (by decide) ?_
    intro j v h; simp at h
  | j + 1, hj => simp at hj

theorem exTextV_denotes : Denotes exTextV (.struct (leBytes 8 12 ++ leBytes 8 0) [.listPrim 2 3 ([0x6e, 0x27] ++ [0])]) := by
  refine ⟨_, none, 0, 2, 1, _, _, rfl, (by intro t h; cases h), by norm_num, by norm_num, by norm_num,
    ⟨by decide, by decide, rfl, ?_⟩, rfl⟩
  intro j v hj
  match j, hj with
  | 0, hj =>
    cases hj
    exact Den.listPrim (B := exValueBuf 12 (listWord 0 2 3) 0x276e) (offs := none) ((0 + 8 * 2 + 8 * 0 : Nat) : Int)
      (wordAt (exValueBuf 12 (listWord 0 2 3) 0x276e) (0 + 8 * 2 + 8 * 0)) 24 (by decide) (by decide) (by decide) (by decide)
  | j + 1, hj => simp at hj

theorem exListV_denotes : Denotes exListV (.struct (leBytes 8 14 ++ leBytes 8 0) [.listPrim 4 2 [9, 0, 0, 0, 7, 0, 0, 0]]) := by
  refine ⟨_, none, 0, 2, 1, _, _, rfl, (by intro t h; cases h), by norm_num, by norm_num, by norm_num,
    ⟨by decide, by decide, rfl, ?_⟩, rfl⟩
  intro j v hj
  match j, hj with
  | 0, hj =>
    cases hj
    exact Den.listPrim (B := exValueBuf 14 (listWord 0 4 2) 0x0000000700000009) (offs := none) ((0 + 8 * 2 + 8 * 0 : Nat) : Int)
      (wordAt (exValueBuf 14 (listWord 0 4 2) 0x0000000700000009) (0 + 8 * 2 + 8 * 0)) 24 (by decide) (by decide) (by decide)
      (by decide)
  | j + 1, hj => simp at hj

theorem exIntV_denotes : Denotes exIntV (.struct (leBytes 8 (2 ^ 32 * 5 + 4) ++ leBytes 8 0) [.null]) := by
  refine ⟨_, none, 0, 2, 1, _, _, rfl, (by intro t h; cases h), by norm_num, by norm_num, by norm_num,
    ⟨by decide, by decide, rfl, ?_⟩, rfl⟩
  intro j v hj
  match j, hj with
  | 0, hj =>
    cases hj
    exact Den.null _
  | j + 1, hj => simp at hj

def exCls : Nat → Option Cls
  | 2 => some (.struct 2 1 2)
  | 3 => some (.struct 3 1 0)
  | 4 => some (.enum 4)
  | 6 => some (.struct 6 1 2)
  | _ => none

def clsB (n : Module.Node) : Bool :=
  match n.kind with
  | .struct .. => match exCls n.id with | some (.struct ..) => true | _ => false
  | .enum _ => match exCls n.id with | some (.enum _) => true | _ => false
  | _ => true

theorem exCls_ok : ClassesOK exFile exCls := by
  have key : ∀ p t, Sub exFile p t → clsB t.node = true := fun p t h =>
    List.all_eq_true.mp (by decide +kernel : (exFile.all.all fun x => clsB x.2.node) = true) (p, t) (sub_all h)
  intro p t h
  have k := key p t h
  unfold clsB at k
  refine ⟨fun hs => ?_, fun hs => ?_⟩
  · obtain ⟨_, _, _, _, hs⟩ := hs
    rw [hs] at k
    simp only at k
    split at k
    · rename_i c d q e; exact ⟨c, d, q, e⟩
    · cases k
  · obtain ⟨_, hs⟩ := hs
    rw [hs] at k
    simp only at k
    split at k
    · rename_i c e; exact ⟨c, e⟩
    · cases k

theorem exInner : Sub exFile ["Outer".toList, "Inner".toList] (leaf (nd 3 2 "Inner" (.struct false 0 (some []) false))) :=
  .kid (p := ["Outer".toList]) (.top (file := exFile) List.mem_cons_self) List.mem_cons_self

/-- The file, its import and the value meet the hypotheses: a constant of type `Outer.Inner`. -/
example : ∃ σ s o c ds ps, Module.importModule (genOf exFile) 10 fresh = .ok σ ∧
    constDecl (genOf exFile) false .bytes (fun _ _ => []) 10 (.struct 3) exStructV = .ok s ∧ exCls 3 = some (.struct c ds ps) ∧
    evalText (envOf σ exCls (fun _ => none) false (some exStructV.seg)) s = .ok (.struct c o) ∧
    Denotes o (.struct (leBytes 8 77) []) := by
  obtain ⟨σ, hi⟩ := C52_imports exFile_ok.1 exFile_ok.2.1 exFile_ok.2.2 fresh
  obtain ⟨s, o, c, ds, ps, h⟩ := C70_struct_in_module exFile_ok.1 exFile_ok.2.1 exFile_ok.2.2 hi exCls_ok (fun _ => none) false
    .bytes (fun _ _ => []) rfl exInner ⟨_, _, _, _, rfl⟩ (by rintro ⟨_, _, _, h⟩; cases h) exStructV_denotes (by decide) rfl
  exact ⟨σ, s, o, c, ds, ps, hi, h⟩

/-- A list of lists of `Outer.Inner`, in Python and in Cython modules. -/
example (pyx : Bool) : ∃ σ s it, Module.importModule (genOf exFile) 10 fresh = .ok σ ∧
    listItemType (genOf exFile) pyx .unicode 10 (.list (.list (.struct 3))) = .ok s ∧
    itemOf exCls .unicode (.list (.list (.struct 3))) = some it ∧
    evalItemText (envOf σ exCls (fun _ => none) pyx none) s = .ok it := by
  obtain ⟨σ, hi⟩ := C52_imports exFile_ok.1 exFile_ok.2.1 exFile_ok.2.2 fresh
  obtain ⟨s, it, h⟩ := C71_item exFile_ok.1 exFile_ok.2.1 exFile_ok.2.2 hi exCls_ok (fun _ => none) pyx none (tt := .unicode)
    (by decide) (ty := .list (.list (.struct 3)))
    ⟨_, _, exInner, rfl, ⟨_, _, _, _, rfl⟩, by rintro ⟨_, _, _, h⟩; cases h⟩ trivial
  exact ⟨σ, s, it, hi, h⟩

example : itemOf exCls .unicode (.list (.list (.struct 3))) = some (.list (.list (.struct 3 1 0))) := rfl
example : itemOf exCls .unicode (.list .text) = some (.list .textUnicode) := rfl

/-- A list constant `[9, 7]` of `List(Int32)`. -/
example : ∃ σ s it l, Module.importModule (genOf exFile) 10 fresh = .ok σ ∧
    constDecl (genOf exFile) true .bytes (fun _ _ => []) 10 (.list (.prim .i)) exListV = .ok s ∧
    itemOf exCls .bytes (.prim .i) = some it ∧
    evalText (envOf σ exCls (fun _ => none) true (some exListV.seg)) s = .ok (.list it l) ∧ l.itemType = it.toItemType ∧
    ListDenotes l (.listPrim 4 2 [9, 0, 0, 0, 7, 0, 0, 0]) := by
  obtain ⟨σ, hi⟩ := C52_imports exFile_ok.1 exFile_ok.2.1 exFile_ok.2.2 fresh
  obtain ⟨s, it, l, h⟩ := C70_list_in_module exFile_ok.1 exFile_ok.2.1 exFile_ok.2.2 hi exCls_ok (fun _ => none) true
    (fun _ _ => []) rfl (tt := .bytes) (by decide) (elem := .prim .i) trivial trivial exListV_denotes (by decide)
    (by show Val.listPrim 4 2 _ ≠ Val.null; simp) (by intro d p; show Val.listPrim 4 2 _ ≠ Val.struct d p; simp)
  exact ⟨σ, s, it, l, hi, h⟩

/-- A text constant with an `'` in it is written with double quotes, and it is bytes also with `text_type = unicode`. -/
example (env : Env) : ∃ s, constDecl (genOf exFile) false .unicode (fun _ _ => []) 10 .text exTextV = .ok s ∧
    evalText env s = .ok (.bytes [0x6e, 0x27]) :=
  C70_plain _ _ _ _ _ env exTextV_denotes (by decide) (.text [0x6e, 0x27] rfl)

example : constDecl (genOf exFile) false .unicode (fun _ _ => []) 10 .text exTextV = .ok "b\"n'\"".toList := by decide +kernel

example (env : Env) : ∃ s, constDecl (genOf exFile) false .bytes (fun _ _ => []) 10 (.prim .i) exIntV = .ok s ∧
    evalText env s = .ok (.int 5) := by
  have := C70_plain (genOf exFile) false .bytes (fun _ _ => []) 10 env exIntV_denotes (ty := .prim .i) (by decide) (.int .i rfl)
  exact this

/-- A file that imports `exFile` as `x`. -/
def exImporter : Gen := ⟨nodesOf exFile ++ [nd 100 0 "y.capnp" .file], 100, fun i => if i = 1 then some "x".toList else none, true⟩

/-- C71, negative: in a Python module the item type of a nested type of another file has a name that the other module does
not have: `x._Outer._Inner_list_item_type` instead of `x._Outer_Inner_list_item_type`.  The one of a top-level type is right. -/
theorem C71_nested_import_fails :
    listItemType exImporter false .bytes 10 (.struct 3) = .ok "x._Outer._Inner_list_item_type".toList ∧
    afterImport exFile "_Outer._Inner_list_item_type" = .error .nameError ∧
    (afterImport exFile "_Outer_Inner_list_item_type" matches .ok (.itemType _)) = true ∧
    listItemType exImporter false .bytes 10 (.struct 2) = .ok "x._Outer_list_item_type".toList ∧
    (afterImport exFile "_Outer_list_item_type" matches .ok (.itemType _)) = true ∧
    listItemType exImporter true .bytes 10 (.struct 3) = .ok "_StructItemType(x.Outer.Inner)".toList := by
  refine ⟨?_, ?_, ?_, ?_, ?_, ?_⟩ <;> decide +kernel

end Capnpy.Props
