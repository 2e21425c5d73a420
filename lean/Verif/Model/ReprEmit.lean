import Verif.Model.StructEmit
import Verif.Model.Repr

/-!
# Model of how the compiler writes the method `shortrepr` of a struct of the schema

Model/Repr.lean starts from classes whose fields have a name, a discriminant and a kind, and runs them.  Here the
statements of `shortrepr` are made from a struct node of the request (capnpy/compiler/struct_.py:206-272), together with
the methods `is_x`, `has_x` and `get_x` of the class, which they call by name (capnpy/compiler/field.py,
capnpy/compiler/struct_.py:99-158).  Properties are those of Model/StructEmit.lean.

Not modelled: the references to nested classes (`Inner = Outer_Inner`), the static methods of groups (`Position`) and the
other names of the class body, which could override an attribute; virtual groups (Model/Group.lean).  As in
Model/Repr.lean, a Python `str` is a list of characters and Python 3 is assumed.
-/

namespace Capnpy.ReprEmit

open Const (STy TextType PyVal)
open Module (Str Gen)
open FieldEmit (Slot Getter Ctx tag)
open StructEmit (SField SNode Env PyProp PyClass)
open Capnpy.Repr (RItem)

/-! ## The attributes of the class -/

/-- The attributes: properties, and the methods `get_x`, `has_x` and `is_x`. -/
inductive Attr
  | prop (p : PyProp)
  | getText (unicode : Bool) (offset : Nat)
  | getData (offset : Nat)
  /-- `res = self.{name}; if res is None: return {structcls}.from_buffer(…)` -/
  | getStruct (name : String) (cls : Str)
  | getList (name : String) (item : Str)
  | has (offset : Nat)
  /-- `self._read_int16({tag_offset}) == {i}` -/
  | isTag (offset i : Nat)

/-- The methods which are emitted after the property of a slot (capnpy/compiler/field.py:87-218). -/
def slotMethods (name : String) : Getter → List (String × Attr)
  | .textBytes off => [("get_" ++ name, .getText false off), ("has_" ++ name, .has off)]
  | .textUnicode off => [("get_" ++ name, .getText true off), ("has_" ++ name, .has off)]
  | .data off => [("get_" ++ name, .getData off), ("has_" ++ name, .has off)]
  | .struct cls off => [("get_" ++ name, .getStruct name cls), ("has_" ++ name, .has off)]
  | .list item off => [("get_" ++ name, .getList name item), ("has_" ++ name, .has off)]
  | .any off => [("has_" ++ name, .has off)]
  | _ => []

/-- One definition of `emitField` with the methods that follow it. -/
def propAttrs : String × PyProp → List (String × Attr)
  | (name, .slot en code) => (name, .prop (.slot en code)) :: slotMethods name code
  | (name, p) => [(name, .prop p)]

/-- `enum_items[field.discriminantValue] = m.py_field_name(field)` in a loop -/
def setTags : List SField → List (Option String) → Py (List (Option String))
  | [], items => .ok items
  | f :: fs, items =>
    if f.inUnion then
      if f.disc < items.length then setTags fs (items.set f.disc (some f.pyname)) else .error .indexError
    else setTags fs items

/-- capnpy/compiler/struct_.py:99-106 `_get_enum_items` -/
def enumItems (n : SNode) : Py (List (Option String)) :=
  if n.discCount = 0 then .ok [] else setTags n.fields (List.replicate n.discCount none)

/-- capnpy/compiler/struct_.py:142-148: `is_{item}` for every item; the text of a missing one is `None`. -/
def isMethods (offset : Nat) (items : List (Option String)) : List (String × Attr) :=
  items.mapIdx fun i item => ("is_" ++ item.getD "None", .isTag offset i)

/-! ## The statements of `shortrepr` -/

/-- The text after the `%` (capnpy/compiler/struct_.py:250-272 `_shortrepr_for_field`). -/
inductive Expr
  | float32 (x : String)
  | float64 (x : String)
  /-- `self.x` -/
  | attr (x : String)
  /-- `str(self.x).lower()` -/
  | lower (x : String)
  | void
  /-- `_text_bytes_repr(self.get_x())` -/
  | textBytes (x : String)
  | textUnicode (x : String)
  | data (x : String)
  /-- `self.get_x().shortrepr()` -/
  | getShortrepr (x : String)
  /-- `self.x.shortrepr()` -/
  | shortrepr (x : String)
  | unknown

/-- The condition before the `parts.append`. -/
inductive Guard
  | always
  | isTag (x : String)
  | has (x : String)
  /-- `self.is_x() and (self.has_x() or not {is_default_field})` -/
  | isAndHas (x : String) (isDefault : Bool)

/-- `if {guard}: parts.append("{capname} = %s" % {expr})` -/
structure Line where
  guard : Guard
  capname : Repr.Str
  expr : Expr

/-- capnpy/compiler/struct_.py:250-272 `_shortrepr_for_field`; `x` is `ns.pyname`. -/
def reprExpr (f : SField) (x : String) : Expr :=
  match f.kind with
  | .slot s =>
    if tag s.ty = 10 then .float32 x
    else if tag s.ty = 11 then .float64 x
    else if FieldEmit.isPrimitive s.ty || tag s.ty == 15 then .attr x
    else if tag s.ty = 1 then .lower x
    else if tag s.ty = 0 then .void
    else if tag s.ty = 12 && f.tt == .bytes then .textBytes x
    else if tag s.ty = 12 && f.tt == .unicode then .textUnicode x
    else if tag s.ty = 13 then .data x
    else if tag s.ty = 16 || tag s.ty == 14 then .getShortrepr x
    else .unknown
  | .group _ => .shortrepr x

/-- One turn of the loop (capnpy/compiler/struct_.py:216-247).  `is_nullable` and `assert f.is_group()`: a nullable slot
fails. -/
def reprLine (f : SField) : Py Line := do
  let x ← (if f.nullable then
    match f.kind with
    | .group _ => .ok ("_" ++ f.pyname)
    | .slot _ => .error .assertionError
    else .ok f.pyname : Py String)
  let guard :=
    if f.inUnion && f.isPointer then Guard.isAndHas x (f.disc == 0)
    else if f.inUnion then .isTag x
    else if f.isPointer then .has x
    else .always
  pure ⟨guard, f.cname.toList, reprExpr f x⟩

/-- `for f in fields` -/
def reprLines : List SField → Py (List Line)
  | [] => .ok []
  | f :: fs => do
    let l ← reprLine f
    let ls ← reprLines fs
    pure (l :: ls)

/-- The class which is emitted: the attributes in the order of their definitions, `__tag_offset__`, the method
`shortrepr`. -/
structure ReprClass where
  attrs : List (String × Attr)
  tagOffset : Option Nat
  lines : List Line

/-- capnpy/compiler/struct_.py:51-92 `emit_definition`, up to `_emit_repr` -/
def emitReprClass (e : Env) (n : SNode) : Py ReprClass := do
  let items ← enumItems n
  let props ← StructEmit.emitFields e n.fields
  let lines ← reprLines n.fields
  pure ⟨isMethods (n.discOffset * 2) items ++ props.flatMap propAttrs,
    if n.discCount = 0 then none else some (n.discOffset * 2), lines⟩

/-! ## Running it -/

/-- The generated module: its classes, by the id of the node; what the names of struct classes, enum classes and item
types in the text stand for; the static sizes of the classes; the repr of floats. -/
structure Mod where
  classes : Nat → ReprClass
  structs : Str → Option Nat
  enums : Str → Option (List String)
  items : Str → Option RItem
  renv : Repr.Env

/-- `{ensure_union}` -/
def ensure (o : StructObj) (c : ReprClass) : Option Nat → Py Unit
  | none => pure ()
  | some tag => o.ensureUnion (c.tagOffset.map fun off => (off : Int)) tag

/-- `Getter.run` with the item types of the module. -/
def Mod.itemTypes (M : Mod) (s : Str) : Option ItemType := (M.items s).map (RItem.toItemType M.renv)

/-- `self.x`, for a slot: the value and the code of the property.  An attribute which is no property of a slot is a
method or a group: what is done with it fails. -/
def Mod.slotAttr (M : Mod) (c : ReprClass) (o : StructObj) (x : String) : Py (RVal × Getter) :=
  match StructEmit.lookupLast x c.attrs with
  | none => .error .attributeError
  | some (.prop (.slot en code)) => do
    ensure o c en
    pure (← code.run M.itemTypes o, code)
  | some _ => .error .typeError

/-- `self.is_x()` and `self.has_x()`: if the attribute is a property, its value is called, which is an error. -/
def Mod.callBool (M : Mod) (c : ReprClass) (o : StructObj) (x : String) : Py Bool :=
  match StructEmit.lookupLast x c.attrs with
  | none => .error .attributeError
  | some (.has off) => o.hasField (off : Int)
  | some (.isTag off i) => do pure ((← o.readInt16 (off : Int)) == i)
  | some (.prop _) => do
    let _ ← M.slotAttr c o x
    .error .typeError
  | some _ => .error .typeError

/-- `"%s" % self.x`: `str` of an int, or of an enum. -/
def Mod.str (M : Mod) : RVal × Getter → Py Repr.Str
  | (.int v, .enum cls _ _) =>
    match M.enums cls with
    | some members => do pure (← Names.enumStr members v).toList
    | none => .error .nameError
  | (.int v, _) => .ok (Repr.intRepr v)
  | _ => .error .typeError

/-- `str(b).lower()` -/
def lowerBool : RVal → Py Repr.Str
  | .bool b => .ok (if b then ['t', 'r', 'u', 'e'] else ['f', 'a', 'l', 's', 'e'])
  | _ => .error .typeError

/-- Evaluating the expression on the instance `o` of the class `c`; `rec` is `shortrepr` of the classes. -/
def Expr.eval (M : Mod) (rec : Nat → StructObj → Py Repr.Str) (c : ReprClass) (o : StructObj) : Expr → Py Repr.Str
  | .float32 x => do
    match (← M.slotAttr c o x).1 with
    | .float v => pure (M.renv.floatRepr .f v)
    | _ => .error .typeError
  | .float64 x => do
    match (← M.slotAttr c o x).1 with
    | .float v => pure (M.renv.floatRepr .d v)
    | _ => .error .typeError
  | .attr x => do M.str (← M.slotAttr c o x)
  | .lower x => do lowerBool (← M.slotAttr c o x).1
  | .void => .ok ['v', 'o', 'i', 'd']
  | .textBytes x =>
    match StructEmit.lookupLast ("get_" ++ x) c.attrs with
    | some (.getText false off) => do Repr.textBytesRepr (← o.getText (off : Int))
    | some _ => .error .typeError
    | none => .error .attributeError
  | .textUnicode x =>
    match StructEmit.lookupLast ("get_" ++ x) c.attrs with
    | some (.getText true off) => do Repr.textUnicodeRepr (← Repr.decodeMaybe (← o.getText (off : Int)))
    | some _ => .error .typeError
    | none => .error .attributeError
  | .data x =>
    match StructEmit.lookupLast ("get_" ++ x) c.attrs with
    | some (.getData off) => do
      match (← o.getData (off : Int)) with
      | some b => pure (Repr.dataRepr b)
      | none => .error .attributeError
    | some _ => .error .typeError
    | none => .error .attributeError
  | .getShortrepr x =>
    match StructEmit.lookupLast ("get_" ++ x) c.attrs with
    | some (.getStruct name cls) => do
      match (← M.slotAttr c o name).1 with
      | .struct r =>
        match M.structs cls with
        | some id => rec id r
        | none => .error .nameError
      | .none =>
        match M.structs cls with
        | some id => do rec id (← StructObj.initFromBuffer ⟨[], none⟩ 0 0 0)
        | none => .error .nameError
      | _ => .error .typeError
    | some (.getList name item) => do
      match (← M.slotAttr c o name).1 with
      | .list l =>
        match M.items item with
        | some it => Repr.listRepr M.renv rec it l
        | none => .error .nameError
      | .none =>
        match M.items item with
        | some it => do Repr.listRepr M.renv rec it (← ListObj.init ⟨[], none⟩ 0 0 0 (it.toItemType M.renv))
        | none => .error .nameError
      | _ => .error .typeError
    | some _ => .error .typeError
    | none => .error .attributeError
  | .shortrepr x =>
    match StructEmit.lookupLast x c.attrs with
    | some (.prop (.group en cls)) => do
      ensure o c en
      rec cls (← StructObj.initFromBuffer o.seg o.dataOffset o.dataSize o.ptrsSize)
    | some _ => .error .typeError
    | none => .error .attributeError
  | .unknown => .ok ['?', '?', '?']

/-- Evaluating the condition. -/
def Guard.eval (M : Mod) (c : ReprClass) (o : StructObj) : Guard → Py Bool
  | .always => .ok true
  | .isTag x => M.callBool c o ("is_" ++ x)
  | .has x => M.callBool c o ("has_" ++ x)
  | .isAndHas x isDefault => do
    if (← M.callBool c o ("is_" ++ x)) then
      if (← M.callBool c o ("has_" ++ x)) then pure true else pure (!isDefault)
    else pure false

/-- The statements, one after the other: `parts`. -/
def runLines (M : Mod) (rec : Nat → StructObj → Py Repr.Str) (c : ReprClass) (o : StructObj) : List Line → Py (List Repr.Str)
  | [] => pure []
  | l :: ls => do
    if (← l.guard.eval M c o) then do
      let s ← l.expr.eval M rec c o
      let rest ← runLines M rec c o ls
      pure ((l.capname ++ [' ', '=', ' '] ++ s) :: rest)
    else runLines M rec c o ls

/-- `o.shortrepr()` for an instance of the class of the node `id`; `fuel` is the recursion limit. -/
def Mod.shortrepr (M : Mod) : Nat → Nat → StructObj → Py Repr.Str
  | 0, _, _ => .error .recursionError
  | fuel + 1, id, o => do
    let parts ← runLines M (M.shortrepr fuel) (M.classes id) o (M.classes id).lines
    pure (['('] ++ Repr.join parts ++ [')'])

end Capnpy.ReprEmit
