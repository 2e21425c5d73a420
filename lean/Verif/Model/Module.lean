import Verif.Model.List
import Verif.Model.Names

/-!
# Model of the generated module

capnpy/compiler/ (node.py, struct_.py, enum.py, module.py, misc.py, request.py) emits a
Python module with a class for each struct, group and enum of a schema.  The model has
two parts: the generator, which turns the nodes of the request into statements, and an
interpreter of these statements, i.e. what importing the module does to the module's
namespace and to the class objects.  Python names are strings, including the dotted
expressions that the generator builds.

Modelled is pure Python mode (`m.pyx == False`).  Not modelled: `$Py.group` (fake nodes),
the bodies of the methods (only their names), `__module__` and similar attributes, and
what the classes inherit from `_Struct` and `_BaseEnum`.  Names are ASCII
(`as_identifier` raises otherwise).
-/

namespace Capnpy.Module

/-- A Python `str`. -/
abbrev Str := List Char

/-! ## The request -/

/-- The type of the elements of a list; `other` is AnyPointer or an interface. -/
inductive Ty
  | builtin
  | struct (id : Nat)
  | enum (id : Nat)
  | list (elem : Ty)
  | other
  deriving DecidableEq

/-- The type of a constant. -/
inductive ConstTy
  | plain
  | struct (id : Nat)
  | list (elem : Ty)
  deriving DecidableEq

/-- What attributes the accessors of a field have: a plain property; text, data, struct
and list fields; AnyPointer fields; groups. -/
inductive Shape
  | plain
  | pointer
  | anyPointer
  | group (nullable : Bool)
  deriving DecidableEq

/-- A field: the name in Python (`py_field_name`, Model/Names.lean), the discriminant if it
is part of the union. -/
structure Field where
  pyname : Str
  disc : Option Nat
  shape : Shape
  deriving DecidableEq

/-- The kinds of nodes.  `fields` is None if the list is a null pointer; `key` says whether
there is a `$Py.key` annotation. -/
inductive Kind
  | file
  | struct (isGroup : Bool) (discriminantCount : Nat) (fields : Option (List Field)) (key : Bool)
  | enum (members : List Str)
  | const (type : ConstTy)
  | annotation
  | interface
  deriving DecidableEq

/-- schema.capnp `Node`; `short` is `displayName[displayNamePrefixLength:]`. -/
structure Node where
  id : Nat
  scopeId : Nat
  short : Str
  kind : Kind
  deriving DecidableEq

/-- What the `ModuleGenerator` holds (capnpy/compiler/module.py:26-49): the nodes in the
order of the request, the id of `current_scope`, the import names of the files. -/
structure Gen where
  nodes : List Node
  current : Nat
  importname : Nat → Option Str
  reflection : Bool

/-- `m.allnodes[i]` (capnpy/compiler/module.py:45-46): a later node with the same id
replaces an earlier one. -/
def Gen.node (g : Gen) (i : Nat) : Py Node :=
  match g.nodes.reverse.find? (fun n => n.id == i) with
  | some n => .ok n
  | none => .error .keyError

/-- `m.children[i]` (capnpy/compiler/module.py:48) -/
def Gen.children (g : Gen) (i : Nat) : List Node := g.nodes.filter (fun n => n.scopeId == i)

/-! ## Names: capnpy/compiler/node.py -/

/-- capnpy/compiler/node.py:50-53 `get_parent` -/
def Gen.parent (g : Gen) (n : Node) : Py (Option Node) :=
  if n.scopeId = 0 then .ok none
  else do pure (some (← g.node n.scopeId))

/-- capnpy/compiler/node.py:61-63 `is_nested` -/
def Gen.isNested (g : Gen) (n : Node) : Py Bool := do
  match (← g.parent n) with
  | none => .error .attributeError
  | some p => pure (p.scopeId != 0)

/-- `node.is_file()` -/
def Node.isFile (n : Node) : Bool :=
  match n.kind with
  | .file => true
  | _ => false

/-- capnpy/compiler/node.py:65-71 `is_imported`; nodes are compared by id
(capnpy/schema_extended.py:49-50).  `fuel` bounds the number of iterations. -/
def Gen.isImported (g : Gen) : Nat → Node → Py Bool
  | 0, _ => .error .recursionError
  | fuel + 1, n =>
    if n.isFile && n.id != g.current then .ok true
    else do
      match (← g.parent n) with
      | none => .ok false
      | some p => g.isImported fuel p

/-- capnpy/compiler/node.py:73-78 `shortname` -/
def Gen.shortname (g : Gen) (n : Node) : Py Str :=
  if n.isFile then
    match g.importname n.id with
    | some s => .ok s
    | none => .error .keyError
  else .ok n.short

/-- capnpy/compiler/node.py:80-84 `_fullname` -/
def Gen.fullname (g : Gen) (sep : Str) : Nat → Node → Py Str
  | 0, _ => .error .recursionError
  | fuel + 1, n => do
    match (← g.parent n) with
    | none => g.shortname n
    | some p =>
      if p.id = g.current then g.shortname n
      else pure ((← g.fullname sep fuel p) ++ sep ++ (← g.shortname n))

/-- capnpy/compiler/node.py:91-92 `runtime_name` -/
def Gen.runtimeName (g : Gen) (fuel : Nat) (n : Node) (sep : Str := ['.']) : Py Str :=
  g.fullname sep fuel n

/-- capnpy/compiler/node.py:86-89 `compile_name` -/
def Gen.compileName (g : Gen) (fuel : Nat) (n : Node) (prefix_ : Str := []) : Py Str := do
  if (← g.isImported fuel n) then g.runtimeName fuel n (['.'] ++ prefix_)
  else pure (prefix_ ++ (← g.fullname ['_'] fuel n))

/-! ## Emitted code -/

/-- Expressions.  `path` is a name, possibly dotted; `builtin` is an item type of list.py;
`instance_ p` is `p.from_buffer(...)`; `list e` is `_List.from_buffer(..., e)`; `value`
is anything else. -/
inductive Expr
  | path (s : Str)
  | builtin
  | listItem (e : Expr)
  | instance_ (cls : Str)
  | list (item : Expr)
  | id (n : Nat)
  | value

/-- Statements at module level. -/
inductive Stmt
  /-- `class name(_Struct): pass; name.__name__ = 'dotname'` -/
  | declStruct (name dotname : Str)
  /-- `class name(_BaseEnum): ...; _fill_enum(name)`; a member None is a hole in the union -/
  | declEnum (name : Str) (id : Option Nat) (members : List (Option Str))
  /-- `class name(object): __capnpy_id__ = id ...` -/
  | declAnnotation (name : Str) (id : Nat)
  /-- `_name_list_item_type = _StructItemType(name)` or `_EnumItemType(name)` -/
  | itemType (name : Str)
  /-- `@name.__extend__` and a class statement with this body -/
  | extend (name : Str) (body : List (Str × Expr))
  /-- `name = e` -/
  | assign (name : Str) (e : Expr)

def itemTypeName (name : Str) : Str := ['_'] ++ name ++ "_list_item_type".toList

/-- capnpy/compiler/misc.py:33-78 `list_item_type` in pure Python mode: for a struct or enum
the name is that of the class with the prefix `_` and the suffix `_list_item_type`. -/
def Gen.listItemType (g : Gen) (fuel : Nat) : Ty → Py Expr
  | .struct i | .enum i => do
    pure (.path ((← g.compileName fuel (← g.node i) ['_']) ++ "_list_item_type".toList))
  | .list t => do pure (.listItem (← g.listItemType fuel t))
  | .builtin => .ok .builtin
  | .other => .error .notImplemented

/-- capnpy/compiler/node.py:147-179 `Node__Const.emit_reference_as_child`: the right-hand
side. -/
def Gen.constExpr (g : Gen) (fuel : Nat) : ConstTy → Py Expr
  | .plain => .ok .value
  | .struct i => do pure (.instance_ (← g.compileName fuel (← g.node i)))
  | .list t =>
    if g.reflection then do pure (.list (← g.listItemType fuel t)) else .error .notImplemented

/-- capnpy/compiler/struct_.py:97-100, enum.py:21-24, node.py:147-179, 100-101
`emit_reference_as_child`: the assignment, if any. -/
def Gen.emitRef (g : Gen) (fuel : Nat) (n : Node) : Py (List (Str × Expr)) :=
  match n.kind with
  | .struct isGroup _ _ _ => do
    if (← g.isNested n) && !isGroup then
      pure [(← g.shortname n, .path (← g.compileName fuel n))]
    else pure []
  | .enum _ => do
    if (← g.isNested n) then pure [(← g.shortname n, .path (← g.compileName fuel n))]
    else pure []
  | .const t => do pure [(← g.shortname n, ← g.constExpr fuel t)]
  | _ => .ok []

/-- capnpy/compiler/struct_.py:102-109 `_get_enum_items`: the assignments
`enum_items[field.discriminantValue] = name` to a list of `discriminantCount` Nones. -/
def getEnumItems (count : Nat) (fields : List Field) : Py (List (Option Str)) :=
  fields.foldlM (init := List.replicate count none) fun items f =>
    match f.disc with
    | none => .ok items
    | some d => if d < items.length then .ok (items.set d (some f.pyname)) else .error .indexError

/-- `_get_enum_items` of a node; iterating over None raises TypeError. -/
def enumItems (count : Nat) (fields : Option (List Field)) : Py (List (Option Str)) :=
  if count = 0 then .ok []
  else
    match fields with
    | none => .error .typeError
    | some fs => getEnumItems count fs

/-- `s.capitalize()` for ASCII -/
def capitalize : Str → Str
  | [] => []
  | c :: r => (if Names.isLower c then Char.ofNat (c.toNat - 32) else c) :: Names.lower r

/-- capnpy/compiler/field.py:27-262: the class attributes that the accessors of a field
set; `Capital` is the constructor-like static method of a group. -/
def fieldAttrs (f : Field) : List Str :=
  match f.shape with
  | .plain => [f.pyname]
  | .pointer => [f.pyname, "get_".toList ++ f.pyname, "has_".toList ++ f.pyname]
  | .anyPointer => [f.pyname, "has_".toList ++ f.pyname]
  | .group true => [f.pyname, ['_'] ++ f.pyname]
  | .group false => [f.pyname, capitalize f.pyname]

/-- The attributes that the class body sets after the references to the children
(capnpy/compiler/struct_.py:82-89, 119-204): union tag, `is_x`, fields, constructors
(`__new` is mangled with the class name), `shortrepr`, `_key`. -/
def classAttrs (name : Str) (isGroup : Bool) (items : List (Option Str)) (fields : Option (List Field))
    (key : Bool) : List Str :=
  (if items = [] then [] else "__tag_offset__".toList ::
    items.map (fun i => "is_".toList ++ (match i with | some s => s | none => "None".toList))) ++
  (match fields with
   | none => []
   | some fs =>
     fs.flatMap fieldAttrs ++
     (if isGroup then [] else
       (['_'] ++ name ++ "__new".toList) :: "__init__".toList ::
         (fs.filter (fun f => f.disc.isSome)).map (fun f => "new_".toList ++ f.pyname))) ++
  ["shortrepr".toList] ++ (if key then ["_key".toList] else [])

/-- capnpy/compiler/struct_.py:25-53, enum.py:14-19, node.py:94-95, 107-145
`emit_declaration` (the registration of `$Py.key` annotations is in
Model/Annotation.lean).  `fuel` is the recursion limit. -/
def Gen.emitDecl (g : Gen) : Nat → Node → Py (List Stmt)
  | 0, _ => .error .recursionError
  | fuel + 1, n =>
    match n.kind with
    | .struct _ count fields _ => do
      let kids ← ListObj.mapPy (g.emitDecl fuel) (g.children n.id)
      let name ← g.compileName (fuel + 1) n
      let dotname ← g.runtimeName (fuel + 1) n
      let items ← enumItems count fields
      let tag := if items = [] then [] else [Stmt.declEnum (name ++ "__tag__".toList) none items]
      pure (kids.flatten ++ [.declStruct name dotname] ++ tag)
    | .enum members => do
      let name ← g.compileName (fuel + 1) n
      pure [.declEnum name (some n.id) (members.map some), .itemType name]
    | .const _ => .ok []
    | .annotation => do pure [.declAnnotation (← g.shortname n) n.id]
    | .file | .interface => .error .assertionError

/-- The body of the class statement (capnpy/compiler/struct_.py:72-89). -/
def Gen.classBody (g : Gen) (fuel : Nat) (n : Node) (name : Str) (isGroup : Bool) (count : Nat)
    (fields : Option (List Field)) (key : Bool) : Py (List (Str × Expr)) := do
  let refs ← ListObj.mapPy (g.emitRef fuel) (g.children n.id)
  let items ← enumItems count fields
  pure ([("__capnpy_id__".toList, Expr.id n.id), ("__static_data_size__".toList, .value),
      ("__static_ptrs_size__".toList, .value)] ++ refs.flatten ++
    (if items = [] then [] else [("__tag__".toList, Expr.path (name ++ "__tag__".toList))]) ++
    (classAttrs name isGroup items fields key).map fun s => (s, Expr.value))

/-- capnpy/compiler/struct_.py:55-95, node.py:97-98 `emit_definition` -/
def Gen.emitDef (g : Gen) : Nat → Node → Py (List Stmt)
  | 0, _ => .error .recursionError
  | fuel + 1, n =>
    match n.kind with
    | .struct isGroup count fields key => do
      let kids ← ListObj.mapPy (g.emitDef fuel) (g.children n.id)
      let name ← g.compileName (fuel + 1) n
      let body ← g.classBody (fuel + 1) n name isGroup count fields key
      pure (kids.flatten ++ [.extend name body, .itemType name])
    | _ => .ok []

/-- capnpy/compiler/request.py:22-126 `RequestedFile.emit`: the statements after the
imports. -/
def Gen.emitModule (g : Gen) (fuel : Nat) : Py (List Stmt) := do
  let file ← g.node g.current
  let children := g.children file.id
  let decls ← ListObj.mapPy (g.emitDecl fuel) children
  let defs ← ListObj.mapPy (g.emitDef fuel) children
  let refs ← ListObj.mapPy (g.emitRef fuel) children
  pure ([.assign "__capnpy_id__".toList (.id file.id)] ++ decls.flatten ++ defs.flatten ++
    refs.flatten.map fun p => .assign p.1 p.2)

/-! ## What the emitted code does -/

/-- Python objects: a heap object (a class or a module), an int, a str, the item type of
the class at an address, a list item type, a builtin item type, an instance of the class at
an address, a list; None. -/
inductive Obj
  | ref (addr : Nat)
  | int (n : Nat)
  | str (s : Str)
  | itemType (cls : Nat)
  | listItem (item : Obj)
  | builtin
  | instance_ (cls : Nat)
  | list (item : Obj)
  | value
  | none
  deriving DecidableEq

/-- A Python dict with string keys: the newest binding comes first. -/
abbrev Dict := List (Str × Obj)

/-- The globals of the module, and the attributes of the heap objects. -/
structure State where
  globals : Dict
  heap : List Dict
  deriving DecidableEq

/-- Splitting a dotted name. -/
def split (c : Char) : Str → List Str
  | [] => [[]]
  | x :: r =>
    if x = c then [] :: split c r
    else
      match split c r with
      | [] => [[x]]
      | h :: t => (x :: h) :: t

/-- `obj.attr` -/
def State.getattr (σ : State) (o : Obj) (attr : Str) : Py Obj :=
  match o with
  | .ref a =>
    match (σ.heap[a]?).bind (fun d => d.lookup attr) with
    | some x => .ok x
    | none => .error .attributeError
  | _ => .error .attributeError

/-- A name, looked up in the local variables (of a class body) and then in the globals. -/
def State.lookup (σ : State) (locals : Dict) (s : Str) : Py Obj :=
  match locals.lookup s with
  | some x => .ok x
  | none =>
    match σ.globals.lookup s with
    | some x => .ok x
    | none => .error .nameError

/-- A dotted name. -/
def State.evalPath (σ : State) (locals : Dict) (s : Str) : Py Obj :=
  match split '.' s with
  | [] => .error .nameError
  | x :: attrs => do attrs.foldlM (fun o a => σ.getattr o a) (← σ.lookup locals x)

/-- An expression.  `from_buffer` is a class method: it works also on instances. -/
def State.eval (σ : State) (locals : Dict) : Expr → Py Obj
  | .path s => σ.evalPath locals s
  | .builtin => .ok .builtin
  | .listItem e => do pure (.listItem (← σ.eval locals e))
  | .instance_ cls => do
    match (← σ.evalPath locals cls) with
    | .ref a => .ok (.instance_ a)
    | .instance_ a => .ok (.instance_ a)
    | _ => .error .attributeError
  | .list e => do pure (.list (← σ.eval locals e))
  | .id n => .ok (.int n)
  | .value => .ok .value

/-- A class body: the local variables after it. -/
def State.execBody (σ : State) : Dict → List (Str × Expr) → Py Dict
  | locals, [] => .ok locals
  | locals, (s, e) :: r => do
    let x ← σ.eval locals e
    σ.execBody ((s, x) :: locals) r

/-- capnpy/enum.py:20-23 `fill_enum` and the class body of capnpy/compiler/module.py:172-190
`declare_enum`: the attributes of an enum class; member `i` is the int `i`.
`setattr(cls, None, ...)` raises TypeError.  Without members the line
`__members__ = (,)` is a syntax error, in fact of the whole module. -/
def enumDict (id : Option Nat) (members : List (Option Str)) : Py Dict := do
  if members = [] then .error .syntaxError
  else
    let ms ← ListObj.mapPy (fun m => match m with | some s => Except.ok s | none => .error .typeError) members
    pure ((ms.zipIdx.map fun x => (x.1, Obj.int x.2)).reverse ++
      [("_new".toList, .value), ("__members__".toList, .value),
        ("__capnpy_id__".toList, match id with | some i => .int i | none => .value)])

/-- A statement.  capnpy/util.py:35-41 `extend` copies the attributes of the new class to the
declared one and returns the latter. -/
def State.exec (σ : State) : Stmt → Py State
  | .declStruct name dotname =>
    .ok ⟨(name, .ref σ.heap.length) :: σ.globals, σ.heap ++ [[("__name__".toList, .str dotname)]]⟩
  | .declEnum name id members => do
    let d ← enumDict id members
    pure ⟨(name, .ref σ.heap.length) :: σ.globals, σ.heap ++ [d]⟩
  | .declAnnotation name id =>
    .ok ⟨(name, .ref σ.heap.length) :: σ.globals, σ.heap ++ [[("__capnpy_id__".toList, .int id)]]⟩
  | .itemType name => do
    match (← σ.lookup [] name) with
    | .ref a => .ok { σ with globals := (itemTypeName name, .itemType a) :: σ.globals }
    | _ => .error .attributeError
  | .extend name body => do
    match (← σ.lookup [] name) with
    | .ref a =>
      match σ.heap[a]? with
      | some d => do
        let locals ← σ.execBody [] body
        pure ⟨(name, .ref a) :: σ.globals, σ.heap.set a (locals ++ d)⟩
      | none => .error .attributeError
    | _ => .error .attributeError
  | .assign name e => do
    let x ← σ.eval [] e
    pure { σ with globals := (name, x) :: σ.globals }

/-- Statements, one after the other. -/
def State.run (σ : State) : List Stmt → Py State
  | [] => .ok σ
  | s :: r => do (← σ.exec s).run r

/-- Generating and importing the module; `σ` has the imported modules and the heap before. -/
def importModule (g : Gen) (fuel : Nat) (σ : State) : Py State := do
  σ.run (← g.emitModule fuel)

end Capnpy.Module
