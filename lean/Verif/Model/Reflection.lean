import Verif.Model.Imports
import Verif.Model.Options
import Verif.Model.AnyPointer

/-!
# Model of the reflection API

capnpy/reflection.py, on top of the part of the `ModuleGenerator` that it uses
(capnpy/compiler/module.py, node.py, struct_.py, enum.py; `Field.id` and
`get_struct_fields` of schema_extended.py), and how the same generator gives the names of
the fields to the emitted module (Model/Module.lean).

Simplifications.  No field has a `$Py.group` annotation (`handle_py_groups` then does nothing,
see Model/Group.lean).  Which classes get a `_key` is a parameter.  `includeReflectionData` of the file
holds for the whole file.  The generated class `_modname_ReflectionData` holds the request and
the default options as constants; the model keeps them as they are (`from_buffer` of a dumped
segment gives the same struct).
-/

namespace Capnpy.Reflection

open Capnpy.Module (Str)

/-! ## The request, with annotations and original names -/

/-- What reading a member of schema.capnp `Value` returns: None, an int, the bits of a float,
bytes, an `AnyPointer`. -/
inductive PyVal
  | none
  | bool (b : Bool)
  | int (i : Int)
  | float (bits : Nat)
  | bytes (b : Bytes)
  | anyPointer (p : AnyPtr)

/-- schema.capnp `Value`: the tag of the union, and what reading the active member returns. -/
structure Value where
  tag : Nat
  payload : PyVal

/-- capnpy/schema.py:175 `Value.__tag__.__members__`; the accessors have the same names. -/
def valueMembers : List String :=
  ["void", "bool", "int8", "int16", "int32", "int64", "uint8", "uint16", "uint32", "uint64", "float32", "float64",
    "text", "data", "list", "enum", "struct", "interface", "anyPointer"]

/-- `getattr(value, name)`: the accessor of a member which is not active raises ValueError
(capnpy/struct_.py `_ensure_union`). -/
def Value.getattr (v : Value) (name : String) : Py PyVal :=
  match valueMembers.idxOf? name with
  | some i => if i = v.tag then .ok v.payload else .error .valueError
  | none => .error .attributeError

/-- capnpy/compiler/misc.py:84-86 `as_pyobj` -/
def Value.asPyobj (v : Value) : Py PyVal := do
  v.getattr (← Names.enumStr valueMembers v.tag)

/-- schema.capnp `Annotation` -/
structure Annotation where
  id : Nat
  value : Value

/-- The kind of a field, as far as its accessors go. -/
inductive FieldKind
  | plain
  | pointer
  | anyPointer
  | group

/-- schema.capnp `Field` and `Enumerant` as objects: the original name, the annotations (None for
a null pointer), the discriminant, and the attribute `_id` (capnpy/schema_extended.py:311-333). -/
structure Member where
  name : Str
  annotations : Option (List Annotation)
  disc : Option Nat := none
  kind : FieldKind := .plain
  id : Option (Nat × Str) := none

/-- The kinds of nodes; `fields` and `enumerants` are None for a null pointer. -/
inductive Kind
  | file
  | struct (isGroup : Bool) (discriminantCount : Nat) (fields : Option (List Member))
  | enum (enumerants : Option (List Member))
  | const (type : Module.ConstTy)
  | annotation
  | interface

/-- schema.capnp `Node` -/
structure Node where
  id : Nat
  scopeId : Nat
  short : Str
  annotations : Option (List Annotation)
  kind : Kind

/-- capnpy/schema_extended.py:238-254 `get_struct_fields`: the fields with their ids. -/
def Node.getStructFields (n : Node) : Py (Option (List Member)) :=
  match n.kind with
  | .struct _ _ none => .ok none
  | .struct _ _ (some fs) => .ok (some (fs.map fun f => { f with id := some (n.id, f.name) }))
  | _ => .error .assertionError

/-- capnpy/schema_extended.py:256-267 `get_enum_enumerants` -/
def Node.getEnumEnumerants (n : Node) : Py (Option (List Member)) :=
  match n.kind with
  | .enum none => .ok none
  | .enum (some es) => .ok (some (es.map fun e => { e with id := some (n.id, e.name) }))
  | _ => .error .assertionError

/-- capnpy/schema_extended.py:311-321, 326-333: the property `id` of a field or enumerant. -/
def Member.getId (m : Member) : Py (Nat × Str) :=
  match m.id with
  | some i => .ok i
  | none => .error .valueError

/-- The ids of nodes, and of fields and enumerants. -/
abbrev EntId := Nat ⊕ (Nat × Str)

/-- schema.capnp `CodeGeneratorRequest`: the nodes, the ids of the requested files. -/
structure Req where
  nodes : List Node
  requested : List Nat

/-- `m.allnodes[i]` (capnpy/compiler/module.py:45-46): a later node with the same id replaces
an earlier one. -/
def Req.node (r : Req) (i : Nat) : Py Node :=
  match r.nodes.reverse.find? (fun n => n.id == i) with
  | some n => .ok n
  | none => .error .keyError

/-- `m.children[i]` (capnpy/compiler/module.py:48) -/
def Req.children (r : Req) (i : Nat) : List Node := r.nodes.filter (fun n => n.scopeId == i)

/-! ## Options -/

/-- capnpy/compiler/module.py:85-91: the first annotation with the id. -/
def firstAnn (annId : Nat) : List Annotation → Option Annotation
  | [] => none
  | a :: as => if a.id = annId then some a else firstAnn annId as

/-- capnpy/compiler/module.py:75-91 `has_annotation` of an object for which nothing was registered
(Model/Annotation.lean has the registered ones). -/
def hasAnn (anns : Option (List Annotation)) (annId : Nat) : Option Annotation :=
  match anns with
  | none => firstAnn annId []
  | some l => firstAnn annId ([] ++ l)

/-- capnpy/compiler/module.py:63: `ann.annotation.value.struct.as_struct(annotate.Options)`; the
options of `None` would be an AttributeError in `combine`. -/
def Annotation.options (a : Annotation) : Py StructObj := do
  match (← a.value.getattr "struct") with
  | .anyPointer p =>
    match (← p.asStruct) with
    | some o => .ok o
    | none => .error .attributeError
  | _ => .error .attributeError

/-- capnpy/compiler/module.py:59-67 `compute_options_generic` -/
def computeGeneric (t : OptTable EntId) (parent : StructObj) (id : EntId) (anns : Option (List Annotation)) :
    Py (OptTable EntId) := do
  match hasAnn anns optionsAnnId with
  | some ann =>
    let opt ← optCombine parent (← ann.options)
    pure ((id, opt) :: t)
  | none => pure ((id, parent) :: t)

/-- `for f in fields: f.compute_options(m, opt)` (capnpy/compiler/field.py, enum.py:29-30). -/
def computeMembers (opt : StructObj) : List Member → OptTable EntId → Py (OptTable EntId)
  | [], t => .ok t
  | f :: fs, t => do
    let id ← f.getId
    let t ← computeGeneric t opt (.inr id) f.annotations
    computeMembers opt fs t

/-- capnpy/compiler/struct_.py:19-23, enum.py:9-12: the members of a node; iterating over the
enumerants None raises TypeError. -/
def computeOwn (n : Node) (t : OptTable EntId) : Py (OptTable EntId) :=
  match n.kind with
  | .struct .. => do
    let opt ← t.get (.inl n.id)
    match (← n.getStructFields) with
    | some fs => computeMembers opt fs t
    | none => .ok t
  | .enum _ => do
    let opt ← t.get (.inl n.id)
    match (← n.getEnumEnumerants) with
    | some es => computeMembers opt es t
    | none => .error .typeError
  | _ => .ok t

/-- capnpy/compiler/node.py:55-59 `compute_options` and its overrides.  `fuel` is the recursion
limit. -/
def Req.computeNode (r : Req) : Nat → StructObj → Node → OptTable EntId → Py (OptTable EntId)
  | 0, _, _, _ => .error .recursionError
  | fuel + 1, parent, n, t => do
    let t ← computeGeneric t parent (.inl n.id) n.annotations
    let opt ← t.get (.inl n.id)
    let t ← (r.children n.id).foldlM (fun t c => r.computeNode fuel opt c t) t
    computeOwn n t

/-- The `ModuleGenerator`: the request and `_node_options`. -/
structure Generator where
  req : Req
  table : OptTable EntId

/-- capnpy/compiler/module.py:26-43, 54-57: a new `ModuleGenerator`. -/
def Generator.new (r : Req) (dflt : StructObj) (fuel : Nat) : Py Generator := do
  let t ← r.requested.foldlM (fun t f => do r.computeNode fuel dflt (← r.node f) t) []
  pure ⟨r, t⟩

/-- capnpy/compiler/util.py:3-31 `as_identifier` -/
def asIdentifier (s : Str) : Py Str := if s.all (fun c => c.toNat < 128) then .ok s else .error .valueError

/-- capnpy/compiler/module.py:148-158 `py_field_name` -/
def Generator.pyFieldName (g : Generator) (kwlist : List Str) (f : Member) : Py Str := do
  let name ← asIdentifier f.name
  let opt ← g.table.get (.inr (← f.getId))
  let cc ← boolOption (← optGet opt .convertCase)
  pure (Names.pyFieldName kwlist cc name)

/-! ## The emitted module -/

/-- The name that the accessor, or the enum member, gets.  The fields of other files have no
options; nothing is emitted for them, and the model keeps their names. -/
def Generator.emittedName (g : Generator) (kwlist : List Str) (f : Member) : Py Str :=
  match f.getId >>= fun i => g.table.get (.inr i) with
  | .ok _ => g.pyFieldName kwlist f
  | .error _ => .ok f.name

/-- `annotate.nullable.__capnpy_id__` (capnpy/annotate.py:57) -/
def nullableId : Nat := 0x9cc3dea2b1b5e7dd

/-- A field, as capnpy/compiler/field.py emits it: a group may be nullable
(capnpy/schema_extended.py:129-130). -/
def Generator.emitField (g : Generator) (kwlist : List Str) (f : Member) : Py Module.Field := do
  let name ← g.emittedName kwlist f
  pure ⟨name, f.disc, match f.kind with
    | .plain => .plain
    | .pointer => .pointer
    | .anyPointer => .anyPointer
    | .group => .group (hasAnn f.annotations nullableId).isSome⟩

/-- A node as Model/Module.lean has it.  (An enum of the own file whose enumerants are None has raised
TypeError already in `Generator.new`.) -/
def Generator.emitNode (g : Generator) (kwlist : List Str) (key : Nat → Bool) (n : Node) : Py Module.Node :=
  match n.kind with
  | .file => .ok ⟨n.id, n.scopeId, n.short, .file⟩
  | .struct isGroup count _ => do
    match (← n.getStructFields) with
    | none => .ok ⟨n.id, n.scopeId, n.short, .struct isGroup count none (key n.id)⟩
    | some fs =>
      let fs ← ListObj.mapPy (g.emitField kwlist) fs
      pure ⟨n.id, n.scopeId, n.short, .struct isGroup count (some fs) (key n.id)⟩
  | .enum _ => do
    match (← n.getEnumEnumerants) with
    | none => .ok ⟨n.id, n.scopeId, n.short, .enum []⟩
    | some es =>
      let es ← ListObj.mapPy (g.emittedName kwlist) es
      pure ⟨n.id, n.scopeId, n.short, .enum es⟩
  | .const ty => .ok ⟨n.id, n.scopeId, n.short, .const ty⟩
  | .annotation => .ok ⟨n.id, n.scopeId, n.short, .annotation⟩
  | .interface => .ok ⟨n.id, n.scopeId, n.short, .interface⟩

/-- The option `include_reflection_data` of the file (capnpy/compiler/request.py:99). -/
def Generator.included (g : Generator) (file : Nat) : Py Bool := do
  boolOption (← optGet (← g.table.get (.inl file)) .includeReflectionData)

/-- capnpy/compiler/request.py:16-18, 22-126: what the generator emits for its only requested
file, as a `Gen` of Model/Module.lean. -/
def Generator.gen (g : Generator) (kwlist : List Str) (key : Nat → Bool) (importname : Nat → Option Str) :
    Py Module.Gen :=
  match g.req.requested with
  | [file] => do
    let nodes ← ListObj.mapPy (g.emitNode kwlist key) g.req.nodes
    pure ⟨nodes, file, importname, ← g.included file⟩
  | _ => .error .assertionError

/-! ## reflection.py -/

/-- capnpy/reflection.py:15-33 `ReflectionData`; `m` is the attribute `_m`. -/
structure ReflectionData where
  request : Req
  default : StructObj
  m : Option Generator := none

/-- capnpy/compiler/request.py:99-102, 152-166: the attribute `_reflection_data` of the module. -/
def Generator.reflectionData (g : Generator) (dflt : StructObj) (file : Nat) : Py (Option ReflectionData) := do
  if (← g.included file) then pure (some ⟨g.req, dflt, none⟩) else pure none

/-- capnpy/reflection.py:6-11 `get_reflection_data` -/
def getReflectionData : Option ReflectionData → Py ReflectionData
  | some r => .ok r
  | none => .error .valueError

/-- capnpy/reflection.py:24-33: the property `m`, and the object afterwards. -/
def ReflectionData.getM (rd : ReflectionData) (fuel : Nat) : Py (Generator × ReflectionData) :=
  match rd.m with
  | some g => .ok (g, rd)
  | none => do
    let g ← Generator.new rd.request rd.default fuel
    pure (g, { rd with m := some g })

/-- What is given to `get_node`, `has_annotation`, `get_annotation`: an int, an object of the
imported module (in a state), a node, a field or enumerant. -/
inductive Arg
  | int (i : Nat)
  | obj (σ : Module.State) (o : Module.Obj)
  | node (n : Node)
  | field (f : Member)
  | enumerant (f : Member)

/-- `schema.Node.__capnpy_id__`, `schema.Field.__capnpy_id__`, `schema.Enumerant.__capnpy_id__`
(capnpy/schema.py:1076, 365, 1373). -/
def schemaNodeId : Nat := 0xe682ab4cf923a417
def schemaFieldId : Nat := 0x9aad50a41f4af45f
def schemaEnumerantId : Nat := 0x978a7cebdc549a4d

/-- capnpy/reflection.py:48-51: the id, which need not be an int (None for the tag of a union).
An instance gets the attribute of its class.  A member of an enum is an int (capnpy/enum.py:3).
Nodes, fields and enumerants are instances of classes of capnpy.schema, so that `__capnpy_id__` is
the id of that class. -/
def Arg.capnpyId : Arg → Py (Option Nat)
  | .int i | .obj _ (.int i) => .ok (some i)
  | .obj σ (.instance_ a) => do
    match (← σ.getattr (.ref a) "__capnpy_id__".toList) with
    | .int i => .ok (some i)
    | _ => .ok none
  | .obj σ o => do
    match (← σ.getattr o "__capnpy_id__".toList) with
    | .int i => .ok (some i)
    | _ => .ok none
  | .node _ => .ok (some schemaNodeId)
  | .field _ => .ok (some schemaFieldId)
  | .enumerant _ => .ok (some schemaEnumerantId)

/-- capnpy/reflection.py:39-52 `get_node` -/
def ReflectionData.getNode (rd : ReflectionData) (fuel : Nat) (a : Arg) : Py (Node × ReflectionData) := do
  let id ← a.capnpyId
  let (g, rd) ← rd.getM fuel
  match id with
  | some i => do pure (← g.req.node i, rd)
  | none => .error .keyError

/-- capnpy/reflection.py:63-68 `_get_annotation`; `anncls` is the id of the annotation class. -/
def ReflectionData.lookupAnn (rd : ReflectionData) (fuel : Nat) (a : Arg) (anncls : Nat) :
    Py (Option Annotation × ReflectionData) := do
  match a with
  | .node n => do
    let (_, rd) ← rd.getM fuel
    pure (hasAnn n.annotations anncls, rd)
  | .field f | .enumerant f => do
    let (_, rd) ← rd.getM fuel
    pure (hasAnn f.annotations anncls, rd)
  | a => do
    let (n, rd) ← rd.getNode fuel a
    let (_, rd) ← rd.getM fuel
    pure (hasAnn n.annotations anncls, rd)

/-- capnpy/reflection.py:54-58 `get_annotation` -/
def ReflectionData.getAnnotation (rd : ReflectionData) (fuel : Nat) (a : Arg) (anncls : Nat) :
    Py (PyVal × ReflectionData) := do
  let (ann, rd) ← rd.lookupAnn fuel a anncls
  match ann with
  | some ann => do pure (← ann.value.asPyobj, rd)
  | none => .error .keyError

/-- capnpy/reflection.py:60-62 `has_annotation` -/
def ReflectionData.hasAnnotation (rd : ReflectionData) (fuel : Nat) (a : Arg) (anncls : Nat) :
    Py (Bool × ReflectionData) := do
  let (ann, rd) ← rd.lookupAnn fuel a anncls
  pure (ann.isSome, rd)

/-- capnpy/reflection.py:70-75 `field_name` -/
def ReflectionData.fieldName (rd : ReflectionData) (kwlist : List Str) (fuel : Nat) (f : Member) :
    Py (Str × ReflectionData) := do
  let (g, rd) ← rd.getM fuel
  pure (← g.pyFieldName kwlist f, rd)

end Capnpy.Reflection
