import Verif.Model.Ctor
import Verif.Model.Module

/-!
# Model of group constructors and of virtual groups

For every group which is not nullable the class of a struct gets a static method with the
capitalized name of the group; it takes the fields of the group as parameters and returns the
tuple which the constructor of the struct expects (capnpy/compiler/field.py:248-274).

`$Py.group("x, y")` on a `Void` field replaces the property of that field by a group whose
fields are copies of the fields `x` and `y` of the struct (capnpy/compiler/module.py:94-118,
capnpy/schema_extended.py:171-210, 272-287).
-/

namespace Capnpy

/-- Call a Python function whose parameters have the given names and defaults: the values of the
parameters.  `TypeError` for too many positional arguments, for an unknown keyword, for a parameter
given twice. -/
def bindCall (params : List (String × Arg)) (pos : List Arg) (kw : List (String × Arg)) : Py (List Arg) :=
  if params.length < pos.length then .error .typeError
  else if kw.all (fun x => (params.drop pos.length).any fun p => p.1 == x.1) = false then .error .typeError
  else if ¬ (kw.map Prod.fst).Nodup then .error .typeError
  else .ok (pos ++ (params.drop pos.length).map fun p => (kw.lookup p.1).getD p.2)

/-- `name.capitalize()` (capnpy/compiler/field.py:268) -/
def capitalName (name : String) : String := String.ofList (Module.capitalize name.toList)

/-- The fields of a group which have a parameter (capnpy/compiler/fieldtree.py:27-34). -/
def groupParams (children : List Field) : List Field := children.filter (!·.skipped)

/-- capnpy/compiler/field.py:253-274 `_emit_ctor_like`, for the fields of a struct in order: the
names of the static methods and the fields of their groups.  `def {capitalname}` is a syntax error
if that is a keyword, and so is `return ,` for a group without parameters; two parameters with the
same name as well. -/
def groupMethods (kwlist : List String) : List Field → Py (List (String × List Field))
  | [] => pure []
  | .slot .. :: fs => groupMethods kwlist fs
  | .group name _ _ nullable _ children :: fs =>
    -- capnpy/compiler/field.py:248-251: only for groups which are not nullable
    if nullable then groupMethods kwlist fs
    else if capitalName name ∈ kwlist ∨ groupParams children = [] ∨
        ¬ ((groupParams children).map Field.name).Nodup then .error .syntaxError
    else do
      let rest ← groupMethods kwlist fs
      pure ((capitalName name, children) :: rest)

/-- The attribute of the class: the last definition counts. -/
def lookupLast (x : String) : List (String × List Field) → Option (List Field)
  | [] => none
  | (y, c) :: r =>
    match lookupLast x r with
    | some c' => some c'
    | none => if y = x then some c else none

/-- `Cls.Name(*pos, **kw)` where `Cls` is the class generated for the struct (or group) with the
fields `fs`.  An attribute which does not exist raises `AttributeError`. -/
def groupCtor (kwlist : List String) (fs : List Field) (x : String) (pos : List Arg) (kw : List (String × Arg)) :
    Py Arg := do
  let ms ← groupMethods kwlist fs
  match lookupLast x ms with
  | none => .error .attributeError
  | some children => do
    -- capnpy/compiler/fieldtree.py:70-87: varname and default of each child of the tree
    let vals ← bindCall ((groupParams children).map fun f => (f.name, defaultArg none f)) pos kw
    pure (.tuple vals)

/-! ## Virtual groups -/

/-- A field of the schema with its capnp name, its Python side and the text of its `$Py.group`
annotation. -/
structure AField where
  cname : Bytes
  field : Field
  group : Option Bytes

/-- ASCII whitespace, for `bytes.strip` -/
def isSpaceB (b : UInt8) : Bool := b == 32 || b == 9 || b == 10 || b == 13 || b == 11 || b == 12

/-- `b.strip()` -/
def stripB (s : Bytes) : Bytes := ((s.dropWhile isSpaceB).reverse.dropWhile isSpaceB).reverse

/-- `b.split(b',')` -/
def splitB : Bytes → List Bytes
  | [] => [[]]
  | c :: r =>
    if c = 44 then [] :: splitB r
    else
      match splitB r with
      | [] => [[c]]
      | w :: ws => (c :: w) :: ws

/-- capnpy/schema_extended.py:177-180: the names in the annotation. -/
def groupNames (text : Bytes) : List Bytes := (splitB (stripB text)).map stripB

/-- `all_fields[name]` (capnpy/schema_extended.py:181-182): a dict, so that the last field with the name
counts. -/
def findField (x : Bytes) : List AField → Option AField
  | [] => none
  | f :: fs =>
    match findField x fs with
    | some g => some g
    | none => if f.cname = x then some f else none

/-- capnpy/schema_extended.py:182 -/
def pickFields (all : List AField) : List Bytes → Py (List AField)
  | [] => pure []
  | x :: xs => do
    match findField x all with
    | none => .error .keyError
    | some f => do pure (f :: (← pickFields all xs))

/-- Is the field a `Void` slot? -/
def AField.isVoid (f : AField) : Bool :=
  match f.field with
  | .slot _ _ _ .void _ _ => true
  | _ => false

/-- A virtual group: the void field it replaces, the id of its node and its fields. -/
structure VGroup where
  origin : AField
  id : Int
  fields : List AField

/-- capnpy/compiler/module.py:94-118 `handle_py_groups` for one struct with the given id:
`ids` are the ids of all the nodes so far; `hash` is Python's (randomized) hash of byte strings.
`parent.struct.fields` are all the fields of the struct.  The ordinal of a field of type `Void` is
always explicit, so that the misspelt keyword of schema_extended.py:274 is not reached.  The fields
of the new node are copies of those of the struct (schema_extended.py:195-209); its
`discriminantCount` is 0. -/
def registerGroups (hash : Bytes → Int) (structId : Int) (all : List AField) :
    List Int → List AField → Py (List Int × List VGroup)
  | ids, [] => pure (ids, [])
  | ids, f :: fs =>
    match f.group with
    | none => registerGroups hash structId all ids fs
    | some text =>
      -- capnpy/annotate_extended.py:31-35 `check`
      if f.isVoid = false then .error .assertionError
      else do
        let fields ← pickFields all (groupNames text)
        let id := structId + hash f.cname % 10000
        if id ∈ ids then .error .assertionError
        else do
          let (ids', vs) ← registerGroups hash structId all (id :: ids) fs
          pure (ids', ⟨f, id, fields⟩ :: vs)

/-- The property of the void field (capnpy/compiler/field.py:59-67, 224-246): if there is a virtual group for
it, the group object; otherwise `None`. -/
def getVoid (o : StructObj) (union : Option Nat) (vs : List VGroup) (f : AField) : Py RVal :=
  if vs.any (fun v => v.origin.cname == f.cname) then do
    ensureMember o union f.field.disc
    let g ← StructObj.initFromBuffer o.seg o.dataOffset o.dataSize o.ptrsSize
    pure (.group g)
  else getField o union f.field

/-- The attributes of the object of a virtual group: its class has the copied fields and no union.
`field_override` is looked up by the id of the node and the name (schema_extended.py:230-242), so that
a void field with `$Py.group` is a plain void field inside another virtual group. -/
def VGroup.getAttr (v : VGroup) (g : StructObj) (x : String) : Option (Py RVal) :=
  Capnpy.getAttr g none x (v.fields.map AField.field)

end Capnpy
