import Verif.Model.Ctor

/-!
# Model of compiler options and annotations

`capnpy/annotate_extended.py` (`Options.combine`, `Options.from_dict`),
`capnpy/compiler/module.py` (`has_annotation`, `compute_options_generic`) and the
`compute_options` methods of the schema nodes.
-/

namespace Capnpy

/-- The fields of the struct `Options` (capnpy/annotate_extended.py:62 `FIELDS`). -/
inductive OptName
  | versionCheck
  | convertCase
  | textType
  | includeReflectionData
  deriving DecidableEq, Repr

/-- capnpy/annotate_extended.py:62 -/
def OptName.all : List OptName := [.versionCheck, .convertCase, .textType, .includeReflectionData]

/-- The Python name of the option. -/
def OptName.name : OptName → String
  | .versionCheck => "version_check"
  | .convertCase => "convert_case"
  | .textType => "text_type"
  | .includeReflectionData => "include_reflection_data"

/-- capnpy/annotate.capnp:14-24: the value of `notset` in the enum of the option. -/
def OptName.notset : OptName → Int
  | .textType => 0
  | _ => 2

/-- capnpy/annotate.py:128-159: the field of the struct `Options`. -/
def OptName.field : OptName → Field
  | .versionCheck => .slot "version_check" 0 none .enum 0 (some 2)
  | .convertCase => .slot "convert_case" 1 none .enum 1 (some 2)
  | .textType => .slot "text_type" 2 none .enum 2 (some 0)
  | .includeReflectionData => .slot "include_reflection_data" 3 none .enum 3 (some 2)

/-- capnpy/annotate.py:122-177 -/
def optionsSchema : Schema := ⟨1, 0, none, OptName.all.map OptName.field⟩

/-- `getattr(options, fname)`: an enum, i.e. an int. -/
def optGet (o : StructObj) (k : OptName) : Py Int := do
  match (← getField o none k.field) with
  | .int i => pure i
  | _ => .error .typeError

/-- capnpy/annotate_extended.py:88-97: the value chosen for one field. -/
def combineField (self other : StructObj) (k : OptName) : Py (String × Arg) := do
  let v ← optGet self k
  let otherval ← optGet other k
  pure (k.name, .int (if otherval ≠ k.notset then otherval else v))

/-- capnpy/annotate_extended.py:82-98 `Options.combine`.  (The two `assert`s about the
enum class hold for the four fields.) -/
def optCombine (self other : StructObj) : Py StructObj := do
  let values ← OptName.all.mapM (combineField self other)
  optionsSchema.call 0 values

/-- A value in the dictionary given to `Options.from_dict`: a bool or a string. -/
inductive OptArg
  | bool (b : Bool)
  | str (s : String)
  deriving DecidableEq

/-- capnpy/annotate_extended.py:49-56 `TextType.parse` -/
def parseTextType : OptArg → Py Int
  | .str s => if s = "bytes" then pure 1 else if s = "unicode" then pure 2 else .error .valueError
  | .bool _ => .error .valueError

/-- capnpy/annotate_extended.py:71-79: one item of the dictionary. -/
def fromDictItem (kv : String × OptArg) : Py (String × Arg) :=
  if kv.1 = "version_check" ∨ kv.1 = "convert_case" ∨ kv.1 = "include_reflection_data" then
    pure (kv.1, match kv.2 with | .bool b => .bool b | .str s => .str s)
  else if kv.1 = "text_type" then do
    pure (kv.1, .int (← parseTextType kv.2))
  else .error .valueError

/-- capnpy/annotate_extended.py:64-80 `Options.from_dict` -/
def optFromDict (d : List (String × OptArg)) : Py StructObj := do
  let kwargs ← d.mapM fromDictItem
  optionsSchema.call 0 kwargs

/-- capnpy/annotate_extended.py:36-42 `BoolOption.__bool__` -/
def boolOption (i : Int) : Py Bool :=
  if i = 2 then .error .valueError else pure (i != 0)

/-! ## Annotations -/

/-- An annotation attached to a node or field: the id of the annotation and its
value (a struct; text annotations are the same for this purpose). -/
structure Ann where
  id : Nat
  value : StructObj

/-- `annotate.options.__capnpy_id__` (capnpy/annotate.py:106) -/
def optionsAnnId : Nat := 0xbdb63a67441ed493

/-- capnpy/compiler/module.py:85-91: the first annotation with this id. -/
def findAnn (annId : Nat) : List Ann → Option Ann
  | [] => none
  | a :: as => if a.id = annId then some a else findAnn annId as

/-- A node, field or enumerant with its nested nodes and its fields or enumerants
(capnpy/compiler/node.py:55-59, struct_.py:15-23, enum.py:6-12).  `ι` is the type of
ids: node ids are ints, field ids are pairs (node id, name). -/
inductive Entity (ι : Type)
  | mk (id : ι) (annotations : List Ann) (nodes fields : List (Entity ι))

/-- `_node_options`: a dictionary, as an association list with the latest first. -/
abbrev OptTable (ι : Type) := List (ι × StructObj)

section

variable {ι : Type} [DecidableEq ι]

/-- capnpy/compiler/module.py:51-52 `options` -/
def OptTable.get (t : OptTable ι) (id : ι) : Py StructObj :=
  match t.lookup id with
  | some o => .ok o
  | none => .error .keyError

/-- capnpy/compiler/module.py:59-67 `compute_options_generic` -/
def computeGeneric (t : OptTable ι) (parent : StructObj) (id : ι) (annotations : List Ann) : Py (OptTable ι) := do
  match findAnn optionsAnnId annotations with
  | some ann =>
    let opt ← optCombine parent ann.value
    pure ((id, opt) :: t)
  | none => pure ((id, parent) :: t)

mutual

/-- capnpy/compiler/node.py:55-59 `compute_options`; for structs and enums followed by
struct_.py:19-23, enum.py:9-12, which look the options up again. -/
def computeOptions (t : OptTable ι) (parent : StructObj) : Entity ι → Py (OptTable ι)
  | .mk id annotations nodes fields => do
    let t ← computeGeneric t parent id annotations
    let opt ← t.get id
    let t ← computeChildren t opt nodes
    let opt ← t.get id
    computeChildren t opt fields

/-- The loops over the nested nodes and over the fields. -/
def computeChildren (t : OptTable ι) (opt : StructObj) : List (Entity ι) → Py (OptTable ι)
  | [] => pure t
  | c :: cs => do
    let t ← computeOptions t opt c
    computeChildren t opt cs

end

end

end Capnpy
