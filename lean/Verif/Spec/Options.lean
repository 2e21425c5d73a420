import Verif.Model.Options
import Verif.Props.Memory

/-! # Specification of option resolution -/

namespace Capnpy.Spec

open Props (InRange)

/-- The values of the four options; the number of the enumerant. -/
abbrev OptVals := OptName → Int

/-- The fields of the struct `o` are `v`, and are representable (16 bits). -/
def OptReads (o : StructObj) (v : OptVals) : Prop := ∀ k, optGet o k = .ok (v k) ∧ InRange .h (v k)

/-- `a.combine(b)` takes `b` where it is set. -/
def combineVals (v w : OptVals) : OptVals := fun k => if w k = k.notset then v k else w k

/-- The options written by the user at one level: those of the first `options`
annotation, if there is one. -/
def explicitAt (annotations : List Ann) : Option StructObj :=
  (annotations.find? fun a => a.id == optionsAnnId).map Ann.value

/-- `OnPath e id path`: the entity `id` is in the tree `e`, and `path` are the explicit
options from the root (first) down to the entity itself (last). -/
inductive OnPath {ι : Type} : Entity ι → ι → List (Option StructObj) → Prop
  | here (id anns nodes fields) : OnPath (.mk id anns nodes fields) id [explicitAt anns]
  | node {id anns nodes fields c i path} : c ∈ nodes → OnPath c i path →
      OnPath (.mk id anns nodes fields) i (explicitAt anns :: path)
  | field {id anns nodes fields c i path} : c ∈ fields → OnPath c i path →
      OnPath (.mk id anns nodes fields) i (explicitAt anns :: path)

mutual

/-- All the ids of a tree. -/
def entityIds {ι : Type} : Entity ι → List ι
  | .mk id _ nodes fields => id :: (entitiesIds nodes ++ entitiesIds fields)

def entitiesIds {ι : Type} : List (Entity ι) → List ι
  | [] => []
  | e :: es => entityIds e ++ entitiesIds es

end

mutual

/-- Every options annotation in the tree is a readable struct. -/
def EntityOK {ι : Type} : Entity ι → Prop
  | .mk _ anns nodes fields =>
    (∀ o, explicitAt anns = some o → ∃ v, OptReads o v) ∧ EntitiesOK nodes ∧ EntitiesOK fields

def EntitiesOK {ι : Type} : List (Entity ι) → Prop
  | [] => True
  | e :: es => EntityOK e ∧ EntitiesOK es

end

/-- The value of option `k`: the innermost one that is set explicitly, otherwise the
default. -/
def resolved (k : OptName) (dflt : Int) (path : List OptVals) : Int :=
  ((path.map fun w => w k).filter fun x => x ≠ k.notset).getLast?.getD dflt

end Capnpy.Spec
