import Verif.Model.OptionFlow
import Verif.Spec.Options

/-! # Specification: which options hold where -/

namespace Capnpy.Spec

open Capnpy.OptionFlow

/-- The options of capnpy when nothing is said (docs: `version_check`, `convert_case` and `include_reflection_data` are on, and
Text is `bytes`). -/
def builtinOptions : OptVals := fun _ => 1

/-- The caller of the compiler gives the options `w`. -/
def Given : Option StructObj → OptVals → Prop
  | none, w => w = OptName.notset
  | some o, w => OptReads o w

/-- What the flags of the command line say. -/
def cliOptions (a : CliArgs) : OptVals
  | .versionCheck => if a.noVersionCheck then 0 else 1
  | .convertCase => if a.noConvertCase then 0 else 1
  | .textType => if a.textType = "unicode" then 2 else 1
  | .includeReflectionData => if a.noReflection then 0 else 1

/-- What the dictionary in `setup.py` says: nothing about an option which it does not have. -/
def dictOptions (d : OptDict) : OptVals := fun k =>
  match d.lookup k.name with
  | none => k.notset
  | some (.bool b) => if b then 1 else 0
  | some (.str s) => if s = "unicode" then 2 else 1

/-- A proper dictionary for `setup.py`: each key once, `pyx` is a bool or "auto", the bool options are bools, and `text_type`
is "bytes" or "unicode". -/
def SetupDict (d : OptDict) : Prop :=
  (d.map (·.1)).Nodup ∧ ∀ x ∈ d,
    (x.1 = "pyx" ∧ (x.2 = .str "auto" ∨ ∃ b, x.2 = .bool b)) ∨
    (x.1 ∈ ["version_check", "convert_case", "include_reflection_data"] ∧ ∃ b, x.2 = .bool b) ∨
    (x.1 = "text_type" ∧ (x.2 = .str "bytes" ∨ x.2 = .str "unicode"))

/-- The option `k` of an entity: the innermost one of the annotations `ws` on its path (file first), otherwise what the
caller says, otherwise what is built in. -/
def optionAt (k : OptName) (w : OptVals) (ws : List OptVals) : Int := resolved k (builtinOptions k) (w :: ws)

end Capnpy.Spec
