import Verif.Model.Options
import Verif.Model.SysModules

/-!
# Model of the way of the options

From the command line (`capnpy compile`), from `setup.py` and from `load_schema` to the options of each node and
to the head of the generated module.  The parser docopt and setuptools are not modelled: `CliArgs` is what docopt
returns, and setuptools calls `capnpy_options` and `capnpy_schemas`.
-/

namespace Capnpy.OptionFlow

/-- The options which docopt finds on the command line, capnpy/__main__.py:5-12. -/
structure CliArgs where
  noConvertCase : Bool := false
  textType : String := "bytes"
  noPyx : Bool := false
  noVersionCheck : Bool := false
  noReflection : Bool := false

/-- How a command may end early: `raise SystemExit(n)`, or another exception. -/
inductive Stop
  | exit (code : Nat)
  | raised (e : PyErr)
  deriving DecidableEq, Repr

/-- capnpy/__main__.py:24-44 `parse_argv`: the value of `args['--pyx']` (`none` is 'auto') and the options. -/
def parseArgv (a : CliArgs) : Except Stop (Option Bool × StructObj) :=
  if ¬ (a.textType = "bytes" ∨ a.textType = "unicode") then .error (.exit 1)
  else
    match optFromDict [("version_check", .bool (!a.noVersionCheck)), ("convert_case", .bool (!a.noConvertCase)),
        ("text_type", .str a.textType), ("include_reflection_data", .bool (!a.noReflection))] with
    | .error e => .error (.raised e)
    | .ok o => .ok (if a.noPyx then some false else none, o)

/-- capnpy/compiler/compiler.py:19-24 `DEFAULT_OPTIONS` -/
def defaultOptions : Py StructObj :=
  optionsSchema.call 0 [("version_check", .bool true), ("convert_case", .bool true), ("text_type", .int 1),
    ("include_reflection_data", .bool true)]

/-- capnpy/compiler/compiler.py:74-76: the default options of the module -/
def moduleOptions (options : Option StructObj) : Py StructObj := do
  let d ← defaultOptions
  match options with
  | none => pure d
  | some o => optCombine d o

/-- A generated module, as far as the options of the file decide. -/
structure Head where
  versionCheck : Bool
  reflection : Bool
  deriving DecidableEq, Repr

section

variable {ι : Type} [DecidableEq ι]

/-- The id of a node. -/
def entityId : Entity ι → ι
  | .mk id _ _ _ => id

/-- capnpy/compiler/module.py:26-42, 54-57: the options of all nodes, fields and enumerants of the file -/
def allOptions (options : Option StructObj) (file : Entity ι) : Py (OptTable ι) := do
  let d ← moduleOptions options
  computeOptions [] d file

/-- capnpy/compiler/request.py:92-101 (`if m.version_check`, module.py:33, and `if
m.options(filenode).include_reflection_data`) -/
def head (options : Option StructObj) (file : Entity ι) : Py Head := do
  let d ← moduleOptions options
  let t ← computeOptions [] d file
  let v ← optGet d .versionCheck
  let check ← boolOption v
  let o ← t.get (entityId file)
  let r ← optGet o .includeReflectionData
  let refl ← boolOption r
  pure ⟨check, refl⟩

/-- How the accessor of a Text field is generated. -/
inductive TextAccess
  | bytes
  | unicode
  deriving DecidableEq, Repr

/-- capnpy/compiler/field.py:44-47, 56-58 with capnpy/schema_extended.py:117-123, for a Text field -/
def textAccess (t : OptTable ι) (field : ι) : Py TextAccess := do
  let o ← t.get field
  let v ← optGet o .textType
  if v = 1 then pure .bytes
  else if v = 2 then pure .unicode
  else .error .notImplemented

end

/-- Importing a generated module, up to the check: capnpy/compiler/request.py:90-95.  `version` is the version of capnpy
that generated it, `current` the one that is installed. -/
def importHead (current modname version : String) (h : Head) (s : SysModules) : Py Unit × SysModules :=
  if h.versionCheck then checkVersion current modname version s else (.ok (), s)

/-! ## setup.py -/

abbrev OptDict := List (String × OptArg)

/-- capnpy/compiler/distutils.py:15-18 `capnpy_options`: the options it warns about -/
def capnpyOptions (value : OptDict) : List String :=
  (value.map (·.1)).filter fun opt => decide (opt ≠ "pyx") && !(OptName.all.map OptName.name).contains opt

/-- What capnpy finds on the machine: the compiled modules (`PYX`), Cython, files that match a pattern, and
`DistutilsCompiler.compile` behind its first statement (Model/Build.lean). -/
structure SetupEnv where
  pyxAvailable : Bool
  cythonAvailable : Bool
  glob : String → List String
  compile : String → Bool → StructObj → Py String

/-- capnpy/compiler/compiler.py:58-65 `getpyx` -/
def SetupEnv.getpyx (E : SetupEnv) : OptArg → Py Bool
  | .bool false => .ok false
  | .bool true => if E.pyxAvailable then .ok true else .error .valueError
  | .str s => if s = "auto" then .ok E.pyxAvailable else .error .assertionError

/-- capnpy/compiler/distutils.py:36: the list comprehension -/
def compileAll (E : SetupEnv) (pyx : OptArg) (options : StructObj) : List String → Py (List String)
  | [] => .ok []
  | f :: fs => do
    let b ← E.getpyx pyx
    let out ← E.compile f b options
    let outs ← compileAll E pyx options fs
    pure (out :: outs)

/-- The value of `capnpy_schemas=`: a pattern or a list. -/
inductive Schemas
  | pattern (p : String)
  | files (fs : List String)

/-- capnpy/compiler/distutils.py:31-34: the files (the string in the message of the exception is left out: it is always `[]`,
as the pattern has been overwritten). -/
def Schemas.expand (E : SetupEnv) : Schemas → Py (List String)
  | .pattern p => if E.glob p = [] then .error .valueError else .ok (E.glob p)
  | .files fs => .ok fs

/-- capnpy/compiler/distutils.py:29-48 `capnpify`: the sources of the extensions -/
def capnpify (E : SetupEnv) (schemas : Schemas) (pyx : OptArg) (options : StructObj) : Py (List String) := do
  let files ← schemas.expand E
  let outs ← compileAll E pyx options files
  if (← E.getpyx pyx) then
    if E.cythonAvailable then pure outs else .error .typeError
  else pure []

/-- The attributes of the `Distribution`.  The dictionary is the one which the user passed to `setup`. -/
structure Dist where
  options : Option OptDict
  extModules : Option (List String)

/-- capnpy/compiler/distutils.py:20-27 `capnpy_schemas`.  `pop` changes the user's dictionary. -/
def capnpySchemas (E : SetupEnv) (schemas : Schemas) (d : Dist) : Py Unit × Dist :=
  let dict := d.options.getD []
  let pyx := (dict.lookup "pyx").getD (.str "auto")
  let rest := dict.filter fun x => x.1 ≠ "pyx"
  let d := { d with options := d.options.map fun _ => rest }
  match optFromDict rest with
  | .error e => (.error e, d)
  | .ok o =>
    let ext := d.extModules.getD []
    match capnpify E schemas pyx o with
    | .error e => (.error e, { d with extModules := some ext })
    | .ok l => (.ok (), { d with extModules := some (ext ++ l) })

end Capnpy.OptionFlow
