import Verif.Model.Py

/-!
# Model of the schema loader

`DynamicCompiler.load_schema` of `capnpy/compiler/compiler.py`: a cache of the modules
compiled so far, keyed by the path of the schema.  Executing a compiled module loads
the schemas it imports (capnpy/compiler/request.py:128-149), recursively, before the
module is put in the cache.
-/

namespace Capnpy

/-- A module object: its identity, the schema it was compiled from and how. -/
structure Mod where
  ident : Nat
  file : String
  pyx : Bool
  options : Option Nat
  deriving DecidableEq, Repr

/-- The environment: the directories of the path, the file system and the capnp
compiler.  `norm` is `py.path.local(filename)` (an absolute, normalised path),
`join` is `py.path.local.join`; both are kept abstract.  `source f` is what
compiling the file gives: an error (missing file, syntax error), or the list of its
import names in order.  `pyxAvailable` is `capnpy.blob.PYX`. -/
structure LoaderEnv where
  dirs : List String
  join : String → String → String
  norm : String → String
  isFile : String → Bool
  source : String → Py (List String)
  pyxAvailable : Bool

/-- `self.modules`, and the number of modules created so far. -/
structure LoaderState where
  modules : List (String × Mod)
  next : Nat

/-- capnpy/compiler/compiler.py:262-267 `_find_file`: the first directory where the file
exists. -/
def LoaderEnv.findFile (env : LoaderEnv) (importname : String) : Py String :=
  match env.dirs.find? fun d => env.isFile (env.join d importname) with
  | some d => .ok (env.join d importname)
  | none => .error .valueError

/-- capnpy/compiler/compiler.py:256-259: import names must start with a slash. -/
def LoaderEnv.findImport (env : LoaderEnv) (importname : String) : Py String :=
  if importname.startsWith "/" then env.findFile importname else .error .valueError

/-- capnpy/compiler/compiler.py:247-260 `_get_filename`.  `modname.replace('.', '/')`. -/
def LoaderEnv.getFilename (env : LoaderEnv) (modname importname filename : Option String) : Py String :=
  match modname, importname, filename with
  | some m, none, none => env.findFile ((m.map fun c => if c = '.' then '/' else c) ++ ".capnp")
  | none, some i, none => env.findImport i
  | none, none, some f => .ok (env.norm f)
  | _, _, _ => .error .valueError

/-- capnpy/compiler/compiler.py:58-65 `getpyx`; `none` is 'auto'. -/
def LoaderEnv.getpyx (env : LoaderEnv) : Option Bool → Py Bool
  | none => .ok env.pyxAvailable
  | some true => if env.pyxAvailable then .ok true else .error .valueError
  | some false => .ok false

/-- The statements `{importname} = __compiler.load_schema(importname=..., pyx=...)` of
the compiled module, in order; an exception stops the module. -/
def runImports (load : String → LoaderState → Py Mod × LoaderState) :
    List String → LoaderState → Py Unit × LoaderState
  | [], st => (.ok (), st)
  | i :: is, st =>
    match load i st with
    | (.ok _, st) => runImports load is st
    | (.error e, st) => (.error e, st)

/-- capnpy/compiler/compiler.py:190-195 (the `try` statement of `load_schema`) and
197-214 (`_compile_file`, `_compile_py`), for a file name.  The module object is
created before its code runs.  `fuel` is the recursion limit.  Imports are loaded
without options. -/
def loadFile (env : LoaderEnv) : Nat → String → Bool → Option Nat → LoaderState → Py Mod × LoaderState
  | 0, _, _, _, st => (.error .recursionError, st)
  | fuel + 1, file, pyx, options, st =>
    match st.modules.lookup file with
    | some m => (.ok m, st)
    | none =>
      match env.source file with
      | .error e => (.error e, st)
      | .ok imports =>
        let m : Mod := ⟨st.next, file, pyx, options⟩
        match runImports
            (fun i st =>
              match env.findImport i with
              | .error e => (.error e, st)
              | .ok f => loadFile env fuel f pyx none st)
            imports { st with next := st.next + 1 } with
        | (.error e, st) => (.error e, st)
        | (.ok _, st) => (.ok m, { st with modules := (file, m) :: st.modules })

/-- A call of `load_schema`. -/
structure LoadCall where
  modname : Option String := none
  importname : Option String := none
  filename : Option String := none
  pyx : Option Bool := none
  options : Option Nat := none

/-- capnpy/compiler/compiler.py:160-195 `load_schema` -/
def loadSchema (env : LoaderEnv) (fuel : Nat) (c : LoadCall) (st : LoaderState) : Py Mod × LoaderState :=
  match env.getpyx c.pyx with
  | .error e => (.error e, st)
  | .ok pyx =>
    match env.getFilename c.modname c.importname c.filename with
    | .error e => (.error e, st)
    | .ok f => loadFile env fuel f pyx c.options st

/-- capnpy/compiler/compiler.py:146-154 `__init__`, `add_module`: a new compiler knows
the module `annotate`. -/
def LoaderState.init (annotatePath : String) : LoaderState :=
  ⟨[(annotatePath, ⟨0, annotatePath, false, none⟩)], 1⟩

/-- A history of calls, each with its own recursion limit; failures are survived. -/
def loadHistory (env : LoaderEnv) : List (Nat × LoadCall) → LoaderState → LoaderState
  | [], st => st
  | (fuel, c) :: cs, st => loadHistory env cs (loadSchema env fuel c st).2

end Capnpy
