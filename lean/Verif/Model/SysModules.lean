import Verif.Model.Loader

/-!
# Model of loading in pyx mode: what happens to `sys.modules`

`DynamicCompiler._compile_pyx` of capnpy/compiler/compiler.py:216-245, which passes the
compiler to the generated module through a temporary entry of `sys.modules`, and removes it
when the module is loaded; `check_version` of capnpy/util.py:75-87.  The loader is that of
Model/Loader.lean.

Simplifications.  A dict from names to modules is a function.  `capnpy.ext` is there or is
imported by line 220.  What Cython and the C compiler do is in `source` (they succeed or raise
before anything is put in `sys.modules`); the `__name__` of the loaded extension is the name
of its spec.  What the generated module does after its imports is `body`: it succeeds or raises
and does not touch `sys.modules`.  One thread.
-/

namespace Capnpy

/-- What `sys.modules` can have under a name: a module of the user (or of the system), the
dummy module with `__compiler` and `__schema__`, or a generated module. -/
inductive SysMod
  | other (ident : Nat)
  | tmp (compiler : Nat) (schema : String)
  | ext (ident : Nat)
  deriving DecidableEq, Repr

/-- `sys.modules` -/
abbrev SysModules := String → Option SysMod

/-- `sys.modules[k] = m` -/
def SysModules.set (s : SysModules) (k : String) (m : SysMod) : SysModules :=
  fun x => if x = k then some m else s x

/-- `sys.modules.pop(k, None)` -/
def SysModules.pop (s : SysModules) (k : String) : SysModules := fun x => if x = k then none else s x

/-- `del sys.modules[k]` -/
def SysModules.del (s : SysModules) (k : String) : Py SysModules :=
  match s k with
  | none => .error .keyError
  | some _ => .ok (s.pop k)

/-- The name of the dummy module: capnpy/compiler/request.py:28 `m.tmpname = '%s_tmp' % m.modname`.
-/
def tmpName (modname : String) : String := modname ++ "_tmp"

/-- The name of the extension module: capnpy/compiler/compiler.py:239. -/
def extName (modname : String) : String := "capnpy.ext." ++ modname

/-- The environment: each compiler (there can be several) has its own path; `modname` is
`m.modname`, the base name of the schema file without extension (request.py:25); `body` is what
the rest of the generated module does (an exception, or nothing). -/
structure SysEnv where
  env : Nat → LoaderEnv
  modname : String → String
  body : String → Py Unit
  /-- the module `capnpy.ext` -/
  extPackage : SysMod

/-- The state: the cache of each compiler, the number of modules created so far, and
`sys.modules`. -/
structure SysState where
  modules : Nat → List (String × Mod)
  next : Nat
  sys : SysModules

/-- `self.modules[filename] = mod` -/
def SysState.cache (st : SysState) (c : Nat) (file : String) (m : Mod) : SysState :=
  { st with modules := fun x => if x = c then (file, m) :: st.modules c else st.modules x }

/-- `from foo_tmp import __compiler, __schema__`, where `foo_tmp` is in `sys.modules`. -/
def SysState.fromTmp (st : SysState) (name : String) : Py (Nat × String) :=
  match st.sys name with
  | some (.tmp c f) => .ok (c, f)
  | some _ => .error .importError
  | none => .error .importError

/-- `import capnpy.ext`: capnpy/compiler/compiler.py:220. -/
def SysState.importExt (E : SysEnv) (st : SysState) : SysState :=
  match st.sys "capnpy.ext" with
  | some _ => st
  | none => { st with sys := st.sys.set "capnpy.ext" E.extPackage }

/-- The import statements of a generated module. -/
def runSysImports (load : String → SysState → Py Mod × SysState) : List String → SysState → Py Unit × SysState
  | [], st => (.ok (), st)
  | i :: is, st =>
    match load i st with
    | (.ok _, st) => runSysImports load is st
    | (.error e, st) => (.error e, st)

/-- The code of a generated module: its imports, then the rest. -/
def runModule (E : SysEnv) (load : String → SysState → Py Mod × SysState) (file : String) (imports : List String)
    (st : SysState) : Py Unit × SysState :=
  match runSysImports load imports st with
  | (.error e, st) => (.error e, st)
  | (.ok _, st) => (E.body file, st)

/-- capnpy/compiler/compiler.py:241-245: `del sys.modules[mod.__name__]`, `del
sys.modules[tmpmod.__name__]`. -/
def cleanUp (st : SysState) (name : String) : Py Unit × SysState :=
  match st.sys.del (extName name) with
  | .error e => (.error e, st)
  | .ok s =>
    match s.del (tmpName name) with
    | .error e => (.error e, { st with sys := s })
    | .ok s => (.ok (), { st with sys := s })

/-- capnpy/compiler/compiler.py:216-245 `_compile_pyx` and :30-36 `import_from_path`, and in pure
Python mode :203-214 `_compile_py`, for the compiler `c`.  In pyx mode the generated module
first reads `__compiler` and `__schema__` from the dummy module (request.py:83-86). -/
def compileFile (E : SysEnv) (load : Nat → String → SysState → Py Mod × SysState) (c : Nat) (file : String)
    (imports : List String) (pyx : Bool) (options : Option Nat) (st : SysState) : Py Mod × SysState :=
  if pyx then
    let st := st.importExt E
    let name := E.modname file
    let st := { st with sys := st.sys.set (tmpName name) (.tmp c file) }
    let id := st.next
    let st := { st with sys := st.sys.set (extName name) (.ext id), next := id + 1 }
    match st.fromTmp (tmpName name) with
    | .error e => (.error e, st)
    | .ok (c', schema) =>
      match runModule E (load c') file imports st with
      | (.error e, st) => (.error e, st)
      | (.ok _, st) =>
        match cleanUp st name with
        | (.error e, st) => (.error e, st)
        | (.ok _, st) => (.ok ⟨id, schema, pyx, options⟩, st)
  else
    let id := st.next
    match runModule E (load c) file imports { st with next := id + 1 } with
    | (.error e, st) => (.error e, st)
    | (.ok _, st) => (.ok ⟨id, file, pyx, options⟩, st)

/-- capnpy/compiler/compiler.py:188-201 `load_schema` of the compiler `c` for a file, and
`_compile_file`. `fuel` is the recursion limit.  The generated modules call `load_schema` with
their own mode and without options. -/
def sysLoad (E : SysEnv) : Nat → Bool → Nat → String → Option Nat → SysState → Py Mod × SysState
  | 0, _, _, _, _, st => (.error .recursionError, st)
  | fuel + 1, pyx, c, file, options, st =>
    match (st.modules c).lookup file with
    | some m => (.ok m, st)
    | none =>
      match (E.env c).source file with
      | .error e => (.error e, st)
      | .ok imports =>
        match compileFile E
            (fun c' i st =>
              match (E.env c').findImport i with
              | .error e => (.error e, st)
              | .ok g => sysLoad E fuel pyx c' g none st)
            c file imports pyx options st with
        | (.error e, st) => (.error e, st)
        | (.ok m, st) => (.ok m, st.cache c file m)

/-- capnpy/util.py:75-87 `check_version`, called by a generated module of name `modname`;
`current` is `capnpy.__version__`. -/
def checkVersion (current modname version : String) (s : SysModules) : Py Unit × SysModules :=
  if version ≠ current then (.error .importError, s.pop modname) else (.ok (), s)

end Capnpy
