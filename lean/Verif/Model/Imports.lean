import Verif.Model.Module

/-!
# Model of the imports between schema files

capnpy/compiler/request.py:128-150 `_declare_imports`, module.py:127-136 `register_import`,
and the execution of the emitted `load_schema` calls by the `DynamicCompiler`
(compiler.py:160-214), on top of Model/Module.lean (what one module emits and does).

Simplifications.  Which path an import name stands for is a parameter (`Project.resolve`; it is
in Model/Loader.lean), as is the request that the capnp compiler gives for a file.  Base
names of files are made of letters, digits, `_`, `+`, `-` and blanks; paths have no
quote and no backslash.  The cache is not returned when a load fails (Model/Loader.lean has
that).  The module object gets its address when it is complete; nobody can see it earlier.
-/

namespace Capnpy.Module

/-- schema.capnp `CodeGeneratorRequest.RequestedFile.Import`: the id of the file and the name as
written in the schema. -/
structure Import where
  id : Nat
  name : Str
  deriving DecidableEq

/-- schema.capnp `CodeGeneratorRequest` with one requested file: the nodes, the `displayName`s
(of the file nodes), the id of the requested file, its imports (None for a null
pointer), and whether there is reflection data. -/
structure Request where
  nodes : List Node
  display : Nat → Str
  file : Nat
  imports : Option (List Import)
  reflection : Bool

/-- The last component of a path (`py.path.local(s).basename`; `s` has no trailing slash, and
the last component is not `.` or `..`). -/
def basename (s : Str) : Str := ((split '/' s).getLast?).getD []

/-- `py.path.local(s).purebasename`: without the part from the last dot on. -/
def purebasename (s : Str) : Str :=
  let b := basename s
  if '.' ∈ b then ((b.reverse.dropWhile (fun c => c != '.')).drop 1).reverse else b

/-- capnpy/compiler/module.py:128-130: `name.replace('+', 'PLUS')` and `'_%s_capnp' % name`. -/
def importName (fname : Str) : Str :=
  ['_'] ++ (purebasename fname).flatMap (fun c => if c = '+' then "PLUS".toList else [c]) ++ "_capnp".toList

/-- `m.importnames`: file name to import name; the newest entry comes first. -/
abbrev ImportNames := List (Str × Str)

/-- capnpy/compiler/module.py:127-136 `register_import`.  If the name is in use,
`self.filenames` is read, which does not exist. -/
def registerImport (names : ImportNames) (fname : Str) : Py (Str × ImportNames) :=
  let name := importName fname
  if name ∈ names.map (·.2) then .error .attributeError
  else .ok (name, (fname, name) :: names)

/-- The emitted statements: `name = __compiler.load_schema(importname="path", pyx=...)` and
`import modname as name`. -/
inductive ImportStmt
  | load (name path : Str)
  | importAs (modname name : Str)
  deriving DecidableEq

/-- capnpy/compiler/request.py:145: `fullpath.lstrip('/')[:-6].replace('/', '.')` -/
def standaloneName (path : Str) : Str :=
  let s := path.dropWhile (fun c => c == '/')
  (s.take (s.length - 6)).map fun c => if c = '/' then '.' else c

/-- capnpy/compiler/request.py:139-150: the statement for an import. -/
def importStmt (standalone : Bool) (name path : Str) : Py (List ImportStmt) :=
  if path = "/capnp/c++.capnp".toList then .ok []
  else if standalone then
    if ".capnp".toList <:+ path then .ok [.importAs (standaloneName path) name] else .error .assertionError
  else .ok [.load name path]

/-- The `ModuleGenerator` of a request, with the import names. -/
def Request.gen (r : Request) (names : ImportNames) : Gen :=
  ⟨r.nodes, r.file, fun i => names.lookup (r.display i), r.reflection⟩

/-- capnpy/compiler/request.py:128-150 `_declare_imports`: an import whose id is not among the
nodes is ignored. -/
def Request.declare (r : Request) (standalone : Bool) :
    List Import → ImportNames → Py (ImportNames × List ImportStmt)
  | [], names => .ok (names, [])
  | i :: is, names =>
    match (r.gen []).node i.id with
    | .error _ => r.declare standalone is names
    | .ok n => do
      let (name, names) ← registerImport names (r.display n.id)
      let st ← importStmt standalone name i.name
      let (names, rest) ← r.declare standalone is names
      pure (names, st ++ rest)

/-- `for imp in self.imports`; iterating over None raises TypeError. -/
def Request.declareImports (r : Request) (standalone : Bool) : Py (ImportNames × List ImportStmt) :=
  match r.imports with
  | none => .error .typeError
  | some is => r.declare standalone is []

/-- The name on the left-hand side of an import statement is not a Python name. -/
def ImportStmt.bad : ImportStmt → Bool
  | .load name _ => name.any fun c => c == '-' || c == ' '
  | .importAs modname name => (modname ++ name).any fun c => c == '-' || c == ' '

/-! ## Loading -/

/-- The files: what an import name stands for (compiler.py:247-267 `_get_filename`), and what
the capnp compiler gives for a file (compiler.py:67-70 `_parse_schema_file`). -/
structure Project where
  resolve : Str → Py Nat
  request : Nat → Py Request

/-- The `modules` of the compiler (file to address of the module object), and all objects. -/
structure World where
  modules : List (Nat × Nat)
  heap : List Dict
  deriving DecidableEq

/-- The import statements of a module with the globals `d`. -/
def runImportStmts (resolve : Str → Py Nat) (load : Nat → World → Py (Nat × World)) :
    List ImportStmt → Dict → World → Py (Dict × World)
  | [], d, w => .ok (d, w)
  | .load name path :: rest, d, w => do
    let f ← resolve path
    let (a, w) ← load f w
    runImportStmts resolve load rest ((name, .ref a) :: d) w
  | .importAs _ _ :: _, _, _ => .error .nameError

/-- capnpy/compiler/compiler.py:188-214 `load_schema` for a file in pure Python mode: the cached
module, or the new one.  The source is generated and compiled (SyntaxError) before it runs.
`fuel` is the recursion limit for nested loads, `depth` the one of the generator. -/
def Project.load (P : Project) (depth : Nat) : Nat → Nat → World → Py (Nat × World)
  | 0, _, _ => .error .recursionError
  | fuel + 1, f, w =>
    match w.modules.lookup f with
    | some a => .ok (a, w)
    | none => do
      let r ← P.request f
      let (names, stmts) ← r.declareImports false
      let body ← (r.gen names).emitModule depth
      if stmts.any ImportStmt.bad then .error .syntaxError
      else do
        let (globals, w) ← runImportStmts P.resolve (P.load depth fuel) stmts [] w
        let σ ← (State.mk globals w.heap).run body
        pure (σ.heap.length, ⟨(f, σ.heap.length) :: w.modules, σ.heap ++ [σ.globals]⟩)

/-- Loading several files, one after the other. -/
def Project.loadAll (P : Project) (depth fuel : Nat) : List Nat → World → Py World
  | [], w => .ok w
  | f :: fs, w => do
    let (_, w) ← P.load depth fuel f w
    P.loadAll depth fuel fs w

end Capnpy.Module
