import Verif.Model.Module

/-!
# Model of `__extend__` and of the extension files

capnpy/blob.py:34-36 `Blob.__extend__`, capnpy/util.py:12-75 (`magic_setattr`, `extend`,
`find_module`, `extend_module_maybe`) and capnpy/_util.pyx `setattr_builtin`: how methods are
added to the generated classes, and which file with such code belongs to a schema.

Class objects are the heap objects of Model/Module.lean: a dict each.  `ClassInfo` says what
else counts of a class; it never changes.

Simplifications: Python up to 3.12 (3.13 puts `__firstlineno__` and `__static_attributes__` in
the dict of a class statement, which are copied too); the body of a class statement has no
`__slots__`, and binds no name of a data descriptor of `type` (`__name__`, `__bases__`, ...);
CPython's cache of attribute lookups, which `setattr_builtin` does not invalidate, is left out.
-/

namespace Capnpy.Extend

open Capnpy.Module

/-- What matters of a class besides its dict.  `blob`: it is a subclass of `Blob`, so that it has
`__extend__`; `heapType`: `cls.__flags__ & Py_TPFLAGS_HEAPTYPE`, false for the classes that are
compiled by Cython; `mro`: the addresses of the classes where attributes are looked up, the class
itself first. -/
structure ClassInfo where
  blob : Bool
  heapType : Bool
  mro : List Nat

/-- What does not change while the program runs.  `compiled`: capnpy._util could be imported
(capnpy/util.py:6-9). -/
structure Env where
  info : Nat → ClassInfo
  compiled : Bool
  /-- the value of `__name__` in the globals, i.e. `__module__` of the new classes -/
  modname : Str

/-- capnpy/_util.pyx:4-32 `SLOTS` -/
def slots : List Str :=
  ["__str__", "__repr__", "__getattribute__", "__getattr__", "__setattr__", "__delattr__", "__cmp__", "__hash__",
    "__call__", "__lt__", "__le__", "__eq__", "__ne__", "__gt__", "__ge__", "__iter__", "next", "__get__", "__set__",
    "__delete__", "__init__", "__new__", "__del__", "__add__", "__radd__", "__sub__", "__rsub__", "__mul__", "__rmul__",
    "__div__", "__rdiv__", "__mod__", "__rmod__", "__divmod__", "__rdivmod__", "__pow__", "__rpow__", "__neg__",
    "__pos__", "__abs__", "__nonzero__", "__invert__", "__lshift__", "__rlshift__", "__rshift__", "__rrshift__",
    "__and__", "__rand__", "__xor__", "__rxor__", "__or__", "__ror__", "__coerce__", "__int__", "__long__", "__float__",
    "__oct__", "__hex__", "__iadd__", "__isub__", "__imul__", "__idiv__", "__imod__", "__ipow__", "__ilshift__",
    "__irshift__", "__iand__", "__ixor__", "__ior__", "__floordiv__", "__rfloordiv__", "__truediv__", "__rtruediv__",
    "__ifloordiv__", "__itruediv__", "__index__", "__len__", "__getitem__", "__setitem__", "__delitem__",
    "__getslice__", "__setslice__", "__delslice__", "__contains__"].map String.toList

/-- capnpy/util.py:38: the names that are not copied. -/
def excluded : List Str := ["__dict__", "__doc__", "__module__", "__weakref__"].map String.toList

/-- capnpy/util.py:14-23 `magic_setattr` on the dict of a class; capnpy/_util.pyx:35-58
`setattr_builtin`. -/
def magicSetattr (compiled heapType : Bool) (d : Dict) (k : Str) (v : Obj) : Py Dict :=
  if heapType then .ok ((k, v) :: d)
  else if compiled then
    if k ∈ slots then .error .typeError else .ok ((k, v) :: d)
  else .error .typeError

/-- capnpy/util.py:37-39: the loop of `extend` over the items of the new class; the attributes that
are set before an exception stay. -/
def extendLoop (compiled heapType : Bool) : Dict → List (Str × Obj) → Dict × Py Unit
  | d, [] => (d, .ok ())
  | d, (k, v) :: r =>
    if k ∈ excluded then extendLoop compiled heapType d r
    else
      match magicSetattr compiled heapType d k v with
      | .ok d' => extendLoop compiled heapType d' r
      | .error e => (d, .error e)

/-- The keys of a dict in the order of insertion: later assignments to a key keep its place. -/
def firsts : List Str → List Str
  | [] => []
  | k :: r => k :: (firsts r).filter (fun k' => decide (k' ≠ k))

/-- The variables of a class body (newest first) as the items of a dict, in the order of insertion;
`__module__` comes first, `__qualname__` is removed by `type`. -/
def bodyItems (modname : Str) (locals : Dict) : List (Str × Obj) :=
  ((firsts ((locals ++ [("__module__".toList, Obj.str modname)]).map Prod.fst).reverse).filter
      fun k => decide (k ≠ "__qualname__".toList)).filterMap
    fun k => ((locals ++ [("__module__".toList, Obj.str modname)]).lookup k).map fun v => (k, v)

/-- `d.setdefault(k, v)` -/
def addItem (d : List (Str × Obj)) (k : Str) (v : Obj) : List (Str × Obj) :=
  if k ∈ d.map Prod.fst then d else d ++ [(k, v)]

/-- What CPython adds to each class. -/
def baseItems (modname : Str) (locals : Dict) : List (Str × Obj) :=
  addItem (addItem (addItem (bodyItems modname locals) "__dict__".toList .value) "__weakref__".toList .value)
    "__doc__".toList .none

/-- `new_class.__dict__.items()`, where `locals` are the variables of the class body: CPython sets
`__hash__` to None if there is `__eq__` but no `__hash__`. -/
def newClassDict (modname : Str) (locals : Dict) : List (Str × Obj) :=
  if "__eq__".toList ∈ (baseItems modname locals).map Prod.fst then
    addItem (baseItems modname locals) "__hash__".toList .none
  else baseItems modname locals

/-- capnpy/blob.py:34-36, capnpy/util.py:35-41: `extend(cls)(new_class)` for the class at address
`a`; `extend` returns the class. -/
def extendClass (E : Env) (σ : State) (a : Nat) (items : List (Str × Obj)) : State × Py Obj :=
  match σ.heap[a]? with
  | none => (σ, .error .attributeError)
  | some d =>
    match extendLoop E.compiled (E.info a).heapType d items with
    | (d', .ok ()) => ({ σ with heap := σ.heap.set a d' }, .ok (.ref a))
    | (d', .error e) => ({ σ with heap := σ.heap.set a d' }, .error e)

/-- The statements of an extension file that matter here. -/
inductive XStmt
  /-- `@target.__extend__` and `class name:` with this body -/
  | extend (target name : Str) (body : List (Str × Expr))
  /-- `name = e` -/
  | assign (name : Str) (e : Expr)

/-- `target.__extend__`: a class method of `Blob`, so that it can be reached through an instance,
too. -/
def extendMethod (E : Env) : Obj → Py Nat
  | .ref a => if (E.info a).blob then .ok a else .error .attributeError
  | .instance_ a => if (E.info a).blob then .ok a else .error .attributeError
  | _ => .error .attributeError

/-- A statement: the decorator is evaluated first, then the class body, then the decorator is
called, and its result is bound to the name. -/
def exec (E : Env) (σ : State) : XStmt → State × Py Unit
  | .extend target name body =>
    match (σ.evalPath [] target).bind (extendMethod E) with
    | .error e => (σ, .error e)
    | .ok a =>
      match σ.execBody [] body with
      | .error e => (σ, .error e)
      | .ok locals =>
        match extendClass E σ a (newClassDict E.modname locals) with
        | (σ', .error e) => (σ', .error e)
        | (σ', .ok c) => ({ σ' with globals := (name, c) :: σ'.globals }, .ok ())
  | .assign name e =>
    match σ.eval [] e with
    | .error e => (σ, .error e)
    | .ok x => ({ σ with globals := (name, x) :: σ.globals }, .ok ())

/-- Statements, one after the other, until one raises. -/
def run (E : Env) (σ : State) : List XStmt → State × Py Unit
  | [] => (σ, .ok ())
  | s :: r =>
    match exec E σ s with
    | (σ', .ok ()) => run E σ' r
    | (σ', .error e) => (σ', .error e)

/-! ## Which file -/

/-- The file system: which paths are files, and what they contain (an error if it does not
compile).  `path` is `sys.path`. -/
structure Files where
  isFile : Str → Bool
  source : Str → Py (List XStmt)
  path : List Str

/-- The part of a string after its last `c`, and the part before it (none: no `c`). -/
def rsplit (c : Char) : Str → Option Str × Str
  | [] => (none, [])
  | x :: r =>
    match rsplit c r with
    | (some pre, post) => (some (x :: pre), post)
    | (none, post) => if x = c then (some [], post) else (none, x :: post)

/-- `py.path.local(f).purebasename`: the last component without its last extension. -/
def purebasename (f : Str) : Str :=
  let base := (rsplit '/' f).2
  match rsplit '.' base with
  | (some stem, _) => stem
  | (none, _) => base

/-- `f.new(purebasename=..., ext='.py')`; paths are absolute and normalised. -/
def newPath (f : Str) (stem : Str) : Str :=
  ((rsplit '/' f).1.getD []) ++ ['/'] ++ stem ++ ".py".toList

/-- capnpy/util.py:43-54 `find_module` with the default extension. -/
def findModule (F : Files) (modname : Str) : Option Str :=
  let relpath := (modname.map fun c => if c = '.' then '/' else c) ++ ".py".toList
  (F.path.map fun d => d ++ ['/'] ++ relpath).find? F.isFile

/-- capnpy/util.py:57-70: the file to be executed. -/
def extensionFile (F : Files) (filename modname : Option Str) : Py (Option Str) :=
  match filename, modname with
  | some f, _ =>
    let ext := newPath f (purebasename f ++ "_extended".toList)
    .ok (if F.isFile ext then some ext else none)
  | none, some m => .ok (findModule F (m ++ "_extended".toList))
  | none, none => .error .valueError

/-- capnpy/util.py:56-75 `extend_module_maybe`. -/
def extendModuleMaybe (E : Env) (F : Files) (σ : State) (filename modname : Option Str) : State × Py Unit :=
  match extensionFile F filename modname with
  | .error e => (σ, .error e)
  | .ok none => (σ, .ok ())
  | .ok (some f) =>
    match F.source f with
    | .error e => (σ, .error e)
    | .ok prog => run E σ prog

/-- The module of a schema with its extension (capnpy/compiler/request.py:118-122): `standalone`
modules pass their name, others the path of the schema. -/
def importExtended (E : Env) (F : Files) (g : Gen) (fuel : Nat) (σ : State) (standalone : Bool) (schema : Str) :
    State × Py Unit :=
  match importModule g fuel σ with
  | .error e => (σ, .error e)
  | .ok σ' =>
    if standalone then extendModuleMaybe E F σ' none (some E.modname)
    else extendModuleMaybe E F σ' (some schema) none

/-! ## Looking up attributes -/

/-- An attribute of the class itself. -/
def own (σ : State) (a : Nat) (k : Str) : Option Obj := (σ.heap[a]?).bind fun d => d.lookup k

/-- `cls.k`, and `obj.k` for an instance without an attribute of this name of its own: the first
class of the method resolution order that has it. -/
def lookupAttr (E : Env) (σ : State) (a : Nat) (k : Str) : Option Obj :=
  (E.info a).mro.findSome? fun b => own σ b k

end Capnpy.Extend
