import Verif.Model.Options

/-!
# Model of `ModuleGenerator.has_annotation` and `register_extra_annotation`
(capnpy/compiler/module.py:69-91)

`self.extra_annotations` is a `defaultdict(list)`.  `.get(obj, [])` does not insert a
missing key, but for a key which is there it returns the stored list itself, so the
`+=` of the next statement changes the dictionary.
-/

namespace Capnpy

/-- An annotation as far as the lookup goes: the annotation id and (abstractly) its
value. -/
structure AnnRef where
  id : Nat
  value : Nat
  deriving DecidableEq, Repr

/-- An object which is asked for annotations.  `key` is its identity as a dictionary
key (`none` if it is not hashable: module.py:78-80); `annotations` is `None` or the list
which the schema gives it. -/
structure AnnObj where
  key : Option Nat
  annotations : Option (List AnnRef)
  deriving DecidableEq, Repr

/-- `self.extra_annotations` (module.py:38): key ↦ stored list; the latest binding is
first. -/
abbrev Extra := List (Nat × List AnnRef)

/-- module.py:69-70 `register_extra_annotation`: `self.extra_annotations[obj].append(...)`;
an unhashable object raises TypeError. -/
def registerExtra (x : Extra) (obj : AnnObj) (ann : AnnRef) : Py Extra :=
  match obj.key with
  | none => .error .typeError
  | some k => .ok ((k, (x.lookup k).getD [] ++ [ann]) :: x)

/-- module.py:85-91: the first annotation with the id. -/
def firstWithId (annId : Nat) : List AnnRef → Option AnnRef
  | [] => none
  | a :: as => if a.id = annId then some a else firstWithId annId as

/-- module.py:75-91 `has_annotation`: the answer and the new `extra_annotations`. -/
def hasAnnotation (x : Extra) (obj : AnnObj) (annId : Nat) : Option AnnRef × Extra :=
  -- try: annotations = self.extra_annotations.get(obj, []); `stored` says where the list lives
  let stored : Option (Nat × List AnnRef) :=
    match obj.key with
    | none => none
    | some k => (x.lookup k).map fun l => (k, l)
  let annotations := (stored.map (·.2)).getD []
  match obj.annotations with
  | none => (firstWithId annId annotations, x)
  | some own =>
    let annotations := annotations ++ own
    let x := match stored with
      | some (k, _) => (k, annotations) :: x
      | none => x
    (firstWithId annId annotations, x)

/-- The operations on the two methods. -/
inductive AnnOp
  | query (obj : AnnObj) (annId : Nat)
  | register (obj : AnnObj) (ann : AnnRef)
  deriving DecidableEq, Repr

/-- A call for its effect only (an exception is caught by the caller). -/
def AnnOp.run (x : Extra) : AnnOp → Extra
  | .query obj annId => (hasAnnotation x obj annId).2
  | .register obj ann => match registerExtra x obj ann with
    | .ok x => x
    | .error _ => x

/-- A history of calls. -/
def annHistory (x : Extra) (ops : List AnnOp) : Extra := ops.foldl AnnOp.run x

end Capnpy
