import Verif.Model.Py

/-!
# Model of `DistutilsCompiler.compile` over a file system

One schema file, the two files that may be generated from it (`.py` and `.pyx`), the files it
imports and the clock.  Times are numbers of any resolution; the clock never goes back.
-/

namespace Capnpy.Build

/-- The disk.  `C` are the contents of the schema, `I` those of all the imported files.  The time of last
modification of imported files is never looked at.  `pending` are the runs of `compile` which have generated their source and
not written it yet. -/
structure Disk (C I : Type) where
  now : Nat
  schema : C
  schemaTime : Nat
  imports : I
  out : Bool → Option (List Char × Nat)
  pending : List (Bool × List Char)

/-- capnpy/compiler/compiler.py:313-315: is the output considered up to date? -/
def upToDate {C I} (d : Disk C I) (pyx : Bool) : Bool :=
  match d.out pyx with
  | none => false
  | some (_, t) => decide (t > d.schemaTime)

/-- What the first part of `compile` does. -/
inductive Outcome
  | current
  | raised (e : PyErr)
  | generated (src : List Char)
  deriving DecidableEq, Repr

/-- capnpy/compiler/compiler.py:305-318 `DistutilsCompiler.compile` up to the generation of the source.  `gen` is
`generate_py_source` (72-80): a function of the mode, the options, the imported files and the schema (that the hashes of
virtual groups differ between runs of Python, C59_hash_dependent, is left out here). -/
def start {C I O} (gen : Bool → O → I → C → Py (List Char)) (pyx : Bool) (o : O) (d : Disk C I) : Outcome × Disk C I :=
  if upToDate d pyx then (.current, d)
  else
    match gen pyx o d.imports d.schema with
    | .error e => (.raised e, d)
    | .ok src => (.generated src, { d with pending := d.pending ++ [(pyx, src)] })

/-- Set one of the outputs. -/
def setOut {C I} (d : Disk C I) (pyx : Bool) (src : List Char) : Disk C I :=
  { d with out := fun b => if b = pyx then some (src, d.now) else d.out b }

/-- capnpy/compiler/compiler.py:319-320: the `j`-th of the pending runs writes its source and returns. -/
def finish {C I} (j : Nat) (d : Disk C I) : Disk C I :=
  match d.pending[j]? with
  | none => d
  | some (pyx, src) => { setOut d pyx src with pending := d.pending.eraseIdx j }

/-- The `j`-th of the pending runs is killed: before it opened the output (`none`), or after it truncated the output and
`k` characters of the source went to the disk. -/
def kill {C I} (j : Nat) (written : Option Nat) (d : Disk C I) : Disk C I :=
  match d.pending[j]? with
  | none => d
  | some (pyx, src) =>
    match written with
    | none => { d with pending := d.pending.eraseIdx j }
    | some k => { setOut d pyx (src.take k) with pending := d.pending.eraseIdx j }

/-- What can happen. -/
inductive Event (C I O : Type)
  /-- time passes -/
  | tick (n : Nat)
  /-- somebody saves the schema -/
  | save (c : C)
  /-- somebody puts a file with a time of modification of its own in the place of the schema (`cp -p`, `tar`) -/
  | restore (c : C) (time : Nat)
  /-- somebody changes an imported file -/
  | saveImports (i : I)
  | start (pyx : Bool) (o : O)
  | finish (j : Nat)
  | kill (j : Nat) (written : Option Nat)

def step {C I O} (gen : Bool → O → I → C → Py (List Char)) (d : Disk C I) : Event C I O → Disk C I
  | .tick n => { d with now := d.now + n }
  | .save c => { d with schema := c, schemaTime := d.now }
  | .restore c t => { d with schema := c, schemaTime := t }
  | .saveImports i => { d with imports := i }
  | .start pyx o => (start gen pyx o d).2
  | .finish j => finish j d
  | .kill j w => kill j w d

def run {C I O} (gen : Bool → O → I → C → Py (List Char)) (d : Disk C I) (es : List (Event C I O)) : Disk C I :=
  es.foldl (step gen) d

end Capnpy.Build
