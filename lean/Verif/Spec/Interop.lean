import Verif.Model.CyAccess
import Verif.Spec.Evolve

/-!
# Specification: the pure Python and the compiled version, side by side

Each of the functions a program calls, in the version the process runs.  The result is `none`
for an access outside of memory, else a crash, or a value or exception together with whether
exceptions were ignored on the way.
-/

namespace Capnpy.Spec

open Capnpy.Cy (CRes)

inductive Version
  | pure
  | compiled

abbrev Outcome (α : Type) := Option (CRes α)

/-- The call returned `v`, and nothing was ignored. -/
def Returned {α} (r : Outcome α) (v : α) : Prop := r = some (.ret (.ok v) false)

variable (junk : Pyx.Builder → Nat → UInt8)

/-- `Cls(...)` -/
def Version.construct (fuel : Nat) (S : Schema) (args : List Arg) : Version → Outcome StructObj
  | .pure => some (.ret (S.construct fuel args) false)
  | .compiled =>
    match S.constructC junk fuel args with
    | .ok o => some (.ret (.ok o) false)
    | .error (.exc e) => some (.ret (.error e) false)
    | .error .ub => none

/-- `dumps(o, fastpath)` -/
def Version.dumps (o : StructObj) (fastpath : Bool) (fuel : Nat) : Version → Outcome Bytes
  | .pure => some (.ret (Capnpy.dumps o fastpath fuel) false)
  | .compiled => Cy.dumpsC junk o fastpath fuel

/-- `loads(s)` -/
def Version.loads (s : Bytes) : Version → Outcome (Option StructObj)
  | .pure => some (.ret (Capnpy.loads s) false)
  | .compiled => some (Cy.loads s)

/-- `list(load_all(f))` on a buffered stream: what is yielded in `n` iterations, whether
exceptions were ignored, and how it ends. -/
def Version.loadAll (n : Nat) (st : BStream) : Version → List (Option StructObj) × Bool × Option GenEnd
  | .pure =>
    let (objs, e, _) := Capnpy.loadAll BStream.file n st
    (objs, false, some e)
  | .compiled =>
    let (objs, w, e, _) := Cy.loadAll Cy.bstreamFile n st
    (objs, w, e)

/-- `o.x`, for the field `x` of a class. -/
def Version.getField (o : StructObj) (union : Option Nat) (f : Field) : Version → Outcome RVal
  | .pure => some (.ret (Capnpy.getField o union f) false)
  | .compiled => some (Cy.getField o union f)

/-- `list(l)` -/
def Version.toList (l : ListObj) : Version → Outcome (List Item)
  | .pure => some (.ret l.toList false)
  | .compiled => some (Cy.toList l)

/-- `o.x.y.z`, compiled. -/
def getPathC (o : StructObj) (union : Option Nat) (fields : List Field) : List String → CRes RVal
  | [] => .ret (.ok (.group o)) false
  | x :: xs =>
    match findField x fields with
    | none => .ret (.error .attributeError) false
    | some f => do
      let r ← Cy.getField o union f
      match xs, f, r with
      | [], _, r => .ret (.ok r) false
      | _ :: _, .group _ _ _ _ gunion children, .group g => getPathC g gunion children xs
      | _, _, _ => .ret (.error .attributeError) false

/-- `o.x.y.z` -/
def Version.getPath (o : StructObj) (union : Option Nat) (fields : List Field) (path : List String) :
    Version → Outcome RVal
  | .pure => some (.ret (Spec.getPath o union fields path) false)
  | .compiled => some (getPathC o union fields path)

mutual

/-- The numbers of the union members are below 2^15 (in capnp they are `UInt16`, and a struct
has at most 2^16 - 1 fields; 65535 is the value reserved for "not a member"). -/
def TagsBelow : Field → Prop
  | .slot _ _ disc _ _ _ => ∀ tag, disc = some tag → tag < 2 ^ 15
  | .group _ _ disc _ _ children => (∀ tag, disc = some tag → tag < 2 ^ 15) ∧ AllTagsBelow children

def AllTagsBelow : List Field → Prop
  | [] => True
  | f :: fs => TagsBelow f ∧ AllTagsBelow fs

end

end Capnpy.Spec
