import Verif.Model.Build

/-!
# Specification: incremental builds

When the generated file is what a build from scratch would give, and the histories in which
nobody does anything that the comparison of times cannot see.
-/

namespace Capnpy.Spec.Build

open Capnpy.Build

/-- The output exists and is what a build from scratch would generate now. -/
def Fresh {C I O} (gen : Bool → O → I → C → Py (List Char)) (o : O) (pyx : Bool) (d : Disk C I) : Prop :=
  ∃ src t, d.out pyx = some (src, t) ∧ gen pyx o d.imports d.schema = .ok src

/-- What may happen to the disk `d`: the schema is not changed while a build is running, and if it is replaced by a file
with a time of its own, this time is not before that of the outputs; the imported files and the options do not change;
no build is killed while it writes. -/
def Allowed {C I O} (o : O) (d : Disk C I) : Event C I O → Prop
  | .tick _ => True
  | .save _ => d.pending = []
  | .restore _ t => d.pending = [] ∧ ∀ pyx src t', d.out pyx = some (src, t') → t' ≤ t
  | .saveImports _ => False
  | .start _ o' => o' = o
  | .finish _ => True
  | .kill _ w => w = none

/-- Everything that happens is allowed when it happens. -/
def Orderly {C I O} (gen : Bool → O → I → C → Py (List Char)) (o : O) : Disk C I → List (Event C I O) → Prop
  | _, [] => True
  | d, e :: es => Allowed o d e ∧ Orderly gen o (step gen d e) es

/-- Nothing has been built yet. -/
def Unbuilt {C I} (d : Disk C I) : Prop := (∀ pyx, d.out pyx = none) ∧ d.pending = []

end Capnpy.Spec.Build
