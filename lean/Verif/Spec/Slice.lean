import Mathlib.Data.List.Basic

/-!
# Specification: Python slices

Written from "Common Sequence Operations" of the Python documentation: the slice
of `s` from `i` to `j` with step `k` consists of the items with index
`x = i + n*k`, before `j`; omitted and negative bounds are adjusted, and bounds
are clamped to the sequence.
-/

namespace Capnpy.Spec

/-- A negative bound counts from the end. -/
def fromEnd (len : Nat) (i : Int) : Int := if i < 0 then i + len else i

/-- First index of a slice with a positive step. -/
def firstUp (len : Nat) : Option Int → Int
  | none => 0
  | some i => max 0 (fromEnd len i)

/-- First index of a slice with a negative step. -/
def firstDown (len : Nat) : Option Int → Int
  | none => (len : Int) - 1
  | some i => min ((len : Int) - 1) (fromEnd len i)

/-- The index `x` belongs to the slice with a positive step. -/
def InUp (len : Nat) (start stop : Option Int) (step : Int) (x : Nat) : Prop :=
  firstUp len start ≤ x ∧ (∀ j, stop = some j → (x : Int) < fromEnd len j) ∧
    step ∣ (x - firstUp len start)

/-- The index `x` belongs to the slice with a negative step. -/
def InDown (len : Nat) (start stop : Option Int) (step : Int) (x : Nat) : Prop :=
  (x : Int) ≤ firstDown len start ∧ (∀ j, stop = some j → fromEnd len j < (x : Int)) ∧
    step ∣ (x - firstDown len start)

open Classical in
/-- `s[start:stop:step]` for `step ≠ 0`: the items whose index belongs to the
slice, in ascending order of index if the step is positive, descending otherwise. -/
noncomputable def sliceOf {α} (s : List α) (start stop : Option Int) (step : Int) : List α :=
  if 0 < step then
    ((List.range s.length).filter fun x => InUp s.length start stop step x).filterMap fun x => s[x]?
  else
    ((List.range s.length).reverse.filter fun x => InDown s.length start stop step x).filterMap
      fun x => s[x]?

end Capnpy.Spec
