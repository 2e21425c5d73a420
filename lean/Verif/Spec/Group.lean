import Verif.Spec.Ctor

/-!
# Specification: group constructors

`ArgsOf params pos kw vals`: `vals` are the values which the parameters get in the Python call
`f(*pos, **kw)` when the omitted ones get the value `dflt`.
-/

namespace Capnpy.Spec

/-- The keyword or positional argument of the `k`-th parameter, if it is given. -/
def givenArg (pos : List Arg) (kw : List (String × Arg)) (k : Nat) (name : String) : Option Arg :=
  match pos[k]? with
  | some a => some a
  | none => kw.lookup name

/-- The call is allowed: not too many positional arguments; every keyword is the name of one
parameter that is not given by position; no keyword twice. -/
structure CallOK (names : List String) (pos : List Arg) (kw : List (String × Arg)) : Prop where
  count : pos.length ≤ names.length
  known : ∀ x ∈ kw, ∃ k, pos.length ≤ k ∧ names[k]? = some x.1
  once : (kw.map Prod.fst).Nodup

end Capnpy.Spec
