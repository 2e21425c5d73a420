import Verif.Model.Extend

/-!
# Specification: what `__extend__` does to a class

`Bound L k`: the class body has a variable `k` at its end, `L` being its variables.
-/

namespace Capnpy.Spec

open Capnpy.Module

/-- The variable `k` at the end of a class body. -/
def Bound (L : Dict) (k : Str) : Prop := ∃ v, L.lookup k = some v

/-- The names with a meaning for the class statement itself; an extension cannot set them. -/
def Reserved (k : Str) : Prop :=
  k = "__dict__".toList ∨ k = "__doc__".toList ∨ k = "__module__".toList ∨ k = "__weakref__".toList ∨
    k = "__qualname__".toList

/-- What the attribute `k` of a class is after it was extended with a class body that ended with the
variables `L`: what the body says; None for the hash of a class whose body has `__eq__` only
(Python's rule for class statements); else what it was before. -/
inductive After (L : Dict) (before : Str → Option Obj) (k : Str) : Option Obj → Prop
  | reserved (h : Reserved k) : After L before k (before k)
  | bound {v : Obj} (h : ¬ Reserved k) (hv : L.lookup k = some v) : After L before k (some v)
  | unhashable (hk : k = "__hash__".toList) (hv : L.lookup k = none) (he : Bound L "__eq__".toList) :
      After L before k (some .none)
  | other (hv : L.lookup k = none) (he : k = "__hash__".toList → ¬ Bound L "__eq__".toList) :
      After L before k (before k)

end Capnpy.Spec
