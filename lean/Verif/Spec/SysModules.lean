import Verif.Model.SysModules
import Mathlib.Logic.Relation

/-!
# Specification: what loading in pyx mode may do to `sys.modules`
-/

namespace Capnpy.Spec

/-- The names that capnpy uses in `sys.modules` while it loads the schema `x/foo.capnp`: `foo_tmp` and
`capnpy.ext.foo`. -/
def OwnName (E : SysEnv) (file k : String) : Prop :=
  k = E.modname file ++ "_tmp" ∨ k = "capnpy.ext." ++ E.modname file

/-- Two files use the same name. -/
def Clash (E : SysEnv) (f g : String) : Prop := ∃ k, OwnName E f k ∧ OwnName E g k

/-- `f` imports `g`, for the compiler `c`. -/
def Imports (E : SysEnv) (c : Nat) (f g : String) : Prop :=
  ∃ is, (E.env c).source f = .ok is ∧ ∃ i ∈ is, (E.env c).findImport i = .ok g

/-- The compiler `c` has loaded `f`. -/
def IsLoaded (st : SysState) (c : Nat) (f : String) : Prop := ((st.modules c).lookup f).isSome

/-- `f` was loaded (by the compiler `c`) between the two states. -/
def NewlyLoaded (st st' : SysState) (c : Nat) (f : String) : Prop := ¬ IsLoaded st c f ∧ IsLoaded st' c f

/-- Among the files that must be loaded for `f`, no one imports, directly or not, another one
with the same base name (or itself). -/
def NoClash (E : SysEnv) (st : SysState) (c : Nat) (f : String) : Prop :=
  ∀ a b, Relation.ReflTransGen (Imports E c) f a → Relation.TransGen (Imports E c) a b →
    ¬ IsLoaded st c a → ¬ IsLoaded st c b → ¬ Clash E a b

end Capnpy.Spec
