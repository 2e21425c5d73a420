import Verif.Model.Group

/-!
# Specification: virtual groups

How the text of a `$Py.group` annotation spells a list of names, and when a schema with such
annotations can be compiled.
-/

namespace Capnpy.Spec

/-- Space, tab, newline, vertical tab, form feed, carriage return -/
def IsSpace (b : UInt8) : Prop := b = 32 ∨ b = 9 ∨ b = 10 ∨ b = 11 ∨ b = 12 ∨ b = 13

/-- Names separated by commas, each with any white space around it. -/
inductive Spells : List Bytes → Bytes → Prop
  | one (pre name post : Bytes) : (∀ b ∈ pre, IsSpace b) → (∀ b ∈ post, IsSpace b) →
      Spells [name] (pre ++ name ++ post)
  | cons (pre name post : Bytes) (names : List Bytes) (rest : Bytes) : (∀ b ∈ pre, IsSpace b) →
      (∀ b ∈ post, IsSpace b) → Spells names rest → Spells (name :: names) (pre ++ name ++ post ++ 44 :: rest)

/-- A name of a field: not empty, no comma, no white space. -/
def IsName (s : Bytes) : Prop := s ≠ [] ∧ ∀ b ∈ s, b ≠ 44 ∧ ¬ IsSpace b

end Capnpy.Spec
