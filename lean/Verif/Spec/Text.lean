import Verif.Model.Text
import Verif.Spec.ListBuild

/-!
# Specification: unicode texts

* `Utf8 s b`: the bytes `b` are the utf-8 encoding of the Python string `s`;
* `UVal u xs v`: the Python list `xs` is acceptable for a (nested) list of unicode texts, and stands for `v`;
* `SameU u y x`: the object `x` which was read is the object `y` which was given;
* `Encodable u x`: a str without surrogates, or `None`, or a list of such.
-/

namespace Capnpy.Spec

open Capnpy.Text

/-- `s` consists of the characters of a Lean string whose utf-8 encoding is `b`. -/
def Utf8 (s : PyStr) (b : Bytes) : Prop :=
  ∃ str : String, s.map Fin.val = str.toList.map Char.toNat ∧ b.toByteArray = str.toUTF8

/-- No code point is a surrogate (D800 … DFFF). -/
def NoSurrogates (s : PyStr) : Prop := ∀ c ∈ s, ¬ (0xd800 ≤ c.val ∧ c.val ≤ 0xdfff)

/-- A text with the bytes `b`, as stored: with a trailing zero. -/
def textOf (b : Bytes) : Val := .listPrim 2 (b.length + 1) (b ++ [0])

/-- Text items: `None` or a string. -/
def UTextVal : UItem → Val → Prop
  | .none, v => v = .null
  | .str s, v => ∃ b, Utf8 s b ∧ v = textOf b
  | _, _ => False

/-- List items, given what the inner lists stand for. -/
def UInnerVal (R : List UItem → Val → Prop) : UItem → Val → Prop
  | .none, v => v = .null
  | .list ys, v => R ys v
  | _, _ => False

/-- The Python list `xs` stands for the list value `v`. -/
def UVal : UType → List UItem → Val → Prop
  | .text, xs, v => ∃ vs, List.Forall₂ UTextVal xs vs ∧ v = .listPtr vs
  | .list inner, xs, v => ∃ vs, List.Forall₂ (UInnerVal (UVal inner)) xs vs ∧ v = .listPtr vs

/-- The object `x` read from a list is the item that was put into it. -/
def SameU : UType → UItem → UObj → Prop
  | .text, .none, x => x = .none
  | .text, .str s, x => x = .str s
  | .list _, .none, x => ∃ l, x = .list l ∧ l.len = 0
  | .list inner, .list ys, x => ∃ l xs, x = .list l ∧ l.len = ys.length ∧ toListU inner l = .ok xs ∧
      List.Forall₂ (SameU inner) ys xs
  | _, _, _ => False

/-- `x` can be stored. -/
def Encodable : UType → UItem → Prop
  | .text, .none => True
  | .text, .str s => NoSurrogates s
  | .list _, .none => True
  | .list inner, .list l => ∀ x ∈ l, Encodable inner x
  | _, _ => False

/-- The argument `a` of Model/Ctor.lean stands for the argument `u`. -/
def ArgEnc : UArg → Arg → Prop
  | .plain a, a' => a' = a
  | .unicode .none, a' => a' = .none
  | .unicode (.str s), a' => ∃ b, Utf8 s b ∧ a' = .bytes b
  | .unicode _, _ => False

end Capnpy.Spec
