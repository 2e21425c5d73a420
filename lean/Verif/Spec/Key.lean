import Verif.Model.Key

/-!
# The value a key stands for

`denote` forgets the difference between a keyed struct and the tuple of its key
fields, recursively: that is what "compares equal to the tuple of its key
fields" means.
-/

namespace Capnpy.Spec
open Key

inductive KeyVal
  | none | int (i : Int) | bytes (b : Bytes) | str (b : Bytes) | tuple (xs : List KeyVal)

mutual
def denote : PyObj → KeyVal
  | .none => .none
  | .int i => .int i
  | .bytes b => .bytes b
  | .str s => .str s
  | .tuple xs => .tuple (denotes xs)
  | .keyed xs => .tuple (denotes xs)
  | .unkeyed => .none
def denotes : List PyObj → List KeyVal
  | [] => []
  | x :: xs => denote x :: denotes xs
end

mutual
/-- No struct without `$Py.key` occurs in the value. -/
def Comparable : PyObj → Prop
  | .tuple xs => Comparables xs
  | .keyed xs => Comparables xs
  | .unkeyed => False
  | _ => True
def Comparables : List PyObj → Prop
  | [] => True
  | x :: xs => Comparable x ∧ Comparables xs
end

mutual
/-- Nesting depth: how much recursion a comparison may need. -/
def objDepth : PyObj → Nat
  | .tuple xs => objDepths xs + 1
  | .keyed xs => objDepths xs + 1
  | _ => 1
def objDepths : List PyObj → Nat
  | [] => 0
  | x :: xs => max (objDepth x) (objDepths xs)
end

end Capnpy.Spec
