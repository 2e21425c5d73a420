import Verif.Spec.ListSpec

/-!
# Specification: the value of a Python list given to a constructor

`ListVal it xs v`: the Python list `xs` is acceptable for a field of type
`List(it)`, and stands for the value `v`.
-/

namespace Capnpy.Spec

/-- The bytes of a number in a format. -/
def numBytes (fmt : Fmt) (i : Int) : Bytes := leBytes fmt.size (i % 2 ^ (8 * fmt.size)).toNat

/-- Text items: `None` or a byte string. -/
def TextVal : PyItem → Val → Prop
  | .none, v => v = .null
  | .bytes s, v => v = .listPrim 2 (s.length + 1) (s ++ [0])
  | _, _ => False

/-- Data items: `None` or a byte string. -/
def DataVal : PyItem → Val → Prop
  | .none, v => v = .null
  | .bytes s, v => v = .listPrim 2 s.length s
  | _, _ => False

/-- Struct items whose section sizes are `ds` and `ps` words. -/
def StructVal (ds ps : Nat) : PyItem → List UInt8 × List Val → Prop
  | .struct o, x => Denotes o (.struct x.1 x.2) ∧ x.1.length = 8 * ds ∧ x.2.length = ps ∧
      o.seg.buf.length ≤ 2 ^ 32
  | _, _ => False

/-- List items, given what the inner lists stand for. -/
def InnerVal (R : List PyItem → Val → Prop) : PyItem → Val → Prop
  | .none, v => v = .null
  | .list ys, v => R ys v
  | _, _ => False

/-- The Python list `xs` stands for the list value `v`.  (There is no case for
`List(Bool)`: capnpy cannot construct it.) -/
def ListVal : ItemType → List PyItem → Val → Prop
  | .void, xs, v => v = .listPrim 0 xs.length []
  | .bool, _, _ => False
  | .prim fmt, xs, v => ∃ is : List Int, xs = is.map PyItem.int ∧ (∀ i ∈ is, Props.InRange fmt i) ∧
      v = .listPrim (fmtTag fmt) is.length (is.flatMap (numBytes fmt))
  | .enum, xs, v => ∃ is : List Int, xs = is.map PyItem.int ∧ (∀ i ∈ is, Props.InRange .h i) ∧
      v = .listPrim 3 is.length (is.flatMap (numBytes .h))
  | .struct d p, xs, v => ∃ (ds ps : Nat) (items : List (List UInt8 × List Val)), d = ds ∧ p = ps ∧
      ds < 2 ^ 16 ∧ ps < 2 ^ 15 ∧ xs.length < 2 ^ 29 ∧
      List.Forall₂ (StructVal ds ps) xs items ∧ v = .listComp ds ps items
  | .text, xs, v => ∃ vs, List.Forall₂ TextVal xs vs ∧ v = .listPtr vs
  | .data, xs, v => ∃ vs, List.Forall₂ DataVal xs vs ∧ v = .listPtr vs
  | .list inner, xs, v => ∃ vs, List.Forall₂ (InnerVal (ListVal inner)) xs vs ∧ v = .listPtr vs

/-- The object `x` read from a list is the item `y` that was put into it. -/
def SameItem : ItemType → PyItem → Item → Prop
  | .void, _, x => x = .none
  | .list _, .none, x => ∃ l, x = .list l ∧ l.len = 0
  | .list inner, .list ys, x => ∃ l xs, x = .list l ∧ l.len = ys.length ∧ l.toList = .ok xs ∧
      List.Forall₂ (SameItem inner) ys xs
  | .struct _ _, .struct o, x => ∃ o' v, x = .struct o' ∧ Denotes o v ∧ Denotes o' v
  | .prim _, .int i, x => x = .int i
  | .enum, .int i, x => x = .int i
  | .text, .none, x => x = .none
  | .text, .bytes b, x => x = .bytes b
  | .data, .none, x => x = .none
  | .data, .bytes b, x => x = .bytes b
  | _, _, _ => False

end Capnpy.Spec
