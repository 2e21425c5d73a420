import Verif.Model.ReprEmit
import Verif.Model.Names

/-!
# Model of the tag of a union, as the compiler writes it

The enum class `__tag__` of a struct node with a union, and `which()` (capnpy/compiler/struct_.py:108-135,
capnpy/compiler/module.py:172-190, capnpy/struct_.py:160-170).

Not modelled: the name of the enum class; attributes that a member's name hides, except `name`.
-/

namespace Capnpy.TagEmit

open StructEmit (SNode)
open ReprEmit (enumItems)

/-- `__members__ = ('a', 'b',)`, followed by `_fill_enum`: an item which is missing is written as `None`, which is not the
name of an attribute (`setattr(cls, None, value)` is a TypeError when the module is imported). -/
def memberNames : List (Option String) → Py (List String)
  | [] => .ok []
  | none :: _ => .error .typeError
  | some s :: items => do pure (s :: (← memberNames items))

/-- capnpy/compiler/struct_.py:108-115 `_emit_union_tag_declaration`, with the import of the generated class: `none` if the
struct has no union. -/
def emitTag (n : SNode) : Py (Option (List String)) := do
  let items ← enumItems n
  if items = [] then pure none else pure (some (← memberNames items))

/-- The value of `o.which()` for an instance of the class of the node `n`: capnpy/struct_.py:160-170, or
capnpy/compiler/struct_.py:131-135 in pyx mode; `__tag_offset__` is defined only if there are items
(capnpy/compiler/struct_.py:119-125). -/
def which (n : SNode) (o : StructObj) : Py Int :=
  o.whichRaw (if n.discCount = 0 then none else some ((n.discOffset * 2 : Nat) : Int))

/-- `str(o.which())` -/
def whichStr (n : SNode) (o : StructObj) : Py String := do
  let w ← which n o
  match ← emitTag n with
  | some members => Names.enumStr members w
  | none => .error .typeError

end Capnpy.TagEmit
