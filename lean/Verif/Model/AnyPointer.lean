import Verif.Model.List

/-!
# Model of capnpy/anypointer.py

An `AnyPointer` is a struct object and the byte offset of the slot in its pointer
section.  `as_text_unicode` is in Model/Text.lean; the conversion of the
argument of `as_list` by `ItemType.from_type` is not modelled.
-/

namespace Capnpy

/-- capnpy/anypointer.py:6-10 -/
structure AnyPtr where
  struct_ : StructObj
  offset : Int

namespace AnyPtr

/-- capnpy/anypointer.py:12-14 `is_struct` -/
def isStruct (self : AnyPtr) : Py Bool := do
  let p ← self.struct_.readFastPtr self.offset
  pure (Ptr.kind p = Ptr.STRUCT)

/-- capnpy/anypointer.py:16-18 `is_list` -/
def isList (self : AnyPtr) : Py Bool := do
  let p ← self.struct_.readFastPtr self.offset
  pure (Ptr.kind p = Ptr.LIST)

/-- capnpy/anypointer.py:20-27 `is_text`, `is_data` -/
def isText (self : AnyPtr) : Py Bool := do
  let p ← self.struct_.readFastPtr self.offset
  pure (Ptr.kind p = Ptr.LIST ∧ Ptr.listSizeTag p = Ptr.LIST_SIZE_8)

/-- capnpy/anypointer.py:32-33 `as_text_bytes` -/
def asTextBytes (self : AnyPtr) : Py (Option Bytes) := self.struct_.readTextBytes self.offset

/-- capnpy/anypointer.py:38-39 `as_data` -/
def asData (self : AnyPtr) : Py (Option Bytes) := self.struct_.readData self.offset none 0

/-- capnpy/anypointer.py:41-42 `as_struct` -/
def asStruct (self : AnyPtr) : Py (Option StructObj) := self.struct_.readStruct self.offset

/-- capnpy/anypointer.py:44-55 `as_list` -/
def asList (self : AnyPtr) (itemType : ItemType) : Py (Option ListObj) :=
  self.struct_.readList self.offset itemType

end AnyPtr

end Capnpy
