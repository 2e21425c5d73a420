import Verif.Model.PyxCopy
import Verif.Model.List

/-!
# Model of the compiled `copy_from_list`

capnpy/segment/builder.pyx includes capnpy/segment/_copy_list.py: the algorithm is the one of
Model/List.lean, on the compiled `SegmentBuilder`.  `write_item` are the methods of
capnpy/list.py with the types of list.pxd.
-/

namespace Capnpy.Pyx

/-- capnpy/segment/builder.pyx:57-79 `write_generic`: the value is converted to the C type,
which raises OverflowError if it does not fit; then it is stored without a check. -/
def writeGenericC (fmt : Fmt) (i value : Int) : PM Unit := fun s =>
  match fmt.encode value with
  | .error _ => .exc .overflowError s
  | .ok _ =>
    match writeFmt s fmt i value with
    | some s => .ok () s
    | none => .ub

section

-- `junk s` is what uninitialised memory contains when the builder is in state `s`
variable (junk : Builder → Nat → UInt8)

/-- `builder.alloc_text(pos, s)`, `builder.alloc_data(pos, s)`,
capnpy/segment/builder.pyx:158-172 -/
def allocTextC (pos : Int) (x : Option Bytes) (trailingZero : Int) : PM Int :=
  PM.ofOptionR fun s => allocText (junk s) s pos x trailingZero

/-- capnpy/segment/_copy_list.py:46-48 -/
def writeItemsC (write : Int → PyItem → PM Unit) (itemLength : Int) : Int → List PyItem → PM Unit
  | _, [] => pure ()
  | pos, x :: xs => do
    write pos x
    writeItemsC write itemLength (pos + itemLength) xs

/-- `write_item` for the classes other than `ListItemType` (capnpy/list.py:177-178, 199-200,
257-258, 300-306, 334-338), `copy_inline_struct` (builder.pyx:188-198).  An item of a wrong
Python type raises TypeError. -/
def writeItemBaseC (fuel : Nat) (it : ItemType) (pos : Int) (x : PyItem) : PM Unit :=
  match it, x with
  | .void, _ => pure ()
  | .bool, _ => PM.lift (.error .notImplemented)
  | .prim fmt, .int i => writeGenericC fmt pos i
  | .enum, .int i => writeGenericC .h pos i
  | .struct _ _, .struct o =>
    copyStructInlineC (copyPointerC junk o.seg fuel) o.seg (o.asPointer 0) 0 pos
  | .text, .bytes b => do let _ ← allocTextC junk pos (some b) 1
  | .text, .none => do let _ ← allocTextC junk pos none 1
  | .data, .bytes b => do let _ ← allocTextC junk pos (some b) 0
  | .data, .none => do let _ ← allocTextC junk pos none 0
  | _, _ => PM.lift (.error .typeError)

/-- capnpy/segment/_copy_list.py:22-48 `copy_from_list`, after the check for `None`, given
how to write an item. -/
def copyListWithC (it : ItemType) (write : Int → PyItem → PM Unit) (pos : Int) (lst : List PyItem) : PM Unit := do
  let itemLength := it.itemLength
  let sizeTag := it.sizeTag
  let itemCount : Int := lst.length
  let bodyLength := itemLength * itemCount
  match it with
  | .struct dataSize ptrsSize => do
    let totalWords := (dataSize + ptrsSize) * itemCount
    let pos ← allocListC junk pos sizeTag totalWords (bodyLength + 8)
    let tag := Ptr.newStruct itemCount dataSize ptrsSize
    writeInt64C pos tag
    writeItemsC write itemLength (pos + 8) lst
  | _ => do
    let pos ← allocListC junk pos sizeTag itemCount bodyLength
    writeItemsC write itemLength pos lst

/-- `write_item` (capnpy/list.py:386-387 for `ListItemType`). -/
def writeItemC (fuel : Nat) : ItemType → Int → PyItem → PM Unit
  | .list inner, pos, .none => let _ := inner; writeInt64C pos 0
  | .list inner, pos, .list l => copyListWithC junk inner (writeItemC fuel inner) pos l
  | it, pos, x => writeItemBaseC junk fuel it pos x

/-- capnpy/segment/_copy_list.py:22-48 `copy_from_list`, builder.pyx:200-201 -/
def copyFromListC (fuel : Nat) (it : ItemType) (pos : Int) : Option (List PyItem) → PM Unit
  | none => writeInt64C pos 0
  | some l => copyListWithC junk it (writeItemC junk fuel it) pos l

end

end Capnpy.Pyx
