import Verif.Model.Accessor

/-!
# Model of capnpy/list.py and capnpy/segment/_copy_list.py

The item types are the classes of capnpy/list.py:103-387.  Simplifications:
`TextUnicodeItemType` (bytes-to-unicode decoding after `TextItemType`) is in
Model/Text.lean; the enum class of `EnumItemType` and the struct class of
`StructItemType` are represented by what the code uses of them (nothing but the
int value; the static sizes).  Floats are raw bit patterns.
-/

namespace Capnpy

/-- capnpy/list.py:181-387: `VoidItemType`, `BoolItemType`, `PrimitiveItemType`,
`EnumItemType`, `StructItemType` (static sizes), `TextItemType(Types.text)`,
`TextItemType(Types.data)`, `ListItemType`. -/
inductive ItemType
  | void
  | bool
  | prim (fmt : Fmt)
  | enum
  | struct (staticDataSize staticPtrsSize : Int)
  | text
  | data
  | list (inner : ItemType)
  deriving DecidableEq, Repr

namespace ItemType

/-- `self.item_length` (capnpy/list.py:184, 206, 230, 263-264, 281, 316, 364). -/
def itemLength : ItemType → Int
  | .void => 0
  | .bool => -1
  | .prim fmt => fmt.size
  | .enum => 2
  | .struct d p => (d + p) * 8
  | .text | .data | .list _ => 8

/-- `self.size_tag` (capnpy/list.py:185, 207, 231-240, 282, 317, 365). -/
def sizeTag : ItemType → Int
  | .void => Ptr.LIST_SIZE_VOID
  | .bool => Ptr.LIST_SIZE_BIT
  | .prim fmt =>
    if fmt.size = 1 then Ptr.LIST_SIZE_8
    else if fmt.size = 2 then Ptr.LIST_SIZE_16
    else if fmt.size = 4 then Ptr.LIST_SIZE_32
    else Ptr.LIST_SIZE_64
  | .enum => Ptr.LIST_SIZE_16
  | .struct _ _ => Ptr.LIST_SIZE_COMPOSITE
  | .text | .data | .list _ => Ptr.LIST_SIZE_PTR

/-- `can_compare` (capnpy/list.py:174-175, 287-288). -/
def canCompare : ItemType → Bool
  | .struct _ _ => false
  | _ => true

end ItemType

/-- The attributes of a `List` instance (capnpy/list.py:29-52). -/
structure ListObj where
  seg : Seg
  offset : Int
  itemType : ItemType
  sizeTag : Int
  tag : Int
  itemCount : Int
  itemLength : Int
  itemOffset : Int
  deriving DecidableEq, Repr

/-- What an item of a list can be. -/
inductive Item
  | none
  | bool (b : Bool)
  | int (i : Int)
  | bytes (b : Bytes)
  | struct (o : StructObj)
  | list (l : ListObj)
  deriving DecidableEq, Repr

namespace ListObj

/-- capnpy/list.py:29-33 `_init_from_buffer` and 40-52 `_set_list_tag` -/
def init (seg : Seg) (offset sizeTag itemCount : Int) (itemType : ItemType) : Py ListObj :=
  if sizeTag = Ptr.LIST_SIZE_COMPOSITE then do
    let tag ← seg.readPtr offset
    pure ⟨seg, offset, itemType, sizeTag, tag, Ptr.offset tag,
      (Ptr.structDataSize tag + Ptr.structPtrsSize tag) * 8, 8⟩
  else pure ⟨seg, offset, itemType, sizeTag, -1, itemCount, Ptr.listItemLength sizeTag, 0⟩

/-- capnpy/list.py:57-58 `__len__` -/
def len (self : ListObj) : Int := self.itemCount

/-- capnpy/list.py:165-166 `ItemType.offset_for_item` -/
def offsetForItem (self : ListObj) (i : Int) : Int :=
  self.offset + self.itemOffset + i * self.itemLength

/-- The pointer of item `i` at `offset`, after following a far pointer
(capnpy/list.py:326-328, 372-374). -/
def itemPtr (self : ListObj) (offset : Int) : Py (Int × Int) := do
  let p ← self.seg.readPtr offset
  if Ptr.kind p = Ptr.FAR then self.seg.readFarPtr offset
  else pure (offset, p)

/-- `None` or bytes as an item. -/
def optBytes : Option Bytes → Item
  | none => .none
  | some b => .bytes b

/-- `read_item` of the item types (capnpy/list.py:193-194, 215-219, 245-247,
270-272, 290-295, 324-329, 370-381) -/
def readItem (self : ListObj) (i : Int) : Py Item :=
  match self.itemType with
  | .void => .ok .none
  | .bool => do
    let value ← Capnpy.readPrimitive self.seg.buf (self.offset + i / 8) .b
    pure (.bool (Int.land value (shl 1 (i % 8).toNat) ≠ 0))
  | .prim fmt => do
    let v ← Capnpy.readPrimitive self.seg.buf (self.offset + i * self.itemLength) fmt
    pure (.int v)
  | .enum => do
    let v ← Capnpy.readPrimitive self.seg.buf (self.offset + i * self.itemLength) .h
    pure (.int v)
  | .struct _ _ => do
    let o ← StructObj.initFromBuffer self.seg (self.offsetForItem i)
      (Ptr.structDataSize self.tag) (Ptr.structPtrsSize self.tag)
    pure (.struct o)
  | .text => do
    let (offset, p) ← self.itemPtr (self.offsetForItem i)
    let s ← self.seg.readStr p offset none (-1)
    pure (optBytes s)
  | .data => do
    let (offset, p) ← self.itemPtr (self.offsetForItem i)
    let s ← self.seg.readStr p offset none 0
    pure (optBytes s)
  | .list inner => do
    let (offset, p) ← self.itemPtr (self.offset + i * 8)
    let l ← init self.seg (Ptr.deref p offset) (Ptr.listSizeTag p) (Ptr.listItemCount p) inner
    pure (.list l)

/-- capnpy/list.py:60-68 `__getitem__` with an int. -/
def getItem (self : ListObj) (i : Int) : Py Item :=
  let i := if i < 0 then i + self.itemCount else i
  if 0 ≤ i ∧ i < self.itemCount then self.readItem i
  else .error .indexError

/-- One bound of a Python slice, adjusted to a sequence of `len` elements:
`PySlice_AdjustIndices`. -/
def adjust (len step : Int) (lo hi : Int) (dflt : Int) : Option Int → Int
  | none => dflt
  | some i =>
    if i < 0 then
      if i + len < 0 then (if step < 0 then lo else 0) else i + len
    else if i ≥ len then (if step < 0 then hi else len)
    else i

/-- `range(start, stop, step)` with `n` iterations left. -/
def rangeFrom (start step : Int) : Nat → List Int
  | 0 => []
  | n + 1 => start :: rangeFrom (start + step) step n

/-- Number of elements of `range(start, stop, step)`. -/
def rangeLen (start stop step : Int) : Nat :=
  if 0 < step then ((stop - start + step - 1) / step).toNat
  else ((start - stop - step - 1) / -step).toNat

/-- `range(*slice(start, stop, step).indices(len))`; ValueError for step 0. -/
def sliceIndices (len : Int) (start stop : Option Int) (step : Int) : Py (List Int) :=
  if step = 0 then .error .valueError
  else
    let a := adjust len step (-1) (len - 1) (if step < 0 then len - 1 else 0) start
    let b := adjust len step (-1) (len - 1) (if step < 0 then -1 else len) stop
    .ok (rangeFrom a step (rangeLen a b step))

/-- `[f(j) for j in idx]` -/
def mapPy {α β} (f : α → Py β) : List α → Py (List β)
  | [] => .ok []
  | a :: as => do
    let b ← f a
    let bs ← mapPy f as
    pure (b :: bs)

/-- capnpy/list.py:60-68 `__getitem__` with a slice. -/
def getSlice (self : ListObj) (start stop : Option Int) (step : Int) : Py (List Item) := do
  let idx ← sliceIndices self.len start stop step
  mapPy self.readItem idx

/-- Iteration: `List` has no `__iter__`, so Python calls `__getitem__` with 0, 1,
2... until it raises IndexError; another exception propagates.  `n` bounds the
number of calls. -/
def iterFrom (self : ListObj) : Nat → Int → Py (List Item)
  | 0, _ => .ok []
  | n + 1, i =>
    match self.getItem i with
    | .error .indexError => .ok []
    | .error e => .error e
    | .ok x => do
      let xs ← iterFrom self n (i + 1)
      pure (x :: xs)

/-- `list(self)`: `__getitem__` raises IndexError at the latest at `len(self)`. -/
def toList (self : ListObj) : Py (List Item) := self.iterFrom (self.itemCount.toNat + 1) 0

/-- capnpy/list.py:76-78 `_get_end`.  (For a composite list it passes the number
of items where the pointer has the number of words; `endof` does not use it.) -/
def getEnd (self : ListObj) (fuel : Nat) : Py Int :=
  endof self.seg fuel (Ptr.newList 0 self.sizeTag self.itemCount) (self.offset - 8)

/-- capnpy/list.py:80-85 `_get_slice` -/
def getBytes (self : ListObj) (fuel : Nat) : Py Bytes := do
  let end_ ← self.getEnd fuel
  pure (pySlice self.seg.buf self.offset end_)

/-- `self._item_type.get_type() == other._item_type.get_type()`
(capnpy/list.py:187-188, 209-210, 242-243, 267-268, 319-322, 367-368, 95).  For
`ListItemType` the type is a tuple that contains the inner `ItemType` object,
which has no `__eq__`: two of them are equal only if the inner objects are the
same object (`innerId`; see `innerIsGlobal`).  Enum classes are not
modelled: the two enum item types are assumed to be for the same class. -/
def sameGetType (a b : ItemType) (innerId : Bool) : Bool :=
  match a, b with
  | .list i, .list j => innerId && decide (i = j)
  | a, b => decide (a = b)

/-- Are the inner `ItemType` objects of two evaluations of the same accessor the
same object?  In pure Python the accessor of a `List(List(T))` field evaluates
`_ListItemType(<item type of T>)` (capnpy/compiler/misc.py:46-76,
capnpy/compiler/field.py:187-190), and the inner expression is a module global
only for structs and enums. -/
def innerIsGlobal : ItemType → Bool
  | .struct _ _ | .enum => true
  | _ => false

/-- capnpy/list.py:87-96 `_equals` for another capnpy `List`. -/
def equals (self other : ListObj) (innerId : Bool) (fuel : Nat) : Py Bool :=
  if self.itemType.canCompare = false then .error .typeError
  else if self.itemCount = other.itemCount ∧ sameGetType self.itemType other.itemType innerId = true then do
    let a ← self.getBytes fuel
    let b ← other.getBytes fuel
    pure (decide (a = b))
  else .ok false

/-- Python equality of items: `list(self) == other` (capnpy/list.py:90-91) for a
Python list without nested lists. -/
def equalsPy (self : ListObj) (other : List Item) : Py Bool :=
  if self.itemType.canCompare = false then .error .typeError
  else do
    let xs ← self.toList
    pure (decide (xs = other))

end ListObj

/-- capnpy/struct_.py:224-242 `_read_list` -/
def StructObj.readList (self : StructObj) (offset : Int) (itemType : ItemType)
    (default_ : Option ListObj := none) : Py (Option ListObj) := do
  let (offset, p) ← self.resolve offset
  if p = 0 then pure default_
  else if ¬ (Ptr.kind p = Ptr.LIST) then throw .assertionError
  else
    let obj ← ListObj.init self.seg (Ptr.deref p offset) (Ptr.listSizeTag p) (Ptr.listItemCount p)
      itemType
    pure (some obj)

/-- capnpy/compiler/field.py:192-198: `self.get_x()` for a list; the empty list is
`_List.from_buffer(b'', 0, 0, 0, item_type)`. -/
def StructObj.getList (self : StructObj) (offset : Int) (itemType : ItemType) : Py ListObj := do
  let res ← self.readList offset itemType
  match res with
  | none => ListObj.init ⟨[], none⟩ 0 0 0 itemType
  | some l => pure l

/-! ## Writing -/

/-- What a Python list passed to a constructor may contain: `None`, ints (also
enums; floats as bit patterns), byte strings, struct objects, lists. -/
inductive PyItem
  | none
  | int (i : Int)
  | bytes (b : Bytes)
  | struct (o : StructObj)
  | list (l : List PyItem)

/-- `for item in lst: item_type.write_item(builder, pos, item); pos += item_length`
(capnpy/segment/_copy_list.py:46-48). -/
def writeItems (write : Int → PyItem → BM Unit) (itemLength : Int) : Int → List PyItem → BM Unit
  | _, [] => pure ()
  | pos, x :: xs => do
    write pos x
    writeItems write itemLength (pos + itemLength) xs

/-- `write_item` for the classes other than `ListItemType`
(capnpy/list.py:177-178, 199-200, 257-258, 300-306, 334-338).  An item of a wrong
Python type raises `struct.error` (`struct.pack_into`) or TypeError (`len`, `isinstance`);
that `alloc_text` would accept a list of ints is not modelled. -/
def writeItemBase (fuel : Nat) (it : ItemType) (pos : Int) (x : PyItem) : BM Unit :=
  match it, x with
  | .void, _ => pure ()
  | .bool, _ => throw .notImplemented
  | .prim fmt, .int i => writeFmt fmt pos i
  | .enum, .int i => writeFmt .h pos i
  | .struct _ _, .struct o =>
    copyStructInline (copyPointer o.seg fuel) o.seg (o.asPointer 0) 0 pos
  | .text, .bytes b => do let _ ← allocText pos (some b)
  | .text, .none => do let _ ← allocText pos none
  | .data, .bytes b => do let _ ← allocData pos (some b)
  | .data, .none => do let _ ← allocData pos none
  | .prim _, _ | .enum, _ => throw .structError
  | _, _ => throw .typeError

/-- capnpy/segment/_copy_list.py:22-48 `copy_from_list`, after the check for
`None`, given how to write an item. -/
def copyListWith (it : ItemType) (write : Int → PyItem → BM Unit) (pos : Int) (lst : List PyItem) :
    BM Unit := do
  let itemLength := it.itemLength
  let sizeTag := it.sizeTag
  let itemCount : Int := lst.length
  let bodyLength := itemLength * itemCount
  match it with
  | .struct dataSize ptrsSize => do
    let totalWords := (dataSize + ptrsSize) * itemCount
    let pos ← allocList pos sizeTag totalWords (bodyLength + 8)
    let tag := Ptr.newStruct itemCount dataSize ptrsSize
    writeInt64 pos tag
    writeItems write itemLength (pos + 8) lst
  | _ => do
    let pos ← allocList pos sizeTag itemCount bodyLength
    writeItems write itemLength pos lst

/-- `write_item` (capnpy/list.py:386-387 for `ListItemType`). -/
def writeItem (fuel : Nat) : ItemType → Int → PyItem → BM Unit
  | .list inner, pos, .none => let _ := inner; writeInt64 pos 0
  | .list inner, pos, .list l => copyListWith inner (writeItem fuel inner) pos l
  | it, pos, x => writeItemBase fuel it pos x

/-- capnpy/segment/_copy_list.py:22-48 `copy_from_list` -/
def copyFromList (fuel : Nat) (it : ItemType) (pos : Int) : Option (List PyItem) → BM Unit
  | none => writeInt64 pos 0
  | some l => copyListWith it (writeItem fuel it) pos l

end Capnpy
