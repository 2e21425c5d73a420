import Verif.Model.Builder

/-!
# Model of capnpy/segment/_copy_pointer.py (pure Python mode)

The mutual recursion `copy_pointer -> _copy_struct -> _copy_many_ptrs ->
copy_pointer` is modelled with an explicit recursion budget: `copyPointer 0`
raises `RecursionError`.  The helpers take the recursive call as the parameter
`rec`.  (CPython counts stack frames, three per level; the model counts levels.
The theorems hold for every budget above the depth of the value.)
-/

namespace Capnpy

/-- A recursive call `copy_pointer(src, p, src_pos, dst, dst_pos)` with `src`
and `dst` fixed: arguments `p src_pos dst_pos`. -/
abbrev CopyRec := Int → Int → Int → BM Unit

/-- capnpy/segment/_copy_pointer.py:40-42 `_check_bounds` -/
def checkBounds (src : Seg) (size offset : Int) : BM Unit :=
  if offset + size > src.buf.length then throw .indexError else pure ()

/-- capnpy/segment/_copy_pointer.py:96-100, the loop of `_copy_many_ptrs`:
`k` iterations are left, the next one has index `i`. -/
def copyPtrsLoop (rec : CopyRec) (src : Seg) (srcPos dstPos : Int) : Nat → Nat → BM Unit
  | 0, _ => pure ()
  | k + 1, i => do
    let offset : Int := (i : Int) * 8
    let p ← BM.lift (readInt64 src.buf (srcPos + offset))
    BM.when (p ≠ 0) (rec p (srcPos + offset) (dstPos + offset))
    copyPtrsLoop rec src srcPos dstPos k (i + 1)

/-- capnpy/segment/_copy_pointer.py:94-100 `_copy_many_ptrs` -/
def copyManyPtrs (rec : CopyRec) (n : Int) (src : Seg) (srcPos dstPos : Int) : BM Unit := do
  checkBounds src (n * 8) srcPos
  copyPtrsLoop rec src srcPos dstPos n.toNat 0

/-- capnpy/segment/_copy_pointer.py:108-120 `_copy_struct` -/
def copyStruct (rec : CopyRec) (src : Seg) (p srcPos dstPos : Int) : BM Unit := do
  let srcPos := Ptr.deref p srcPos
  let dataSize := Ptr.structDataSize p
  let ptrsSize := Ptr.structPtrsSize p
  if dataSize + ptrsSize = 0 then
    writeInt64 dstPos (Ptr.newStruct (-1) 0 0)
  else
    let ds := dataSize * 8
    let dstPos ← allocStruct dstPos dataSize ptrsSize
    checkBounds src ds srcPos
    writeSlice dstPos src srcPos ds
    copyManyPtrs rec ptrsSize src (srcPos + ds) (dstPos + ds)

/-- capnpy/segment/_copy_pointer.py:128-148 `_copy_struct_inline` -/
def copyStructInline (rec : CopyRec) (src : Seg) (p srcPos dstPos : Int) : BM Unit := do
  let srcPos := Ptr.deref p srcPos
  let dataSize := Ptr.structDataSize p
  let ptrsSize := Ptr.structPtrsSize p
  let ds := dataSize * 8
  checkBounds src ds srcPos
  writeSlice dstPos src srcPos ds
  copyManyPtrs rec ptrsSize src (srcPos + ds) (dstPos + ds)

/-- capnpy/segment/_copy_pointer.py:156-168 `_copy_list_primitive` -/
def copyListPrimitive (src : Seg) (p srcPos dstPos : Int) : BM Unit := do
  let srcPos := Ptr.deref p srcPos
  let count := Ptr.listItemCount p
  let sizeTag := Ptr.listSizeTag p
  let bodyLength : Int :=
    if sizeTag = Ptr.LIST_SIZE_BIT then (count + 8 - 1) / 8
    else count * Ptr.listItemLength sizeTag
  let dstPos ← allocList dstPos sizeTag count bodyLength
  checkBounds src bodyLength srcPos
  writeSlice dstPos src srcPos bodyLength

/-- capnpy/segment/_copy_pointer.py:176-182 `_copy_list_ptr` -/
def copyListPtr (rec : CopyRec) (src : Seg) (p srcPos dstPos : Int) : BM Unit := do
  let srcPos := Ptr.deref p srcPos
  let count := Ptr.listItemCount p
  let bodyLength := count * 8
  let dstPos ← allocList dstPos Ptr.LIST_SIZE_PTR count bodyLength
  checkBounds src bodyLength srcPos
  copyManyPtrs rec count src srcPos dstPos

/-- capnpy/segment/_copy_pointer.py:213-218, the loop of
`_copy_list_composite`: `k` items are left, the next one has index `i`. -/
def copyItemsLoop (rec : CopyRec) (src : Seg) (srcPos dstPos dataSize ptrsSize itemLength : Int) :
    Nat → Nat → BM Unit
  | 0, _ => pure ()
  | k + 1, i => do
    let ptrsSectionOffset : Int := 8 + itemLength * (i : Int) + dataSize * 8
    copyManyPtrs rec ptrsSize src (srcPos + ptrsSectionOffset) (dstPos + ptrsSectionOffset)
    copyItemsLoop rec src srcPos dstPos dataSize ptrsSize itemLength k (i + 1)

/-- capnpy/segment/_copy_pointer.py:192-218 `_copy_list_composite` -/
def copyListComposite (rec : CopyRec) (src : Seg) (p srcPos dstPos : Int) : BM Unit := do
  let srcPos := Ptr.deref p srcPos
  let totalWords := Ptr.listItemCount p
  let bodyLength := (totalWords + 1) * 8
  checkBounds src bodyLength srcPos
  let tag ← BM.lift (readInt64 src.buf srcPos)
  let count := Ptr.offset tag
  let dataSize := Ptr.structDataSize tag
  let ptrsSize := Ptr.structPtrsSize tag
  let dstPos ← allocList dstPos Ptr.LIST_SIZE_COMPOSITE totalWords bodyLength
  writeSlice dstPos src srcPos bodyLength
  let itemLength := (dataSize + ptrsSize) * 8
  copyItemsLoop rec src srcPos dstPos dataSize ptrsSize itemLength count.toNat 0

/-- capnpy/segment/_copy_pointer.py:68-86 `copy_pointer`.  Kind 3 falls
through all the branches and returns `None` without writing anything. -/
def copyPointer (src : Seg) : Nat → CopyRec
  | 0, _, _, _ => throw .recursionError
  | fuel + 1, p, srcPos, dstPos =>
    let rec_ := copyPointer src fuel
    let kind := Ptr.kind p
    if kind = Ptr.STRUCT then copyStruct rec_ src p srcPos dstPos
    else if kind = Ptr.LIST then
      let itemSize := Ptr.listSizeTag p
      if itemSize = Ptr.LIST_SIZE_COMPOSITE then copyListComposite rec_ src p srcPos dstPos
      else if itemSize = Ptr.LIST_SIZE_PTR then copyListPtr rec_ src p srcPos dstPos
      else copyListPrimitive src p srcPos dstPos
    else if kind = Ptr.FAR then do
      let (srcPos, p) ← BM.lift (src.readFarPtr srcPos)
      rec_ p srcPos dstPos
    else pure ()

end Capnpy
