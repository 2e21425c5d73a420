import Verif.Model.Segment

/-!
# Model of capnpy/segment/endof.py

The mutual recursion `endof -> _endof_struct -> _endof_ptrs -> endof` takes an
explicit recursion budget; the helpers take the recursive call as a parameter.
-/

namespace Capnpy

/-- capnpy/segment/endof.py:45-58 `_endof_ptrs`: `k` iterations are left, the
next one has index `i`. -/
def endofPtrs (rec : Int → Int → Py Int) (seg : Seg) (offset : Int) : Nat → Nat → Int → Py Int
  | 0, _, currentEnd => .ok currentEnd
  | k + 1, i, currentEnd => do
    let pOffset := offset + (i : Int) * 8
    let p ← seg.readPtr pOffset
    if p = 0 then endofPtrs rec seg offset k (i + 1) currentEnd
    else
      let newStart := Ptr.deref p pOffset
      if newStart ≠ currentEnd then .ok (-1)
      else do
        let currentEnd ← rec p pOffset
        endofPtrs rec seg offset k (i + 1) currentEnd

/-- capnpy/segment/endof.py:60-63 `_endof_struct` -/
def endofStruct (rec : Int → Int → Py Int) (seg : Seg) (offset dataSize ptrsSize : Int) : Py Int :=
  let offset := offset + dataSize * 8
  let currentEnd := offset + ptrsSize * 8
  endofPtrs rec seg offset ptrsSize.toNat 0 currentEnd

/-- capnpy/segment/endof.py:72-80, the loop of `_endof_list_composite`. -/
def endofItems (rec : Int → Int → Py Int) (seg : Seg) (offset itemSize dataSize ptrsSize : Int) :
    Nat → Nat → Int → Py Int
  | 0, _, end_ => .ok end_
  | k + 1, i, end_ => do
    let itemOffset := offset + itemSize * (i : Int) + dataSize * 8
    let end_ ← endofPtrs rec seg itemOffset ptrsSize.toNat 0 end_
    if end_ = -1 then .ok (-1)
    else endofItems rec seg offset itemSize dataSize ptrsSize k (i + 1) end_

/-- capnpy/segment/endof.py:65-80 `_endof_list_composite` -/
def endofListComposite (rec : Int → Int → Py Int) (seg : Seg)
    (offset count dataSize ptrsSize : Int) : Py Int :=
  let itemSize := (dataSize + ptrsSize) * 8
  let offset := offset + 8
  let end_ := offset + itemSize * count
  if ptrsSize = 0 then .ok end_
  else endofItems rec seg offset itemSize dataSize ptrsSize count.toNat 0 end_

/-- capnpy/segment/endof.py:82-84 `_endof_list_ptr` -/
def endofListPtr (rec : Int → Int → Py Int) (seg : Seg) (offset count : Int) : Py Int :=
  endofPtrs rec seg offset count.toNat 0 (offset + 8 * count)

/-- capnpy/segment/endof.py:86-88 `_endof_list_primitive` -/
def endofListPrimitive (offset itemSize count : Int) : Int :=
  Ptr.roundUpToWord (offset + Ptr.listItemLength itemSize * count)

/-- capnpy/segment/endof.py:90-92 `_endof_list_bit` -/
def endofListBit (offset count : Int) : Int :=
  let bytesLength := Ptr.roundUpToWord count / 8
  Ptr.roundUpToWord (offset + bytesLength)

/-- capnpy/segment/endof.py:3-43 `endof` -/
def endof (seg : Seg) : Nat → Int → Int → Py Int
  | 0, _, _ => .error .recursionError
  | fuel + 1, p, offset =>
    let rec_ := endof seg fuel
    let kind := Ptr.kind p
    let offset := Ptr.deref p offset
    if kind = Ptr.STRUCT then
      endofStruct rec_ seg offset (Ptr.structDataSize p) (Ptr.structPtrsSize p)
    else if kind = Ptr.LIST then
      let itemSize := Ptr.listSizeTag p
      let count := Ptr.listItemCount p
      if itemSize = Ptr.LIST_SIZE_COMPOSITE then do
        let tag ← seg.readPtr offset
        endofListComposite rec_ seg offset (Ptr.offset tag) (Ptr.structDataSize tag)
          (Ptr.structPtrsSize tag)
      else if itemSize = Ptr.LIST_SIZE_PTR then endofListPtr rec_ seg offset count
      else if itemSize = Ptr.LIST_SIZE_BIT then .ok (endofListBit offset count)
      else .ok (endofListPrimitive offset itemSize count)
    else if kind = Ptr.FAR then .ok (-1)
    else .error .assertionError

end Capnpy
