import Verif.Model.List
import Verif.Model.Message
import Verif.Model.Packing

/-!
# Model of the compiled readers

setup.py:127-142: segment.py, endof.py, struct_.py, list.py and message.py are compiled by
Cython 0.29 together with their .pxd files.  The code is that of Model/Segment.lean,
Endof.lean, Struct.lean, List.lean; what differs is how exceptions leave the functions that
return a C `long`:

* without an `except` clause in the .pxd file an exception is printed to stderr
  (`Exception ignored in ...`) and the function returns 0 (`noexcept`);
* with `except v` the return value `v` means that there is an exception: the caller raises
  SystemError if there is none (`exceptVal`);
* with `except? v` and for functions that return an object, exceptions propagate.

There is no check of the recursion depth: when the C stack is exhausted the process crashes.
The result of compiled code says also whether exceptions were ignored on the way.

Simplification: C `long`s are unbounded (all values are below 2^63 in absolute value if the
buffer is: offsets in pointers have 30 bits, sizes 29).
-/

namespace Capnpy.Cy

/-- The outcome of compiled code: a result or an exception, and whether an exception was
ignored; or a stack overflow. -/
inductive CRes (α : Type)
  | ret (r : Py α) (ignored : Bool)
  | crash
  deriving DecidableEq

instance : Monad CRes where
  pure a := .ret (.ok a) false
  bind x f :=
    match x with
    | .crash => .crash
    | .ret (.error e) w => .ret (.error e) w
    | .ret (.ok a) w =>
      match f a with
      | .crash => .crash
      | .ret r w' => .ret r (w || w')

/-- Code that propagates exceptions. -/
def CRes.lift {α} (x : Py α) : CRes α := .ret x false

/-- A function that returns `long` and has no `except` clause. -/
def noexcept : CRes Int → CRes Int
  | .ret (.ok v) w => .ret (.ok v) w
  | .ret (.error _) _ => .ret (.ok 0) true
  | .crash => .crash

/-- A function that returns `long` and has the clause `except v`. -/
def exceptVal (v : Int) : CRes Int → CRes Int
  | .ret (.ok r) w => if r = v then .ret (.error .systemError) w else .ret (.ok r) w
  | .ret (.error e) w => .ret (.error e) w
  | .crash => .crash

/-! ## capnpy/segment/segment.py, segment.pxd -/

/-- capnpy/segment/segment.pxd:8 `cpdef long read_ptr(self, long offset)` -/
def readPtr (s : Seg) (offset : Int) : CRes Int := noexcept (.lift (s.readPtr offset))

/-- capnpy/segment/segment.py:33-34, 82-117 `read_far_ptr`: it returns an object. -/
def readFarPtr (s : Seg) (offset : Int) : CRes (Int × Int) :=
  match s.offs with
  | none => .lift (.error .valueError)
  | some offs => do
    let p ← readPtr s offset
    let segmentStart ← CRes.lift (pyIndex offs (Ptr.farTarget p))
    let offset := segmentStart + Ptr.farOffset p * 8
    if Ptr.farLandingPad p = 0 then do
      let p ← readPtr s offset
      pure (offset, p)
    else do
      let p ← readPtr s offset
      let ptag ← readPtr s (offset + 8)
      if ¬ (Ptr.kind p = Ptr.FAR) then CRes.lift (.error .assertionError)
      else if ¬ (Ptr.farLandingPad p = 0) then CRes.lift (.error .assertionError)
      else if ¬ (Ptr.offset ptag = 0) then CRes.lift (.error .assertionError)
      else do
        let segmentStart ← CRes.lift (pyIndex offs (Ptr.farTarget p))
        let offset := segmentStart + Ptr.farOffset p * 8
        pure (offset - 8, ptag)

/-! ## capnpy/struct_.py, struct_.pxd -/

/-- capnpy/struct_.pxd:27 `cpdef long _read_fast_ptr` -/
def readFastPtr (o : StructObj) (offset : Int) : CRes Int :=
  noexcept (if offset ≥ o.ptrsSize * 8 then pure 0 else readPtr o.seg (o.ptrsOffset + offset))

/-- capnpy/struct_.py:186-189 `_read_far_ptr` -/
def readFar (o : StructObj) (offset : Int) : CRes (Int × Int) :=
  if offset ≥ o.ptrsSize * 8 then pure (offset, 0)
  else readFarPtr o.seg (o.ptrsOffset + offset)

/-- capnpy/struct_.pxd:26 `cpdef long _read_int16` -/
def readInt16 (o : StructObj) (offset : Int) : CRes Int := noexcept (.lift (o.readInt16 offset))

/-- capnpy/struct_.py:212-216, 225-229, 262-266; capnpy/compiler/field.py:161-166 -/
def resolve (o : StructObj) (offset : Int) : CRes (Int × Int) := do
  let p ← readFastPtr o offset
  if Ptr.kind p = Ptr.FAR then readFar o offset
  else pure (offset + o.ptrsOffset, p)

/-- capnpy/struct_.py:207-222 `_read_struct`, capnpy/compiler/field.py:159-172 -/
def readStruct (o : StructObj) (offset : Int) : CRes (Option StructObj) := do
  let (offset, p) ← resolve o offset
  if p = 0 then pure none
  else if ¬ (Ptr.kind p = Ptr.STRUCT) then CRes.lift (.error .assertionError)
  else do
    let obj ← CRes.lift (StructObj.initFromPointer o.seg offset p)
    pure (some obj)

/-- capnpy/struct_.py:261-267 `_read_data` -/
def readData (o : StructObj) (offset : Int) (default_ : Option Bytes) (additionalSize : Int) :
    CRes (Option Bytes) := do
  let (offset, p) ← resolve o offset
  CRes.lift (o.seg.readStr p offset default_ additionalSize)

/-- capnpy/compiler/field.py:212-218: `has_x()` -/
def hasField (o : StructObj) (offset : Int) : CRes Bool := do
  let p ← readFastPtr o offset
  pure (p ≠ 0)

/-- capnpy/compiler/field.py:94-104: the int value of an enum field. -/
def enumField (o : StructObj) (offset : Int) (default_ : Int) : CRes Int := do
  let value ← readInt16 o offset
  if default_ ≠ 0 then pure (Int.xor value default_)
  else pure value

/-- capnpy/struct_.pxd:57 `cpdef long __which__(self) except -1` -/
def whichRaw (o : StructObj) (tagOffset : Option Int) : CRes Int :=
  exceptVal (-1) (match tagOffset with
    | none => .lift (.error .typeError)
    | some off => readInt16 o off)

/-- capnpy/struct_.py:277-281 `_ensure_union` -/
def ensureUnion (o : StructObj) (tagOffset : Option Int) (expectedTag : Int) : CRes Unit := do
  let w ← whichRaw o tagOffset
  if w ≠ expectedTag then CRes.lift (.error .valueError)
  else pure ()

/-! ## capnpy/list.py -/

/-- capnpy/list.py:29-33, 40-52 `_init_from_buffer`, `_set_list_tag` -/
def listInit (seg : Seg) (offset sizeTag itemCount : Int) (itemType : ItemType) : CRes ListObj :=
  if sizeTag = Ptr.LIST_SIZE_COMPOSITE then do
    let tag ← readPtr seg offset
    pure ⟨seg, offset, itemType, sizeTag, tag, Ptr.offset tag,
      (Ptr.structDataSize tag + Ptr.structPtrsSize tag) * 8, 8⟩
  else pure ⟨seg, offset, itemType, sizeTag, -1, itemCount, Ptr.listItemLength sizeTag, 0⟩

/-- capnpy/struct_.py:224-242 `_read_list` -/
def readList (o : StructObj) (offset : Int) (itemType : ItemType) (default_ : Option ListObj := none) :
    CRes (Option ListObj) := do
  let (offset, p) ← resolve o offset
  if p = 0 then pure default_
  else if ¬ (Ptr.kind p = Ptr.LIST) then CRes.lift (.error .assertionError)
  else do
    let obj ← listInit o.seg (Ptr.deref p offset) (Ptr.listSizeTag p) (Ptr.listItemCount p) itemType
    pure (some obj)

/-- capnpy/list.py:326-328, 372-374 -/
def itemPtr (l : ListObj) (offset : Int) : CRes (Int × Int) := do
  let p ← readPtr l.seg offset
  if Ptr.kind p = Ptr.FAR then readFarPtr l.seg offset
  else pure (offset, p)

/-- `read_item` (capnpy/list.py:193-194, 215-219, 245-247, 270-272, 290-295, 324-329,
370-381): it returns an object. -/
def readItem (l : ListObj) (i : Int) : CRes Item :=
  match l.itemType with
  | .text => do
    let (offset, p) ← itemPtr l (l.offsetForItem i)
    let s ← CRes.lift (l.seg.readStr p offset none (-1))
    pure (ListObj.optBytes s)
  | .data => do
    let (offset, p) ← itemPtr l (l.offsetForItem i)
    let s ← CRes.lift (l.seg.readStr p offset none 0)
    pure (ListObj.optBytes s)
  | .list inner => do
    let (offset, p) ← itemPtr l (l.offset + i * 8)
    let l ← listInit l.seg (Ptr.deref p offset) (Ptr.listSizeTag p) (Ptr.listItemCount p) inner
    pure (.list l)
  | _ => .lift (l.readItem i)

/-- capnpy/list.py:60-68 `__getitem__` with an int. -/
def getItem (l : ListObj) (i : Int) : CRes Item :=
  let i := if i < 0 then i + l.itemCount else i
  if 0 ≤ i ∧ i < l.itemCount then readItem l i
  else .lift (.error .indexError)

/-! ## capnpy/segment/endof.py, endof.pxd -/

/-- The body of `_endof_ptrs`. -/
def endofPtrsBody (rec : Int → Int → CRes Int) (seg : Seg) (offset : Int) : Nat → Nat → Int → CRes Int
  | 0, _, currentEnd => pure currentEnd
  | k + 1, i, currentEnd => do
    let pOffset := offset + (i : Int) * 8
    let p ← readPtr seg pOffset
    if p = 0 then endofPtrsBody rec seg offset k (i + 1) currentEnd
    else
      let newStart := Ptr.deref p pOffset
      if newStart ≠ currentEnd then pure (-1)
      else do
        let currentEnd ← rec p pOffset
        endofPtrsBody rec seg offset k (i + 1) currentEnd

/-- capnpy/segment/endof.pxd:8-9 `cdef long _endof_ptrs` -/
def endofPtrs (rec : Int → Int → CRes Int) (seg : Seg) (offset : Int) (k : Nat) (currentEnd : Int) : CRes Int :=
  noexcept (endofPtrsBody rec seg offset k 0 currentEnd)

/-- capnpy/segment/endof.pxd:12-13 `cdef long _endof_struct` -/
def endofStruct (rec : Int → Int → CRes Int) (seg : Seg) (offset dataSize ptrsSize : Int) : CRes Int :=
  let offset := offset + dataSize * 8
  let currentEnd := offset + ptrsSize * 8
  noexcept (endofPtrs rec seg offset ptrsSize.toNat currentEnd)

/-- The loop of `_endof_list_composite`. -/
def endofItems (rec : Int → Int → CRes Int) (seg : Seg) (offset itemSize dataSize ptrsSize : Int) :
    Nat → Nat → Int → CRes Int
  | 0, _, end_ => pure end_
  | k + 1, i, end_ => do
    let itemOffset := offset + itemSize * (i : Int) + dataSize * 8
    let end_ ← endofPtrs rec seg itemOffset ptrsSize.toNat end_
    if end_ = -1 then pure (-1)
    else endofItems rec seg offset itemSize dataSize ptrsSize k (i + 1) end_

/-- capnpy/segment/endof.pxd:16-17 `cdef long _endof_list_composite` -/
def endofListComposite (rec : Int → Int → CRes Int) (seg : Seg) (offset count dataSize ptrsSize : Int) : CRes Int :=
  let itemSize := (dataSize + ptrsSize) * 8
  let offset := offset + 8
  let end_ := offset + itemSize * count
  noexcept (if ptrsSize = 0 then pure end_
    else endofItems rec seg offset itemSize dataSize ptrsSize count.toNat 0 end_)

/-- capnpy/segment/endof.pxd:20-21 `cdef long _endof_list_ptr` -/
def endofListPtr (rec : Int → Int → CRes Int) (seg : Seg) (offset count : Int) : CRes Int :=
  noexcept (endofPtrs rec seg offset count.toNat (offset + 8 * count))

/-- capnpy/segment/endof.pxd:5 `cpdef long endof(Segment seg, long p, long offset) except -2`;
`fuel` is the depth of the C stack. -/
def endof (seg : Seg) : Nat → Int → Int → CRes Int
  | 0, _, _ => .crash
  | fuel + 1, p, offset =>
    let rec_ := endof seg fuel
    let kind := Ptr.kind p
    let offset := Ptr.deref p offset
    exceptVal (-2) (
      if kind = Ptr.STRUCT then
        endofStruct rec_ seg offset (Ptr.structDataSize p) (Ptr.structPtrsSize p)
      else if kind = Ptr.LIST then
        let itemSize := Ptr.listSizeTag p
        let count := Ptr.listItemCount p
        if itemSize = Ptr.LIST_SIZE_COMPOSITE then do
          let tag ← readPtr seg offset
          endofListComposite rec_ seg offset (Ptr.offset tag) (Ptr.structDataSize tag)
            (Ptr.structPtrsSize tag)
        else if itemSize = Ptr.LIST_SIZE_PTR then endofListPtr rec_ seg offset count
        else if itemSize = Ptr.LIST_SIZE_BIT then pure (endofListBit offset count)
        else pure (endofListPrimitive offset itemSize count)
      else if kind = Ptr.FAR then pure (-1)
      else CRes.lift (.error .assertionError))

/-- capnpy/struct_.pxd:59 `cpdef long _get_end(self)` -/
def getEnd (o : StructObj) (fuel : Nat) : CRes Int :=
  noexcept (endof o.seg fuel (Ptr.newStruct 0 o.dataSize o.ptrsSize) (o.dataOffset - 8))

/-- capnpy/struct_.pxd:60 `cpdef long _is_compact(self)` -/
def isCompact (o : StructObj) (fuel : Nat) : CRes Bool := do
  let e ← getEnd o fuel
  pure (e ≠ -1)

/-- capnpy/list.py:76-78 `_get_end`: it returns an object. -/
def listGetEnd (l : ListObj) (fuel : Nat) : CRes Int :=
  endof l.seg fuel (Ptr.newList 0 l.sizeTag l.itemCount) (l.offset - 8)

/-- capnpy/message.py:148-153, in `dumps` -/
def dumpsEnd (o : StructObj) (fastpath : Bool) (fuel : Nat) : CRes Int :=
  if fastpath then getEnd o fuel else pure (-1)

/-- capnpy/message.py:132-171 `dumps`.  The slow path is that of the pure version
(Props/PyxCopy.lean compares the compiled `copy_from_struct` with it). -/
def dumps (o : StructObj) (fastpath : Bool) (fuel : Nat) : CRes Bytes := do
  let end_ ← dumpsEnd o fastpath fuel
  if end_ ≠ -1 then
    CRes.lift (Pyx.dumpMessageC o.seg.buf (Ptr.newStruct 0 o.dataSize o.ptrsSize) o.dataOffset end_)
  else CRes.lift (runBuilder (dumpsSlow o fuel))

end Capnpy.Cy
