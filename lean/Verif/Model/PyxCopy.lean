import Verif.Model.PyxBuilder
import Verif.Model.Struct

/-!
# Model of the compiled `copy_pointer`

capnpy/segment/builder.pyx includes capnpy/segment/_copy_pointer.pyx and
_copy_pointer.py: the algorithm is the one of Model/Copy.lean, but it runs on the
compiled `SegmentBuilder` (Model/PyxBuilder.lean), `check_bounds` is the macro of
_copy_pointer.h, the pointers are read by `read_int64_fast`, which checks nothing, and
`write_slice` is a `memcpy`.  The functions of capnpy/ptr.h are taken to be those of
capnpy/ptr.py on 64-bit words (Props/PtrC.lean proves that they are).  C integers are
unbounded, as in Model/PyxBuilder.lean.
-/

namespace Capnpy.Pyx

/-- The outcome of compiled code: a result, a Python exception, or undefined behaviour
(a memory access out of bounds). -/
inductive PRes (α : Type)
  | ok (a : α) (s : Builder)
  | exc (e : PyErr) (s : Builder)
  | ub
  deriving DecidableEq

/-- Compiled code which acts on a builder. -/
def PM (α : Type) := Builder → PRes α

instance : Monad PM where
  pure a := fun s => .ok a s
  bind x f := fun s =>
    match x s with
    | .ok a s => f a s
    | .exc e s => .exc e s
    | .ub => .ub

/-- A method which cannot raise. -/
def PM.ofOption (m : Builder → Option Builder) : PM Unit := fun s =>
  match m s with
  | some s => .ok () s
  | none => .ub

/-- A method with a result which cannot raise. -/
def PM.ofOptionR {α} (m : Builder → Option (α × Builder)) : PM α := fun s =>
  match m s with
  | some (a, s) => .ok a s
  | none => .ub

/-- Python code which does not touch the builder. -/
def PM.lift {α} (x : Py α) : PM α := fun s =>
  match x with
  | .ok a => .ok a s
  | .error e => .exc e s

/-- A recursive call of `copy_pointer`, with `src` and `dst` fixed: `p src_pos dst_pos`. -/
abbrev PCopyRec := Int → Int → Int → PM Unit

/-- capnpy/segment/_copy_pointer.h `CHECK_BOUNDS`, _copy_pointer.pyx:33-34
`raise_out_of_bounds`: only the upper bound is checked. -/
def checkBoundsC (src : Seg) (size offset : Int) : PM Unit :=
  if offset + size > src.buf.length then PM.lift (.error .indexError) else pure ()

/-- capnpy/segment/_copy_pointer.pyx:20-21 `read_int64_fast`: no check at all. -/
def readInt64Fast (src : Seg) (i : Int) : PM Int := fun s =>
  if 0 ≤ i ∧ i + 8 ≤ src.buf.length then .ok (Fmt.decode .q (Spec.slice src.buf i.toNat 8)) s else .ub

/-- `dst.write_slice(i, src, start, n)`, capnpy/segment/builder.pyx:116-120 -/
def writeSliceC (i : Int) (src : Seg) (start n : Int) : PM Unit :=
  PM.ofOption fun s => writeSlice s i src.buf start n

/-- `dst.write_int64(i, p)` with a C long, capnpy/segment/builder.pyx:99-100 -/
def writeInt64C (i p : Int) : PM Unit := PM.ofOption fun s => writePtr s i p

section

-- `junk s` is what uninitialised memory contains when the builder is in state `s`
variable (junk : Builder → Nat → UInt8)

/-- `dst.alloc_struct(pos, data_size, ptrs_size)`, capnpy/segment/builder.pyx:133-143 -/
def allocStructC (pos dataSize ptrsSize : Int) : PM Int :=
  PM.ofOptionR fun s => allocStruct (junk s) s pos dataSize ptrsSize

/-- `dst.alloc_list(pos, size_tag, count, body_length)`, capnpy/segment/builder.pyx:145-156 -/
def allocListC (pos sizeTag itemCount bodyLength : Int) : PM Int :=
  PM.ofOptionR fun s => allocList (junk s) s pos sizeTag itemCount bodyLength

/-- `dst.allocate(n)`, capnpy/segment/builder.pyx:122-131 -/
def allocateC (n : Int) : PM Int := PM.ofOptionR fun s => allocate (junk s) s n

/-- capnpy/segment/_copy_pointer.py:96-100, the loop of `_copy_many_ptrs`. -/
def copyPtrsLoopC (rec : PCopyRec) (src : Seg) (srcPos dstPos : Int) : Nat → Nat → PM Unit
  | 0, _ => pure ()
  | k + 1, i => do
    let offset : Int := (i : Int) * 8
    let p ← readInt64Fast src (srcPos + offset)
    if p ≠ 0 then
      rec p (srcPos + offset) (dstPos + offset)
      copyPtrsLoopC rec src srcPos dstPos k (i + 1)
    else copyPtrsLoopC rec src srcPos dstPos k (i + 1)

/-- capnpy/segment/_copy_pointer.py:94-100 `_copy_many_ptrs` -/
def copyManyPtrsC (rec : PCopyRec) (n : Int) (src : Seg) (srcPos dstPos : Int) : PM Unit := do
  checkBoundsC src (n * 8) srcPos
  copyPtrsLoopC rec src srcPos dstPos n.toNat 0

/-- capnpy/segment/_copy_pointer.py:108-120 `_copy_struct` -/
def copyStructC (rec : PCopyRec) (src : Seg) (p srcPos dstPos : Int) : PM Unit := do
  let srcPos := Ptr.deref p srcPos
  let dataSize := Ptr.structDataSize p
  let ptrsSize := Ptr.structPtrsSize p
  if dataSize + ptrsSize = 0 then
    writeInt64C dstPos (Ptr.newStruct (-1) 0 0)
  else
    let ds := dataSize * 8
    let dstPos ← allocStructC junk dstPos dataSize ptrsSize
    checkBoundsC src ds srcPos
    writeSliceC dstPos src srcPos ds
    copyManyPtrsC rec ptrsSize src (srcPos + ds) (dstPos + ds)

/-- capnpy/segment/_copy_pointer.py:128-148 `_copy_struct_inline` -/
def copyStructInlineC (rec : PCopyRec) (src : Seg) (p srcPos dstPos : Int) : PM Unit := do
  let srcPos := Ptr.deref p srcPos
  let dataSize := Ptr.structDataSize p
  let ptrsSize := Ptr.structPtrsSize p
  let ds := dataSize * 8
  checkBoundsC src ds srcPos
  writeSliceC dstPos src srcPos ds
  copyManyPtrsC rec ptrsSize src (srcPos + ds) (dstPos + ds)

/-- capnpy/segment/_copy_pointer.py:156-168 `_copy_list_primitive` -/
def copyListPrimitiveC (src : Seg) (p srcPos dstPos : Int) : PM Unit := do
  let srcPos := Ptr.deref p srcPos
  let count := Ptr.listItemCount p
  let sizeTag := Ptr.listSizeTag p
  let bodyLength : Int :=
    if sizeTag = Ptr.LIST_SIZE_BIT then (count + 8 - 1) / 8
    else count * Ptr.listItemLength sizeTag
  let dstPos ← allocListC junk dstPos sizeTag count bodyLength
  checkBoundsC src bodyLength srcPos
  writeSliceC dstPos src srcPos bodyLength

/-- capnpy/segment/_copy_pointer.py:176-182 `_copy_list_ptr` -/
def copyListPtrC (rec : PCopyRec) (src : Seg) (p srcPos dstPos : Int) : PM Unit := do
  let srcPos := Ptr.deref p srcPos
  let count := Ptr.listItemCount p
  let bodyLength := count * 8
  let dstPos ← allocListC junk dstPos Ptr.LIST_SIZE_PTR count bodyLength
  checkBoundsC src bodyLength srcPos
  copyManyPtrsC rec count src srcPos dstPos

/-- capnpy/segment/_copy_pointer.py:213-218, the loop of `_copy_list_composite`. -/
def copyItemsLoopC (rec : PCopyRec) (src : Seg) (srcPos dstPos dataSize ptrsSize itemLength : Int) :
    Nat → Nat → PM Unit
  | 0, _ => pure ()
  | k + 1, i => do
    let ptrsSectionOffset : Int := 8 + itemLength * (i : Int) + dataSize * 8
    copyManyPtrsC rec ptrsSize src (srcPos + ptrsSectionOffset) (dstPos + ptrsSectionOffset)
    copyItemsLoopC rec src srcPos dstPos dataSize ptrsSize itemLength k (i + 1)

/-- capnpy/segment/_copy_pointer.py:192-218 `_copy_list_composite` -/
def copyListCompositeC (rec : PCopyRec) (src : Seg) (p srcPos dstPos : Int) : PM Unit := do
  let srcPos := Ptr.deref p srcPos
  let totalWords := Ptr.listItemCount p
  let bodyLength := (totalWords + 1) * 8
  checkBoundsC src bodyLength srcPos
  let tag ← readInt64Fast src srcPos
  let count := Ptr.offset tag
  let dataSize := Ptr.structDataSize tag
  let ptrsSize := Ptr.structPtrsSize tag
  let dstPos ← allocListC junk dstPos Ptr.LIST_SIZE_COMPOSITE totalWords bodyLength
  writeSliceC dstPos src srcPos bodyLength
  let itemLength := (dataSize + ptrsSize) * 8
  copyItemsLoopC rec src srcPos dstPos dataSize ptrsSize itemLength count.toNat 0

/-- capnpy/segment/_copy_pointer.py:68-86 `copy_pointer`.  C has no recursion limit: the
budget is the depth of the C stack, and exhausting it is undefined behaviour. -/
def copyPointerC (src : Seg) : Nat → PCopyRec
  | 0, _, _, _ => fun _ => .ub
  | fuel + 1, p, srcPos, dstPos =>
    let rec_ := copyPointerC src fuel
    let kind := Ptr.kind p
    if kind = Ptr.STRUCT then copyStructC junk rec_ src p srcPos dstPos
    else if kind = Ptr.LIST then
      let itemSize := Ptr.listSizeTag p
      if itemSize = Ptr.LIST_SIZE_COMPOSITE then copyListCompositeC junk rec_ src p srcPos dstPos
      else if itemSize = Ptr.LIST_SIZE_PTR then copyListPtrC junk rec_ src p srcPos dstPos
      else copyListPrimitiveC junk src p srcPos dstPos
    else if kind = Ptr.FAR then do
      let (srcPos, p) ← PM.lift (src.readFarPtr srcPos)
      rec_ p srcPos dstPos
    else pure ()

/-- capnpy/segment/builder.pyx:174-186 `copy_from_struct`, `copy_from_pointer` for an
instance of the right class; `none` is Python's `None`. -/
def copyFromStructC (fuel : Nat) (dstPos : Int) (value : Option StructObj) : PM Unit :=
  match value with
  | none => writeInt64C dstPos 0
  | some value => copyPointerC junk value.seg fuel (value.asPointer 0) 0 dstPos

/-- The builder of capnpy/struct_.py:297-300 `compact`, with the compiled classes. -/
def compactC (fuel : Nat) (self : StructObj) : PM Unit := do
  let pos ← allocateC junk 8
  copyFromStructC junk fuel pos (some self)

/-- capnpy/message.py:160-171, the slow path of `dumps`, with the compiled classes
(builder.pyx:51-52 `get_length`, 90-91 `write_uint32`). -/
def dumpsSlowC (fuel : Nat) (obj : StructObj) : PM Unit := do
  let _ ← allocateC junk 16
  copyFromStructC junk fuel 8 (some obj)
  let n ← (fun s => .ok (getLength s) s : PM Int)
  let segmentSize := (n - 8) / 8
  PM.ofOption fun s => writeFmt s .I 0 (1 - 1)
  PM.ofOption fun s => writeFmt s .I 4 segmentSize

end

/-- `SegmentBuilder()` (the default length is 512), a computation and `as_string()`;
`none` is undefined behaviour. -/
def runC (x : PM Unit) : Option (Py Bytes) :=
  match x (new 512) with
  | .ok _ s => some (.ok (asString s))
  | .exc e _ => some (.error e)
  | .ub => none

end Capnpy.Pyx
