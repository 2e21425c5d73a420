import Verif.Model.Mem
import Verif.Model.Ptr

/-!
# Model of capnpy/segment/base.py and capnpy/segment/segment.py
-/

namespace Capnpy

/-- `Segment` (`offs = none`) and `MultiSegment` (`offs = some
segment_offsets`): capnpy/segment/segment.py:7-15, 66-80. -/
structure Seg where
  buf : Bytes
  offs : Option (List Int)
  deriving Repr, DecidableEq

/-- The segment object of a buffer and a table of segment starts (the result of
capnpy/message.py:77-130 in terms of natural numbers). -/
def Seg.of (buf : Bytes) (offs : Option (List Nat)) : Seg :=
  ⟨buf, offs.map (List.map Int.ofNat)⟩

/-- capnpy/segment/base.py:38-42 `BaseSegment.read_primitive` -/
def readPrimitive (buf : Bytes) (offset : Int) (fmt : Fmt) : Py Int :=
  if offset < 0 ∨ offset + fmt.size > buf.length then .error .indexError
  else unpackFrom fmt buf offset

/-- capnpy/segment/base.py:44-45 `read_int64` -/
def readInt64 (buf : Bytes) (offset : Int) : Py Int := readPrimitive buf offset .q

/-- capnpy/segment/base.py:59-60 `read_int16` -/
def readInt16 (buf : Bytes) (offset : Int) : Py Int := readPrimitive buf offset .h

/-- capnpy/segment/base.py:26-29 `unpack_uint32` -/
def unpackUint32 (buf : Bytes) (offset : Int) : Py Int :=
  if offset < 0 ∨ offset + 4 > buf.length then .error .indexError
  else unpackFrom .I buf offset

/-- capnpy/segment/segment.py:17-31 `Segment.read_ptr` -/
def Seg.readPtr (s : Seg) (offset : Int) : Py Int := readInt64 s.buf offset

/-- Indexing of a Python tuple/list. -/
def pyIndex {α} (l : List α) (i : Int) : Py α :=
  let j := if i < 0 then i + l.length else i
  if j < 0 then .error .indexError
  else match l[j.toNat]? with
    | some x => .ok x
    | none => .error .indexError

/-- capnpy/segment/segment.py:33-34 `Segment.read_far_ptr` (raises) and
82-117 `MultiSegment.read_far_ptr`. -/
def Seg.readFarPtr (s : Seg) (offset : Int) : Py (Int × Int) :=
  match s.offs with
  | none => .error .valueError
  | some offs => do
    let p ← s.readPtr offset
    let segmentStart ← pyIndex offs (Ptr.farTarget p)
    let offset := segmentStart + Ptr.farOffset p * 8
    if Ptr.farLandingPad p = 0 then
      let p ← s.readPtr offset
      pure (offset, p)
    else
      let p ← s.readPtr offset
      let ptag ← s.readPtr (offset + 8)
      if ¬ (Ptr.kind p = Ptr.FAR) then throw .assertionError
      if ¬ (Ptr.farLandingPad p = 0) then throw .assertionError
      if ¬ (Ptr.offset ptag = 0) then throw .assertionError
      let segmentStart ← pyIndex offs (Ptr.farTarget p)
      let offset := segmentStart + Ptr.farOffset p * 8
      pure (offset - 8, ptag)

/-- capnpy/segment/segment.py:36-50 `Segment.read_str`.  `default_` is `None`
or a byte string. -/
def Seg.readStr (s : Seg) (p offset : Int) (default_ : Option Bytes) (additionalSize : Int) :
    Py (Option Bytes) :=
  if p = 0 then .ok default_
  else if ¬ (Ptr.kind p = Ptr.LIST) then .error .assertionError
  else if ¬ (Ptr.listSizeTag p = Ptr.LIST_SIZE_8) then .error .assertionError
  else
    let start := Ptr.deref p offset
    let end_ := start + Ptr.listItemCount p + additionalSize
    .ok (some (pySlice s.buf start end_))

/-- capnpy/segment/base.py:77-85 `BaseSegment.dump_message` -/
def dumpMessage (buf : Bytes) (p start end_ : Int) : Py Bytes :=
  if start < 0 ∨ start > end_ ∨ end_ > buf.length then .error .valueError
  else
    match Fmt.I.encode 0, Fmt.I.encode ((end_ - start) / 8 + 1), Fmt.q.encode p with
    | .ok h0, .ok h1, .ok h2 => .ok (h0 ++ h1 ++ h2 ++ pySlice buf start end_)
    | .error e, _, _ => .error e
    | _, .error e, _ => .error e
    | _, _, .error e => .error e

end Capnpy
