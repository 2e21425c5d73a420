import Verif.Model.Ctor
import Verif.Model.Message

/-!
# Model of pickling and raw dumps

capnpy/struct_.py:69-73, 88-132, capnpy/segment/segment.py:13-15, 78-80,
capnpy/list.py:35-38.

What is trusted: `pickle` and `marshal` transport ints, bytes, strings, tuples and
classes faithfully, and unpickling calls the callable given by `__reduce__` with the
unpickled arguments.  The memo of pickle (sharing of one segment by several objects) is
not modelled.
-/

namespace Capnpy

/-- The callables in the results of the `__reduce__` methods. -/
inductive PickleFun
  | Segment | MultiSegment | structFromBuffer
  deriving DecidableEq, Repr

/-- What travels in a pickle or in a marshalled tuple. -/
inductive PVal
  | none
  | int (i : Int)
  | bytes (b : Bytes)
  | ints (l : List Int)
  | str (s : String)
  | cls (name : String)
  | call (f : PickleFun) (args : List PVal)

/-- Python objects which unpickling makes. -/
inductive PObj
  | none
  | int (i : Int)
  | bytes (b : Bytes)
  | ints (l : List Int)
  | str (s : String)
  | cls (name : String)
  | seg (s : Seg)
  | struct (cls : String) (o : StructObj)
  deriving DecidableEq

/-- capnpy/segment/segment.py:13-15 `Segment.__reduce__` and 78-80
`MultiSegment.__reduce__` -/
def Seg.reduce (s : Seg) : PVal :=
  match s.offs with
  | none => .call .Segment [.bytes s.buf]
  | some offs => .call .MultiSegment [.bytes s.buf, .ints offs]

/-- capnpy/struct_.py:69-73 `Struct.__reduce__`; pickle reduces the segment in turn. -/
def StructObj.reduce (cls : String) (self : StructObj) : PVal :=
  .call .structFromBuffer [.cls cls, self.seg.reduce, .int self.dataOffset, .int self.dataSize, .int self.ptrsSize]

/-- capnpy/list.py:35-38 `List.__reduce__` -/
def ListObj.reduce (_ : ListObj) : Py PVal := .error .typeError

/-- The constructors: capnpy/segment/base.py:34-36, segment.py:73-76 (`None` is rejected by
assertions), capnpy/struct_.py:26-33 with capnpy/blob.py:41-45 (bytes are wrapped in a
`Segment`). -/
def PickleFun.apply : PickleFun → List PObj → Py PObj
  | .Segment, [.bytes b] => .ok (.seg ⟨b, none⟩)
  | .Segment, [.none] => .error .assertionError
  | .MultiSegment, [.bytes b, .ints l] => .ok (.seg ⟨b, some l⟩)
  | .MultiSegment, [_, .none] => .error .assertionError
  | .structFromBuffer, [.cls c, .seg s, .int off, .int ds, .int ps] => do
    let o ← StructObj.initFromBuffer s off ds ps
    pure (.struct c o)
  | .structFromBuffer, [.cls c, .bytes b, .int off, .int ds, .int ps] => do
    let o ← StructObj.initFromBuffer ⟨b, none⟩ off ds ps
    pure (.struct c o)
  | _, _ => .error .typeError

mutual

/-- `pickle.loads` -/
def PVal.load : PVal → Py PObj
  | .none => .ok .none
  | .int i => .ok (.int i)
  | .bytes b => .ok (.bytes b)
  | .ints l => .ok (.ints l)
  | .str s => .ok (.str s)
  | .cls c => .ok (.cls c)
  | .call f args => do f.apply (← PVal.loadAll args)

def PVal.loadAll : List PVal → Py (List PObj)
  | [] => .ok []
  | v :: vs => do
    let x ← v.load
    let xs ← loadAll vs
    pure (x :: xs)

end

/-- capnpy/struct_.py:88-113 `_raw_dumps`: the tuple which is marshalled. -/
def StructObj.rawDumps (cls : String) (self : StructObj) : List PVal :=
  let segmentOffsets := match self.seg.offs with
    | some l => PVal.ints l
    | none => .none
  [.str "capnpy raw dump", .str cls, .bytes self.seg.buf, segmentOffsets,
    .int self.dataOffset, .int self.dataSize, .int self.ptrsSize]

/-- capnpy/struct_.py:115-132 `_raw_loads` as a method of the class `cls`: the object and
whether the warning about a different class is issued.  Something which is not a
7-tuple raises ValueError; ill-typed elements raise TypeError (a simplification: the
exact exception depends on the element). -/
def rawLoads (cls : String) : List PVal → Py (StructObj × Bool)
  | [header, clsname, buf, segmentOffsets, offset, dataSize, ptrsSize] =>
    match header with
    | .str "capnpy raw dump" =>
      match clsname, buf, segmentOffsets, offset, dataSize, ptrsSize with
      | .str clsname, .bytes buf, .none, .int offset, .int dataSize, .int ptrsSize => do
        let o ← StructObj.initFromBuffer ⟨buf, none⟩ offset dataSize ptrsSize
        pure (o, clsname != cls)
      | .str clsname, .bytes buf, .ints l, .int offset, .int dataSize, .int ptrsSize => do
        let o ← StructObj.initFromBuffer ⟨buf, some l⟩ offset dataSize ptrsSize
        pure (o, clsname != cls)
      | _, _, _, _, _, _ => .error .typeError
    | _ => .error .assertionError
  | _ => .error .valueError

end Capnpy
