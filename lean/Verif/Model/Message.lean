import Verif.Model.Struct
import Verif.Model.Buffered

/-!
# Model of capnpy/message.py

A file-like object is a state and a `read` function on it.
-/

namespace Capnpy

/-- A file-like object with internal state `σ`: `f.read(n)`
(capnpy/filelike.py:20-48).  `as_filelike` (3-17) does not change the behaviour
of `read`. -/
structure FileLike (σ : Type) where
  read : Int → σ → Bytes × σ

/-- Computations that read from a file. -/
abbrev FM (σ : Type) (α : Type) := EStateM PyErr σ α

/-- `f.read(n)` -/
def FM.read {σ} (F : FileLike σ) (n : Int) : FM σ Bytes := fun s =>
  let r := F.read n s
  .ok r.1 r.2

/-- Raise whatever a pure computation raises. -/
def FM.lift {σ α} (x : Py α) : FM σ α := fun s =>
  match x with
  | .ok a => .ok a s
  | .error e => .error e s

/-- capnpy/message.py:77-93 `_load_buffer_single_segment` -/
def loadSingle {σ} (F : FileLike σ) : FM σ Seg := do
  let buf ← FM.read F 4
  if buf.length < 4 then throw .valueError
  else do
    let messageSize ← FM.lift (unpackUint32 buf 0)
    let messageLength := messageSize * 8
    let buf ← FM.read F messageLength
    if (buf.length : Int) < messageLength then throw .valueError
    else pure ⟨buf, none⟩

/-- capnpy/message.py:102-106, the loop that reads the segment sizes. -/
def loadSizes {σ} (F : FileLike σ) : Nat → FM σ (List Int)
  | 0 => pure []
  | n + 1 => do
    let buf ← FM.read F 4
    if buf.length < 4 then throw .valueError
    else do
      let size ← FM.lift (unpackFrom .I buf 0)
      let rest ← loadSizes F n
      pure (size :: rest)

/-- capnpy/message.py:124-127, the loop that computes the segment offsets;
`sizes` is `segments[:-1]`. -/
def offsetsLoop : Int → List Int → List Int
  | _, [] => []
  | offset, size :: sizes =>
    let offset := offset + size * 8
    offset :: offsetsLoop offset sizes

/-- capnpy/message.py:95-130 `_load_buffer_multiple_segments` -/
def loadMultiple {σ} (F : FileLike σ) (n : Nat) : FM σ Seg := do
  let segments ← loadSizes F n
  let bytesRead : Int := 4 + n * 4
  if Int.land bytesRead 7 ≠ 0 then do
    let padding := 8 - Int.land bytesRead 7
    let _ ← FM.read F padding
    body segments
  else body segments
where
  /-- capnpy/message.py:114-130: read the body and compute the offsets. -/
  body (segments : List Int) : FM σ Seg := do
    let messageLength := segments.sum * 8
    let buf ← FM.read F messageLength
    if (buf.length : Int) < messageLength then throw .valueError
    else
      let segmentOffsets := 0 :: offsetsLoop 0 segments.dropLast
      pure ⟨buf, some segmentOffsets⟩

/-- capnpy/message.py:53-74 `_load_message` -/
def loadMessage {σ} (F : FileLike σ) : FM σ StructObj := do
  let buf ← FM.read F 4
  if buf.length = 0 then throw .eofError
  else if buf.length < 4 then throw .valueError
  else do
    let n ← FM.lift (unpackUint32 buf 0)
    let n := n + 1
    let seg ← if n = 1 then loadSingle F else loadMultiple F n.toNat
    FM.lift (StructObj.initFromBuffer seg 0 0 1)

/-- capnpy/message.py:12-30 `load` -/
def load {σ} (F : FileLike σ) : FM σ (Option StructObj) := do
  let msg ← loadMessage F
  FM.lift (msg.readStruct 0)

/-- `StringBuffer` as a file-like object. -/
def SBuffer.file : FileLike SBuffer := ⟨fun n s => s.read n⟩

/-- `BufferedStream` as a file-like object. -/
def BStream.file : FileLike BStream := ⟨fun n s => s.read n⟩

/-- capnpy/message.py:32-41 `loads` -/
def loads (buf : Bytes) : Py (Option StructObj) :=
  match load SBuffer.file (SBuffer.init buf) with
  | .error e _ => .error e
  | .ok obj f => if f.tell ≠ buf.length then .error .valueError else .ok obj

/-- How an iteration over `load_all` ends. -/
inductive GenEnd
  | stop
  | raised (e : PyErr)
  | running
  deriving DecidableEq, Repr

/-- capnpy/message.py:43-51 `load_all`: what the generator yields in at most
`fuel` iterations, and how it ends (`running` if it is not over by then). -/
def loadAll {σ} (F : FileLike σ) : Nat → σ → List (Option StructObj) × GenEnd × σ
  | 0, s => ([], .running, s)
  | fuel + 1, s =>
    match load F s with
    | .ok obj s' =>
      let (objs, e, s'') := loadAll F fuel s'
      (obj :: objs, e, s'')
    | .error .eofError s' => ([], .stop, s')
    | .error e s' => ([], .raised e, s')

/-- capnpy/message.py:150-153: `msg._get_end()` if the fast path is enabled. -/
def dumpsEnd (obj : StructObj) (fastpath : Bool) (fuel : Nat) : Py Int :=
  if fastpath then obj.getEnd fuel else .ok (-1)

/-- `builder.get_length()` (capnpy/segment/builder.py:13-14). -/
def builderLength : BM Int := fun buf => .ok (buf.length : Int) buf

/-- capnpy/message.py:160-171, the slow path of `dumps`. -/
def dumpsSlow (obj : StructObj) (fuel : Nat) : BM Unit := do
  let _ ← allocate 16
  copyFromStruct fuel 8 (some obj)
  let n ← builderLength
  let segmentCount : Int := 1
  let segmentSize := (n - 8) / 8
  writeFmt .I 0 (segmentCount - 1)
  writeFmt .I 4 segmentSize

/-- `builder.as_string()` after running a builder computation on a new
builder. -/
def runBuilder (m : BM Unit) : Py Bytes :=
  match m newBuilder with
  | .error e _ => .error e
  | .ok () buf => .ok buf

/-- capnpy/message.py:132-171 `dumps` -/
def dumps (obj : StructObj) (fastpath : Bool) (fuel : Nat) : Py Bytes :=
  match dumpsEnd obj fastpath fuel with
  | .error e => .error e
  | .ok end_ =>
    if end_ ≠ -1 then
      dumpMessage obj.seg.buf (Ptr.newStruct 0 obj.dataSize obj.ptrsSize) obj.dataOffset end_
    else runBuilder (dumpsSlow obj fuel)

end Capnpy
