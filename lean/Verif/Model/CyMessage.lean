import Verif.Model.CyReader

/-!
# Model of the compiled message.py and buffered.py

setup.py:127-142: capnpy/message.py and capnpy/buffered.py are compiled with their .pxd files,
which declare counts, sizes and positions as C `int`.  Conversions from `uint32_t` and int
arithmetic wrap around (Python's build flags contain `-fwrapv`); the conversion of a Python
int that does not fit raises OverflowError.
-/

namespace Capnpy.Cy

/-- The C `int` of an integer. -/
def int32 (x : Int) : Int := (x + 2 ^ 31) % 2 ^ 32 - 2 ^ 31

/-- capnpy/buffered.py:137-145 `StringBuffer.read` with capnpy/buffered.pxd:27-31: `self.i`,
`size`, `i`, `j` are C ints. -/
def sbufferRead (self : SBuffer) (size : Int) : Bytes × SBuffer :=
  let i := self.i
  if size = -1 then (pySliceFrom self.s i, { self with i := int32 self.s.length })
  else
    let j := int32 (i + size)
    (pySlice self.s i j, { self with i := j })

/-- capnpy/buffered.py:44-57 `BufferedStream.read` with capnpy/buffered.pxd:4-13. -/
def bstreamRead (self : BStream) (size : Int) : Bytes × BStream :=
  if size = -1 then self.readall
  else
    let i := self.i
    let j := int32 (i + size)
    if (self.buf.length : Int) < j then
      let self := self.fillbuf size
      let self := { self with i := size }
      (pySlice self.buf 0 size, self)
    else (pySlice self.buf i j, { self with i := j })

/-- The compiled `StringBuffer`. -/
def sbufferFile : FileLike SBuffer := ⟨fun n s => sbufferRead s n⟩

/-- The compiled `BufferedStream`. -/
def bstreamFile : FileLike BStream := ⟨fun n s => bstreamRead s n⟩

/-- capnpy/message.py:77-93 `_load_buffer_single_segment` with capnpy/message.pxd:20-21:
`message_size` and `message_lenght` are C ints. -/
def loadSingle {σ} (F : FileLike σ) : FM σ Seg := do
  let buf ← FM.read F 4
  if buf.length < 4 then throw .valueError
  else do
    let messageSize ← FM.lift (unpackUint32 buf 0)
    let messageLength := int32 (int32 messageSize * 8)
    let buf ← FM.read F messageLength
    if (buf.length : Int) < messageLength then throw .valueError
    else pure ⟨buf, none⟩

/-- capnpy/message.py:95-130 `_load_buffer_multiple_segments` with capnpy/message.pxd:23-25:
`n`, `bytes_read`, `padding` and `message_lenght` are C ints; `sum(segments)*8` is a Python
int.  The loops are those of the pure version; the ints `size` and `offset` of the second
(124-127) fit because their sum does. -/
def loadMultiple {σ} (F : FileLike σ) (n : Int) : FM σ Seg := do
  let segments ← loadSizes F n.toNat
  let bytesRead : Int := int32 (4 + int32 (n * 4))
  if Int.land bytesRead 7 ≠ 0 then do
    let padding := 8 - Int.land bytesRead 7
    let _ ← FM.read F padding
    body segments
  else body segments
where
  /-- capnpy/message.py:114-130 -/
  body (segments : List Int) : FM σ Seg := do
    let messageLength := segments.sum * 8
    if messageLength ≥ 2 ^ 31 then throw .overflowError
    else do
      let buf ← FM.read F messageLength
      if (buf.length : Int) < messageLength then throw .valueError
      else
        let segmentOffsets := 0 :: offsetsLoop 0 segments.dropLast
        pure ⟨buf, some segmentOffsets⟩

/-- capnpy/message.py:53-74 `_load_message` with capnpy/message.pxd:17-18: `n` is a C int;
`unpack_uint32` returns a `uint32_t`, so that the sum wraps around. -/
def loadMessage {σ} (F : FileLike σ) : FM σ StructObj := do
  let buf ← FM.read F 4
  if buf.length = 0 then throw .eofError
  else if buf.length < 4 then throw .valueError
  else do
    let n ← FM.lift (unpackUint32 buf 0)
    let n := int32 ((n + 1) % 2 ^ 32)
    let seg ← if n = 1 then loadSingle F else loadMultiple F n
    FM.lift (StructObj.initFromBuffer seg 0 0 1)

/-- capnpy/message.py:12-30 `load`: the outcome and the state of the file.  The root is read by
the compiled `_read_struct`. -/
def load {σ} (F : FileLike σ) (s : σ) : CRes (Option StructObj) × σ :=
  match loadMessage F s with
  | .error e s' => (.ret (.error e) false, s')
  | .ok msg s' => (readStruct msg 0, s')

/-- capnpy/message.py:32-41 `loads` -/
def loads (buf : Bytes) : CRes (Option StructObj) :=
  match load sbufferFile (SBuffer.init buf) with
  | (r, f) => do
    let obj ← r
    if f.tell ≠ buf.length then CRes.lift (.error .valueError) else pure obj

/-- capnpy/message.py:43-51 `load_all`: what the generator yields in at most `fuel`
iterations, whether exceptions were ignored, and how it ends (`none`: a stack overflow). -/
def loadAll {σ} (F : FileLike σ) : Nat → σ → List (Option StructObj) × Bool × Option GenEnd × σ
  | 0, s => ([], false, some .running, s)
  | fuel + 1, s =>
    match load F s with
    | (.ret (.ok obj) w, s') =>
      let (objs, w', e, s'') := loadAll F fuel s'
      (obj :: objs, w || w', e, s'')
    | (.ret (.error .eofError) w, s') => ([], w, some .stop, s')
    | (.ret (.error e) w, s') => ([], w, some (.raised e), s')
    | (.crash, s') => ([], false, none, s')

end Capnpy.Cy
