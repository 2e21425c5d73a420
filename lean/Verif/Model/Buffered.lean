import Verif.Model.Py

/-!
# Model of capnpy/buffered.py

The peer of a stream is the list of chunks that the successive calls of
`_readchunk()` return; after them it returns `b''` for ever.  An empty chunk in
the list is allowed by the model (the code takes it for the end of the stream);
the theorems assume there is none, as for a socket.
-/

namespace Capnpy

/-- Python `buf.find(b'\n', i)`: the index of the first newline at or after `i`
(`i ≥ 0`, as in all the callers), or -1. -/
def pyFindNewline (buf : Bytes) (i : Int) : Int :=
  match (buf.drop i.toNat).findIdx? (· = 10) with
  | some k => i.toNat + k
  | none => -1

/-- The attributes of a `BufferedStream` (capnpy/buffered.py:13-15) and its
peer. -/
structure BStream where
  buf : Bytes
  i : Int
  chunks : List Bytes
  deriving DecidableEq, Repr

namespace BStream

/-- capnpy/buffered.py:13-15 `__init__` -/
def init (chunks : List Bytes) : BStream := ⟨[], 0, chunks⟩

/-- capnpy/buffered.py:23-28 (and `_readchunk`, 17-18, 111-112 for a socket), the loop of `_fillbuf`.  The result is what is
appended to `parts`, joined, and the remaining chunks. -/
def fillLoop (size : Int) : Int → List Bytes → Bytes × List Bytes
  | _, [] => ([], [])
  | total, c :: cs =>
    if total < size then
      if c = [] then ([], cs)
      else
        let (r, cs') := fillLoop size (total + c.length) cs
        (c ++ r, cs')
    else ([], c :: cs)

/-- capnpy/buffered.py:20-31 `_fillbuf` -/
def fillbuf (self : BStream) (size : Int) : BStream :=
  let part0 := pySliceFrom self.buf self.i
  let (parts, chunks) := fillLoop size part0.length self.chunks
  ⟨part0 ++ parts, 0, chunks⟩

/-- capnpy/buffered.py:37-41, the loop of `_readall`. -/
def allLoop : List Bytes → Bytes × List Bytes
  | [] => ([], [])
  | c :: cs =>
    if c = [] then ([], cs)
    else
      let (r, cs') := allLoop cs
      (c ++ r, cs')

/-- capnpy/buffered.py:33-42 `_readall` -/
def readall (self : BStream) : Bytes × BStream :=
  let part0 := pySliceFrom self.buf self.i
  let (parts, chunks) := allLoop self.chunks
  (part0 ++ parts, ⟨[], 0, chunks⟩)

/-- capnpy/buffered.py:44-57 `read` -/
def read (self : BStream) (size : Int) : Bytes × BStream :=
  if size = -1 then self.readall
  else
    let i := self.i
    let j := i + size
    if (self.buf.length : Int) < j then
      let self := self.fillbuf size
      let self := { self with i := size }
      (pySlice self.buf 0 size, self)
    else (pySlice self.buf i j, { self with i := j })

/-- capnpy/buffered.py:71-83, the loop of `readline`: what is appended to
`parts`, joined, the new `self.buf` and the remaining chunks. -/
def lineLoop : List Bytes → Bytes × Bytes × List Bytes
  | [] => ([], [], [])
  | c :: cs =>
    if c = [] then ([], [], cs)
    else
      let j := pyFindNewline c 0
      if j ≠ -1 then (pySlice c 0 (j + 1), pySliceFrom c (j + 1), cs)
      else
        let (r, buf, cs') := lineLoop cs
        (c ++ r, buf, cs')

/-- capnpy/buffered.py:59-85 `readline` -/
def readline (self : BStream) : Bytes × BStream :=
  let i := self.i
  let j := pyFindNewline self.buf i
  if j ≠ -1 then (pySlice self.buf i (j + 1), { self with i := j + 1 })
  else
    let part0 := pySliceFrom self.buf i
    let (parts, buf, chunks) := lineLoop self.chunks
    (part0 ++ parts, ⟨buf, 0, chunks⟩)

end BStream

/-- The attributes of a `StringBuffer` (capnpy/buffered.py:133-135). -/
structure SBuffer where
  s : Bytes
  i : Int
  deriving DecidableEq, Repr

namespace SBuffer

/-- capnpy/buffered.py:133-135 `__init__` -/
def init (s : Bytes) : SBuffer := ⟨s, 0⟩

/-- capnpy/buffered.py:137-145 `read` -/
def read (self : SBuffer) (size : Int) : Bytes × SBuffer :=
  let i := self.i
  if size = -1 then (pySliceFrom self.s i, { self with i := self.s.length })
  else
    let j := i + size
    (pySlice self.s i j, { self with i := j })

/-- capnpy/buffered.py:147-155 `readline` -/
def readline (self : SBuffer) : Bytes × SBuffer :=
  let i := self.i
  let j := pyFindNewline self.s i + 1
  if j = 0 then (pySliceFrom self.s i, { self with i := self.s.length })
  else (pySlice self.s i j, { self with i := j })

/-- capnpy/buffered.py:157-158 `tell` -/
def tell (self : SBuffer) : Int := self.i

end SBuffer

/-- What a `sendall` call does: deliver everything, or raise after having
delivered the first `k` bytes (Python gives no information on `k`). -/
inductive SendRes
  | ok
  | fail (k : Nat)
  deriving DecidableEq, Repr

/-- The writing side of `BufferedSocket` (capnpy/buffered.py:105-109): the
pending writes, and the `sendall` calls made so far with their outcome. -/
structure WSock where
  wbuf : List Bytes
  calls : List (Bytes × SendRes)
  deriving DecidableEq, Repr

namespace WSock

/-- capnpy/buffered.py:105-109 `__init__` -/
def init : WSock := ⟨[], []⟩

/-- capnpy/buffered.py:114-115 `write` -/
def write (self : WSock) (data : Bytes) : WSock := { self with wbuf := self.wbuf ++ [data] }

/-- capnpy/buffered.py:117-120 `flush`; the boolean says whether it raised.
When `sendall` raises, `self.wbuf = []` is not executed. -/
def flush (self : WSock) (r : SendRes) : WSock × Bool :=
  let data := self.wbuf.flatten
  let calls := self.calls ++ [(data, r)]
  match r with
  | .ok => (⟨[], calls⟩, false)
  | .fail _ => (⟨self.wbuf, calls⟩, true)

end WSock

end Capnpy
