import Verif.Spec.Value

/-!
# Specification: reading from a flat byte sequence, and the stream framing

`Cmd.flat` says what each call returns and what is left, when the whole stream
is one byte sequence.  `frame` is the standard Cap'n Proto stream framing.
-/

namespace Capnpy.Spec

/-- The calls a client makes on a stream. -/
inductive Cmd
  | read (n : Nat)
  | readAll
  | readline
  deriving DecidableEq, Repr

/-- The first line: up to and including the first newline, everything if there
is none. -/
def firstLine : List UInt8 → List UInt8
  | [] => []
  | c :: cs => if c = 10 then [c] else c :: firstLine cs

/-- Result of a call on the remaining bytes. -/
def Cmd.result (rest : List UInt8) : Cmd → List UInt8
  | .read n => rest.take n
  | .readAll => rest
  | .readline => firstLine rest

/-- Results of a sequence of calls; each one consumes what it returns. -/
def flatRun : List UInt8 → List Cmd → List (List UInt8)
  | _, [] => []
  | rest, c :: cs => c.result rest :: flatRun (rest.drop (c.result rest).length) cs

/-- A 32-bit little-endian number. -/
def le32 (n : Nat) : List UInt8 :=
  [UInt8.ofNat n, UInt8.ofNat (n / 256), UInt8.ofNat (n / 65536), UInt8.ofNat (n / 16777216)]

/-- The stream framing of a message: number of segments minus one, the size of
each segment in words, padding up to a word, the segments. -/
def frame (segs : List (List UInt8)) (pad : List UInt8) : List UInt8 :=
  le32 (segs.length - 1) ++ (segs.map fun s => le32 (s.length / 8)).flatten ++ pad ++ segs.flatten

/-- A message that has a stream framing: at least one segment, at most `2^32`,
each a whole number of words and less than `2^32` words, and the padding is four
bytes if the number of segments is even, none if it is odd. -/
structure Frameable (segs : List (List UInt8)) (pad : List UInt8) : Prop where
  nonempty : segs ≠ []
  count : segs.length ≤ 2 ^ 32
  word : ∀ s ∈ segs, 8 ∣ s.length
  size : ∀ s ∈ segs, s.length / 8 < 2 ^ 32
  pad : pad.length = if segs.length % 2 = 0 then 4 else 0

/-- Where each segment starts in the concatenation of all. -/
def segStarts : List (List UInt8) → List Nat
  | [] => []
  | s :: ss => 0 :: (segStarts ss).map (· + s.length)

/-- The segment table capnpy keeps: none for a single segment. -/
def segTable (segs : List (List UInt8)) : Option (List Nat) :=
  if segs.length = 1 then none else some (segStarts segs)

/-! ## Header fields of an arbitrary byte sequence -/

/-- The 32-bit little-endian number at byte `k`. -/
def u32 (b : List UInt8) (k : Nat) : Nat := leNat (slice b k 4)

/-- Number of segments announced by the first four bytes. -/
def segCount (b : List UInt8) : Nat := u32 b 0 + 1

/-- The announced segment sizes, in words. -/
def segSizes (b : List UInt8) : List Nat := (List.range (segCount b)).map fun k => u32 b (4 + 4 * k)

/-- Length of the header, padding included. -/
def headerLen (b : List UInt8) : Nat := wordAlign (4 + 4 * segCount b)

/-- Length of the announced segments together. -/
def bodyLen (b : List UInt8) : Nat := 8 * (segSizes b).sum

/-- Start of each segment, from the sizes in words. -/
def sizeStarts : List Nat → List Nat
  | [] => []
  | n :: ns => 0 :: (sizeStarts ns).map (· + 8 * n)

/-- The segment table for the announced segments. -/
def announcedTable (b : List UInt8) : Option (List Nat) :=
  if segCount b = 1 then none else some (sizeStarts (segSizes b))

end Capnpy.Spec
