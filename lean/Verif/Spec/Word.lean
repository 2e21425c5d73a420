/-!
# Specification: the fields of a Cap'n Proto pointer word

Written from the diagrams of the Cap'n Proto encoding document (the same
diagrams are quoted in the comments of capnpy/ptr.py).  A word is a natural
number below `2^64`; bit 0 is the least significant one.  Only division and
remainder are used, on purpose: the model uses Python's shifts and masks.
-/

namespace Capnpy.Spec

/-- Bits 0-1: 0 struct, 1 list, 2 far, 3 other. -/
def kind (w : Nat) : Nat := w % 4

/-- A 30-bit field read as a two's complement number. -/
def signed30 (x : Nat) : Int := if x < 2 ^ 29 then (x : Int) else (x : Int) - 2 ^ 30

/-- Bits 2-31, signed: offset in words from the end of the pointer. -/
def offset (w : Nat) : Int := signed30 (w / 4 % 2 ^ 30)

/-- Bits 32-47: size of the data section, in words. -/
def dataSize (w : Nat) : Nat := w / 2 ^ 32 % 2 ^ 16

/-- Bits 48-63: size of the pointer section, in words. -/
def ptrsSize (w : Nat) : Nat := w / 2 ^ 48 % 2 ^ 16

/-- Bits 32-34: element size of a list. -/
def listTag (w : Nat) : Nat := w / 2 ^ 32 % 8

/-- Bits 35-63: number of elements of a list (words, for tag 7). -/
def listCount (w : Nat) : Nat := w / 2 ^ 35 % 2 ^ 29

/-- Bit 2: is the landing pad two words long? -/
def farPad (w : Nat) : Nat := w / 4 % 2

/-- Bits 3-31: offset of the landing pad, in words, from the segment start. -/
def farOffset (w : Nat) : Nat := w / 8 % 2 ^ 29

/-- Bits 32-63: id of the target segment. -/
def farTarget (w : Nat) : Nat := w / 2 ^ 32 % 2 ^ 32

/-- The word as a signed 64-bit number, which is how capnpy reads it. -/
def signed64 (w : Nat) : Int := if w < 2 ^ 63 then (w : Int) else (w : Int) - 2 ^ 64

/-- Assemble a struct pointer word. -/
def structWord (off : Int) (ds ps : Nat) : Nat :=
  (off % 2 ^ 30).toNat * 4 + ds * 2 ^ 32 + ps * 2 ^ 48

/-- Assemble a list pointer word. -/
def listWord (off : Int) (tag count : Nat) : Nat :=
  1 + (off % 2 ^ 30).toNat * 4 + tag * 2 ^ 32 + count * 2 ^ 35

end Capnpy.Spec
