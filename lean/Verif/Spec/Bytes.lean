/-!
# Specification: bytes, slices, little-endian numbers
-/

namespace Capnpy.Spec

/-- `n` bytes of `b` starting at `s` (fewer if the buffer ends before). -/
def slice (b : List UInt8) (s n : Nat) : List UInt8 := (b.drop s).take n

/-- The number whose base-256 digits, least significant first, are `l`. -/
def leNat : List UInt8 → Nat
  | [] => 0
  | x :: xs => x.toNat + 256 * leNat xs

/-- The `n` low base-256 digits of `v`, least significant first. -/
def leBytes : Nat → Nat → List UInt8
  | 0, _ => []
  | n + 1, v => UInt8.ofNat (v % 256) :: leBytes n (v / 256)

/-- The 64-bit little-endian word at byte position `pos`. -/
def wordAt (b : List UInt8) (pos : Nat) : Nat := leNat (slice b pos 8)

/-- Interpret an `n`-byte unsigned number as two's complement. -/
def toSigned (n : Nat) (v : Nat) : Int :=
  if v < 2 ^ (8 * n - 1) then (v : Int) else (v : Int) - 2 ^ (8 * n)

end Capnpy.Spec
