import Verif.Model.Py

/-!
# What Python's `hash` is on integers

From the Python documentation ("Hashing of numeric types", 64-bit builds):
`hash(x)` is `x` reduced modulo the prime `P = 2**61 - 1`, keeping the sign of
`x`, except that `-1` is replaced by `-2`.
-/

namespace Capnpy.Spec

/-- `sys.hash_info.modulus` -/
def hashModulus : Nat := 2305843009213693951

/-- Python 3's `hash(x)` of an int. -/
def pyIntHash (x : Int) : Int :=
  let m : Nat := x.natAbs % hashModulus
  let h : Int := if x < 0 then -(m : Int) else m
  if h = -1 then -2 else h

/-! ## Tuples

The hash of a tuple as a function of the hashes of its items, each an unsigned 64-bit
number (`-1` is never the hash of an object). -/

/-- Rotation of a 64-bit number to the left by 31. -/
def rotl31 (x : Nat) : Nat := x * 2 ^ 31 % 2 ^ 64 + x / 2 ^ 33

/-- Python ≥ 3.8 (Objects/tupleobject.c, "simplified xxHash"): for each item
`acc = rotl31(acc + h * P2) * P1`, starting with `P5`; the end adds
`len ^ (P5 ^ 3527539)`, and `-1` is replaced by 1546275796. -/
def pyTupleHash (hashes : List Nat) : Nat :=
  let acc := hashes.foldl (fun acc h => rotl31 ((acc + h * 14029467366897019727) % 2 ^ 64) * 11400714785074694791 % 2 ^ 64)
    2870177450012600261
  let acc := (acc + Nat.xor (hashes.length % 2 ^ 64) (Nat.xor 2870177450012600261 3527539)) % 2 ^ 64
  if acc = 2 ^ 64 - 1 then 1546275796 else acc

/-- The multiplier for the item `i` of a tuple with `n` items, before Python 3.8. -/
def oldMult (n : Nat) : Nat → Nat
  | 0 => 1000003
  | i + 1 => oldMult n i + 82520 + 2 * (n - 1 - i)

/-- Python < 3.8: `x = (x ^ h[i]) * mult[i]` for every item, starting with 0x345678;
then 97531 is added, and `-1` is replaced by `-2`. -/
def pyTupleHashOld (hashes : List Nat) : Nat :=
  let x := (List.range hashes.length).foldl
    (fun x i => Nat.xor x hashes[i]! * oldMult hashes.length i % 2 ^ 64) 0x345678
  let x := (x + 97531) % 2 ^ 64
  if x = 2 ^ 64 - 1 then 2 ^ 64 - 2 else x

end Capnpy.Spec
