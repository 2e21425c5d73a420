import Verif.Model.Message

/-!
# Model of a program that sends messages (capnpy/message.py:173-178, capnpy/buffered.py:105-120)
-/

namespace Capnpy

/-- capnpy/message.py:173-178 `dump`, to a `BufferedSocket`. -/
def dump (obj : StructObj) (f : WSock) (fastpath : Bool) (fuel : Nat) : Py WSock := do
  let s ← dumps obj fastpath fuel
  pure (f.write s)

/-- What the sending program does: dump an object, or flush the socket (with what `sendall`
does at that moment). -/
inductive Step
  | send (obj : StructObj) (fastpath : Bool)
  | flush (r : SendRes)

/-- The program; an exception of `dump` ends it, one of `flush` does not. -/
def sender (fuel : Nat) : WSock → List Step → Py WSock
  | s, [] => .ok s
  | s, .send obj fastpath :: steps => do
    let s ← dump obj s fastpath fuel
    sender fuel s steps
  | s, .flush r :: steps => sender fuel (s.flush r).1 steps

end Capnpy
