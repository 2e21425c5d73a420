import Verif.Model.Message

/-!
# Model of `capnpy decode`

The messages on standard error and the progress counter are left out.
-/

namespace Capnpy

/-- How the loop of `decode` ends: normally, with a traceback, or not yet. -/
inductive DecodeEnd
  | done
  | raised (e : PyErr)
  | running
  deriving DecidableEq, Repr

/-- capnpy/__main__.py:55-65, the loop of `decode`: the lines it prints in at most `fuel` iterations, and how it
ends.  `shortrepr` is the method of the generated class (Model/Repr.lean); `None` has no such attribute.  A
`UnicodeDecodeError` is a `ValueError`, but `shortrepr` is called outside of the `try`. -/
def decodeLoop {σ} (F : FileLike σ) (shortrepr : StructObj → Py (List Char)) :
    Nat → σ → List (List Char) × DecodeEnd × σ
  | 0, s => ([], .running, s)
  | fuel + 1, s =>
    match load F s with
    | .error .valueError s' => ([], .done, s')
    | .error e s' => ([], .raised e, s')
    | .ok none s' => ([], .raised .attributeError, s')
    | .ok (some o) s' =>
      match shortrepr o with
      | .error e => ([], .raised e, s')
      | .ok line =>
        let r := decodeLoop F shortrepr fuel s'
        (line :: r.1, r.2)

end Capnpy
