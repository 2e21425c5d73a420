import Verif.Model.Hash
import Verif.Model.Segment

/-! # Model of `Segment.hash_str` -/

namespace Capnpy

/-- capnpy/segment/segment.py:52-59 `Segment.hash_str`, in pure Python mode
(`_hash.strhash` is capnpy/_hash.py:5-6). -/
def Seg.hashStrPy (hashBytes : Bytes → Int) (s : Seg) (p offset default_ additionalSize : Int) :
    Py Int :=
  if p = 0 then .ok default_
  else if ¬ (Ptr.kind p = Ptr.LIST) then .error .assertionError
  else if ¬ (Ptr.listSizeTag p = Ptr.LIST_SIZE_8) then .error .assertionError
  else
    let start := Ptr.deref p offset
    let size := Ptr.listItemCount p + additionalSize
    .ok (Hash.strhashPy hashBytes s.buf start size)

/-- capnpy/segment/segment.py:52-59 `Segment.hash_str`, in pyx mode
(`_hash.strhash` is capnpy/_hash.pyx:24-36).  `none`: undefined behaviour. -/
def Seg.hashStrPyx (hashBytes : Bytes → Int) (s : Seg) (p offset default_ additionalSize : Int) :
    Option (Py Int) :=
  if p = 0 then some (.ok default_)
  else if ¬ (Ptr.kind p = Ptr.LIST) then some (.error .assertionError)
  else if ¬ (Ptr.listSizeTag p = Ptr.LIST_SIZE_8) then some (.error .assertionError)
  else
    let start := Ptr.deref p offset
    let size := Ptr.listItemCount p + additionalSize
    (Hash.strhash3 hashBytes s.buf start size).map .ok

end Capnpy
