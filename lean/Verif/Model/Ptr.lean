import Verif.Model.Py

/-!
# Model of capnpy/ptr.py
-/

namespace Capnpy.Ptr

/-- capnpy/ptr.py:14 `STRUCT = 0` -/
def STRUCT : Int := 0
/-- capnpy/ptr.py:15 `LIST = 1` -/
def LIST : Int := 1
/-- capnpy/ptr.py:16 `FAR = 2` -/
def FAR : Int := 2
/-- capnpy/ptr.py:17 -/
def LIST_SIZE_VOID : Int := 0
/-- capnpy/ptr.py:18 -/
def LIST_SIZE_BIT : Int := 1
/-- capnpy/ptr.py:19 -/
def LIST_SIZE_8 : Int := 2
/-- capnpy/ptr.py:20 -/
def LIST_SIZE_16 : Int := 3
/-- capnpy/ptr.py:21 -/
def LIST_SIZE_32 : Int := 4
/-- capnpy/ptr.py:22 -/
def LIST_SIZE_64 : Int := 5
/-- capnpy/ptr.py:23 -/
def LIST_SIZE_PTR : Int := 6
/-- capnpy/ptr.py:24 -/
def LIST_SIZE_COMPOSITE : Int := 7

/-- capnpy/ptr.py:40-45 `new_generic` -/
def newGeneric (kind offset extra : Int) : Int :=
  let p : Int := 0
  let p := Int.lor p (shl extra 32)
  let p := Int.lor p (shl offset 2)
  let p := Int.lor p kind
  p

/-- capnpy/ptr.py:47-48 `kind` -/
def kind (ptr : Int) : Int := Int.land ptr 0x3

/-- capnpy/ptr.py:50-51 `offset` -/
def offset (ptr : Int) : Int := asSigned (Int.land (shr ptr 2) 0x3fffffff) 30

/-- capnpy/ptr.py:53-54 `extra` -/
def extra (ptr : Int) : Int := shr ptr 32

/-- capnpy/ptr.py:56-63 `deref` -/
def deref (ptr ofs : Int) : Int := ofs + (offset ptr + 1) * 8

/-- capnpy/ptr.py:81-87 `new_struct` -/
def newStruct (offset dataSize ptrsSize : Int) : Int :=
  let p : Int := 0
  let p := Int.lor p (shl ptrsSize 48)
  let p := Int.lor p (Int.land (shl dataSize 32) 0xffff00000000)
  let p := Int.lor p (Int.land (shl offset 2) 0xfffffffc)
  let p := Int.lor p STRUCT
  p

/-- capnpy/ptr.py:89-90 `struct_data_size` -/
def structDataSize (ptr : Int) : Int := Int.land (shr ptr 32) 0xffff

/-- capnpy/ptr.py:92-93 `struct_ptrs_size` -/
def structPtrsSize (ptr : Int) : Int := Int.land (shr ptr 48) 0xffff

/-- capnpy/ptr.py:119-125 `new_list` -/
def newList (ptrOffset sizeTag itemCount : Int) : Int :=
  let p : Int := 0
  let p := Int.lor p (shl itemCount 35)
  let p := Int.lor p (Int.land (shl sizeTag 32) 0x700000000)
  let p := Int.lor p (Int.land (shl ptrOffset 2) 0xfffffffc)
  let p := Int.lor p LIST
  p

/-- capnpy/ptr.py:127-128 `list_size_tag` -/
def listSizeTag (ptr : Int) : Int := Int.land (shr ptr 32) 0x7

/-- capnpy/ptr.py:130-131 `list_item_count` -/
def listItemCount (ptr : Int) : Int := Int.land (shr ptr 35) 0x1fffffff

/-- capnpy/ptr.py:133-135 `_LIST_SIZE_LENGTH` and `list_item_length`; every
caller passes a tag in `0..7`, so tuple indexing never goes out of range (the
model answers -1, "invalid", elsewhere). -/
def listItemLength (sizeTag : Int) : Int :=
  if sizeTag = 0 then 0
  else if sizeTag = 1 then -1
  else if sizeTag = 2 then 1
  else if sizeTag = 3 then 2
  else if sizeTag = 4 then 4
  else if sizeTag = 5 then 8
  else if sizeTag = 6 then 8
  else -1

/-- capnpy/ptr.py:155-161 `new_far` -/
def newFar (landingPad offset target : Int) : Int :=
  let p : Int := 0
  let p := Int.lor p (shl target 32)
  let p := Int.lor p (Int.land (shl offset 3) 0xfffffff8)
  let p := Int.lor p (Int.land (shl landingPad 2) 0x4)
  let p := Int.lor p FAR
  p

/-- capnpy/ptr.py:163-164 `far_landing_pad` -/
def farLandingPad (ptr : Int) : Int := Int.land (shr ptr 2) 1

/-- capnpy/ptr.py:166-167 `far_offset` -/
def farOffset (ptr : Int) : Int := Int.land (shr ptr 3) 0x1fffffff

/-- capnpy/ptr.py:169-170 `far_target` -/
def farTarget (ptr : Int) : Int := Int.land (shr ptr 32) 0xffffffff

/-- capnpy/ptr.py:172-173 `round_up_to_word` -/
def roundUpToWord (pos : Int) : Int := Int.land (pos + (8 - 1)) (-8)

end Capnpy.Ptr
