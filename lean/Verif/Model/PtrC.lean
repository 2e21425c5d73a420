import Verif.Model.Ptr

/-!
# Model of capnpy/ptr.h and capnpy/ptr.pyx

The compiled version computes pointers with C macros on `long`s of 64 bits (`LONGBITS` is
64).  `<<` on a signed value wraps and `>>` is arithmetic, which is what the compilers
capnpy is used with do.  The macros are used through the prototypes of capnpy/ptr.pxd: all
arguments and results are `long`.
-/

namespace Capnpy.PtrC

/-- A C `long`. -/
abbrev Long := BitVec 64

/-- C `x >> n` on a signed type. -/
def sar (x : Long) (n : Nat) : Long := x.sshiftRight n

/-- capnpy/ptr.h:28-29 `CAST_AS_SIGNED` -/
def castAsSigned (x : Long) (bits : Nat) : Long := sar (x <<< (64 - bits)) (64 - bits)

/-- capnpy/ptr.h:32 `PTR_NEW_GENERIC` -/
def newGeneric (kind offset extra : Long) : Long := extra <<< 32 ||| offset <<< 2 ||| kind

/-- capnpy/ptr.h:33 `PTR_KIND` -/
def kind (ptr : Long) : Long := ptr &&& 0x3

/-- capnpy/ptr.h:34 `PTR_OFFSET` -/
def offset (ptr : Long) : Long := castAsSigned (sar ptr 2 &&& 0x3fffffff) 30

/-- capnpy/ptr.h:35 `PTR_EXTRA` -/
def extra (ptr : Long) : Long := sar ptr 32

/-- capnpy/ptr.h:36 `PTR_DEREF` -/
def deref (ptr ofs : Long) : Long := ofs + (offset ptr + 1) * 8

/-- capnpy/ptr.h:39-43 `PTR_NEW_STRUCT` -/
def newStruct (offset dataSize ptrsSize : Long) : Long :=
  ptrsSize <<< 48 ||| (dataSize <<< 32 &&& 0xffff00000000) ||| (offset <<< 2 &&& 0xfffffffc) ||| 0

/-- capnpy/ptr.h:45 `PTR_STRUCT_DATA_SIZE` -/
def structDataSize (ptr : Long) : Long := sar ptr 32 &&& 0xffff

/-- capnpy/ptr.h:46 `PTR_STRUCT_PTRS_SIZE` -/
def structPtrsSize (ptr : Long) : Long := sar ptr 48 &&& 0xffff

/-- capnpy/ptr.h:49-53 `PTR_NEW_LIST` -/
def newList (ptrOffset sizeTag itemCount : Long) : Long :=
  itemCount <<< 35 ||| (sizeTag <<< 32 &&& 0x700000000) ||| (ptrOffset <<< 2 &&& 0xfffffffc) ||| 1

/-- capnpy/ptr.h:55 `PTR_LIST_SIZE_TAG` -/
def listSizeTag (ptr : Long) : Long := sar ptr 32 &&& 0x7

/-- capnpy/ptr.h:56 `PTR_LIST_ITEM_COUNT` -/
def listItemCount (ptr : Long) : Long := sar ptr 35 &&& 0x1fffffff

/-- capnpy/ptr.pyx:78-94 `list_item_length` -/
def listItemLength (sizeTag : Long) : Long :=
  if sizeTag = 0 then 0
  else if sizeTag = 1 then -1
  else if sizeTag = 2 then 1
  else if sizeTag = 3 then 2
  else if sizeTag = 4 then 4
  else if sizeTag = 5 then 8
  else if sizeTag = 6 then 8
  else -1

/-- capnpy/ptr.h:59-63 `PTR_NEW_FAR` -/
def newFar (landingPad offset target : Long) : Long :=
  target <<< 32 ||| (offset <<< 3 &&& 0xfffffff8) ||| (landingPad <<< 2 &&& 0x4) ||| 2

/-- capnpy/ptr.h:65 `PTR_FAR_LANDING_PAD` -/
def farLandingPad (ptr : Long) : Long := sar ptr 2 &&& 1

/-- capnpy/ptr.h:66 `PTR_FAR_OFFSET` -/
def farOffset (ptr : Long) : Long := sar ptr 3 &&& 0x1fffffff

/-- capnpy/ptr.h:67 `PTR_FAR_TARGET` -/
def farTarget (ptr : Long) : Long := sar ptr 32 &&& 0xffffffff

/-- capnpy/ptr.h:69 `ROUND_UP_TO_WORD` -/
def roundUpToWord (i : Long) : Long := (i + (8 - 1)) &&& (-8)

end Capnpy.PtrC
