import Verif.Spec.Word
import Verif.Spec.Bytes

/-!
# Specification: what a Cap'n Proto pointer denotes

`Val` is the schema-less value tree of a message.  `Den B offs o w v` says that
the pointer word `w`, stored at byte position `o` of the buffer `B`, denotes
`v`.  `offs` is the table of segment start positions of a multi-segment message
whose segments are concatenated in `B`, or `none` for a single-segment message
(in which far pointers do not denote anything).  A far pointer must really be
the word stored at `o`; the word of a struct or list pointer may also be a
virtual one, as in the two-word landing pad.

This file is written from the Cap'n Proto encoding document and does not refer
to the model of capnpy.
-/

namespace Capnpy.Spec

/-- Schema-less values. -/
inductive Val where
  | null
  /-- data section and pointer section -/
  | struct (data : List UInt8) (ptrs : List Val)
  /-- a list of non-pointer, non-composite elements: element-size tag
  (0 void, 1 bit, 2..5 = 1,2,4,8 bytes), number of elements, packed bytes -/
  | listPrim (tag count : Nat) (bytes : List UInt8)
  /-- a list of pointers -/
  | listPtr (items : List Val)
  /-- an inline-composite list: section sizes in words, and the elements -/
  | listComp (ds ps : Nat) (items : List (List UInt8 × List Val))

/-- Bytes taken by the elements of a non-pointer, non-composite list. -/
def primLen (tag count : Nat) : Nat :=
  match tag with
  | 0 => 0
  | 1 => (count + 7) / 8
  | 2 => count
  | 3 => 2 * count
  | 4 => 4 * count
  | _ => 8 * count

/-- Round up to a multiple of 8. -/
def wordAlign (n : Nat) : Nat := (n + 7) / 8 * 8

/-- Where a struct or list pointer `w` stored at `o` points to. -/
def target (o : Int) (w : Nat) : Int := o + 8 + 8 * offset w

/-- The pointer word `w` at position `o` denotes `v`. -/
inductive Den (B : List UInt8) (offs : Option (List Nat)) : Int → Nat → Val → Prop
  | null (o : Int) : Den B offs o 0 .null
  | struct (o : Int) (w t : Nat) (data : List UInt8) (ptrs : List Val)
      (hw : w ≠ 0) (hk : kind w = 0) (ht : target o w = t)
      (hb : t + 8 * (dataSize w + ptrsSize w) ≤ B.length)
      (hd : data = slice B t (8 * dataSize w))
      (hl : ptrs.length = ptrsSize w)
      (hp : ∀ j v, ptrs[j]? = some v →
        Den B offs ((t + 8 * dataSize w + 8 * j : Nat) : Int)
          (wordAt B (t + 8 * dataSize w + 8 * j)) v) :
      Den B offs o w (.struct data ptrs)
  | listPrim (o : Int) (w t : Nat)
      (hk : kind w = 1) (hg : listTag w ≤ 5) (ht : target o w = t)
      (hb : t + primLen (listTag w) (listCount w) ≤ B.length) :
      Den B offs o w (.listPrim (listTag w) (listCount w)
        (slice B t (primLen (listTag w) (listCount w))))
  | listPtr (o : Int) (w t : Nat) (items : List Val)
      (hk : kind w = 1) (hg : listTag w = 6) (ht : target o w = t)
      (hb : t + 8 * listCount w ≤ B.length)
      (hl : items.length = listCount w)
      (hp : ∀ j v, items[j]? = some v →
        Den B offs ((t + 8 * j : Nat) : Int) (wordAt B (t + 8 * j)) v) :
      Den B offs o w (.listPtr items)
  | listComp (o : Int) (w t tag ds ps : Nat) (items : List (List UInt8 × List Val))
      (hk : kind w = 1) (hg : listTag w = 7) (ht : target o w = t)
      (hb : t + 8 + 8 * listCount w ≤ B.length)
      (htag : tag = wordAt B t) (hkt : kind tag = 0)
      (hds : ds = dataSize tag) (hps : ps = ptrsSize tag)
      (hn : offset tag = items.length) (htot : items.length * (ds + ps) = listCount w)
      (hi : ∀ (i : Nat) d vs, items[i]? = some (d, vs) →
        d = slice B (t + 8 + i * (8 * (ds + ps))) (8 * ds) ∧ vs.length = ps)
      (hp : ∀ (i : Nat) d vs, items[i]? = some (d, vs) → ∀ (j : Nat) v, vs[j]? = some v →
        Den B offs ((t + 8 + i * (8 * (ds + ps)) + 8 * ds + 8 * j : Nat) : Int)
          (wordAt B (t + 8 + i * (8 * (ds + ps)) + 8 * ds + 8 * j)) v) :
      Den B offs o w (.listComp ds ps items)
  /-- one-word landing pad: the pad is an ordinary pointer in the target segment -/
  | far (o w pos st : Nat) (tbl : List Nat) (v : Val)
      (ho : o + 8 ≤ B.length) (how : w = wordAt B o)
      (hk : kind w = 2) (hf : farPad w = 0) (htbl : offs = some tbl)
      (hst : tbl[farTarget w]? = some st) (hpos : pos = st + 8 * farOffset w)
      (hb : pos + 8 ≤ B.length)
      (hpk : kind (wordAt B pos) < 2) (hp0 : wordAt B pos ≠ 0)
      (hd : Den B offs (pos : Int) (wordAt B pos) v) :
      Den B offs (o : Int) w v
  /-- two-word landing pad: a far pointer to the object itself, and a tag word
  describing the object, whose offset is zero -/
  | far2 (o w pos st st2 : Nat) (tbl : List Nat) (v : Val)
      (ho : o + 8 ≤ B.length) (how : w = wordAt B o)
      (hk : kind w = 2) (hf : farPad w = 1) (htbl : offs = some tbl)
      (hst : tbl[farTarget w]? = some st) (hpos : pos = st + 8 * farOffset w)
      (hb : pos + 16 ≤ B.length)
      (hfk : kind (wordAt B pos) = 2) (hff : farPad (wordAt B pos) = 0)
      (hst2 : tbl[farTarget (wordAt B pos)]? = some st2)
      (htk : kind (wordAt B (pos + 8)) < 2) (ht0 : wordAt B (pos + 8) ≠ 0)
      (hto : offset (wordAt B (pos + 8)) = 0)
      (hd : Den B offs (((st2 + 8 * farOffset (wordAt B pos) : Nat) : Int) - 8)
        (wordAt B (pos + 8)) v) :
      Den B offs (o : Int) w v

/-- The struct whose sections start at byte `t`, of `ds` and `ps` words, has
data section `data` and its pointers denote `ptrs`. -/
def ObjDen (B : List UInt8) (offs : Option (List Nat)) (t ds ps : Nat)
    (data : List UInt8) (ptrs : List Val) : Prop :=
  t + 8 * (ds + ps) ≤ B.length ∧ data = slice B t (8 * ds) ∧ ptrs.length = ps ∧
  ∀ j v, ptrs[j]? = some v →
    Den B offs ((t + 8 * ds + 8 * j : Nat) : Int) (wordAt B (t + 8 * ds + 8 * j)) v

mutual
/-- Bytes needed to store what a pointer to the value points to, once. -/
def Val.size : Val → Nat
  | .null => 0
  | .struct data ptrs => data.length + 8 * ptrs.length + Val.sizes ptrs
  | .listPrim tag count _ => wordAlign (primLen tag count)
  | .listPtr items => 8 * items.length + Val.sizes items
  | .listComp ds ps items => 8 + items.length * (8 * (ds + ps)) + Val.itemSizes items
def Val.sizes : List Val → Nat
  | [] => 0
  | v :: vs => v.size + Val.sizes vs
def Val.itemSizes : List (List UInt8 × List Val) → Nat
  | [] => 0
  | (_, vs) :: is => Val.sizes vs + Val.itemSizes is
end

mutual
/-- Nesting depth. -/
def Val.depth : Val → Nat
  | .null => 0
  | .struct _ ptrs => Val.depths ptrs + 1
  | .listPrim _ _ _ => 1
  | .listPtr items => Val.depths items + 1
  | .listComp _ _ items => Val.itemDepths items + 1
def Val.depths : List Val → Nat
  | [] => 0
  | v :: vs => max v.depth (Val.depths vs)
def Val.itemDepths : List (List UInt8 × List Val) → Nat
  | [] => 0
  | (_, vs) :: is => max (Val.depths vs) (Val.itemDepths is)
end

mutual
/-- Every struct has fewer than `2^15` pointers, every list fewer than `2^28`
elements (words, for composite lists): the pointer word is then a non-negative
int64. -/
def Val.Fits : Val → Prop
  | .null => True
  | .struct _ ptrs => ptrs.length < 2 ^ 15 ∧ Val.AllFits ptrs
  | .listPrim _ count _ => count < 2 ^ 28
  | .listPtr items => items.length < 2 ^ 28 ∧ Val.AllFits items
  | .listComp ds ps items => items.length * (ds + ps) < 2 ^ 28 ∧ Val.ItemsFit items
def Val.AllFits : List Val → Prop
  | [] => True
  | v :: vs => v.Fits ∧ Val.AllFits vs
def Val.ItemsFit : List (List UInt8 × List Val) → Prop
  | [] => True
  | (_, vs) :: is => Val.AllFits vs ∧ Val.ItemsFit is
end

mutual
/-- No struct of the tree, the root excepted when it is the root of `Lay`, has
both sections empty (elements of composite lists excepted). -/
def Val.NoEmpty : Val → Prop
  | .null => True
  | .struct data ptrs => (data ≠ [] ∨ ptrs ≠ []) ∧ Val.AllNoEmpty ptrs
  | .listPrim _ _ _ => True
  | .listPtr items => Val.AllNoEmpty items
  | .listComp _ _ items => Val.ItemsNoEmpty items
def Val.AllNoEmpty : List Val → Prop
  | [] => True
  | v :: vs => v.NoEmpty ∧ Val.AllNoEmpty vs
def Val.ItemsNoEmpty : List (List UInt8 × List Val) → Prop
  | [] => True
  | (_, vs) :: is => Val.AllNoEmpty vs ∧ Val.ItemsNoEmpty is
end

/-- The word capnpy writes for a copied empty struct: offset -1, sizes 0. -/
def emptyStructWord : Nat := structWord (-1) 0 0

/-- `Lay ae B pos w v s e`: the pointer word `w` at `pos` denotes `v`, and the
objects of `v` are laid out contiguously, in pre-order, without gaps and without
far pointers, in the bytes `[s, e)` of `B`.  This is the docs' definition of a
*compact* object (capnpy/segment/endof.py:4-17).  With `ae = true` it is
the *canonical* variant of this layout that a copy produces: the padding of lists
is zero, and an empty struct is encoded by the conventional pointer with offset
-1, which takes no room. -/
inductive Lay (ae : Bool) (B : List UInt8) : Nat → Nat → Val → Nat → Nat → Prop
  | null (pos s : Nat) : Lay ae B pos 0 .null s s
  | empty (pos s : Nat) (hae : ae = true) :
      Lay ae B pos emptyStructWord (.struct [] []) s s
  | struct (pos w s e : Nat) (data : List UInt8) (ptrs : List Val) (ends : Nat → Nat)
      (hw : w ≠ 0) (hk : kind w = 0) (ht : target pos w = s)
      (hb : s + 8 * (dataSize w + ptrsSize w) ≤ B.length)
      (hd : data = slice B s (8 * dataSize w))
      (hl : ptrs.length = ptrsSize w)
      (hne : ae = true → 0 < dataSize w + ptrsSize w)
      (h0 : ends 0 = s + 8 * (dataSize w + ptrsSize w)) (he : ends ptrs.length = e)
      (hp : ∀ j v, ptrs[j]? = some v →
        Lay ae B (s + 8 * dataSize w + 8 * j) (wordAt B (s + 8 * dataSize w + 8 * j)) v
          (ends j) (ends (j + 1))) :
      Lay ae B pos w (.struct data ptrs) s e
  | listPrim (pos w s : Nat)
      (hk : kind w = 1) (hg : listTag w ≤ 5) (ht : target pos w = s)
      (hb : s + primLen (listTag w) (listCount w) ≤ B.length)
      (hz : ae = true → ∀ k, primLen (listTag w) (listCount w) ≤ k →
        k < wordAlign (primLen (listTag w) (listCount w)) → B[s + k]? = some 0) :
      Lay ae B pos w (.listPrim (listTag w) (listCount w)
        (slice B s (primLen (listTag w) (listCount w))))
        s (s + wordAlign (primLen (listTag w) (listCount w)))
  | listPtr (pos w s e : Nat) (items : List Val) (ends : Nat → Nat)
      (hk : kind w = 1) (hg : listTag w = 6) (ht : target pos w = s)
      (hb : s + 8 * listCount w ≤ B.length)
      (hl : items.length = listCount w)
      (h0 : ends 0 = s + 8 * listCount w) (he : ends items.length = e)
      (hp : ∀ j v, items[j]? = some v →
        Lay ae B (s + 8 * j) (wordAt B (s + 8 * j)) v (ends j) (ends (j + 1))) :
      Lay ae B pos w (.listPtr items) s e
  | listComp (pos w s e tag ds ps : Nat) (items : List (List UInt8 × List Val))
      (ends : Nat → Nat → Nat)
      (hk : kind w = 1) (hg : listTag w = 7) (ht : target pos w = s)
      (hb : s + 8 + 8 * listCount w ≤ B.length)
      (htag : tag = wordAt B s) (hkt : kind tag = 0)
      (hds : ds = dataSize tag) (hps : ps = ptrsSize tag)
      (hn : offset tag = items.length) (htot : items.length * (ds + ps) = listCount w)
      (h0 : ends 0 0 = s + 8 + 8 * listCount w) (he : ends items.length 0 = e)
      (hstep : ∀ i, ends i ps = ends (i + 1) 0)
      (hi : ∀ (i : Nat) d vs, items[i]? = some (d, vs) →
        d = slice B (s + 8 + i * (8 * (ds + ps))) (8 * ds) ∧ vs.length = ps)
      (hp : ∀ (i : Nat) d vs, items[i]? = some (d, vs) → ∀ (j : Nat) v, vs[j]? = some v →
        Lay ae B (s + 8 + i * (8 * (ds + ps)) + 8 * ds + 8 * j)
          (wordAt B (s + 8 + i * (8 * (ds + ps)) + 8 * ds + 8 * j)) v
          (ends i j) (ends i (j + 1))) :
      Lay ae B pos w (.listComp ds ps items) s e

end Capnpy.Spec
