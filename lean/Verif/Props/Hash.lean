import Verif.Proof.Key
import Verif.Model.HashStr

/-!
# C33, C34, C40, C48: hashing
-/

namespace Capnpy.Props

open Capnpy Spec Hash Key

/-! ## C33: integer hashes -/

/-- C33: for every C `long`, `inthash(v)` is Python's `hash(v)`. -/
theorem C33_inthash (v : Int) (h1 : -2 ^ 63 ≤ v) (h2 : v < 2 ^ 63) :
    (inthash3 (BitVec.ofInt 64 v)).toInt = pyIntHash v := by
  have e : (BitVec.ofInt 64 v).toInt = v :=
    BitVec.toInt_ofInt_eq_self (by omega) (by simpa using h1) (by simpa using h2)
  rw [inthash3_eq, e]

/-- C33: for every C `unsigned long`, `longhash(v)` is Python's `hash(v)`. -/
theorem C33_longhash (v : Nat) (h : v < 2 ^ 64) :
    (longhash3 (BitVec.ofNat 64 v)).toInt = pyIntHash v := by
  rw [longhash3_eq, BitVec.toNat_ofNat, Nat.mod_eq_of_lt h]

/-- The compiled hashes never return -1, which CPython reserves for errors. -/
theorem C33_never_minus_one (v : BitVec 64) :
    (inthash3 v).toInt ≠ -1 ∧ (longhash3 v).toInt ≠ -1 := by
  have key : ∀ x, pyIntHash x ≠ -1 := by
    intro x h
    have : ∀ y : Int, (if y = -1 then (-2 : Int) else y) ≠ -1 := by
      intro y; by_cases hy : y = -1
      · rw [if_pos hy]; decide
      · rw [if_neg hy]; exact hy
    exact this _ h
  exact ⟨by rw [inthash3_eq]; exact key _, by rw [longhash3_eq]; exact key _⟩

/-- The boundary values: the minimum, -1, the modulus and its neighbours. -/
example : (inthash3 (BitVec.ofInt 64 (-9223372036854775808))).toInt = -4 ∧
    (inthash3 (BitVec.ofInt 64 (-1))).toInt = -2 ∧
    (inthash3 (BitVec.ofInt 64 2305843009213693951)).toInt = 0 ∧
    (inthash3 (BitVec.ofInt 64 (-2305843009213693952))).toInt = -2 ∧
    (longhash3 18446744073709551615#64).toInt = 7 := by decide +kernel

/-- C33, Python 2: `hash(v) = v` except for `-1`. -/
theorem C33_inthash_py2 (v : Int) (h1 : -2 ^ 63 ≤ v) (h2 : v < 2 ^ 63) :
    (inthash2 (BitVec.ofInt 64 v)).toInt = if v = -1 then -2 else v := by
  have e : (BitVec.ofInt 64 v).toInt = v :=
    BitVec.toInt_ofInt_eq_self (by omega) (by simpa using h1) (by simpa using h2)
  unfold inthash2
  by_cases h : v = -1
  · subst h; decide
  · rw [if_neg h, if_neg, e]
    intro h3
    apply h
    rw [← e, h3]; decide

/-- C33, Python 2: the hash of an unsigned number is the number as a signed one. -/
theorem C33_longhash_py2 (v : Nat) (h : v < 2 ^ 64) :
    (longhash2 (BitVec.ofNat 64 v)).toInt =
      if v = 2 ^ 64 - 1 then -2 else if v < 2 ^ 63 then (v : Int) else v - 2 ^ 64 := by
  unfold longhash2 inthash2
  by_cases h1 : v = 2 ^ 64 - 1
  · subst h1; decide
  · rw [if_neg h1, if_neg]
    · rw [BitVec.toInt_eq_toNat_cond, BitVec.toNat_ofNat, Nat.mod_eq_of_lt h]
      split <;> split <;> omega
    · intro h2
      have h3 := congrArg BitVec.toNat h2
      rw [BitVec.toNat_ofNat] at h3
      have e : (BitVec.ofInt 64 (-1)).toNat = 2 ^ 64 - 1 := by decide
      omega

/-! ## C48: tuple hashes -/

/-- C48: `tuplehash` computes the hash of a tuple from the hashes of its items, for every
number of items (Python ≥ 3.8). -/
theorem C48_tuplehash (hs : List (BitVec 64)) (h : ∀ x ∈ hs, x.toInt ≠ -1) :
    (tuplehash hs).toNat = pyTupleHash (hs.map BitVec.toNat) ∧ (tuplehash hs).toInt ≠ -1 := by
  have h' : ∀ x ∈ hs, x ≠ BitVec.ofInt 64 (-1) := by
    intro x hx e
    exact h x hx (by rw [e]; decide)
  have e := tuplehash_spec hs h'
  constructor
  · rw [e, BitVec.toNat_ofNat]
    apply Nat.mod_eq_of_lt
    unfold pyTupleHash
    simp only
    split <;> omega
  · intro h2
    rw [e] at h2
    refine pyTupleHash_ne (hs.map BitVec.toNat) (BitVec.eq_of_toInt_eq ?_)
    rw [h2]
    decide

/-- Before Python 3.8. -/
theorem C48_tuplehash_old (hs : List (BitVec 64)) :
    (tuplehashOld hs).toNat = pyTupleHashOld (hs.map BitVec.toNat) :=
  tuplehashOld_spec hs

/-- If the hash of an item is -1 (an exception), so is the one of the tuple. -/
theorem C48_error (hs : List (BitVec 64)) (h : BitVec.ofInt 64 (-1) ∈ hs) : (tuplehash hs).toInt = -1 := by
  rw [tuplehash_minus_one hs h]; decide

/-- What CPython 3.11 prints for `hash(())`, `hash((1, 2, 3))` and `hash((-2, 5))`, and CPython
2.7 for `hash(())` and `hash((1, 2))`. -/
example : (tuplehash []).toInt = 5740354900026072187 ∧ (tuplehash [1, 2, 3]).toInt = 529344067295497451 ∧
    (tuplehash [-2, 5]).toInt = 7913930892179122687 ∧ (tuplehashOld []).toInt = 3527539 ∧
    (tuplehashOld [1, 2]).toInt = 3713081631934410656 := by decide +kernel

/-! ## C40: string hashes -/

theorem pySlice_in_range {a : Bytes} {start size : Int} (h1 : 0 ≤ start) (h2 : 0 ≤ size)
    (h3 : start + size ≤ a.length) :
    pySlice a start (start + size) = (a.drop start.toNat).take size.toNat := by
  unfold pySlice pyClamp
  rw [if_neg (by omega), if_neg (by omega), Nat.min_eq_left (by omega), Nat.min_eq_left (by omega)]
  congr 1
  omega

/-- C40: for a range inside the buffer, `strhash(buf, start, size)` is
`hash(buf[start:start+size])`.  `hashBytes` is Python's hash of byte strings; the
only thing used about it is that it maps `b''` to 0. -/
theorem C40_strhash (hashBytes : Bytes → Int) (h0 : hashBytes [] = 0) (buf : Bytes)
    (start size : Int) (h1 : 0 ≤ start) (h2 : 0 ≤ size) (h3 : start + size ≤ buf.length) :
    strhash3 hashBytes buf start size = some (hashBytes (pySlice buf start (start + size))) := by
  rw [pySlice_in_range h1 h2 h3]
  unfold strhash3
  by_cases hz : start ≥ buf.length ∨ size = 0
  · have : size = 0 := by omega
    rw [if_pos hz]
    simp [h0, this]
  · simp only [hz, if_false]
    rw [if_neg (by omega)]
    unfold region
    rw [if_pos ⟨h1, h2, h3⟩]; rfl

/-- C40 holds also when the start is past the end, or when the size is larger than
the whole buffer: Python's slice stops at the end of the buffer. -/
theorem C40_strhash_clamped (hashBytes : Bytes → Int) (h0 : hashBytes [] = 0) (buf : Bytes)
    (start size : Int) (h1 : 0 ≤ start) (h2 : 0 ≤ size)
    (h3 : buf.length ≤ start ∨ (buf.length : Int) < size) :
    strhash3 hashBytes buf start size = some (hashBytes (pySlice buf start (start + size))) := by
  by_cases hs : (buf.length : Int) ≤ start
  · unfold strhash3
    rw [if_pos (by omega)]
    have : pySlice buf start (start + size) = [] := by
      have hc : pyClamp buf.length start = buf.length := by unfold pyClamp; split <;> omega
      unfold pySlice
      rw [hc]
      simp
    rw [this, h0]
  · have h4 : (buf.length : Int) < size := by omega
    unfold strhash3
    simp only
    rw [if_neg (by omega), if_pos (by omega)]
    unfold region
    rw [if_pos (by omega)]
    have : pySlice buf start (start + size) = buf.drop start.toNat := by
      have hc : pyClamp buf.length start = start.toNat := by unfold pyClamp; split <;> omega
      have hc2 : pyClamp buf.length (start + size) = buf.length := by unfold pyClamp; split <;> omega
      unfold pySlice
      rw [hc, hc2]
      apply List.take_of_length_le
      simp
    rw [this, List.take_of_length_le (by simp; omega)]
    rfl

/-- The in-range case is inhabited by a proper middle slice. -/
example : strhash3 (fun b => b.length * 100 + (b.headD 0).toNat) [5, 6, 7, 8] 1 2 = some 206 := by
  decide +kernel

/-- Finding: the compiled `strhash` clamps only when the size exceeds the length of
the whole buffer.  A range which starts inside and ends after the end of the buffer
is read from memory outside the buffer. -/
theorem C40_out_of_range_overread (hashBytes : Bytes → Int) (buf : Bytes) (start size : Int)
    (h2 : start < buf.length) (h3 : size ≤ buf.length)
    (h4 : buf.length < start + size) : strhash3 hashBytes buf start size = none := by
  unfold strhash3
  simp only
  rw [if_neg (by omega), if_neg (by omega)]
  unfold region
  rw [if_neg (by omega)]; rfl

/-- The hypotheses of the finding are met by `strhash(b'abc', 2, 3)`. -/
example : strhash3 (fun _ => 0) [97, 98, 99] 2 3 = none := by decide +kernel

/-- C40, Python 2: the compiled loop is the hash of the slice computed by CPython 2.7
(`hash2`, which is 0 on the empty string and the multiply-xor fold elsewhere). -/
theorem C40_strhash_py2 (pre suf : CLong) (buf : Bytes) (start size : Int)
    (h1 : 0 ≤ start) (h2 : 0 < size) (h3 : start + size ≤ buf.length) :
    ∃ s, s = pySlice buf start (start + size) ∧
      let x := s.foldl (fun x c => (1000003#64 * x) ^^^ BitVec.ofNat 64 c.toNat)
        (pre ^^^ (BitVec.ofNat 64 (s.headD 0).toNat <<< 7))
      let x := x ^^^ BitVec.ofNat 64 size.toNat ^^^ suf
      strhash2 pre suf buf start size =
        some (if x = BitVec.ofInt 64 (-1) then BitVec.ofInt 64 (-2) else x) := by
  refine ⟨_, rfl, ?_⟩
  have hloop : ∀ (s : Bytes) (x : CLong), strhash2Loop x s =
      s.foldl (fun x c => (1000003#64 * x) ^^^ BitVec.ofNat 64 c.toNat) x := by
    intro s
    induction s with
    | nil => intro x; rfl
    | cons c s ih => intro x; simp only [strhash2Loop, List.foldl_cons, ih]
  have hl : (pySlice buf start (start + size)).length = size.toNat := by
    rw [pySlice_in_range h1 (by omega) h3]; simp; omega
  simp only
  unfold strhash2
  simp only
  rw [if_neg (by omega), if_neg (by omega)]
  unfold region
  rw [if_pos ⟨h1, by omega, h3⟩, ← pySlice_in_range h1 (by omega) h3]
  simp only [Option.map_some, strhash2Body, hloop, hl]

/-- C40: hashing a text or data field without creating it (`_hash_text_bytes`,
`_hash_data`) gives the hash of what reading it returns, in pure Python mode: for
every pointer word and every buffer. -/
theorem C40_hash_str (hashBytes : Bytes → Int) (s : Seg) (p offset d k : Int) :
    s.hashStrPy hashBytes p offset d k =
      (match s.readStr p offset none k with
       | .error e => .error e
       | .ok none => .ok d
       | .ok (some b) => .ok (hashBytes b)) := by
  unfold Seg.hashStrPy Seg.readStr strhashPy
  by_cases h1 : p = 0
  · simp [h1]
  · rw [if_neg h1, if_neg h1]
    by_cases h2 : ¬ Ptr.kind p = Ptr.LIST
    · rw [if_pos h2, if_pos h2]
    · rw [if_neg h2, if_neg h2]
      by_cases h3 : ¬ Ptr.listSizeTag p = Ptr.LIST_SIZE_8
      · rw [if_pos h3, if_pos h3]
      · rw [if_neg h3, if_neg h3]
        simp only [add_assoc]

/-- C40: the same in compiled mode, when the text or data is inside the buffer. -/
theorem C40_hash_str_pyx (hashBytes : Bytes → Int) (h0 : hashBytes [] = 0) (s : Seg)
    (p offset d k : Int) (h1 : 0 ≤ Ptr.deref p offset) (h2 : 0 ≤ Ptr.listItemCount p + k)
    (h3 : Ptr.deref p offset + (Ptr.listItemCount p + k) ≤ s.buf.length) :
    s.hashStrPyx hashBytes p offset d k = some (s.hashStrPy hashBytes p offset d k) := by
  unfold Seg.hashStrPyx Seg.hashStrPy strhashPy
  by_cases h1 : p = 0
  · simp [h1]
  · rw [if_neg h1, if_neg h1]
    by_cases h2 : ¬ Ptr.kind p = Ptr.LIST
    · rw [if_pos h2, if_pos h2]
    · rw [if_neg h2, if_neg h2]
      by_cases h3 : ¬ Ptr.listSizeTag p = Ptr.LIST_SIZE_8
      · rw [if_pos h3, if_pos h3]
      · rw [if_neg h3, if_neg h3]
        simp only
        rw [C40_strhash hashBytes h0 _ _ _ (by assumption) (by assumption) (by assumption)]
        rfl

/-- Finding: the text whose pointer says "list of 0 bytes" (every valid text has at
least the trailing zero) has size -1, and the compiled hash then reads a region of
negative length. -/
theorem C40_empty_text_overread (hashBytes : Bytes → Int) :
    (Seg.mk (List.replicate 16 0) none).hashStrPyx hashBytes (2 * 2 ^ 32 + 1) 0 0 (-1) = none := by
  unfold Seg.hashStrPyx
  rw [if_neg (by decide +kernel), if_neg (by decide +kernel), if_neg (by decide +kernel)]
  have e1 : Ptr.deref (2 * 2 ^ 32 + 1) 0 = 8 := by decide +kernel
  have e2 : Ptr.listItemCount (2 * 2 ^ 32 + 1) = 0 := by decide +kernel
  rw [e1, e2]
  rfl

/-! ## C34: keyed structs -/

/-- C34: `a == b` never raises on comparable values, and it is true exactly when the
two values have the same meaning, a struct meaning the tuple of its key fields. -/
theorem C34_eq_iff_same_key (fuel : Nat) (a b : PyObj) (ha : Comparable a) (hb : Comparable b)
    (h1 : 5 * objDepth a ≤ fuel) (h2 : 5 * objDepth b ≤ fuel) :
    ∃ r, pyEq fuel a b = .ok r ∧ (r = true ↔ denote a = denote b) :=
  pyEq_spec fuel a b ha hb h1 h2

/-- C34: a struct equals exactly the tuples of values equal to its key fields. -/
theorem C34_eq_tuple (fuel : Nat) (k xs : List PyObj) (ha : Comparables k) (hb : Comparables xs)
    (h1 : 5 * (objDepths k + 1) ≤ fuel) (h2 : 5 * (objDepths xs + 1) ≤ fuel) :
    ∃ r, pyEq fuel (.keyed k) (.tuple xs) = .ok r ∧ pyEq fuel (.tuple xs) (.keyed k) = .ok r ∧
      (r = true ↔ xs.map denote = k.map denote) := by
  obtain ⟨r, e, hr⟩ := pyEq_spec fuel (.keyed k) (.tuple xs) (by simpa [Comparable]) (by simpa [Comparable])
    (by simpa [objDepth]) (by simpa [objDepth])
  obtain ⟨r2, e2, hr2⟩ := pyEq_spec fuel (.tuple xs) (.keyed k) (by simpa [Comparable]) (by simpa [Comparable])
    (by simpa [objDepth]) (by simpa [objDepth])
  simp only [denote, KeyVal.tuple.injEq, denotes_eq_map] at hr hr2
  have : r2 = r := by
    have : (r2 = true ↔ r = true) := by rw [hr, hr2]; exact eq_comm
    cases r <;> cases r2 <;> simp_all
  subst this
  exact ⟨r2, e, e2, hr2⟩

/-- C34: equality of comparable values is an equivalence relation. -/
theorem C34_equivalence (fuel : Nat) (a b c : PyObj)
    (ha : Comparable a) (hb : Comparable b) (hc : Comparable c)
    (h1 : 5 * objDepth a ≤ fuel) (h2 : 5 * objDepth b ≤ fuel) (h3 : 5 * objDepth c ≤ fuel) :
    pyEq fuel a a = .ok true ∧
    pyEq fuel a b = pyEq fuel b a ∧
    (pyEq fuel a b = .ok true → pyEq fuel b c = .ok true → pyEq fuel a c = .ok true) := by
  refine ⟨?_, ?_, ?_⟩
  · obtain ⟨r, e, hr⟩ := pyEq_spec fuel a a ha ha h1 h1
    rw [e, hr.2 rfl]
  · obtain ⟨r, e, hr⟩ := pyEq_spec fuel a b ha hb h1 h2
    obtain ⟨r2, e2, hr2⟩ := pyEq_spec fuel b a hb ha h2 h1
    have : (r2 = true ↔ r = true) := by rw [hr, hr2]; exact eq_comm
    rw [e, e2]
    cases r <;> cases r2 <;> simp_all
  · intro h4 h5
    obtain ⟨r, e, hr⟩ := pyEq_spec fuel a b ha hb h1 h2
    obtain ⟨r2, e2, hr2⟩ := pyEq_spec fuel b c hb hc h2 h3
    obtain ⟨r3, e3, hr3⟩ := pyEq_spec fuel a c ha hc h1 h3
    rw [h4] at e; rw [h5] at e2
    injection e with e; injection e2 with e2
    subst e; subst e2
    rw [e3, hr3.2 ((hr.1 rfl).trans (hr2.1 rfl))]

/-- C34: equal values have equal hashes, whatever the hash functions of `None`, bytes
and str are; in particular `hash(s) == hash((s.x, s.y, ...))`. -/
theorem C34_hash_respects_eq (E : HashEnv) (fuel : Nat) (a b : PyObj)
    (ha : Comparable a) (hb : Comparable b)
    (h1 : 5 * objDepth a ≤ fuel) (h2 : 5 * objDepth b ≤ fuel) (h : pyEq fuel a b = .ok true) :
    ∃ x, pyHash E a = .ok x ∧ pyHash E b = .ok x := by
  obtain ⟨r, e, hr⟩ := pyEq_spec fuel a b ha hb h1 h2
  rw [h] at e
  injection e with e
  subst e
  exact ⟨_, pyHash_denote E a ha, by rw [hr.1 rfl]; exact pyHash_denote E b hb⟩

/-- C34: in compiled mode the specialised `__hash__` of a struct is the hash of the
tuple of its key fields, if no text_unicode key field is null. -/
theorem C34_fast_hash (E : HashEnv) (hE : E.Valid) (fs : List KeyField) (h : ∀ f ∈ fs, f.Ok) :
    fastHash E fs = pyHash E (.tuple (fs.map KeyField.value)) := by
  unfold fastHash
  rw [fastHashes_eq E fs h, pyHash]
  cases e : pyHashes E (fs.map KeyField.value) with
  | error _ => rfl
  | ok hs =>
    show Except.ok (tuplehash hs) = Except.ok _
    rw [tuplehash_spec hs (pyHashes_ne E hE _ hs e)]

/-- An interpreter. -/
example : HashEnv.Valid ⟨0xfca86420#64, fun _ => 0#64, fun _ => 0#64⟩ :=
  have h : 0#64 ≠ BitVec.ofInt 64 (-1) := by decide
  ⟨by decide, fun _ => h, fun _ => h⟩

/-- Structs meeting the hypotheses: nested keys, equal struct and tuple, and a
difference deep inside. -/
example : pyEq 30 (.keyed [.int 1, .keyed [.bytes [1], .none]])
      (.tuple [.int 1, .tuple [.bytes [1], .none]]) = .ok true ∧
    pyEq 30 (.keyed [.int 1, .keyed [.bytes [1], .none]])
      (.keyed [.int 1, .keyed [.bytes [1], .int 0]]) = .ok false := by
  constructor <;> simp [pyEq, structEquals, tupleEq, getKey]

example : (KeyField.smallInt (-1)).Ok ∧ (KeyField.uint64 18446744073709551615).Ok := by
  constructor <;> constructor <;> norm_num

/-- Comparing or hashing a struct without `$Py.key` raises TypeError. -/
theorem C34_unkeyed_raises (E : HashEnv) (fuel : Nat) (xs : List PyObj) :
    pyEq (fuel + 2) .unkeyed (.tuple xs) = .error .typeError ∧
    pyEq (fuel + 2) .unkeyed .unkeyed = .error .typeError ∧
    pyHash E .unkeyed = .error .typeError := by
  refine ⟨?_, ?_, ?_⟩ <;> simp [pyEq, structEquals, getKey, pyHash]

/-- Finding: in compiled mode a null text_unicode key field is hashed as the empty
string although the key contains `None`.  The struct equals the tuple `(None,)` but
their hashes differ (here with the hash `None` has since Python 3.12, and 0 for the
empty string). -/
theorem C34_null_unicode_hash : ∃ (E : HashEnv) (fs : List KeyField),
    pyEq 10 (.keyed (fs.map KeyField.value)) (.tuple [.none]) = .ok true ∧
    fastHash E fs ≠ pyHash E (.tuple [.none]) :=
  ⟨⟨0xfca86420#64, fun _ => 0#64, fun _ => 0#64⟩, [.textUnicode .none],
    by simp [pyEq, structEquals, tupleEq, getKey, KeyField.value], by
      have h1 : fastHash ⟨0xfca86420#64, fun _ => 0#64, fun _ => 0#64⟩ [.textUnicode .none]
          = .ok (tuplehash [0#64]) := by
        simp [fastHash, fastHashes, KeyField.fastHash, bind, Except.bind, pure, Except.pure]
      have h2 : pyHash ⟨0xfca86420#64, fun _ => 0#64, fun _ => 0#64⟩ (.tuple [.none])
          = .ok (BitVec.ofNat 64 (pyTupleHash [0xfca86420])) := by
        simp [pyHash, pyHashes, bind, Except.bind, pure, Except.pure]
      rw [h1, h2]
      decide +kernel⟩

end Capnpy.Props
