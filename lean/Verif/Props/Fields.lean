import Verif.Proof.List
import Verif.Props.Copy

/-!
# C08 – C11, C21: reading the fields of a struct
-/

namespace Capnpy.Props

open Capnpy Spec

/-! ## C08: fields beyond the encoded sections -/

/-- C08: a primitive, bool or enum field which starts beyond the encoded data
section reads as its declared default.  This holds for every object, whatever its
buffer contains (also for objects over malformed messages): the buffer is not
read. -/
theorem C08_data_beyond (o : StructObj) (k : Int) (h : o.dataSize * 8 ≤ k) :
    (∀ fmt dflt, o.primField k fmt dflt = .ok dflt) ∧
    (∀ dflt, o.enumField k dflt = .ok dflt) := by
  refine ⟨fun fmt dflt => ?_, fun dflt => ?_⟩
  · unfold StructObj.primField StructObj.readPrimitive
    rw [if_pos h, bind_okP rfl]
    by_cases hd : dflt = 0
    · rw [if_neg (by simpa using hd), hd]; rfl
    · rw [if_pos hd, xor_zero_left]; rfl
  · unfold StructObj.enumField StructObj.readInt16
    rw [if_pos h, bind_okP rfl]
    by_cases hd : dflt = 0
    · rw [if_neg (by simpa using hd), hd]; rfl
    · rw [if_pos hd, xor_zero_left]; rfl

/-- C08 for bools; `slot` is the position in bits. -/
theorem C08_bool_beyond (o : StructObj) (slot : Nat) (dflt : Bool) (h : o.dataSize * 64 ≤ slot) :
    o.boolField slot dflt = .ok dflt := by
  have h' : ((slot / 8 : Nat) : Int) ≥ o.dataSize * 8 := by omega
  have e : o.readBit ((slot / 8 : Nat) : Int) (shl 1 (slot % 8)) = .ok false := by
    unfold StructObj.readBit StructObj.readPrimitive
    rw [if_pos h', bind_okP rfl]
    rw [land_zero_left]; rfl
  unfold StructObj.boolField
  rw [bind_okP e]
  cases dflt <;> rfl

/-- C08: a pointer field beyond the encoded pointer section is null: text, data,
list and struct accessors give `None` and `has_x()` is false.  Again for every
object. -/
theorem C08_ptr_beyond (o : StructObj) (k : Int) (h : o.ptrsSize * 8 ≤ k) :
    o.hasField k = .ok false ∧ o.textField k = .ok none ∧ o.dataField k = .ok none ∧
    o.readStruct k = .ok none ∧ (∀ it, o.readList k it = .ok none) := by
  have e0 : o.readFastPtr k = .ok 0 := by
    unfold StructObj.readFastPtr; rw [if_pos h]
  have e : o.resolve k = .ok (k + o.ptrsOffset, 0) := by
    unfold StructObj.resolve
    rw [bind_okP e0, if_neg (by decide)]; rfl
  refine ⟨?_, ?_, ?_, ?_, fun it => ?_⟩
  · unfold StructObj.hasField; rw [bind_okP e0]; rfl
  · unfold StructObj.textField StructObj.readTextBytes StructObj.readData
    rw [bind_okP e]; rfl
  · unfold StructObj.dataField StructObj.readData
    rw [bind_okP e]; rfl
  · unfold StructObj.readStruct
    rw [bind_okP e]; rfl
  · unfold StructObj.readList
    rw [bind_okP e]; rfl

/-- A struct with one data word and no pointers, read with a newer schema. -/
example : (⟨⟨[1, 2, 3, 4, 5, 6, 7, 8], none⟩, 0, 8, 1, 0⟩ : StructObj).primField 8 .i 42 = .ok 42 ∧
    (⟨⟨[1, 2, 3, 4, 5, 6, 7, 8], none⟩, 0, 8, 1, 0⟩ : StructObj).primField 4 .i 42
      = .ok (Int.xor 0x08070605 42) ∧
    (⟨⟨[1, 2, 3, 4, 5, 6, 7, 8], none⟩, 0, 8, 1, 0⟩ : StructObj).textField 0 = .ok none := by
  decide +kernel

/-! ## C09: field reads depend on the value of the data section only -/

/-- Byte `i` of a section extended with zeros. -/
def byteZ (data : Bytes) (i : Nat) : UInt8 := (data[i]?).getD 0

/-- `n` bytes at `k` of a section extended with zeros. -/
def bytesZ (data : Bytes) (k n : Nat) : Bytes := (List.range n).map fun i => byteZ data (k + i)

theorem bytesZ_inside {data : Bytes} {k n : Nat} (h : k + n ≤ data.length) :
    bytesZ data k n = slice data k n := by
  apply List.ext_getElem?
  intro i
  unfold bytesZ byteZ
  rw [slice_getElem?, List.getElem?_map]
  by_cases hi : i < n
  · rw [if_pos hi, List.getElem?_range hi, List.getElem?_eq_getElem (by omega : k + i < data.length), Option.map_some,
      List.getElem?_eq_getElem (by omega : k + i < data.length)]
    rfl
  · rw [if_neg hi, List.getElem?_eq_none (by simpa using hi)]; rfl

theorem bytesZ_beyond {data : Bytes} {k n : Nat} (h : data.length ≤ k) :
    bytesZ data k n = List.replicate n 0 := by
  apply List.ext_getElem?
  intro i
  unfold bytesZ byteZ
  rw [List.getElem?_map, List.getElem?_replicate]
  by_cases hi : i < n
  · rw [if_pos hi, List.getElem?_range hi]
    simp only [Option.map_some]
    rw [List.getElem?_eq_none (by omega)]; rfl
  · rw [if_neg hi, List.getElem?_eq_none (by simpa using hi)]; rfl

theorem valueOf_zeros (fmt : Fmt) : valueOf fmt (List.replicate fmt.size 0) = 0 := by
  cases fmt <;> decide

theorem readPrimitive_zext {o : StructObj} {data : Bytes} {ptrs : List Val}
    (ho : Denotes o (.struct data ptrs)) {k : Nat} {fmt : Fmt} (hk : fmt.size ∣ k) :
    o.readPrimitive (k : Int) fmt = .ok (valueOf fmt (bytesZ data k fmt.size)) := by
  obtain ⟨h1, h2⟩ := readPrimitive_spec ho k fmt
  have h8 : 8 ∣ data.length := by
    obtain ⟨B, offs, t, ds, ps, data', ptrs', rfl, hta, h8, hds, hps, ⟨hb, hd, hl, hp⟩, hv⟩ := ho
    injection hv with h1 h2
    rw [h1, hd, slice_length_of_le (by omega)]
    exact Nat.dvd_mul_right _ _
  by_cases hc : data.length ≤ k
  · rw [h1 hc, bytesZ_beyond hc, valueOf_zeros]
  · have hle : k + fmt.size ≤ data.length := by
      have hs : fmt.size = 1 ∨ fmt.size = 2 ∨ fmt.size = 4 ∨ fmt.size = 8 := by
        cases fmt <;> simp [Fmt.size]
      rcases hs with hs | hs | hs | hs <;> rw [hs] at hk ⊢ <;> omega
    rw [h2 hle, decode_eq_valueOf _ _ (slice_length_of_le hle), bytesZ_inside hle]

/-- C09: an integer field at an aligned offset reads as the little-endian value
of the zero-extended data section there, XORed with the declared default. -/
theorem C09_prim (o : StructObj) (data : Bytes) (ptrs : List Val) (ho : Denotes o (.struct data ptrs))
    (k : Nat) (fmt : Fmt) (hk : fmt.size ∣ k) (dflt : Int) :
    o.primField k fmt dflt = .ok (Int.xor (valueOf fmt (bytesZ data k fmt.size)) dflt) := by
  unfold StructObj.primField
  rw [bind_okP (readPrimitive_zext ho hk)]
  by_cases hd : dflt = 0
  · rw [if_neg (by simpa using hd), hd, xor_zero_right]; rfl
  · rw [if_pos hd]; rfl

/-- C09 for enums. -/
theorem C09_enum (o : StructObj) (data : Bytes) (ptrs : List Val) (ho : Denotes o (.struct data ptrs))
    (k : Nat) (hk : 2 ∣ k) (dflt : Int) :
    o.enumField k dflt = .ok (Int.xor (valueOf .h (bytesZ data k 2)) dflt) := by
  have := readPrimitive_zext ho (k := k) (fmt := .h) hk
  unfold StructObj.enumField
  rw [bind_okP (show o.readInt16 k = _ from this)]
  by_cases hd : dflt = 0
  · rw [if_neg (by simpa using hd), hd, xor_zero_right]; rfl
  · rw [if_pos hd]; rfl

/-- C09 for bools: bit `slot` of the zero-extended data section, XORed with the
default. -/
theorem C09_bool (o : StructObj) (data : Bytes) (ptrs : List Val) (ho : Denotes o (.struct data ptrs))
    (slot : Nat) (dflt : Bool) :
    o.boolField slot dflt
      = .ok (((byteZ data (slot / 8)).toNat.testBit (slot % 8)) ^^ dflt) := by
  have h := readPrimitive_zext ho (k := slot / 8) (fmt := .B) (one_dvd _)
  have e : o.readBit ((slot / 8 : Nat) : Int) (shl 1 (slot % 8))
      = .ok ((byteZ data (slot / 8)).toNat.testBit (slot % 8)) := by
    unfold StructObj.readBit
    rw [bind_okP h]
    refine congrArg Except.ok ?_
    rw [land_bit]
    have : valueOf .B (bytesZ data (slot / 8) (Fmt.size .B)) = ((byteZ data (slot / 8)).toNat : Int) := by
      simp [valueOf, isSigned, bytesZ, Fmt.size, leNat]
    rw [this]; rfl
  unfold StructObj.boolField
  rw [bind_okP e]
  cases dflt <;> simp [pure, Except.pure]

/-- C09: two objects whose data sections agree up to trailing zero words, wherever
they live, read identically. -/
theorem C09_same_value (o o' : StructObj) (data data' : Bytes) (ptrs ptrs' : List Val)
    (ho : Denotes o (.struct data ptrs)) (ho' : Denotes o' (.struct data' ptrs'))
    (heq : ∀ i, byteZ data i = byteZ data' i) :
    (∀ (k : Nat) (fmt : Fmt) dflt, fmt.size ∣ k → o.primField k fmt dflt = o'.primField k fmt dflt) ∧
    (∀ (k : Nat) dflt, 2 ∣ k → o.enumField k dflt = o'.enumField k dflt) ∧
    (∀ slot dflt, o.boolField slot dflt = o'.boolField slot dflt) := by
  have hb : ∀ k n, bytesZ data k n = bytesZ data' k n := by
    intro k n; unfold bytesZ; simp [heq]
  refine ⟨fun k fmt dflt hk => ?_, fun k dflt hk => ?_, fun slot dflt => ?_⟩
  · rw [C09_prim o _ _ ho k fmt hk, C09_prim o' _ _ ho' k fmt hk, hb]
  · rw [C09_enum o _ _ ho k hk, C09_enum o' _ _ ho' k hk, hb]
  · rw [C09_bool o _ _ ho, C09_bool o' _ _ ho', heq]

/-- The struct at byte 0 of an 8-byte buffer, and a copy of it with a longer data
section at byte 8 of a buffer with garbage before it. -/
def shortObj : StructObj := objAt [7, 0, 0, 0, 0, 0, 0, 0x80] none 0 1 0
def longObj : StructObj :=
  objAt ([9, 9, 9, 9, 9, 9, 9, 9] ++ [7, 0, 0, 0, 0, 0, 0, 0x80] ++ List.replicate 8 0) none 8 2 0

theorem shortObj_denotes : Denotes shortObj (.struct [7, 0, 0, 0, 0, 0, 0, 0x80] []) := by
  refine ⟨_, none, 0, 1, 0, _, _, rfl, ?_, by decide, by decide, by decide, ⟨by decide, by decide, rfl, ?_⟩, rfl⟩
  · intro tbl h; cases h
  · intro j v h; cases h

theorem longObj_denotes :
    Denotes longObj (.struct ([7, 0, 0, 0, 0, 0, 0, 0x80] ++ List.replicate 8 0) []) := by
  refine ⟨_, none, 8, 2, 0, _, _, rfl, ?_, by decide, by decide, by decide, ⟨by decide, by decide, rfl, ?_⟩, rfl⟩
  · intro tbl h; cases h
  · intro j v h; cases h

example : shortObj.primField 8 .i 5 = longObj.primField 8 .i 5 :=
  (C09_same_value _ _ _ _ _ _ shortObj_denotes longObj_denotes (by
    intro i
    unfold byteZ
    by_cases h : i < 8
    · rw [List.getElem?_append_left (by simpa using h)]
    · rw [List.getElem?_append_right (by simp; omega), List.getElem?_eq_none (by simp; omega),
        List.getElem?_replicate]
      split <;> rfl)).1 8 .i 5 (by decide)

/-! ## C10: pointer fields -/

/-- The value in pointer slot `j`; slots beyond the section are null. -/
def child (ptrs : List Val) (j : Nat) : Val := (ptrs[j]?).getD .null

theorem child_null {ptrs : List Val} {j : Nat} (h : child ptrs j = .null) :
    ptrs[j]? = some .null ∨ ptrs[j]? = none := by
  unfold child at h
  cases hp : ptrs[j]? with
  | none => exact .inr rfl
  | some v => rw [hp] at h; left; rw [show v = .null from h]

theorem child_some {ptrs : List Val} {j : Nat} (h : child ptrs j ≠ .null) :
    ptrs[j]? = some (child ptrs j) := by
  unfold child at h ⊢
  cases hp : ptrs[j]? with
  | none => rw [hp] at h; exact absurd rfl h
  | some v => rfl

/-- C10: a struct field returns an object that denotes exactly the child struct,
also through far pointers; `None` for null; it raises on anything else. -/
theorem C10_struct (o : StructObj) (data : Bytes) (ptrs : List Val) (ho : Denotes o (.struct data ptrs))
    (j : Nat) :
    (child ptrs j = .null → o.readStruct ((8 * j : Nat) : Int) = .ok none) ∧
    (∀ d p, child ptrs j = .struct d p →
      ∃ o', o.readStruct ((8 * j : Nat) : Int) = .ok (some o') ∧ Denotes o' (.struct d p)) ∧
    (child ptrs j ≠ .null → (∀ d p, child ptrs j ≠ .struct d p) →
      o.readStruct ((8 * j : Nat) : Int) = .error .assertionError) := by
  refine ⟨fun h => readStruct_null ho (child_null h), fun d p h => ?_, fun h h' => ?_⟩
  · have hs := child_some (ptrs := ptrs) (j := j) (by rw [h]; simp)
    rw [h] at hs
    obtain ⟨o', h1, _, h2⟩ := readStruct_struct ho hs
    exact ⟨o', h1, h2⟩
  · exact readStruct_list ho (child_some h) h h'

/-- C10: a list field returns a list object that denotes exactly the child list. -/
theorem C10_list (o : StructObj) (data : Bytes) (ptrs : List Val) (ho : Denotes o (.struct data ptrs))
    (j : Nat) (it : ItemType) :
    (child ptrs j = .null → o.readList ((8 * j : Nat) : Int) it = .ok none) ∧
    (child ptrs j ≠ .null → (∀ d p, child ptrs j ≠ .struct d p) →
      ∃ l, o.readList ((8 * j : Nat) : Int) it = .ok (some l) ∧ l.itemType = it ∧
        ListDenotes l (child ptrs j)) ∧
    (∀ d p, child ptrs j = .struct d p →
      o.readList ((8 * j : Nat) : Int) it = .error .assertionError) := by
  refine ⟨fun h => readList_null ho (child_null h) it none, fun h h' => ?_, fun d p h => ?_⟩
  · obtain ⟨l, h1, _, h2, h3⟩ := readList_list ho (child_some h) h h' it none
    exact ⟨l, h1, h2, h3⟩
  · have hs := child_some (ptrs := ptrs) (j := j) (by rw [h]; simp)
    rw [h] at hs
    exact readList_struct ho hs it none

/-- C10: data and text fields return exactly the bytes of the child; a text
without its trailing zero byte. -/
theorem C10_data (o : StructObj) (data : Bytes) (ptrs : List Val) (ho : Denotes o (.struct data ptrs))
    (j : Nat) :
    (child ptrs j = .null → o.dataField ((8 * j : Nat) : Int) = .ok none ∧
      o.textField ((8 * j : Nat) : Int) = .ok none) ∧
    (∀ n bs, child ptrs j = .listPrim 2 n bs → bs.length = n ∧
      o.dataField ((8 * j : Nat) : Int) = .ok (some bs)) ∧
    (∀ s : Bytes, child ptrs j = .listPrim 2 (s.length + 1) (s ++ [0]) →
      o.textField ((8 * j : Nat) : Int) = .ok (some s)) := by
  refine ⟨fun h => ⟨readData_null ho (child_null h) _ _, readData_null ho (child_null h) _ _⟩,
    fun n bs h => ?_, fun s h => ?_⟩
  · have hs := child_some (ptrs := ptrs) (j := j) (by rw [h]; simp)
    rw [h] at hs
    obtain ⟨h1, _, h3⟩ := readData_bytes ho hs none
    exact ⟨h3, h1⟩
  · have hs := child_some (ptrs := ptrs) (j := j) (by rw [h]; simp)
    rw [h] at hs
    obtain ⟨_, h2, _⟩ := readData_bytes ho hs none
    have := h2 (by omega)
    simpa [StructObj.textField] using this

/-- The sample struct of Props/Copy.lean: slot 0 holds an empty struct, slot 1
three bytes, slot 2 is beyond the section. -/
example : (∃ o', sampleObj.readStruct 0 = .ok (some o') ∧ Denotes o' (.struct [] [])) ∧
    sampleObj.dataField 8 = .ok (some [1, 2, 3]) ∧ sampleObj.dataField 16 = .ok none :=
  ⟨(C10_struct _ _ _ sample_denotes 0).2.1 [] [] rfl,
   ((C10_data _ _ _ sample_denotes 1).2.1 3 [1, 2, 3] rfl).2,
   ((C10_data _ _ _ sample_denotes 2).1 rfl).1⟩

/-! ## C11: has_x, get_x and x -/

/-- C11: `has_x()` is true exactly when the field is not null. -/
theorem C11_has (o : StructObj) (data : Bytes) (ptrs : List Val) (ho : Denotes o (.struct data ptrs))
    (j : Nat) : ∃ b, o.hasField ((8 * j : Nat) : Int) = .ok b ∧ (b = true ↔ child ptrs j ≠ .null) := by
  obtain ⟨B, offs, t, ds, ps, data', ptrs', rfl, hta, h8, hds, hps, hob, hv⟩ := ho
  injection hv with h1 h2
  subst h1 h2
  unfold StructObj.hasField
  cases hj : ptrs[j]? with
  | none =>
    have hl : ps ≤ j := by rw [← hob.2.2.1]; exact List.getElem?_eq_none_iff.mp hj
    have e : (objAt B offs t ds ps).readFastPtr ((8 * j : Nat) : Int) = .ok 0 := by
      unfold StructObj.readFastPtr objAt; simp only; rw [if_pos (by omega)]
    refine ⟨false, by rw [bind_okP e]; rfl, ?_⟩
    simp [child, hj]
  | some v =>
    have hjl := getElem?_lt hj
    obtain ⟨hb, hd, hl, hp⟩ := hob
    have e : (objAt B offs t ds ps).readFastPtr ((8 * j : Nat) : Int)
        = .ok (signed64 (wordAt B (t + 8 * ds + 8 * j))) := by
      unfold StructObj.readFastPtr objAt
      simp only
      rw [if_neg (by omega), show (((t + 8 * ds : Nat) : Int) + ((8 * j : Nat) : Int))
        = ((t + 8 * ds + 8 * j : Nat) : Int) by push_cast; ring, readPtr_at (by omega)]
    refine ⟨decide (signed64 (wordAt B (t + 8 * ds + 8 * j)) ≠ 0), by rw [bind_okP e]; rfl, ?_⟩
    have hden := hp j v hj
    have hch : child ptrs j = v := by simp [child, hj]
    rw [hch, decide_eq_true_iff, Ne, signed64_eq_zero (wordAt_lt _ _)]
    constructor
    · intro h hv
      subst hv
      exact h (den_null_word hden)
    · intro h h0
      rw [h0] at hden
      exact h (den_zero hden)

/-- C11: when `has_x()` is false, `x` is `None`, for every object. -/
theorem C11_not_has (o : StructObj) (k : Int) (h : o.hasField k = .ok false) :
    o.textField k = .ok none ∧ o.dataField k = .ok none ∧ o.readStruct k = .ok none ∧
    ∀ it, o.readList k it = .ok none := by
  have e0 : o.readFastPtr k = .ok 0 := by
    unfold StructObj.hasField at h
    cases hp : o.readFastPtr k with
    | error e => rw [hp] at h; cases h
    | ok p =>
      rw [bind_okP hp] at h
      simp only [pure, Except.pure, Except.ok.injEq, decide_eq_false_iff_not, ne_eq, not_not] at h
      rw [h]
  have e : o.resolve k = .ok (k + o.ptrsOffset, 0) := by
    unfold StructObj.resolve
    rw [bind_okP e0, if_neg (by decide)]; rfl
  refine ⟨?_, ?_, ?_, fun it => ?_⟩
  · unfold StructObj.textField StructObj.readTextBytes StructObj.readData
    rw [bind_okP e]; rfl
  · unfold StructObj.dataField StructObj.readData
    rw [bind_okP e]; rfl
  · unfold StructObj.readStruct
    rw [bind_okP e]; rfl
  · unfold StructObj.readList
    rw [bind_okP e]; rfl

/-- C11: `get_x()` is `x` with `None` replaced by the empty text, the empty data,
the empty struct or the empty list; errors are the same.  For every object.  In
particular it is never `None`. -/
theorem C11_get (o : StructObj) (k : Int) :
    (o.getText k = match o.textField k with | .ok none => .ok (some []) | r => r) ∧
    (o.getData k = match o.dataField k with | .ok none => .ok (some []) | r => r) ∧
    (∀ o', o.readStruct k = .ok (some o') → o.getStruct k = .ok o') ∧
    (o.readStruct k = .ok none →
      ∃ o', o.getStruct k = .ok o' ∧ Denotes o' (.struct [] [])) ∧
    (∀ e, o.readStruct k = .error e → o.getStruct k = .error e) ∧
    (∀ it l, o.readList k it = .ok (some l) → o.getList k it = .ok l) ∧
    (∀ it, o.readList k it = .ok none →
      ∃ l, o.getList k it = .ok l ∧ l.len = 0 ∧ l.toList = .ok []) ∧
    (∀ it e, o.readList k it = .error e → o.getList k it = .error e) := by
  have key : ∀ add, o.readData k (some []) add
      = match o.readData k none add with | .ok none => .ok (some []) | r => r := by
    intro add
    unfold StructObj.readData
    cases o.resolve k with
    | error e => rfl
    | ok r =>
      obtain ⟨q, p⟩ := r
      change o.seg.readStr p q (some []) add
        = match o.seg.readStr p q none add with | .ok none => .ok (some []) | r => r
      unfold Seg.readStr
      by_cases h0 : p = 0
      · simp only [if_pos h0]
      · simp only [if_neg h0]
        by_cases h1 : Ptr.kind p = Ptr.LIST
        · rw [if_neg (not_not.mpr h1)]
          by_cases h2 : Ptr.listSizeTag p = Ptr.LIST_SIZE_8
          · rw [if_neg (not_not.mpr h2)]
          · rw [if_pos h2]
        · rw [if_pos h1]
  refine ⟨key _, key _, ?_, ?_, ?_, ?_, ?_, ?_⟩
  · intro o' h; unfold StructObj.getStruct; rw [bind_okP h]; rfl
  · intro h
    refine ⟨objAt [] none 0 0 0, ?_, ?_⟩
    · unfold StructObj.getStruct; rw [bind_okP h]; rfl
    · refine ⟨[], none, 0, 0, 0, [], [], rfl, ?_, by decide, by decide, by decide,
        ⟨by decide, by decide, rfl, ?_⟩, rfl⟩
      · intro tbl h; cases h
      · intro j v h; cases h
  · intro e h; unfold StructObj.getStruct; rw [h]; rfl
  · intro it l h; unfold StructObj.getList; rw [bind_okP h]; rfl
  · intro it h
    refine ⟨⟨⟨[], none⟩, 0, it, 0, -1, 0, 0, 0⟩, ?_, rfl, rfl⟩
    unfold StructObj.getList; rw [bind_okP h]; rfl
  · intro it e h; unfold StructObj.getList; rw [h]; rfl

/-- C11: when `has_x()` is true for a text field that holds a text, `get_x()` and
`x` are both that text. -/
theorem C11_has_text (o : StructObj) (data : Bytes) (ptrs : List Val)
    (ho : Denotes o (.struct data ptrs)) (j : Nat) (s : Bytes)
    (h : child ptrs j = .listPrim 2 (s.length + 1) (s ++ [0])) :
    o.hasField ((8 * j : Nat) : Int) = .ok true ∧ o.textField ((8 * j : Nat) : Int) = .ok (some s) ∧
    o.getText ((8 * j : Nat) : Int) = .ok (some s) := by
  obtain ⟨b, h1, h2⟩ := C11_has o data ptrs ho j
  have hb : b = true := h2.mpr (by rw [h]; simp)
  have ht := (C10_data o data ptrs ho j).2.2 s h
  refine ⟨by rw [h1, hb], ht, ?_⟩
  rw [(C11_get o _).1, ht]

/-- C11 needs well-formed messages: a far pointer whose landing pad is null makes
`has_x()` true although `x` is `None`. -/
theorem C11_null_landing_pad :
    let o : StructObj := ⟨⟨[0x0a, 0, 0, 0, 0, 0, 0, 0] ++ List.replicate 8 0, some [0]⟩, 0, 0, 0, 1⟩
    o.hasField 0 = .ok true ∧ o.textField 0 = .ok none ∧ o.readStruct 0 = .ok none := by
  decide +kernel

/-! ## C21: far pointers are transparent -/

/-- The pointer stored at byte `pos` leads, directly or through far pointers, to
the object at byte `t`, described by `d`: the kind and the upper 32 bits of an
ordinary pointer. -/
inductive LeadsTo (B : Bytes) (offs : Option (List Nat)) (pos : Nat) (t : Int) (d : Nat × Nat) : Prop
  | near (hb : pos + 8 ≤ B.length) (h0 : wordAt B pos ≠ 0) (hk : kind (wordAt B pos) < 2)
      (ht : target pos (wordAt B pos) = t) (hd : d = (kind (wordAt B pos), wordAt B pos / 2 ^ 32))
  | far (pad st : Nat) (tbl : List Nat) (hb : pos + 8 ≤ B.length) (hk : kind (wordAt B pos) = 2)
      (hf : farPad (wordAt B pos) = 0) (htbl : offs = some tbl)
      (hst : tbl[farTarget (wordAt B pos)]? = some st)
      (hpad : pad = st + 8 * farOffset (wordAt B pos)) (hpb : pad + 8 ≤ B.length)
      (h0 : wordAt B pad ≠ 0) (hpk : kind (wordAt B pad) < 2)
      (ht : target pad (wordAt B pad) = t) (hd : d = (kind (wordAt B pad), wordAt B pad / 2 ^ 32))
  | far2 (pad st st2 : Nat) (tbl : List Nat) (hb : pos + 8 ≤ B.length) (hk : kind (wordAt B pos) = 2)
      (hf : farPad (wordAt B pos) = 1) (htbl : offs = some tbl)
      (hst : tbl[farTarget (wordAt B pos)]? = some st)
      (hpad : pad = st + 8 * farOffset (wordAt B pos)) (hpb : pad + 16 ≤ B.length)
      (hfk : kind (wordAt B pad) = 2) (hff : farPad (wordAt B pad) = 0)
      (hst2 : tbl[farTarget (wordAt B pad)]? = some st2)
      (h0 : wordAt B (pad + 8) ≠ 0) (htk : kind (wordAt B (pad + 8)) < 2)
      (hto : offset (wordAt B (pad + 8)) = 0)
      (ht : ((st2 + 8 * farOffset (wordAt B pad) : Nat) : Int) = t)
      (hd : d = (kind (wordAt B (pad + 8)), wordAt B (pad + 8) / 2 ^ 32))

/-- What a resolved pointer is used for: its kind, sizes and target. -/
theorem leadsTo_resolved {B : Bytes} {offs : Option (List Nat)} {pos : Nat} {t : Int} {d : Nat × Nat}
    (h : LeadsTo B offs pos t d) :
    ∃ (q : Int) (w : Nat), (do
        let p ← (Seg.of B offs).readPtr (pos : Int)
        if Ptr.kind p = Ptr.FAR then (Seg.of B offs).readFarPtr (pos : Int)
        else pure ((pos : Int), p) : Py (Int × Int)) = .ok (q, signed64 w) ∧
      w < 2 ^ 64 ∧ w ≠ 0 ∧ kind w = d.1 ∧ w / 2 ^ 32 = d.2 ∧ target q w = t ∧ pos + 8 ≤ B.length := by
  have hm := fun pos => signed64_mod _ (wordAt_lt B pos)
  cases h with
  | near hb h0 hk ht hd =>
    refine ⟨pos, wordAt B pos, ?_, wordAt_lt _ _, h0, by rw [hd], by rw [hd], ht, hb⟩
    rw [bind_okP (readPtr_at hb), Ptr.kind_spec (hm _), if_neg (by unfold Ptr.FAR; omega)]; rfl
  | far pad st tbl hb hk hf htbl hst hpad hpb h0 hpk ht hd =>
    subst htbl
    refine ⟨pad, wordAt B pad, ?_, wordAt_lt _ _, h0, by rw [hd], by rw [hd], ht, hb⟩
    rw [bind_okP (readPtr_at hb), Ptr.kind_spec (hm _), if_pos (by unfold Ptr.FAR; omega)]
    exact readFarPtr_single hb hf hst hpad hpb
  | far2 pad st st2 tbl hb hk hf htbl hst hpad hpb hfk hff hst2 h0 htk hto ht hd =>
    subst htbl
    refine ⟨((st2 + 8 * farOffset (wordAt B pad) : Nat) : Int) - 8, wordAt B (pad + 8), ?_,
      wordAt_lt _ _, h0, by rw [hd], by rw [hd], ?_, hb⟩
    · rw [bind_okP (readPtr_at hb), Ptr.kind_spec (hm _), if_pos (by unfold Ptr.FAR; omega)]
      exact readFarPtr_double hb hf hst hpad hpb hfk hff hst2 hto
    · unfold target; rw [hto]; omega

/-- C21: the accessors give the same result for two slots of (the same or
different) structs of a message which lead to the same object, whether directly,
through a one-word or through a two-word landing pad; the object itself need not
be well-formed. -/
theorem C21_far_transparent (B : Bytes) (offs : Option (List Nat)) (t1 ds1 ps1 j1 t2 ds2 ps2 j2 : Nat)
    (t : Int) (d : Nat × Nat) (hj1 : j1 < ps1) (hj2 : j2 < ps2)
    (h1 : LeadsTo B offs (t1 + 8 * ds1 + 8 * j1) t d)
    (h2 : LeadsTo B offs (t2 + 8 * ds2 + 8 * j2) t d) :
    let o1 := objAt B offs t1 ds1 ps1
    let o2 := objAt B offs t2 ds2 ps2
    let k1 : Int := ((8 * j1 : Nat) : Int)
    let k2 : Int := ((8 * j2 : Nat) : Int)
    o1.readStruct k1 = o2.readStruct k2 ∧ o1.textField k1 = o2.textField k2 ∧
    o1.dataField k1 = o2.dataField k2 ∧ (∀ it, o1.readList k1 it = o2.readList k2 it) ∧
    o1.hasField k1 = .ok true ∧ o2.hasField k2 = .ok true := by
  have res : ∀ (t' ds ps j : Nat), j < ps → LeadsTo B offs (t' + 8 * ds + 8 * j) t d →
      (∃ (q : Int) (w : Nat), (objAt B offs t' ds ps).resolve ((8 * j : Nat) : Int) = .ok (q, signed64 w) ∧
        w < 2 ^ 64 ∧ w ≠ 0 ∧ kind w = d.1 ∧ w / 2 ^ 32 = d.2 ∧ target q w = t) ∧
      (objAt B offs t' ds ps).hasField ((8 * j : Nat) : Int) = .ok true := by
    intro t' ds ps j hj h
    obtain ⟨q, w, r1, r2, r3, r4, r5, r6, hb⟩ := leadsTo_resolved h
    have e : (((t' + 8 * ds : Nat) : Int) + ((8 * j : Nat) : Int))
        = ((t' + 8 * ds + 8 * j : Nat) : Int) := by push_cast; ring
    constructor
    · refine ⟨q, w, ?_, r2, r3, r4, r5, r6⟩
      rw [← r1]
      unfold StructObj.resolve StructObj.readFastPtr StructObj.readFarPtr objAt
      simp only
      rw [if_neg (by omega), if_neg (by omega), e, Int.add_comm ((8 * j : Nat) : Int), e]
    · have hf : (objAt B offs t' ds ps).readFastPtr ((8 * j : Nat) : Int)
          = .ok (signed64 (wordAt B (t' + 8 * ds + 8 * j))) := by
        unfold StructObj.readFastPtr objAt
        simp only
        rw [if_neg (by omega), e, readPtr_at hb]
      have hne : wordAt B (t' + 8 * ds + 8 * j) ≠ 0 := by
        cases h with
        | near _ h0 => exact h0
        | far _ _ _ _ hk => intro h0; rw [h0] at hk; simp [kind] at hk
        | far2 _ _ _ _ _ hk => intro h0; rw [h0] at hk; simp [kind] at hk
      unfold StructObj.hasField
      rw [bind_okP hf]
      simp only [pure, Except.pure]
      rw [decide_eq_true (signed64_ne_zero (wordAt_lt _ _) hne)]
  obtain ⟨⟨q1, w1, a1, a2, a3, a4, a5, a6⟩, g1⟩ := res t1 ds1 ps1 j1 hj1 h1
  obtain ⟨⟨q2, w2, b1, b2, b3, b4, b5, b6⟩, g2⟩ := res t2 ds2 ps2 j2 hj2 h2
  have m1 := signed64_mod _ a2
  have m2 := signed64_mod _ b2
  have hk : kind w1 = kind w2 := by rw [a4, b4]
  have hu : w1 / 2 ^ 32 = w2 / 2 ^ 32 := by rw [a5, b5]
  have hds : dataSize w1 = dataSize w2 := by unfold dataSize; rw [hu]
  have hps : ptrsSize w1 = ptrsSize w2 := by unfold ptrsSize; omega
  have htg : listTag w1 = listTag w2 := by unfold listTag; rw [hu]
  have hct : listCount w1 = listCount w2 := by unfold listCount; omega
  have hdr : Ptr.deref (signed64 w1) q1 = Ptr.deref (signed64 w2) q2 := by
    rw [deref_spec m1, deref_spec m2, a6, b6]
  have n1 := signed64_ne_zero a2 a3
  have n2 := signed64_ne_zero b2 b3
  have hstr : ∀ add, (objAt B offs t1 ds1 ps1).readData ((8 * j1 : Nat) : Int) none add
      = (objAt B offs t2 ds2 ps2).readData ((8 * j2 : Nat) : Int) none add := by
    intro add
    unfold StructObj.readData
    rw [bind_okP a1, bind_okP b1]
    change (Seg.of B offs).readStr _ _ _ _ = (Seg.of B offs).readStr _ _ _ _
    unfold Seg.readStr
    rw [if_neg n1, if_neg n2, Ptr.kind_spec m1, Ptr.kind_spec m2, hk, Ptr.listTag_spec m1,
      Ptr.listTag_spec m2, htg, hdr, Ptr.listCount_spec m1, Ptr.listCount_spec m2, hct]
  refine ⟨?_, hstr _, hstr _, fun it => ?_, g1, g2⟩
  · unfold StructObj.readStruct
    rw [bind_okP a1, bind_okP b1]
    simp only
    rw [if_neg n1, if_neg n2]
    unfold StructObj.initFromPointer
    rw [Ptr.kind_spec m1, Ptr.kind_spec m2, hk, Ptr.dataSize_spec m1, Ptr.dataSize_spec m2, hds,
      Ptr.ptrsSize_spec m1, Ptr.ptrsSize_spec m2, hps, hdr]
    rfl
  · unfold StructObj.readList
    rw [bind_okP a1, bind_okP b1]
    simp only
    rw [if_neg n1, if_neg n2, Ptr.kind_spec m1, Ptr.kind_spec m2, hk, Ptr.listTag_spec m1,
      Ptr.listTag_spec m2, htg, hdr, Ptr.listCount_spec m1, Ptr.listCount_spec m2, hct]
    rfl

/-- Two segments; slot 0 of the struct in the first one holds a far pointer to a
landing pad in the second, slot 1 an ordinary pointer to the same text. -/
def farBuf : Bytes :=
  [0x02, 0, 0, 0, 1, 0, 0, 0] ++ [0x05, 0, 0, 0, 0x1a, 0, 0, 0] ++
  [0x01, 0, 0, 0, 0x1a, 0, 0, 0] ++ [0x68, 0x69, 0, 0, 0, 0, 0, 0]

theorem farBuf_leads : LeadsTo farBuf (some [0, 16]) (0 + 8 * 0 + 8 * 0) 24 (1, 0x1a) ∧
    LeadsTo farBuf (some [0, 16]) (0 + 8 * 0 + 8 * 1) 24 (1, 0x1a) :=
  ⟨.far 16 16 [0, 16] (by decide +kernel) (by decide +kernel) (by decide +kernel) rfl (by decide +kernel)
    (by decide +kernel) (by decide +kernel) (by decide +kernel) (by decide +kernel) (by decide +kernel)
    (by decide +kernel),
   .near (by decide +kernel) (by decide +kernel) (by decide +kernel) (by decide +kernel)
    (by decide +kernel)⟩

example : (objAt farBuf (some [0, 16]) 0 0 2).textField 0 = .ok (some [0x68, 0x69]) ∧
    (objAt farBuf (some [0, 16]) 0 0 2).textField 8 = .ok (some [0x68, 0x69]) := by decide +kernel

end Capnpy.Props
