import Verif.Proof.Canon
import Verif.Proof.Strict

/-!
# C12 - C16: deep copy, compact(), the compactness check

`Denotes o v` (Spec/Object.lean): the object `o` holds the value `v`.
`Den B offs pos w v` (Spec/Value.lean): the pointer word `w` stored at `pos`
denotes `v`.

The hypotheses `Val.Fits`, buffer length at most `2^32` and the recursion budget
are the limits of the implementation: fewer than `2^15` pointers per struct and
`2^28` elements per list (a larger one makes the pointer word a negative int64,
which the pure-Python `write_int64` rejects), 30-bit pointer offsets, and the
depth of the Python stack.
-/

namespace Capnpy.Props

open Capnpy Spec

/-- A sample buffer: a root pointer, a struct of one data word and two pointers:
an empty struct and a list of three bytes. -/
def sampleBuf : Bytes :=
  leBytes 8 (structWord 0 1 2) ++ leBytes 8 77 ++ leBytes 8 emptyStructWord
    ++ leBytes 8 (listWord 0 2 3) ++ [1, 2, 3, 0, 0, 0, 0, 0]

/-- Its value. -/
def sampleVal : Val := .struct (leBytes 8 77) [.struct [] [], .listPrim 2 3 [1, 2, 3]]

/-- The sample object (with a non-null segment table, as in a message of two
segments). -/
def sampleObj : StructObj := objAt sampleBuf (some [0, 40]) 8 1 2

theorem sample_denotes : Denotes sampleObj sampleVal := by
  refine ⟨sampleBuf, some [0, 40], 8, 1, 2, leBytes 8 77, [.struct [] [], .listPrim 2 3 [1, 2, 3]],
    rfl, ?_, by norm_num, by norm_num, by norm_num, ⟨by decide, by decide, rfl, ?_⟩, rfl⟩
  · intro tbl h; cases h; decide
  · intro j v hj
    match j, hj with
    | 0, hj =>
      cases hj
      refine .struct _ _ 16 [] [] (by decide) (by decide) (by decide) (by decide) (by decide) (by decide) ?_
      intro j v h; simp at h
    | 1, hj =>
      cases hj
      have h := Den.listPrim (B := sampleBuf) (offs := some [0, 40]) ((8 + 8 * 1 + 8 * 1 : Nat) : Int)
        (wordAt sampleBuf (8 + 8 * 1 + 8 * 1)) 32 (by decide) (by decide) (by decide) (by decide)
      have h1 : listTag (wordAt sampleBuf (8 + 8 * 1 + 8 * 1)) = 2 := by decide
      have h2 : listCount (wordAt sampleBuf (8 + 8 * 1 + 8 * 1)) = 3 := by decide
      rw [h1, h2] at h
      exact h
    | j + 2, hj => simp at hj

/-! ## C12 -/

/-- C12: `copy_from_struct` (used by constructors, `compact()` and `dumps()`)
makes the destination pointer denote exactly the value of the source object,
whatever the source message (single or multi segment, far pointers, overlapping
or shared objects, garbage between objects) and whatever is in the builder. -/
theorem C12_copy_struct {o : StructObj} {v : Val} (ho : Denotes o v) (hf : v.Fits)
    (hlen : o.seg.buf.length ≤ 2 ^ 32) {fuel : Nat} (hfuel : 2 * v.depth ≤ fuel + 1)
    {b : Bytes} {dst : Nat} (h1 : dst + 8 ≤ b.length) (h2 : 8 ∣ dst) (h3 : 8 ∣ b.length)
    (h4 : b.length + v.size ≤ 2 ^ 32) :
    ∃ b', copyFromStruct fuel dst (some o) b = .ok () b' ∧
      Den b' none (dst : Int) (wordAt b' dst) v := by
  obtain ⟨b', hb', post⟩ := copyFromStruct_spec ho hf hlen hfuel h1 h2 h3 h4
  have hl := post.len
  refine ⟨b', hb', Lay.den none (by omega) (post.lay b' (le_refl _) (fun _ _ _ => rfl))⟩

/-- C12 for any pointer word (structs and lists of any kind, reached through a
far pointer or not): `copy_pointer`. -/
theorem C12_copy_pointer {B : Bytes} {offs : Option (List Nat)} {o : Int} {w : Nat} {v : Val}
    (hden : Den B offs o w v) (hw : w ≠ 0) (hw64 : w < 2 ^ 64) (hf : v.Fits) {fuel : Nat}
    (hfuel : 2 * v.depth ≤ fuel) {b : Bytes} {dst : Nat} (h1 : dst + 8 ≤ b.length)
    (h2 : 8 ∣ dst) (h3 : 8 ∣ b.length) (h4 : b.length + v.size ≤ 2 ^ 32) :
    ∃ b', copyPointer (Seg.of B offs) fuel (signed64 w) o dst b = .ok () b' ∧
      Den b' none (dst : Int) (wordAt b' dst) v := by
  obtain ⟨b', hb', post⟩ := copyPointer_spec hden fuel (signed64 w) hw hf
    (by unfold copyFuel; split <;> omega) (signed64_mod w hw64) b dst h1 h2 h3 h4
  have hl := post.len
  exact ⟨b', hb', Lay.den none (by omega) (post.lay b' (le_refl _) (fun _ _ _ => rfl))⟩

/-- C12: copying `None` makes the destination null. -/
theorem C12_copy_none {fuel : Nat} {b : Bytes} {dst : Nat} (h1 : dst + 8 ≤ b.length) :
    ∃ b', copyFromStruct fuel dst none b = .ok () b' ∧ wordAt b' dst = 0 ∧
      b'.length = b.length ∧ ∀ i, ¬ (dst ≤ i ∧ i < dst + 8) → b'[i]? = b[i]? := by
  have h8 : (leBytes 8 0).length = 8 := leBytes_length _ _
  refine ⟨_, writeInt64_nat (v := 0) (by norm_num) h1, wordAt_overwrite (by norm_num) h1,
    overwrite_length (by omega), ?_⟩
  intro i hi
  rw [overwrite_getElem? (by omega), h8]
  split
  · rfl
  · rw [if_neg (by omega)]

example : ∃ b', copyFromStruct 5 8 (some sampleObj) (List.replicate 24 7) = .ok () b' ∧
    Den b' none (8 : Nat) (wordAt b' 8) sampleVal :=
  C12_copy_struct (dst := 8) sample_denotes (by simp [sampleVal, Val.Fits, Val.AllFits])
    (by decide) (by decide) (by decide) (by decide) (by decide) (by decide)

/-! ## C13 -/

/-- C13: a deep copy changes in the builder only the 8 bytes of the destination
pointer, and appends. -/
theorem C13_copy_frame {o : StructObj} {v : Val} (ho : Denotes o v) (hf : v.Fits)
    (hlen : o.seg.buf.length ≤ 2 ^ 32) {fuel : Nat} (hfuel : 2 * v.depth ≤ fuel + 1)
    {b b' : Bytes} {dst : Nat} (h1 : dst + 8 ≤ b.length) (h2 : 8 ∣ dst) (h3 : 8 ∣ b.length)
    (h4 : b.length + v.size ≤ 2 ^ 32) (hrun : copyFromStruct fuel dst (some o) b = .ok () b') :
    b.length ≤ b'.length ∧ ∀ i, i < b.length → ¬ (dst ≤ i ∧ i < dst + 8) → b'[i]? = b[i]? := by
  obtain ⟨b'', hb'', post⟩ := copyFromStruct_spec ho hf hlen hfuel h1 h2 h3 h4
  rw [hrun] at hb''
  cases hb''
  have := post.len
  exact ⟨by omega, post.frame⟩

/-- C13: consequently a value which is already in the builder, not using the
destination slot, keeps its meaning: here for contiguous objects. -/
theorem C13_copy_keeps {o : StructObj} {v : Val} (ho : Denotes o v) (hf : v.Fits)
    (hlen : o.seg.buf.length ≤ 2 ^ 32) {fuel : Nat} (hfuel : 2 * v.depth ≤ fuel + 1)
    {b b' : Bytes} {dst : Nat} (h1 : dst + 8 ≤ b.length) (h2 : 8 ∣ dst) (h3 : 8 ∣ b.length)
    (h4 : b.length + v.size ≤ 2 ^ 32) (hrun : copyFromStruct fuel dst (some o) b = .ok () b')
    {ae : Bool} {pos s e : Nat} {u : Val} (hu : Lay ae b pos (wordAt b pos) u s e) (he : e ≤ b.length)
    (hpos : pos + 8 ≤ b.length) (hd1 : pos + 8 ≤ dst ∨ dst + 8 ≤ pos)
    (hd2 : e ≤ dst ∨ dst + 8 ≤ s) :
    Den b' none (pos : Int) (wordAt b' pos) u := by
  obtain ⟨hl, hfr⟩ := C13_copy_frame ho hf hlen hfuel h1 h2 h3 h4 hrun
  have hw : wordAt b' pos = wordAt b pos := by
    apply wordAt_congr
    intro k hk
    exact hfr _ (by omega) (by omega)
  rw [hw]
  refine Lay.den none (by omega) (lay_shift (a := 0) (b := 0) hu pos s e rfl rfl rfl (by omega) ?_)
  intro x x' hx hx1 hx2
  obtain rfl : x = x' := by omega
  exact hfr _ (by omega) (by omega)

example : ∀ b', copyFromStruct 5 8 (some sampleObj) (List.replicate 24 7) = .ok () b' →
    b'[0]? = some 7 ∧ b'[16]? = some 7 := by
  intro b' h
  have := (C13_copy_frame (dst := 8) sample_denotes (by simp [sampleVal, Val.Fits, Val.AllFits])
    (by decide) (by decide) (by decide) (by decide) (by decide) (by decide) h).2
  exact ⟨this 0 (by decide) (by decide), this 16 (by decide) (by decide)⟩

/-! ## C14 -/

/-- C14: `compact()` succeeds, its result denotes the same value, and its buffer
takes exactly the 8 bytes of the root pointer plus the size of the value. -/
theorem C14_compact {o : StructObj} {v : Val} (ho : Denotes o v) (hf : v.Fits)
    (hlen : o.seg.buf.length ≤ 2 ^ 32) (hsz : 8 + v.size ≤ 2 ^ 32)
    {fuel : Nat} (hfuel : 2 * v.depth ≤ fuel + 1) :
    ∃ o', o.compact fuel = .ok o' ∧ Denotes o' v ∧ o'.seg.buf.length = 8 + v.size := by
  obtain ⟨B0, offs0, t0, ds0, ps0, data, ptrs, -, -, -, -, -, -, rfl⟩ := id ho
  obtain ⟨B, ds, ps, -, -, h1, h2, -, h4, h5, h6, -, -⟩ := compact_spec ho hf hlen hsz hfuel
  exact ⟨_, h1, ⟨B, none, 8, ds, ps, data, ptrs, rfl, (by intro t h; cases h), by norm_num, h4, h5, h6, rfl⟩, h2⟩

/-- C14: `compact()` is canonical: it depends only on the value.  Two objects
with the same value, in whatever messages, give byte-for-byte the same buffer. -/
theorem C14_compact_canonical {o₁ o₂ : StructObj} {v : Val} (h₁ : Denotes o₁ v) (h₂ : Denotes o₂ v)
    (hf : v.Fits) (hlen₁ : o₁.seg.buf.length ≤ 2 ^ 32) (hlen₂ : o₂.seg.buf.length ≤ 2 ^ 32)
    (hsz : 8 + v.size ≤ 2 ^ 32) {fuel : Nat} (hfuel : 2 * v.depth ≤ fuel + 1) :
    o₁.compact fuel = o₂.compact fuel := by
  obtain ⟨_, _, _, _, _, data, ptrs, -, -, -, -, -, -, rfl⟩ := id h₁
  obtain ⟨B, ds, ps, a1, a2, b1, c1, -, -, -, -, -, l1⟩ := compact_spec h₁ hf hlen₁ hsz hfuel
  obtain ⟨B', ds', ps', a1', a2', b1', c1', -, -, -, -, -, l1'⟩ := compact_spec h₂ hf hlen₂ hsz hfuel
  obtain ⟨d1, d2⟩ := denotes_data_length h₁
  obtain ⟨d1', d2'⟩ := denotes_data_length h₂
  obtain rfl : ds = ds' := by omega
  obtain rfl : ps = ps' := by omega
  obtain ⟨u1, u2, u3⟩ := lay_unique l1 (wordAt_lt _ _) B' _ _ (wordAt_lt _ _) l1'
  have hw := bytes_of_wordAt (B := B) (B' := B') (p := 0) (by omega) (by omega) u1
  have : B = B' := by
    apply List.ext_getElem?
    intro i
    by_cases hi : i < 8
    · exact hw i (by omega) (by omega)
    · by_cases hi' : i < B.length
      · exact u3 i (by omega) hi'
      · rw [List.getElem?_eq_none (by omega), List.getElem?_eq_none (by omega)]
  rw [b1, b1', this]

example : ∃ o', sampleObj.compact 5 = .ok o' ∧ Denotes o' sampleVal ∧ o'.seg.buf.length = 40 := by
  have := C14_compact sample_denotes (by simp [sampleVal, Val.Fits, Val.AllFits])
    (by decide) (by decide) (fuel := 5) (by decide)
  exact this

/-! ## C15 -/

/-- C15: the result of `compact()` is recognised as compact exactly when no struct
below the root is empty (zero data words and zero pointers).  (The documentation
claims it always is: see `C15_compact_not_compact`.) -/
theorem C15_compact_is_compact_iff {o : StructObj} {data : Bytes} {ptrs : List Val}
    (ho : Denotes o (.struct data ptrs))
    (hf : (Val.struct data ptrs).Fits) (hlen : o.seg.buf.length ≤ 2 ^ 32)
    (hsz : 8 + (Val.struct data ptrs).size ≤ 2 ^ 32)
    {fuel : Nat} (hfuel : 2 * (Val.struct data ptrs).depth ≤ fuel + 1)
    {fuel' : Nat} (hfuel' : (Val.struct data ptrs).depth ≤ fuel') :
    ∃ o' r, o.compact fuel = .ok o' ∧ o'.isCompact fuel' = .ok r ∧
      (r = true ↔ Val.AllNoEmpty ptrs) := by
  obtain ⟨B, ds, ps, -, -, h1, h2, -, h4, h5, h6, h7, -⟩ := compact_spec ho hf hlen hsz hfuel
  obtain ⟨r, hr, hc⟩ := getEnd_spec (offs := none) (by norm_num) h4 h5 h6 hfuel'
  refine ⟨_, decide (r ≠ -1), h1, ?_, ?_⟩
  · unfold StructObj.isCompact
    rw [hr]
    change Except.ok _ = _
    refine congrArg _ ?_
    simp
  unfold ObjLay at h7
  obtain ⟨ends, e0, e1, e2⟩ := ends_of_ptrsLay h7
  constructor
  · intro hne
    rcases hc with ⟨rfl, hno⟩ | ⟨e, rfl, hlay⟩
    · simp at hne
    · unfold ObjLay at hlay
      obtain ⟨ends', e0', e1', e2'⟩ := ends_of_ptrsLay hlay
      have hends := chain_eq (ends := ends) (ends' := ends')
        (f := fun j => (ptrs[j]?.map Val.size).getD 0) ptrs.length (by omega)
        (by intro j hj; obtain ⟨v, hv⟩ := get_of_lt hj; rw [lay_size (e2 j v hv), hv]; rfl)
        (by intro j hj; obtain ⟨v, hv⟩ := get_of_lt hj; rw [lay_size (e2' j v hv), hv]; rfl)
      have hm := chain_mono (ends := ends) ptrs.length (by
        intro j hj; obtain ⟨v, hv⟩ := get_of_lt hj; have := lay_size (e2 j v hv); omega)
      refine Val.allNoEmpty_of fun j v hj => ?_
      have hjl := getElem?_lt hj
      have hpl := h6.2.2.1
      have := hm j (by omega)
      have q := e2' j v hj
      rw [← hends j (by omega)] at q
      exact lay_noEmpty (e2 j v hj) (by omega) _ q
  · intro hne
    have hlay : ObjLay false B 8 ds ps ptrs B.length := by
      unfold ObjLay
      have := ptrsLay_of_ends (ae := false) ends
        (fun j v hj => lay_strict (e2 j v hj) (Val.allNoEmpty_get hne hj))
      rw [e0, e1] at this
      exact this
    rcases hc with ⟨-, hno⟩ | ⟨e, rfl, -⟩
    · exact absurd hlay (hno _)
    · simp

example : ∃ o' r, sampleObj.compact 5 = .ok o' ∧ o'.isCompact 5 = .ok r ∧
    (r = true ↔ Val.AllNoEmpty [.struct [] [], .listPrim 2 3 [1, 2, 3]]) :=
  C15_compact_is_compact_iff sample_denotes (by simp [Val.Fits, Val.AllFits])
    (by decide) (by decide) (by decide) (by decide)

/-- Finding (C15 is false): `compact()` of a struct with an empty-struct child is
not recognised as compact, although the documentation guarantees it. -/
theorem C15_compact_not_compact :
    ∃ (o o' : StructObj) (v : Val), Denotes o v ∧ o.compact 5 = .ok o' ∧
      o'.isCompact 5 = .ok false := by
  refine ⟨sampleObj, objAt (leBytes 8 (structWord 0 1 2) ++ leBytes 8 77
      ++ leBytes 8 emptyStructWord ++ leBytes 8 (listWord 0 2 3) ++ [1, 2, 3, 0, 0, 0, 0, 0])
      none 8 1 2, sampleVal, sample_denotes, ?_, ?_⟩
  · decide +kernel
  · decide +kernel

/-! ## C16 -/

/-- C16: for every well-formed object, `_get_end()` returns -1 exactly when the
object is not laid out contiguously in pre-order without far pointers; otherwise
it returns the end of this layout, and the object takes exactly the bytes from
its start to that end. -/
theorem C16_get_end {B : Bytes} {offs : Option (List Nat)} {t ds ps : Nat} {data : Bytes}
    {ptrs : List Val} (h8 : 8 ∣ t) (hds : ds < 2 ^ 16) (hps : ps < 2 ^ 16)
    (ho : ObjDen B offs t ds ps data ptrs) {fuel : Nat}
    (hfuel : (Val.struct data ptrs).depth ≤ fuel) :
    ∃ r, (objAt B offs t ds ps).getEnd fuel = .ok r ∧
      (r = -1 ↔ ¬ ∃ e, CompactAt B t ds ps ptrs e) ∧
      (∀ e : Nat, r = e ↔ CompactAt B t ds ps ptrs e) ∧
      (∀ e : Nat, r = e → e = t + (Val.struct data ptrs).size) := by
  have hiff : ∀ e, ObjLay false B t ds ps ptrs e ↔ CompactAt B t ds ps ptrs e := by
    intro e
    unfold ObjLay CompactAt
    constructor
    · exact ends_of_ptrsLay
    · rintro ⟨ends, h0, h1, h2⟩
      have := ptrsLay_of_ends ends h2
      rw [h0, h1] at this
      exact this
  have hsize : ∀ e, CompactAt B t ds ps ptrs e → e = t + (Val.struct data ptrs).size := by
    rintro e ⟨ends, h0, h1, h2⟩
    have hdl : data.length = 8 * ds := by rw [ho.2.1]; exact slice_length_of_le (by have := ho.1; omega)
    have hpl := ho.2.2.1
    have : ∀ k, k ≤ ptrs.length → ends k = ends 0 + Val.sizes (ptrs.take k) := by
      intro k
      induction k with
      | zero => intro _; simp [Val.sizes]
      | succ k ih =>
        intro hk
        obtain ⟨v, hv⟩ := get_of_lt (show k < ptrs.length by omega)
        rw [Val.sizes_take hv, lay_size (h2 k v hv), ih (by omega)]; omega
    have := this _ (le_refl _)
    rw [List.take_length] at this
    simp only [Val.size]; omega
  obtain ⟨r, hr, hc⟩ := getEnd_spec h8 hds hps ho hfuel
  refine ⟨r, hr, ?_, ?_, ?_⟩
  · rcases hc with ⟨rfl, hno⟩ | ⟨e, rfl, hl⟩
    · refine ⟨fun _ => ?_, fun _ => rfl⟩
      rintro ⟨e, he⟩
      exact hno e ((hiff e).mpr he)
    · refine ⟨fun h => by omega, fun h => absurd ⟨e, (hiff e).mp hl⟩ h⟩
  · intro e
    rcases hc with ⟨rfl, hno⟩ | ⟨e', rfl, hl⟩
    · exact ⟨fun h => by omega, fun h => absurd ((hiff e).mpr h) (hno e)⟩
    · constructor
      · intro h
        obtain rfl : e' = e := by omega
        exact (hiff e').mp hl
      · intro h
        have h1 := hsize e h
        have h2 := hsize e' ((hiff e').mp hl)
        omega
  · intro e he
    rcases hc with ⟨rfl, hno⟩ | ⟨e', rfl, hl⟩
    · omega
    · obtain rfl : e' = e := by omega
      exact hsize e' ((hiff e').mp hl)

/-- Both outcomes occur. -/
example : (objAt sampleBuf none 8 1 2).getEnd 5 = .ok (-1) ∧
    (objAt [1, 0, 0, 0, 0x1a, 0, 0, 0, 9, 9, 0, 0, 0, 0, 0, 0] none 0 0 1).getEnd 5 = .ok 16 := by
  decide +kernel

end Capnpy.Props
