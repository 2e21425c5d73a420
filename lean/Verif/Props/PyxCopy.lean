import Verif.Proof.PyxCopy
import Verif.Props.Copy
import Verif.Props.Message

/-!
# C45: deep copies with the compiled builder

With the C extensions a deep copy runs on a builder whose memory is a C array, and the
source is read without the checks of Python.  `Repr s b` (Props/Builder.lean): the compiled
builder `s` holds the bytes `b` and its unused capacity is zero, which is so for every
builder made by the public methods (C06).

`NoneBefore` (Spec/Reach.lean) says that no pointer which can be reached leads to before
the start of the buffer; nothing else is assumed about the source in the first theorems.
-/

namespace Capnpy.Props

open Spec Pyx

/-- C45: on any source in which no reachable pointer leads to before the start, whenever
the pure version returns, the compiled version returns, never accesses memory out of bounds,
and leaves the same bytes in the builder. -/
theorem C45_same_result (junk : Builder → Nat → UInt8) {src : Seg} {p o : Int} {w dst fuel : Nat}
    (hp : p % 2 ^ 64 = (w : Int)) (hn : NoneBefore src.buf (FarLeads src) o w) {s : Builder} {b b' : Bytes}
    (hs : Repr s b) (hrun : copyPointer src fuel p o dst b = .ok () b') :
    ∃ s', copyPointerC junk src fuel p o dst s = .ok () s' ∧ asString s' = b' ∧ Repr s' b' := by
  have h := SimAt.copyPointer junk src fuel p o w dst b hp hn s hs
  rw [hrun] at h
  obtain ⟨s', e1, e2, _⟩ := h
  exact ⟨s', e1, repr_asString e2, e2⟩

/-- C45: and when the pure version raises, other than a `struct.error` or the recursion
limit, the compiled version raises the same exception, and leaves the same bytes. -/
theorem C45_same_exception (junk : Builder → Nat → UInt8) {src : Seg} {p o : Int} {w dst fuel : Nat}
    (hp : p % 2 ^ 64 = (w : Int)) (hn : NoneBefore src.buf (FarLeads src) o w) {s : Builder} {b b' : Bytes}
    (hs : Repr s b) {e : PyErr} (he1 : e ≠ .structError) (he2 : e ≠ .recursionError)
    (hrun : copyPointer src fuel p o dst b = .error e b') :
    ∃ s', copyPointerC junk src fuel p o dst s = .exc e s' ∧ asString s' = b' ∧ Repr s' b' := by
  have h := SimAt.copyPointer junk src fuel p o w dst b hp hn s hs
  rw [hrun] at h
  rcases h with h | h | ⟨s', e1, e2⟩
  · exact absurd h he1
  · exact absurd h he2
  · exact ⟨s', e1, repr_asString e2, e2⟩

/-- C45: every value of a well-formed message is copied correctly by the compiled version,
whatever the state of the builder. -/
theorem C45_copy_struct (junk : Builder → Nat → UInt8) {o : StructObj} {v : Val} (ho : Denotes o v) (hf : v.Fits)
    (hlen : o.seg.buf.length ≤ 2 ^ 32) {fuel : Nat} (hfuel : 2 * v.depth ≤ fuel + 1)
    {s : Builder} {b : Bytes} (hs : Repr s b) {dst : Nat} (h1 : dst + 8 ≤ b.length) (h2 : 8 ∣ dst) (h3 : 8 ∣ b.length)
    (h4 : b.length + v.size ≤ 2 ^ 32) :
    ∃ s' b', copyFromStructC junk fuel dst (some o) s = .ok () s' ∧ Repr s' b' ∧
      copyFromStruct fuel dst (some o) b = .ok () b' ∧ Den b' none (dst : Int) (wordAt b' dst) v := by
  obtain ⟨b', hb', hd⟩ := C12_copy_struct ho hf hlen hfuel h1 h2 h3 h4
  obtain ⟨w, e1, e2⟩ := denotes_noneBefore ho hlen
  obtain ⟨s', f1, f2, f3⟩ := C45_same_result junk (fuel := fuel) (dst := dst) e1 e2 hs hb'
  exact ⟨s', b', f1, f3, hb', hd⟩

/-- The same for any pointer, to a struct or a list, direct or far. -/
theorem C45_copy_pointer (junk : Builder → Nat → UInt8) {B : Bytes} {offs : Option (List Nat)} {o : Int} {w : Nat}
    {v : Val} (hden : Den B offs o w v) (hw : w ≠ 0) (hw64 : w < 2 ^ 64) (hf : v.Fits) {fuel : Nat}
    (hfuel : 2 * v.depth ≤ fuel) {s : Builder} {b : Bytes} (hs : Repr s b) {dst : Nat} (h1 : dst + 8 ≤ b.length)
    (h2 : 8 ∣ dst) (h3 : 8 ∣ b.length) (h4 : b.length + v.size ≤ 2 ^ 32) :
    ∃ s', copyPointerC junk (Seg.of B offs) fuel (signed64 w) o dst s = .ok () s' ∧
      Den (asString s') none (dst : Int) (wordAt (asString s') dst) v := by
  obtain ⟨b', hb', hd⟩ := C12_copy_pointer hden hw hw64 hf hfuel h1 h2 h3 h4
  obtain ⟨s', f1, f2, f3⟩ := C45_same_result junk (signed64_mod w hw64) (den_noneBefore hden hw) hs hb'
  exact ⟨s', f1, by rw [f2]; exact hd⟩

/-- A computation of the compiled builder, from `SegmentBuilder()`. -/
theorem runC_of_ok {x : PM Unit} {s' : Builder} {b' : Bytes} (h : x (Pyx.new 512) = .ok () s') (hr : Repr s' b') :
    runC x = some (.ok b') := by
  unfold runC
  rw [h]
  simp only
  rw [repr_asString hr]

/-- C45: `compact()` makes the same bytes in both versions. -/
theorem C45_compact (junk : Builder → Nat → UInt8) {o : StructObj} {v : Val} (ho : Denotes o v) (hf : v.Fits)
    (hlen : o.seg.buf.length ≤ 2 ^ 32) (hsz : 8 + v.size ≤ 2 ^ 32) {fuel : Nat} (hfuel : 2 * v.depth ≤ fuel + 1) :
    ∃ o', o.compact fuel = .ok o' ∧ runC (compactC junk fuel o) = some (.ok o'.seg.buf) := by
  obtain ⟨o', ho', -⟩ := C14_compact ho hf hlen hsz hfuel
  refine ⟨o', ho', ?_⟩
  obtain ⟨s1, e1, e2⟩ := repr_allocate (repr_new 512) (junk (Pyx.new 512)) 8
  obtain ⟨s2, b2, f1, f2, f3, f4⟩ := C45_copy_struct junk ho hf hlen hfuel e2 (dst := 0) (by simp) (by norm_num) (by simp)
    (by simpa using hsz)
  have hrun : compactC junk fuel o (Pyx.new 512) = .ok () s2 := by
    have e1' : allocateC junk 8 (Pyx.new 512) = .ok 0 s1 := by
      unfold allocateC PM.ofOptionR
      have e1 : Pyx.allocate (junk (Pyx.new 512)) (Pyx.new 512) 8 = some (0, s1) := e1
      simp only [e1]
    have f1' : copyFromStructC junk fuel 0 (some o) s1 = .ok () s2 := f1
    simp only [compactC, bind, e1', f1']
  rw [runC_of_ok hrun f2]
  unfold StructObj.compact at ho'
  have h0 : (do let pos ← Capnpy.allocate 8; copyFromStruct fuel pos (some o) : BM Unit) newBuilder = .ok () b2 := by
    change copyFromStruct fuel ((0 : Nat) : Int) (some o) (List.replicate 8 0) = _
    exact f3
  simp only [h0] at ho'
  unfold StructObj.initFromBuffer at ho'
  simp only at ho'
  split at ho'
  · cases ho'
  · split at ho'
    · cases ho'
    · cases ho'; rfl

/-- C45: `dumps(obj, fastpath=False)` makes the same bytes in both versions. -/
theorem C45_dumps (junk : Builder → Nat → UInt8) {o : StructObj} {v : Val} (ho : Denotes o v) (hf : v.Fits)
    (hlen : o.seg.buf.length ≤ 2 ^ 32) (hsz : 16 + v.size ≤ 2 ^ 32) {fuel : Nat} (hfuel : 2 * v.depth ≤ fuel + 1) :
    ∃ m, dumps o false fuel = .ok m ∧ runC (dumpsSlowC junk fuel o) = some (.ok m) := by
  obtain ⟨m, _, hm, -, -⟩ := C17_slow_path ho hf hlen hsz hfuel
  refine ⟨m, hm, ?_⟩
  obtain ⟨s1, e1, e2⟩ := repr_allocate (repr_new 512) (junk (Pyx.new 512)) 16
  obtain ⟨s2, b2, f1, f2, f3, f4⟩ := C45_copy_struct junk ho hf hlen hfuel e2 (dst := 8) (by simp) (by norm_num)
    (by simp) (by simpa using hsz)
  have hm : runBuilder (dumpsSlow o fuel) = .ok m := hm
  unfold runBuilder at hm
  cases hd : dumpsSlow o fuel newBuilder with
  | error e b' => rw [hd] at hm; cases hm
  | ok u b' =>
    rw [hd] at hm
    have hbm : b' = m := Except.ok.inj hm
    subst hbm
    unfold dumpsSlow at hd
    obtain ⟨_, c1, g1, g2⟩ := BM.bind_ok_inv hd
    have g1 : (List.replicate 16 (0 : UInt8)) = c1 := by
      have := congrArg (fun r : EStateM.Result PyErr Bytes Int => match r with | .ok _ b => b | .error _ b => b) g1
      exact this
    subst g1
    obtain ⟨_, c2, g3, g4⟩ := BM.bind_ok_inv g2
    have g3' : b2 = c2 := by
      have f3' : copyFromStruct fuel 8 (some o) (List.replicate 16 0) = .ok () b2 := f3
      rw [f3'] at g3
      cases g3; rfl
    subst g3'
    obtain ⟨n, c3, g5, g6⟩ := BM.bind_ok_inv g4
    have g5' : (b2.length : Int) = n ∧ b2 = c3 := by
      unfold builderLength at g5
      cases g5; exact ⟨rfl, rfl⟩
    obtain ⟨rfl, rfl⟩ := g5'
    obtain ⟨_, c4, g7, g8⟩ := BM.bind_ok_inv g6
    have hl : 16 ≤ b2.length := by
      have := (C13_copy_frame ho hf hlen hfuel (dst := 8) (b := List.replicate 16 0) (b' := b2) (by simp) (by norm_num)
        (by simp) (by simpa using hsz) f3).1
      simpa using this
    obtain ⟨s3, k1, k2⟩ := repr_writeFmt f2 (i := 0) (fmt := .I) (by have : Fmt.size .I = 4 := rfl; omega) g7
    obtain ⟨bs, i1, i2, i3⟩ := writeFmt_run (i := 0) (fmt := .I) (by have : Fmt.size .I = 4 := rfl; omega) g7
    have hl4 : c4.length = b2.length := by
      rw [i3]; exact overwrite_length (by have : Fmt.size .I = 4 := rfl; omega)
    obtain ⟨s4, k3, k4⟩ := repr_writeFmt k2 (i := 4) (fmt := .I) (by have : Fmt.size .I = 4 := rfl; omega) g8
    refine runC_of_ok (s' := s4) ?_ k4
    unfold dumpsSlowC
    have e1' : allocateC junk 16 (Pyx.new 512) = .ok 0 s1 := by
      unfold allocateC PM.ofOptionR
      have e1 : Pyx.allocate (junk (Pyx.new 512)) (Pyx.new 512) 16 = some (0, s1) := e1
      simp only [e1]
    have f1' : copyFromStructC junk fuel 8 (some o) s1 = .ok () s2 := f1
    have k1' : Pyx.writeFmt s2 .I 0 (1 - 1) = some s3 := k1
    have k3' : Pyx.writeFmt s3 .I 4 ((getLength s2 - 8) / 8) = some s4 := by
      have : getLength s2 = b2.length := f2.len
      rw [this]; exact k3
    simp only [bind, e1', f1', PM.ofOption, k1', k3']

example (junk : Builder → Nat → UInt8) :
    ∃ o', sampleObj.compact 5 = .ok o' ∧ runC (compactC junk 5 sampleObj) = some (.ok o'.seg.buf) :=
  C45_compact junk sample_denotes (by simp [sampleVal, Val.Fits, Val.AllFits]) (by decide) (by decide) (by decide)

/-! ## Malformed sources

Where the hypotheses fail the two versions differ. -/

/-- A pointer to before the start of the buffer: the pure version returns (Python's slices
count from the end), the compiled version reads memory before the buffer. -/
theorem C45_negative_position (junk : Builder → Nat → UInt8) :
    (∃ b', copyPointer ⟨[1, 2, 3, 4, 5, 6, 7, 8], none⟩ 5 (Ptr.newStruct (-2) 1 0) 0 0 (List.replicate 8 0) = .ok () b') ∧
    (∀ s, Repr s (List.replicate 8 0) →
      copyPointerC junk ⟨[1, 2, 3, 4, 5, 6, 7, 8], none⟩ 5 (Ptr.newStruct (-2) 1 0) 0 0 s = .ub) := by
  refine ⟨⟨leBytes 8 (structWord 0 1 0), by decide +kernel⟩, ?_⟩
  intro s hs
  have hsim := SimAt.allocStruct junk (b := List.replicate 8 0) (pos := 0) (ds := 1) (ps := 0) s hs
  have hA : Capnpy.allocStruct ((0 : Nat) : Int) ((1 : Nat) : Int) ((0 : Nat) : Int) (List.replicate 8 0) =
      .ok 8 (leBytes 8 (structWord 0 1 0) ++ List.replicate 8 0) := by decide +kernel
  rw [hA] at hsim
  obtain ⟨s1, e1, -, -⟩ := hsim
  have e1 : allocStructC junk 0 1 0 s = .ok 8 s1 := e1
  have hk : Ptr.kind (Ptr.newStruct (-2) 1 0) = Ptr.STRUCT := by decide +kernel
  have hd : Ptr.deref (Ptr.newStruct (-2) 1 0) 0 = -8 := by decide +kernel
  have h1 : Ptr.structDataSize (Ptr.newStruct (-2) 1 0) = 1 := by decide +kernel
  have h2 : Ptr.structPtrsSize (Ptr.newStruct (-2) 1 0) = 0 := by decide +kernel
  unfold copyPointerC
  generalize Ptr.newStruct (-2) 1 0 = q at hk hd h1 h2
  simp only [hk]
  rw [if_pos trivial]
  unfold copyStructC
  simp only [hd, h1, h2]
  rw [if_neg (by decide)]
  simp only [bind, e1]
  have h3 : checkBoundsC ⟨[1, 2, 3, 4, 5, 6, 7, 8], none⟩ (1 * 8) (-8) s1 = .ok () s1 := rfl
  have h4 : writeSliceC 8 ⟨[1, 2, 3, 4, 5, 6, 7, 8], none⟩ (-8) (1 * 8) s1 = .ub := rfl
  simp only [h3, h4]

/-- A composite list of no words whose tag claims one item of 200 data words and a pointer,
to the last word of the message. -/
def overflowList : Bytes :=
  leBytes 8 (listWord 0 7 0) ++ leBytes 8 (structWord 1 200 1) ++ List.replicate 1600 0 ++
    leBytes 8 (structWord 0 1 0) ++ [1, 2, 3, 4, 5, 6, 7, 8]

/-- A malformed message, all of whose pointers lead into the message, makes the compiled
`copy_pointer` write outside of the memory of the builder; the pure version raises
`struct.error`. -/
theorem C45_heap_overflow :
    (∃ b', copyPointer ⟨overflowList, none⟩ 5 (listWord 0 7 0) 0 0 (List.replicate 8 0) = .error .structError b') ∧
    copyPointerC (fun _ _ => 0) ⟨overflowList, none⟩ 5 (listWord 0 7 0) 0 0 ⟨List.replicate 512 0, 8⟩ = .ub := by
  constructor
  · exact ⟨_, (by decide +kernel : copyPointer ⟨overflowList, none⟩ 5 (listWord 0 7 0) 0 0 (List.replicate 8 0) =
      .error .structError (leBytes 8 (listWord 0 7 0) ++ leBytes 8 (structWord 1 200 1) ++ List.replicate 8 0))⟩
  · decide +kernel

/-- A list of `2^28` items without data: the pure version raises, because the pointer is
a negative int64; the compiled version copies it. -/
theorem C45_large_list :
    ∃ (v : Val), Den (leBytes 8 (listWord 0 0 (2 ^ 28))) none 0 (listWord 0 0 (2 ^ 28)) v ∧
    (∃ b', copyPointer ⟨leBytes 8 (listWord 0 0 (2 ^ 28)), none⟩ 5 (listWord 0 0 (2 ^ 28)) 0 0 (List.replicate 8 0) =
      .error .structError b') ∧
    (∃ s', copyPointerC (fun _ _ => 0) ⟨leBytes 8 (listWord 0 0 (2 ^ 28)), none⟩ 5 (listWord 0 0 (2 ^ 28)) 0 0
        ⟨List.replicate 8 0, 8⟩ = .ok () s' ∧ Den (asString s') none 0 (wordAt (asString s') 0) v) := by
  refine ⟨_, Den.listPrim 0 (listWord 0 0 (2 ^ 28)) 8 (by decide +kernel) (by decide +kernel) (by decide +kernel)
    (by decide +kernel), ?_, ?_⟩
  · exact ⟨_, (by decide +kernel : copyPointer ⟨leBytes 8 (listWord 0 0 (2 ^ 28)), none⟩ 5 (listWord 0 0 (2 ^ 28)) 0 0
      (List.replicate 8 0) = .error .structError (List.replicate 8 0))⟩
  · refine ⟨⟨leBytes 8 (listWord 0 0 (2 ^ 28)), 8⟩, by decide +kernel, ?_⟩
    have e : wordAt (asString ⟨leBytes 8 (listWord 0 0 (2 ^ 28)), 8⟩) 0 = listWord 0 0 (2 ^ 28) := by decide +kernel
    rw [e]
    have := Den.listPrim (B := asString ⟨leBytes 8 (listWord 0 0 (2 ^ 28)), 8⟩) (offs := none) 0 (listWord 0 0 (2 ^ 28)) 8
      (by decide +kernel) (by decide +kernel) (by decide +kernel) (by decide +kernel)
    exact this

end Capnpy.Props
