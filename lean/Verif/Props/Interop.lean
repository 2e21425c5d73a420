import Verif.Proof.CyAccess
import Verif.Proof.CtorValue
import Verif.Props.CyCtor
import Verif.Props.CyMessage
import Verif.Props.CyReader
import Verif.Props.PyxCopy
import Verif.Props.Packing
import Verif.Props.Evolve
import Verif.Props.Session

/-!
# C73: processes with and without the C extensions work together

`Version.construct`, `Version.dumps`, `Version.loads`, `Version.getField`, ... (Spec/Interop.lean)
are the functions of the pure and of the compiled version; `Returned r v` says that the call
returned `v` and that no exception was ignored.  `junk` is the content of uninitialised memory.
-/

namespace Capnpy.Props

open Spec Capnpy.Cy
open Pyx (AllListsOk)

/-! ## Writing -/

/-- C73: whenever the pure `dumps` of a well-formed object succeeds, on either path, the
compiled one makes the same bytes. -/
theorem C73_dumps (junk : Pyx.Builder → Nat → UInt8) {o : StructObj} {v : Val} (ho : Denotes o v) (hf : v.Fits)
    (hlen : o.seg.buf.length ≤ 2 ^ 32) (hsz : 16 + v.size ≤ 2 ^ 32) {fuel : Nat} (hfuel : 2 * v.depth ≤ fuel + 1)
    (fastpath : Bool) {s : Bytes} (hs : Capnpy.dumps o fastpath fuel = .ok s) (w : Version) :
    Returned (w.dumps junk o fastpath fuel) s := by
  cases w with
  | pure =>
    show some (CRes.ret (Capnpy.dumps o fastpath fuel) false) = _
    rw [hs]
  | compiled =>
    show Cy.dumpsC junk o fastpath fuel = _
    obtain ⟨m, hm, hmC⟩ := C45_dumps junk ho hf hlen hsz hfuel
    have hm : runBuilder (dumpsSlow o fuel) = .ok m := hm
    have h8 : (8 : Int) ∣ o.dataOffset ∧ 0 ≤ o.ptrsSize ∧ o.ptrsSize < 2 ^ 15 := by
      obtain ⟨B, offs, t, ds, ps, data, ptrs, rfl, -, ht8, -, -, hod, rfl⟩ := id ho
      have h15 : ptrs.length < 2 ^ 15 := by simp only [Val.Fits] at hf; exact hf.1
      have := hod.2.2.1
      refine ⟨?_, ?_, ?_⟩
      · show (8 : Int) ∣ (t : Int); omega
      · show (0 : Int) ≤ (ps : Int); omega
      · show (ps : Int) < 2 ^ 15; omega
    obtain ⟨h8, hp0, hp15⟩ := h8
    have e : Capnpy.dumps o fastpath fuel = (do
        let end_ ← Capnpy.dumpsEnd o fastpath fuel
        if end_ ≠ -1 then dumpMessage o.seg.buf (Ptr.newStruct 0 o.dataSize o.ptrsSize) o.dataOffset end_
        else runBuilder (dumpsSlow o fuel)) := by
      unfold Capnpy.dumps
      cases Capnpy.dumpsEnd o fastpath fuel <;> rfl
    rw [e] at hs
    have hE : Agree (Capnpy.dumpsEnd o fastpath fuel) (Cy.dumpsEnd o fastpath fuel) :=
      Agree.ite (fun _ => getEnd_agree o fuel h8) fun _ => Agree.pure _
    cases hd : Capnpy.dumpsEnd o fastpath fuel with
    | error x => rw [hd] at hs; cases hs
    | ok end_ =>
      rw [hd] at hs
      have hs : (if end_ ≠ -1 then dumpMessage o.seg.buf (Ptr.newStruct 0 o.dataSize o.ptrsSize) o.dataOffset end_
        else runBuilder (dumpsSlow o fuel)) = .ok s := hs
      unfold Cy.dumpsC
      rw [hE.keepsVal _ hd]
      simp only
      by_cases he : end_ ≠ -1
      · rw [if_pos he] at hs ⊢
        have : Pyx.dumpMessageC o.seg.buf (Ptr.newStruct 0 o.dataSize o.ptrsSize) o.dataOffset end_
            = dumpMessage o.seg.buf (Ptr.newStruct 0 o.dataSize o.ptrsSize) o.dataOffset end_ := by
          by_cases hb : o.dataOffset < 0 ∨ o.dataOffset > end_ ∨ end_ > o.seg.buf.length
          · unfold Pyx.dumpMessageC dumpMessage
            rw [if_pos hb, if_pos hb]
          · have hp := Ptr.newStruct_eq 0 o.dataSize o.ptrsSize
            have hlen' : (o.seg.buf.length : Int) ≤ 2 ^ 32 := by exact_mod_cast hlen
            apply C47_dump_message
            · omega
            · omega
            · omega
        rw [this, hs]
      · rw [if_neg he] at hs ⊢
        rw [hm] at hs
        rw [hmC, Except.ok.inj hs]
        rfl

/-! ## Reading a message -/

theorem frame_counts {words : Nat} {body : Bytes} (h : words < 2 ^ 32) :
    segCount (le32 0 ++ le32 words ++ body) = 1 ∧ bodyLen (le32 0 ++ le32 words ++ body) = 8 * words := by
  have h1 : u32 (le32 0 ++ le32 words ++ body) 0 = 0 := by
    have := u32_mid (a := []) (c := le32 words ++ body) (n := 0) (k := 0) (by norm_num) rfl
    simpa [List.append_assoc] using this
  have h2 : u32 (le32 0 ++ le32 words ++ body) 4 = words := u32_mid (a := le32 0) (c := body) h rfl
  have h3 : segCount (le32 0 ++ le32 words ++ body) = 1 := by unfold segCount; rw [h1]
  refine ⟨h3, ?_⟩
  unfold bodyLen segSizes
  rw [h3]
  show 8 * (List.map _ [0]).sum = _
  simp only [List.map_cons, List.map_nil, List.sum_cons, List.sum_nil]
  rw [show 4 + 4 * 0 = 4 from rfl, h2]
  rfl

/-- C73: a message that was dumped, by either version and on either path, is loaded by
both versions as the same object, with the value of the object dumped.  (The compiled
`loads` keeps sizes in C ints: messages of less than 1 GiB.) -/
theorem C73_loads {o : StructObj} {v : Val} (ho : Denotes o v) (hf : v.Fits)
    (hlen : o.seg.buf.length ≤ 2 ^ 32) (hsz : 32 + v.size < 2 ^ 30) {fuel : Nat} (hfuel : 2 * v.depth ≤ fuel + 1)
    (fastpath : Bool) {s : Bytes} (hs : Capnpy.dumps o fastpath fuel = .ok s) {x : Option StructObj}
    (hx : Capnpy.loads s = .ok x) (r : Version) : Returned (r.loads s) x := by
  cases r with
  | pure =>
    show some (CRes.ret (Capnpy.loads s) false) = _
    rw [hx]
  | compiled =>
    show some (Cy.loads s) = _
    have hl := C18_size ho hf hlen (by omega) hfuel fastpath hs
    obtain ⟨words, body, rfl, h1, h2⟩ := C18_frame ho hf hlen (by omega) hfuel fastpath hs
    obtain ⟨h3, h4⟩ := frame_counts (body := body) h2
    have hl' : (le32 0 ++ le32 words ++ body).length = 8 + body.length := by
      rw [List.length_append, List.length_append]
      have e1 : (le32 0).length = 4 := rfl
      have e2 : (le32 words).length = 4 := rfl
      omega
    rw [C54_loads_single _ h3 (by rw [h4, hl]; omega), hx]

/-- C73, messages: for every well-formed object with a value that is not an empty struct, in
a buffer that contains all of it: `dumps` in one version, `loads` in another: there is one
sequence of bytes and one object, whatever the versions, and its value is the one of
the object dumped. -/
theorem C73_message (junk : Pyx.Builder → Nat → UInt8) {o : StructObj} {v : Val} (ho : Denotes o v) (hf : v.Fits)
    (hne : v ≠ .struct [] []) (hin : o.dataOffset + v.size ≤ o.seg.buf.length)
    (hlen : o.seg.buf.length ≤ 2 ^ 32) (hsz : 32 + v.size < 2 ^ 30) {fuel : Nat} (hfuel : 2 * v.depth ≤ fuel + 1)
    (fastpath : Bool) :
    ∃ s o', Denotes o' v ∧ (∀ w : Version, Returned (w.dumps junk o fastpath fuel) s) ∧
      ∀ r : Version, Returned (r.loads s) (some o') := by
  have key : ∃ s o', Capnpy.dumps o fastpath fuel = .ok s ∧ Capnpy.loads s = .ok (some o') ∧ Denotes o' v := by
    cases fastpath with
    | false => exact C17_slow_path ho hf hlen (by omega) hfuel
    | true => exact (C17_fast_path ho hf hlen (by omega) hfuel).1 hne (fun _ => hin)
  obtain ⟨s, o', h1, h2, h3⟩ := key
  exact ⟨s, o', h3, C73_dumps junk ho hf hlen (by omega) hfuel fastpath h1,
    C73_loads ho hf hlen hsz hfuel fastpath h1 h2⟩

/-- C73, streams: any number of objects are dumped one after the other, each by either
version and on either path; the bytes are read in any chunks of at most `C` bytes, by either
version: `load_all` yields one object for each, with the values of the objects dumped, in
this order, and stops. -/
theorem C73_stream (junk : Pyx.Builder → Nat → UInt8) (fuel M C : Nat) (h4 : 16 ≤ M) (hM : 2 * M + C < 2 ^ 31)
    (xs : List (StructObj × Bool × Version)) (vs : List Val)
    (hs : List.Forall₂ (fun x v => Sendable fuel x.1 x.2.1 v ∧ 8 + v.size ≤ M) xs vs) :
    ∃ dumped : List Bytes,
      List.Forall₂ (fun x s => Returned (x.2.2.dumps junk x.1 x.2.1 fuel) s) xs dumped ∧
      ∃ objs : List StructObj, List.Forall₂ Denotes objs vs ∧
      ∀ chunks : List Bytes, (∀ c ∈ chunks, c ≠ [] ∧ c.length ≤ C) → chunks.flatten = dumped.flatten →
        ∀ n, xs.length < n → ∀ r : Version,
          r.loadAll n (BStream.init chunks) = (objs.map some, false, some .stop) := by
  have key : ∀ (xs : List (StructObj × Bool × Version)) (vs : List Val),
      List.Forall₂ (fun x v => Sendable fuel x.1 x.2.1 v ∧ 8 + v.size ≤ M) xs vs →
      ∃ ms : List (List Bytes × Bytes × Option StructObj), ms.length = xs.length ∧ (∀ m ∈ ms, Loadable m) ∧
        (∀ m ∈ ms, m.1.length < 2 ^ 31 ∧ m.1.flatten.length ≤ M) ∧
        List.Forall₂ (fun x s => Returned (x.2.2.dumps junk x.1 x.2.1 fuel) s) xs (ms.map fun m => frame m.1 m.2.1) ∧
        ∃ objs : List StructObj, List.Forall₂ Denotes objs vs ∧ ms.map (fun m => m.2.2) = objs.map some := by
    intro xs vs hs
    induction hs with
    | nil => exact ⟨[], rfl, by simp, by simp, .nil, [], .nil, rfl⟩
    | @cons x v xs vs hx hxs ih =>
      obtain ⟨ms, i1, i2, i3, i4, objs, i5, i6⟩ := ih
      obtain ⟨hx, hv⟩ := hx
      obtain ⟨S, o', g1, g2, g3, g4, g5⟩ := sent_of_sendable hx
      have hd := C73_dumps junk hx.denotes hx.fits hx.buf hx.size hx.depth x.2.1 g1 x.2.2
      have hsz := C18_size hx.denotes hx.fits hx.buf hx.size hx.depth x.2.1 g1
      have hfl : (frame [S] []).length = 8 + S.length := by
        have : frame [S] [] = le32 0 ++ le32 (S.length / 8) ++ S := by simp [frame]
        rw [this, List.length_append, List.length_append]
        rfl
      refine ⟨([S], [], some o') :: ms, by simp [i1], ?_, ?_, .cons hd i4, o' :: objs, .cons g5 i5, by simp [i6]⟩
      · intro m hm
        rcases List.mem_cons.mp hm with rfl | hm
        · exact ⟨g2, g3, g4⟩
        · exact i2 m hm
      · intro m hm
        rcases List.mem_cons.mp hm with rfl | hm
        · refine ⟨by simp, ?_⟩
          have : [S].flatten.length = S.length := by simp
          rw [this]
          omega
        · exact i3 m hm
  obtain ⟨ms, k1, k2, k3, k4, objs, k5, k6⟩ := key xs vs hs
  refine ⟨_, k4, objs, k5, fun chunks hc hcat n hn r => ?_⟩
  cases r with
  | pure =>
    obtain ⟨st', h⟩ := C22_load_all ms k2 chunks (fun c h => (hc c h).1) hcat (fuel := n) (by omega)
    show (match Capnpy.loadAll BStream.file n (BStream.init chunks) with
      | (objs, e, _) => (objs, false, some e)) = _
    rw [h, k6]
  | compiled =>
    obtain ⟨st', h⟩ := C54_load_all M C (by omega) hM ms k2 k3 chunks hc hcat (fuel := n) (by omega)
    show (match Cy.loadAll Cy.bstreamFile n (BStream.init chunks) with
      | (objs, w, e, _) => (objs, w, e)) = _
    rw [h, k6]

/-! ## Reading the fields -/

/-- C73: what the pure accessor returns, the compiled one returns, and it ignores nothing: for
every object (well-formed or not) and every field whose union tags are below 2^15. -/
theorem C73_accessor (o : StructObj) (union : Option Nat) (f : Field) (h : TagsBelow f) {x : RVal}
    (hx : Capnpy.getField o union f = .ok x) (r : Version) : Returned (r.getField o union f) x := by
  cases r with
  | pure =>
    show some (CRes.ret (Capnpy.getField o union f) false) = _
    rw [hx]
  | compiled =>
    show some (Cy.getField o union f) = _
    rw [getField_keepsVal o union f h x hx]

/-- C73: and likewise for `o.x.y.z`, through groups. -/
theorem C73_path (o : StructObj) (union : Option Nat) (fields : List Field) (h : AllTagsBelow fields)
    (path : List String) {x : RVal} (hx : Spec.getPath o union fields path = .ok x) (r : Version) :
    Returned (r.getPath o union fields path) x := by
  cases r with
  | pure =>
    show some (CRes.ret (Spec.getPath o union fields path) false) = _
    rw [hx]
  | compiled =>
    show some (getPathC o union fields path) = _
    rw [getPath_keepsVal path o union fields h x hx]

/-- C73: and for the items of a list, if all of them can be read.  (Iteration stops silently
at an item that raises IndexError: see `C73_short_list`.) -/
theorem C73_list (l : ListObj) {ys : List Item} (h : l.toList = .ok ys) (hl : l.len = ys.length) (r : Version) :
    Returned (r.toList l) ys := by
  cases r with
  | pure =>
    show some (CRes.ret l.toList false) = _
    rw [h]
  | compiled =>
    show some (Cy.toList l) = _
    have hl : l.itemCount = ys.length := hl
    rw [toList_keepsVal l ys h (by omega)]

/-! ## From the constructor to the fields -/

/-- The result `r` of the version `rv` for a field. -/
def ReadsIn (rv : Version) (o : StructObj) (union : Option Nat) (f : Field) (a : Arg) : Prop :=
  ∃ x, Returned (rv.getField o union f) x ∧ ReadsVal o f a (.ok x)

theorem slotReads_ok {ty : SlotType} {a : Arg} {r : Py RVal} (h : SlotReads ty a r) : ∃ x, r = .ok x := by
  cases ty with
  | void => exact ⟨_, h⟩
  | prim => obtain ⟨i, _, h⟩ := h; exact ⟨_, h⟩
  | enum => obtain ⟨i, _, h⟩ := h; exact ⟨_, h⟩
  | float => obtain ⟨i, _, h⟩ := h; exact ⟨_, h⟩
  | bool => obtain ⟨i, _, h⟩ := h; exact ⟨_, h⟩
  | text => rcases h with ⟨_, h⟩ | ⟨_, _, h⟩ <;> exact ⟨_, h⟩
  | data => rcases h with ⟨_, h⟩ | ⟨_, _, h⟩ <;> exact ⟨_, h⟩
  | struct => rcases h with ⟨_, h⟩ | ⟨_, _, _, _, h, _⟩ <;> exact ⟨_, h⟩
  | list it => rcases h with ⟨_, h⟩ | ⟨_, _, _, _, h, _⟩ <;> exact ⟨_, h⟩
  | anyPointer => exact h.elim

mutual

theorem readsVal_ok : ∀ (o : StructObj) (f : Field) (a : Arg) (r : Py RVal), ReadsVal o f a r → ∃ x, r = .ok x
  | o, .slot _ _ _ ty _ _, a, r, h => by
    unfold ReadsVal at h
    exact slotReads_ok h
  | o, .group _ _ _ nullable gunion children, a, r, h => by
    unfold ReadsVal at h
    split at h
    · split at h
      · exact ⟨_, h⟩
      · exact readsLast_ok o children a r h
    · exact ⟨_, h.1⟩

theorem readsLast_ok : ∀ (o : StructObj) (fs : List Field) (a : Arg) (r : Py RVal), ReadsLast o fs a r → ∃ x, r = .ok x
  | o, [], a, r, h => by unfold ReadsLast at h; exact h.elim
  | o, f :: [], a, r, h => by unfold ReadsLast at h; exact readsVal_ok o f a r h
  | o, f :: g :: fs, a, r, h => by unfold ReadsLast at h; exact readsLast_ok o (g :: fs) a r h

end

theorem params_mem {S : Schema} {k : Nat} {f : Field} (h : S.params[k]? = some f) : f ∈ S.fields := by
  have := List.mem_of_getElem? h
  exact (List.mem_filter.mp this).1

theorem tags_mem : ∀ {fs : List Field} {f : Field}, f ∈ fs → AllTagsBelow fs → TagsBelow f
  | g :: fs, f, h, ht => by
    unfold AllTagsBelow at ht
    rcases List.mem_cons.mp h with rfl | h
    · exact ht.1
    · exact tags_mem h ht.2

/-- C73: for every schema laid out by the capnp compiler (without lists of bools), which is not
an empty struct, and all acceptable arguments: construct an object, dump it on either path
and load it, each step in either version: there is one object, one sequence of bytes and one
loaded object, whatever the versions, and whichever version reads it, each field that was given
is the argument.  No hypothesis is made on the constructed object: its size and depth are those
of the arguments. -/
theorem C73_roundtrip (junk : Pyx.Builder → Nat → UInt8) (fuel : Nat) (S : Schema) (args : List Arg) (n : Nat)
    (hS : S.WF) (hl : S.locals.Nodup) (hli : AllListsOk S.fields) (ha : AccFields fuel S.fields args n)
    (hm : (members S.fields args).length ≤ 1) (hp : S.ptrs < 2 ^ 15) (hne : 0 < S.dataWords + S.ptrs)
    (hsz : 32 + (8 * (S.dataWords + S.ptrs) + n) < 2 ^ 30) {fuel' : Nat} (hfuel : fuel + 2 ≤ fuel') (fastpath : Bool) :
    ∃ o s o', (∀ c : Version, Returned (c.construct junk fuel S args) o) ∧
      (∀ w : Version, Returned (w.dumps junk o fastpath fuel') s) ∧
      s.length = 16 + (8 * (S.dataWords + S.ptrs) + n) ∧
      (∀ r : Version, Returned (r.loads s) (some o')) ∧
      ∀ r : Version,
        (∀ (k : Nat) (f : Field) (a : Arg), S.params[k]? = some f → args[k]? = some a → absent f a = false →
          ReadsIn r o' S.union f a) ∧
        (∀ path x, Spec.getPath o' S.union S.fields path = .ok x → Returned (r.getPath o' S.union S.fields path) x) := by
  have h32 : 8 * (S.dataWords + S.ptrs) + n ≤ 2 ^ 32 := by omega
  obtain ⟨C, data, ptrs, e, hd, hfit, hdep, hsize, hClen, hdl, hpl⟩ := construct_value fuel S args n hS hl ha hm h32 hp
  have hCC := C55_same_result junk fuel S args hS hl (accFields_length fuel _ _ _ ha)
    (fieldsArgOk_of_acc fuel _ _ _ ha hli) e
  have hnv : Val.struct data ptrs ≠ .struct [] [] := by
    intro h
    injection h with h1 h2
    subst h1 h2
    simp at hdl hpl
    omega
  have hin : (objAt C none 0 S.dataWords S.ptrs).dataOffset + (Val.struct data ptrs).size
      ≤ (objAt C none 0 S.dataWords S.ptrs).seg.buf.length := by
    rw [hsize]
    show (0 : Int) + (C.length : Int) ≤ (C.length : Int)
    omega
  have hcl : (objAt C none 0 S.dataWords S.ptrs).seg.buf.length ≤ 2 ^ 32 := by
    show C.length ≤ 2 ^ 32
    omega
  obtain ⟨s, o', h1, h2, h3⟩ := C73_message junk hd hfit hnv hin hcl (by omega) (fuel := fuel') (by omega) fastpath
  have hpure : Capnpy.dumps (objAt C none 0 S.dataWords S.ptrs) fastpath fuel' = .ok s := by
    have := h2 .pure
    injection this with this
    injection this with this
  have hmade : MadeBy fuel S args o' := ⟨_, _, e, hd, h1⟩
  have htags := allTagsBelow_of_wf _ _ _ _ hS.fields
  refine ⟨_, s, o', ?_, h2, ?_, h3, fun r => ⟨?_, fun path x hx => C73_path o' S.union S.fields htags path hx r⟩⟩
  · intro c
    cases c with
    | pure =>
      show some (CRes.ret (S.construct fuel args) false) = _
      rw [e]
    | compiled =>
      show (match S.constructC junk fuel args with
        | .ok o => some (CRes.ret (.ok o) false)
        | .error (.exc e) => some (CRes.ret (.error e) false)
        | .error .ub => none) = _
      rw [hCC]
  · rw [C18_size hd hfit hcl (by omega) (by omega) fastpath hpure]
    omega
  · intro k f a hf hk hab
    have hr := (C63_renamed fuel S args n o' hS hl ha hm h32 hmade k f a hf hk hab).1
    obtain ⟨x, hx⟩ := readsVal_ok _ _ _ _ hr
    refine ⟨x, C73_accessor o' S.union f (tags_mem (params_mem hf) htags) hx r, ?_⟩
    rw [hx] at hr
    exact hr

/-! ## Exceptions -/

/-- C73: and if something is raised.  For every object, well-formed or not, and every field of a
well-formed class (which is not in a union, or the union tag is not 65535): the compiled
accessor returns what the pure one returns, and if it ignores no exception it raises what
the pure one raises. -/
theorem C73_exceptions (o : StructObj) (union : Option Nat) (ds ps : Nat) (f : Field) (hf : FieldWF ds ps f)
    (h : f.disc = none ∨ o.whichRaw (union.map fun off => ((off * 2 : Nat) : Int)) ≠ .ok (-1)) :
    Follows (Cy.getField o union f) (Capnpy.getField o union f) :=
  (getField_agree ds ps f o union hf h).follows

/-- C73: reading a member of a union which is not the one that was set: ValueError, in both
versions. -/
theorem C73_other_member (o : StructObj) (u tag : Nat) (w : Int) (f : Field) (hd : f.disc = some tag)
    (hw : o.whichRaw (some ((u * 2 : Nat) : Int)) = .ok w) (h1 : w ≠ -1) (h2 : w ≠ tag) (r : Version) :
    r.getField o (some u) f = some (.ret (.error .valueError) false) := by
  have h1' : o.whichRaw ((some u).map fun off => ((off * 2 : Nat) : Int)) = .ok w := hw
  have hp : Capnpy.ensureMember o (some u) (some tag) = .error .valueError := by
    show o.ensureUnion _ _ = _
    unfold StructObj.ensureUnion
    rw [h1']
    show (if w ≠ (tag : Int) then (.error .valueError : Py Unit) else Pure.pure ()) = _
    rw [if_pos h2]
  have hc : Cy.ensureMember o (some u) (some tag) = .ret (.error .valueError) false := by
    show Cy.ensureUnion o _ _ = _
    have hk := (whichRaw_agree o _ (by rw [h1']; intro h; injection h with h; exact h1 h)).keepsVal w h1'
    unfold Cy.ensureUnion
    rw [hk]
    rw [ret_bind, if_pos h2]
    rfl
  cases f with
  | slot nm c d ty off df =>
    have hd : d = some tag := hd
    subst hd
    cases r with
    | pure =>
      show some (CRes.ret (Capnpy.getField o (some u) _) false) = _
      unfold Capnpy.getField
      rw [hp]
      rfl
    | compiled =>
      show some (Cy.getField o (some u) _) = _
      unfold Cy.getField
      rw [hc]
      rfl
  | group nm c d nl gu ch =>
    have hd : d = some tag := hd
    subst hd
    cases r with
    | pure =>
      show some (CRes.ret (Capnpy.getField o (some u) _) false) = _
      unfold Capnpy.getField
      rw [hp]
      rfl
    | compiled =>
      show some (Cy.getField o (some u) _) = _
      unfold Cy.getField
      rw [hc]
      rfl

/-! ## Examples and differences -/

/-- The sample of Props/Ctor.lean, with a union, a group and a nullable group: any mixture of
versions. -/
example (junk : Pyx.Builder → Nat → UInt8) (fp : Bool) (r : Version) :
    ∃ o s o', (∀ c : Version, Returned (c.construct junk 10 sampleSchema sampleArgs) o) ∧
      (∀ w : Version, Returned (w.dumps junk o fp 12) s) ∧ s.length = 16 + 8 * 4 + 8 ∧
      (∀ r : Version, Returned (r.loads s) (some o')) ∧
      Returned (r.getField o' (some 9) (.slot "name" 3 none .text 0 none)) (.bytes [104, 105]) ∧
      Returned (r.getField o' (some 9) (.slot "x" 0 none (.prim .i) 0 (some 5))) (.int (-7)) := by
  obtain ⟨o, s, o', h1, h2, h3, h4, h5⟩ := C73_roundtrip junk 10 sampleSchema sampleArgs 8 sampleSchema_wf
    sampleSchema_locals sampleSchema_lists sampleArgs_ok (by rw [sampleArgs_members]; simp) (by decide) (by decide)
    (by decide) (fuel' := 12) (by omega) fp
  refine ⟨o, s, o', h1, h2, h3, h4, ?_, ?_⟩
  · obtain ⟨x, hx, hr⟩ := (h5 r).1 3 _ _ rfl rfl rfl
    unfold ReadsVal at hr
    rcases hr with ⟨hn, _⟩ | ⟨t, ht, hr⟩
    · cases hn
    · cases ht; cases hr; exact hx
  · obtain ⟨x, hx, hr⟩ := (h5 r).1 0 _ _ rfl rfl rfl
    unfold ReadsVal at hr
    obtain ⟨i, hi, hr⟩ := hr
    cases hi; cases hr; exact hx

/-- Three messages, from processes of both versions and on both paths. -/
example (junk : Pyx.Builder → Nat → UInt8) : ∃ dumped : List Bytes, dumped.length = 3 ∧
    ∃ objs : List StructObj, objs.length = 3 ∧
      ∀ chunks : List Bytes, (∀ c ∈ chunks, c ≠ [] ∧ c.length ≤ 8192) → chunks.flatten = dumped.flatten →
        ∀ r : Version, r.loadAll 4 (BStream.init chunks) = (objs.map some, false, some .stop) := by
  obtain ⟨dumped, h1, objs, h2, h3⟩ := C73_stream junk 1 1000 8192 (by norm_num) (by norm_num)
    [(a77, true, .pure), (a77, false, .compiled), (a77, true, .compiled)] _
    (.cons ⟨a77_sendable true, by simp [Val.size, Val.sizes]⟩
      (.cons ⟨a77_sendable false, by simp [Val.size, Val.sizes]⟩
        (.cons ⟨a77_sendable true, by simp [Val.size, Val.sizes]⟩ .nil)))
  exact ⟨dumped, h1.length_eq.symm, objs, h2.length_eq, fun chunks hc he r => h3 chunks hc he 4 (by decide) r⟩

/-- Finding: a list of two texts in a message which ends after the first pointer.  The pure
version stops at the IndexError of the second item, as if the list had one item; the compiled
version prints the exception and returns `None` for the item. -/
theorem C73_short_list : ∃ l : ListObj, l.len = 2 ∧ l.toList = .ok [.bytes []] ∧
    Cy.toList l = .ret (.ok [.bytes [], .none]) true :=
  ⟨⟨⟨words [1 + 2 ^ 32 * 2 + 2 ^ 35 * 1], none⟩, 0, .text, 6, -1, 2, 8, 0⟩, by decide +kernel, by decide +kernel,
    by decide +kernel⟩

/-- Finding: the union tag 65535, which no version writes: reading a member raises ValueError
in the pure version and SystemError in the compiled one. -/
theorem C73_tag_65535 (o : StructObj) (u tag : Nat) (nm : String) (c off : Nat) (ty : SlotType) (d : Option Int)
    (hw : o.whichRaw (some ((u * 2 : Nat) : Int)) = .ok (-1)) :
    Version.pure.getField o (some u) (.slot nm c (some tag) ty off d) = some (.ret (.error .valueError) false) ∧
    Version.compiled.getField o (some u) (.slot nm c (some tag) ty off d) = some (.ret (.error .systemError) false) := by
  have h1 : o.whichRaw ((some u).map fun off => ((off * 2 : Nat) : Int)) = .ok (-1) := hw
  constructor
  · have hp : Capnpy.ensureMember o (some u) (some tag) = .error .valueError := by
      show o.ensureUnion _ _ = _
      unfold StructObj.ensureUnion
      rw [h1]
      show (if (-1 : Int) ≠ (tag : Int) then (.error .valueError : Py Unit) else Pure.pure ()) = _
      rw [if_pos (by omega)]
    show some (CRes.ret (Capnpy.getField o (some u) _) false) = _
    unfold Capnpy.getField
    rw [hp]
    rfl
  · have hc : Cy.ensureMember o (some u) (some tag) = .ret (.error .systemError) false := by
      show Cy.ensureUnion o _ _ = _
      unfold Cy.ensureUnion
      rw [C53_tag_65535 o _ h1]
      rfl
    show some (Cy.getField o (some u) _) = _
    unfold Cy.getField
    rw [hc]
    rfl

example : ∃ o, Capnpy.loads (cyMsg [sp 0 1 0, 0xffff]) = .ok (some o) ∧
    o.whichRaw (some ((0 * 2 : Nat) : Int)) = .ok (-1) :=
  ⟨⟨⟨words [sp 0 1 0, 0xffff], none⟩, 8, 16, 1, 0⟩, by decide +kernel, by decide +kernel⟩

end Capnpy.Props
