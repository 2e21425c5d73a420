import Verif.Proof.KeyRead
import Verif.Props.Copy

/-!
# C62: keys of messages

A struct with the annotation `$Py.key("x, y")` compares and hashes like the tuple of the fields it names: for
messages, with any layout of the buffers.  The key of a value is `Spec.keyOf` (Spec/KeyRead.lean).
-/

namespace Capnpy.Props

open Key Hash Spec Capnpy.KeyRead Cy
open Capnpy.Repr (Env Kind RField)
open Spec.Short (tagOf)

/-! ## The annotation -/

theorem fieldNamed_some {x : Bytes} : ∀ {fs : List RField} {f : RField}, fieldNamed x fs = some f → f ∈ fs ∧ nameBytes f = x
  | [], f, h => by cases h
  | g :: fs, f, h => by
    unfold fieldNamed at h
    split at h
    · rename_i g' e
      cases h
      obtain ⟨h1, h2⟩ := fieldNamed_some e
      exact ⟨List.mem_cons_of_mem _ h1, h2⟩
    · split at h
      · rename_i e
        cases h
        exact ⟨List.mem_cons_self, e⟩
      · cases h

theorem fieldNamed_exists {x : Bytes} : ∀ {fs : List RField}, x ∈ fs.map nameBytes → ∃ f, fieldNamed x fs = some f
  | [], h => by cases h
  | g :: fs, h => by
    unfold fieldNamed
    cases e : fieldNamed x fs with
    | some f => exact ⟨f, rfl⟩
    | none =>
      rw [List.map_cons, List.mem_cons] at h
      rcases h with h | h
      · simp only []
        rw [if_pos h.symm]
        exact ⟨g, rfl⟩
      · obtain ⟨f, hf⟩ := fieldNamed_exists h
        rw [hf] at e
        cases e

theorem pick_spec {all : List RField} : ∀ {names : List Bytes}, (∀ x ∈ names, x ∈ all.map nameBytes) →
    ∃ fs, pick all names = .ok fs ∧ fs.map nameBytes = names ∧ ∀ f ∈ fs, f ∈ all
  | [], _ => ⟨[], rfl, rfl, by simp⟩
  | x :: xs, h => by
    obtain ⟨f, hf⟩ := fieldNamed_exists (h x List.mem_cons_self)
    obtain ⟨fs, h1, h2, h3⟩ := pick_spec (names := xs) fun y hy => h y (List.mem_cons_of_mem _ hy)
    obtain ⟨g1, g2⟩ := fieldNamed_some hf
    refine ⟨f :: fs, ?_, by rw [List.map_cons, g2, h2], ?_⟩
    · unfold pick
      rw [hf]
      simp only []
      rw [bind_okP h1]
      rfl
    · intro g hg
      rcases List.mem_cons.mp hg with rfl | hg
      · exact g1
      · exact h3 g hg

theorem keyNames_spelled {names : List Bytes} {text : Bytes} (h : Spells names text) (hn : ∀ s ∈ names, IsName s)
    (hs : names ≠ [[42]]) (all : List Bytes) :
    keyNames text all = if names.all (fun x => all.contains x) then .ok names else .error .valueError := by
  have e : (splitB (stripB text)).map stripB = names := spells_names h hn
  have hne : stripB text ≠ [42] := by
    intro h'
    rw [h'] at e
    exact hs (by rw [← e]; decide)
  unfold keyNames
  simp only [if_neg hne, e]

theorem spells_ne_nil {names : List Bytes} {text : Bytes} (h : Spells names text) : names ≠ [] := by
  cases h <;> simp

/-- C62: an annotation with names separated by commas, with any white space, selects the fields with these names, in
this order; if one of the names is not that of a field, the compilation ends with a ValueError. -/
theorem C62_annotation (names : List Bytes) (text : Bytes) (all : List RField) (h : Spells names text)
    (hn : ∀ s ∈ names, IsName s) (hs : names ≠ [[42]]) :
    ((∀ x ∈ names, x ∈ all.map nameBytes) →
      ∃ fs, keyFields text all = .ok fs ∧ fs.map nameBytes = names ∧ ∀ f ∈ fs, f ∈ all) ∧
    ((∃ x ∈ names, x ∉ all.map nameBytes) → keyFields text all = .error .valueError) := by
  have e := keyNames_spelled h hn hs (all.map nameBytes)
  constructor
  · intro hall
    rw [if_pos (by simpa using hall)] at e
    obtain ⟨fs, h1, h2, h3⟩ := pick_spec hall
    refine ⟨fs, ?_, h2, h3⟩
    unfold keyFields
    rw [bind_okP e, bind_okP h1, if_neg]
    · rfl
    · rintro rfl
      exact spells_ne_nil h h2.symm
  · rintro ⟨x, hx, hx'⟩
    rw [if_neg] at e
    · unfold keyFields
      rw [e]
      rfl
    · intro hc
      rw [List.all_eq_true] at hc
      exact hx' (by simpa using hc x hx)

theorem pick_all {all fs : List RField} (hd : (all.map nameBytes).Nodup) (h1 : fs.map nameBytes = all.map nameBytes)
    (h2 : ∀ f ∈ fs, f ∈ all) : fs = all := by
  have inj : ∀ f ∈ all, ∀ g ∈ all, nameBytes f = nameBytes g → f = g := fun f hf g hg => List.inj_on_of_nodup_map hd hf hg
  have hl : fs.length = all.length := by
    have := congrArg List.length h1
    simpa using this
  apply List.ext_getElem hl
  intro i hi hi'
  apply inj _ (h2 _ (List.getElem_mem hi)) _ (List.getElem_mem hi')
  have := congrArg (fun l => l[i]?) h1
  simp only [List.getElem?_map, List.getElem?_eq_getElem hi, List.getElem?_eq_getElem hi', Option.map_some,
    Option.some.injEq] at this
  exact this

/-- C62: `$Py.key("*")` selects all fields. -/
theorem C62_star (text : Bytes) (all : List RField) (h : Spells [[42]] text) (hd : (all.map nameBytes).Nodup) (ha : all ≠ []) :
    keyFields text all = .ok all := by
  have hstrip : stripB text = [42] := by
    cases h with
    | one pre _ post h1 h2 =>
      exact strip_pad (fun b hb => (isSpaceB_iff b).mpr (h1 b hb)) (fun b hb => (isSpaceB_iff b).mpr (h2 b hb)) (by decide)
    | cons pre _ post _ rest h1 h2 h3 => cases h3
  have e : keyNames text (all.map nameBytes) = .ok (all.map nameBytes) := by
    unfold keyNames
    simp only [hstrip, if_true]
    rw [if_pos]
    rw [List.all_eq_true]
    intro x hx
    simpa using hx
  obtain ⟨fs, h1, h2, h3⟩ := pick_spec (all := all) (names := all.map nameBytes) fun x hx => hx
  have := pick_all hd h2 h3
  subst this
  unfold keyFields
  rw [bind_okP e, bind_okP h1, if_neg ha]
  rfl

/-! ## Comparison and hash -/

/-- C62: comparing two messages that have keys does not raise, and says whether the keys are the same: whatever the
classes and the layouts of the two messages are. -/
theorem C62_eq (E : Env) (ks : Nat → Option (List RField)) (n fuel : Nat) (hfuel : 5 * (n + 1) ≤ fuel)
    (c1 c2 : Nat) (o1 o2 : StructObj) (v1 v2 : Val) (h1 : Denotes o1 v1) (h2 : Denotes o2 v2) (k1 k2 : KeyVal)
    (hk1 : keyOf false E ks n c1 v1 = some k1) (hk2 : keyOf false E ks n c2 v2 = some k2) :
    ∃ r, eqObjects E ks n fuel c1 o1 c2 o2 = .ok r ∧ (r = true ↔ k1 = k2) := by
  obtain ⟨x, hx, a1, a2, a3⟩ := objectOf_spec false E ks n c1 v1 k1 hk1 o1 h1
  obtain ⟨y, hy, b1, b2, b3⟩ := objectOf_spec false E ks n c2 v2 k2 hk2 o2 h2
  obtain ⟨r, hr, hi⟩ := pyEq_spec fuel x y a1 b1 (by omega) (by omega)
  refine ⟨r, ?_, by rw [hi, a2, b2]⟩
  unfold eqObjects
  rw [bind_okP hx, bind_okP hy, hr]

/-- C62: `!=` is the negation of `==`. -/
theorem C62_ne (E : Env) (ks : Nat → Option (List RField)) (n fuel : Nat) (hfuel : 5 * (n + 1) ≤ fuel + 1)
    (c1 c2 : Nat) (o1 o2 : StructObj) (v1 v2 : Val) (h1 : Denotes o1 v1) (h2 : Denotes o2 v2) (k1 k2 : KeyVal)
    (hk1 : keyOf false E ks n c1 v1 = some k1) (hk2 : keyOf false E ks n c2 v2 = some k2) :
    ∃ r, neObjects E ks n fuel c1 o1 c2 o2 = .ok r ∧ (r = true ↔ k1 ≠ k2) := by
  obtain ⟨x, hx, a1, a2, a3⟩ := objectOf_spec false E ks n c1 v1 k1 hk1 o1 h1
  obtain ⟨y, hy, b1, b2, b3⟩ := objectOf_spec false E ks n c2 v2 k2 hk2 o2 h2
  obtain ⟨r, hr, hi⟩ := pyEq_spec (fuel + 1) x y a1 b1 (by omega) (by omega)
  have hkx : ∃ xs, x = .keyed xs := by
    cases n with
    | zero => cases hk1
    | succ n =>
      unfold objectOf at hx
      cases hc : ks c1 with
      | none => rw [hc] at hx; injection hx with hx; subst hx; exact absurd a1 (by simp [Comparable])
      | some fs =>
        rw [hc] at hx
        simp only [] at hx
        cases hv : keyValues E (objectOf E ks n) o1 (E.cls c1).union fs with
        | error e => rw [hv] at hx; cases hx
        | ok xs => rw [bind_okP hv] at hx; injection hx with hx; exact ⟨xs, hx.symm⟩
  obtain ⟨xs, rfl⟩ := hkx
  have hse : structEquals fuel (.keyed xs) y = .ok r := by
    rw [← hr]
    simp only [pyEq]
  refine ⟨!r, ?_, ?_⟩
  · unfold neObjects
    rw [bind_okP hx, bind_okP hy, bind_okP hse]
    rfl
  · rw [← a2, ← b2]
    cases r <;> simp_all

/-- C62: a message compares equal to a tuple exactly if the tuple is its key. -/
theorem C62_eq_tuple (E : Env) (ks : Nat → Option (List RField)) (n fuel : Nat) (hfuel : 5 * (n + 1) ≤ fuel)
    (c : Nat) (o : StructObj) (v : Val) (h : Denotes o v) (k : KeyVal) (hk : keyOf false E ks n c v = some k)
    (ys : List PyObj) (hc : Comparables ys) (hd : 5 * (objDepths ys + 1) ≤ fuel) :
    ∃ x r, objectOf E ks n c o = .ok x ∧ pyEq fuel x (.tuple ys) = .ok r ∧ (r = true ↔ k = .tuple (ys.map denote)) := by
  obtain ⟨x, hx, a1, a2, a3⟩ := objectOf_spec false E ks n c v k hk o h
  obtain ⟨r, hr, hi⟩ := pyEq_spec fuel x (.tuple ys) a1 (by simpa only [Comparable] using hc) (by omega)
    (by simp only [objDepth]; omega)
  refine ⟨x, r, hx, hr, ?_⟩
  rw [hi, a2, ← denotes_eq_map]
  simp only [denote]

/-- C62: the hash of a message that has a key is defined, and it is that of any tuple which equals the key; so equal
messages have the same hash. -/
theorem C62_hash (E : Env) (H : HashEnv) (ks : Nat → Option (List RField)) (n : Nat)
    (c : Nat) (o : StructObj) (v : Val) (h : Denotes o v) (k : KeyVal) (hk : keyOf false E ks n c v = some k) :
    ∃ x, hashObject E H ks n c o = .ok x ∧
      (∀ ys, Comparables ys → k = .tuple (ys.map denote) → pyHash H (.tuple ys) = .ok x) ∧
      (∀ c' o' v', Denotes o' v' → keyOf false E ks n c' v' = some k → hashObject E H ks n c' o' = .ok x) := by
  have key : ∀ c o v, Denotes o v → keyOf false E ks n c v = some k → hashObject E H ks n c o = .ok (valHash H k) := by
    intro c o v h hk
    obtain ⟨x, hx, a1, a2, a3⟩ := objectOf_spec false E ks n c v k hk o h
    unfold hashObject
    rw [bind_okP hx, pyHash_denote H x a1, a2]
  refine ⟨valHash H k, key c o v h hk, fun ys hc hy => ?_, fun c' o' v' h' hk' => key c' o' v' h' hk'⟩
  rw [pyHash_denote H _ (by simpa only [Comparable] using hc), hy, ← denotes_eq_map]
  simp only [denote]

/-- C62: two messages of the same class with the same content are equal and have the same hash, however they are laid
out in their buffers: in particular a copy equals the original. -/
theorem C62_same_value (E : Env) (H : HashEnv) (ks : Nat → Option (List RField)) (n fuel : Nat) (hfuel : 5 * (n + 1) ≤ fuel)
    (c : Nat) (o1 o2 : StructObj) (v : Val) (h1 : Denotes o1 v) (h2 : Denotes o2 v) (k : KeyVal)
    (hk : keyOf false E ks n c v = some k) :
    eqObjects E ks n fuel c o1 c o2 = .ok true ∧ hashObject E H ks n c o1 = hashObject E H ks n c o2 := by
  obtain ⟨r, hr, hi⟩ := C62_eq E ks n fuel hfuel c c o1 o2 v v h1 h2 k k hk hk
  obtain ⟨x, hx, _, hy⟩ := C62_hash E H ks n c o1 v h1 k hk
  refine ⟨by rw [hr, hi.mpr rfl], ?_⟩
  rw [hx, hy c o2 v h2 hk]

/-- C62: the `__hash__` generated for the compiled version returns the hash of the pure version: if no unicode text
among the key fields is null, see `C34_null_unicode_hash`. -/
theorem C62_compiled_hash (E : Env) (H : HashEnv) (hH : H.Valid) (ks : Nat → Option (List RField))
    (hd : ∀ c fs, ks c = some fs → IntegersFit fs) (n : Nat)
    (c : Nat) (o : StructObj) (v : Val) (h : Denotes o v) (k : KeyVal) (hk : keyOf true E ks n c v = some k) :
    ∃ x, hashObject E H ks n c o = .ok x ∧ hashObjectC E H ks n c o = .ret (.ok x) false := by
  refine ⟨valHash H k, ?_, hashObjectC_spec E H hH ks hd n c v k hk o h⟩
  obtain ⟨x, hx, a1, a2, a3⟩ := objectOf_spec true E ks n c v k hk o h
  unfold hashObject
  rw [bind_okP hx, pyHash_denote H x a1, a2]

/-- C62: if the class has no key, comparing and hashing raises TypeError. -/
theorem C62_no_key (E : Env) (H : HashEnv) (ks : Nat → Option (List RField)) (n fuel : Nat) (c : Nat) (o : StructObj)
    (h : ks c = none) : hashObject E H ks (n + 1) c o = .error .typeError ∧
    hashObjectC E H ks (n + 1) c o = .ret (.error .typeError) false ∧
    ∀ o', eqObjects E ks (n + 1) (fuel + 2) c o c o' = .error .typeError := by
  have e : ∀ o, objectOf E ks (n + 1) c o = .ok .unkeyed := by
    intro o
    unfold objectOf
    rw [h]
  refine ⟨?_, ?_, fun o' => ?_⟩
  · unfold hashObject
    rw [bind_okP (e o)]
    simp only [pyHash]
  · unfold hashObjectC
    rw [h]
    rfl
  · unfold eqObjects
    rw [bind_okP (e o), bind_okP (e o')]
    simp only [pyEq, structEquals, getKey]

theorem keyValues_error {E : Env} {rec : Nat → StructObj → Py PyObj} {o : StructObj} {u : Option Nat} {f : RField}
    (hf : ∃ e, prop E rec o u f = .error e) : ∀ {fs : List RField}, f ∈ fs → ∃ e, keyValues E rec o u fs = .error e
  | [], h => by cases h
  | g :: fs, h => by
    unfold keyValues
    cases hp : prop E rec o u g with
    | error e => exact ⟨e, rfl⟩
    | ok x =>
      rw [bind_okP rfl]
      rcases List.mem_cons.mp h with rfl | h
      · obtain ⟨e, he⟩ := hf
        rw [he] at hp
        cases hp
      · obtain ⟨e, he⟩ := keyValues_error hf h
        rw [he]
        exact ⟨e, rfl⟩

/-- C62: if one of the key fields is a member of the union which is not the active one, comparing and hashing raises. -/
theorem C62_inactive (E : Env) (H : HashEnv) (ks : Nat → Option (List RField)) (n fuel : Nat) (c : Nat) (o : StructObj)
    (data : Bytes) (ptrs : List Val) (ho : Denotes o (.struct data ptrs)) (fs : List RField) (h : ks c = some fs)
    (f : RField) (hf : f ∈ fs) (d u : Nat) (hd : f.disc = some d) (hd' : d < 2 ^ 15) (hu : (E.cls c).union = some u)
    (ht : tagOf data u ≠ d) :
    (∃ e, hashObject E H ks (n + 1) c o = .error e) ∧
    ∀ c' o', ∃ e, eqObjects E ks (n + 1) fuel c o c' o' = .error e := by
  have hens : ensureMember o (E.cls c).union f.disc = .error .valueError := by
    rw [hd, hu]
    show o.ensureUnion (some ((u * 2 : Nat) : Int)) d = _
    unfold StructObj.ensureUnion StructObj.whichRaw
    have e := Short.valueOf_h_eq (Short.bytesZ_length data (2 * u) 2) hd'
    rw [bind_okP (Short.readInt16_spec ho u), if_pos]
    · rfl
    · intro hc
      rw [hc] at e
      unfold tagOf at ht
      simp [ht] at e
  have hp : ∃ e, prop E (objectOf E ks n) o (E.cls c).union f = .error e := by
    refine ⟨.valueError, ?_⟩
    unfold prop
    split
    · rw [hens]; rfl
    · unfold prop0
      rw [hens]; rfl
  obtain ⟨e, he⟩ := keyValues_error hp hf
  have hobj : objectOf E ks (n + 1) c o = .error e := by
    unfold objectOf
    rw [h]
    simp only [he]
    rfl
  refine ⟨⟨e, ?_⟩, fun c' o' => ⟨e, ?_⟩⟩
  · unfold hashObject
    rw [hobj]; rfl
  · unfold eqObjects
    rw [hobj]; rfl

/-! ## An example -/

/-- A class with a Data field, a Bool, a group with an integer field, and a struct without fields. -/
def keyEnv : Env where
  cls c :=
    if c = 0 then ⟨1, 2, none, [⟨"raw".toList, none, .data 1⟩, ⟨"flag".toList, none, .bool 2 none⟩,
      ⟨"grp".toList, none, .group 1 false⟩, ⟨"sub".toList, none, .struct 1 0⟩]⟩
    else ⟨1, 2, none, [⟨"num".toList, none, .prim .b 0 (some (-1))⟩]⟩
  floatRepr _ _ := "0.0".toList

/-- The key fields: all, with a key for the group and the nested struct. -/
def keyTable (c : Nat) : Option (List RField) :=
  if c ≤ 1 then some (keyEnv.cls c).fields else none

theorem keyExample (strict : Bool) : keyOf strict keyEnv keyTable 2 0 sampleVal =
    some (.tuple [.bytes [1, 2, 3], .int 1, .tuple [.int (-78)], .tuple [.int (-1)]]) := by
  have ha : ∀ data u, Active data u none := fun data u d hd => by cases hd
  simp [keyOf, sampleVal, keyTable, keyEnv, allSome, fieldKey, kindKey, ha, child, dataKey, Short.dataOf, intKey]
  decide +kernel

example : ∃ fs, keyFields [102, 108, 97, 103, 44, 32, 114, 97, 119] (keyEnv.cls 0).fields = .ok fs ∧
    fs.map nameBytes = [[102, 108, 97, 103], [114, 97, 119]] ∧ ∀ f ∈ fs, f ∈ (keyEnv.cls 0).fields :=
  (C62_annotation [[102, 108, 97, 103], [114, 97, 119]] _ (keyEnv.cls 0).fields
    (.cons [] _ [] _ _ (by simp) (by simp) (.one [32] [114, 97, 119] [] (by simp [IsSpace]) (by simp)))
    (by simp [IsName, IsSpace]) (by decide)).1 (by decide)

example : keyFields [42, 32] (keyEnv.cls 0).fields = .ok (keyEnv.cls 0).fields :=
  C62_star [42, 32] _ (.one [] [42] [32] (by simp) (by simp [IsSpace])) (by decide) (by decide)

/-- The copy of the sample made by `compact()`. -/
example : ∃ o', sampleObj.compact 5 = .ok o' ∧ eqObjects keyEnv keyTable 2 15 0 sampleObj 0 o' = .ok true := by
  obtain ⟨o', h1, h2, _⟩ := C14_compact sample_denotes (by simp [sampleVal, Val.Fits, Val.AllFits])
    (by decide) (by decide) (fuel := 5) (by decide)
  exact ⟨o', h1, (C62_same_value keyEnv ⟨0, fun _ => 0, fun _ => 0⟩ keyTable 2 15 (by decide) 0 sampleObj o' sampleVal
    sample_denotes h2 _ (keyExample false)).1⟩

theorem keyTable_fit (c : Nat) (fs : List RField) (h : keyTable c = some fs) : IntegersFit fs := by
  unfold keyTable at h
  split at h
  · injection h with h
    subst h
    rename_i hc
    intro f hf fmt off d hk
    interval_cases c
    · simp [keyEnv] at hf
      rcases hf with rfl | rfl | rfl | rfl <;> cases hk
    · simp [keyEnv] at hf
      subst hf
      cases hk
      exact ⟨by decide, by decide, by intro x hx; cases hx; simp [InRange, isSigned, Fmt.size]⟩
  · cases h

example : ∃ x, hashObjectC keyEnv ⟨7, fun _ => 8, fun _ => 9⟩ keyTable 2 0 sampleObj = .ret (.ok x) false := by
  obtain ⟨x, _, h⟩ := C62_compiled_hash keyEnv ⟨7, fun _ => 8, fun _ => 9⟩ ⟨by decide, by simp, by simp⟩
    keyTable keyTable_fit 2 0 sampleObj sampleVal sample_denotes _ (keyExample true)
  exact ⟨x, h⟩

/-! ## What is not true -/

/-- A class with one Text field, first member of the union at offset 0 if `u`. -/
def textEnv (uni u : Bool) : Env where
  cls _ := ⟨1, 1, if u then some 0 else none,
    [⟨"text".toList, if u then some 0 else none, if uni then .textUnicode 0 else .textBytes 0⟩]⟩
  floatRepr _ _ := "0.0".toList

/-- Hash functions for the examples. -/
def lenHash : HashEnv := ⟨5, fun b => BitVec.ofNat 64 (b.length + 1), fun b => BitVec.ofNat 64 (b.length + 100)⟩

/-- Instances of different classes are equal if their keys are: a price of 7 equals an age of 7. -/
theorem C62_other_class : ∃ (E : Env) (ks : Nat → Option (List RField)) (o : StructObj),
    (E.cls 0).fields ≠ (E.cls 1).fields ∧ loads (cyMsg [sp 0 1 0, 7]) = .ok (some o) ∧
    eqObjects E ks 2 20 0 o 1 o = .ok true := by
  refine ⟨⟨fun c => if c = 0 then ⟨1, 0, none, [⟨"price".toList, none, .prim .q 0 none⟩]⟩
    else ⟨1, 0, none, [⟨"age".toList, none, .prim .b 0 none⟩]⟩, fun _ _ => []⟩,
    fun c => if c = 0 then some [⟨"price".toList, none, .prim .q 0 none⟩] else some [⟨"age".toList, none, .prim .b 0 none⟩],
    ⟨⟨words [sp 0 1 0, 7], none⟩, 8, 16, 1, 0⟩, ?_, ?_, ?_⟩
  · simp
  · decide +kernel
  · have e1 : ∀ E ks c o nm fmt, ks c = some [⟨nm, none, .prim fmt 0 none⟩] →
        StructObj.primField o ((0 * fmt.size : Nat) : Int) fmt 0 = .ok 7 → objectOf E ks 2 c o = .ok (.keyed [.int 7]) := by
      intro E ks c o nm fmt h1 h2
      unfold objectOf
      rw [h1]
      simp only [keyValues, prop, prop0]
      rw [bind_okP (show ensureMember o (E.cls c).union none = .ok () from rfl)]
      simp only [Option.getD_none, h2]
      rfl
    unfold eqObjects
    rw [bind_okP (e1 _ _ _ _ "price".toList .q (by rw [if_pos rfl]) (by decide +kernel)),
      bind_okP (e1 _ _ _ _ "age".toList .b (by rw [if_neg (by decide)]) (by decide +kernel))]
    simp [pyEq, structEquals, getKey, tupleEq]

/-- Finding: a unicode text which is not valid UTF-8: the pure version raises, the compiled one prints the exception
and hashes the field as 0. -/
theorem C62_invalid_utf8 : ∃ o, loads (cyMsg [sp 0 0 1, 1 + 2 * 2 ^ 32 + 2 * 2 ^ 35, 0xff]) = .ok (some o) ∧
    hashObject (textEnv true false) lenHash (fun c => some ((textEnv true false).cls c).fields) 1 0 o = .error .unicodeError ∧
    ∃ x, hashObjectC (textEnv true false) lenHash (fun c => some ((textEnv true false).cls c).fields) 1 0 o = .ret (.ok x) true := by
  refine ⟨⟨⟨words [sp 0 0 1, 1 + 2 * 2 ^ 32 + 2 * 2 ^ 35, 0xff], none⟩, 8, 8, 0, 1⟩, by decide +kernel, by decide +kernel,
    tuplehash [0#64], by decide +kernel⟩

/-- Finding: a unicode text which is not the active member of the union: the pure version raises ValueError, the
compiled hash does not look at the union. -/
theorem C62_unchecked_union : ∃ o, loads (cyMsg [sp 0 1 1, 1, 1 + 2 * 2 ^ 32 + 2 * 2 ^ 35, 0x61]) = .ok (some o) ∧
    hashObject (textEnv true true) lenHash (fun c => some ((textEnv true true).cls c).fields) 1 0 o = .error .valueError ∧
    ∃ x, hashObjectC (textEnv true true) lenHash (fun c => some ((textEnv true true).cls c).fields) 1 0 o = .ret (.ok x) false := by
  refine ⟨⟨⟨words [sp 0 1 1, 1, 1 + 2 * 2 ^ 32 + 2 * 2 ^ 35, 0x61], none⟩, 8, 16, 1, 1⟩, by decide +kernel, by decide +kernel,
    tuplehash [101#64], by decide +kernel⟩

/-- Finding: a text whose pointer says "0 bytes" (it lacks the trailing zero): the pure version hashes the empty text,
the compiled one has undefined behaviour. -/
theorem C62_unterminated : ∃ o, loads (cyMsg [sp 0 0 1, 1 + 2 * 2 ^ 32, 0]) = .ok (some o) ∧
    (∃ x, hashObject (textEnv false false) lenHash (fun c => some ((textEnv false false).cls c).fields) 1 0 o = .ok x) ∧
    hashObjectC (textEnv false false) lenHash (fun c => some ((textEnv false false).cls c).fields) 1 0 o = .crash := by
  refine ⟨⟨⟨words [sp 0 0 1, 1 + 2 * 2 ^ 32, 0], none⟩, 8, 8, 0, 1⟩, by decide +kernel,
    ⟨BitVec.ofNat 64 (Spec.pyTupleHash [1]), by decide +kernel⟩, by decide +kernel⟩

end Capnpy.Props
