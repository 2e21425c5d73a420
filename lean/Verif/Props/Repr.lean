import Verif.Proof.ReprMain
import Verif.Props.Copy

/-!
# C50: `shortrepr()`

The text depends only on the value, and it can be read back: it is in the grammar of
`Spec/Repr.lean` and its tree is the tree of the value.
-/

namespace Capnpy.Props

open Spec Capnpy.Repr Short

/-- C50: the text depends only on the value, not on the buffer that holds it. -/
theorem C50_same_text {E : Env} {n c : Nat} {v : Val} {t : Tree} (h : treeOf false E n c v = some t)
    {o o' : StructObj} (ho : Denotes o v) (ho' : Denotes o' v) :
    ∃ s, shortrepr E n c o = .ok s ∧ shortrepr E n c o' = .ok s := by
  obtain ⟨s, h1, -⟩ := shortrepr_spec false E n c v t h
  exact ⟨s, h1 o ho, h1 o' ho'⟩

/-- C50: reading the text back gives the tree of the value. -/
theorem C50_parse {E : Env} (hE : Named E) {n c : Nat} {v : Val} {t : Tree}
    (h : treeOf true E n c v = some t) {o : StructObj} (ho : Denotes o v) :
    ∃ s, shortrepr E n c o = .ok s ∧ parse s = some t := by
  obtain ⟨s, h1, h2⟩ := shortrepr_spec true E n c v t h
  exact ⟨s, h1 o ho, (h2 rfl hE).parse⟩

/-- C50: objects whose values have different trees print differently. -/
theorem C50_injective {E : Env} (hE : Named E) {n c c' : Nat} {v v' : Val} {t t' : Tree}
    (h : treeOf true E n c v = some t) (h' : treeOf true E n c' v' = some t') (hne : t ≠ t')
    {o o' : StructObj} (ho : Denotes o v) (ho' : Denotes o' v') :
    shortrepr E n c o ≠ shortrepr E n c' o' := by
  obtain ⟨s, h1, h2⟩ := C50_parse hE h ho
  obtain ⟨s', h1', h2'⟩ := C50_parse hE h' ho'
  rw [h1, h1']
  intro e
  injection e with e
  subst e
  rw [h2] at h2'
  injection h2' with e
  exact hne e

/-- C50: the copy made by `compact()` prints the same text. -/
theorem C50_compact {E : Env} {n c : Nat} {v : Val} {t : Tree} (h : treeOf false E n c v = some t)
    {o : StructObj} (ho : Denotes o v) (hf : v.Fits) (hlen : o.seg.buf.length ≤ 2 ^ 32)
    (hsz : 8 + v.size ≤ 2 ^ 32) {fuel : Nat} (hfuel : 2 * v.depth ≤ fuel + 1) :
    ∃ o' s, o.compact fuel = .ok o' ∧ shortrepr E n c o = .ok s ∧ shortrepr E n c o' = .ok s := by
  obtain ⟨o', h1, h2, -⟩ := C14_compact ho hf hlen hsz hfuel
  obtain ⟨s, h3, h4⟩ := C50_same_text h ho h2
  exact ⟨o', s, h1, h3, h4⟩

/-! ## Numbers and literals -/

theorem readNat_eq (s : List Char) : readNat s = Nat.ofDigitChars 10 s 0 := by
  rfl

/-- C50: the number printed for an integer is that integer in decimal. -/
theorem C50_decimal (i : Int) : readInt (intRepr i) = i := by
  cases i with
  | ofNat n =>
    show readInt (intRepr (n : Int)) = n
    rw [intRepr_ofNat]
    have hd : ∀ c ∈ Nat.toDigits 10 n, c.isDigit = true := fun c hc =>
      Nat.isDigit_of_mem_toDigits (by decide) (by decide) hc
    have e : readNat (Nat.toDigits 10 n) = n := by rw [readNat_eq, Nat.ofDigitChars_ten_toDigits]
    unfold readInt
    split
    · rename_i s hs
      have := hd '-' (by rw [hs]; exact List.mem_cons_self)
      exact absurd this (by decide)
    · rw [e]
  | negSucc n =>
    rw [intRepr_negSucc]
    show -((readNat (Nat.toDigits 10 (n + 1)) : Nat) : Int) = _
    rw [readNat_eq, Nat.ofDigitChars_ten_toDigits]
    rfl

/-- C50: the literal printed for a Data field reads back as exactly its bytes, whatever
they are. -/
theorem C50_data_literal (b : Bytes) : parse (dataRepr b) = some (.str b) := by
  rw [dataRepr_eq]
  exact (Rendered.str (fun r => parseStr_data b r)).parse

/-- C50: the literal printed for a text without backslash and newline reads back as
exactly the UTF-8 encoding of its characters. -/
theorem C50_text_literal (cs : List Char) (h1 : '\\' ∉ cs) (h2 : '\n' ∉ cs) :
    ∃ s, textUnicodeRepr (some cs) = .ok s ∧ parse s = some (.str (cs.flatMap String.utf8EncodeChar)) :=
  ⟨_, textUnicodeRepr_some cs, (Rendered.str (fun r => parseStr_text cs r h1 h2)).parse⟩

/-! ## A case that meets the hypotheses -/

/-- A module: a struct with an unsigned 64-bit number, an empty struct and a Data field. -/
def sampleEnv : Env where
  cls c :=
    if c = 0 then
      ⟨1, 2, none, [⟨"num".toList, none, .prim .Q 0 none⟩, ⟨"sub".toList, none, .struct 1 0⟩,
        ⟨"raw".toList, none, .data 1⟩]⟩
    else ⟨0, 0, none, []⟩
  floatRepr _ _ := "0.0".toList

theorem sampleEnv_named : Named sampleEnv := by
  constructor
  · intro c f hf
    unfold sampleEnv at hf
    by_cases hc : c = 0
    · subst hc
      simp only [if_pos] at hf
      simp only [List.mem_cons, List.not_mem_nil, or_false] at hf
      rcases hf with rfl | rfl | rfl <;>
        exact ⟨by decide, by decide, fun _ _ _ h => by cases h⟩
    · simp only [if_neg hc] at hf
      cases hf
  · intro _ _
    show "0.0".toList ≠ [] ∧ ∀ x ∈ "0.0".toList, isAtom x = true
    decide

/-- The tree `(num = 77, sub = (), raw = "\x01\x02\x03")`. -/
theorem sample_tree : treeOf true sampleEnv 2 0 sampleVal = some (.struct [("num".toList, .atom "77".toList),
    ("sub".toList, .struct []), ("raw".toList, .str [1, 2, 3])]) := by
  rfl

example : ∃ s, shortrepr sampleEnv 2 0 sampleObj = .ok s ∧ parse s = some (.struct
    [("num".toList, .atom "77".toList), ("sub".toList, .struct []), ("raw".toList, .str [1, 2, 3])]) :=
  C50_parse sampleEnv_named sample_tree sample_denotes

example : shortrepr sampleEnv 2 0 sampleObj = .ok "(num = 77, sub = (), raw = \"\\x01\\x02\\x03\")".toList := by
  decide +kernel

/-- Another view of the same object: a Bool, an enum, a union of a list and a struct, and
a group. -/
def sampleEnv2 : Env where
  cls c :=
    if c = 0 then
      ⟨1, 2, some 0, [⟨"flag".toList, none, .bool 2 none⟩, ⟨"color".toList, none, .enum ["red", "blue"] 1 (some 1)⟩,
        ⟨"xs".toList, some 77, .list (.prim .b) 1⟩, ⟨"other".toList, some 3, .struct 1 0⟩,
        ⟨"grp".toList, none, .group 1 false⟩]⟩
    else ⟨1, 2, none, [⟨"num".toList, none, .prim .b 0 (some (-1))⟩]⟩
  floatRepr _ _ := "0.0".toList

theorem sampleEnv2_named : Named sampleEnv2 := by
  constructor
  · intro c f hf
    unfold sampleEnv2 at hf
    by_cases hc : c = 0
    · subst hc
      simp only [if_pos] at hf
      simp only [List.mem_cons, List.not_mem_nil, or_false] at hf
      rcases hf with rfl | rfl | rfl | rfl | rfl
      · exact ⟨by decide, by decide, fun _ _ _ h => by cases h⟩
      · exact ⟨by decide, by decide, fun _ _ _ h => by cases h; decide⟩
      · exact ⟨by decide, by decide, fun _ _ _ h => by cases h⟩
      · exact ⟨by decide, by decide, fun _ _ _ h => by cases h⟩
      · exact ⟨by decide, by decide, fun _ _ _ h => by cases h⟩
    · simp only [if_neg hc] at hf
      simp only [List.mem_cons, List.not_mem_nil, or_false] at hf
      subst hf
      exact ⟨by decide, by decide, fun _ _ _ h => by cases h⟩
  · intro _ _
    show "0.0".toList ≠ [] ∧ ∀ x ∈ "0.0".toList, isAtom x = true
    decide

example : ∃ s, shortrepr sampleEnv2 2 0 sampleObj = .ok s ∧ parse s = some (.struct
    [("flag".toList, .atom "true".toList), ("color".toList, .atom "blue".toList),
      ("xs".toList, .list [.atom "1".toList, .atom "2".toList, .atom "3".toList]),
      ("grp".toList, .struct [("num".toList, .atom "-78".toList)])]) :=
  C50_parse sampleEnv2_named (by rfl) sample_denotes

/-! ## What is not true -/

/-- Texts with backslashes do not read back: the two characters `\n` print like the
escape for a newline. -/
theorem C50_backslash_wrong : ∃ s, textUnicodeRepr (some ['\\', 'n']) = .ok s ∧ parse s = some (.str [10]) :=
  ⟨"\"\\n\"".toList, by decide +kernel, rfl⟩

/-- A text ending in a backslash prints as an unterminated literal. -/
theorem C50_backslash_unreadable :
    ∃ s, textUnicodeRepr (some ['\\']) = .ok s ∧ parse s = none :=
  ⟨"\"\\\"".toList, by decide +kernel, rfl⟩

/-- A list of texts with a null item cannot be printed, unlike a null text field. -/
theorem C50_null_text_item (E : Env) (rec : Nat → StructObj → Py Str) :
    itemRepr E rec .textBytes .none = .error .attributeError ∧
    itemRepr E rec .textUnicode .none = .error .attributeError ∧
    itemRepr E rec .data .none = .error .attributeError := ⟨rfl, rfl, rfl⟩

/-- A Data item of a list, unlike a Data field, must be valid UTF-8. -/
theorem C50_data_item_binary (E : Env) (rec : Nat → StructObj → Py Str) {b : Bytes}
    (h : b.toByteArray.utf8Decode? = none) : itemRepr E rec .data (.bytes b) = .error .unicodeError := by
  show textBytesRepr (some b) = _
  have e : decodeMaybe (some b) = .error .unicodeError := by
    unfold decodeMaybe decodeUtf8
    simp only [h, Option.map_none]
  unfold textBytesRepr
  rw [e]
  rfl

example : ([255] : Bytes).toByteArray.utf8Decode? = none := by decide +kernel

/-- Enums in lists print in another way than enums in fields, and outside the grammar. -/
theorem C50_enum_item (E : Env) (rec : Nat → StructObj → Py Str) :
    ∃ s, itemRepr E rec (.enum "Color".toList ["red", "blue"]) (.int 1) = .ok s ∧ s = "<Color.blue: 1>".toList ∧
      parse s = none :=
  ⟨"<Color.blue: 1>".toList, by
    show enumRepr _ _ _ = _
    decide +kernel, rfl, rfl⟩

/-- A struct whose union starts with a nullable group cannot be printed at all. -/
theorem C50_nullable_member (E : Env) {c g d : Nat} {u : Option Nat} {name : Str} {fs : List RField} {ds ps : Nat}
    (h : E.cls c = ⟨ds, ps, u, ⟨name, some d, .group g true⟩ :: fs⟩) (n : Nat) (o : StructObj) :
    shortrepr E (n + 1) c o = .error .attributeError := by
  unfold shortrepr
  rw [h]
  rfl

end Capnpy.Props
