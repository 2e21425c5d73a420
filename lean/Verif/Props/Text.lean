import Verif.Proof.Text
import Verif.Props.Fields
import Verif.Props.Ctor

/-!
# C66: Text fields with `textType = unicode`

`Utf8 s b`, `UVal`, `SameU`, `Encodable`, `ArgEnc`: see Spec/Text.lean.
-/

namespace Capnpy.Props

open Spec Capnpy.Text

/-! ## The codec -/

/-- C66: encoding and decoding are utf-8, strictly: `s.encode` returns `b` exactly when `b` is the utf-8 encoding of
`s`, and `b.decode` returns `s` exactly when `b` is the utf-8 encoding of `s`; both raise UnicodeError otherwise, and
a string can be encoded exactly when it has no surrogates.  So no two strings have the same bytes, and no
bytes are two strings. -/
theorem C66_codec (s : PyStr) (b : Bytes) :
    (encode s = .ok b ↔ Utf8 s b) ∧ (decode b = .ok s ↔ Utf8 s b) ∧
    (NoSurrogates s → ∃ b, encode s = .ok b ∧ decode b = .ok s) ∧
    (¬ NoSurrogates s → encode s = .error .unicodeError) ∧
    ((∀ s, ¬ Utf8 s b) → decode b = .error .unicodeError) := by
  refine ⟨encode_ok_iff, decode_ok_iff, fun h => ?_, encode_error, decode_error⟩
  obtain ⟨b, hb⟩ := utf8_exists_iff.mpr h
  exact ⟨b, encode_ok_iff.mpr hb, decode_ok_iff.mpr hb⟩

/-- "é€😀" and a NUL: one to four bytes each. -/
def sampleStr : PyStr := [0xe9, 0x20ac, 0x1f600, 0]
def sampleUtf8 : Bytes := [0xc3, 0xa9, 0xe2, 0x82, 0xac, 0xf0, 0x9f, 0x98, 0x80, 0]

theorem sample_utf8 : Utf8 sampleStr sampleUtf8 := encode_ok_iff.mp (by decide +kernel)

example : NoSurrogates sampleStr := utf8_exists_iff.mp ⟨_, sample_utf8⟩
/-- A lone surrogate. -/
example : ¬ NoSurrogates [0x41, 0xd800] := fun h => h 0xd800 (by decide) (by decide)

/-- Bytes that are not utf-8: a stray byte, a truncated sequence, an overlong one, an encoded surrogate. -/
theorem notUtf8 {b : Bytes} (h : b.toByteArray.utf8Decode? = none) (s : PyStr) : ¬ Utf8 s b := by
  intro hu
  have := decode_ok_iff.mpr hu
  unfold decode Capnpy.Repr.decodeUtf8 at this
  rw [h] at this
  cases this

example : (∀ s, ¬ Utf8 s [0xff]) ∧ (∀ s, ¬ Utf8 s [0xe2, 0x82]) ∧ (∀ s, ¬ Utf8 s [0xc0, 0x80]) ∧
    (∀ s, ¬ Utf8 s [0xed, 0xa0, 0x80]) :=
  ⟨notUtf8 (by decide +kernel), notUtf8 (by decide +kernel), notUtf8 (by decide +kernel),
    notUtf8 (by decide +kernel)⟩

/-! ## Reading fields -/

theorem unicode_of_text {o : StructObj} {k : Int} {d : Option Bytes} {r : Py (Option Bytes)}
    (h : o.readTextBytes k d = r) : readTextUnicode o k d = r >>= decodeMaybe := by
  subst h; rfl

/-- C66: for every object and field, valid or not: the unicode accessor returns a string exactly when the bytes
accessor returns its utf-8 encoding, `None` exactly when that one does, and raises the same exceptions, or
UnicodeDecodeError when the bytes are not utf-8.  The same for `get_x()` and for `as_text_unicode`. -/
theorem C66_same_as_bytes (o : StructObj) (k : Int) :
    (∀ s, unicodeField o k = .ok (some s) ↔ ∃ b, o.textField k = .ok (some b) ∧ Utf8 s b) ∧
    (unicodeField o k = .ok none ↔ o.textField k = .ok none) ∧
    (∀ b, o.textField k = .ok (some b) → (∀ s, ¬ Utf8 s b) → unicodeField o k = .error .unicodeError) ∧
    (∀ e, o.textField k = .error e → unicodeField o k = .error e) ∧
    (∀ s, getUnicode o k = .ok (some s) ↔ ∃ b, o.getText k = .ok (some b) ∧ Utf8 s b) ∧
    (getUnicode o k ≠ .ok none) ∧
    (∀ b, o.getText k = .ok (some b) → (∀ s, ¬ Utf8 s b) → getUnicode o k = .error .unicodeError) ∧
    (∀ e, o.getText k = .error e → getUnicode o k = .error e) ∧
    asTextUnicode ⟨o, k⟩ = unicodeField o k := by
  have key : ∀ d, (∀ s, readTextUnicode o k d = .ok (some s) ↔ ∃ b, o.readTextBytes k d = .ok (some b) ∧ Utf8 s b) ∧
      (readTextUnicode o k d = .ok none ↔ o.readTextBytes k d = .ok none) ∧
      (∀ b, o.readTextBytes k d = .ok (some b) → (∀ s, ¬ Utf8 s b) → readTextUnicode o k d = .error .unicodeError) ∧
      (∀ e, o.readTextBytes k d = .error e → readTextUnicode o k d = .error e) := by
    intro d
    generalize hr : o.readTextBytes k d = r
    rw [unicode_of_text hr]
    cases r with
    | error e => refine ⟨fun s => ?_, ?_, ?_, ?_⟩ <;> simp [bind, Except.bind]
    | ok r =>
      cases r with
      | none =>
        refine ⟨fun s => ?_, ?_, ?_, ?_⟩ <;> simp [bind, Except.bind, decodeMaybe]
      | some b =>
        have e : ((.ok (some b) : Py (Option Bytes)) >>= decodeMaybe) = (do pure (some (← decode b))) := rfl
        rw [e]
        cases hd : decode b with
        | ok s =>
          have hu := decode_ok_iff.mp hd
          refine ⟨fun s' => ⟨fun h => ?_, ?_⟩, ?_, ?_, ?_⟩
          · cases h; exact ⟨b, rfl, hu⟩
          · rintro ⟨b', hb, h'⟩
            cases hb
            rw [utf8_unique_left h' hu]; rfl
          · constructor <;> intro h <;> cases h
          · intro b' hb h
            cases hb
            exact absurd hu (h s)
          · intro e h; cases h
        | error e =>
          refine ⟨fun s' => ⟨fun h => ?_, ?_⟩, ?_, ?_, ?_⟩
          · cases h
          · rintro ⟨b', hb, h'⟩
            cases hb
            rw [decode_ok_iff.mpr h'] at hd; cases hd
          · constructor <;> intro h <;> cases h
          · intro b' hb h
            cases hb
            rw [decode_error h] at hd
            cases hd
            rfl
          · intro e h; cases h
  obtain ⟨a1, a2, a3, a4⟩ := key none
  obtain ⟨b1, b2, b3, b4⟩ := key (some [])
  refine ⟨a1, a2, a3, a4, b1, ?_, b3, b4, rfl⟩
  intro h
  have h' : o.getText k = .ok none := b2.mp h
  rw [(C11_get o k).1] at h'
  cases ht : o.textField k with
  | error e => rw [ht] at h'; cases h'
  | ok r =>
    rw [ht] at h'
    cases r <;> cases h'

/-- C66: what the accessors return for a field of a well-formed object: `None` (and `get_x()` the empty string) for a
null one; the string whose utf-8 encoding is stored; UnicodeDecodeError if what is stored is not utf-8. -/
theorem C66_read (o : StructObj) (data : Bytes) (ptrs : List Val) (ho : Denotes o (.struct data ptrs)) (j : Nat) :
    (child ptrs j = .null → unicodeField o ((8 * j : Nat) : Int) = .ok none ∧
      getUnicode o ((8 * j : Nat) : Int) = .ok (some [])) ∧
    (∀ s b, child ptrs j = textOf b → Utf8 s b → unicodeField o ((8 * j : Nat) : Int) = .ok (some s) ∧
      getUnicode o ((8 * j : Nat) : Int) = .ok (some s)) ∧
    (∀ b, child ptrs j = textOf b → (∀ s, ¬ Utf8 s b) → unicodeField o ((8 * j : Nat) : Int) = .error .unicodeError ∧
      getUnicode o ((8 * j : Nat) : Int) = .error .unicodeError) := by
  obtain ⟨a1, a2, a3, a4, b1, b2, b3, b4, _⟩ := C66_same_as_bytes o ((8 * j : Nat) : Int)
  refine ⟨fun h => ?_, fun s b h hu => ?_, fun b h hn => ?_⟩
  · have ht := ((C10_data o data ptrs ho j).1 h).2
    refine ⟨a2.mpr ht, (b1 []).mpr ⟨[], ?_, utf8_nil⟩⟩
    rw [(C11_get o _).1, ht]
  · obtain ⟨_, h2, h3⟩ := C11_has_text o data ptrs ho j b h
    exact ⟨(a1 s).mpr ⟨b, h2, hu⟩, (b1 s).mpr ⟨b, h3, hu⟩⟩
  · obtain ⟨_, h2, h3⟩ := C11_has_text o data ptrs ho j b h
    exact ⟨a3 b h2 hn, b3 b h3 hn⟩

/-- C66: the compiled `_hash_text_unicode` hashes what `get_x()` returns.  For a null text that is the empty
string, although the field is `None` (`C34_null_unicode_hash` draws the consequence for `hash()`). -/
theorem C66_hash {H : Type} (hash : Option PyStr → H) (o : StructObj) (k : Int) :
    hashTextUnicode hash o k = (getUnicode o k).map hash ∧
    (∀ s, unicodeField o k = .ok (some s) → hashTextUnicode hash o k = .ok (hash (some s))) ∧
    (unicodeField o k = .ok none → hashTextUnicode hash o k = .ok (hash (some []))) := by
  obtain ⟨a1, a2, a3, a4, b1, b2, b3, b4, _⟩ := C66_same_as_bytes o k
  have e : hashTextUnicode hash o k = (getUnicode o k).map hash := by
    unfold hashTextUnicode getUnicode
    cases readTextUnicode o k (some []) <;> rfl
  refine ⟨e, fun s h => ?_, fun h => ?_⟩
  · obtain ⟨b, hb, hu⟩ := (a1 s).mp h
    rw [e, (b1 s).mpr ⟨b, by rw [(C11_get o k).1, hb], hu⟩]; rfl
  · rw [e, (b1 []).mpr ⟨[], by rw [(C11_get o k).1, a2.mp h], utf8_nil⟩]; rfl

/-! ## Constructing -/

theorem mapPy_enc : ∀ {us : List UArg} {as : List Arg}, List.Forall₂ ArgEnc us as →
    ListObj.mapPy encodeArg us = .ok as := by
  intro us as h
  induction h with
  | nil => rfl
  | @cons u a us as hu _ ih =>
    have e : encodeArg u = .ok a := by
      cases u with
      | plain a' => cases hu; rfl
      | unicode x =>
        cases x with
        | none => cases hu; rfl
        | str s =>
          obtain ⟨b, hb, rfl⟩ := hu
          have : encodeMaybe (.str s) = .ok (some b) := by
            show (do pure (some (← encode s)) : Py (Option Bytes)) = _
            rw [encode_ok_iff.mpr hb]; rfl
          unfold encodeArg
          simp only [this]
          rfl
        | bytes b => exact hu.elim
        | list l => exact hu.elim
        | other => exact hu.elim
    unfold ListObj.mapPy
    rw [bind_okP e, bind_okP ih]; rfl

theorem mapPy_enc_inv : ∀ {us : List UArg} {as : List Arg}, ListObj.mapPy encodeArg us = .ok as →
    List.Forall₂ ArgEnc us as := by
  intro us
  induction us with
  | nil => intro as h; cases h; exact .nil
  | cons u us ih =>
    intro as h
    unfold ListObj.mapPy at h
    cases he : encodeArg u with
    | error e => rw [he] at h; cases h
    | ok a =>
      rw [bind_okP he] at h
      cases hr : ListObj.mapPy encodeArg us with
      | error e => rw [hr] at h; cases h
      | ok as' =>
        rw [bind_okP hr] at h
        cases h
        refine .cons ?_ (ih hr)
        cases u with
        | plain a' => cases he; rfl
        | unicode x =>
          cases x with
          | none => cases he; rfl
          | str s =>
            have he : (do
              match (← (do pure (some (← encode s)) : Py (Option Bytes))) with
              | some b => pure (.bytes b)
              | none => pure .none : Py Arg) = .ok a := he
            cases hs : encode s with
            | error e => rw [hs] at he; cases he
            | ok b =>
              rw [hs] at he
              cases he
              exact ⟨b, encode_ok_iff.mp hs, rfl⟩
          | bytes b => cases he
          | list l => cases he
          | other => cases he

/-- C66: construct with any strings without surrogates (or `None`) for the unicode fields, and read back: each
unicode field is the string that was given.  The other arguments are as in C30, in particular those of
other fields may be anything acceptable. -/
theorem C66_construct (fuel : Nat) (S : Schema) (us : List UArg) (args : List Arg) (n : Nat) (hS : S.WF)
    (hl : S.locals.Nodup) (he : List.Forall₂ ArgEnc us args) (ha : AccFields fuel S.fields args n)
    (hm : (members S.fields args).length ≤ 1) (hsz : 8 * (S.dataWords + S.ptrs) + n ≤ 2 ^ 32) :
    ∃ o, construct fuel S us = .ok o ∧
      ∀ (k : Nat) (name : String) (code : Nat) (disc : Option Nat) (off : Nat) (dflt : Option Int),
        S.params[k]? = some (.slot name code disc .text off dflt) →
        (∀ s, us[k]? = some (.unicode (.str s)) → getUnicodeField o S.union disc off = .ok (some s)) ∧
        (us[k]? = some (.unicode .none) → getUnicodeField o S.union disc off = .ok none) := by
  obtain ⟨o, e, _, _, _, _, hr, _⟩ := C30_roundtrip fuel S args n hS hl ha hm hsz
  refine ⟨o, ?_, ?_⟩
  · unfold construct
    rw [bind_okP (mapPy_enc he)]; exact e
  · intro k name code disc off dflt hf
    have conv : ∀ {a : Arg} {x : Option Bytes}, args[k]? = some a → a = (x.map Arg.bytes).getD .none →
        ensureMember o S.union disc = .ok () ∧ o.textField ((off * 8 : Nat) : Int) = .ok x := by
      intro a x hak hx
      have hab : absent (.slot name code disc .text off dflt) a = false := by
        unfold absent
        rw [hx]
        cases x <;> simp [Arg.isUndefined]
      have h := hr k _ a hf hak hab
      unfold ReadsVal SlotReads at h
      have hg : getField o S.union (.slot name code disc .text off dflt) =
          .ok (((x.map RVal.bytes).getD .none)) := by
        rcases h with ⟨h1, h2⟩ | ⟨s, h1, h2⟩
        · rw [hx] at h1
          cases x with
          | none => exact h2
          | some b => cases h1
        · rw [hx] at h1
          cases x with
          | none => cases h1
          | some b => cases h1; exact h2
      unfold getField at hg
      cases hm : ensureMember o S.union disc with
      | error e => rw [hm] at hg; cases hg
      | ok u =>
        refine ⟨rfl, ?_⟩
        rw [bind_okP hm] at hg
        have hg : (do pure (((← o.textField ((off * 8 : Nat) : Int)).map RVal.bytes).getD .none) : Py RVal) = _ := hg
        cases ht : o.textField ((off * 8 : Nat) : Int) with
        | error e => rw [ht] at hg; cases hg
        | ok r =>
          rw [ht] at hg
          cases r with
          | none => cases x with
            | none => rfl
            | some b => cases hg
          | some b => cases x with
            | none => cases hg
            | some b' => cases hg; rfl
    have get : ∀ {u : UArg}, us[k]? = some u → ∃ a, args[k]? = some a ∧ ArgEnc u a := by
      intro u hu
      have hlt : k < us.length := (List.getElem?_eq_some_iff.mp hu).1
      have hlt' : k < args.length := by rw [← he.length_eq]; exact hlt
      refine ⟨args[k], List.getElem?_eq_getElem hlt', ?_⟩
      exact forall₂_get he k u args[k] hu (List.getElem?_eq_getElem hlt')
    constructor
    · intro s hk
      obtain ⟨a, h1, b, hb, h2⟩ := get hk
      obtain ⟨g1, g2⟩ := conv (x := some b) h1 h2
      unfold getUnicodeField
      rw [bind_okP g1]
      exact ((C66_same_as_bytes o _).1 s).mpr ⟨b, g2, hb⟩
    · intro hk
      obtain ⟨a, h1, h2⟩ := get hk
      obtain ⟨g1, g2⟩ := conv (x := none) h1 h2
      unfold getUnicodeField
      rw [bind_okP g1]
      exact (C66_same_as_bytes o _).2.1.mpr g2

/-- C66: nothing but strings without surrogates and `None` is ever stored in a unicode field: with `bytes`, any other
object, or a lone surrogate the constructor raises, whatever the other arguments are. -/
theorem C66_construct_typed (fuel : Nat) (S : Schema) (us : List UArg) {o : StructObj}
    (h : construct fuel S us = .ok o) : ∀ x, .unicode x ∈ us → Encodable .text x := by
  unfold construct at h
  cases hm : ListObj.mapPy encodeArg us with
  | error e => rw [hm] at h; cases h
  | ok as =>
    intro x hx
    have := mapPy_enc_inv hm
    obtain ⟨k, hk⟩ := List.getElem?_of_mem hx
    have hlt : k < us.length := (List.getElem?_eq_some_iff.mp hk).1
    have hlt' : k < as.length := by rw [← this.length_eq]; exact hlt
    have h := forall₂_get this k _ as[k] hk (List.getElem?_eq_getElem hlt')
    cases x with
    | none => trivial
    | str s =>
      obtain ⟨b, hb, _⟩ := h
      exact utf8_exists_iff.mp ⟨b, hb⟩
    | bytes b => exact h.elim
    | list l => exact h.elim
    | other => exact h.elim

/-! ## Lists -/

/-- C66: any (nested) list of strings without surrogates and `None`s can be written into any pointer slot of any
struct of a builder; reading the field back gives a list with the same length and the same strings; the rest of
the builder is unchanged. -/
theorem C66_list {u : UType} {xs : List UItem} {v : Val} (hv : UVal u xs v) (hf : v.Fits)
    (b : Bytes) (t ds ps j : Nat) (h8 : 8 ∣ b.length)
    (ht : 8 ∣ t) (hj : j < ps) (hb : t + 8 * (ds + ps) ≤ b.length) (hL : b.length + v.size ≤ 2 ^ 32) :
    ∃ b' l ys, copyFromListU u ((t + 8 * ds + 8 * j : Nat) : Int) (some xs) b = .ok () b' ∧
      (objAt b' none t ds ps).readList ((8 * j : Nat) : Int) u.base = .ok (some l) ∧
      l.len = xs.length ∧ toListU u l = .ok ys ∧ List.Forall₂ (SameU u) xs ys ∧
      (∀ i, i < b.length → ¬ (t + 8 * ds + 8 * j ≤ i ∧ i < t + 8 * ds + 8 * j + 8) → b'[i]? = b[i]?) := by
  obtain ⟨es, he, hlv⟩ := uval_enc u xs v hv
  obtain ⟨b', l, ys, h1, h2, h3, h4, h5, h6⟩ := C28_roundtrip (fuel := 2 * v.depth) hlv hf (by omega) b t ds ps j h8 ht
    hj hb hL
  obtain ⟨zs, g1, g2⟩ := forall₂_exists (sameU_of_same u) (forall₂_comp he h5)
  refine ⟨b', l, zs, ?_, h2, ?_, toListU_eq h4 g1, g2, h6⟩
  · rw [copyFromListU_eq (2 * v.depth) he]; exact h1
  · rw [h3, he.length_eq]

/-- C66: a list with anything else in it, at any depth, cannot be written: `copy_from_list` raises. -/
theorem C66_list_typed (u : UType) (xs : List UItem) (pos : Int) (b b' : Bytes)
    (h : copyFromListU u pos (some xs) b = .ok () b') : ∀ x ∈ xs, Encodable u x :=
  copyListU_ok (writeItemU_ok u) h

/-- C66: reading a list of texts which was not necessarily written by capnpy: the item `i` is `None` for a null text,
the string whose encoding is stored, and an exception if it is not utf-8.  Other items are not affected. -/
theorem C66_list_read {l : ListObj} {v : Val} (h : ListDenotes l v) (ht : l.itemType = .text) {es : List Elem}
    (he : elems .text v = some es) :
    l.len = es.length ∧
    (∀ i : Nat, es[i]? = some .none → getItemU .text l i = .ok .none) ∧
    (∀ (i : Nat) b s, es[i]? = some (.bytes b) → Utf8 s b → getItemU .text l i = .ok (.str s)) ∧
    (∀ (i : Nat) b, es[i]? = some (.bytes b) → (∀ s, ¬ Utf8 s b) → getItemU .text l i = .error .unicodeError) := by
  have he : elems l.itemType v = some es := by rw [ht]; exact he
  refine ⟨C27_len h he, fun i hi => ?_, fun i b s hi hu => ?_, fun i b hi hn => ?_⟩
  · obtain ⟨x, hx, hd⟩ := C27_getitem h he hi
    unfold getItemU
    rw [bind_okP hx]
    cases x <;> first | rfl | exact hd.elim
  · obtain ⟨x, hx, hd⟩ := C27_getitem h he hi
    unfold getItemU
    rw [bind_okP hx]
    cases x <;> first | exact hd.elim | skip
    cases hd
    show (do pure (.str (← decode b)) : Py UObj) = _
    rw [decode_ok_iff.mpr hu]; rfl
  · obtain ⟨x, hx, hd⟩ := C27_getitem h he hi
    unfold getItemU
    rw [bind_okP hx]
    cases x <;> first | exact hd.elim | skip
    cases hd
    show (do pure (.str (← decode b)) : Py UObj) = _
    rw [decode_error hn]; rfl

/-- The items as they are returned. -/
def unicodeItems : List Elem → List UObj → Prop :=
  List.Forall₂ fun e x => (e = .none ∧ x = .none) ∨ ∃ b s, e = .bytes b ∧ Utf8 s b ∧ x = .str s

theorem iterU_text {l : ListObj} {v : Val} (h : ListDenotes l v) (ht : l.itemType = .text) {es : List Elem}
    (he : elems .text v = some es) : ∀ (n i : Nat), es.length ≤ i + n →
    (∃ xs, iterU .text l (n + 1) i = .ok xs ∧ unicodeItems (es.drop i) xs) ∨
    (iterU .text l (n + 1) i = .error .unicodeError ∧ ∃ b, .bytes b ∈ es.drop i ∧ ∀ s, ¬ Utf8 s b) := by
  have he' : elems l.itemType v = some es := by rw [ht]; exact he
  obtain ⟨_, g1, g2, g3⟩ := C66_list_read h ht he
  have stop : ∀ (n i : Nat), es.length ≤ i → iterU .text l (n + 1) i = .ok [] := by
    intro n i hi
    unfold iterU getItemU
    rw [C27_getitem_out_of_range h he' (Or.inr (by omega))]
    rfl
  intro n
  induction n with
  | zero =>
    intro i hi
    left
    refine ⟨[], stop 0 i (by omega), ?_⟩
    rw [List.drop_eq_nil_of_le (by omega)]
    exact .nil
  | succ n ih =>
    intro i hi
    by_cases hlt : i < es.length
    · have hget : es[i]? = some es[i] := List.getElem?_eq_getElem hlt
      have e1 : (i : Int) + 1 = ((i + 1 : Nat) : Int) := by omega
      have hmem : es[i] ∈ es.drop i := by rw [List.drop_eq_getElem_cons hlt]; exact List.mem_cons_self
      have step : ∀ x, getItemU .text l i = .ok x →
          ((es[i] = .none ∧ x = .none) ∨ ∃ b s, es[i] = .bytes b ∧ Utf8 s b ∧ x = .str s) →
          (∃ xs, iterU .text l (n + 1 + 1) i = .ok xs ∧ unicodeItems (es.drop i) xs) ∨
          (iterU .text l (n + 1 + 1) i = .error .unicodeError ∧ ∃ b, .bytes b ∈ es.drop i ∧ ∀ s, ¬ Utf8 s b) := by
        intro x hx hR
        rw [iterU, hx]
        simp only
        rw [e1]
        rcases ih (i + 1) (by omega) with ⟨xs, h1, h2⟩ | ⟨h1, b, h2, h3⟩
        · left
          refine ⟨x :: xs, by rw [bind_okP h1]; rfl, ?_⟩
          rw [List.drop_eq_getElem_cons hlt]
          exact .cons hR h2
        · right
          refine ⟨by rw [h1]; rfl, b, ?_, h3⟩
          rw [List.drop_eq_getElem_cons hlt]
          exact List.mem_cons_of_mem _ h2
      obtain ⟨y, hy, hd⟩ := C27_getitem h he' hget
      have hy' : l.readItem i = .ok y := by
        unfold ListObj.getItem at hy
        have hl := C27_len h he'
        unfold ListObj.len at hl
        rw [if_neg (by omega : ¬ ((i : Int) < 0)), if_pos (by omega)] at hy
        exact hy
      have hkind : (es[i] = .none) ∨ ∃ b, es[i] = .bytes b := by
        cases hk : es[i] with
        | none => left; rfl
        | bytes b => right; exact ⟨b, rfl⟩
        | bool b =>
          rw [hk] at hd
          unfold ListObj.readItem at hy'
          rw [ht] at hy'
          exfalso
          revert hy'
          simp only
          cases l.itemPtr (l.offsetForItem i) with
          | error e => intro h; cases h
          | ok r =>
            obtain ⟨q, p⟩ := r
            show (l.seg.readStr p q none (-1) >>= fun s => pure (ListObj.optBytes s)) = _ → _
            cases l.seg.readStr p q none (-1) with
            | error e => intro h; cases h
            | ok s => intro h; cases h; cases s <;> exact hd
        | int b =>
          rw [hk] at hd
          unfold ListObj.readItem at hy'
          rw [ht] at hy'
          exfalso
          revert hy'
          simp only
          cases l.itemPtr (l.offsetForItem i) with
          | error e => intro h; cases h
          | ok r =>
            obtain ⟨q, p⟩ := r
            show (l.seg.readStr p q none (-1) >>= fun s => pure (ListObj.optBytes s)) = _ → _
            cases l.seg.readStr p q none (-1) with
            | error e => intro h; cases h
            | ok s => intro h; cases h; cases s <;> exact hd
        | val b =>
          rw [hk] at hd
          unfold ListObj.readItem at hy'
          rw [ht] at hy'
          exfalso
          revert hy'
          simp only
          cases l.itemPtr (l.offsetForItem i) with
          | error e => intro h; cases h
          | ok r =>
            obtain ⟨q, p⟩ := r
            show (l.seg.readStr p q none (-1) >>= fun s => pure (ListObj.optBytes s)) = _ → _
            cases l.seg.readStr p q none (-1) with
            | error e => intro h; cases h
            | ok s => intro h; cases h; cases s <;> exact hd
      rcases hkind with hk | ⟨b, hk⟩
      · exact step .none (g1 i (by rw [hget, hk])) (.inl ⟨hk, rfl⟩)
      · by_cases hu : ∃ s, Utf8 s b
        · obtain ⟨s, hs⟩ := hu
          exact step (.str s) (g2 i b s (by rw [hget, hk]) hs) (.inr ⟨b, s, hk, hs, rfl⟩)
        · right
          have hn : ∀ s, ¬ Utf8 s b := fun s hs => hu ⟨s, hs⟩
          refine ⟨?_, b, by rw [← hk]; exact hmem, hn⟩
          rw [iterU, g3 i b (by rw [hget, hk]) hn]
    · left
      refine ⟨[], stop (n + 1) i (by omega), ?_⟩
      rw [List.drop_eq_nil_of_le (by omega)]
      exact .nil

/-- C66: iterating over a list of texts (`list(l)`) yields all the strings, in order; if one of them is not
utf-8 it raises UnicodeDecodeError, and does not end early. -/
theorem C66_list_iter {l : ListObj} {v : Val} (h : ListDenotes l v) (ht : l.itemType = .text) {es : List Elem}
    (he : elems .text v = some es) :
    ((∀ b, .bytes b ∈ es → ∃ s, Utf8 s b) → ∃ xs, toListU .text l = .ok xs ∧ unicodeItems es xs) ∧
    ((∃ b, .bytes b ∈ es ∧ ∀ s, ¬ Utf8 s b) → toListU .text l = .error .unicodeError) := by
  have hlen : l.itemCount = es.length := C27_len h (show elems l.itemType v = some es by rw [ht]; exact he)
  have key := iterU_text h ht he l.itemCount.toNat 0 (by omega)
  rw [List.drop_zero] at key
  have hc : ((0 : Nat) : Int) = 0 := rfl
  rw [hc] at key
  constructor
  · intro hall
    rcases key with h | ⟨_, b, hb, hn⟩
    · exact h
    · obtain ⟨s, hs⟩ := hall b hb
      exact absurd hs (hn s)
  · rintro ⟨b, hb, hn⟩
    rcases key with ⟨xs, _, hx⟩ | ⟨h, _⟩
    · obtain ⟨k, hk⟩ := List.getElem?_of_mem hb
      have hlt : k < es.length := (List.getElem?_eq_some_iff.mp hk).1
      have hlt' : k < xs.length := by rw [← hx.length_eq]; exact hlt
      rcases forall₂_get hx k _ xs[k] hk (List.getElem?_eq_getElem hlt') with ⟨h, _⟩ | ⟨b', s, h, hs, _⟩
      · cases h
      · cases h
        exact absurd hs (hn s)
    · exact h

/-- C66: a unicode text that is a member of a union which is not the current one: reading it raises ValueError. -/
theorem C66_wrong_member (o : StructObj) (u : Nat) (t : Int) (tag off : Nat)
    (hw : o.whichRaw (some ((u * 2 : Nat) : Int)) = .ok t) (ht : t ≠ tag) :
    getUnicodeField o (some u) (some tag) off = .error .valueError := by
  have := C31_wrong_member o u t (.slot "" 0 (some tag) .text off none) tag rfl hw ht
  unfold getField at this
  unfold getUnicodeField
  cases hm : ensureMember o (some u) (some tag) with
  | error e => rw [hm] at this; cases this; rfl
  | ok r =>
    exfalso
    have hm : o.ensureUnion (some ((u * 2 : Nat) : Int)) tag = .ok r := hm
    unfold StructObj.ensureUnion at hm
    rw [bind_okP hw, if_pos ht] at hm
    cases hm

/-- C66: encoding the argument and then executing the statement of a bytes field is what the statement
`builder.alloc_text(pos + {offset}, _encode_maybe({arg}))` does. -/
theorem C66_statement (pos : Int) (x : UItem) :
    (∀ a, encodeArg (.unicode x) = .ok a → handleTextUnicode pos x = allocBytesArg pos a 1) ∧
    (∀ e b, encodeArg (.unicode x) = .error e → handleTextUnicode pos x b = .error e b) := by
  cases x with
  | none => exact ⟨fun a h => (by cases h; rfl), fun e b h => by cases h⟩
  | str s =>
    have he : encodeArg (.unicode (.str s)) = (do
      match (← (do pure (some (← encode s)) : Py (Option Bytes))) with
      | some b => pure (.bytes b)
      | none => pure .none) := rfl
    have hm : encodeMaybe (.str s) = (do pure (some (← encode s))) := rfl
    rw [he]
    unfold handleTextUnicode
    rw [hm]
    cases encode s with
    | ok b => exact ⟨fun a h => (by cases h; rfl), fun e b h => by cases h⟩
    | error e => exact ⟨fun a h => (by cases h), fun e b h => by cases h; rfl⟩
  | bytes _ => exact ⟨fun a h => (by cases h), fun e b h => by cases h; rfl⟩
  | list _ => exact ⟨fun a h => (by cases h), fun e b h => by cases h; rfl⟩
  | other => exact ⟨fun a h => (by cases h), fun e b h => by cases h; rfl⟩

/-! ## Non-vacuity -/

/-- The struct of one text field. -/
def textSchema : Schema := ⟨0, 1, none, [.slot "name" 0 none .text 0 none]⟩

theorem textSchema_wf : textSchema.WF := by
  refine ⟨by decide, by decide, ?_, ?_⟩
  · intro u h; cases h
  · refine ⟨⟨by decide, rfl⟩, ?_, ?_, ?_, trivial⟩
    · intro tag h; cases h
    · intro i h; exact h.elim
    · intro g hg; simp at hg

/-- `T(name="é€😀\0").name == "é€😀\0"` -/
example : ∃ o, construct 10 textSchema [.unicode (.str sampleStr)] = .ok o ∧
    getUnicodeField o none none 0 = .ok (some sampleStr) := by
  obtain ⟨o, h1, h2⟩ := C66_construct 10 textSchema [.unicode (.str sampleStr)] [.bytes sampleUtf8] (textOf sampleUtf8).size
    textSchema_wf (by decide +kernel) (.cons ⟨_, sample_utf8, rfl⟩ .nil)
    ⟨(textOf sampleUtf8).size, 0, rfl, ⟨textOf sampleUtf8, rfl, by simp [textOf, Val.Fits, sampleUtf8], by decide, rfl⟩, rfl, rfl⟩
    (by decide) (by decide)
  exact ⟨o, h1, (h2 0 "name" 0 none 0 none rfl).1 sampleStr rfl⟩

/-- A field with invalid utf-8: reading it raises, as bytes it can be read. -/
theorem C66_invalid : ∃ o : StructObj, (∃ d p, Denotes o (.struct d p)) ∧ o.textField 0 = .ok (some [0xff]) ∧
    unicodeField o 0 = .error .unicodeError := by
  obtain ⟨o, h1, ⟨d, p, hd⟩, _, _, _, h2, _⟩ := C30_roundtrip 10 textSchema [.bytes [0xff]] (textOf [0xff]).size textSchema_wf
    (by decide +kernel) ⟨(textOf [0xff]).size, 0, rfl, ⟨textOf [0xff], rfl, by simp [textOf, Val.Fits], by decide, rfl⟩, rfl, rfl⟩
    (by decide) (by decide)
  have h3 := h2 0 _ _ rfl rfl rfl
  have h4 : o.textField 0 = .ok (some [0xff]) := by
    have h3 : SlotReads .text (.bytes [0xff])
      (do pure (((← o.textField 0).map RVal.bytes).getD .none) : Py RVal) := h3
    rcases h3 with ⟨h, _⟩ | ⟨s, h, h'⟩
    · cases h
    · cases h
      cases ht : o.textField 0 with
      | error e => rw [ht] at h'; cases h'
      | ok r =>
        rw [ht] at h'
        cases r with
        | none => cases h'
        | some b => cases h'; rfl
  exact ⟨o, ⟨d, p, hd⟩, h4, (C66_same_as_bytes o 0).2.2.1 _ h4 (notUtf8 (by decide +kernel))⟩

/-- `[["é€😀\0", None], [], None]` -/
example : ∃ b' l ys, copyFromListU (.list .text) ((8 : Nat) : Int)
      (some [.list [.str sampleStr, .none], .list [], .none]) (List.replicate 16 0) = .ok () b' ∧
    (objAt b' none 0 1 1).readList ((8 * 0 : Nat) : Int) (.list .text) = .ok (some l) ∧ l.len = 3 ∧
    toListU (.list .text) l = .ok ys ∧
    List.Forall₂ (SameU (.list .text)) [.list [.str sampleStr, .none], .list [], .none] ys := by
  obtain ⟨b', l, ys, h1, h2, h3, h4, h5, _⟩ := C66_list (u := .list .text)
    (v := .listPtr [.listPtr [textOf sampleUtf8, .null], .listPtr [], .null])
    (xs := [.list [.str sampleStr, .none], .list [], .none])
    ⟨_, .cons ⟨_, .cons ⟨_, sample_utf8, rfl⟩ (.cons rfl .nil), rfl⟩ (.cons ⟨_, .nil, rfl⟩ (.cons rfl .nil)), rfl⟩
    (by simp [Val.Fits, Val.AllFits, textOf, sampleUtf8]) (List.replicate 16 0) 0 1 1 0
    (by decide) (by decide) (by decide) (by decide) (by decide)
  exact ⟨b', l, ys, h1, h2, h3, h4, h5⟩

/-- A list of one text, which is not utf-8. -/
def badBuf : Bytes := leBytes 8 (listWord 0 6 1) ++ leBytes 8 (listWord 0 2 2) ++ [0xff, 0, 0, 0, 0, 0, 0, 0]

def badList : ListObj := listAt badBuf none 8 (wordAt badBuf 0) .text

theorem badList_denotes : ListDenotes badList (.listPtr [.listPrim 2 2 [0xff, 0]]) := by
  refine ⟨badBuf, none, 0, wordAt badBuf 0, 8, .text, rfl, ?_, by decide, by decide, by decide, by decide, ?_⟩
  · intro tbl h; cases h
  · refine .listPtr _ _ 8 _ (by decide) (by decide) (by decide) (by decide) (by decide) ?_
    intro j v hj
    match j, hj with
    | 0, hj =>
      cases hj
      have h := Den.listPrim (B := badBuf) (offs := none) ((8 + 8 * 0 : Nat) : Int)
        (wordAt badBuf (8 + 8 * 0)) 16 (by decide) (by decide) (by decide) (by decide)
      have h1 : listTag (wordAt badBuf (8 + 8 * 0)) = 2 := by decide
      have h2 : listCount (wordAt badBuf (8 + 8 * 0)) = 2 := by decide
      rw [h1, h2] at h
      exact h
    | j + 1, hj => simp at hj

example : toListU .text badList = .error .unicodeError :=
  (C66_list_iter badList_denotes rfl (es := [.bytes [0xff]]) rfl).2 ⟨[0xff], by simp, notUtf8 (by decide +kernel)⟩

/-- All texts of the sample list are utf-8. -/
example : ∃ xs, toListU .text textsList = .ok xs ∧ unicodeItems [.bytes [97, 98], .none, .bytes []] xs := by
  refine (C66_list_iter textsList_denotes rfl texts_elems).1 ?_
  intro b hb
  simp at hb
  rcases hb with rfl | rfl
  · exact ⟨[97, 98], encode_ok_iff.mp (by decide +kernel)⟩
  · exact ⟨[], utf8_nil⟩

/-- The sample list of Props/ListRead.lean. -/
example : getItemU .text textsList 0 = .ok (.str [97, 98]) ∧ getItemU .text textsList 1 = .ok .none :=
  ⟨(C66_list_read textsList_denotes rfl texts_elems).2.2.1 0 [97, 98] [97, 98] rfl (encode_ok_iff.mp (by decide +kernel)),
    (C66_list_read textsList_denotes rfl texts_elems).2.1 1 rfl⟩

end Capnpy.Props
