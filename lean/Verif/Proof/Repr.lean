import Verif.Spec.Repr
import Verif.Proof.Object
import Verif.Props.ListRead

/-!
# Proofs about `shortrepr()`: strings
-/

namespace Capnpy.Spec.Short

open Capnpy Capnpy.Repr

theorem decodeUtf8_encode {b : Bytes} {cs : List Char} (h : decodeUtf8 b = some cs) :
    cs.flatMap String.utf8EncodeChar = b := by
  unfold decodeUtf8 at h
  cases ha : b.toByteArray.utf8Decode? with
  | none => rw [ha] at h; cases h
  | some a =>
    rw [ha] at h
    injection h with h
    have hs : b.toByteArray.utf8Decode?.isSome = true := by rw [ha]; rfl
    have := ByteArray.utf8Encode_get_utf8Decode? (b := b.toByteArray) (h := hs)
    have e : b.toByteArray.utf8Decode?.get hs = a := by
      apply Option.some.inj; rw [← ha]; simp
    have h : a.toList = cs := h
    rw [e, h] at this
    unfold List.utf8Encode at this
    exact List.toByteArray_inj.mp this

theorem decodeUtf8_isSome {b : Bytes} (h : b.toByteArray.utf8Decode?.isSome = true) :
    ∃ cs, decodeUtf8 b = some cs := by
  unfold decodeUtf8
  cases ha : b.toByteArray.utf8Decode? with
  | none => rw [ha] at h; cases h
  | some a => exact ⟨a.toList, rfl⟩

/-- One character of a text literal. -/
def escChar (c : Char) : List Char :=
  if c = '"' then ['\\', '"'] else if c = '\'' then ['\\', '\''] else [c]

theorem textUnicodeRepr_some (s : List Char) :
    textUnicodeRepr (some s) = .ok ('"' :: (s.flatMap escChar ++ ['"'])) := by
  unfold textUnicodeRepr backslash
  simp only [List.flatMap_assoc]
  have : (fun x => List.flatMap (fun x => if x = '\'' then ['\\', '\''] else [x])
      (if x = '"' then ['\\', '"'] else [x])) = escChar := by
    funext x
    unfold escChar
    by_cases h1 : x = '"'
    · subst h1; decide
    · rw [if_neg h1, if_neg h1]; simp
  rw [this]; rfl

theorem parseStr_char {c : Char} (h1 : c ≠ '"') (h2 : c ≠ '\\') (h3 : c ≠ '\n') (r : List Char) :
    parseStr (c :: r) = match parseStr r with
      | some (bs, r') => some (String.utf8EncodeChar c ++ bs, r')
      | none => none := by
  conv => lhs; unfold parseStr
  split
  · rename_i h; injection h with h; exact absurd h h1
  · rename_i h; injection h with h; exact absurd h h2
  · rename_i h; injection h with h; exact absurd h h2
  · rename_i h; injection h with h; exact absurd h h3
  · rename_i h; injection h with h h'; subst h h'; rfl
  · rename_i h; cases h

theorem parseStr_esc {c : Char} {a : UInt8} (hx : c ≠ 'x') (ha : escapeVal c = some a) {r : List Char}
    {bs : Bytes} {r' : List Char} (h : parseStr r = some (bs, r')) :
    parseStr ('\\' :: c :: r) = some (a :: bs, r') := by
  conv => lhs; unfold parseStr
  split
  · rename_i h; injection h with h _; exact absurd h (by decide)
  · rename_i h; injection h with _ h; injection h with h _; exact absurd h hx
  · rename_i h'; injection h' with _ h'; injection h' with h1 h2; subst h1 h2; rw [ha, h]
  · rename_i h; injection h with h _; exact absurd h (by decide)
  · rename_i h2 _ h3; injection h3 with h3 h4; subst h3 h4; exact absurd rfl (h2 _ _ rfl)
  · rename_i h; cases h

theorem parseStr_hex {a b : Char} {x y : Nat} (ha : hexVal a = some x) (hb : hexVal b = some y) {r : List Char}
    {bs : Bytes} {r' : List Char} (h : parseStr r = some (bs, r')) :
    parseStr ('\\' :: 'x' :: a :: b :: r) = some (UInt8.ofNat (16 * x + y) :: bs, r') := by
  conv => lhs; unfold parseStr
  split
  · rename_i h; injection h with h _; exact absurd h (by decide)
  · rename_i h'; injection h' with _ h'; injection h' with _ h'; injection h' with h1 h'; injection h' with h2 h3
    subst h1 h2 h3; rw [ha, hb, h]
  · rename_i h1 h2; injection h2 with _ h2; injection h2 with h3 h4; subst h3 h4; exact absurd rfl (h1 _ _ _ rfl)
  · rename_i h; injection h with h _; exact absurd h (by decide)
  · rename_i h2 _ h3; injection h3 with h3 h4; subst h3 h4; exact absurd rfl (h2 _ _ rfl)
  · rename_i h; cases h

theorem parseStr_text (s r : List Char) (h1 : '\\' ∉ s) (h2 : '\n' ∉ s) :
    parseStr (s.flatMap escChar ++ '"' :: r) = some (s.flatMap String.utf8EncodeChar, r) := by
  induction s with
  | nil => simp [parseStr]
  | cons c s ih =>
    have ih := ih (by simp at h1; exact h1.2) (by simp at h2; exact h2.2)
    rw [List.flatMap_cons, List.flatMap_cons, List.append_assoc]
    unfold escChar
    by_cases hc1 : c = '"'
    · subst hc1
      rw [if_pos rfl]
      show parseStr ('\\' :: '"' :: (s.flatMap escChar ++ '"' :: r)) = _
      rw [parseStr_esc (by decide) rfl ih]; rfl
    · rw [if_neg hc1]
      by_cases hc2 : c = '\''
      · subst hc2
        rw [if_pos rfl]
        show parseStr ('\\' :: '\'' :: (s.flatMap escChar ++ '"' :: r)) = _
        rw [parseStr_esc (by decide) rfl ih]; rfl
      · rw [if_neg hc2]
        show parseStr (c :: (s.flatMap escChar ++ '"' :: r)) = _
        rw [parseStr_char hc1 (by rintro rfl; simp at h1) (by rintro rfl; simp at h2), ih]

/-- One byte of a data literal. -/
def escByte (c : UInt8) : List Char :=
  if c = 34 then ['\\', '"'] else bytesReprByte 39 c

theorem backslash_append (c : Char) (a b : List Char) :
    backslash c (a ++ b) = backslash c a ++ backslash c b := by simp [backslash]

theorem backslash_flatMap {α} (c : Char) (f : α → List Char) (l : List α) :
    backslash c (l.flatMap f) = l.flatMap fun x => backslash c (f x) := by
  simp [backslash, List.flatMap_assoc]

theorem escByte_dq : ∀ c : UInt8, c ≠ 34 → backslash '\'' (bytesReprByte 34 c) = escByte c := by
  have : ∀ n : Fin 256, UInt8.ofNat n ≠ 34 →
      backslash '\'' (bytesReprByte 34 (UInt8.ofNat n)) = escByte (UInt8.ofNat n) := by decide +kernel
  intro c h
  have := this ⟨c.toNat, c.toNat_lt⟩
  simp at this
  exact this h

theorem escByte_sq : ∀ c : UInt8, backslash '"' (bytesReprByte 39 c) = escByte c := by
  have : ∀ n : Fin 256, backslash '"' (bytesReprByte 39 (UInt8.ofNat n)) = escByte (UInt8.ofNat n) := by
    decide +kernel
  intro c
  have := this ⟨c.toNat, c.toNat_lt⟩
  simp at this
  exact this

theorem flatMap_congr' {α β} {f g : α → List β} {l : List α} (h : ∀ x ∈ l, f x = g x) :
    l.flatMap f = l.flatMap g := by
  induction l with
  | nil => rfl
  | cons a l ih =>
    rw [List.flatMap_cons, List.flatMap_cons, h a (by simp), ih fun x hx => h x (by simp [hx])]

theorem pySlice_inner (a b : Char) (m : List Char) : pySlice (a :: (m ++ [b])) 1 (-1) = m := by
  have hl : (a :: (m ++ [b])).length = m.length + 2 := by simp
  have e1 : pyClamp (m.length + 2) 1 = 1 := by
    unfold pyClamp
    rw [if_neg (by omega)]
    have : (1 : Int).toNat = 1 := rfl
    rw [this]; omega
  have e2 : pyClamp (m.length + 2) (-1) = m.length + 1 := by
    unfold pyClamp
    rw [if_pos (by omega)]; omega
  unfold pySlice
  rw [hl, e1, e2]
  simp

theorem dataRepr_eq (b : Bytes) : dataRepr b = '"' :: (b.flatMap escByte ++ ['"']) := by
  unfold dataRepr bytesRepr
  by_cases h : 39 ∈ b ∧ 34 ∉ b
  · rw [if_pos h]
    have e : ((['b', Char.ofNat (34 : UInt8).toNat] ++ b.flatMap (bytesReprByte 34) ++
        [Char.ofNat (34 : UInt8).toNat]).dropWhile (· = 'b')) = '"' :: (b.flatMap (bytesReprByte 34) ++ ['"']) := by
      show List.dropWhile _ ('b' :: '"' :: (b.flatMap (bytesReprByte 34) ++ ['"'])) = _
      simp
    simp only [e]
    rw [if_pos (by rfl)]
    show backslash '\'' (['"'] ++ (b.flatMap (bytesReprByte 34) ++ ['"'])) = _
    rw [backslash_append, backslash_append, backslash_flatMap,
      flatMap_congr' fun x hx => escByte_dq x (by rintro rfl; exact h.2 hx)]
    rfl
  · rw [if_neg h]
    have e : ((['b', Char.ofNat (39 : UInt8).toNat] ++ b.flatMap (bytesReprByte 39) ++
        [Char.ofNat (39 : UInt8).toNat]).dropWhile (· = 'b')) = '\'' :: (b.flatMap (bytesReprByte 39) ++ ['\'']) := by
      show List.dropWhile _ ('b' :: '\'' :: (b.flatMap (bytesReprByte 39) ++ ['\''])) = _
      simp
    simp only [e]
    rw [if_neg (by rw [List.head?_cons]; decide : ¬ (List.head? ('\'' :: (b.flatMap (bytesReprByte 39) ++ ['\''])) = some '"'))]
    have e2 : backslash '"' ('\'' :: (b.flatMap (bytesReprByte 39) ++ ['\'']))
        = '\'' :: (b.flatMap escByte ++ ['\'']) := by
      show backslash '"' (['\''] ++ (b.flatMap (bytesReprByte 39) ++ ['\''])) = _
      rw [backslash_append, backslash_append, backslash_flatMap, flatMap_congr' fun x _ => escByte_sq x]
      rfl
    rw [e2, pySlice_inner]
    rfl

theorem hexVal_digit (n : Nat) (h : n < 16) : hexVal (hexDigit n) = some n := by
  have : ∀ n : Fin 16, hexVal (hexDigit n) = some n.val := by decide +kernel
  exact this ⟨n, h⟩

theorem rawByte (c : UInt8) (h1 : c ≠ 34) (h2 : c ≠ 92) (h3 : ¬ (c.toNat < 32 ∨ 127 ≤ c.toNat)) :
    Char.ofNat c.toNat ≠ '"' ∧ Char.ofNat c.toNat ≠ '\\' ∧ Char.ofNat c.toNat ≠ '\n' ∧
    String.utf8EncodeChar (Char.ofNat c.toNat) = [c] := by
  have : ∀ n : Fin 256, UInt8.ofNat n ≠ 34 → UInt8.ofNat n ≠ 92 → ¬ (n.val < 32 ∨ 127 ≤ n.val) →
      Char.ofNat n.val ≠ '"' ∧ Char.ofNat n.val ≠ '\\' ∧ Char.ofNat n.val ≠ '\n' ∧
      String.utf8EncodeChar (Char.ofNat n.val) = [UInt8.ofNat n.val] := by decide +kernel
  have := this ⟨c.toNat, c.toNat_lt⟩
  simp only [UInt8.ofNat_toNat] at this
  exact this h1 h2 h3

theorem parseStr_byte (c : UInt8) (r : List Char) (bs : Bytes) (r' : List Char)
    (h : parseStr r = some (bs, r')) : parseStr (escByte c ++ r) = some (c :: bs, r') := by
  unfold escByte
  by_cases h1 : c = 34
  · subst h1
    rw [if_pos rfl]
    show parseStr ('\\' :: '"' :: r) = _
    exact parseStr_esc (by decide) rfl h
  rw [if_neg h1]
  unfold bytesReprByte
  by_cases h2 : c = 39 ∨ c = 92
  · rw [if_pos h2]
    rcases h2 with rfl | rfl
    · show parseStr ('\\' :: '\'' :: r) = _
      exact parseStr_esc (by decide) rfl h
    · show parseStr ('\\' :: '\\' :: r) = _
      exact parseStr_esc (by decide) rfl h
  rw [if_neg h2]
  by_cases h3 : c = 9
  · subst h3
    rw [if_pos rfl]
    show parseStr ('\\' :: 't' :: r) = _
    exact parseStr_esc (by decide) rfl h
  rw [if_neg h3]
  by_cases h4 : c = 10
  · subst h4
    rw [if_pos rfl]
    show parseStr ('\\' :: 'n' :: r) = _
    exact parseStr_esc (by decide) rfl h
  rw [if_neg h4]
  by_cases h5 : c = 13
  · subst h5
    rw [if_pos rfl]
    show parseStr ('\\' :: 'r' :: r) = _
    exact parseStr_esc (by decide) rfl h
  rw [if_neg h5]
  by_cases h6 : c.toNat < 32 ∨ 127 ≤ c.toNat
  · rw [if_pos h6]
    have hlt := c.toNat_lt
    show parseStr ('\\' :: 'x' :: hexDigit (c.toNat / 16) :: hexDigit (c.toNat % 16) :: r) = _
    rw [parseStr_hex (hexVal_digit _ (by omega)) (hexVal_digit _ (by omega)) h, Nat.div_add_mod, UInt8.ofNat_toNat]
  · rw [if_neg h6]
    obtain ⟨e1, e2, e3, e4⟩ := rawByte c h1 (fun h => h2 (Or.inr h)) h6
    show parseStr (Char.ofNat c.toNat :: r) = _
    rw [parseStr_char e1 e2 e3, h, e4]
    rfl

theorem parseStr_data (b : Bytes) (r : List Char) :
    parseStr (b.flatMap escByte ++ '"' :: r) = some (b, r) := by
  induction b with
  | nil => simp [parseStr]
  | cons c b ih =>
    rw [List.flatMap_cons, List.append_assoc]
    exact parseStr_byte c _ _ _ ih

end Capnpy.Spec.Short
