import Verif.Model.Const
import Verif.Proof.ReprMain

/-!
# Proofs about the Python expressions of the generated modules: the texts parse back
-/

namespace Capnpy.PyExpr

open Capnpy.Repr (bytesRepr bytesReprByte intRepr join)
open Capnpy.Spec.Short (intRepr_ofNat intRepr_negSucc)

/-! ## Bytes literals -/

theorem literal_hex {q h l : Char} {a b : Nat} (ha : hexVal h = some a) (hb : hexVal l = some b) {r : List Char}
    {bs : Bytes} {r' : List Char} (hr : literal q r = some (bs, r')) :
    literal q ('\\' :: 'x' :: h :: l :: r) = some (UInt8.ofNat (16 * a + b) :: bs, r') := by
  conv => lhs; unfold literal
  simp only [ha, hb, hr]

theorem literal_esc {q e : Char} {a : UInt8} (hx : e ≠ 'x') (ha : escapeVal e = some a) {r : List Char} {bs : Bytes}
    {r' : List Char} (hr : literal q r = some (bs, r')) : literal q ('\\' :: e :: r) = some (a :: bs, r') := by
  conv => lhs; unfold literal
  split
  · rename_i h; cases h
  · rename_i h; injection h with _ h; injection h with h _; exact absurd h hx
  · rename_i h; injection h with _ h; injection h with h1 h2; subst h1 h2; simp only [ha, hr]
  · rename_i h1 h2; injection h2 with h2 h3; exact absurd h3.symm (h1 _ _ h2.symm)

theorem literal_char {q c : Char} (h0 : c ≠ '\\') (r : List Char) :
    literal q (c :: r) = if c = q then some ([], r)
      else if c = '\n' ∨ c = '\r' ∨ c = '\\' ∨ 128 ≤ c.toNat then none
      else match literal q r with
        | some (bs, r') => some (UInt8.ofNat c.toNat :: bs, r')
        | none => none := by
  conv => lhs; unfold literal
  split
  · rename_i h; cases h
  · rename_i h; injection h with h _; exact absurd h h0
  · rename_i h; injection h with h _; exact absurd h h0
  · rename_i h1; injection h1 with h1 h3; subst h1 h3; rfl

/-- The shapes of one byte of a literal. -/
def shape (q : Char) (c : UInt8) : List Char → Bool
  | [a] => a != q && a != '\n' && a != '\r' && a != '\\' && decide (a.toNat < 128) && UInt8.ofNat a.toNat == c
  | [a, e] => a == '\\' && e != 'x' && escapeVal e == some c
  | [a, x, h, l] => a == '\\' && x == 'x' &&
    match hexVal h, hexVal l with
    | some a, some b => UInt8.ofNat (16 * a + b) == c
    | _, _ => false
  | _ => false

theorem shape_sq (c : UInt8) : shape '\'' c (bytesReprByte 39 c) = true := by
  have : ∀ n : Fin 256, shape '\'' (UInt8.ofNat n) (bytesReprByte 39 (UInt8.ofNat n)) = true := by decide +kernel
  have := this ⟨c.toNat, c.toNat_lt⟩
  simpa using this

theorem shape_dq (c : UInt8) : shape '"' c (bytesReprByte 34 c) = true := by
  have : ∀ n : Fin 256, shape '"' (UInt8.ofNat n) (bytesReprByte 34 (UInt8.ofNat n)) = true := by decide +kernel
  have := this ⟨c.toNat, c.toNat_lt⟩
  simpa using this

theorem literal_shape {q : Char} {c : UInt8} {s : List Char} (h : shape q c s = true) {r : List Char} {bs : Bytes}
    {r' : List Char} (hr : literal q r = some (bs, r')) : literal q (s ++ r) = some (c :: bs, r') := by
  unfold shape at h
  split at h
  · rename_i a
    simp only [Bool.and_eq_true, bne_iff_ne, ne_eq, decide_eq_true_eq, beq_iff_eq] at h
    obtain ⟨⟨⟨⟨⟨h1, h2⟩, h3⟩, h4⟩, h5⟩, h6⟩ := h
    show literal q (a :: r) = _
    rw [literal_char h4, if_neg h1, if_neg (by rintro (h | h | h | h) <;> first | contradiction | omega), hr, h6]
  · rename_i a e
    simp only [Bool.and_eq_true, bne_iff_ne, ne_eq, beq_iff_eq] at h
    obtain ⟨⟨rfl, h2⟩, h3⟩ := h
    exact literal_esc h2 h3 hr
  · rename_i a x h' l
    simp only [Bool.and_eq_true, beq_iff_eq] at h
    obtain ⟨⟨rfl, rfl⟩, h3⟩ := h
    split at h3
    · rename_i u w hu hw
      have := literal_hex hu hw hr
      rw [beq_iff_eq] at h3
      rw [h3] at this
      exact this
    · cases h3
  · cases h

theorem literal_close {q : Char} (h : q ≠ '\\') (r : List Char) : literal q (q :: r) = some ([], r) := by
  rw [literal_char h, if_pos rfl]

theorem literal_sq (b : Bytes) (r : List Char) :
    literal '\'' (b.flatMap (bytesReprByte 39) ++ '\'' :: r) = some (b, r) := by
  induction b with
  | nil => exact literal_close (by decide) r
  | cons c b ih => rw [List.flatMap_cons, List.append_assoc]; exact literal_shape (shape_sq c) ih

theorem literal_dq (b : Bytes) (r : List Char) :
    literal '"' (b.flatMap (bytesReprByte 34) ++ '"' :: r) = some (b, r) := by
  induction b with
  | nil => exact literal_close (by decide) r
  | cons c b ih => rw [List.flatMap_cons, List.append_assoc]; exact literal_shape (shape_dq c) ih

/-! ## Texts that parse -/

/-- What may follow an expression. -/
def Delim (r : List Char) : Prop := r = [] ∨ ∃ c r', r = c :: r' ∧ (c = ',' ∨ c = ')')

theorem Delim.nil : Delim [] := .inl rfl
theorem Delim.comma (r : List Char) : Delim (',' :: r) := .inr ⟨_, _, rfl, .inl rfl⟩
theorem Delim.paren (r : List Char) : Delim (')' :: r) := .inr ⟨_, _, rfl, .inr rfl⟩

/-- The text `s` is the expression `e`, whatever follows it. -/
def Rend (s : List Char) (e : Expr) : Prop :=
  s ≠ [] ∧ s.head? ≠ some ')' ∧ ∀ n, s.length ≤ n → ∀ r, Delim r → expr n (s ++ r) = some (e, r)

theorem Rend.parse {s : List Char} {e : Expr} (h : Rend s e) : PyExpr.parse s = some e := by
  have := h.2.2 (s.length + 1) (by omega) [] .nil
  rw [List.append_nil] at this
  unfold PyExpr.parse
  rw [this]

theorem Rend.bytes (b : Bytes) : Rend (bytesRepr b) (.bytes b) := by
  unfold bytesRepr
  by_cases h : 39 ∈ b ∧ 34 ∉ b
  · rw [if_pos h]
    have e : ['b', Char.ofNat (34 : UInt8).toNat] ++ b.flatMap (bytesReprByte 34) ++ [Char.ofNat (34 : UInt8).toNat]
        = 'b' :: '"' :: (b.flatMap (bytesReprByte 34) ++ ['"']) := rfl
    simp only [e]
    refine ⟨by simp, by simp, fun n hn r _ => ?_⟩
    cases n with
    | zero => simp at hn
    | succ n =>
      have e2 : 'b' :: '"' :: (b.flatMap (bytesReprByte 34) ++ ['"']) ++ r
          = 'b' :: '"' :: (b.flatMap (bytesReprByte 34) ++ '"' :: r) := by simp
      rw [e2]
      have e3 : expr (n + 1) ('b' :: '"' :: (b.flatMap (bytesReprByte 34) ++ '"' :: r))
          = (literal '"' (b.flatMap (bytesReprByte 34) ++ '"' :: r)).map fun x => (.bytes x.1, x.2) := by
        conv => lhs; unfold expr
        rfl
      rw [e3, literal_dq]
      rfl
  · rw [if_neg h]
    have e : ['b', Char.ofNat (39 : UInt8).toNat] ++ b.flatMap (bytesReprByte 39) ++ [Char.ofNat (39 : UInt8).toNat]
        = 'b' :: '\'' :: (b.flatMap (bytesReprByte 39) ++ ['\'']) := rfl
    simp only [e]
    refine ⟨by simp, by simp, fun n hn r _ => ?_⟩
    cases n with
    | zero => simp at hn
    | succ n =>
      have e2 : 'b' :: '\'' :: (b.flatMap (bytesReprByte 39) ++ ['\'']) ++ r
          = 'b' :: '\'' :: (b.flatMap (bytesReprByte 39) ++ '\'' :: r) := by simp
      rw [e2]
      have e3 : expr (n + 1) ('b' :: '\'' :: (b.flatMap (bytesReprByte 39) ++ '\'' :: r))
          = (literal '\'' (b.flatMap (bytesReprByte 39) ++ '\'' :: r)).map fun x => (.bytes x.1, x.2) := by
        conv => lhs; unfold expr
        rfl
      rw [e3, literal_sq]
      rfl

/-! ### Words -/

theorem notWord_of_delim {r : List Char} (h : Delim r) : ∀ c, r.head? = some c → isWord c = false := by
  intro c hc
  rcases h with rfl | ⟨d, r', rfl, rfl | rfl⟩
  · cases hc
  · injection hc with hc; subst hc; decide
  · injection hc with hc; subst hc; decide

theorem word_split {s r : List Char} (h : ∀ c ∈ s, isWord c = true) (hr : ∀ c, r.head? = some c → isWord c = false) :
    (s ++ r).takeWhile isWord = s ∧ (s ++ r).dropWhile isWord = r := by
  rw [List.takeWhile_append_of_pos h, List.dropWhile_append_of_pos h]
  cases r with
  | nil => simp
  | cons a r =>
    have := hr a rfl
    rw [List.takeWhile_cons_of_neg (by rw [this]; decide), List.dropWhile_cons_of_neg (by rw [this]; decide)]
    simp

/-- The last case of the grammar. -/
theorem expr_word {n : Nat} {c : Char} {s : List Char} (hc : isWord c = true)
    (hq : ∀ d s', s = d :: s' → d ≠ '\'' ∧ d ≠ '"') : expr (n + 1) (c :: s) =
      if c.isDigit then if ((c :: s).takeWhile isWord).all Char.isDigit then
        some (.int (decimal ((c :: s).takeWhile isWord)), (c :: s).dropWhile isWord) else none
      else
        match (c :: s).dropWhile isWord with
        | '(' :: ')' :: r => some (.call ((c :: s).takeWhile isWord) [], r)
        | '(' :: r => (args n r).map fun x => (.call ((c :: s).takeWhile isWord) x.1, x.2.2)
        | r => some (.name ((c :: s).takeWhile isWord), r) := by
  conv => lhs; unfold expr
  split
  · rename_i h; injection h with h1 h2; exact absurd rfl (hq _ _ h2).1
  · rename_i h; injection h with h1 h2; exact absurd rfl (hq _ _ h2).2
  · rename_i h; injection h with h1 h2; subst h1; exact absurd hc (by decide)
  · rename_i h; injection h with h1 h2; subst h1; exact absurd hc (by decide)
  · rename_i h; injection h with h1 h2; subst h1; exact absurd hc (by decide)
  · have e : (c :: s).takeWhile isWord = c :: s.takeWhile isWord := List.takeWhile_cons_of_pos hc
    simp only [e]
    rfl

theorem quotes_of_word {s r : List Char} (h : ∀ c ∈ s, isWord c = true)
    (hr : ∀ d r', r = d :: r' → d ≠ '\'' ∧ d ≠ '"') : ∀ d s', s ++ r = d :: s' → d ≠ '\'' ∧ d ≠ '"' := by
  intro d s' hd
  cases s with
  | nil => exact hr d s' hd
  | cons x s =>
    injection hd with h1 h2
    subst h1
    have := h x (by simp)
    constructor <;> (rintro rfl; exact absurd this (by decide))

theorem delim_quotes {r : List Char} (h : Delim r) : ∀ d r', r = d :: r' → d ≠ '\'' ∧ d ≠ '"' := by
  intro d r' hd
  rcases h with rfl | ⟨c, r', rfl, rfl | rfl⟩
  · cases hd
  · injection hd with hd; subst hd; decide
  · injection hd with hd; subst hd; decide

/-- A dotted name. -/
def IsName (s : List Char) : Prop := (∀ c ∈ s, isWord c = true) ∧ ∃ c r, s = c :: r ∧ c.isDigit = false

theorem IsName.append {s t : List Char} (hs : IsName s) (ht : ∀ c ∈ t, isWord c = true) : IsName (s ++ t) := by
  obtain ⟨h1, c, r, rfl, h2⟩ := hs
  refine ⟨fun x hx => ?_, c, r ++ t, rfl, h2⟩
  rcases List.mem_append.mp hx with hx | hx
  · exact h1 x hx
  · exact ht x hx

theorem Rend.name {s : List Char} (h : IsName s) : Rend s (.name s) := by
  obtain ⟨h1, c, s', rfl, h2⟩ := h
  refine ⟨by simp, ?_, fun n hn r hr => ?_⟩
  · intro h
    injection h with h
    subst h
    exact absurd (h1 ')' (by simp)) (by decide)
  cases n with
  | zero => simp at hn
  | succ n =>
    rw [List.cons_append, expr_word (h1 c (by simp))
      (quotes_of_word (fun x hx => h1 x (by simp [hx])) (delim_quotes hr)), if_neg (by rw [h2]; decide)]
    obtain ⟨e1, e2⟩ := word_split (s := c :: s') h1 (notWord_of_delim hr)
    rw [List.cons_append] at e1 e2
    rw [e1, e2]
    rcases hr with rfl | ⟨d, r', rfl, rfl | rfl⟩ <;> rfl

theorem isWord_of_isDigit {c : Char} (h : c.isDigit = true) : isWord c = true := by
  unfold isWord Char.isAlphanum
  simp [h]

theorem digits_all (n : Nat) : ∀ c ∈ Nat.toDigits 10 n, c.isDigit = true := fun _ hc =>
  Nat.isDigit_of_mem_toDigits (by decide) (by decide) hc

theorem decimal_toDigits (n : Nat) : decimal (Nat.toDigits 10 n) = n := by
  have : decimal (Nat.toDigits 10 n) = Nat.ofDigitChars 10 (Nat.toDigits 10 n) 0 := rfl
  rw [this, Nat.ofDigitChars_ten_toDigits]

theorem Rend.int (i : Int) : Rend (intRepr i) (.int i) := by
  cases i with
  | ofNat k =>
    show Rend (intRepr (k : Int)) (.int (k : Int))
    rw [intRepr_ofNat]
    have hd := digits_all k
    have hdec := decimal_toDigits k
    have hne : Nat.toDigits 10 k ≠ [] := Nat.toDigits_ne_nil
    revert hd hdec hne
    generalize Nat.toDigits 10 k = s
    intro hd hdec hne
    cases s with
    | nil => exact absurd rfl hne
    | cons c s =>
      refine ⟨hne, ?_, fun n hn r hr => ?_⟩
      · intro h; injection h with h; subst h; exact absurd (hd ')' (by simp)) (by decide)
      cases n with
      | zero => simp at hn
      | succ n =>
        have hw : ∀ x ∈ c :: s, isWord x = true := fun x hx => isWord_of_isDigit (hd x hx)
        obtain ⟨e1, e2⟩ := word_split hw (notWord_of_delim hr)
        rw [List.cons_append] at e1 e2
        rw [List.cons_append, expr_word (hw c (by simp))
          (quotes_of_word (fun x hx => hw x (by simp [hx])) (delim_quotes hr)), if_pos (hd c (by simp)), e1, e2,
          if_pos (List.all_eq_true.mpr hd), hdec]
  | negSucc k =>
    rw [intRepr_negSucc]
    refine ⟨by simp, by simp, fun n hn r hr => ?_⟩
    cases n with
    | zero => simp at hn
    | succ n =>
      have hd := digits_all (k + 1)
      have hw : ∀ x ∈ Nat.toDigits 10 (k + 1), isWord x = true := fun x hx => isWord_of_isDigit (hd x hx)
      obtain ⟨e1, e2⟩ := word_split hw (notWord_of_delim hr)
      have : expr (n + 1) ('-' :: (Nat.toDigits 10 (k + 1) ++ r)) =
          if (Nat.toDigits 10 (k + 1) ++ r).takeWhile isWord ≠ [] ∧
            ((Nat.toDigits 10 (k + 1) ++ r).takeWhile isWord).all Char.isDigit then
            some (.int (-(decimal ((Nat.toDigits 10 (k + 1) ++ r).takeWhile isWord) : Int)),
              (Nat.toDigits 10 (k + 1) ++ r).dropWhile isWord) else none := by
        conv => lhs; unfold expr
        rfl
      rw [List.cons_append, this, e1, e2, if_pos ⟨Nat.toDigits_ne_nil, List.all_eq_true.mpr hd⟩, decimal_toDigits]
      rfl

/-! ### Calls and tuples -/

theorem args_join {ss : List (List Char)} {es : List Expr} (h : List.Forall₂ Rend ss es) :
    ss ≠ [] → ∀ n, (join ss).length + 1 ≤ n → ∀ r, args n (join ss ++ ')' :: r) = some (es, false, r) := by
  induction h with
  | nil => intro h; exact absurd rfl h
  | @cons s e ss es hse hrest ih =>
    intro _ n hn r
    cases n with
    | zero => omega
    | succ n =>
      cases ss with
      | nil =>
        cases hrest
        have e1 := hse.2.2 n (by simpa [join] using hn) (')' :: r) (.paren r)
        show args (n + 1) (s ++ ')' :: r) = _
        unfold args
        simp only [e1]
      | cons s' ss =>
        rw [Spec.Short.join_cons_cons] at hn ⊢
        simp only [List.length_append, List.length_cons, List.length_nil] at hn
        have e1 : s ++ [',', ' '] ++ join (s' :: ss) ++ ')' :: r
            = s ++ (',' :: ' ' :: (join (s' :: ss) ++ ')' :: r)) := by simp
        rw [e1]
        unfold args
        rw [hse.2.2 n (by omega) _ (.comma _)]
        simp only []
        rw [ih (by simp) n (by omega) r]
        rfl

theorem join_head {ss : List (List Char)} {es : List Expr} (h : List.Forall₂ Rend ss es) (h0 : ss ≠ []) (r : List Char) :
    ∃ c r', join ss ++ r = c :: r' ∧ c ≠ ')' := by
  cases h with
  | nil => exact absurd rfl h0
  | @cons s e ss' es' hse hrest =>
    obtain ⟨h1, h2, -⟩ := hse
    cases s with
    | nil => exact absurd rfl h1
    | cons c s =>
      have hc : c ≠ ')' := by rintro rfl; exact h2 rfl
      cases ss' with
      | nil => exact ⟨c, s ++ r, by rw [join]; rfl, hc⟩
      | cons x y => exact ⟨c, _, by rw [Spec.Short.join_cons_cons]; rfl, hc⟩

theorem Rend.call {f : List Char} (hf : IsName f) {ss : List (List Char)} {es : List Expr}
    (h : List.Forall₂ Rend ss es) : Rend (f ++ ['('] ++ join ss ++ [')']) (.call f es) := by
  obtain ⟨h1, c, f', rfl, h2⟩ := hf
  refine ⟨by simp, ?_, fun n hn r hr => ?_⟩
  · intro h
    injection h with h
    subst h
    exact absurd (h1 ')' (by simp)) (by decide)
  cases n with
  | zero => simp at hn
  | succ n =>
    have e : c :: f' ++ ['('] ++ join ss ++ [')'] ++ r = c :: (f' ++ '(' :: (join ss ++ ')' :: r)) := by simp
    rw [e]
    have hpar : ∀ x, ('(' :: (join ss ++ ')' :: r)).head? = some x → isWord x = false := by
      intro x hx; injection hx with hx; subst hx; decide
    obtain ⟨e1, e2⟩ := word_split (s := c :: f') h1 hpar
    rw [List.cons_append] at e1 e2
    rw [expr_word (h1 c (by simp)) (quotes_of_word (fun x hx => h1 x (by simp [hx])) (by
      intro d r' hd; injection hd with hd; subst hd; decide)), if_neg (by rw [h2]; decide), e1, e2]
    cases ss with
    | nil => cases h; rfl
    | cons s ss =>
      have ha := args_join h (by simp) n (by
        simp only [List.length_append, List.length_cons, List.length_nil] at hn; omega) r
      obtain ⟨d, r', hd, hne⟩ := join_head h (by simp) (')' :: r)
      rw [hd] at ha ⊢
      split
      · rename_i h; injection h with _ h; injection h with h _; exact absurd h hne
      · rename_i h; injection h with _ h; subst h; rw [ha]; rfl
      · rename_i _ _ h; exact absurd rfl (h _)

theorem expr_paren {n : Nat} {d : Char} {r : List Char} (hd : d ≠ ')') : expr (n + 1) ('(' :: d :: r) =
    match args n (d :: r) with
      | some ([e], false, r') => some (e, r')
      | some (es, _, r') => some (.tuple es, r')
      | none => none := by
  conv => lhs; unfold expr
  split
  · rename_i h; injection h with h _; exact absurd h (by decide)
  · rename_i h; injection h with h _; exact absurd h (by decide)
  · rename_i h; injection h with h _; exact absurd h (by decide)
  · rename_i h; injection h with _ h; injection h with h _; exact absurd h hd
  · rename_i h; injection h with _ h; subst h; rfl
  · rename_i h; exact absurd rfl (h _)

theorem Rend.tuple {s s' : List Char} {ss : List (List Char)} {es : List Expr}
    (h : List.Forall₂ Rend (s :: s' :: ss) es) : Rend (['('] ++ join (s :: s' :: ss) ++ [')']) (.tuple es) := by
  refine ⟨by simp, by simp, fun n hn r hr => ?_⟩
  cases n with
  | zero => simp at hn
  | succ n =>
    have ha := args_join h (by simp) n (by
      simp only [List.length_append, List.length_cons, List.length_nil] at hn; omega) r
    obtain ⟨d, r', hd, hne⟩ := join_head h (by simp) (')' :: r)
    have e : ['('] ++ join (s :: s' :: ss) ++ [')'] ++ r = '(' :: (join (s :: s' :: ss) ++ ')' :: r) := by
      rw [List.append_assoc, List.append_assoc]; rfl
    rw [e, hd, expr_paren hne, ← hd, ha]
    cases h with
    | cons _ h => cases h with
      | cons _ _ => rfl

theorem Rend.tuple1 {s : List Char} {e : Expr} (h : Rend s e) : Rend (['('] ++ s ++ [',', ')']) (.tuple [e]) := by
  refine ⟨by simp, by simp, fun n hn r hr => ?_⟩
  cases n with
  | zero => simp at hn
  | succ n =>
    cases n with
    | zero => simp at hn
    | succ n =>
      have ha := h.2.2 n (by simp only [List.length_append, List.length_cons, List.length_nil] at hn; omega)
        (',' :: ')' :: r) (.comma _)
      have hargs : args (n + 1) (s ++ ',' :: ')' :: r) = some ([e], true, r) := by
        unfold args
        rw [ha]
        rfl
      obtain ⟨h1, h2, -⟩ := h
      have e' : ['('] ++ s ++ [',', ')'] ++ r = '(' :: (s ++ ',' :: ')' :: r) := by simp
      rw [e']
      cases s with
      | nil => exact absurd rfl h1
      | cons c s =>
        rw [List.cons_append, expr_paren (by rintro rfl; exact h2 rfl), ← List.cons_append, hargs]

end Capnpy.PyExpr
