import Verif.Proof.Repr

/-!
# Proofs about `shortrepr()`: the printed text parses back
-/

namespace Capnpy.Spec.Short

open Capnpy Capnpy.Repr

/-- What may follow a value. -/
def Delim (r : List Char) : Prop := ∀ c, r.head? = some c → isAtom c = false

/-- The text `s` parses as `t`, whatever delimiter follows. -/
def Rendered (s : List Char) (t : Tree) : Prop :=
  ∀ n, s.length ≤ n → ∀ r, Delim r → parseVal n (s ++ r) = some (t, r)

theorem parseVal_atom {n : Nat} {c : Char} {s : List Char} (hc : isAtom c = true) :
    parseVal (n + 1) (c :: s) = some (.atom ((c :: s).takeWhile isAtom), (c :: s).dropWhile isAtom) := by
  conv => lhs; unfold parseVal
  split
  · rename_i h; injection h with h _; subst h; exact absurd hc (by decide)
  · rename_i h; injection h with h _; subst h; exact absurd hc (by decide)
  · rename_i h; injection h with h _; subst h; exact absurd hc (by decide)
  · rename_i h; injection h with h _; subst h; exact absurd hc (by decide)
  · rename_i h; injection h with h _; subst h; exact absurd hc (by decide)
  · rw [if_neg]; rw [List.takeWhile_cons_of_pos hc]; simp

theorem Rendered.atom {s : List Char} (h0 : s ≠ []) (h : ∀ c ∈ s, isAtom c = true) :
    Rendered s (.atom s) := by
  intro n hn r hr
  cases s with
  | nil => exact absurd rfl h0
  | cons c s =>
    cases n with
    | zero => simp at hn
    | succ n =>
      rw [List.cons_append, parseVal_atom (h c (by simp)), ← List.cons_append,
        List.takeWhile_append_of_pos h, List.dropWhile_append_of_pos h]
      have e1 : r.takeWhile isAtom = [] := by
        cases r with
        | nil => rfl
        | cons a r => rw [List.takeWhile_cons_of_neg]; rw [hr a rfl]; decide
      have e2 : r.dropWhile isAtom = r := by
        cases r with
        | nil => rfl
        | cons a r => rw [List.dropWhile_cons_of_neg]; rw [hr a rfl]; decide
      rw [e1, e2, List.append_nil]

theorem Rendered.str {body : List Char} {b : Bytes}
    (h : ∀ r, parseStr (body ++ '"' :: r) = some (b, r)) : Rendered ('"' :: (body ++ ['"'])) (.str b) := by
  intro n hn r _
  cases n with
  | zero => simp at hn
  | succ n =>
    have e : '"' :: (body ++ ['"']) ++ r = '"' :: (body ++ '"' :: r) := by simp
    rw [e]
    have : parseVal (n + 1) ('"' :: (body ++ '"' :: r))
        = (parseStr (body ++ '"' :: r)).map fun x => (.str x.1, x.2) := by
      conv => lhs; unfold parseVal
      rfl
    rw [this, h]
    rfl

theorem Rendered.head_ne {s : List Char} {t : Tree} (h : Rendered s t) :
    ∃ c r, s = c :: r ∧ c ≠ ']' ∧ c ≠ ')' := by
  have h0 := h s.length le_rfl [] (by intro c hc; cases hc)
  cases s with
  | nil => unfold parseVal at h0; cases h0
  | cons c r =>
    refine ⟨c, r, rfl, ?_, ?_⟩
    · rintro rfl
      rw [List.length_cons, List.append_nil] at h0
      unfold parseVal at h0
      split at h0
      all_goals first
        | (rename_i h; injection h with h _; exact absurd h (by decide))
        | (rw [if_pos (List.takeWhile_cons_of_neg (by decide))] at h0; cases h0)
    · rintro rfl
      rw [List.length_cons, List.append_nil] at h0
      unfold parseVal at h0
      split at h0
      all_goals first
        | (rename_i h; injection h with h _; exact absurd h (by decide))
        | (rw [if_pos (List.takeWhile_cons_of_neg (by decide))] at h0; cases h0)

theorem delim_comma (r : List Char) : Delim (',' :: r) := by
  intro c h; injection h with h; subst h; decide
theorem delim_paren (r : List Char) : Delim (')' :: r) := by
  intro c h; injection h with h; subst h; decide
theorem delim_bracket (r : List Char) : Delim (']' :: r) := by
  intro c h; injection h with h; subst h; decide

theorem join_cons_cons (x y : List Char) (r : List (List Char)) :
    join (x :: y :: r) = x ++ [',', ' '] ++ join (y :: r) := rfl

theorem parseItems_join {ss : List (List Char)} {ts : List Tree} (h : List.Forall₂ Rendered ss ts) :
    ss ≠ [] → ∀ n, (join ss).length + 1 ≤ n → ∀ r, parseItems n (join ss ++ ']' :: r) = some (ts, r) := by
  induction h with
  | nil => intro h; exact absurd rfl h
  | @cons s t ss ts hst hrest ih =>
    intro _ n hn r
    cases n with
    | zero => omega
    | succ n =>
      cases ss with
      | nil =>
        cases hrest
        have e := hst n (by simpa [join] using hn) (']' :: r) (delim_bracket r)
        show parseItems (n + 1) (s ++ ']' :: r) = _
        unfold parseItems
        simp only [e]
      | cons s' ss =>
        rw [join_cons_cons] at hn ⊢
        simp only [List.length_append, List.length_cons, List.length_nil] at hn
        have e1 : s ++ [',', ' '] ++ join (s' :: ss) ++ ']' :: r
            = s ++ (',' :: ' ' :: (join (s' :: ss) ++ ']' :: r)) := by simp
        rw [e1]
        unfold parseItems
        rw [hst n (by omega) _ (delim_comma _)]
        simp only []
        rw [ih (by simp) n (by omega) r]
        rfl

theorem Rendered.list {ss : List (List Char)} {ts : List Tree} (h : List.Forall₂ Rendered ss ts) :
    Rendered (['['] ++ join ss ++ [']']) (.list ts) := by
  intro n hn r _
  cases n with
  | zero => simp at hn
  | succ n =>
    have e : ['['] ++ join ss ++ [']'] ++ r = '[' :: (join ss ++ ']' :: r) := by simp
    rw [e]
    cases h with
    | nil =>
      show parseVal (n + 1) ('[' :: ']' :: r) = _
      conv => lhs; unfold parseVal
      rfl
    | @cons s t ss' ts' hst hrest =>
      have hp := parseItems_join (.cons hst hrest) (by simp) n
        (by simp only [List.length_append, List.length_cons, List.length_nil] at hn; omega) r
      obtain ⟨c, r', hs, hc1, _⟩ := hst.head_ne
      have hj : ∃ r'', join (s :: ss') ++ ']' :: r = c :: r'' := by
        cases ss' with
        | nil => exact ⟨r' ++ ']' :: r, by rw [join, hs]; rfl⟩
        | cons x y => exact ⟨_, by rw [join_cons_cons, hs]; rfl⟩
      obtain ⟨r'', hj⟩ := hj
      rw [hj] at hp ⊢
      have : parseVal (n + 1) ('[' :: c :: r'') = (parseItems n (c :: r'')).map fun x => (.list x.1, x.2) := by
        conv => lhs; unfold parseVal
        split
        · rename_i h; injection h with h _; exact absurd h (by decide)
        · rename_i h; injection h with h _; exact absurd h (by decide)
        · rename_i h; injection h with _ h; injection h with h _; exact absurd h hc1
        · rename_i h; injection h with _ h; rw [← h]
        · rename_i h; injection h with h _; exact absurd h (by decide)
        · rename_i h1 h2 h3 h4 h5; exact absurd rfl (h4 _)
      rw [this, hp]
      rfl

/-- A field `name = value`. -/
def RenderedField (s : List Char) (x : List Char × Tree) : Prop :=
  x.1 ≠ [] ∧ (∀ c ∈ x.1, isIdent c = true) ∧ ∃ s', s = x.1 ++ [' ', '=', ' '] ++ s' ∧ Rendered s' x.2

theorem ident_split {name : List Char} (h : ∀ c ∈ name, isIdent c = true) (r : List Char) :
    (name ++ ' ' :: r).takeWhile isIdent = name ∧ (name ++ ' ' :: r).dropWhile isIdent = ' ' :: r := by
  rw [List.takeWhile_append_of_pos h, List.dropWhile_append_of_pos h,
    List.takeWhile_cons_of_neg (by decide), List.dropWhile_cons_of_neg (by decide), List.append_nil]
  exact ⟨rfl, rfl⟩

theorem parseFields_join {ss : List (List Char)} {ts : List (List Char × Tree)}
    (h : List.Forall₂ RenderedField ss ts) :
    ss ≠ [] → ∀ n, (join ss).length + 1 ≤ n → ∀ r, parseFields n (join ss ++ ')' :: r) = some (ts, r) := by
  induction h with
  | nil => intro h; exact absurd rfl h
  | @cons s t ss ts hst hrest ih =>
    intro _ n hn r
    obtain ⟨h0, hid, s', rfl, hs'⟩ := hst
    cases n with
    | zero => omega
    | succ n =>
      cases ss with
      | nil =>
        cases hrest
        simp only [join, List.length_append, List.length_cons, List.length_nil] at hn
        have e := hs' n (by omega) (')' :: r) (delim_paren r)
        have e1 : join [t.1 ++ [' ', '=', ' '] ++ s'] ++ ')' :: r
            = t.1 ++ ' ' :: ('=' :: ' ' :: (s' ++ ')' :: r)) := by simp [join]
        rw [e1]
        obtain ⟨a, b⟩ := ident_split hid ('=' :: ' ' :: (s' ++ ')' :: r))
        unfold parseFields
        rw [a, b, if_neg h0]
        simp only [e]
      | cons x ss =>
        rw [join_cons_cons] at hn ⊢
        simp only [List.length_append, List.length_cons, List.length_nil] at hn
        have e1 : t.1 ++ [' ', '=', ' '] ++ s' ++ [',', ' '] ++ join (x :: ss) ++ ')' :: r
            = t.1 ++ ' ' :: ('=' :: ' ' :: (s' ++ ',' :: ' ' :: (join (x :: ss) ++ ')' :: r))) := by simp
        rw [e1]
        obtain ⟨a, b⟩ := ident_split hid ('=' :: ' ' :: (s' ++ ',' :: ' ' :: (join (x :: ss) ++ ')' :: r)))
        unfold parseFields
        rw [a, b, if_neg h0]
        have e := hs' n (by omega) _ (delim_comma (' ' :: (join (x :: ss) ++ ')' :: r)))
        simp only [e]
        rw [ih (by simp) n (by omega) r]
        rfl

theorem Rendered.struct {ss : List (List Char)} {ts : List (List Char × Tree)}
    (h : List.Forall₂ RenderedField ss ts) : Rendered (['('] ++ join ss ++ [')']) (.struct ts) := by
  intro n hn r _
  cases n with
  | zero => simp at hn
  | succ n =>
    have e : ['('] ++ join ss ++ [')'] ++ r = '(' :: (join ss ++ ')' :: r) := by simp
    rw [e]
    cases h with
    | nil =>
      show parseVal (n + 1) ('(' :: ')' :: r) = _
      conv => lhs; unfold parseVal
      rfl
    | @cons s t ss' ts' hst hrest =>
      have hp := parseFields_join (.cons hst hrest) (by simp) n
        (by simp only [List.length_append, List.length_cons, List.length_nil] at hn; omega) r
      obtain ⟨h0, hid, s', hs, _⟩ := hst
      obtain ⟨c, nm, hnm⟩ : ∃ c nm, t.1 = c :: nm := by
        cases ht : t.1 with
        | nil => exact absurd ht h0
        | cons c nm => exact ⟨c, nm, rfl⟩
      have hc1 : c ≠ ')' := by
        rintro rfl
        exact absurd (hid ')' (by rw [hnm]; simp)) (by decide)
      have hj : ∃ r'', join (s :: ss') ++ ')' :: r = c :: r'' := by
        cases ss' with
        | nil => exact ⟨nm ++ [' ', '=', ' '] ++ s' ++ ')' :: r, by rw [join, hs, hnm]; simp⟩
        | cons x y => exact ⟨_, by rw [join_cons_cons, hs, hnm]; rfl⟩
      obtain ⟨r'', hj⟩ := hj
      rw [hj] at hp ⊢
      have : parseVal (n + 1) ('(' :: c :: r'') = (parseFields n (c :: r'')).map fun x => (.struct x.1, x.2) := by
        conv => lhs; unfold parseVal
        split
        · rename_i h; injection h with _ h; injection h with h _; exact absurd h hc1
        · rename_i h; injection h with _ h; rw [← h]
        · rename_i h; injection h with h _; exact absurd h (by decide)
        · rename_i h; injection h with h _; exact absurd h (by decide)
        · rename_i h; injection h with h _; exact absurd h (by decide)
        · rename_i h1 h2 h3 h4 h5; exact absurd rfl (h2 _)
      rw [this, hp]
      rfl

theorem Rendered.parse {s : List Char} {t : Tree} (h : Rendered s t) : parse s = some t := by
  unfold Short.parse
  have := h (s.length + 1) (by omega) [] (by intro c hc; cases hc)
  rw [List.append_nil] at this
  rw [this]

end Capnpy.Spec.Short
