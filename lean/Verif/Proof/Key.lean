import Verif.Proof.Hash
import Verif.Spec.Key

/-! # Equality and hash of keyed structs: lemmas -/

namespace Capnpy.Key
open Spec Hash

theorem denotes_eq_map (xs : List PyObj) : denotes xs = xs.map denote := by
  induction xs with
  | nil => simp [denotes]
  | cons x xs ih => simp [denotes, ih]

theorem tupleEq_spec (fuel : Nat)
    (ih : ∀ a b, Comparable a → Comparable b → 5 * objDepth a ≤ fuel → 5 * objDepth b ≤ fuel →
      ∃ r, pyEq fuel a b = .ok r ∧ (r = true ↔ denote a = denote b)) :
    ∀ xs ys, Comparables xs → Comparables ys → 5 * objDepths xs ≤ fuel → 5 * objDepths ys ≤ fuel →
      ∃ r, tupleEq fuel xs ys = .ok r ∧ (r = true ↔ denotes xs = denotes ys) := by
  intro xs
  induction xs with
  | nil =>
    intro ys _ _ _ _
    cases ys with
    | nil => exact ⟨true, by simp [tupleEq], by simp [denotes]⟩
    | cons y ys => exact ⟨false, by simp [tupleEq], by simp [denotes]⟩
  | cons x xs ih2 =>
    intro ys hx hy dx dy
    cases ys with
    | nil => exact ⟨false, by simp [tupleEq], by simp [denotes]⟩
    | cons y ys =>
      simp only [objDepths] at dx dy
      simp only [Comparables] at hx hy
      obtain ⟨r, e, hr⟩ := ih x y hx.1 hy.1 (by omega) (by omega)
      obtain ⟨r2, e2, hr2⟩ := ih2 ys hx.2 hy.2 (by omega) (by omega)
      cases r with
      | false =>
        refine ⟨false, by simp [tupleEq, e], ?_⟩
        simp only [denotes, List.cons.injEq]
        simp at hr
        simp [hr]
      | true =>
        refine ⟨r2, by simp [tupleEq, e, e2], ?_⟩
        simp only [denotes, List.cons.injEq]
        simp at hr
        simp [hr, hr2]

theorem denote_symm {a b : PyObj} {r : Bool} (h : r = true ↔ denote a = denote b) :
    r = true ↔ denote b = denote a := by rw [h]; exact eq_comm

/-- tuple against tuple -/
theorem pyEq_tuple (f : Nat) (xs ys : List PyObj)
    (h : ∃ r, tupleEq f xs ys = .ok r ∧ (r = true ↔ denotes xs = denotes ys)) :
    ∃ r, pyEq (f + 1) (.tuple xs) (.tuple ys) = .ok r ∧
      (r = true ↔ denote (.tuple xs) = denote (.tuple ys)) := by
  obtain ⟨r, e, hr⟩ := h
  exact ⟨r, by simp [pyEq, e], by simp [denote, hr]⟩

theorem pyEq_spec : ∀ (fuel : Nat) (a b : PyObj), Comparable a → Comparable b →
    5 * objDepth a ≤ fuel → 5 * objDepth b ≤ fuel →
    ∃ r, pyEq fuel a b = .ok r ∧ (r = true ↔ denote a = denote b) := by
  intro fuel
  induction fuel using Nat.strongRecOn with
  | ind fuel ih =>
    intro a b ha hb da db
    have hpos : ∀ x : PyObj, 1 ≤ objDepth x := by
      intro x; cases x <;> simp [objDepth]
    have h5 : 5 ≤ fuel := by have := hpos a; omega
    obtain ⟨f, rfl⟩ := Nat.exists_eq_add_of_le h5
    -- one level of tuples, at any fuel from f + 2 to f + 5
    have tup : ∀ (k : Nat) (xs ys : List PyObj), k < 5 → Comparables xs → Comparables ys →
        5 * (objDepths xs + 1) ≤ 5 + f → 5 * (objDepths ys + 1) ≤ 5 + f →
        ∃ r, pyEq (f + k + 1) (.tuple xs) (.tuple ys) = .ok r ∧
          (r = true ↔ denote (.tuple xs) = denote (.tuple ys)) := by
      intro k xs ys hk hx hy dx dy
      apply pyEq_tuple
      apply tupleEq_spec
      · intro a b h1 h2 h3 h4
        exact ih (f + k) (by omega) a b h1 h2 h3 h4
      · exact hx
      · exact hy
      · omega
      · omega
    have flip : ∀ (k : Nat) (xs ys : List PyObj), k < 5 → Comparables xs → Comparables ys →
        5 * (objDepths xs + 1) ≤ 5 + f → 5 * (objDepths ys + 1) ≤ 5 + f →
        ∃ r, pyEq (f + k + 1) (.tuple ys) (.tuple xs) = .ok r ∧
          (r = true ↔ denote (.tuple xs) = denote (.tuple ys)) := by
      intro k xs ys hk hx hy dx dy
      obtain ⟨r, e, hr⟩ := tup k ys xs hk hy hx dy dx
      exact ⟨r, e, denote_symm hr⟩
    have e5 : 5 + f = f + 4 + 1 := by omega
    rw [e5]
    cases a with
    | unkeyed => exact absurd ha (by simp [Comparable])
    | keyed k =>
      cases b with
      | unkeyed => exact absurd hb (by simp [Comparable])
      | keyed k2 =>
        obtain ⟨r, e, hr⟩ := tup 0 k k2 (by omega) ha hb (by simpa [objDepth] using da)
          (by simpa [objDepth] using db)
        refine ⟨r, ?_, by simpa [denote] using hr⟩
        simp [pyEq, structEquals, getKey] at e ⊢
        exact e
      | tuple ys =>
        obtain ⟨r, e, hr⟩ := flip 2 k ys (by omega) ha hb (by simpa [objDepth] using da)
          (by simpa [objDepth] using db)
        refine ⟨r, ?_, by simpa [denote] using hr⟩
        simp [pyEq, structEquals, getKey] at e ⊢
        exact e
      | none => exact ⟨false, by simp [pyEq, structEquals], by simp [denote]⟩
      | int i => exact ⟨false, by simp [pyEq, structEquals], by simp [denote]⟩
      | bytes i => exact ⟨false, by simp [pyEq, structEquals], by simp [denote]⟩
      | str i => exact ⟨false, by simp [pyEq, structEquals], by simp [denote]⟩
    | tuple xs =>
      cases b with
      | unkeyed => exact absurd hb (by simp [Comparable])
      | keyed k2 =>
        obtain ⟨r, e, hr⟩ := tup 2 xs k2 (by omega) ha hb (by simpa [objDepth] using da)
          (by simpa [objDepth] using db)
        refine ⟨r, ?_, by simpa [denote] using hr⟩
        simp [pyEq, structEquals, getKey] at e ⊢
        exact e
      | tuple ys =>
        exact tup 4 xs ys (by omega) ha hb (by simpa [objDepth] using da)
          (by simpa [objDepth] using db)
      | none => exact ⟨false, by simp [pyEq], by simp [denote]⟩
      | int i => exact ⟨false, by simp [pyEq], by simp [denote]⟩
      | bytes i => exact ⟨false, by simp [pyEq], by simp [denote]⟩
      | str i => exact ⟨false, by simp [pyEq], by simp [denote]⟩
    | none =>
      cases b with
      | unkeyed => exact absurd hb (by simp [Comparable])
      | keyed k2 => exact ⟨false, by simp [pyEq, structEquals], by simp [denote]⟩
      | none => exact ⟨true, by simp [pyEq], by simp [denote]⟩
      | _ => exact ⟨false, by simp [pyEq], by simp [denote]⟩
    | int i =>
      cases b with
      | unkeyed => exact absurd hb (by simp [Comparable])
      | keyed k2 => exact ⟨false, by simp [pyEq, structEquals], by simp [denote]⟩
      | int j => exact ⟨i == j, by simp [pyEq], by simp [denote]⟩
      | _ => exact ⟨false, by simp [pyEq], by simp [denote]⟩
    | bytes i =>
      cases b with
      | unkeyed => exact absurd hb (by simp [Comparable])
      | keyed k2 => exact ⟨false, by simp [pyEq, structEquals], by simp [denote]⟩
      | bytes j => exact ⟨i == j, by simp [pyEq], by simp [denote]⟩
      | _ => exact ⟨false, by simp [pyEq], by simp [denote]⟩
    | str i =>
      cases b with
      | unkeyed => exact absurd hb (by simp [Comparable])
      | keyed k2 => exact ⟨false, by simp [pyEq, structEquals], by simp [denote]⟩
      | str j => exact ⟨i == j, by simp [pyEq], by simp [denote]⟩
      | _ => exact ⟨false, by simp [pyEq], by simp [denote]⟩

/-! ## hash -/

mutual
/-- The hash of a denotation. -/
def valHash (E : HashEnv) : KeyVal → CLong
  | .none => E.hashNone
  | .int i => BitVec.ofInt 64 (Spec.pyIntHash i)
  | .bytes b => E.hashBytes b
  | .str s => E.hashStr s
  | .tuple xs => BitVec.ofNat 64 (Spec.pyTupleHash ((valHashes E xs).map BitVec.toNat))
def valHashes (E : HashEnv) : List KeyVal → List CLong
  | [] => []
  | x :: xs => valHash E x :: valHashes E xs
end

mutual
theorem pyHash_denote (E : HashEnv) : ∀ (a : PyObj), Comparable a →
    pyHash E a = .ok (valHash E (denote a))
  | .none, _ => by simp [pyHash, denote, valHash]
  | .int i, _ => by simp [pyHash, denote, valHash]
  | .bytes i, _ => by simp [pyHash, denote, valHash]
  | .str i, _ => by simp [pyHash, denote, valHash]
  | .tuple xs, h => by
    have := pyHashes_denote E xs (by simpa [Comparable] using h)
    simp [pyHash, denote, valHash, this, bind, Except.bind, pure, Except.pure]
  | .keyed xs, h => by
    have := pyHashes_denote E xs (by simpa [Comparable] using h)
    simp [pyHash, denote, valHash, this, bind, Except.bind, pure, Except.pure]
  | .unkeyed, h => by simp [Comparable] at h
theorem pyHashes_denote (E : HashEnv) : ∀ (xs : List PyObj), Comparables xs →
    pyHashes E xs = .ok (valHashes E (denotes xs))
  | [], _ => by simp [pyHashes, denotes, valHashes]
  | x :: xs, h => by
    simp only [Comparables] at h
    have h1 := pyHash_denote E x h.1
    have h2 := pyHashes_denote E xs h.2
    simp [pyHashes, denotes, valHashes, h1, h2, bind, Except.bind, pure, Except.pure]
end

/-- No hash function of the interpreter returns -1, which means an error. -/
def HashEnv.Valid (E : HashEnv) : Prop :=
  E.hashNone ≠ BitVec.ofInt 64 (-1) ∧ (∀ b, E.hashBytes b ≠ BitVec.ofInt 64 (-1)) ∧ (∀ b, E.hashStr b ≠ BitVec.ofInt 64 (-1))

theorem pyHash_ne (E : HashEnv) (hE : E.Valid) (a : PyObj) (x : CLong) (h : pyHash E a = .ok x) :
    x ≠ BitVec.ofInt 64 (-1) := by
  cases a with
  | none => simp only [pyHash, Except.ok.injEq] at h; rw [← h]; exact hE.1
  | int i =>
    simp only [pyHash, Except.ok.injEq] at h
    rw [← h]
    intro h'
    have h2 := congrArg BitVec.toInt h'
    have e : (BitVec.ofInt 64 (-1)).toInt = -1 := by decide
    rw [e] at h2
    have hm : i.natAbs % 2305843009213693951 < 2305843009213693951 := Nat.mod_lt _ (by omega)
    have hb : -2 ^ 63 ≤ Spec.pyIntHash i ∧ Spec.pyIntHash i < 2 ^ 63 ∧ Spec.pyIntHash i ≠ -1 := by
      unfold Spec.pyIntHash Spec.hashModulus
      simp only
      generalize i.natAbs % 2305843009213693951 = m at hm
      split <;> split <;> omega
    rw [BitVec.toInt_ofInt_eq_self (by omega) (by simpa using hb.1) (by simpa using hb.2.1)] at h2
    exact hb.2.2 h2
  | bytes b => simp only [pyHash, Except.ok.injEq] at h; rw [← h]; exact hE.2.1 b
  | str b => simp only [pyHash, Except.ok.injEq] at h; rw [← h]; exact hE.2.2 b
  | tuple xs =>
    simp only [pyHash, bind, Except.bind, pure, Except.pure] at h
    split at h
    · cases h
    · injection h with h; rw [← h]; exact pyTupleHash_ne _
  | keyed xs =>
    simp only [pyHash, bind, Except.bind, pure, Except.pure] at h
    split at h
    · cases h
    · injection h with h; rw [← h]; exact pyTupleHash_ne _
  | unkeyed => simp [pyHash] at h

theorem pyHashes_ne (E : HashEnv) (hE : E.Valid) : ∀ (xs : List PyObj) (hs : List CLong), pyHashes E xs = .ok hs →
    ∀ h ∈ hs, h ≠ BitVec.ofInt 64 (-1)
  | [], hs, h => by simp only [pyHashes, Except.ok.injEq] at h; subst h; simp
  | x :: xs, hs, h => by
    simp only [pyHashes, bind, Except.bind, pure, Except.pure] at h
    cases h1 : pyHash E x with
    | error e => simp [h1] at h
    | ok y =>
      cases h2 : pyHashes E xs with
      | error e => simp [h1, h2] at h
      | ok ys =>
        simp only [h1, h2, Except.ok.injEq] at h
        subst h
        intro z hz
        rcases List.mem_cons.mp hz with rfl | hz
        · exact pyHash_ne E hE x _ h1
        · exact pyHashes_ne E hE xs ys h2 z hz

/-- A key field value the accessor of that kind of field can return. -/
def KeyField.Ok : KeyField → Prop
  | .smallInt v => -2 ^ 63 ≤ v ∧ v < 2 ^ 63
  | .uint64 v => 0 ≤ v ∧ v < 2 ^ 64
  | .textUnicode v => v ≠ .none
  | _ => True

theorem fastHash_field (E : HashEnv) (f : KeyField) (h : f.Ok) : f.fastHash E = pyHash E f.value := by
  cases f with
  | smallInt v =>
    simp only [KeyField.fastHash, KeyField.value, pyHash]
    congr 1
    apply BitVec.eq_of_toInt_eq
    have h1 : (BitVec.ofInt 64 v).toInt = v := BitVec.toInt_ofInt_eq_self (by omega) (by simpa using h.1) (by simpa using h.2)
    have h2 := inthash3_eq (BitVec.ofInt 64 v)
    rw [h1] at h2
    rw [← h2, BitVec.ofInt_toInt]
  | uint64 v =>
    simp only [KeyField.fastHash, KeyField.value, pyHash]
    congr 1
    have h1 : ((BitVec.ofInt 64 v).toNat : Int) = v := by
      rw [BitVec.toNat_ofInt]; have := h.1; have := h.2; simp at *; omega
    have h2 := longhash3_eq (BitVec.ofInt 64 v)
    rw [h1] at h2
    rw [← h2, BitVec.ofInt_toInt]
  | textBytes v => rfl
  | textUnicode v =>
    cases v <;> simp_all [KeyField.fastHash, KeyField.value, KeyField.Ok]
  | other v => rfl

theorem fastHashes_eq (E : HashEnv) (fs : List KeyField) (h : ∀ f ∈ fs, f.Ok) :
    fastHashes E fs = pyHashes E (fs.map KeyField.value) := by
  induction fs with
  | nil => simp [fastHashes, pyHashes]
  | cons f fs ih =>
    simp only [fastHashes, List.map_cons, pyHashes]
    rw [fastHash_field E f (h f (by simp)), ih (fun g hg => h g (by simp [hg]))]

end Capnpy.Key
