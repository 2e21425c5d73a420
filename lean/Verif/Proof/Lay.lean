import Verif.Proof.Copy

/-! # Layouts: chains of children, sizes, determinism -/

namespace Capnpy.Spec

/-- The pointers `vs` stored from `sp` have their objects laid out one after the
other in `[s, e)`. -/
def PtrsLay (ae : Bool) (B : List UInt8) : Nat → List Val → Nat → Nat → Prop
  | _, [], s, e => s = e
  | sp, v :: vs, s, e => ∃ m, Lay ae B sp (wordAt B sp) v s m ∧ PtrsLay ae B (sp + 8) vs m e

/-- The same for the pointer sections of the elements of a composite list. -/
def ItemsLay (ae : Bool) (B : List UInt8) (L doff : Nat) :
    Nat → List (List UInt8 × List Val) → Nat → Nat → Prop
  | _, [], s, e => s = e
  | base, (_, vs) :: is, s, e =>
    ∃ m, PtrsLay ae B (base + doff) vs s m ∧ ItemsLay ae B L doff (base + L) is m e

theorem ptrsLay_of_ends {ae : Bool} {B : List UInt8} {vs : List Val} :
    ∀ {sp : Nat} (ends : Nat → Nat),
      (∀ j v, vs[j]? = some v →
        Lay ae B (sp + 8 * j) (wordAt B (sp + 8 * j)) v (ends j) (ends (j + 1))) →
      PtrsLay ae B sp vs (ends 0) (ends vs.length) := by
  induction vs with
  | nil => intro sp ends _; rfl
  | cons v vs ih =>
    intro sp ends h
    refine ⟨ends 1, by simpa using h 0 v (by simp), ?_⟩
    have := ih (sp := sp + 8) (fun j => ends (j + 1)) (by
      intro j u hj
      have := h (j + 1) u (by simpa using hj)
      rw [show sp + 8 * (j + 1) = sp + 8 + 8 * j by omega] at this
      exact this)
    simpa using this

theorem ends_of_ptrsLay {ae : Bool} {B : List UInt8} {vs : List Val} :
    ∀ {sp s e : Nat}, PtrsLay ae B sp vs s e → ∃ ends : Nat → Nat, ends 0 = s ∧ ends vs.length = e ∧
      ∀ j v, vs[j]? = some v →
        Lay ae B (sp + 8 * j) (wordAt B (sp + 8 * j)) v (ends j) (ends (j + 1)) := by
  induction vs with
  | nil => intro sp s e h; exact ⟨fun _ => s, rfl, h, by intro j v hj; simp at hj⟩
  | cons v vs ih =>
    intro sp s e ⟨m, h1, h2⟩
    obtain ⟨ends, e0, e1, e2⟩ := ih h2
    refine ⟨fun j => if j = 0 then s else ends (j - 1), by simp, by simp [e1], ?_⟩
    intro j u hj
    cases j with
    | zero => simp at hj; subst hj; simpa [e0] using h1
    | succ j =>
      simp at hj
      have := e2 j u hj
      rw [show sp + 8 * (j + 1) = sp + 8 + 8 * j by omega]
      simpa using this

theorem itemsLay_of_ends {ae : Bool} {B : List UInt8} {L doff ps : Nat}
    {is : List (List UInt8 × List Val)} :
    ∀ {base : Nat} (ends : Nat → Nat → Nat), (∀ i, ends i ps = ends (i + 1) 0) →
      (∀ (i : Nat) d vs, is[i]? = some (d, vs) → vs.length = ps) →
      (∀ (i : Nat) d vs, is[i]? = some (d, vs) → ∀ (j : Nat) v, vs[j]? = some v →
        Lay ae B (base + i * L + doff + 8 * j) (wordAt B (base + i * L + doff + 8 * j)) v
          (ends i j) (ends i (j + 1))) →
      ItemsLay ae B L doff base is (ends 0 0) (ends is.length 0) := by
  induction is with
  | nil => intro base ends _ _ _; rfl
  | cons x is ih =>
    obtain ⟨d, vs⟩ := x
    intro base ends hs hl h
    refine ⟨ends 0 vs.length, ptrsLay_of_ends (ends 0) ?_, ?_⟩
    · intro j v hj
      have := h 0 d vs (by simp) j v hj
      simpa using this
    · rw [hl 0 d vs (by simp), hs 0]
      have := ih (base := base + L) (fun i => ends (i + 1)) (fun i => hs (i + 1))
        (fun i d vs hi => hl (i + 1) d vs (by simpa using hi)) (by
          intro i d vs hi j v hj
          have := h (i + 1) d vs (by simpa using hi) j v hj
          rw [show base + (i + 1) * L = base + L + i * L by ring] at this
          exact this)
      simpa using this

theorem ends_of_itemsLay {ae : Bool} {B : List UInt8} {L doff ps : Nat}
    {is : List (List UInt8 × List Val)} :
    ∀ {base s e : Nat}, (∀ (i : Nat) d vs, is[i]? = some (d, vs) → vs.length = ps) →
      ItemsLay ae B L doff base is s e →
      ∃ ends : Nat → Nat → Nat, ends 0 0 = s ∧ ends is.length 0 = e ∧
        (∀ i, ends i ps = ends (i + 1) 0) ∧
        ∀ (i : Nat) d vs, is[i]? = some (d, vs) → ∀ (j : Nat) v, vs[j]? = some v →
          Lay ae B (base + i * L + doff + 8 * j) (wordAt B (base + i * L + doff + 8 * j)) v
            (ends i j) (ends i (j + 1)) := by
  induction is with
  | nil =>
    intro base s e _ h
    exact ⟨fun _ _ => s, rfl, h, fun _ => rfl, by intro i d vs hi; simp at hi⟩
  | cons x is ih =>
    obtain ⟨d, vs⟩ := x
    intro base s e hl ⟨m, h1, h2⟩
    obtain ⟨en, a0, a1, a2⟩ := ends_of_ptrsLay h1
    obtain ⟨ends, e0, e1, e2, e3⟩ :=
      ih (fun i d vs hi => hl (i + 1) d vs (by simpa using hi)) h2
    refine ⟨fun i => if i = 0 then en else ends (i - 1), by simpa using a0, by simpa using e1,
      ?_, ?_⟩
    · intro i
      cases i with
      | zero =>
        have := hl 0 d vs (by simp)
        simp [e0, ← this, a1]
      | succ i => simpa using e2 i
    · intro i d' vs' hi j v hj
      cases i with
      | zero =>
        simp at hi; obtain ⟨rfl, rfl⟩ := hi
        simpa using a2 j v hj
      | succ i =>
        simp at hi
        have := e3 i d' vs' hi j v hj
        rw [show base + (i + 1) * L = base + L + i * L by ring]
        simpa using this

theorem lay_zero {ae : Bool} {B : List UInt8} {pos s e : Nat} {v : Val}
    (h : Lay ae B pos 0 v s e) : v = .null ∧ s = e := by
  generalize hw : 0 = w at h
  cases h with
  | null => exact ⟨rfl, rfl⟩
  | empty => exact absurd hw (by decide)
  | struct => exact absurd hw.symm ‹_›
  | listPrim => subst hw; exact absurd ‹kind 0 = 1› (by decide)
  | listPtr => subst hw; exact absurd ‹kind 0 = 1› (by decide)
  | listComp => subst hw; exact absurd ‹kind 0 = 1› (by decide)

/-- In a strict layout a non-null pointer points at the start of its range. -/
theorem lay_start {B : List UInt8} {pos w s e : Nat} {v : Val} (hw : w ≠ 0)
    (h : Lay false B pos w v s e) : target pos w = s := by
  cases h with
  | null => exact absurd rfl hw
  | empty _ _ h => cases h
  | struct => assumption
  | listPrim => assumption
  | listPtr => assumption
  | listComp => assumption

/-- The range of a layout is exactly as large as the value. -/
theorem lay_size {ae : Bool} {B : List UInt8} {pos w s e : Nat} {v : Val}
    (h : Lay ae B pos w v s e) : e = s + v.size := by
  have chain : ∀ (vs : List Val) (ends : Nat → Nat),
      (∀ j v, vs[j]? = some v → ends (j + 1) = ends j + v.size) →
      ends vs.length = ends 0 + Val.sizes vs := by
    intro vs
    induction vs with
    | nil => intro ends _; simp [Val.sizes]
    | cons v vs ih =>
      intro ends h
      have h1 := h 0 v (by simp)
      have h2 := ih (fun j => ends (j + 1)) (fun j u hj => h (j + 1) u (by simpa using hj))
      simp only [List.length_cons, Val.sizes]
      simp only [Nat.zero_add] at h1 h2
      omega
  induction h with
  | null => simp [Val.size]
  | empty => simp [Val.size, Val.sizes]
  | struct pos w s e data ptrs ends hw hk ht hb hd hl hne h0 he hp ih =>
    have := chain ptrs ends ih
    have hdl : data.length = 8 * dataSize w := by rw [hd]; exact slice_length_of_le (by omega)
    simp only [Val.size]; omega
  | listPrim => simp [Val.size]
  | listPtr pos w s e items ends hk hg ht hb hl h0 he hp ih =>
    have := chain items ends ih
    simp only [Val.size]; omega
  | listComp pos w s e tag ds ps items ends hk hg ht hb htag hkt hds hps hn htot h0 he hstep hi hp ih =>
    have key : ∀ n, n ≤ items.length → ends n 0 = ends 0 0 + Val.itemSizes (items.take n) := by
      intro n
      induction n with
      | zero => intro _; simp [Val.itemSizes]
      | succ n ihn =>
        intro hn'
        have h1 := ihn (by omega)
        have hg : items[n]? = some (items[n].1, items[n].2) := by
          rw [List.getElem?_eq_getElem (by omega)]
        have h2 := chain items[n].2 (ends n) (ih n _ _ hg)
        rw [(hi n _ _ hg).2, hstep n] at h2
        rw [Val.itemSizes_take hg]
        omega
    have hk := key items.length (le_refl _)
    rw [List.take_length] at hk
    have hm : items.length * (8 * (ds + ps)) = 8 * (items.length * (ds + ps)) := by ring
    simp only [Val.size]
    omega

end Capnpy.Spec
