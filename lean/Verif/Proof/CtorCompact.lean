import Verif.Proof.Ctor
import Verif.Proof.Strict
import Verif.Proof.ListEq
import Verif.Spec.CtorCompact

/-! # The layout of a constructed object -/

namespace Capnpy

open Spec Props

/-- The values `W` are laid out one after the other in `[s, e)`. -/
def LayW (ds : Nat) (C : Bytes) : List (Nat × Val) → Nat → Nat → Prop
  | [], s, e => s = e
  | x :: W, s, e => ∃ m, Lay true C (8 * (ds + x.1)) (wordAt C (8 * (ds + x.1))) x.2 s m ∧ LayW ds C W m e

theorem LayW.append {ds : Nat} {C : Bytes} : ∀ {W1 W2 : List (Nat × Val)} {s m e : Nat},
    LayW ds C W1 s m → LayW ds C W2 m e → LayW ds C (W1 ++ W2) s e
  | [], W2, s, m, e, h1, h2 => by
    have h1 : s = m := h1
    subst h1; exact h2
  | x :: W1, W2, s, m, e, ⟨k, h, h1⟩, h2 => ⟨k, h, h1.append h2⟩

theorem LayW.split {ds : Nat} {C : Bytes} : ∀ {W1 W2 : List (Nat × Val)} {s e : Nat},
    LayW ds C (W1 ++ W2) s e → ∃ m, LayW ds C W1 s m ∧ LayW ds C W2 m e
  | [], W2, s, e, h => ⟨s, rfl, h⟩
  | x :: W1, W2, s, e, ⟨k, h, h1⟩ => by
    obtain ⟨m, h2, h3⟩ := h1.split
    exact ⟨m, ⟨k, h, h2⟩, h3⟩

/-- The room taken by the values. -/
def sizeW (W : List (Nat × Val)) : Nat := (W.map fun x => x.2.size).sum

theorem LayW.size {ds : Nat} {C : Bytes} : ∀ {W : List (Nat × Val)} {s e : Nat}, LayW ds C W s e → e = s + sizeW W
  | [], s, e, h => by
    have h : s = e := h
    simp [sizeW, h]
  | x :: W, s, e, ⟨m, h, h1⟩ => by
    have := lay_size h
    have := h1.size
    have hs : sizeW (x :: W) = x.2.size + sizeW W := by simp [sizeW]
    omega

/-! ## One slot -/

theorem write_ptr_lay {b b' : Bytes} {dst : Nat} {v : Val} (h : CopyPost b b' dst v) (hd : dst + 8 ≤ b.length) :
    NodePost b b' v.size (fun i => 8 * dst ≤ i ∧ i < 8 * dst + 64)
      (fun C => Lay true C dst (wordAt C dst) v b.length b'.length) := by
  have hl := h.len
  refine ⟨hl, h.al, ?_, ?_⟩
  · intro i hi hn
    exact bitAt_of_byte (h.frame (i / 8) (by omega) (by omega))
  · intro C hC hb hby
    have hlay := h.lay C hC hby
    have hw : wordAt C dst = wordAt b' dst := by
      apply wordAt_congr
      intro k hk
      apply byte_of_bits
      intro m hm
      exact hb _ (by omega)
    rw [hw]
    exact hlay

/-- What the copy functions of a pointer slot do. -/
theorem buildPtr_post {fuel ds ps : Nat} {ty : SlotType} {off : Nat} {dflt : Option Int} {a : Arg} {v : Val}
    (hp : ty.isPointer = true) (ho : off < ps) (hv : PtrArg ty a v) (hf : v.Fits) (hd : 2 * v.depth ≤ fuel + 1)
    {b : Bytes} (h8 : 8 ∣ b.length) (hR : 8 * (ds + ps) ≤ b.length) (hL : b.length + v.size ≤ 2 ^ 32) :
    ∃ b', buildSlot fuel ds ty off dflt a b = .ok () b' ∧ CopyPost b b' (8 * (ds + off)) v := by
  have key : ∀ (m : Int → BM Unit),
      (∀ (dst : Nat), dst + 8 ≤ b.length → 8 ∣ dst → ∃ b', m dst b = .ok () b' ∧ CopyPost b b' dst v) →
      ∃ b', m ((off * 8 + ds * 8 : Nat) : Int) b = .ok () b' ∧ CopyPost b b' (8 * (ds + off)) v := by
    intro m h
    obtain ⟨b', e, hp⟩ := h (8 * (ds + off)) (by omega) (by omega)
    refine ⟨b', ?_, hp⟩
    rw [show off * 8 + ds * 8 = 8 * (ds + off) by ring]
    exact e
  have nul : ∀ (tz : Int) (dst : Nat), dst + 8 ≤ b.length → 8 ∣ dst →
      ∃ b', allocBytesArg dst .none tz b = .ok () b' ∧ CopyPost b b' dst .null := by
    intro tz dst h1 h2
    obtain ⟨b', e, hp⟩ := writeNull_post (b := b) h1 h8
    refine ⟨b', ?_, hp⟩
    have e2 : allocText (dst : Int) none tz b = .ok (-1) b' := by
      show (do writeInt64 (dst : Int) 0; pure (-1) : BM Int) b = _
      rw [BM.bind_ok e]; rfl
    show (do let _ ← allocText (dst : Int) none _ : BM Unit) b = _
    rw [BM.bind_ok e2]; rfl
  cases ty with
  | void => cases hp
  | prim => cases hp
  | float => cases hp
  | bool => cases hp
  | enum => cases hp
  | anyPointer => cases a <;> exact hv.elim
  | text =>
    cases a with
    | none => cases hv; exact key (fun i => allocBytesArg i .none 1) (nul 1)
    | bytes s =>
      cases hv
      have hfit : s.length + 1 < 2 ^ 28 := by simpa [Val.Fits] using hf
      refine key (fun i => allocBytesArg i (.bytes s) 1) (fun dst h1 h2 => ?_)
      obtain ⟨b', e, hp⟩ := allocText_post (b := b) s 1 h8 h2 h1 hfit (by omega)
      refine ⟨b', ?_, hp⟩
      show (do let _ ← allocText (dst : Int) (some s) 1 : BM Unit) b = _
      rw [BM.bind_ok (show allocText (dst : Int) (some s) 1 b = _ from e)]; rfl
    | _ => exact hv.elim
  | data =>
    cases a with
    | none => cases hv; exact key (fun i => allocBytesArg i .none 0) (nul 0)
    | bytes s =>
      cases hv
      have hfit : s.length + 0 < 2 ^ 28 := by simpa [Val.Fits] using hf
      refine key (fun i => allocBytesArg i (.bytes s) 0) (fun dst h1 h2 => ?_)
      obtain ⟨b', e, hp⟩ := allocText_post (b := b) s 0 h8 h2 h1 hfit (by omega)
      refine ⟨b', ?_, ?_⟩
      · show (do let _ ← allocText (dst : Int) (some s) 0 : BM Unit) b = _
        rw [BM.bind_ok (show allocText (dst : Int) (some s) 0 b = _ from e)]; rfl
      · simpa using hp
    | _ => exact hv.elim
  | struct =>
    cases a with
    | none => cases hv; exact key (fun i => copyStructArg fuel i .none) (fun dst h1 h2 => writeNull_post (b := b) h1 h8)
    | struct o =>
      exact key (fun i => copyStructArg fuel i (.struct o))
        (fun dst h1 h2 => copyFromStruct_spec hv.1 hf hv.2 hd h1 h2 h8 hL)
    | _ => exact hv.elim
  | list it =>
    cases a with
    | none => cases hv; exact key (fun i => copyListArg fuel it i .none) (fun dst h1 h2 => writeNull_post (b := b) h1 h8)
    | list xs =>
      exact key (fun i => copyListArg fuel it i (.list xs))
        (fun dst h1 h2 => copyList_spec fuel it xs v hv hf (by omega) b dst h1 h2 h8 hL)
    | _ => exact hv.elim

theorem buildSlot_lay {fuel ds ps : Nat} {ty : SlotType} {off : Nat} {dflt : Option Int} {a : Arg} {n : Nat}
    (hwf : SlotWF ds ps ty off dflt) (ha : SlotArg fuel ty a n) {b : Bytes} (h8 : 8 ∣ b.length)
    (hR : 8 * (ds + ps) ≤ b.length) (hL : b.length + n ≤ 2 ^ 32)
    (hz : ∀ i, slotBits ds ty off i → bitAt b i = some false) :
    ∃ W, (if ty.isPointer then ∃ v, PtrArg ty a v ∧ W = [(off, v)] else W = []) ∧
      ∃ b', buildSlot fuel ds ty off dflt a b = .ok () b' ∧
        NodePost b b' n (slotBits ds ty off) (fun C => LayW ds C W b.length b'.length) := by
  by_cases hp : ty.isPointer = true
  · have ho : off < ps := by cases ty <;> first | exact hwf.1 | cases hp
    have ha' : ∃ v, PtrArg ty a v ∧ v.Fits ∧ 2 * v.depth ≤ fuel + 1 ∧ n = v.size := by
      cases ty <;> first | exact False.elim ha | exact ha | (cases hp; done)
    obtain ⟨v, hv, hf, hd, rfl⟩ := ha'
    obtain ⟨b', e, hc⟩ := buildPtr_post (dflt := dflt) hp ho hv hf hd h8 hR hL
    refine ⟨[(off, v)], by rw [if_pos hp]; exact ⟨v, hv, rfl⟩, b', e, ?_⟩
    refine (write_ptr_lay hc (by omega)).mono (fun i hi => ?_) (fun C h => ⟨_, h, rfl⟩)
    have hb : slotBits ds ty off i = (64 * (ds + off) ≤ i ∧ i < 64 * (ds + off) + 64) := by
      cases ty <;> first | rfl | cases hp
    rw [hb]
    omega
  · obtain ⟨b', e, hpost⟩ := buildSlot_spec hwf ha h8 hR hL hz
    have hn : n = 0 := by
      cases ty with
      | void => exact ha
      | prim => obtain ⟨_, _, _, h⟩ := ha; exact h
      | float => obtain ⟨_, _, _, h⟩ := ha; exact h
      | enum => obtain ⟨_, _, _, h⟩ := ha; exact h
      | bool => obtain ⟨_, _, h⟩ := ha; exact h
      | _ => exact absurd rfl hp
    have hl := hpost.len
    refine ⟨[], by rw [if_neg hp], b', e, hpost.mono (fun _ h => h) (fun C _ => ?_)⟩
    show b.length = b'.length
    omega

/-! ## The fields -/

mutual

theorem bodyNode_lay (fuel ds ps : Nat) : ∀ (f : Field) (a : Arg) (n : Nat), FieldWF ds ps f →
    AccField fuel f a n → ∀ b : Bytes, BufOK ds ps b n (footNode ds f a) →
    ∃ W, FieldPtrs f a W ∧ ∃ b', bodyNode fuel ds f a b = .ok () b' ∧
      NodePost b b' n (footNode ds f a) (fun C => LayW ds C W b.length b'.length)
  | .slot name code disc ty off dflt, a, n, hwf, ha, b, hb => by
    unfold FieldWF at hwf
    unfold AccField at ha
    unfold bodyNode FieldPtrs
    rw [footNode_slot] at hb ⊢
    exact buildSlot_lay hwf ha hb.al hb.root hb.fits hb.zero
  | .group name code disc nullable gunion children, a, n, hwf, ha, b, hb => by
    unfold FieldWF at hwf
    obtain ⟨hw1, hw2, hw3⟩ := hwf
    unfold AccField at ha
    unfold bodyNode FieldPtrs
    cases nullable with
    | true =>
      have hn : true = true := rfl
      rw [footNode_nullable] at hb ⊢
      simp only [if_true] at ha ⊢
      obtain ⟨hu, hne, c, o, ty, d, c2, rfl, hty, hv, hd2, hs2⟩ := hw3 hn
      rw [nullableArgs_eq hty hs2]
      have hmem : members [.slot "is_null" c none ty o d, c2] (nullablePair [.slot "is_null" c none ty o d, c2] a) = [] := by
        have : ∃ x y, nullablePair [.slot "is_null" c none ty o d, c2] a = [x, y] := by
          unfold nullablePair; split <;> exact ⟨_, _, rfl⟩
        obtain ⟨x, y, e⟩ := this
        rw [e, members_none (isNullType_not_skipped hty) rfl, members_none hs2 hd2]
        rfl
      obtain ⟨W, hW, c', b', e, hp⟩ := buildNodes_lay fuel ds ps gunion false _ _ n hw1 hw2 ha (by rw [hmem]; simp) b hb
      refine ⟨W, hW, b', ?_, hp⟩
      rw [BM.bind_ok e]; rfl
    | false =>
      simp only [Bool.false_eq_true, if_false] at ha ⊢
      obtain ⟨as, rfl, hac, hm⟩ := ha
      rw [footNode_tuple] at hb ⊢
      simp only
      rw [if_pos (accFields_length fuel _ _ _ hac)]
      obtain ⟨W, hW, c', b', e, hp⟩ := buildNodes_lay fuel ds ps gunion false children as n hw1 hw2 hac (by simpa using hm) b hb
      refine ⟨W, ⟨as, rfl, hW⟩, b', ?_, hp⟩
      rw [BM.bind_ok e]; rfl

theorem buildNodes_lay (fuel ds ps : Nat) (union : Option Nat) (cur : Bool) :
    ∀ (fs : List Field) (as : List Arg) (n : Nat), TagWF ds union → FieldsWF ds ps union fs →
    AccFields fuel fs as n → (members fs as).length + (if cur then 1 else 0) ≤ 1 →
    ∀ b : Bytes, BufOK ds ps b n (footAll ds union fs as) →
    ∃ W, FieldsPtrs fs as W ∧ ∃ c b', buildNodes fuel ds union cur fs as b = .ok c b' ∧
      NodePost b b' n (footAll ds union fs as) (fun C => LayW ds C W b.length b'.length)
  | [], as, n, ht, hwf, ha, hm, b, hb => by
    unfold AccFields at ha
    obtain ⟨rfl, rfl⟩ := ha
    refine ⟨[], by unfold FieldsPtrs; rfl, cur, b, by unfold buildNodes; rfl,
      (NodePost.refl hb.al).mono (fun _ h => h.elim) (fun C _ => rfl)⟩
  | f :: fs, as, n, ht, hwf, ha, hm, b, hb => by
    have hwf' := hwf
    unfold FieldsWF at hwf
    obtain ⟨w1, w2, w3, w4, w5⟩ := hwf
    by_cases hs : f.skipped = true
    · unfold AccFields at ha
      rw [if_pos hs] at ha
      rw [members_skip hs] at hm
      rw [footAll_skip _ _ _ _ _ hs] at hb ⊢
      unfold buildNodes FieldsPtrs
      simp only [if_pos hs]
      exact buildNodes_lay fuel ds ps union cur fs as n ht w5 ha hm b hb
    · unfold AccFields at ha
      rw [if_neg hs] at ha
      have hs' : f.skipped = false := by simpa using hs
      cases as with
      | nil => exact ha.elim
      | cons a as =>
        obtain ⟨n1, n2, rfl, ha1, ha2⟩ := ha
        have hfoot : ∀ i, footAll ds union (f :: fs) (a :: as) i ↔
            ((absent f a = false ∧ (footNode ds f a i ∨ (f.disc.isSome ∧ tagBits union i))) ∨
              footAll ds union fs as i) := by
          intro i
          conv_lhs => unfold footAll
          rw [if_neg hs]
        have hptrs : ∀ W, FieldsPtrs (f :: fs) (a :: as) W ↔
            ∃ W1 W2, W = W1 ++ W2 ∧ (if absent f a then W1 = [] else FieldPtrs f a W1) ∧ FieldsPtrs fs as W2 := by
          intro W
          conv_lhs => unfold FieldsPtrs
          rw [if_neg hs]
        have hbuild : buildNodes fuel ds union cur (f :: fs) (a :: as) b =
            (buildNode fuel ds union cur f a >>= fun cur => buildNodes fuel ds union cur fs as) b := by
          conv_lhs => unfold buildNodes
          rw [if_neg hs]
        rw [hbuild]
        have hlt : ∀ i, footAll ds union fs as i → i < 8 * (8 * (ds + ps)) := by
          intro i hi
          rcases footAll_subset ds union fs as i hi with h | h
          · have := fieldsBits_lt ds ps union fs w5 i h; omega
          · have := tagBits_lt ht h; omega
        have hlt1 : ∀ i, footNode ds f a i → i < 8 * (8 * (ds + ps)) := by
          intro i hi
          have := fieldBits_lt ds ps f w1 i (footNode_subset ds f a i hi)
          omega
        by_cases hab : absent f a = true
        · rw [if_pos hab] at ha1
          subst ha1
          have hd := hab
          unfold absent at hd
          simp only [Bool.and_eq_true] at hd
          obtain ⟨tag, htag⟩ := Option.isSome_iff_exists.mp hd.1
          obtain ⟨u, hu⟩ := Option.isSome_iff_exists.mp (w2 tag htag).1
          rw [members_absent hs' hab] at hm
          have hfa : ∀ i, footAll ds union fs as i → footAll ds union (f :: fs) (a :: as) i :=
            fun i hi => (hfoot i).mpr (.inr hi)
          obtain ⟨W, hW, c, b', e, hp⟩ := buildNodes_lay fuel ds ps union cur fs as n2 ht w5 ha2 hm b
            ⟨hb.al, hb.root, by have := hb.fits; omega, fun i hi => hb.zero i (hfa i hi)⟩
          refine ⟨W, (hptrs W).mpr ⟨[], W, rfl, by rw [if_pos hab], hW⟩, c, b', ?_, ?_⟩
          · rw [buildNode_eq, BM.bind_ok (a := cur) (s' := b)]
            · exact e
            · rw [htag, hu]
              unfold guardedB
              simp only
              rw [if_pos hd.2]; rfl
          · rw [Nat.zero_add]
            exact hp.mono hfa (fun C h => h)
        · rw [if_neg hab] at ha1
          have hab' : absent f a = false := by simpa using hab
          have hfit := hb.fits
          cases hdisc : f.disc with
          | none =>
            rw [members_none hs' hdisc] at hm
            obtain ⟨W1, hW1, b1, e1, hp1⟩ := bodyNode_lay fuel ds ps f a n1 w1 ha1 b
              ⟨hb.al, hb.root, by omega, fun i hi => hb.zero i ((hfoot i).mpr (.inl ⟨hab', .inl hi⟩))⟩
            have hl1 := hp1.len
            have hroot := hb.root
            obtain ⟨W2, hW2, c, b2, e2, hp2⟩ := buildNodes_lay fuel ds ps union cur fs as n2 ht w5 ha2 hm b1
              ⟨hp1.al, by omega, by omega, fun i hi => by
                have hi' := hlt i hi
                rw [hp1.frame i (by omega) (fun hf => foot_disj hwf' (by simp [hdisc]) i (.inl hf) hi)]
                exact hb.zero i ((hfoot i).mpr (.inr hi))⟩
            refine ⟨W1 ++ W2, (hptrs _).mpr ⟨W1, W2, rfl, by rw [if_neg hab]; exact hW1, hW2⟩, c, b2, ?_, ?_⟩
            · rw [buildNode_eq, BM.bind_ok (a := cur) (s' := b1)]
              · exact e2
              · rw [hdisc]
                unfold guardedB
                simp only
                rw [BM.bind_ok e1]; rfl
            · refine (hp1.seq hp2 hroot hlt (fun i h1 h2 => foot_disj hwf' (by simp [hdisc]) i (.inl h1) h2) hlt1).mono
                (fun i hi => ?_) (fun C h => h.1.append h.2)
              rcases hi with hi | hi
              · exact (hfoot i).mpr (.inl ⟨hab', .inl hi⟩)
              · exact (hfoot i).mpr (.inr hi)
          | some tag =>
            obtain ⟨hus, htag⟩ := w2 tag hdisc
            obtain ⟨u, hu⟩ := Option.isSome_iff_exists.mp hus
            have hund : a.isUndefined = false := by
              unfold absent at hab'; rw [hdisc] at hab'; simpa using hab'
            rw [members_some hs' hdisc hund] at hm
            have hcur : cur = false := by
              cases cur with
              | false => rfl
              | true => simp at hm
            subst hcur
            have hm0 : members fs as = [] := by
              cases hmm : members fs as with
              | nil => rfl
              | cons _ _ => rw [hmm] at hm; simp at hm
            have hroot := hb.root
            have hu2 := ht u hu
            obtain ⟨b0, e0, hp0⟩ := write_num (b := b) (fmt := .h) (k := u * 2) (v := (tag : Int)) (inRange_tag htag)
              (by show _ + 2 ≤ _; omega) hb.al
            have hp0 : NodePost b b0 0 (tagBits union) (fun _ => True) := by
              refine hp0.mono (fun i hi => ?_) (fun C h => trivial)
              have hi : 8 * (u * 2) ≤ i ∧ i < 8 * (u * 2) + 16 := hi
              rw [hu]
              show 16 * u ≤ i ∧ i < 16 * u + 16
              omega
            have hl0 := hp0.len
            have htl : ∀ i, tagBits union i → i < 8 * (8 * (ds + ps)) := by
              intro i hi; have := tagBits_lt ht hi; omega
            have hd0 : ∀ i, tagBits union i → ¬ footNode ds f a i := by
              intro i h1 h2
              exact w3 i h1 (footNode_subset ds f a i h2)
            obtain ⟨W1, hW1, b1, e1, hp1⟩ := bodyNode_lay fuel ds ps f a n1 w1 ha1 b0
              ⟨hp0.al, by omega, by omega, fun i hi => by
                have hi' := hlt1 i hi
                rw [hp0.frame i (by omega) (fun h => hd0 i h hi)]
                exact hb.zero i ((hfoot i).mpr (.inl ⟨hab', .inl hi⟩))⟩
            have hl1 := hp1.len
            have hp01 := hp0.seq hp1 hroot hlt1 hd0 htl
            have hdisj : ∀ i, (tagBits union i ∨ footNode ds f a i) → ¬ footAll ds union fs as i := by
              intro i hi
              refine foot_disj (a := a) hwf' (fun _ => hm0) i ?_
              rcases hi with hi | hi
              · exact .inr ⟨by simp [hdisc], hi⟩
              · exact .inl hi
            obtain ⟨W2, hW2, c, b2, e2, hp2⟩ := buildNodes_lay fuel ds ps union true fs as n2 ht w5 ha2 (by rw [hm0]; simp) b1
              ⟨hp1.al, by omega, by omega, fun i hi => by
                have hi' := hlt i hi
                rw [hp01.frame i (by omega) (fun hf => hdisj i hf hi)]
                exact hb.zero i ((hfoot i).mpr (.inr hi))⟩
            refine ⟨W1 ++ W2, (hptrs _).mpr ⟨W1, W2, rfl, by rw [if_neg hab]; exact hW1, hW2⟩, c, b2, ?_, ?_⟩
            · rw [buildNode_eq, BM.bind_ok (a := true) (s' := b1)]
              · exact e2
              · rw [hdisc, hu]
                unfold guardedB
                simp only
                rw [if_neg (by simp [hund]), if_neg (by simp), BM.bind_ok e0, BM.bind_ok e1]; rfl
            · have hp012 := hp01.seq hp2 hroot hlt hdisj (fun i hi => by
                rcases hi with hi | hi
                · exact htl i hi
                · exact hlt1 i hi)
              rw [Nat.zero_add] at hp012
              refine hp012.mono (fun i hi => ?_) (fun C h => ?_)
              · rcases hi with (hi | hi) | hi
                · exact (hfoot i).mpr (.inl ⟨hab', .inr ⟨by simp [hdisc], hi⟩⟩)
                · exact (hfoot i).mpr (.inl ⟨hab', .inl hi⟩)
                · exact (hfoot i).mpr (.inr hi)
              · have h1 := h.1.2
                rw [show b0.length = b.length by omega] at h1
                exact h1.append h.2

end

/-! ## Which slots are set -/

mutual

theorem fieldPtrs_foot (ds : Nat) : ∀ (f : Field) (a : Arg) (W : List (Nat × Val)), FieldPtrs f a W →
    (∀ x ∈ W, footNode ds f a (64 * (ds + x.1))) ∧
    (∀ i j, footNode ds f a i → 64 * (ds + j) ≤ i → i < 64 * (ds + j) + 64 → (∀ ps, FieldWF ds ps f → ∃ v, (j, v) ∈ W))
  | .slot name code disc ty off dflt, a, W, h => by
    unfold FieldPtrs at h
    rw [footNode_slot]
    by_cases hp : ty.isPointer = true
    · rw [if_pos hp] at h
      obtain ⟨v, hv, rfl⟩ := h
      have hb : ∀ i, slotBits ds ty off i = (64 * (ds + off) ≤ i ∧ i < 64 * (ds + off) + 64) := by
        intro i
        cases ty <;> first | rfl | cases hp
      refine ⟨fun x hx => ?_, fun i j hi h1 h2 ps _ => ⟨v, ?_⟩⟩
      · simp only [List.mem_singleton] at hx
        subst hx
        rw [hb]
        omega
      · rw [hb] at hi
        have : j = off := by omega
        subst this
        simp
    · rw [if_neg hp] at h
      subst h
      refine ⟨by simp, fun i j hi h1 h2 ps hwf => ?_⟩
      exfalso
      unfold FieldWF at hwf
      cases ty with
      | void => exact hi
      | bool =>
        have hi : i = off := hi
        have hwf : off < 64 * ds := hwf
        omega
      | prim fmt =>
        have hi : 8 * (off * fmt.size) ≤ i ∧ i < 8 * (off * fmt.size) + 8 * fmt.size := hi
        have := hwf.1
        omega
      | float fmt =>
        have hi : 8 * (off * fmt.size) ≤ i ∧ i < 8 * (off * fmt.size) + 8 * fmt.size := hi
        have := hwf.1
        omega
      | enum =>
        have hi : 16 * off ≤ i ∧ i < 16 * off + 16 := hi
        have := hwf.1
        omega
      | _ => exact hp rfl
  | .group name code disc nullable gunion children, a, W, h => by
    unfold FieldPtrs at h
    cases nullable with
    | true =>
      rw [footNode_nullable]
      rw [if_pos rfl] at h
      obtain ⟨h1, h2⟩ := fieldsPtrs_foot ds gunion children _ W h
      refine ⟨h1, fun i j hi ha hb ps hwf => ?_⟩
      unfold FieldWF at hwf
      exact h2 i j hi ha hb ps hwf.1 hwf.2.1
    | false =>
      rw [if_neg (by simp)] at h
      obtain ⟨as, rfl, h⟩ := h
      rw [footNode_tuple]
      obtain ⟨h1, h2⟩ := fieldsPtrs_foot ds gunion children _ W h
      refine ⟨h1, fun i j hi ha hb ps hwf => ?_⟩
      unfold FieldWF at hwf
      exact h2 i j hi ha hb ps hwf.1 hwf.2.1

theorem fieldsPtrs_foot (ds : Nat) (union : Option Nat) : ∀ (fs : List Field) (as : List Arg) (W : List (Nat × Val)),
    FieldsPtrs fs as W →
    (∀ x ∈ W, footAll ds union fs as (64 * (ds + x.1))) ∧
    (∀ i j, footAll ds union fs as i → 64 * (ds + j) ≤ i → i < 64 * (ds + j) + 64 →
      (∀ ps, TagWF ds union → FieldsWF ds ps union fs → ∃ v, (j, v) ∈ W))
  | [], as, W, h => by
    unfold FieldsPtrs at h
    subst h
    refine ⟨by simp, fun i j hi => ?_⟩
    unfold footAll at hi
    exact hi.elim
  | f :: fs, as, W, h => by
    unfold FieldsPtrs at h
    unfold footAll
    by_cases hs : f.skipped = true
    · rw [if_pos hs] at h
      simp only [if_pos hs]
      obtain ⟨h1, h2⟩ := fieldsPtrs_foot ds union fs as W h
      refine ⟨h1, fun i j hi ha hb ps ht hwf => ?_⟩
      unfold FieldsWF at hwf
      exact h2 i j hi ha hb ps ht hwf.2.2.2.2
    · rw [if_neg hs] at h
      simp only [if_neg hs]
      cases as with
      | nil => exact h.elim
      | cons a as =>
        obtain ⟨W1, W2, rfl, hW1, hW2⟩ := h
        obtain ⟨h1, h2⟩ := fieldsPtrs_foot ds union fs as W2 hW2
        by_cases hab : absent f a = true
        · rw [if_pos hab] at hW1
          subst hW1
          refine ⟨fun x hx => .inr (h1 x (by simpa using hx)), fun i j hi ha hb ps ht hwf => ?_⟩
          unfold FieldsWF at hwf
          rcases hi with hi | hi
          · rw [hab] at hi; exact absurd hi.1 (by simp)
          · simpa using h2 i j hi ha hb ps ht hwf.2.2.2.2
        · rw [if_neg hab] at hW1
          have hab' : absent f a = false := by simpa using hab
          obtain ⟨g1, g2⟩ := fieldPtrs_foot ds f a W1 hW1
          refine ⟨fun x hx => ?_, fun i j hi ha hb ps ht hwf => ?_⟩
          · rcases List.mem_append.mp hx with hx | hx
            · exact .inl ⟨hab', .inl (g1 x hx)⟩
            · exact .inr (h1 x hx)
          · unfold FieldsWF at hwf
            rcases hi with ⟨_, hi | hi⟩ | hi
            · obtain ⟨v, hv⟩ := g2 i j hi ha hb ps hwf.1
              exact ⟨v, List.mem_append_left _ hv⟩
            · have := tagBits_lt ht hi.2
              omega
            · obtain ⟨v, hv⟩ := h2 i j hi ha hb ps ht hwf.2.2.2.2
              exact ⟨v, List.mem_append_right _ hv⟩

end

mutual

/-- No slot is set twice. -/
theorem fieldPtrs_nodup (fuel ds ps : Nat) : ∀ (f : Field) (a : Arg) (n : Nat) (W : List (Nat × Val)), FieldWF ds ps f →
    AccField fuel f a n → FieldPtrs f a W → (W.map Prod.fst).Nodup
  | .slot name code disc ty off dflt, a, n, W, hwf, ha, h => by
    unfold FieldPtrs at h
    split at h
    · obtain ⟨v, hv, rfl⟩ := h; simp
    · subst h; simp
  | .group name code disc nullable gunion children, a, n, W, hwf, ha, h => by
    unfold FieldWF at hwf
    obtain ⟨hw1, hw2, hw3⟩ := hwf
    unfold FieldPtrs at h
    unfold AccField at ha
    cases nullable with
    | true =>
      rw [if_pos rfl] at h ha
      obtain ⟨hu, hne, c, o, ty, d, c2, rfl, hty, hv, hd2, hs2⟩ := hw3 rfl
      have hmem : members [.slot "is_null" c none ty o d, c2] (nullablePair [.slot "is_null" c none ty o d, c2] a) = [] := by
        have : ∃ x y, nullablePair [.slot "is_null" c none ty o d, c2] a = [x, y] := by
          unfold nullablePair; split <;> exact ⟨_, _, rfl⟩
        obtain ⟨x, y, e⟩ := this
        rw [e, members_none (isNullType_not_skipped hty) rfl, members_none hs2 hd2]
        rfl
      exact fieldsPtrs_nodup fuel ds ps gunion _ _ n W hw1 hw2 ha (by rw [hmem]; simp) h
    | false =>
      rw [if_neg (by simp)] at h ha
      obtain ⟨as, rfl, hac, hm⟩ := ha
      obtain ⟨as', h', h⟩ := h
      injection h' with h'
      subst h'
      exact fieldsPtrs_nodup fuel ds ps gunion _ _ n W hw1 hw2 hac hm h

theorem fieldsPtrs_nodup (fuel ds ps : Nat) (union : Option Nat) : ∀ (fs : List Field) (as : List Arg) (n : Nat)
    (W : List (Nat × Val)), TagWF ds union → FieldsWF ds ps union fs → AccFields fuel fs as n →
    (members fs as).length ≤ 1 → FieldsPtrs fs as W → (W.map Prod.fst).Nodup
  | [], as, n, W, ht, hwf, ha, hm, h => by
    unfold FieldsPtrs at h
    subst h; simp
  | f :: fs, as, n, W, ht, hwf, ha, hm, h => by
    have hwf' := hwf
    unfold FieldsWF at hwf
    obtain ⟨w1, w2, w3, w4, w5⟩ := hwf
    unfold FieldsPtrs at h
    unfold AccFields at ha
    by_cases hs : f.skipped = true
    · rw [if_pos hs] at h ha
      rw [members_skip hs] at hm
      exact fieldsPtrs_nodup fuel ds ps union fs as n W ht w5 ha hm h
    · rw [if_neg hs] at h ha
      have hs' : f.skipped = false := by simpa using hs
      cases as with
      | nil => exact h.elim
      | cons a as =>
        obtain ⟨W1, W2, rfl, hW1, hW2⟩ := h
        obtain ⟨n1, n2, rfl, ha1, ha2⟩ := ha
        by_cases hab : absent f a = true
        · rw [if_pos hab] at hW1
          subst hW1
          rw [members_absent hs' hab] at hm
          simpa using fieldsPtrs_nodup fuel ds ps union fs as n2 W2 ht w5 ha2 hm hW2
        · rw [if_neg hab] at hW1 ha1
          have hab' : absent f a = false := by simpa using hab
          have hm2 : (members fs as).length ≤ 1 ∧ (f.disc.isSome → members fs as = []) := by
            cases hdisc : f.disc with
            | none => rw [members_none hs' hdisc] at hm; exact ⟨hm, by simp⟩
            | some tag =>
              have hund : a.isUndefined = false := by
                unfold absent at hab'; rw [hdisc] at hab'; simpa using hab'
              rw [members_some hs' hdisc hund] at hm
              cases hmm : members fs as with
              | nil => simp
              | cons _ _ => rw [hmm] at hm; simp at hm
          rw [List.map_append, List.nodup_append]
          refine ⟨fieldPtrs_nodup fuel ds ps f a n1 W1 w1 ha1 hW1,
            fieldsPtrs_nodup fuel ds ps union fs as n2 W2 ht w5 ha2 hm2.1 hW2, ?_⟩
          intro i hi j hj e
          subst e
          obtain ⟨x, hx, rfl⟩ := List.mem_map.mp hi
          obtain ⟨y, hy, e⟩ := List.mem_map.mp hj
          have h1 := (fieldPtrs_foot ds f a W1 hW1).1 x hx
          have h2 := (fieldsPtrs_foot ds union fs as W2 hW2).1 y hy
          rw [e] at h2
          exact foot_disj hwf' hm2.2 _ (.inl h1) h2

end

/-! ## The values are determined -/

theorem denotes_unique {o : StructObj} {v v' : Val} (h : Denotes o v) (h' : Denotes o v') : v = v' := by
  obtain ⟨B, offs, t, ds, ps, data, ptrs, rfl, _, _, _, _, ho, rfl⟩ := h
  obtain ⟨B', offs', t', ds', ps', data', ptrs', e, _, _, _, _, ho', rfl⟩ := h'
  unfold objAt at e
  injection e with e1 e2 e3 e4 e5
  have e1a : B = B' := congrArg Seg.buf e1
  have e1b : offs = offs' := by
    have h := congrArg Seg.offs e1
    exact Option.map_injective (List.map_injective_iff.mpr (fun a b h => by injection h)) h
  subst e1a e1b
  obtain rfl : t = t' := by omega
  obtain rfl : ds = ds' := by omega
  obtain rfl : ps = ps' := by omega
  obtain ⟨_, hd, hl, hp⟩ := ho
  obtain ⟨_, hd', hl', hp'⟩ := ho'
  have : ptrs = ptrs' := by
    apply List.ext_getElem?
    intro j
    by_cases hj : j < ptrs.length
    · obtain ⟨v, hv⟩ := get_of_lt hj
      obtain ⟨v', hv'⟩ := get_of_lt (show j < ptrs'.length by omega)
      rw [hv, hv', den_functional (hp j v hv) v' (hp' j v' hv')]
    · rw [List.getElem?_eq_none (by omega), List.getElem?_eq_none (by omega)]
  rw [hd, hd', this]

theorem listVal_unique : ∀ {it : ItemType} {xs : List PyItem} {v v' : Val}, ListVal it xs v → ListVal it xs v' → v = v' := by
  have all : ∀ {R : PyItem → Val → Prop}, (∀ x y y', R x y → R x y' → y = y') → ∀ {xs : List PyItem} {vs vs' : List Val},
      List.Forall₂ R xs vs → List.Forall₂ R xs vs' → vs = vs' := by
    intro R hR xs vs vs' h
    induction h generalizing vs' with
    | nil => intro h'; cases h'; rfl
    | cons hx _ ih =>
      intro h'
      cases h' with
      | cons hx' h' => rw [hR _ _ _ hx hx', ih h']
  have den : ∀ {o : StructObj} {v v' : Val}, Denotes o v → Denotes o v' → v = v' := by
    intro o v v' h h'
    exact denotes_unique h h'
  intro it
  induction it with
  | void => intro xs v v' h h'; exact Eq.trans h (Eq.symm h')
  | bool => intro xs v v' h; exact h.elim
  | prim fmt =>
    rintro xs v v' ⟨is, rfl, _, rfl⟩ ⟨is', e, _, rfl⟩
    have : is = is' := List.map_injective_iff.mpr (fun a b h => by injection h) e
    rw [this]
  | enum =>
    rintro xs v v' ⟨is, rfl, _, rfl⟩ ⟨is', e, _, rfl⟩
    have : is = is' := List.map_injective_iff.mpr (fun a b h => by injection h) e
    rw [this]
  | struct d p =>
    rintro xs v v' ⟨ds, ps, items, hd, hp, _, _, h1, h, rfl⟩ ⟨ds', ps', items', hd', hp', _, _, h3, h', rfl⟩
    obtain rfl : ds = ds' := by omega
    obtain rfl : ps = ps' := by omega
    have : items = items' := by
      clear hd hp hd' hp' h1 h3
      induction h generalizing items' with
      | nil => cases h'; rfl
      | @cons x y xs ys hx _ ih =>
        cases h' with
        | @cons _ y' _ ys' hx' h' =>
          rw [ih _ h']
          cases x with
          | struct o =>
            have := den hx.1 hx'.1
            injection this with e1 e2
            obtain ⟨y1, y2⟩ := y
            obtain ⟨y1', y2'⟩ := y'
            simp only at e1 e2
            rw [e1, e2]
          | _ => exact hx.elim
    rw [this]
  | text =>
    rintro xs v v' ⟨vs, h, rfl⟩ ⟨vs', h', rfl⟩
    rw [all (fun x y y' h h' => by cases x <;> first | exact Eq.trans h (Eq.symm h') | exact h.elim) h h']
  | data =>
    rintro xs v v' ⟨vs, h, rfl⟩ ⟨vs', h', rfl⟩
    rw [all (fun x y y' h h' => by cases x <;> first | exact Eq.trans h (Eq.symm h') | exact h.elim) h h']
  | list inner ih =>
    rintro xs v v' ⟨vs, h, rfl⟩ ⟨vs', h', rfl⟩
    rw [all (fun x y y' h h' => by cases x <;> first | exact Eq.trans h (Eq.symm h') | exact ih h h' | exact h.elim) h h']

theorem ptrArg_unique {ty : SlotType} {a : Arg} {v v' : Val} (h : PtrArg ty a v) (h' : PtrArg ty a v') : v = v' := by
  cases ty <;> cases a <;>
    first
    | exact False.elim h
    | exact Eq.trans h (Eq.symm h')
    | exact denotes_unique h.1 h'.1
    | exact listVal_unique h h'

mutual

theorem fieldPtrs_unique : ∀ (f : Field) (a : Arg) (W W' : List (Nat × Val)), FieldPtrs f a W → FieldPtrs f a W' → W = W'
  | .slot name code disc ty off dflt, a, W, W', h, h' => by
    unfold FieldPtrs at h h'
    by_cases hp : ty.isPointer = true
    · rw [if_pos hp] at h h'
      obtain ⟨v, hv, rfl⟩ := h
      obtain ⟨v', hv', rfl⟩ := h'
      rw [ptrArg_unique hv hv']
    · rw [if_neg hp] at h h'
      rw [h, h']
  | .group name code disc nullable gunion children, a, W, W', h, h' => by
    unfold FieldPtrs at h h'
    cases nullable with
    | true =>
      rw [if_pos rfl] at h h'
      exact fieldsPtrs_unique _ _ W W' h h'
    | false =>
      rw [if_neg (by simp)] at h h'
      obtain ⟨as, rfl, h⟩ := h
      obtain ⟨as', e, h'⟩ := h'
      injection e with e
      subst e
      exact fieldsPtrs_unique _ _ W W' h h'

theorem fieldsPtrs_unique : ∀ (fs : List Field) (as : List Arg) (W W' : List (Nat × Val)), FieldsPtrs fs as W →
    FieldsPtrs fs as W' → W = W'
  | [], as, W, W', h, h' => by
    unfold FieldsPtrs at h h'
    rw [h, h']
  | f :: fs, as, W, W', h, h' => by
    unfold FieldsPtrs at h h'
    by_cases hs : f.skipped = true
    · rw [if_pos hs] at h h'
      exact fieldsPtrs_unique fs as W W' h h'
    · rw [if_neg hs] at h h'
      cases as with
      | nil => exact h.elim
      | cons a as =>
        obtain ⟨W1, W2, rfl, hW1, hW2⟩ := h
        obtain ⟨W1', W2', rfl, hW1', hW2'⟩ := h'
        rw [fieldsPtrs_unique fs as W2 W2' hW2 hW2']
        by_cases hab : absent f a = true
        · rw [if_pos hab] at hW1 hW1'
          rw [hW1, hW1']
        · rw [if_neg hab] at hW1 hW1'
          rw [fieldPtrs_unique f a W1 W1' hW1 hW1']

end

/-! ## Compactness -/

/-- The room taken by the values in slots below `j`. -/
def below (W : List (Nat × Val)) (j : Nat) : Nat := (W.map fun x => if x.1 < j then x.2.size else 0).sum

theorem below_append (W W' : List (Nat × Val)) (j : Nat) : below (W ++ W') j = below W j + below W' j := by
  simp [below]

theorem below_cons (x : Nat × Val) (W : List (Nat × Val)) (j : Nat) :
    below (x :: W) j = (if x.1 < j then x.2.size else 0) + below W j := by
  simp [below]

theorem below_zero : ∀ (W : List (Nat × Val)), below W 0 = 0
  | [] => rfl
  | x :: W => by rw [below_cons, below_zero W]; simp

theorem below_succ_not_mem : ∀ (W : List (Nat × Val)) (j : Nat), j ∉ W.map Prod.fst → below W (j + 1) = below W j
  | [], j, _ => rfl
  | x :: W, j, h => by
    simp only [List.map_cons, List.mem_cons, not_or] at h
    rw [below_cons, below_cons, below_succ_not_mem W j h.2]
    have : (x.1 < j + 1) ↔ (x.1 < j) := by omega
    simp only [this]

theorem below_succ_mem : ∀ (W : List (Nat × Val)) (j : Nat) (v : Val), (W.map Prod.fst).Nodup → (j, v) ∈ W →
    below W (j + 1) = below W j + v.size
  | [], j, v, _, h => by simp at h
  | x :: W, j, v, hn, h => by
    simp only [List.map_cons, List.nodup_cons] at hn
    rw [below_cons, below_cons]
    rcases List.mem_cons.mp h with rfl | h
    · rw [below_succ_not_mem W j hn.1]
      simp only [Nat.lt_succ_self, if_true, Nat.lt_irrefl, if_false]
      omega
    · rw [below_succ_mem W j v hn.2 h]
      have hne : x.1 ≠ j := fun e => hn.1 (by rw [e]; exact List.mem_map.mpr ⟨_, h, rfl⟩)
      have : (x.1 < j + 1) ↔ (x.1 < j) := by omega
      simp only [this]
      omega

theorem LayW.mem {ds : Nat} {C : Bytes} {W : List (Nat × Val)} {s e : Nat} (h : LayW ds C W s e)
    {x : Nat × Val} (hx : x ∈ W) : ∃ L R, W = L ++ x :: R ∧
      Lay true C (8 * (ds + x.1)) (wordAt C (8 * (ds + x.1))) x.2 (s + sizeW L) (s + sizeW L + x.2.size) ∧
      e = s + sizeW L + x.2.size + sizeW R := by
  obtain ⟨L, R, rfl⟩ := List.append_of_mem hx
  obtain ⟨m, h1, k, h2, h3⟩ := h.split
  have e1 := h1.size
  have e2 := lay_size h2
  have e3 := h3.size
  subst e1 e2
  exact ⟨L, R, rfl, h2, e3⟩

theorem sizeW_append (W W' : List (Nat × Val)) : sizeW (W ++ W') = sizeW W + sizeW W' := by simp [sizeW]

theorem sizeW_cons (x : Nat × Val) (W : List (Nat × Val)) : sizeW (x :: W) = x.2.size + sizeW W := by simp [sizeW]

theorem below_of_lt : ∀ (W : List (Nat × Val)) (j : Nat), (∀ x ∈ W, x.1 < j ∨ x.2.size = 0) → below W j = sizeW W
  | [], j, _ => rfl
  | x :: W, j, h => by
    rw [below_cons, sizeW_cons, below_of_lt W j (fun y hy => h y (List.mem_cons_of_mem _ hy))]
    have := h x List.mem_cons_self
    split <;> omega

theorem below_of_ge : ∀ (W : List (Nat × Val)) (j : Nat), (∀ x ∈ W, j ≤ x.1 ∨ x.2.size = 0) → below W j = 0
  | [], j, _ => rfl
  | x :: W, j, h => by
    rw [below_cons, below_of_ge W j (fun y hy => h y (List.mem_cons_of_mem _ hy))]
    have := h x List.mem_cons_self
    split <;> omega

theorem size_null : Val.size .null = 0 := by simp [Val.size]

/-- A value laid out by a copy, seen from a strict layout of the same pointer. -/
theorem lay_both {B : Bytes} {pos w s e s' e' : Nat} {v : Val} (h : Lay true B pos w v s e) (h' : Lay false B pos w v s' e')
    (hw : w ≠ 0) (hs : pos < s) (hs' : pos < s') : s = s' ∧ v.NoEmpty := by
  have ht := lay_start hw h'
  have key : target pos w = s → s = s' ∧ v.NoEmpty := by
    intro h1
    have : s = s' := by
      have : ((s : Nat) : Int) = s' := by rw [← h1, ← ht]
      omega
    subst this
    exact ⟨rfl, lay_noEmpty h hs e' h'⟩
  cases h with
  | null => exact absurd rfl hw
  | empty =>
    exfalso
    have : offset emptyStructWord = -1 := by decide
    unfold target at ht
    omega
  | struct => exact key ‹_›
  | listPrim => exact key ‹_›
  | listPtr => exact key ‹_›
  | listComp => exact key ‹_›

/-- When the objects behind the pointers of a struct were written in the order `W`,
the struct is compact exactly if that is the order of the pointers. -/
theorem layW_compact {ds ps : Nat} {C : Bytes} {W : List (Nat × Val)} {ptrs : List Val} {e : Nat}
    (hW : LayW ds C W (8 * (ds + ps)) e) (hn : (W.map Prod.fst).Nodup) (hlt : ∀ x ∈ W, x.1 < ps)
    (hl : ptrs.length = ps) (hC : 8 * (ds + ps) ≤ C.length)
    (hden : ∀ j v, ptrs[j]? = some v → Den C none ((8 * (ds + j) : Nat) : Int) (wordAt C (8 * (ds + j))) v)
    (hzero : ∀ j, j < ps → j ∉ W.map Prod.fst → wordAt C (8 * (ds + j)) = 0) :
    (∃ e', ObjLay false C 0 ds ps ptrs e') ↔ ((∀ x ∈ W, x.2.NoEmpty) ∧ InSlotOrder W) := by
  have hval : ∀ x ∈ W, ptrs[x.1]? = some x.2 := by
    intro x hx
    obtain ⟨L, R, rfl, hlay, -⟩ := hW.mem hx
    have hxl := hlt x hx
    obtain ⟨v, hv⟩ := get_of_lt (show x.1 < ptrs.length by omega)
    rw [hv]
    exact congrArg some (den_functional (hden _ v hv) _ (hlay.den none (by omega)))
  have hword : ∀ x ∈ W, x.2 ≠ .null → wordAt C (8 * (ds + x.1)) ≠ 0 := by
    intro x hx hne h0
    have := hden _ _ (hval x hx)
    rw [h0] at this
    exact hne (den_zero this)
  unfold ObjLay
  simp only [Nat.zero_add]
  constructor
  · rintro ⟨e', h⟩
    obtain ⟨ends, e0, e1, e2⟩ := ends_of_ptrsLay h
    have hm : ∀ j, j ≤ ptrs.length → ∀ i, i ≤ j → ends i ≤ ends j := by
      intro j
      induction j with
      | zero => intro _ i hi; have : i = 0 := by omega
                subst this; exact le_rfl
      | succ j ih =>
        intro hj i hi
        obtain ⟨v, hv⟩ := get_of_lt (show j < ptrs.length by omega)
        have := lay_size (e2 j v hv)
        rcases Nat.lt_or_ge j i with h | h
        · have : i = j + 1 := by omega
          subst this; exact le_rfl
        · have := ih (by omega) i h
          omega
    have hst : ∀ x ∈ W, x.2 ≠ .null → ∀ L R, W = L ++ x :: R → 
        ends x.1 = 8 * (ds + ps) + sizeW L ∧ ends (x.1 + 1) = 8 * (ds + ps) + sizeW L + x.2.size ∧ x.2.NoEmpty := by
      intro x hx hne L R hLR
      subst hLR
      obtain ⟨m, h1, k, h2, h3⟩ := hW.split
      have := h1.size
      subst this
      have hxl := hlt x hx
      have h' := e2 x.1 x.2 (hval x hx)
      rw [show 8 * ds + 8 * x.1 = 8 * (ds + x.1) by ring] at h'
      have hge := hm x.1 (by omega) 0 (by omega)
      obtain ⟨a, b⟩ := lay_both h2 h' (hword x hx hne) (by omega) (by omega)
      have := lay_size h'
      exact ⟨a.symm, by omega, b⟩
    refine ⟨fun x hx => ?_, ?_⟩
    · by_cases hne : x.2 = .null
      · rw [hne]; simp [Val.NoEmpty]
      · obtain ⟨L, R, hLR⟩ := List.append_of_mem hx
        exact (hst x hx hne L R hLR).2.2
    · unfold InSlotOrder
      rw [List.pairwise_iff_forall_sublist]
      intro x y hsub
      by_contra hcon
      simp only [not_or] at hcon
      obtain ⟨hx0, hy0, hlt', hsz⟩ := hcon
      obtain ⟨L, R0, hLR, hs⟩ : ∃ L R, W = L ++ x :: R ∧ y ∈ R := by
        have : ∀ (W : List (Nat × Val)), [x, y].Sublist W → ∃ L R, W = L ++ x :: R ∧ y ∈ R := by
          intro W
          induction W with
          | nil => intro h; simp at h
          | cons z W ih =>
            intro h
            cases h with
            | cons _ h =>
              obtain ⟨L, R, rfl, h2⟩ := ih h
              exact ⟨z :: L, R, rfl, h2⟩
            | cons_cons _ h => exact ⟨[], W, rfl, by simpa using h⟩
        exact this W hsub
      obtain ⟨M, R, rfl⟩ := List.append_of_mem hs
      have hxW : x ∈ W := by rw [hLR]; simp
      have hyW : y ∈ W := by rw [hLR]; simp
      have a := hst x hxW hx0 L _ hLR
      have b := hst y hyW hy0 (L ++ x :: M) R (by rw [hLR]; simp)
      rw [sizeW_append, sizeW_cons] at b
      have hxl := hlt x hxW
      have hyl := hlt y hyW
      rcases Nat.lt_or_ge y.1 x.1 with h | h
      · have := hm x.1 (by omega) (y.1 + 1) (by omega)
        omega
      · have heq : x.1 = y.1 := by omega
        have := hval x hxW
        rw [heq, hval y hyW] at this
        injection this with this
        rw [heq] at a
        have : y.2.size = x.2.size := by rw [this]
        omega
  · rintro ⟨hne, hord⟩
    refine ⟨8 * (ds + ps) + below W ptrs.length, ?_⟩
    have := ptrsLay_of_ends (ae := false) (B := C) (vs := ptrs) (sp := 8 * ds) (fun j => 8 * (ds + ps) + below W j) (by
      intro j v hj
      have hjl := getElem?_lt hj
      rw [show 8 * ds + 8 * j = 8 * (ds + j) by ring]
      by_cases hmem : j ∈ W.map Prod.fst
      · obtain ⟨x, hx, rfl⟩ := List.mem_map.mp hmem
        have hv := hval x hx
        rw [hj] at hv
        injection hv with hv
        subst hv
        rw [below_succ_mem W x.1 x.2 hn hx]
        by_cases h0 : x.2 = .null
        · have hd := hden _ _ hj
          obtain ⟨L, R, rfl, hlay, -⟩ := hW.mem hx
          have hst := lay_strict hlay (hne x hx)
          rw [h0] at hst ⊢
          generalize wordAt C (8 * (ds + x.1)) = w at *
          cases hst with
          | null => rw [size_null]; exact .null _ _
        · obtain ⟨L, R, rfl, hlay, -⟩ := hW.mem hx
          have hst := lay_strict hlay (hne x hx)
          have hord' := hord
          unfold InSlotOrder at hord'
          rw [List.pairwise_append] at hord'
          obtain ⟨-, o2, o3⟩ := hord'
          rw [List.pairwise_cons] at o2
          have b1 : below L x.1 = sizeW L := by
            apply below_of_lt
            intro y hy
            rcases o3 y hy x List.mem_cons_self with h | h | h | h
            · right; rw [h]; exact size_null
            · exact absurd h h0
            · exact .inl h
            · exact .inr h.1
          have b2 : below R x.1 = 0 := by
            apply below_of_ge
            intro y hy
            rcases o2.1 y hy with h | h | h | h
            · exact absurd h h0
            · right; rw [h]; exact size_null
            · left; omega
            · exact .inr h.2
          have b3 : below (L ++ x :: R) x.1 = sizeW L := by
            rw [below_append, below_cons, b1, b2]; simp
          rw [b3, ← Nat.add_assoc]
          exact hst
      · rw [below_succ_not_mem W j hmem]
        have hz := hzero j (by omega) hmem
        have hd := hden j v hj
        rw [hz] at hd ⊢
        rw [den_zero hd]
        exact .null _ _)
    simpa [below_zero] using this

/-! ## Schemas in order -/

mutual

theorem fieldPtrs_slots : ∀ (f : Field) (a : Arg) (W : List (Nat × Val)), FieldPtrs f a W → ∀ x ∈ W, x.1 ∈ ptrSlots f
  | .slot name code disc ty off dflt, a, W, h, x, hx => by
    unfold FieldPtrs at h
    unfold ptrSlots
    by_cases hp : ty.isPointer = true
    · rw [if_pos hp] at h ⊢
      obtain ⟨v, hv, rfl⟩ := h
      simp only [List.mem_singleton] at hx ⊢
      rw [hx]
    · rw [if_neg hp] at h
      subst h
      simp at hx
  | .group name code disc nullable gunion children, a, W, h, x, hx => by
    unfold FieldPtrs at h
    unfold ptrSlots
    cases nullable with
    | true =>
      rw [if_pos rfl] at h
      exact fieldsPtrs_slots _ _ W h x hx
    | false =>
      rw [if_neg (by simp)] at h
      obtain ⟨as, rfl, h⟩ := h
      exact fieldsPtrs_slots _ _ W h x hx

theorem fieldsPtrs_slots : ∀ (fs : List Field) (as : List Arg) (W : List (Nat × Val)), FieldsPtrs fs as W →
    ∀ x ∈ W, x.1 ∈ ptrSlotsAll fs
  | [], as, W, h, x, hx => by
    unfold FieldsPtrs at h
    subst h
    simp at hx
  | f :: fs, as, W, h, x, hx => by
    unfold FieldsPtrs at h
    unfold ptrSlotsAll
    by_cases hs : f.skipped = true
    · rw [if_pos hs] at h
      exact List.mem_append_right _ (fieldsPtrs_slots fs as W h x hx)
    · rw [if_neg hs] at h
      cases as with
      | nil => exact h.elim
      | cons a as =>
        obtain ⟨W1, W2, rfl, hW1, hW2⟩ := h
        rcases List.mem_append.mp hx with hx | hx
        · by_cases hab : absent f a = true
          · rw [if_pos hab] at hW1
            subst hW1
            simp at hx
          · rw [if_neg hab] at hW1
            exact List.mem_append_left _ (fieldPtrs_slots f a W1 hW1 x hx)
        · exact List.mem_append_right _ (fieldsPtrs_slots fs as W2 hW2 x hx)

end

/-- The slots set by the rest of the fields: each comes from a field, which is a given
member if it is a member. -/
theorem fieldsPtrs_from : ∀ (fs : List Field) (as : List Arg) (W : List (Nat × Val)), FieldsPtrs fs as W →
    ∀ x ∈ W, ∃ g ∈ fs, x.1 ∈ ptrSlots g ∧ (g.disc.isSome → members fs as ≠ [])
  | [], as, W, h, x, hx => by
    unfold FieldsPtrs at h
    subst h
    simp at hx
  | f :: fs, as, W, h, x, hx => by
    unfold FieldsPtrs at h
    by_cases hs : f.skipped = true
    · rw [if_pos hs] at h
      obtain ⟨g, hg, h1, h2⟩ := fieldsPtrs_from fs as W h x hx
      exact ⟨g, List.mem_cons_of_mem _ hg, h1, by rw [members_skip hs]; exact h2⟩
    · rw [if_neg hs] at h
      have hs' : f.skipped = false := by simpa using hs
      cases as with
      | nil => exact h.elim
      | cons a as =>
        obtain ⟨W1, W2, rfl, hW1, hW2⟩ := h
        rcases List.mem_append.mp hx with hx | hx
        · by_cases hab : absent f a = true
          · rw [if_pos hab] at hW1
            subst hW1
            simp at hx
          · rw [if_neg hab] at hW1
            have hab' : absent f a = false := by simpa using hab
            refine ⟨f, List.mem_cons_self, fieldPtrs_slots f a W1 hW1 x hx, fun hd => ?_⟩
            obtain ⟨tag, ht⟩ := Option.isSome_iff_exists.mp hd
            have hund : a.isUndefined = false := by
              unfold absent at hab'; rw [ht] at hab'; simpa using hab'
            rw [members_some hs' ht hund]
            simp
        · obtain ⟨g, hg, h1, h2⟩ := fieldsPtrs_from fs as W2 hW2 x hx
          refine ⟨g, List.mem_cons_of_mem _ hg, h1, fun hd => ?_⟩
          unfold members
          rw [if_neg hs]
          exact fun hc => h2 hd (List.append_eq_nil_iff.mp hc).2

mutual

theorem slotsOrdered_sorted (fuel ds ps : Nat) : ∀ (f : Field) (a : Arg) (n : Nat) (W : List (Nat × Val)),
    FieldWF ds ps f → SlotsOrdered f → AccField fuel f a n → FieldPtrs f a W → W.Pairwise (fun x y => x.1 < y.1)
  | .slot name code disc ty off dflt, a, n, W, hwf, ho, ha, h => by
    unfold FieldPtrs at h
    split at h
    · obtain ⟨v, hv, rfl⟩ := h; simp
    · subst h; simp
  | .group name code disc nullable gunion children, a, n, W, hwf, ho, ha, h => by
    unfold FieldWF at hwf
    obtain ⟨hw1, hw2, hw3⟩ := hwf
    unfold FieldPtrs at h
    unfold AccField at ha
    unfold SlotsOrdered at ho
    cases nullable with
    | true =>
      rw [if_pos rfl] at h ha
      obtain ⟨hu, hne, c, o, ty, d, c2, rfl, hty, hv, hd2, hs2⟩ := hw3 rfl
      have hmem : members [.slot "is_null" c none ty o d, c2] (nullablePair [.slot "is_null" c none ty o d, c2] a) = [] := by
        have : ∃ x y, nullablePair [.slot "is_null" c none ty o d, c2] a = [x, y] := by
          unfold nullablePair; split <;> exact ⟨_, _, rfl⟩
        obtain ⟨x, y, e⟩ := this
        rw [e, members_none (isNullType_not_skipped hty) rfl, members_none hs2 hd2]
        rfl
      exact allSlotsOrdered_sorted fuel ds ps gunion _ _ n W hw2 ho ha (by rw [hmem]; simp) h
    | false =>
      rw [if_neg (by simp)] at h ha
      obtain ⟨as, rfl, hac, hm⟩ := ha
      obtain ⟨as', h', h⟩ := h
      injection h' with h'
      subst h'
      exact allSlotsOrdered_sorted fuel ds ps gunion _ _ n W hw2 ho hac hm h

theorem allSlotsOrdered_sorted (fuel ds ps : Nat) (union : Option Nat) : ∀ (fs : List Field) (as : List Arg) (n : Nat)
    (W : List (Nat × Val)), FieldsWF ds ps union fs → AllSlotsOrdered fs → AccFields fuel fs as n →
    (members fs as).length ≤ 1 → FieldsPtrs fs as W → W.Pairwise (fun x y => x.1 < y.1)
  | [], as, n, W, hwf, ho, ha, hm, h => by
    unfold FieldsPtrs at h
    subst h; simp
  | f :: fs, as, n, W, hwf, ho, ha, hm, h => by
    unfold FieldsWF at hwf
    obtain ⟨w1, w2, w3, w4, w5⟩ := hwf
    unfold FieldsPtrs at h
    unfold AccFields at ha
    unfold AllSlotsOrdered at ho
    obtain ⟨o1, o2, o3⟩ := ho
    by_cases hs : f.skipped = true
    · rw [if_pos hs] at h ha
      rw [members_skip hs] at hm
      exact allSlotsOrdered_sorted fuel ds ps union fs as n W w5 o3 ha hm h
    · rw [if_neg hs] at h ha
      have hs' : f.skipped = false := by simpa using hs
      cases as with
      | nil => exact h.elim
      | cons a as =>
        obtain ⟨W1, W2, rfl, hW1, hW2⟩ := h
        obtain ⟨n1, n2, rfl, ha1, ha2⟩ := ha
        by_cases hab : absent f a = true
        · rw [if_pos hab] at hW1
          subst hW1
          rw [members_absent hs' hab] at hm
          simpa using allSlotsOrdered_sorted fuel ds ps union fs as n2 W2 w5 o3 ha2 hm hW2
        · rw [if_neg hab] at hW1 ha1
          have hab' : absent f a = false := by simpa using hab
          have hm2 : (members fs as).length ≤ 1 ∧ (f.disc.isSome → members fs as = []) := by
            cases hdisc : f.disc with
            | none => rw [members_none hs' hdisc] at hm; exact ⟨hm, by simp⟩
            | some tag =>
              have hund : a.isUndefined = false := by
                unfold absent at hab'; rw [hdisc] at hab'; simpa using hab'
              rw [members_some hs' hdisc hund] at hm
              cases hmm : members fs as with
              | nil => simp
              | cons _ _ => rw [hmm] at hm; simp at hm
          rw [List.pairwise_append]
          refine ⟨slotsOrdered_sorted fuel ds ps f a n1 W1 w1 o1 ha1 hW1,
            allSlotsOrdered_sorted fuel ds ps union fs as n2 W2 w5 o3 ha2 hm2.1 hW2, ?_⟩
          intro x hx y hy
          obtain ⟨g, hg, h1, h2⟩ := fieldsPtrs_from fs as W2 hW2 y hy
          rcases o2 g hg with h | h
          · exact absurd (hm2.2 h.1) (h2 h.2)
          · exact h _ (fieldPtrs_slots f a W1 hW1 x hx) _ h1

end

/-- Acceptable arguments store something. -/
theorem accFields_ptrs {fuel ds ps : Nat} {union : Option Nat} {fs : List Field} {as : List Arg} {n : Nat}
    (ht : TagWF ds union) (hwf : FieldsWF ds ps union fs) (ha : AccFields fuel fs as n)
    (hm : (members fs as).length ≤ 1) (hsz : 8 * (ds + ps) + n ≤ 2 ^ 32) : ∃ W, FieldsPtrs fs as W := by
  obtain ⟨W, hW, -⟩ := buildNodes_lay fuel ds ps union false fs as n ht hwf ha (by simpa using hm) _
    (bufOK_init (footAll_lt ht hwf) hsz)
  exact ⟨W, hW⟩

/-- Is a constructed object compact? -/
theorem construct_compact (fuel : Nat) (S : Schema) (args : List Arg) (n : Nat) (W : List (Nat × Val)) (hS : S.WF)
    (hl : S.locals.Nodup) (ha : AccFields fuel S.fields args n) (hm : (members S.fields args).length ≤ 1)
    (hsz : 8 * (S.dataWords + S.ptrs) + n ≤ 2 ^ 32) (hW : FieldsPtrs S.fields args W)
    {fuel' : Nat} (hfuel : ∀ x ∈ W, x.2.depth < fuel') (hf0 : 0 < fuel') :
    ∃ o r, S.construct fuel args = .ok o ∧ o.isCompact fuel' = .ok r ∧
      (r = true ↔ (∀ x ∈ W, x.2.NoEmpty) ∧ InSlotOrder W) := by
  obtain ⟨C, hnew, e, hlen, ⟨data, ptrs, hd⟩, -, hzero⟩ := construct_spec fuel S args n hS hl ha hm hsz
  have hnull := nullablesOK_of_wf _ _ _ _ hS.fields
  have hlen' := accFields_length fuel _ _ _ ha
  have hnew2 := new_eq_build fuel S args hl hnull hlen'
  obtain ⟨W', hW', c, C', e', hp⟩ := buildNodes_lay fuel S.dataWords S.ptrs S.union false S.fields args n hS.tag hS.fields ha
    (by simpa using hm) _ (bufOK_init (footAll_lt hS.tag hS.fields) hsz)
  obtain rfl := fieldsPtrs_unique _ _ _ _ hW' hW
  have hCC : C' = C := by
    rw [hnew2] at hnew
    unfold buildNew at hnew
    rw [e'] at hnew
    injection hnew
  subst hCC
  have hlay := hp.holds C' le_rfl (fun _ _ => rfl) (fun _ _ _ => rfl)
  rw [List.length_replicate, show (S.dataWords + S.ptrs) * 8 = 8 * (S.dataWords + S.ptrs) by ring] at hlay
  have hnd := fieldsPtrs_nodup fuel _ _ _ _ _ n _ hS.tag hS.fields ha hm hW
  obtain ⟨hf1, hf2⟩ := fieldsPtrs_foot S.dataWords S.union _ _ _ hW
  obtain ⟨B, offs, t, ds, ps, data', ptrs', he, _, _, hds, hps, ho, hv⟩ := hd
  injection hv with hv1 hv2
  subst hv1 hv2
  unfold objAt at he
  injection he with e1 e2 e3 e4 e5
  have e1a : C' = B := congrArg Seg.buf e1
  have e1b : (none : Option (List Nat)) = offs := by
    have h := congrArg Seg.offs e1
    exact Option.map_injective (List.map_injective_iff.mpr (fun a b h => by injection h)) h
  obtain rfl : t = 0 := by omega
  obtain rfl : ds = S.dataWords := by omega
  obtain rfl : ps = S.ptrs := by omega
  subst e1a e1b
  obtain ⟨ho1, ho2, ho3, ho4⟩ := id ho
  have hden : ∀ j v, ptrs[j]? = some v →
      Den C' none ((8 * (S.dataWords + j) : Nat) : Int) (wordAt C' (8 * (S.dataWords + j))) v := by
    intro j v hj
    have := ho4 j v hj
    rw [show 0 + 8 * S.dataWords + 8 * j = 8 * (S.dataWords + j) by ring] at this
    exact this
  have hltW : ∀ x ∈ W', x.1 < S.ptrs := by
    intro x hx
    have := footAll_lt hS.tag hS.fields _ (hf1 x hx)
    omega
  have hzw : ∀ j, j < S.ptrs → j ∉ W'.map Prod.fst → wordAt C' (8 * (S.dataWords + j)) = 0 := by
    intro j hj hnot
    apply wordAt_zero
    intro k hk
    apply zero_byte
    intro m hm
    refine hzero _ (by omega) (fun hf => hnot ?_)
    obtain ⟨v, hv⟩ := hf2 _ j hf (by omega) (by omega) S.ptrs hS.tag hS.fields
    exact List.mem_map.mpr ⟨_, hv, rfl⟩
  have hiff := layW_compact hlay hnd hltW ho3 (by omega) hden hzw
  have hdep : (Val.struct data ptrs).depth ≤ fuel' := by
    simp only [Val.depth]
    have : ∀ (vs : List Val), (∀ v ∈ vs, v.depth < fuel') → Val.depths vs < fuel' := by
      intro vs
      induction vs with
      | nil => intro _; simpa [Val.depths] using hf0
      | cons v vs ih =>
        intro h
        simp only [Val.depths]
        have h1 := h v List.mem_cons_self
        have h2 := ih (fun u hu => h u (List.mem_cons_of_mem _ hu))
        omega
    refine this ptrs (fun v hv => ?_)
    obtain ⟨j, hj, rfl⟩ := List.getElem_of_mem hv
    have hg := List.getElem?_eq_getElem hj
    by_cases hmem : j ∈ W'.map Prod.fst
    · obtain ⟨x, hx, rfl⟩ := List.mem_map.mp hmem
      obtain ⟨L, R, rfl, hlay', -⟩ := hlay.mem hx
      have := den_functional (hden _ _ hg) _ (hlay'.den none (by have := hltW x hx; omega))
      rw [this]
      exact hfuel x hx
    · have hd := hden j _ hg
      rw [hzw j (by omega) hmem] at hd
      rw [den_zero hd]
      simpa [Val.depth] using hf0
  obtain ⟨r, hr, hc⟩ := getEnd_spec (offs := none) (by omega) hS.data hS.ptrs ho hdep
  refine ⟨_, decide (r ≠ -1), e, ?_, ?_⟩
  · unfold StructObj.isCompact
    rw [hr]
    change Except.ok _ = _
    refine congrArg _ ?_
    simp
  · rw [← hiff]
    rcases hc with ⟨rfl, hno⟩ | ⟨e, rfl, hlay⟩
    · simp only [ne_eq, not_true_eq_false, decide_false, Bool.false_eq_true, false_iff, not_exists]
      exact hno
    · constructor
      · intro _; exact ⟨e, hlay⟩
      · intro _; simp

end Capnpy
