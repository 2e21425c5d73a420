import Verif.Proof.ReprParse
import Verif.Model.Repr

/-!
# Proofs about `shortrepr()`: the printed text is that of the value's tree
-/

namespace Capnpy.Spec.Short

open Capnpy Capnpy.Repr Props

/-- What is claimed of the printed text `s` for the tree `t`. -/
def Prints (faithful : Bool) (E : Env) (s : List Char) (t : Tree) : Prop :=
  faithful = true → Named E → Rendered s t

/-- `rec` prints the values for which `tr` is defined. -/
def RecSpec (faithful : Bool) (E : Env) (rec : Nat → StructObj → Py Str) (tr : Nat → Val → Option Tree) : Prop :=
  ∀ c v t, tr c v = some t → ∃ s, (∀ o, Denotes o v → rec c o = .ok s) ∧ Prints faithful E s t

/-! ## Strings -/

theorem textTree_spec {faithful : Bool} {E : Env} {b : Bytes} {t : Tree} (h : textTree faithful b = some t) :
    ∃ s, textBytesRepr (some b) = .ok s ∧
      (do textUnicodeRepr (← decodeMaybe (some b)) : Py Str) = .ok s ∧ Prints faithful E s t := by
  unfold textTree at h
  by_cases hc : (b.toByteArray.utf8Decode?).isSome = true ∧ (faithful = true → 92 ∉ b ∧ 10 ∉ b)
  · rw [if_pos hc] at h
    injection h with h
    subst h
    obtain ⟨cs, hcs⟩ := decodeUtf8_isSome hc.1
    have e : decodeMaybe (some b) = .ok (some cs) := by
      unfold decodeMaybe
      simp only [hcs]
    have e2 : (do textUnicodeRepr (← decodeMaybe (some b)) : Py Str) = .ok ('"' :: (cs.flatMap escChar ++ ['"'])) := by
      rw [bind_okP e, textUnicodeRepr_some]
    refine ⟨_, e2, e2, ?_⟩
    intro hf _
    have henc := decodeUtf8_encode hcs
    have h1 : '\\' ∉ cs := by
      intro hm
      apply (hc.2 hf).1
      rw [← henc]
      exact List.mem_flatMap.mpr ⟨_, hm, by decide⟩
    have h2 : '\n' ∉ cs := by
      intro hm
      apply (hc.2 hf).2
      rw [← henc]
      exact List.mem_flatMap.mpr ⟨_, hm, by decide⟩
    have := Rendered.str (fun r => parseStr_text cs r h1 h2)
    rw [henc] at this
    exact this
  · rw [if_neg hc] at h; cases h

theorem isAtom_of_isIdent {c : Char} (h : isIdent c = true) : isAtom c = true := by
  unfold isAtom; unfold isIdent at h; rw [h]; rfl

theorem isAtom_of_isDigit {c : Char} (h : c.isDigit = true) : isAtom c = true := by
  apply isAtom_of_isIdent
  unfold isIdent Char.isAlphanum
  rw [h]; simp

theorem intRepr_ofNat (n : Nat) : intRepr (n : Int) = Nat.toDigits 10 n := by
  unfold intRepr
  have : toString (n : Int) = n.repr := rfl
  rw [this, Nat.toList_repr]

theorem intRepr_negSucc (n : Nat) : intRepr (Int.negSucc n) = '-' :: Nat.toDigits 10 (n + 1) := by
  unfold intRepr
  have : toString (Int.negSucc n) = "-" ++ (n + 1).repr := rfl
  rw [this, String.toList_append, Nat.toList_repr]
  rfl

theorem intRepr_atom (i : Int) : intRepr i ≠ [] ∧ ∀ c ∈ intRepr i, isAtom c = true := by
  cases i with
  | ofNat n =>
    show intRepr (n : Int) ≠ [] ∧ ∀ c ∈ intRepr (n : Int), isAtom c = true
    rw [intRepr_ofNat]
    exact ⟨Nat.toDigits_ne_nil, fun c hc => isAtom_of_isDigit (Nat.isDigit_of_mem_toDigits (by decide) (by decide) hc)⟩
  | negSucc n =>
    rw [intRepr_negSucc]
    refine ⟨by simp, fun c hc => ?_⟩
    rcases List.mem_cons.mp hc with rfl | hc
    · decide
    · exact isAtom_of_isDigit (Nat.isDigit_of_mem_toDigits (by decide) (by decide) hc)

theorem rendered_int (i : Int) : Rendered (intRepr i) (.atom (decimal i)) :=
  Rendered.atom (s := intRepr i) (intRepr_atom i).1 (intRepr_atom i).2

theorem rendered_bool (b : Bool) :
    Rendered (if b then ['t', 'r', 'u', 'e'] else ['f', 'a', 'l', 's', 'e']) (boolTree b) := by
  cases b
  · exact Rendered.atom (s := "false".toList) (by decide) (by decide)
  · exact Rendered.atom (s := "true".toList) (by decide) (by decide)

theorem enumStr_spec {members : List String} {i : Int} {t : Tree} (h : enumTree members i = some t) :
    ∃ m ∈ members, Names.enumName members i = .str m ∧ Names.enumStr members i = .ok m ∧ t = .atom m.toList := by
  unfold enumTree at h
  by_cases hc : 0 ≤ i ∧ "name" ∉ members
  · rw [if_pos hc] at h
    cases hm : members[i.toNat]? with
    | none => rw [hm] at h; cases h
    | some m =>
      rw [hm] at h
      injection h with h
      have hno : (Names.fillEnum members).reverse.lookup "name" = none := by
        rw [List.lookup_eq_none_iff]
        intro p hp
        rw [List.mem_reverse] at hp
        unfold Names.fillEnum at hp
        obtain ⟨⟨m', k⟩, hmk, rfl⟩ := List.mem_map.mp hp
        have : m' ∈ members := List.mem_of_getElem? (List.mem_zipIdx_iff_getElem?.mp hmk)
        simp only [bne_iff_ne, ne_eq]
        rintro rfl
        exact hc.2 this
      have hattr : Names.classAttr members "name" = some .nameProperty := by
        unfold Names.classAttr
        rw [hno]
        simp
      have hname : Names.enumName members i = .str m := by
        unfold Names.enumName
        rw [hattr]
        unfold Names.nameOf Names.tupleGet
        simp only
        rw [if_neg (by omega : ¬ i < 0), if_neg (by omega : ¬ i < 0), hm]
      refine ⟨m, List.mem_of_getElem? hm, hname, ?_, h.symm⟩
      unfold Names.enumStr
      rw [hname]
  · rw [if_neg hc] at h; cases h

/-! ## Lists -/

theorem iterFrom_mem {l : ListObj} : ∀ {n : Nat} {i : Int} {xs : List Item}, l.iterFrom n i = .ok xs →
    ∀ x ∈ xs, ∃ j, l.readItem j = .ok x := by
  intro n
  induction n with
  | zero => intro i xs h; cases h; intro x hx; cases hx
  | succ n ih =>
    intro i xs h
    unfold ListObj.iterFrom at h
    cases hg : l.getItem i with
    | error e =>
      rw [hg] at h
      cases e <;> cases h
      all_goals (intro x hx; cases hx)
    | ok x =>
      rw [hg] at h
      cases hr : l.iterFrom n (i + 1) with
      | error e => simp only [hr] at h; cases h
      | ok ys =>
        simp only [] at h
        rw [bind_okP hr] at h
        cases h
        intro y hy
        rcases List.mem_cons.mp hy with rfl | hy
        · unfold ListObj.getItem at hg
          simp only at hg
          generalize (if i < 0 then i + l.itemCount else i) = k at hg
          by_cases hk : 0 ≤ k ∧ k < l.itemCount
          · rw [if_pos hk] at hg; exact ⟨_, hg⟩
          · rw [if_neg hk] at hg; cases hg
        · exact ih hr y hy

/-- The Python type of an item, and the item type of an inner list, are the ones
declared. -/
def Typed (E : Env) (it : RItem) (x : Item) : Prop :=
  (∀ c, it = .struct c → ∃ o, x = .struct o) ∧
  (∀ inner, it = .list inner → ∃ l, x = .list l ∧ l.itemType = inner.toItemType E)

theorem readItem_typed {E : Env} {it : RItem} {l : ListObj} (hl : l.itemType = it.toItemType E) {j : Int} {x : Item}
    (h : l.readItem j = .ok x) : Typed E it x := by
  refine ⟨?_, ?_⟩
  · rintro c rfl
    unfold ListObj.readItem at h
    rw [hl] at h
    simp only [RItem.toItemType] at h
    cases hi : StructObj.initFromBuffer l.seg (l.offsetForItem j) (Ptr.structDataSize l.tag)
        (Ptr.structPtrsSize l.tag) with
    | error e => rw [hi] at h; cases h
    | ok o => rw [bind_okP hi] at h; cases h; exact ⟨o, rfl⟩
  · rintro inner rfl
    unfold ListObj.readItem at h
    rw [hl] at h
    simp only [RItem.toItemType] at h
    cases hp : l.itemPtr (l.offset + j * 8) with
    | error e => rw [hp] at h; cases h
    | ok r =>
      rw [bind_okP hp] at h
      obtain ⟨off, p⟩ := r
      change (do
        let l ← ListObj.init l.seg (Ptr.deref p off) (Ptr.listSizeTag p) (Ptr.listItemCount p) (inner.toItemType E)
        pure (Item.list l) : Py Item) = .ok x at h
      unfold ListObj.init at h
      by_cases ht : Ptr.listSizeTag p = Ptr.LIST_SIZE_COMPOSITE
      · rw [if_pos ht] at h
        cases ht : l.seg.readPtr (Ptr.deref p off) with
        | error e => rw [ht] at h; cases h
        | ok tag => rw [ht] at h; cases h; exact ⟨_, rfl, rfl⟩
      · rw [if_neg ht] at h
        cases h
        exact ⟨_, rfl, rfl⟩

theorem listDenotes_empty {l : ListObj} {bs : Bytes} (h : ListDenotes l (.listPrim 0 0 bs)) : l.itemCount = 0 := by
  obtain ⟨B, offs, q, w, t, it, rfl, _, _, _, hk, _, hden⟩ := h
  have key : ∀ v, Den B offs q w v → ∀ bs, v = .listPrim 0 0 bs → listTag w = 0 ∧ listCount w = 0 := by
    intro v hv bs hbs
    cases hv with
    | null => cases hbs
    | struct => cases hbs
    | listPrim _ _ _ hk' hg ht hb =>
      injection hbs with h1 h2 _
      exact ⟨h1, h2⟩
    | listPtr => cases hbs
    | listComp => cases hbs
    | far _ _ _ _ _ _ _ _ hk' => omega
    | far2 _ _ _ _ _ _ _ _ _ hk' => omega
  obtain ⟨h1, h2⟩ := key _ hden _ rfl
  unfold listAt
  rw [if_neg (by omega)]
  simp [h2]

theorem toList_empty {l : ListObj} (h : l.itemCount = 0) : l.toList = .ok [] := by
  unfold ListObj.toList
  rw [h]
  show l.iterFrom 1 0 = _
  unfold ListObj.iterFrom ListObj.getItem
  rw [h]
  rfl

theorem itemsOf_spec {E : Env} {it : RItem} {v : Val} {es : List Elem}
    (he : itemsOf (it.toItemType E) v = some es) {l : ListObj} (hl : ListDenotes l v)
    (hit : l.itemType = it.toItemType E) :
    ∃ xs, l.toList = .ok xs ∧ ItemsDenote xs es ∧ ∀ x ∈ xs, Typed E it x := by
  unfold itemsOf at he
  split at he
  · cases he
    exact ⟨[], toList_empty (listDenotes_empty hl), .nil, by intro x hx; cases hx⟩
  · rw [← hit] at he
    obtain ⟨xs, h1, h2⟩ := C27_iter hl he
    refine ⟨xs, h1, h2, fun x hx => ?_⟩
    obtain ⟨j, hj⟩ := iterFrom_mem h1 x hx
    exact readItem_typed hit hj

theorem mapRepr_spec {faithful : Bool} {E : Env} {f : Item → Py Str} {g : Elem → Option Tree} {it : RItem}
    (hfg : ∀ e t, g e = some t → ∃ s, (∀ x, ItemDenotes x e → Typed E it x → f x = .ok s) ∧ Prints faithful E s t) :
    ∀ {es : List Elem} {ts : List Tree}, allSome g es = some ts →
    ∃ ss, (∀ xs, ItemsDenote xs es → (∀ x ∈ xs, Typed E it x) → ListObj.mapPy f xs = .ok ss) ∧
      (faithful = true → Named E → List.Forall₂ Rendered ss ts) := by
  intro es
  induction es with
  | nil =>
    intro ts h
    cases h
    exact ⟨[], (by intro xs hx _; cases hx; rfl), fun _ _ => .nil⟩
  | cons e es ih =>
    intro ts h
    unfold allSome at h
    cases hg : g e with
    | none => rw [hg] at h; cases h
    | some t =>
      cases hr : allSome g es with
      | none => rw [hg, hr] at h; cases h
      | some ts' =>
        rw [hg, hr] at h
        cases h
        obtain ⟨s, hs1, hs2⟩ := hfg e t hg
        obtain ⟨ss, hss1, hss2⟩ := ih hr
        refine ⟨s :: ss, ?_, fun a b => .cons (hs2 a b) (hss2 a b)⟩
        intro xs hx hty
        cases hx with
        | cons h1 h2 =>
          unfold ListObj.mapPy
          rw [bind_okP (hs1 _ h1 (hty _ (by simp))), bind_okP (hss1 _ h2 fun x hx => hty x (by simp [hx]))]
          rfl

theorem itemTree_spec {faithful : Bool} {E : Env} {rec : Nat → StructObj → Py Str} {tr : Nat → Val → Option Tree}
    (hrec : RecSpec faithful E rec tr) :
    ∀ (it : RItem) (e : Elem) (t : Tree), itemTree faithful E tr it e = some t →
    ∃ s, (∀ x, ItemDenotes x e → Typed E it x → itemRepr E rec it x = .ok s) ∧ Prints faithful E s t := by
  intro it
  induction it with
  | void =>
    intro e t h
    cases e <;> simp only [itemTree] at h <;> try cases h
    refine ⟨_, (by intro x _ _; unfold itemRepr; rfl), fun _ _ => ?_⟩
    exact Rendered.atom (s := "void".toList) (by decide) (by decide)
  | bool =>
    intro e t h
    cases e <;> simp only [itemTree] at h <;> try cases h
    rename_i b
    refine ⟨_, ?_, fun _ _ => rendered_bool b⟩
    intro x hx _
    cases x <;> first | (cases hx; rfl) | cases hx
  | prim fmt =>
    intro e t h
    cases e <;> simp only [itemTree] at h <;> try cases h
    rename_i i
    refine ⟨_, ?_, fun _ _ => rendered_int i⟩
    intro x hx _
    cases x <;> first | (cases hx; rfl) | cases hx
  | float fmt =>
    intro e t h
    cases e <;> simp only [itemTree] at h <;> try cases h
    rename_i i
    refine ⟨E.floatRepr fmt i, ?_, fun _ hn => Rendered.atom (hn.2 fmt i).1 (hn.2 fmt i).2⟩
    intro x hx _
    cases x <;> first | (cases hx; rfl) | cases hx
  | enum cls members =>
    intro e t h
    cases e <;> simp only [itemTree] at h <;> try cases h
    rename_i i
    cases faithful with
    | true => simp at h
    | false =>
      simp only [Bool.false_eq_true, if_false] at h
      obtain ⟨m, _, hm1, _, rfl⟩ := enumStr_spec h
      refine ⟨['<'] ++ cls ++ ['.'] ++ m.toList ++ [':', ' '] ++ intRepr i ++ ['>'], ?_, fun hf => by cases hf⟩
      intro x hx _
      cases x <;> first | (cases hx; show enumRepr cls members i = _; unfold enumRepr; rw [hm1]) | cases hx
  | struct c =>
    intro e t h
    cases e <;> simp only [itemTree] at h <;> try cases h
    rename_i v
    obtain ⟨s, h1, h2⟩ := hrec c v t h
    refine ⟨s, ?_, h2⟩
    intro x hx hty
    obtain ⟨o, rfl⟩ := hty.1 c rfl
    exact h1 o hx
  | textBytes =>
    intro e t h
    cases e <;> simp only [itemTree] at h <;> try cases h
    obtain ⟨s, h1, _, h3⟩ := textTree_spec (E := E) h
    refine ⟨s, ?_, h3⟩
    intro x hx _
    cases x <;> first | (cases hx; exact h1) | cases hx
  | textUnicode =>
    intro e t h
    cases e <;> simp only [itemTree] at h <;> try cases h
    obtain ⟨s, _, h2, h3⟩ := textTree_spec (E := E) h
    refine ⟨s, ?_, h3⟩
    intro x hx _
    cases x <;> first | (cases hx; exact h2) | cases hx
  | data =>
    intro e t h
    cases e <;> simp only [itemTree] at h <;> try cases h
    obtain ⟨s, h1, _, h3⟩ := textTree_spec (E := E) h
    refine ⟨s, ?_, h3⟩
    intro x hx _
    cases x <;> first | (cases hx; exact h1) | cases hx
  | list inner ih =>
    intro e t h
    cases e <;> simp only [itemTree] at h <;> try cases h
    rename_i v
    cases hi : itemsOf (inner.toItemType E) v with
    | none => rw [hi] at h; cases h
    | some es =>
      rw [hi] at h
      simp only at h
      cases ha : allSome (itemTree faithful E tr inner) es with
      | none => rw [ha] at h; cases h
      | some ts =>
        rw [ha] at h
        cases h
        obtain ⟨ss, hs1, hs2⟩ := mapRepr_spec ih ha
        refine ⟨['['] ++ join ss ++ [']'], ?_, fun a b => Rendered.list (hs2 a b)⟩
        intro x hx hty
        obtain ⟨l, rfl, hl⟩ := hty.2 inner rfl
        obtain ⟨xs, hx1, hx2, hx3⟩ := itemsOf_spec hi (l := l) hx hl
        show (do
          let items ← l.toList
          let parts ← ListObj.mapPy (itemRepr E rec inner) items
          pure (['['] ++ join parts ++ [']']) : Py Str) = _
        rw [bind_okP hx1, bind_okP (hs1 xs hx2 hx3)]
        rfl

theorem listTree_spec {faithful : Bool} {E : Env} {rec : Nat → StructObj → Py Str} {tr : Nat → Val → Option Tree}
    (hrec : RecSpec faithful E rec tr) {it : RItem} {v : Val} {t : Tree} (h : listTree faithful E tr it v = some t) :
    ∃ s, (∀ l, ListDenotes l v → l.itemType = it.toItemType E → listRepr E rec it l = .ok s) ∧
      Prints faithful E s t := by
  unfold listTree at h
  cases hi : itemsOf (it.toItemType E) v with
  | none => rw [hi] at h; cases h
  | some es =>
    rw [hi] at h
    simp only at h
    cases ha : allSome (itemTree faithful E tr it) es with
    | none => rw [ha] at h; cases h
    | some ts =>
      rw [ha] at h
      cases h
      obtain ⟨ss, hs1, hs2⟩ := mapRepr_spec (itemTree_spec hrec it) ha
      refine ⟨['['] ++ join ss ++ [']'], ?_, fun a b => Rendered.list (hs2 a b)⟩
      intro l hx hl
      obtain ⟨xs, hx1, hx2, hx3⟩ := itemsOf_spec hi hx hl
      unfold listRepr
      rw [bind_okP hx1, bind_okP (hs1 xs hx2 hx3)]
      rfl

/-! ## Fields -/

theorem valueOf_h_eq {bs : Bytes} (hl : bs.length = 2) {d : Nat} (hd : d < 2 ^ 15) :
    (valueOf .h bs == (d : Int)) = decide (leNat bs = d) := by
  have hlt := leNat_lt bs
  rw [hl] at hlt
  have : valueOf .h bs = toSigned 2 (leNat bs) := rfl
  rw [this]
  unfold toSigned
  rw [Bool.eq_iff_iff]
  simp only [beq_iff_eq, decide_eq_true_eq]
  norm_num at hlt ⊢
  split <;> omega

theorem bytesZ_length (data : Bytes) (k n : Nat) : (bytesZ data k n).length = n := by
  unfold bytesZ; simp

theorem readInt16_spec {o : StructObj} {data : Bytes} {ptrs : List Val} (ho : Denotes o (.struct data ptrs)) (u : Nat) :
    o.readInt16 ((u * 2 : Nat) : Int) = .ok (valueOf .h (bytesZ data (2 * u) 2)) := by
  have := readPrimitive_zext ho (k := u * 2) (fmt := .h) (Nat.dvd_mul_left _ _)
  rw [Nat.mul_comm 2 u]
  exact this

theorem isMember_spec {o : StructObj} {data : Bytes} {ptrs : List Val} (ho : Denotes o (.struct data ptrs)) (u : Nat)
    {d : Nat} (hd : d < 2 ^ 15) : isMember o u d = .ok (decide (tagOf data u = d)) := by
  unfold isMember
  rw [bind_okP (readInt16_spec ho u), valueOf_h_eq (bytesZ_length _ _ _) hd]
  rfl

theorem ensureMember_spec {o : StructObj} {data : Bytes} {ptrs : List Val} (ho : Denotes o (.struct data ptrs))
    {u : Option Nat} {disc : Option Nat} (h : ∀ d, disc = some d → d < 2 ^ 15 ∧ ∃ u', u = some u' ∧ tagOf data u' = d) :
    ensureMember o u disc = .ok () := by
  cases disc with
  | none => rfl
  | some d =>
    obtain ⟨hd, u', rfl, ht⟩ := h d rfl
    have e := valueOf_h_eq (bytesZ_length data (2 * u') 2) hd
    unfold tagOf at ht
    rw [ht] at e
    simp only [decide_true, beq_iff_eq] at e
    show o.ensureUnion (some ((u' * 2 : Nat) : Int)) d = _
    unfold StructObj.ensureUnion StructObj.whichRaw
    rw [bind_okP (readInt16_spec ho u'), e]
    simp
    rfl

/-- The model's test for showing a field agrees with the specification. -/
theorem reprGuard_spec {o : StructObj} {data : Bytes} {ptrs : List Val} (ho : Denotes o (.struct data ptrs))
    {u : Option Nat} {f : RField} (hn : ∀ d c, f.disc = some d → f.kind ≠ .group c true)
    (hd : ∀ d, f.disc = some d → d < 2 ^ 15) {b : Bool} (h : shown data ptrs u f = some b) :
    reprGuard o u f = .ok b := by
  have hhas : ∀ j, o.hasField ((j * 8 : Nat) : Int) = .ok (!isNull (child ptrs j)) := by
    intro j
    obtain ⟨b, h1, h2⟩ := C11_has o data ptrs ho j
    rw [Nat.mul_comm j 8, h1]
    cases hc : child ptrs j <;> rw [hc] at h2 <;> cases b <;> simp_all [isNull]
  unfold shown at h
  unfold reprGuard
  cases hdisc : f.disc with
  | none =>
    rw [hdisc] at h
    cases hp : f.kind.ptrOff with
    | none => rw [hp] at h; cases h; rfl
    | some j =>
      rw [hp] at h
      cases h
      exact hhas j
  | some d =>
    rw [hdisc] at h
    cases u with
    | none => cases h
    | some u =>
      simp only [Option.some.injEq] at h
      cases hp : f.kind.ptrOff with
      | none =>
        rw [hp] at h
        simp only [Bool.not_false, Bool.true_or, Bool.and_true] at h
        show (match some u, f.kind with
          | _, Kind.group _ true => (.error .attributeError : Py Bool)
          | some u, _ => isMember o u d
          | none, _ => .error .attributeError) = _
        have e := isMember_spec ho u (hd d hdisc)
        rw [h] at e
        split
        · rename_i c heq; exact absurd heq (hn d c hdisc)
        · rename_i heq _; injection heq with heq; subst heq; exact e
        · rename_i heq _; cases heq
      | some j =>
        rw [hp] at h
        simp only at h
        show (do
          if (← isMember o u d) then
            if (← o.hasField ((j * 8 : Nat) : Int)) then pure true
            else pure (d != 0)
          else pure false : Py Bool) = _
        rw [bind_okP (isMember_spec ho u (hd d hdisc)), bind_okP (hhas j), ← h]
        cases decide (tagOf data u = d) <;> cases isNull (child ptrs j) <;>
          simp <;> rfl

theorem getText_spec {o : StructObj} {data : Bytes} {ptrs : List Val} (ho : Denotes o (.struct data ptrs)) {j : Nat}
    {b : Bytes} (h : textOf (child ptrs j) = some b) : o.getText ((j * 8 : Nat) : Int) = .ok (some b) := by
  have hd := C10_data o data ptrs ho j
  rw [Nat.mul_comm 8 j] at hd
  rw [(C11_get o _).1]
  cases hc : child ptrs j with
  | null =>
    rw [hc] at h
    cases h
    rw [(hd.1 hc).2]
  | struct d p => rw [hc] at h; cases h
  | listPtr _ => rw [hc] at h; cases h
  | listComp _ _ _ => rw [hc] at h; cases h
  | listPrim tag n bs =>
    rw [hc] at h
    unfold textOf at h
    split at h
    · rename_i heq; cases heq
    · rename_i heq
      injection heq with e1 e2 e3
      subst e1 e2 e3
      by_cases hl : bs.getLast? = some 0
      · rw [if_pos hl] at h
        cases h
        have hbs : bs = bs.dropLast ++ [0] := by
          have hne : bs ≠ [] := by rintro rfl; cases hl
          rw [List.getLast?_eq_some_getLast hne] at hl
          injection hl with hl
          rw [← hl]
          exact (List.dropLast_append_getLast hne).symm
        have hlen := (hd.2.1 _ _ hc).1
        have e : child ptrs j = .listPrim 2 (bs.dropLast.length + 1) (bs.dropLast ++ [0]) := by
          rw [← hbs, hc]
          congr 1
          rw [← hlen]
          conv => lhs; rw [hbs]
          simp
        rw [hd.2.2 _ e]
      · rw [if_neg hl] at h; cases h
    · cases h

theorem getData_spec {o : StructObj} {data : Bytes} {ptrs : List Val} (ho : Denotes o (.struct data ptrs)) {j : Nat}
    {b : Bytes} (h : dataOf (child ptrs j) = some b) : o.getData ((j * 8 : Nat) : Int) = .ok (some b) := by
  have hd := C10_data o data ptrs ho j
  rw [Nat.mul_comm 8 j] at hd
  rw [(C11_get o _).2.1]
  unfold dataOf at h
  split at h
  · rename_i hc
    cases h
    rw [(hd.1 hc).1]
  · rename_i n bs hc
    cases h
    rw [(hd.2.1 _ _ hc).2]
  · cases h

/-- A group is the same object. -/
theorem group_spec {o : StructObj} {v : Val} (ho : Denotes o v) :
    StructObj.initFromBuffer o.seg o.dataOffset o.dataSize o.ptrsSize = .ok o := by
  obtain ⟨B, offs, t, ds, ps, data, ptrs, rfl, _, _, _, _, hob, _⟩ := ho
  exact initFromBuffer_nat hob.1

theorem kindTree_spec {faithful : Bool} {E : Env} {rec : Nat → StructObj → Py Str} {tr : Nat → Val → Option Tree}
    (hrec : RecSpec faithful E rec tr) {data : Bytes} {ptrs : List Val} {u : Option Nat} {f : RField} {t : Tree}
    (hnm : Named E → ∀ members off d, f.kind = .enum members off d →
      ∀ m ∈ members, m.toList ≠ [] ∧ ∀ x ∈ m.toList, isIdent x = true)
    (h : kindTree faithful E tr data ptrs f.kind = some t) :
    ∃ s, (∀ o, Denotes o (.struct data ptrs) → ensureMember o u f.disc = .ok () → reprField E rec o u f = .ok s) ∧
      Prints faithful E s t := by
  unfold reprField
  cases hk : f.kind with
  | void =>
    rw [hk] at h
    cases h
    exact ⟨_, fun o _ _ => rfl, fun _ _ => Rendered.atom (s := "void".toList) (by decide) (by decide)⟩
  | prim fmt off d =>
    rw [hk] at h
    cases h
    refine ⟨_, fun o ho he => ?_, fun _ _ => rendered_int _⟩
    have e : getSlot o (.prim fmt) off d
        = .ok (.int (Int.xor (valueOf fmt (bytesZ data (off * fmt.size) fmt.size)) (d.getD 0))) := by
      unfold getSlot
      simp only []
      rw [bind_okP (C09_prim o data ptrs ho (off * (SlotType.prim fmt).size) fmt (Nat.dvd_mul_left _ _) (d.getD 0))]
      rfl
    simp only []
    rw [bind_okP he, bind_okP e]
    rfl
  | float fmt off d =>
    rw [hk] at h
    simp only [kindTree] at h
    by_cases hd : d.getD 0 = 0
    · rw [if_pos hd] at h
      cases h
      refine ⟨E.floatRepr fmt (valueOf fmt (bytesZ data (off * fmt.size) fmt.size)), fun o ho he => ?_,
        fun _ hn => Rendered.atom (hn.2 fmt _).1 (hn.2 fmt _).2⟩
      have e : getSlot o (.float fmt) off d = .ok (.float (valueOf fmt (bytesZ data (off * fmt.size) fmt.size))) := by
        unfold getSlot
        simp only []
        rw [bind_okP (readPrimitive_zext ho (k := off * (SlotType.float fmt).size) (fmt := fmt)
          (Nat.dvd_mul_left _ _)), if_neg (by rw [hd]; simp)]
        rfl
      simp only []
      rw [bind_okP he, bind_okP e]
      rfl
    · rw [if_neg hd] at h; cases h
  | bool off d =>
    rw [hk] at h
    cases h
    refine ⟨_, fun o ho he => ?_, fun _ _ => rendered_bool _⟩
    have e : getSlot o .bool off d
        = .ok (.bool ((byteZ data (off / 8)).toNat.testBit (off % 8) ^^ (d.getD 0 != 0))) := by
      unfold getSlot
      simp only []
      rw [bind_okP (C09_bool o data ptrs ho off (d.getD 0 != 0))]
      rfl
    simp only []
    rw [bind_okP he, bind_okP e]
    rfl
  | enum members off d =>
    rw [hk] at h
    simp only [kindTree] at h
    obtain ⟨m, hm, _, hstr, rfl⟩ := enumStr_spec h
    refine ⟨m.toList, fun o ho he => ?_, fun _ hn =>
      Rendered.atom (hnm hn members off d hk m hm).1 fun c hc => isAtom_of_isIdent ((hnm hn members off d hk m hm).2 c hc)⟩
    have e : getSlot o .enum off d = .ok (.int (Int.xor (valueOf .h (bytesZ data (off * 2) 2)) (d.getD 0))) := by
      unfold getSlot
      simp only []
      rw [bind_okP (C09_enum o data ptrs ho (off * SlotType.enum.size) (Nat.dvd_mul_left _ _) (d.getD 0))]
      rfl
    simp only []
    rw [bind_okP he, bind_okP e]
    show (do pure (← Names.enumStr members _).toList : Py Str) = _
    rw [bind_okP hstr]
    rfl
  | textBytes j =>
    rw [hk] at h
    simp only [kindTree] at h
    cases ht : textOf (child ptrs j) with
    | none => rw [ht] at h; cases h
    | some b =>
      rw [ht] at h
      obtain ⟨s, h1, _, h3⟩ := textTree_spec (E := E) (show textTree faithful b = some t from h)
      refine ⟨s, fun o ho _ => ?_, h3⟩
      simp only []
      rw [bind_okP (getText_spec ho ht), h1]
  | textUnicode j =>
    rw [hk] at h
    simp only [kindTree] at h
    cases ht : textOf (child ptrs j) with
    | none => rw [ht] at h; cases h
    | some b =>
      rw [ht] at h
      obtain ⟨s, _, h2, h3⟩ := textTree_spec (E := E) (show textTree faithful b = some t from h)
      refine ⟨s, fun o ho _ => ?_, h3⟩
      simp only []
      rw [bind_okP (getText_spec ho ht), h2]
  | data j =>
    rw [hk] at h
    simp only [kindTree] at h
    cases ht : dataOf (child ptrs j) with
    | none => rw [ht] at h; cases h
    | some b =>
      rw [ht] at h
      cases h
      refine ⟨dataRepr b, fun o ho _ => ?_, fun _ _ => ?_⟩
      · simp only []
        rw [bind_okP (getData_spec ho ht)]
        rfl
      · rw [dataRepr_eq]
        exact Rendered.str (parseStr_data b)
  | struct c j =>
    rw [hk] at h
    simp only [kindTree] at h
    split at h
    · rename_i hc
      obtain ⟨s, h1, h2⟩ := hrec c _ t h
      refine ⟨s, fun o ho he => ?_, h2⟩
      have hd := (C10_struct o data ptrs ho j).1 hc
      rw [Nat.mul_comm 8 j] at hd
      obtain ⟨o', g1, g2⟩ := (C11_get o ((j * 8 : Nat) : Int)).2.2.2.1 hd
      simp only []
      rw [bind_okP he, bind_okP g1, h1 o' g2]
    · rename_i d p hc
      obtain ⟨s, h1, h2⟩ := hrec c _ t h
      refine ⟨s, fun o ho he => ?_, h2⟩
      obtain ⟨o', g1, g2⟩ := (C10_struct o data ptrs ho j).2.1 d p hc
      rw [Nat.mul_comm 8 j] at g1
      simp only []
      rw [bind_okP he, bind_okP ((C11_get o _).2.2.1 o' g1), h1 o' g2]
    · cases h
  | list it j =>
    rw [hk] at h
    simp only [kindTree] at h
    split at h
    · rename_i hc
      cases h
      refine ⟨['[', ']'], fun o ho he => ?_, fun _ _ => Rendered.list (ss := []) .nil⟩
      have hd := (C10_list o data ptrs ho j (it.toItemType E)).1 hc
      rw [Nat.mul_comm 8 j] at hd
      obtain ⟨l, g1, _, g3⟩ := (C11_get o ((j * 8 : Nat) : Int)).2.2.2.2.2.2.1 _ hd
      simp only []
      rw [bind_okP he, bind_okP g1]
      unfold listRepr
      rw [bind_okP g3]
      rfl
    · cases h
    · rename_i hc1 hc2
      obtain ⟨s, h1, h2⟩ := listTree_spec hrec h
      refine ⟨s, fun o ho he => ?_, h2⟩
      obtain ⟨l, g1, g2, g3⟩ := (C10_list o data ptrs ho j (it.toItemType E)).2.1 hc1 (fun d p hc => hc2 d p hc)
      rw [Nat.mul_comm 8 j] at g1
      simp only []
      rw [bind_okP he, bind_okP ((C11_get o _).2.2.2.2.2.1 _ l g1), h1 l g3 g2]
  | anyPointer j =>
    rw [hk] at h
    cases h
    exact ⟨_, fun o _ _ => rfl, fun _ _ => Rendered.atom (s := "???".toList) (by decide) (by decide)⟩
  | group c nl =>
    rw [hk] at h
    simp only [kindTree] at h
    obtain ⟨s, h1, h2⟩ := hrec c _ t h
    refine ⟨s, fun o ho he => ?_, h2⟩
    simp only []
    rw [bind_okP he, bind_okP (group_spec ho), h1 o ho]

theorem fieldTrees_spec {faithful : Bool} {E : Env} {rec : Nat → StructObj → Py Str} {tr : Nat → Val → Option Tree}
    (hrec : RecSpec faithful E rec tr) {data : Bytes} {ptrs : List Val} {u : Option Nat} :
    ∀ {fs : List RField} {ts : List (List Char × Tree)},
    (Named E → ∀ f ∈ fs, f.capname ≠ [] ∧ (∀ x ∈ f.capname, isIdent x = true) ∧
      ∀ members off d, f.kind = .enum members off d → ∀ m ∈ members, m.toList ≠ [] ∧ ∀ x ∈ m.toList, isIdent x = true) →
    fieldTrees faithful E tr data ptrs u fs = some ts →
    ∃ ss, (∀ o, Denotes o (.struct data ptrs) → reprFields E rec o u fs = .ok ss) ∧
      (faithful = true → Named E → List.Forall₂ RenderedField ss ts) := by
  intro fs
  induction fs with
  | nil => intro ts _ h; cases h; exact ⟨[], fun o _ => rfl, fun _ _ => .nil⟩
  | cons f fs ih =>
    intro ts hnm h
    unfold fieldTrees at h
    have hng : ∀ d c, f.disc = some d → f.kind ≠ .group c true := by
      intro d c h1 h2; rw [h1, h2] at h; cases h
    have h' : (if (∃ d ∈ f.disc, 2 ^ 15 ≤ d) then none
      else
        match shown data ptrs u f, fieldTrees faithful E tr data ptrs u fs with
        | some true, some r => (kindTree faithful E tr data ptrs f.kind).map fun t => (f.capname, t) :: r
        | some false, some r => some r
        | _, _ => none) = some ts := by
      revert h
      split
      · intro h; cases h
      · exact id
    by_cases hd : ∃ d ∈ f.disc, 2 ^ 15 ≤ d
    · rw [if_pos hd] at h'; cases h'
    rw [if_neg hd] at h'
    have hd' : ∀ d, f.disc = some d → d < 2 ^ 15 := by
      intro d h1; by_contra h2; exact hd ⟨d, h1, by omega⟩
    cases hs : shown data ptrs u f with
    | none => rw [hs] at h'; cases h'
    | some b =>
      cases hr : fieldTrees faithful E tr data ptrs u fs with
      | none => rw [hs, hr] at h'; cases b <;> cases h'
      | some r =>
        rw [hs, hr] at h'
        obtain ⟨ss, hss1, hss2⟩ := ih (fun hn g hg => hnm hn g (by simp [hg])) hr
        cases b with
        | false =>
          cases h'
          refine ⟨ss, fun o ho => ?_, hss2⟩
          unfold reprFields
          rw [bind_okP (reprGuard_spec ho hng hd' hs)]
          exact hss1 o ho
        | true =>
          simp only [] at h'
          cases hk : kindTree faithful E tr data ptrs f.kind with
          | none => rw [hk] at h'; cases h'
          | some t =>
            rw [hk] at h'
            cases h'
            obtain ⟨s, hs1, hs2⟩ := kindTree_spec (u := u) hrec (fun hn => (hnm hn f (by simp)).2.2) hk
            refine ⟨(f.capname ++ [' ', '=', ' '] ++ s) :: ss, fun o ho => ?_, fun a b =>
              .cons ⟨(hnm b f (by simp)).1, (hnm b f (by simp)).2.1, s, rfl, hs2 a b⟩ (hss2 a b)⟩
            have he : ensureMember o u f.disc = .ok () := by
              apply ensureMember_spec ho
              intro d hdisc
              refine ⟨hd' d hdisc, ?_⟩
              unfold shown at hs
              rw [hdisc] at hs
              cases u with
              | none => cases hs
              | some u =>
                simp only [Option.some.injEq, Bool.and_eq_true, decide_eq_true_eq] at hs
                exact ⟨u, rfl, hs.1⟩
            unfold reprFields
            rw [bind_okP (reprGuard_spec ho hng hd' hs), if_pos rfl, bind_okP (hs1 o ho he), bind_okP (hss1 o ho)]
            rfl

/-- The text printed for a value whose tree is defined. -/
theorem shortrepr_spec (faithful : Bool) (E : Env) : ∀ n, RecSpec faithful E (shortrepr E n) (treeOf faithful E n) := by
  intro n
  induction n with
  | zero => intro c v t h; cases h
  | succ n ih =>
    intro c v t h
    cases v with
    | struct data ptrs =>
      unfold treeOf at h
      cases hf : fieldTrees faithful E (treeOf faithful E n) data ptrs (E.cls c).union (E.cls c).fields with
      | none => rw [hf] at h; cases h
      | some ts =>
        rw [hf] at h
        cases h
        obtain ⟨ss, h1, h2⟩ := fieldTrees_spec ih (fun hn f hf => hn.1 c f hf) hf
        refine ⟨['('] ++ join ss ++ [')'], fun o ho => ?_, fun a b => Rendered.struct (h2 a b)⟩
        unfold shortrepr
        rw [bind_okP (h1 o ho)]
        rfl
    | null => cases h
    | listPrim _ _ _ => cases h
    | listPtr _ => cases h
    | listComp _ _ _ => cases h

end Capnpy.Spec.Short
