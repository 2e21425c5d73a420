import Verif.Proof.ListWrite
import Verif.Props.ListRead
import Verif.Props.Builder

/-!
# C28: constructing lists

`ListVal`, `SameItem`: see `Verif/Spec/ListBuild.lean`.
-/

namespace Capnpy.Props

open Spec

/-! ## Helpers -/

theorem forall₂_get {α β} {R : α → β → Prop} {xs : List α} {ys : List β} (h : List.Forall₂ R xs ys) :
    ∀ (i : Nat) x y, xs[i]? = some x → ys[i]? = some y → R x y := by
  induction h with
  | nil => intro i x y h; simp at h
  | cons hx _ ih =>
    intro i x y h1 h2
    cases i with
    | zero => simp at h1 h2; subst h1 h2; exact hx
    | succ i => simp at h1 h2; exact ih i x y h1 h2

theorem forall₂_of_get {α β} {R : α → β → Prop} : ∀ {xs : List α} {ys : List β}, xs.length = ys.length →
    (∀ (i : Nat) x y, xs[i]? = some x → ys[i]? = some y → R x y) → List.Forall₂ R xs ys := by
  intro xs
  induction xs with
  | nil =>
    intro ys hl _
    cases ys with
    | nil => exact .nil
    | cons _ _ => simp at hl
  | cons x xs ih =>
    intro ys hl h
    cases ys with
    | nil => simp at hl
    | cons y ys =>
      refine .cons (h 0 x y rfl rfl) (ih (by simpa using hl) ?_)
      intro i a b h1 h2
      exact h (i + 1) a b (by simpa using h1) (by simpa using h2)

theorem forall₂_impl {α β} {R S : α → β → Prop} {xs : List α} {ys : List β} (h : List.Forall₂ R xs ys)
    (P : ∀ (i : Nat) y, ys[i]? = some y → ∀ x, R x y → S x y) : List.Forall₂ S xs ys :=
  forall₂_of_get (forall₂_length h) fun i x y h1 h2 => P i y h2 x (forall₂_get h i x y h1 h2)

/-! ## Writing -/

theorem textOK (fuel : Nat) {x : PyItem} {v : Val} (h : TextVal x v) (hf : v.Fits) :
    WriteOK (writeItem fuel .text) x v := by
  intro b dst h1 h2 h3 h4
  cases x with
  | none =>
    cases h
    obtain ⟨b', e, p⟩ := writeNull_post h1 h3
    refine ⟨b', ?_, p⟩
    show (do let _ ← (do writeInt64 (dst : Int) 0; pure (-1) : BM Int); pure () : BM Unit) b = _
    rw [BM.bind_ok (s' := b') (a := -1) (by rw [BM.bind_ok e]; rfl)]
    rfl
  | bytes s =>
    cases h
    simp only [Val.Fits] at hf
    obtain ⟨b', e, p⟩ := allocText_post (b := b) (pos := dst) s 1 h3 h2 h1 hf (by omega)
    refine ⟨b', ?_, p⟩
    show (do let _ ← allocText (dst : Int) (some s) ((1 : Nat) : Int); pure () : BM Unit) b = _
    rw [BM.bind_ok e]
    rfl
  | int _ => exact h.elim
  | struct _ => exact h.elim
  | list _ => exact h.elim

theorem dataOK (fuel : Nat) {x : PyItem} {v : Val} (h : DataVal x v) (hf : v.Fits) :
    WriteOK (writeItem fuel .data) x v := by
  intro b dst h1 h2 h3 h4
  cases x with
  | none =>
    cases h
    obtain ⟨b', e, p⟩ := writeNull_post h1 h3
    refine ⟨b', ?_, p⟩
    show (do let _ ← (do writeInt64 (dst : Int) 0; pure (-1) : BM Int); pure () : BM Unit) b = _
    rw [BM.bind_ok (s' := b') (a := -1) (by rw [BM.bind_ok e]; rfl)]
    rfl
  | bytes s =>
    cases h
    simp only [Val.Fits] at hf
    obtain ⟨b', e, p⟩ := allocText_post (b := b) (pos := dst) s 0 h3 h2 h1 hf (by omega)
    refine ⟨b', ?_, by simpa using p⟩
    show (do let _ ← allocText (dst : Int) (some s) ((0 : Nat) : Int); pure () : BM Unit) b = _
    rw [BM.bind_ok e]
    rfl
  | int _ => exact h.elim
  | struct _ => exact h.elim
  | list _ => exact h.elim

/-- `copy_from_list` stores the value the Python list stands for. -/
theorem copyList_spec (fuel : Nat) : ∀ (it : ItemType) (xs : List PyItem) (v : Val), ListVal it xs v → v.Fits →
    2 * v.depth ≤ fuel + 2 → ∀ (b : Bytes) (dst : Nat), dst + 8 ≤ b.length → 8 ∣ dst → 8 ∣ b.length →
    b.length + v.size ≤ 2 ^ 32 →
    ∃ b', copyListWith it (writeItem fuel it) dst xs b = .ok () b' ∧ CopyPost b b' dst v := by
  intro it
  induction it with
  | void =>
    intro xs v hv hf _ b dst h1 h2 h3 h4
    cases hv
    simp only [Val.Fits] at hf
    exact copyList_void _ (fun p x => rfl) xs hf h1 h2 h3 (by omega)
  | bool => intro xs v hv; exact hv.elim
  | prim fmt =>
    intro xs v hv hf _ b dst h1 h2 h3 h4
    obtain ⟨is, rfl, hr, rfl⟩ := hv
    simp only [Val.Fits] at hf
    exact copyList_prim fmt _ _ (Or.inl rfl) (fun p i => rfl) is hr hf h1 h2 h3 (by omega)
  | enum =>
    intro xs v hv hf _ b dst h1 h2 h3 h4
    obtain ⟨is, rfl, hr, rfl⟩ := hv
    simp only [Val.Fits] at hf
    exact copyList_prim .h _ _ (Or.inr ⟨rfl, rfl⟩) (fun p i => rfl) is hr hf h1 h2 h3 (by omega)
  | struct d p =>
    intro xs v hv hf hd b dst h1 h2 h3 h4
    obtain ⟨ds, ps, items, rfl, rfl, hds, hps, hc, hfa, rfl⟩ := hv
    simp only [Val.depth] at hd
    exact copyList_struct _ fuel (fun p o => rfl) ds ps hds hps xs items hc hfa hf (by omega) h1 h2 h3 h4
  | text =>
    intro xs v hv hf _ b dst h1 h2 h3 h4
    obtain ⟨vs, hfa, rfl⟩ := hv
    simp only [Val.Fits] at hf
    exact copyListWith_ptr _ (Or.inl rfl) _ xs vs
      (forall₂_impl hfa fun i y hy x hx => textOK fuel hx (Val.allFits_get hf.2 hy)) hf.1 h1 h2 h3 h4
  | data =>
    intro xs v hv hf _ b dst h1 h2 h3 h4
    obtain ⟨vs, hfa, rfl⟩ := hv
    simp only [Val.Fits] at hf
    exact copyListWith_ptr _ (Or.inr (Or.inl rfl)) _ xs vs
      (forall₂_impl hfa fun i y hy x hx => dataOK fuel hx (Val.allFits_get hf.2 hy)) hf.1 h1 h2 h3 h4
  | list inner ih =>
    intro xs v hv hf hd b dst h1 h2 h3 h4
    obtain ⟨vs, hfa, rfl⟩ := hv
    simp only [Val.Fits] at hf
    simp only [Val.depth] at hd
    refine copyListWith_ptr _ (Or.inr (Or.inr ⟨inner, rfl⟩)) _ xs vs ?_ hf.1 h1 h2 h3 h4
    refine forall₂_impl hfa fun i y hy x hx => ?_
    intro b dst h1 h2 h3 h4
    have hdy := Val.depth_le hy
    cases x with
    | none =>
      cases hx
      exact writeNull_post h1 h3
    | list ys => exact ih ys y hx (Val.allFits_get hf.2 hy) (by omega) b dst h1 h2 h3 h4
    | int _ => exact hx.elim
    | struct _ => exact hx.elim
    | bytes _ => exact hx.elim

/-! ## Reading back -/

theorem iterFrom_items {l : ListObj} : ∀ (n : Nat) (i : Nat) (ys : List Item), l.iterFrom n i = .ok ys →
    ∀ (k : Nat) y, ys[k]? = some y → l.readItem ((i + k : Nat) : Int) = .ok y := by
  intro n
  induction n with
  | zero => intro i ys h k y hk; cases h; simp at hk
  | succ n ih =>
    intro i ys h k y hk
    unfold ListObj.iterFrom at h
    cases hg : l.getItem i with
    | error e =>
      rw [hg] at h
      cases e <;> cases h
      simp at hk
    | ok x =>
      rw [hg] at h
      have hread : l.readItem i = .ok x := by
        unfold ListObj.getItem at hg
        rw [if_neg (show ¬ ((i : Int) < 0) by omega)] at hg
        by_cases hc : (0 : Int) ≤ i ∧ (i : Int) < l.itemCount
        · rw [if_pos hc] at hg; exact hg
        · rw [if_neg hc] at hg; cases hg
      change (l.iterFrom n ((i : Int) + 1) >>= fun xs => pure (x :: xs)) = _ at h
      rw [show (i : Int) + 1 = ((i + 1 : Nat) : Int) by omega] at h
      cases hr : l.iterFrom n ((i + 1 : Nat) : Int) with
      | error e => rw [hr] at h; cases h
      | ok xs =>
        rw [hr] at h
        cases h
        cases k with
        | zero => simp at hk; subst hk; exact hread
        | succ k =>
          simp at hk
          have := ih (i + 1) xs hr k y hk
          rw [show i + 1 + k = i + (k + 1) by omega] at this
          exact this

/-- C27: the lists inside a list of lists of `inner` are lists of `inner`. -/
theorem C27_nested_type {l l' : ListObj} {inner : ItemType} (h : l.itemType = .list inner) {i : Int}
    (hr : l.readItem i = .ok (.list l')) : l'.itemType = inner := by
  unfold ListObj.readItem at hr
  rw [h] at hr
  simp only [bind, Except.bind] at hr
  cases hp : l.itemPtr (l.offset + i * 8) with
  | error e => rw [hp] at hr; cases hr
  | ok q =>
    obtain ⟨off, p⟩ := q
    rw [hp] at hr
    simp only at hr
    cases hi : ListObj.init l.seg (Ptr.deref p off) (Ptr.listSizeTag p) (Ptr.listItemCount p) inner with
    | error e => rw [hi] at hr; cases hr
    | ok l2 =>
      rw [hi] at hr
      cases hr
      unfold ListObj.init at hi
      by_cases hc : Ptr.listSizeTag p = Ptr.LIST_SIZE_COMPOSITE
      · rw [if_pos hc] at hi
        simp only [bind, Except.bind] at hi
        cases hs : l.seg.readPtr (Ptr.deref p off) with
        | error e => rw [hs] at hi; cases hi
        | ok t => rw [hs] at hi; cases hi; rfl
      · rw [if_neg hc] at hi
        cases hi; rfl

theorem numBytes_value (fmt : Fmt) (i : Int) (h : InRange fmt i) : valueOf fmt (numBytes fmt i) = i := by
  rw [← decode_eq_valueOf _ _ (numBytes_length fmt i)]
  have := Fmt.decode_encode fmt i ((inRange_iff _ _).mp h)
  rw [card_eq] at this
  exact this

theorem slice_flatMap (fmt : Fmt) : ∀ (is : List Int) (k : Nat) (i : Int), is[k]? = some i →
    slice (is.flatMap (numBytes fmt)) (fmt.size * k) fmt.size = numBytes fmt i := by
  intro is
  induction is with
  | nil => intro k i h; simp at h
  | cons a is ih =>
    intro k i h
    have hl := numBytes_length fmt a
    rw [List.flatMap_cons]
    cases k with
    | zero =>
      simp at h; subst h
      unfold slice
      rw [Nat.mul_zero, List.drop_zero, List.take_left' hl]
    | succ k =>
      simp at h
      rw [← ih k i h]
      unfold slice
      rw [show fmt.size * (k + 1) = (numBytes fmt a).length + fmt.size * k by rw [hl]; ring,
        ← List.drop_drop, List.drop_left]

theorem allSome_of {α β} {f : α → Option β} : ∀ {vs : List α}, (∀ (i : Nat) v, vs[i]? = some v → ∃ e, f v = some e) →
    ∃ es, allSome f vs = some es := by
  intro vs
  induction vs with
  | nil => intro _; exact ⟨[], rfl⟩
  | cons v vs ih =>
    intro h
    obtain ⟨e, he⟩ := h 0 v rfl
    obtain ⟨es, hes⟩ := ih fun i v hv => h (i + 1) v (by simpa using hv)
    exact ⟨e :: es, by simp [allSome, he, hes]⟩

/-- Reading an entire list, with the place each item comes from. -/
theorem toList_full {l : ListObj} {v : Val} (h : ListDenotes l v) {es : List Elem}
    (he : elems l.itemType v = some es) : ∃ ys, l.toList = .ok ys ∧ ys.length = es.length ∧
      ∀ (k : Nat) y e, ys[k]? = some y → es[k]? = some e → ItemDenotes y e ∧ l.readItem k = .ok y := by
  obtain ⟨ys, h1, h2⟩ := C27_iter h he
  refine ⟨ys, h1, forall₂_length h2, ?_⟩
  intro k y e hy hee
  refine ⟨forall₂_get h2 k y e hy hee, ?_⟩
  have := iterFrom_items (l.itemCount.toNat + 1) 0 ys h1 k y hy
  rw [Nat.zero_add] at this
  exact this

/-- From elements to `SameItem`. -/
theorem readback_of {l : ListObj} {v : Val} (h : ListDenotes l v) {it : ItemType} (hit : l.itemType = it)
    {es : List Elem} (he : elems it v = some es) {xs : List PyItem} (hl : xs.length = es.length)
    (hs : ∀ (i : Nat) x e y, xs[i]? = some x → es[i]? = some e → ItemDenotes y e → l.readItem i = .ok y →
      SameItem it x y) :
    l.len = xs.length ∧ ∃ ys, l.toList = .ok ys ∧ List.Forall₂ (SameItem it) xs ys := by
  subst hit
  obtain ⟨ys, h1, h2, h3⟩ := toList_full h he
  refine ⟨by rw [C27_len h he, hl], ys, h1, forall₂_of_get (by omega) ?_⟩
  intro i x y hx hy
  have hi : i < es.length := by have := (List.getElem?_eq_some_iff.mp hx).1; omega
  obtain ⟨r1, r2⟩ := h3 i y _ hy (List.getElem?_eq_getElem hi)
  exact hs i x _ y hx (List.getElem?_eq_getElem hi) r1 r2

theorem readback_num (fmt : Fmt) {l : ListObj} (it : ItemType) (hit : it = .prim fmt ∨ (it = .enum ∧ fmt = .h))
    (is : List Int) (hr : ∀ i ∈ is, InRange fmt i)
    (h : ListDenotes l (.listPrim (fmtTag fmt) is.length (is.flatMap (numBytes fmt))))
    (hl : l.itemType = it) :
    l.len = (is.map PyItem.int).length ∧
      ∃ ys, l.toList = .ok ys ∧ List.Forall₂ (SameItem it) (is.map PyItem.int) ys := by
  have he : elems it (.listPrim (fmtTag fmt) is.length (is.flatMap (numBytes fmt))) = some
      ((List.range is.length).map fun i => .int (valueOf fmt (slice (is.flatMap (numBytes fmt))
        (fmt.size * i) fmt.size))) := by
    rcases hit with rfl | ⟨rfl, rfl⟩
    · unfold elems; exact if_pos rfl
    · rfl
  refine readback_of h hl he (by simp) ?_
  intro k x e y hx hee hd _
  rw [List.getElem?_map, Option.map_eq_some_iff] at hx hee
  obtain ⟨i, hi, rfl⟩ := hx
  obtain ⟨k', hk', rfl⟩ := hee
  obtain ⟨-, rfl⟩ := getElem?_range_inv hk'
  rw [slice_flatMap fmt is k i hi, numBytes_value fmt i (hr i (List.mem_of_getElem? hi))] at hd
  cases y with
  | int a =>
    have : a = i := hd
    subst this
    rcases hit with rfl | ⟨rfl, -⟩ <;> rfl
  | _ => exact hd.elim

/-- What is read from a list which stands for the same value as a Python list:
the same items. -/
theorem readback : ∀ (it : ItemType) (xs : List PyItem) (v : Val), ListVal it xs v → ∀ l : ListObj,
    ListDenotes l v → l.itemType = it →
    l.len = xs.length ∧ ∃ ys, l.toList = .ok ys ∧ List.Forall₂ (SameItem it) xs ys := by
  intro it
  induction it with
  | void =>
    intro xs v hv l h hl
    cases hv
    refine readback_of h hl (es := List.replicate xs.length .none) rfl (by simp) ?_
    intro i x e y hx he hd _
    rw [List.getElem?_replicate] at he
    split at he
    · cases he
      cases y with
      | none => rfl
      | _ => exact hd.elim
    · cases he
  | bool => intro xs v hv; exact hv.elim
  | prim fmt =>
    intro xs v hv l h hl
    obtain ⟨is, rfl, hr, rfl⟩ := hv
    exact readback_num fmt _ (Or.inl rfl) is hr h hl
  | enum =>
    intro xs v hv l h hl
    obtain ⟨is, rfl, hr, rfl⟩ := hv
    exact readback_num .h _ (Or.inr ⟨rfl, rfl⟩) is hr h hl
  | struct d p =>
    intro xs v hv l h hl
    obtain ⟨ds, ps, items, rfl, rfl, hds, hps, hc, hfa, rfl⟩ := hv
    refine readback_of h hl (es := items.map fun x => .val (.struct x.1 x.2)) rfl
      (by rw [List.length_map]; exact forall₂_length hfa) ?_
    intro i x e y hx he hd _
    rw [List.getElem?_map, Option.map_eq_some_iff] at he
    obtain ⟨a, ha, rfl⟩ := he
    have := forall₂_get hfa i x a hx ha
    cases x with
    | struct o =>
      cases y with
      | struct o' => exact ⟨o', _, rfl, this.1, hd⟩
      | list l' =>
        exfalso
        obtain ⟨B, offs, q, w, t, it, -, -, -, -, hk, -, hden⟩ := hd
        generalize hv : Val.struct a.1 a.2 = v at hden
        cases hden with
        | null => cases hv
        | struct => omega
        | listPrim => cases hv
        | listPtr => cases hv
        | listComp => cases hv
        | far => omega
        | far2 => omega
      | none => exact hd.elim
      | bool _ => exact hd.elim
      | int _ => exact hd.elim
      | bytes _ => exact hd.elim
    | none => exact this.elim
    | int _ => exact this.elim
    | bytes _ => exact this.elim
    | list _ => exact this.elim
  | text =>
    intro xs v hv l h hl
    obtain ⟨vs, hfa, rfl⟩ := hv
    have hex : ∀ (i : Nat) u, vs[i]? = some u → ∃ e, textElem u = some e := by
      intro i u hu
      have hi : i < xs.length := by rw [forall₂_length hfa]; exact (List.getElem?_eq_some_iff.mp hu).1
      have := forall₂_get hfa i _ u (List.getElem?_eq_getElem hi) hu
      revert this
      cases xs[i] with
      | none => intro h; cases h; exact ⟨_, rfl⟩
      | bytes s => intro h; cases h; exact ⟨_, by unfold textElem; exact if_pos (by omega)⟩
      | int _ => intro h; exact h.elim
      | struct _ => intro h; exact h.elim
      | list _ => intro h; exact h.elim
    obtain ⟨es, hes⟩ := allSome_of hex
    obtain ⟨g1, g2⟩ := allSome_get hes
    refine readback_of h hl (es := es) (by unfold elems; exact hes) (by rw [g1]; exact forall₂_length hfa) ?_
    intro i x e y hx he hd _
    obtain ⟨u, hu, hue⟩ := g2 i e he
    have := forall₂_get hfa i x u hx hu
    cases x with
    | none =>
      cases this; cases hue
      cases y with
      | none => rfl
      | _ => exact hd.elim
    | bytes s =>
      cases this
      have ht : textElem (.listPrim 2 (s.length + 1) (s ++ [0])) = some (.bytes (s ++ [0]).dropLast) := by
        unfold textElem; exact if_pos (by omega)
      rw [ht] at hue
      cases hue
      cases y with
      | bytes b =>
        have hb : b = (s ++ [0]).dropLast := hd
        rw [List.dropLast_concat] at hb
        subst hb; rfl
      | _ => exact hd.elim
    | int _ => exact this.elim
    | struct _ => exact this.elim
    | list _ => exact this.elim
  | data =>
    intro xs v hv l h hl
    obtain ⟨vs, hfa, rfl⟩ := hv
    have hex : ∀ (i : Nat) u, vs[i]? = some u → ∃ e, dataElem u = some e := by
      intro i u hu
      have hi : i < xs.length := by rw [forall₂_length hfa]; exact (List.getElem?_eq_some_iff.mp hu).1
      have := forall₂_get hfa i _ u (List.getElem?_eq_getElem hi) hu
      revert this
      cases xs[i] with
      | none => intro h; cases h; exact ⟨_, rfl⟩
      | bytes s => intro h; cases h; exact ⟨_, rfl⟩
      | int _ => intro h; exact h.elim
      | struct _ => intro h; exact h.elim
      | list _ => intro h; exact h.elim
    obtain ⟨es, hes⟩ := allSome_of hex
    obtain ⟨g1, g2⟩ := allSome_get hes
    refine readback_of h hl (es := es) (by unfold elems; exact hes) (by rw [g1]; exact forall₂_length hfa) ?_
    intro i x e y hx he hd _
    obtain ⟨u, hu, hue⟩ := g2 i e he
    have := forall₂_get hfa i x u hx hu
    cases x with
    | none =>
      cases this; cases hue
      cases y with
      | none => rfl
      | _ => exact hd.elim
    | bytes s =>
      cases this; cases hue
      cases y with
      | bytes b =>
        have hb : b = s := hd
        subst hb; rfl
      | _ => exact hd.elim
    | int _ => exact this.elim
    | struct _ => exact this.elim
    | list _ => exact this.elim
  | list inner ih =>
    intro xs v hv l h hl
    obtain ⟨vs, hfa, rfl⟩ := hv
    have hshape : ∀ (ys : List PyItem) (u : Val), ListVal inner ys u → u ≠ .null ∧ ∀ d p, u ≠ .struct d p := by
      intro ys u hu
      cases inner with
      | void => cases hu; simp
      | bool => exact hu.elim
      | prim fmt => obtain ⟨is, -, -, rfl⟩ := hu; simp
      | enum => obtain ⟨is, -, -, rfl⟩ := hu; simp
      | struct d p => obtain ⟨_, _, _, _, _, _, _, _, _, rfl⟩ := hu; simp
      | text => obtain ⟨_, _, rfl⟩ := hu; simp
      | data => obtain ⟨_, _, rfl⟩ := hu; simp
      | list i => obtain ⟨_, _, rfl⟩ := hu; simp
    have hel : ∀ u : Val, u ≠ .null → (∀ d p, u ≠ .struct d p) → listElem u = some (.val u) := by
      intro u h1 h2
      cases u with
      | null => exact absurd rfl h1
      | struct d p => exact absurd rfl (h2 d p)
      | listPrim => rfl
      | listPtr => rfl
      | listComp => rfl
    have hex : ∀ (i : Nat) u, vs[i]? = some u → ∃ e, listElem u = some e := by
      intro i u hu
      have hi : i < xs.length := by rw [forall₂_length hfa]; exact (List.getElem?_eq_some_iff.mp hu).1
      have := forall₂_get hfa i _ u (List.getElem?_eq_getElem hi) hu
      revert this
      cases xs[i] with
      | none => intro h; cases h; exact ⟨_, rfl⟩
      | list ys => intro h; obtain ⟨h1, h2⟩ := hshape ys u h; exact ⟨_, hel u h1 h2⟩
      | bytes s => intro h; exact h.elim
      | int _ => intro h; exact h.elim
      | struct _ => intro h; exact h.elim
    obtain ⟨es, hes⟩ := allSome_of hex
    obtain ⟨g1, g2⟩ := allSome_get hes
    refine readback_of h hl (es := es) (by unfold elems; exact hes) (by rw [g1]; exact forall₂_length hfa) ?_
    intro i x e y hx he hd hread
    obtain ⟨u, hu, hue⟩ := g2 i e he
    have := forall₂_get hfa i x u hx hu
    cases x with
    | none =>
      cases this; cases hue
      cases y with
      | list l' =>
        refine ⟨l', rfl, ?_⟩
        obtain ⟨_, _, _, _, _, _, hc, _⟩ := listPrim_inv hd
        exact hc
      | struct o =>
        exfalso
        obtain ⟨_, _, _, _, _, _, _, _, _, _, _, _, _, hv⟩ := hd
        cases hv
      | none => exact hd.elim
      | bool _ => exact hd.elim
      | int _ => exact hd.elim
      | bytes _ => exact hd.elim
    | list ys =>
      obtain ⟨h1, h2⟩ := hshape ys u this
      rw [hel u h1 h2] at hue
      cases hue
      cases y with
      | list l' =>
        obtain ⟨r1, zs, r2, r3⟩ := ih ys u this l' hd (C27_nested_type hl hread)
        exact ⟨l', zs, rfl, r1, r2, r3⟩
      | struct o =>
        exfalso
        obtain ⟨_, _, _, _, _, _, _, _, _, _, _, _, _, hv⟩ := hd
        exact h2 _ _ hv
      | none => exact hd.elim
      | bool _ => exact hd.elim
      | int _ => exact hd.elim
      | bytes _ => exact hd.elim
    | bytes s => exact this.elim
    | int _ => exact this.elim
    | struct _ => exact this.elim

/-! ## C28 -/

/-- Reading a pointer slot of a struct of the builder that holds a list. -/
theorem readList_slot {B : Bytes} {t ds ps j : Nat} {v : Val} (h8 : 8 ∣ t) (hj : j < ps)
    (hb : t + 8 * (ds + ps) ≤ B.length)
    (h : Den B none ((t + 8 * ds + 8 * j : Nat) : Int) (wordAt B (t + 8 * ds + 8 * j)) v)
    (hn : v ≠ .null) (hs : ∀ d p, v ≠ .struct d p) (it : ItemType) :
    ∃ l, (objAt B none t ds ps).readList ((8 * j : Nat) : Int) it = .ok (some l) ∧ l.itemType = it ∧
      ListDenotes l v := by
  have hk : kind (wordAt B (t + 8 * ds + 8 * j)) = 1 := by
    generalize wordAt B (t + 8 * ds + 8 * j) = w at h
    generalize ho : ((t + 8 * ds + 8 * j : Nat) : Int) = o at h
    cases h with
    | null => exact absurd rfl hn
    | struct _ _ _ d p => exact absurd rfl (hs _ _)
    | listPrim => omega
    | listPtr => omega
    | listComp => omega
    | far _ _ _ _ _ _ _ _ _ _ hc => cases hc
    | far2 _ _ _ _ _ _ _ _ _ _ _ hc => cases hc
  have hw := wordAt_lt B (t + 8 * ds + 8 * j)
  have hm := signed64_mod _ hw
  have e : (objAt B none t ds ps).resolve ((8 * j : Nat) : Int)
      = .ok (((t + 8 * ds + 8 * j : Nat) : Int), signed64 (wordAt B (t + 8 * ds + 8 * j))) := by
    unfold StructObj.resolve StructObj.readFastPtr objAt
    simp only
    rw [if_neg (by omega), show (((t + 8 * ds : Nat) : Int) + ((8 * j : Nat) : Int))
      = ((t + 8 * ds + 8 * j : Nat) : Int) by push_cast; ring, bind_okP (readPtr_at (by omega)),
      Ptr.kind_spec hm, if_neg (by unfold Ptr.FAR; omega)]
    refine congrArg Except.ok ?_
    refine Prod.ext ?_ rfl
    push_cast; ring
  have h0 : wordAt B (t + 8 * ds + 8 * j) ≠ 0 := by
    intro h0; rw [h0] at hk; simp [kind] at hk
  obtain ⟨l, t', i1, i2, i3, i4⟩ := listInit_spec (offs := none) (by intro _ h; cases h) hw (by omega) hk h it
  refine ⟨l, ?_, ?_, i4⟩
  · unfold StructObj.readList
    rw [bind_okP e]
    simp only
    rw [if_neg (signed64_ne_zero hw h0), if_neg (by rw [Ptr.kind_spec hm, hk]; decide)]
    change (ListObj.init (Seg.of B none) _ _ _ _ >>= _) = _
    rw [bind_okP i1]
    rfl
  · rw [i3]; unfold listAt; split <;> rfl

/-- Reading a pointer slot of a struct of the builder that holds a list. -/
theorem readList_slot' {B : Bytes} {t ds ps j : Nat} {v : Val} (h8 : 8 ∣ t) (hj : j < ps)
    (hb : t + 8 * (ds + ps) ≤ B.length)
    (h : Den B none ((t + 8 * ds + 8 * j : Nat) : Int) (wordAt B (t + 8 * ds + 8 * j)) v)
    (hn : v ≠ .null) (hs : ∀ d p, v ≠ .struct d p) (it : ItemType) {t' : Nat}
    (ht' : target ((t + 8 * ds + 8 * j : Nat) : Int) (wordAt B (t + 8 * ds + 8 * j)) = t') :
    ∃ l, (objAt B none t ds ps).readList ((8 * j : Nat) : Int) it = .ok (some l) ∧ l.itemType = it ∧
      l = listAt B none t' (wordAt B (t + 8 * ds + 8 * j)) it := by
  have hk : kind (wordAt B (t + 8 * ds + 8 * j)) = 1 := by
    generalize wordAt B (t + 8 * ds + 8 * j) = w at h
    generalize ho : ((t + 8 * ds + 8 * j : Nat) : Int) = o at h
    cases h with
    | null => exact absurd rfl hn
    | struct _ _ _ d p => exact absurd rfl (hs _ _)
    | listPrim => omega
    | listPtr => omega
    | listComp => omega
    | far _ _ _ _ _ _ _ _ _ _ hc => cases hc
    | far2 _ _ _ _ _ _ _ _ _ _ _ hc => cases hc
  have hw := wordAt_lt B (t + 8 * ds + 8 * j)
  have hm := signed64_mod _ hw
  have e : (objAt B none t ds ps).resolve ((8 * j : Nat) : Int)
      = .ok (((t + 8 * ds + 8 * j : Nat) : Int), signed64 (wordAt B (t + 8 * ds + 8 * j))) := by
    unfold StructObj.resolve StructObj.readFastPtr objAt
    simp only
    rw [if_neg (by omega), show (((t + 8 * ds : Nat) : Int) + ((8 * j : Nat) : Int))
      = ((t + 8 * ds + 8 * j : Nat) : Int) by push_cast; ring, bind_okP (readPtr_at (by omega)),
      Ptr.kind_spec hm, if_neg (by unfold Ptr.FAR; omega)]
    refine congrArg Except.ok ?_
    refine Prod.ext ?_ rfl
    push_cast; ring
  have h0 : wordAt B (t + 8 * ds + 8 * j) ≠ 0 := by
    intro h0; rw [h0] at hk; simp [kind] at hk
  obtain ⟨l, t'', i1, i2, i3, i4⟩ := listInit_spec (offs := none) (by intro _ h; cases h) hw (by omega) hk h it
  obtain rfl : t' = t'' := Int.ofNat.inj (ht'.symm.trans i2)
  refine ⟨l, ?_, ?_, i3⟩
  · unfold StructObj.readList
    rw [bind_okP e]
    simp only
    rw [if_neg (signed64_ne_zero hw h0), if_neg (by rw [Ptr.kind_spec hm, hk]; decide)]
    change (ListObj.init (Seg.of B none) _ _ _ _ >>= _) = _
    rw [bind_okP i1]
    rfl
  · rw [i3]; unfold listAt; split <;> rfl

theorem listVal_shape {it : ItemType} {ys : List PyItem} {u : Val} (hu : ListVal it ys u) :
    u ≠ .null ∧ ∀ d p, u ≠ .struct d p := by
  cases it with
  | void => cases hu; simp
  | bool => exact hu.elim
  | prim fmt => obtain ⟨is, -, -, rfl⟩ := hu; simp
  | enum => obtain ⟨is, -, -, rfl⟩ := hu; simp
  | struct d p => obtain ⟨_, _, _, _, _, _, _, _, _, rfl⟩ := hu; simp
  | text => obtain ⟨_, _, rfl⟩ := hu; simp
  | data => obtain ⟨_, _, rfl⟩ := hu; simp
  | list i => obtain ⟨_, _, rfl⟩ := hu; simp

/-- C28: any acceptable Python list (voids, numbers of any width, enums, texts,
data, structs, nested lists to any depth) can be written into any pointer slot of
any struct of a builder; reading the field back gives a list with the same
length and the same items; the rest of the builder is unchanged. -/
theorem C28_roundtrip {it : ItemType} {xs : List PyItem} {v : Val} (hv : ListVal it xs v) (hf : v.Fits)
    {fuel : Nat} (hfuel : 2 * v.depth ≤ fuel + 2) (b : Bytes) (t ds ps j : Nat) (h8 : 8 ∣ b.length)
    (ht : 8 ∣ t) (hj : j < ps) (hb : t + 8 * (ds + ps) ≤ b.length) (hL : b.length + v.size ≤ 2 ^ 32) :
    ∃ b' l ys, copyFromList fuel it ((t + 8 * ds + 8 * j : Nat) : Int) (some xs) b = .ok () b' ∧
      (objAt b' none t ds ps).readList ((8 * j : Nat) : Int) it = .ok (some l) ∧
      l.len = xs.length ∧ l.toList = .ok ys ∧ List.Forall₂ (SameItem it) xs ys ∧
      (∀ i, i < b.length → ¬ (t + 8 * ds + 8 * j ≤ i ∧ i < t + 8 * ds + 8 * j + 8) → b'[i]? = b[i]?) := by
  obtain ⟨b', h1, post⟩ := copyList_spec fuel it xs v hv hf hfuel b (t + 8 * ds + 8 * j) (by omega) (by omega)
    h8 hL
  have hlen := post.len
  have hlay := post.lay b' (le_refl _) (fun _ _ _ => rfl)
  have hden := hlay.den none (by omega)
  obtain ⟨s1, s2⟩ := listVal_shape hv
  obtain ⟨l, r1, r2, r3⟩ := readList_slot ht hj (by omega) hden s1 s2 it
  obtain ⟨q1, ys, q2, q3⟩ := readback it xs v hv l r3 r2
  exact ⟨b', l, ys, h1, r1, q1, q2, q3, post.frame⟩

/-- C28: `None` is written as a null pointer, for which the accessor returns the
empty list. -/
theorem C28_none (fuel : Nat) (it : ItemType) (b : Bytes) (t ds ps j : Nat) (hj : j < ps)
    (hb : t + 8 * (ds + ps) ≤ b.length) :
    ∃ b' l, copyFromList fuel it ((t + 8 * ds + 8 * j : Nat) : Int) none b = .ok () b' ∧
      (objAt b' none t ds ps).hasField ((8 * j : Nat) : Int) = .ok false ∧
      (objAt b' none t ds ps).getList ((8 * j : Nat) : Int) it = .ok l ∧ l.len = 0 ∧ l.toList = .ok [] := by
  have hi : t + 8 * ds + 8 * j + 8 ≤ b.length := by omega
  have hlen8 : (leBytes 8 0).length = 8 := leBytes_length _ _
  have hl := overwrite_length (b := b) (s := leBytes 8 0) (i := t + 8 * ds + 8 * j) (by omega)
  have hw : wordAt (overwrite b (t + 8 * ds + 8 * j) (leBytes 8 0)) (t + 8 * ds + 8 * j) = 0 :=
    wordAt_overwrite (by norm_num) hi
  have e : (objAt (overwrite b (t + 8 * ds + 8 * j) (leBytes 8 0)) none t ds ps).readFastPtr
      ((8 * j : Nat) : Int) = .ok 0 := by
    unfold StructObj.readFastPtr objAt
    simp only
    rw [if_neg (by omega), show (((t + 8 * ds : Nat) : Int) + ((8 * j : Nat) : Int))
      = ((t + 8 * ds + 8 * j : Nat) : Int) by push_cast; ring, readPtr_at (by omega), hw]
    rfl
  refine ⟨overwrite b (t + 8 * ds + 8 * j) (leBytes 8 0), ⟨⟨[], none⟩, 0, it, 0, -1, 0, 0, 0⟩, ?_, ?_, ?_, rfl, ?_⟩
  · exact writeInt64_nat (b := b) (i := t + 8 * ds + 8 * j) (v := 0) (by norm_num) hi
  · unfold StructObj.hasField; rw [bind_okP e]; rfl
  · unfold StructObj.getList StructObj.readList StructObj.resolve
    rw [bind_okP (a := none) (by rw [bind_okP e]; rfl)]
    rfl
  · rfl

/-- Non-vacuity: a nested list `[[b"ab", None], [], None]` of texts. -/
def nestedTexts : List PyItem := [.list [.bytes [97, 98], .none], .list [], .none]

def nestedTextsVal : Val :=
  .listPtr [.listPtr [.listPrim 2 3 [97, 98, 0], .null], .listPtr [], .null]

theorem nestedTexts_val : ListVal (.list .text) nestedTexts nestedTextsVal :=
  ⟨_, .cons ⟨_, .cons rfl (.cons rfl .nil), rfl⟩ (.cons ⟨_, .nil, rfl⟩ (.cons rfl .nil)), rfl⟩

example : ∃ b' l ys, copyFromList 10 (.list .text) ((8 : Nat) : Int) (some nestedTexts) (List.replicate 16 0) = .ok () b' ∧
    (objAt b' none 0 1 1).readList ((8 * 0 : Nat) : Int) (.list .text) = .ok (some l) ∧ l.len = 3 ∧
    l.toList = .ok ys ∧ List.Forall₂ (SameItem (.list .text)) nestedTexts ys := by
  obtain ⟨b', l, ys, h1, h2, h3, h4, h5, _⟩ := C28_roundtrip (fuel := 10) nestedTexts_val
    (by simp [nestedTextsVal, Val.Fits, Val.AllFits]) (by decide) (List.replicate 16 0) 0 1 1 0
    (by decide) (by decide) (by decide) (by decide) (by decide)
  exact ⟨b', l, ys, h1, h2, h3, h4, h5⟩

/-- Non-vacuity: a list of two structs with a text and a list inside. -/
example : ∃ b' l ys, copyFromList 10 (.struct 1 2) ((8 : Nat) : Int)
      (some [.struct sampleObj, .struct sampleObj]) (List.replicate 16 0) = .ok () b' ∧
    (objAt b' none 0 1 1).readList ((8 * 0 : Nat) : Int) (.struct 1 2) = .ok (some l) ∧ l.len = 2 ∧
    l.toList = .ok ys ∧ List.Forall₂ (SameItem (.struct 1 2)) [.struct sampleObj, .struct sampleObj] ys := by
  have hs : StructVal 1 2 (.struct sampleObj) (leBytes 8 77, [.struct [] [], .listPrim 2 3 [1, 2, 3]]) :=
    ⟨sample_denotes, rfl, rfl, by decide⟩
  obtain ⟨b', l, ys, h1, h2, h3, h4, h5, _⟩ := C28_roundtrip (it := .struct 1 2) (fuel := 10)
    ⟨1, 2, _, rfl, rfl, by norm_num, by norm_num, by norm_num, .cons hs (.cons hs .nil), rfl⟩
    (by simp [Val.Fits, Val.AllFits, Val.ItemsFit]) (by decide) (List.replicate 16 0) 0 1 1 0
    (by decide) (by decide) (by decide) (by decide) (by decide)
  exact ⟨b', l, ys, h1, h2, h3, h4, h5⟩

/-- Finding: a non-empty `List(Bool)` cannot be constructed. -/
theorem C28_bool_not_constructible :
    ∃ b', copyFromList 10 .bool 0 (some [.int 1]) (List.replicate 8 0) = .error .notImplemented b' :=
  ⟨leBytes 8 (listWord 0 1 1), by decide +kernel⟩

/-- An object with no data section and one text pointer. -/
def evoObj : StructObj := objAt (leBytes 8 (listWord 0 2 2) ++ [97, 0, 0, 0, 0, 0, 0, 0]) none 0 0 1

/-- What `copy_from_list` makes of it. -/
def evoBuf : Bytes :=
  leBytes 8 0 ++ leBytes 8 (listWord 0 7 2) ++ leBytes 8 (structWord 1 1 1) ++ leBytes 8 (listWord 1 2 2)
    ++ leBytes 8 0 ++ [97, 0, 0, 0, 0, 0, 0, 0]

/-- Finding: `copy_from_list` computes the stride and the tag of a list of structs
from the static sizes of the class, but copies each item with its own sizes.  An
item that comes from a message of another schema version corrupts the list.  Here
the class has one data word and one pointer; the item, from an older version, has
no data section and the text "a".  Its accessors give 0 and "a"; the item read
back from the list gives a non-zero number and no text. -/
theorem C28_schema_evolution_corrupts : ∃ (o : StructObj) (b' : Bytes) (l : ListObj) (o' : StructObj),
    o.readPrimitive 0 .q = .ok 0 ∧ o.textField 0 = .ok (some [97]) ∧
    copyFromList 10 (.struct 1 1) 8 (some [.struct o]) (List.replicate 16 0) = .ok () b' ∧
    (objAt b' none 0 1 1).readList 0 (.struct 1 1) = .ok (some l) ∧ l.getItem 0 = .ok (.struct o') ∧
    o'.readPrimitive 0 .q ≠ .ok 0 ∧ o'.textField 0 = .ok none :=
  ⟨evoObj, evoBuf, ⟨⟨evoBuf, none⟩, 16, .struct 1 1, 7, (structWord 1 1 1 : Nat), 1, 16, 8⟩,
    ⟨⟨evoBuf, none⟩, 24, 32, 1, 1⟩, by decide +kernel, by decide +kernel, by decide +kernel,
    by decide +kernel, by decide +kernel, by decide +kernel, by decide +kernel⟩

end Capnpy.Props
