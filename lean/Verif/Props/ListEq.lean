import Verif.Spec.ListEq
import Verif.Proof.ListEq
import Verif.Props.ListWrite

/-!
# C29: list equality
-/

namespace Capnpy.Props

open Spec

/-- Element size tag of the lists of `it`. -/
def tagOf : ItemType → Nat
  | .void => 0
  | .bool => 1
  | .prim fmt => fmtTag fmt
  | .enum => 3
  | .struct _ _ => 7
  | _ => 6

theorem fmtTag_le (fmt : Fmt) : fmtTag fmt ≤ 5 := by cases fmt <;> decide

theorem tagOf_le {it : ItemType} (h : it.canCompare = true) : tagOf it ≤ 6 := by
  cases it with
  | prim fmt => exact le_trans (fmtTag_le fmt) (by norm_num)
  | struct => cases h
  | _ => simp [tagOf]

/-- The number of elements in a list value. -/
def countOf : Val → Nat
  | .listPrim _ n _ => n
  | .listPtr items => items.length
  | .listComp _ _ items => items.length
  | _ => 0

theorem lay_tag {ae : Bool} {B : Bytes} {pos w s e : Nat} {v : Val} {it : ItemType} (h : Lay ae B pos w v s e)
    (hk : kind w = 1) (hc : it.canCompare = true) {es : List Elem} (he : elems it v = some es) :
    listTag w = tagOf it ∧ listCount w = countOf v := by
  cases h with
  | null => simp [kind] at hk
  | empty => exact absurd hk (by decide)
  | struct => omega
  | listPrim _ _ _ hk' hg ht hb hz =>
    refine ⟨?_, rfl⟩
    cases it with
    | struct => cases hc
    | text => cases he
    | data => cases he
    | list => cases he
    | _ =>
      unfold elems at he
      simp only at he
      split at he
      · assumption
      · cases he
  | listPtr _ _ _ _ items ends hk' hg ht hb hl =>
    refine ⟨?_, hl.symm⟩
    cases it with
    | struct => cases hc
    | text => exact hg
    | data => exact hg
    | list => exact hg
    | _ => cases he
  | listComp =>
    cases it with
    | struct => cases hc
    | _ => cases he

theorem equals_spec {l l' : ListObj} {innerId : Bool} {fuel : Nat} {a b : Bytes} (hc : l.itemType.canCompare = true)
    (ha : l.getBytes fuel = .ok a) (hb : l'.getBytes fuel = .ok b) :
    ∃ r, l.equals l' innerId fuel = .ok r ∧
      (r = true ↔ l.itemCount = l'.itemCount ∧
        ListObj.sameGetType l.itemType l'.itemType innerId = true ∧ a = b) := by
  unfold ListObj.equals
  rw [if_neg (by rw [hc]; decide)]
  by_cases h : l.itemCount = l'.itemCount ∧ ListObj.sameGetType l.itemType l'.itemType innerId = true
  · rw [if_pos h, bind_okP ha, bind_okP hb]
    refine ⟨_, rfl, ?_⟩
    rw [decide_eq_true_iff]
    exact ⟨fun x => ⟨h.1, h.2, x⟩, fun x => x.2.2⟩
  · rw [if_neg h]
    refine ⟨_, rfl, ?_⟩
    constructor
    · intro x; cases x
    · intro x; exact absurd ⟨x.1, x.2.1⟩ h

theorem sameGetType_self {a b : ItemType} (h : a = b) : ListObj.sameGetType a b true = true := by
  subst h
  cases a <;> simp [ListObj.sameGetType]

theorem listAt_count {B : Bytes} {offs : Option (List Nat)} {t w : Nat} {it : ItemType} (h : listTag w ≤ 6) :
    (listAt B offs t w it).itemCount = ((listCount w : Nat) : Int) := by
  unfold listAt
  rw [if_neg (by omega)]

/-- C29: comparing two clean lists of the same item type never raises, and gives
True exactly when they hold the same value. -/
theorem C29_clean {l l' : ListObj} {v v' : Val} (h : CleanList l v) (h' : CleanList l' v')
    (hit : l.itemType = l'.itemType) (hc : l.itemType.canCompare = true)
    {es es' : List Elem} (he : elems l.itemType v = some es) (he' : elems l.itemType v' = some es')
    (hn : v.NoEmpty) (hn' : v'.NoEmpty) {fuel : Nat} (hf : v.depth ≤ fuel) (hf' : v'.depth ≤ fuel) :
    ∃ r, l.equals l' true fuel = .ok r ∧ (r = true ↔ v = v') := by
  obtain ⟨B, offs, pos, w, t, e, hl, hk, h8, ht, hlay, heB⟩ := h
  obtain ⟨B', offs', pos', w', t', e', hl', hk', h8', ht', hlay', heB'⟩ := h'
  obtain ⟨a1, a2⟩ := lay_tag hlay hk hc he
  obtain ⟨b1, b2⟩ := lay_tag hlay' hk' hc he'
  have hle := tagOf_le hc
  have g1 := getBytes_spec (offs := offs) (it := l.itemType) hlay hn hk (by omega) ht h8 heB hf
  have g2 := getBytes_spec (offs := offs') (it := l'.itemType) hlay' hn' hk' (by omega) ht' h8' heB' hf'
  rw [← hl] at g1
  rw [← hl'] at g2
  obtain ⟨r, hr, hiff⟩ := equals_spec (innerId := true) hc g1 g2
  refine ⟨r, hr, hiff.trans ?_⟩
  have c1 : l.itemCount = ((listCount w : Nat) : Int) := by rw [hl]; exact listAt_count (by omega)
  have c2 : l'.itemCount = ((listCount w' : Nat) : Int) := by rw [hl']; exact listAt_count (by omega)
  rw [c1, c2]
  constructor
  · rintro ⟨x, -, y⟩
    exact (clean_bytes hlay hlay' hk hk' (by omega) (by omega) (by omega) ht ht' heB heB').mp y
  · intro hv
    subst hv
    have : listCount w = listCount w' := by omega
    exact ⟨by rw [this], sameGetType_self hit, (clean_bytes hlay hlay' hk hk' (by omega) (by omega) this ht ht' heB heB').mpr rfl⟩

/-- C29: two compact lists that compare equal hold the same value, whatever is in
their padding.  (Garbage there can only make equal lists compare different:
`C29_padding_garbage`.) -/
theorem C29_compact_sound {l l' : ListObj} {v v' : Val} (h : CompactList l v) (h' : CompactList l' v')
    (hc : l.itemType.canCompare = true)
    {es es' : List Elem} (he : elems l.itemType v = some es) (he' : elems l.itemType v' = some es')
    {fuel : Nat} (hf : v.depth ≤ fuel) (hf' : v'.depth ≤ fuel) :
    ∃ r, l.equals l' true fuel = .ok r ∧ (r = true → v = v' ∧ es = es') := by
  obtain ⟨B, offs, pos, w, t, e, hl, hk, h8, ht, hlay, heB⟩ := h
  obtain ⟨B', offs', pos', w', t', e', hl', hk', h8', ht', hlay', heB'⟩ := h'
  obtain ⟨a1, a2⟩ := lay_tag hlay hk hc he
  obtain ⟨b1, b2⟩ := lay_tag hlay' hk' hc he'
  have hle := tagOf_le hc
  have g1 := getBytes_compact (offs := offs) (it := l.itemType) hlay hk (by omega) ht h8 heB hf
  have g2 := getBytes_compact (offs := offs') (it := l'.itemType) hlay' hk' (by omega) ht' h8' heB' hf'
  rw [← hl] at g1
  rw [← hl'] at g2
  obtain ⟨r, hr, hiff⟩ := equals_spec (innerId := true) hc g1 g2
  refine ⟨r, hr, fun hrt => ?_⟩
  obtain ⟨x, -, y⟩ := hiff.mp hrt
  have c1 : l.itemCount = ((listCount w : Nat) : Int) := by rw [hl]; exact listAt_count (by omega)
  have c2 : l'.itemCount = ((listCount w' : Nat) : Int) := by rw [hl']; exact listAt_count (by omega)
  rw [c1, c2] at x
  have hv := compact_bytes hlay hlay' hk hk' (by omega) (by omega) (by omega) ht ht' heB heB' y
  subst hv
  refine ⟨rfl, ?_⟩
  rw [he] at he'
  injection he'

/-! ## Lists of numbers -/

theorem valueOf_inj (fmt : Fmt) {a b : Bytes} (ha : a.length = fmt.size) (hb : b.length = fmt.size)
    (h : valueOf fmt a = valueOf fmt b) : a = b := by
  have hla := leNat_lt a
  have hlb := leNat_lt b
  have hn : leNat a = leNat b := by
    rw [ha] at hla
    rw [hb] at hlb
    unfold valueOf at h
    revert hla hlb h
    generalize leNat a = x
    generalize leNat b = y
    intro h hx hy
    unfold toSigned isSigned at h
    cases fmt <;> simp [Fmt.size] at h hx hy <;> (repeat' split at h) <;> omega
  have h1 := leBytes_leNat a
  have h2 := leBytes_leNat b
  rw [ha] at h1
  rw [hb] at h2
  rw [← h1, ← h2, hn]

theorem bytes_of_chunks {sz n : Nat} (hsz : 0 < sz) {a b : Bytes} (ha : a.length = sz * n)
    (hb : b.length = sz * n) (h : ∀ i, i < n → slice a (sz * i) sz = slice b (sz * i) sz) : a = b := by
  apply List.ext_getElem?
  intro k
  by_cases hk : k < sz * n
  · have hi : k / sz < n := Nat.div_lt_of_lt_mul hk
    have := congrArg (fun l : Bytes => l[k % sz]?) (h _ hi)
    simp only [slice_getElem?] at this
    rw [if_pos (Nat.mod_lt _ hsz), if_pos (Nat.mod_lt _ hsz), Nat.div_add_mod] at this
    exact this
  · rw [List.getElem?_eq_none (by omega), List.getElem?_eq_none (by omega)]

theorem lay_prim_length {B : Bytes} {pos w s e tag n : Nat} {bs : Bytes} (h : Lay true B pos w (.listPrim tag n bs) s e) :
    bs.length = primLen tag n := by
  generalize hv : Val.listPrim tag n bs = v at h
  cases h with
  | listPrim _ _ _ hk' hg ht hb hz =>
    injection hv with g1 g2 g3
    subst g1 g2 g3
    exact slice_length_of_le hb
  | _ => cases hv

theorem chunks_iff (fmt : Fmt) {n n' : Nat} {bs bs' : Bytes} (h : bs.length = fmt.size * n)
    (h' : bs'.length = fmt.size * n') :
    (n = n' ∧ bs = bs') ↔
      (List.range n).map (fun i => Elem.int (valueOf fmt (slice bs (fmt.size * i) fmt.size)))
        = (List.range n').map (fun i => Elem.int (valueOf fmt (slice bs' (fmt.size * i) fmt.size))) := by
  constructor
  · rintro ⟨rfl, rfl⟩; rfl
  · intro heq
    have hn := congrArg List.length heq
    simp only [List.length_map, List.length_range] at hn
    subst hn
    refine ⟨rfl, bytes_of_chunks (sz := fmt.size) (n := n) (by cases fmt <;> decide) h h' ?_⟩
    intro i hi
    have hmul : fmt.size * i + fmt.size ≤ fmt.size * n := by
      have := Nat.mul_le_mul_left fmt.size (show i + 1 ≤ n by omega)
      rw [Nat.mul_add, Nat.mul_one] at this
      exact this
    have := congrArg (fun l : List Elem => l[i]?) heq
    simp only [List.getElem?_map, List.getElem?_range hi, Option.map_some, Option.some.injEq, Elem.int.injEq] at this
    exact valueOf_inj fmt (slice_length_of_le (by omega)) (slice_length_of_le (by omega)) this

/-- C29: two lists of numbers (or of enums), wherever they come from, with zero
padding: they are equal exactly when they have the same elements. -/
theorem C29_numbers {l l' : ListObj} {v v' : Val} (h : CleanList l v) (h' : CleanList l' v')
    (hit : l.itemType = l'.itemType) (hc : (∃ fmt, l.itemType = .prim fmt) ∨ l.itemType = .enum)
    {es es' : List Elem} (he : elems l.itemType v = some es) (he' : elems l.itemType v' = some es')
    {fuel : Nat} (hf : 1 ≤ fuel) :
    ∃ r, l.equals l' true fuel = .ok r ∧ (r = true ↔ es = es') := by
  have key : ∀ (fmt : Fmt) (tag n n' : Nat) (bs bs' : Bytes), primLen tag n = fmt.size * n →
      primLen tag n' = fmt.size * n' →
      v = .listPrim tag n bs → v' = .listPrim tag n' bs' → l.itemType.canCompare = true →
      es = (List.range n).map (fun i => Elem.int (valueOf fmt (slice bs (fmt.size * i) fmt.size))) →
      es' = (List.range n').map (fun i => Elem.int (valueOf fmt (slice bs' (fmt.size * i) fmt.size))) →
      ∃ r, l.equals l' true fuel = .ok r ∧ (r = true ↔ es = es') := by
    intro fmt tag n n' bs bs' hp hp' hv hv' hcc hes hes'
    subst hv hv'
    obtain ⟨r, hr, hiff⟩ := C29_clean h h' hit hcc he he' (by simp [Val.NoEmpty]) (by simp [Val.NoEmpty]) hf hf
    refine ⟨r, hr, hiff.trans ?_⟩
    obtain ⟨_, _, _, _, _, _, _, _, _, _, hlay, _⟩ := h
    obtain ⟨_, _, _, _, _, _, _, _, _, _, hlay', _⟩ := h'
    have q := chunks_iff fmt ((lay_prim_length hlay).trans hp) ((lay_prim_length hlay').trans hp')
    rw [hes, hes', ← q]
    constructor
    · intro hv; injection hv with _ g2 g3; exact ⟨g2, g3⟩
    · rintro ⟨rfl, rfl⟩; rfl
  rcases hc with ⟨fmt, hfmt⟩ | henum
  · rw [hfmt] at he he' 
    unfold elems at he he'
    cases v with
    | listPrim tag n bs =>
      cases v' with
      | listPrim tag' n' bs' =>
        simp only at he he'
        split at he
        · split at he'
          · next h1 h2 =>
            subst h1 h2
            cases he; cases he'
            exact key fmt _ n n' bs bs' (primLen_fmtTag _ _) (primLen_fmtTag _ _) rfl rfl
              (by rw [hfmt]; rfl) rfl rfl
          · cases he'
        · cases he
      | _ => cases he'
    | _ => cases he
  · rw [henum] at he he' 
    unfold elems at he he'
    cases v with
    | listPrim tag n bs =>
      cases v' with
      | listPrim tag' n' bs' =>
        simp only at he he'
        split at he
        · split at he'
          · next h1 h2 =>
            subst h1 h2
            cases he; cases he'
            exact key .h _ n n' bs bs' (by simp [primLen, Fmt.size]) (by simp [primLen, Fmt.size]) rfl rfl
              (by rw [henum]; rfl) rfl rfl
          · cases he'
        · cases he
      | _ => cases he'
    | _ => cases he

/-! ## Constructed lists -/

theorem forall₂_inj {α β} {R : α → β → Prop} {xs xs' : List α} {ys ys' : List β}
    (h : List.Forall₂ R xs ys) (h' : List.Forall₂ R xs' ys')
    (hiff : ∀ x y x' y', R x y → R x' y' → (y = y' ↔ x = x')) : ys = ys' ↔ xs = xs' := by
  induction h generalizing xs' ys' with
  | nil =>
    cases h' with
    | nil => simp
    | cons => simp
  | cons hx _ ih =>
    cases h' with
    | nil => simp
    | cons hx' hr' =>
      rw [List.cons.injEq, List.cons.injEq, hiff _ _ _ _ hx hx', ih hr']

theorem nums_inj (fmt : Fmt) {is is' : List Int} (h : ∀ i ∈ is, InRange fmt i) (h' : ∀ i ∈ is', InRange fmt i)
    (tag : Nat) :
    Val.listPrim tag is.length (is.flatMap (numBytes fmt)) = .listPrim tag is'.length (is'.flatMap (numBytes fmt)) ↔
      is.map PyItem.int = is'.map PyItem.int := by
  constructor
  · intro hv
    injection hv with _ g2 g3
    refine congrArg _ ?_
    apply List.ext_getElem?
    intro k
    by_cases hk : k < is.length
    · have hk' : k < is'.length := by omega
      have e1 := List.getElem?_eq_getElem hk
      have e2 := List.getElem?_eq_getElem hk'
      rw [e1, e2]
      refine congrArg some ?_
      have s1 := slice_flatMap fmt is k _ e1
      have s2 := slice_flatMap fmt is' k _ e2
      rw [g3, s2] at s1
      rw [← numBytes_value fmt _ (h _ (List.mem_of_getElem? e1)),
        ← numBytes_value fmt _ (h' _ (List.mem_of_getElem? e2)), s1]
    · rw [List.getElem?_eq_none (by omega), List.getElem?_eq_none (by omega)]
  · intro hx
    have : is = is' := by
      have := congrArg (List.map fun x => match x with | PyItem.int i => i | _ => 0) hx
      simp only [List.map_map] at this
      have hid : (fun x => match x with | PyItem.int i => i | _ => 0) ∘ PyItem.int = (id : Int → Int) := rfl
      rw [hid, List.map_id, List.map_id] at this
      exact this
    rw [this]

theorem listVal_ne_null {it : ItemType} {ys : List PyItem} {u : Val} (hu : ListVal it ys u) : u ≠ .null :=
  (listVal_shape hu).1

/-- Different Python lists stand for different values. -/
theorem listVal_inj : ∀ {it : ItemType}, Plain it → ∀ {xs xs' : List PyItem} {v v' : Val}, ListVal it xs v →
    ListVal it xs' v' → (v = v' ↔ xs = xs') := by
  intro it
  induction it with
  | void => intro h; exact h.elim
  | bool => intro h; exact h.elim
  | struct => intro h; exact h.elim
  | prim fmt =>
    rintro - xs xs' v v' ⟨is, rfl, h, rfl⟩ ⟨is', rfl, h', rfl⟩
    exact nums_inj fmt h h' _
  | enum =>
    rintro - xs xs' v v' ⟨is, rfl, h, rfl⟩ ⟨is', rfl, h', rfl⟩
    exact nums_inj .h h h' _
  | text =>
    rintro - xs xs' v v' ⟨vs, h, rfl⟩ ⟨vs', h', rfl⟩
    rw [Val.listPtr.injEq]
    refine forall₂_inj h h' ?_
    intro x y x' y' hx hx'
    cases x with
    | none =>
      cases hx
      cases x' with
      | none => cases hx'; simp
      | bytes s => cases hx'; simp
      | _ => exact hx'.elim
    | bytes s =>
      cases hx
      cases x' with
      | none => cases hx'; simp
      | bytes s' =>
        cases hx'
        rw [PyItem.bytes.injEq, Val.listPrim.injEq]
        constructor
        · rintro ⟨-, -, h3⟩; exact List.append_cancel_right h3
        · rintro rfl; exact ⟨rfl, rfl, rfl⟩
      | _ => exact hx'.elim
    | _ => exact hx.elim
  | data =>
    rintro - xs xs' v v' ⟨vs, h, rfl⟩ ⟨vs', h', rfl⟩
    rw [Val.listPtr.injEq]
    refine forall₂_inj h h' ?_
    intro x y x' y' hx hx'
    cases x with
    | none =>
      cases hx
      cases x' with
      | none => cases hx'; simp
      | bytes s => cases hx'; simp
      | _ => exact hx'.elim
    | bytes s =>
      cases hx
      cases x' with
      | none => cases hx'; simp
      | bytes s' =>
        cases hx'
        rw [PyItem.bytes.injEq, Val.listPrim.injEq]
        constructor
        · rintro ⟨-, -, h3⟩; exact h3
        · rintro rfl; exact ⟨rfl, rfl, rfl⟩
      | _ => exact hx'.elim
    | _ => exact hx.elim
  | list inner ih =>
    rintro hp xs xs' v v' ⟨vs, h, rfl⟩ ⟨vs', h', rfl⟩
    rw [Val.listPtr.injEq]
    refine forall₂_inj h h' ?_
    intro x y x' y' hx hx'
    cases x with
    | none =>
      cases hx
      cases x' with
      | none => cases hx'; simp
      | list s =>
        have : y' ≠ .null := listVal_ne_null (it := inner) hx'
        constructor
        · intro e; exact absurd e.symm this
        · intro e; cases e
      | _ => exact hx'.elim
    | list s =>
      cases x' with
      | none =>
        cases hx'
        have : y ≠ .null := listVal_ne_null (it := inner) hx
        constructor
        · intro e; exact absurd e this
        · intro e; cases e
      | list s' =>
        rw [PyItem.list.injEq]
        exact ih hp (xs := s) (xs' := s') hx hx'
      | _ => exact hx'.elim
    | _ => exact hx.elim

/-- Values of plain lists contain no structs. -/
theorem plain_noEmpty : ∀ {it : ItemType}, Plain it → ∀ {xs : List PyItem} {v : Val}, ListVal it xs v → v.NoEmpty := by
  have all : ∀ {R : PyItem → Val → Prop}, (∀ x y, R x y → y.NoEmpty) → ∀ {xs : List PyItem} {vs : List Val},
      List.Forall₂ R xs vs → Val.AllNoEmpty vs := by
    intro R hR xs vs h
    induction h with
    | nil => simp [Val.AllNoEmpty]
    | cons hx _ ih => simp only [Val.AllNoEmpty]; exact ⟨hR _ _ hx, ih⟩
  intro it
  induction it with
  | void => intro h; exact h.elim
  | bool => intro h; exact h.elim
  | struct => intro h; exact h.elim
  | prim fmt => rintro - xs v ⟨is, rfl, h, rfl⟩; simp [Val.NoEmpty]
  | enum => rintro - xs v ⟨is, rfl, h, rfl⟩; simp [Val.NoEmpty]
  | text =>
    rintro - xs v ⟨vs, h, rfl⟩
    simp only [Val.NoEmpty]
    refine all ?_ h
    intro x y hx
    cases x with
    | none => cases hx; simp [Val.NoEmpty]
    | bytes s => cases hx; simp [Val.NoEmpty]
    | _ => exact hx.elim
  | data =>
    rintro - xs v ⟨vs, h, rfl⟩
    simp only [Val.NoEmpty]
    refine all ?_ h
    intro x y hx
    cases x with
    | none => cases hx; simp [Val.NoEmpty]
    | bytes s => cases hx; simp [Val.NoEmpty]
    | _ => exact hx.elim
  | list inner ih =>
    rintro hp xs v ⟨vs, h, rfl⟩
    simp only [Val.NoEmpty]
    refine all ?_ h
    intro x y hx
    cases x with
    | none => cases hx; simp [Val.NoEmpty]
    | list s => exact ih hp (xs := s) hx
    | _ => exact hx.elim

theorem allSome_total {α β} {R : α → β → Prop} {γ} {f : β → Option γ} {xs : List α} {ys : List β}
    (h : List.Forall₂ R xs ys) (hf : ∀ x y, R x y → ∃ e, f y = some e) : ∃ es, allSome f ys = some es := by
  refine allSome_of ?_
  intro i u hu
  have hi : i < xs.length := by rw [forall₂_length h]; exact (List.getElem?_eq_some_iff.mp hu).1
  exact hf _ _ (forall₂_get h i _ u (List.getElem?_eq_getElem hi) hu)

theorem listVal_elems : ∀ {it : ItemType}, Plain it → ∀ {xs : List PyItem} {v : Val}, ListVal it xs v →
    ∃ es, elems it v = some es := by
  intro it
  cases it with
  | void => intro h; exact h.elim
  | bool => intro h; exact h.elim
  | struct => intro h; exact h.elim
  | prim fmt => rintro - xs v ⟨is, rfl, h, rfl⟩; unfold elems; exact ⟨_, if_pos rfl⟩
  | enum => rintro - xs v ⟨is, rfl, h, rfl⟩; unfold elems; exact ⟨_, if_pos rfl⟩
  | text =>
    rintro - xs v ⟨vs, h, rfl⟩
    refine allSome_total h ?_
    intro x y hx
    cases x with
    | none => cases hx; exact ⟨_, rfl⟩
    | bytes s => cases hx; exact ⟨_, by unfold textElem; exact if_pos (by omega)⟩
    | _ => exact hx.elim
  | data =>
    rintro - xs v ⟨vs, h, rfl⟩
    refine allSome_total h ?_
    intro x y hx
    cases x with
    | none => cases hx; exact ⟨_, rfl⟩
    | bytes s => cases hx; exact ⟨_, rfl⟩
    | _ => exact hx.elim
  | list inner =>
    rintro hp xs v ⟨vs, h, rfl⟩
    refine allSome_total h ?_
    intro x y hx
    cases x with
    | none => cases hx; exact ⟨_, rfl⟩
    | list s =>
      obtain ⟨h1, h2⟩ := listVal_shape (it := inner) hx
      cases y with
      | null => exact absurd rfl h1
      | struct d p => exact absurd rfl (h2 d p)
      | _ => exact ⟨_, rfl⟩
    | _ => exact hx.elim

theorem lay_list_start {B : Bytes} {pos w s e : Nat} {v : Val} (h : Lay true B pos w v s e) (s1 : v ≠ .null)
    (s2 : ∀ d p, v ≠ .struct d p) : kind w = 1 ∧ target pos w = s := by
  cases h with
  | null => exact absurd rfl s1
  | empty => exact absurd rfl (s2 _ _)
  | struct => exact absurd rfl (s2 _ _)
  | listPrim _ _ _ a _ c => exact ⟨a, c⟩
  | listPtr _ _ _ _ _ _ a _ c => exact ⟨a, c⟩
  | listComp _ _ _ _ _ _ _ _ _ a _ c => exact ⟨a, c⟩

/-- A list read from the slot it was constructed in is clean. -/
theorem constructed_clean {it : ItemType} {xs : List PyItem} {v : Val} (hv : ListVal it xs v) (hf : v.Fits)
    {fuel : Nat} (hfuel : 2 * v.depth ≤ fuel + 2) (b : Bytes) (t ds ps j : Nat) (h8 : 8 ∣ b.length)
    (ht : 8 ∣ t) (hj : j < ps) (hb : t + 8 * (ds + ps) ≤ b.length) (hL : b.length + v.size ≤ 2 ^ 32) {b' : Bytes}
    {l : ListObj} (hw : copyFromList fuel it ((t + 8 * ds + 8 * j : Nat) : Int) (some xs) b = .ok () b')
    (hr : (objAt b' none t ds ps).readList ((8 * j : Nat) : Int) it = .ok (some l)) :
    CleanList l v ∧ l.itemType = it := by
  obtain ⟨b'', h1, post⟩ := copyList_spec fuel it xs v hv hf hfuel b (t + 8 * ds + 8 * j) (by omega) (by omega)
    h8 hL
  have : b'' = b' := by
    have h2 := h1.symm.trans hw
    injection h2
  subst this
  have hlen := post.len
  have hlay := post.lay b'' (le_refl _) (fun _ _ _ => rfl)
  have hden := hlay.den none (by omega)
  obtain ⟨s1, s2⟩ := listVal_shape hv
  have hk : kind (wordAt b'' (t + 8 * ds + 8 * j)) = 1 ∧
      target ((t + 8 * ds + 8 * j : Nat) : Int) (wordAt b'' (t + 8 * ds + 8 * j)) = (b.length : Nat) := lay_list_start hlay s1 s2
  obtain ⟨hk1, hk2⟩ := hk
  obtain ⟨l', r1, r2, r3⟩ := readList_slot' ht hj (by omega) hden s1 s2 it hk2
  have : l = l' := by
    have h2 := hr.symm.trans r1
    injection h2 with h2
    injection h2
  subst this
  refine ⟨⟨b'', none, _, wordAt b'' (t + 8 * ds + 8 * j), b.length, b''.length, ?_, hk1, h8, by omega, hlay, le_refl _⟩, r2⟩
  rw [r2]; exact r3

/-- C29: two lists of numbers, enums, texts, data or lists of such lists, each
written by a constructor from a Python list and read back: comparing them does not
raise and gives True exactly when the two Python lists are equal.  (`innerId` is
true: for lists of lists see `C29_nested_never_equal`.) -/
theorem C29_constructed {it : ItemType} (hp : Plain it) {fuel : Nat}
    {xs : List PyItem} {v : Val} (hv : ListVal it xs v) (hf : v.Fits) (hfuel : 2 * v.depth ≤ fuel + 2)
    {b b' : Bytes} {t ds ps j : Nat} (h8 : 8 ∣ b.length) (ht : 8 ∣ t) (hj : j < ps)
    (hb : t + 8 * (ds + ps) ≤ b.length) (hL : b.length + v.size ≤ 2 ^ 32) {l : ListObj}
    (hw : copyFromList fuel it ((t + 8 * ds + 8 * j : Nat) : Int) (some xs) b = .ok () b')
    (hr : (objAt b' none t ds ps).readList ((8 * j : Nat) : Int) it = .ok (some l))
    {xs₁ : List PyItem} {v₁ : Val} (hv₁ : ListVal it xs₁ v₁) (hf₁ : v₁.Fits) (hfuel₁ : 2 * v₁.depth ≤ fuel + 2)
    {b₁ b₁' : Bytes} {t₁ ds₁ ps₁ j₁ : Nat} (h8₁ : 8 ∣ b₁.length) (ht₁ : 8 ∣ t₁) (hj₁ : j₁ < ps₁)
    (hb₁ : t₁ + 8 * (ds₁ + ps₁) ≤ b₁.length) (hL₁ : b₁.length + v₁.size ≤ 2 ^ 32) {l₁ : ListObj}
    (hw₁ : copyFromList fuel it ((t₁ + 8 * ds₁ + 8 * j₁ : Nat) : Int) (some xs₁) b₁ = .ok () b₁')
    (hr₁ : (objAt b₁' none t₁ ds₁ ps₁).readList ((8 * j₁ : Nat) : Int) it = .ok (some l₁))
    {n : Nat} (hn : v.depth ≤ n) (hn₁ : v₁.depth ≤ n) :
    ∃ r, l.equals l₁ true n = .ok r ∧ (r = true ↔ xs = xs₁) := by
  obtain ⟨c1, c2⟩ := constructed_clean hv hf hfuel b t ds ps j h8 ht hj hb hL hw hr
  obtain ⟨d1, d2⟩ := constructed_clean hv₁ hf₁ hfuel₁ b₁ t₁ ds₁ ps₁ j₁ h8₁ ht₁ hj₁ hb₁ hL₁ hw₁ hr₁
  obtain ⟨es, he⟩ := listVal_elems hp hv
  obtain ⟨es₁, he₁⟩ := listVal_elems hp hv₁
  have hc : it.canCompare = true := by
    cases it <;> first | rfl | exact hp.elim
  obtain ⟨r, hr, hiff⟩ := C29_clean c1 d1 (by rw [c2, d2]) (by rw [c2]; exact hc) (by rw [c2]; exact he)
    (by rw [c2]; exact he₁) (plain_noEmpty hp hv) (plain_noEmpty hp hv₁) hn hn₁
  exact ⟨r, hr, hiff.trans (listVal_inj hp hv hv₁)⟩

/-! ## Comparing with a Python list -/

theorem itemDenotes_scalar {x y : Item} {e : Elem} (hs : ∀ u, e ≠ .val u) (h : ItemDenotes y e) :
    ItemDenotes x e ↔ y = x := by
  cases e with
  | val u => exact absurd rfl (hs u)
  | none =>
    cases y with
    | none => cases x <;> simp [ItemDenotes]
    | _ => exact h.elim
  | bool b =>
    cases y with
    | bool b' =>
      cases h
      cases x <;> simp [ItemDenotes, eq_comm]
    | _ => exact h.elim
  | int b =>
    cases y with
    | int b' =>
      cases h
      cases x <;> simp [ItemDenotes, eq_comm]
    | _ => exact h.elim
  | bytes b =>
    cases y with
    | bytes b' =>
      cases h
      cases x <;> simp [ItemDenotes, eq_comm]
    | _ => exact h.elim

/-- C29: comparing a list of scalars (void, bool, numbers, enums, texts, data) with
a Python list gives True exactly when the Python list has the same items, whatever
the layout of the message. -/
theorem C29_python_list {l : ListObj} {v : Val} (h : ListDenotes l v) {es : List Elem}
    (he : elems l.itemType v = some es) (hc : l.itemType.canCompare = true) (hs : ∀ e ∈ es, ∀ u, e ≠ .val u)
    (other : List Item) : ∃ r, l.equalsPy other = .ok r ∧ (r = true ↔ List.Forall₂ ItemDenotes other es) := by
  obtain ⟨ys, h1, h2⟩ := C27_iter h he
  unfold ListObj.equalsPy
  rw [if_neg (by rw [hc]; decide), bind_okP h1]
  refine ⟨_, rfl, ?_⟩
  rw [decide_eq_true_iff]
  clear h1 he
  induction h2 generalizing other with
  | nil =>
    cases other with
    | nil => simp
    | cons => exact ⟨fun h => (by cases h), fun h => (by cases h)⟩
  | cons hx _ ih =>
    cases other with
    | nil => exact ⟨fun h => (by cases h), fun h => (by cases h)⟩
    | cons x xs =>
      rw [List.cons.injEq, List.forall₂_cons, ih (fun e he => hs e (List.mem_cons_of_mem _ he)) xs,
        itemDenotes_scalar (hs _ List.mem_cons_self) hx]

example : ∃ r, textsList.equalsPy [.bytes [97, 98], .none, .bytes []] = .ok r ∧ r = true := by
  obtain ⟨r, h1, h2⟩ := C29_python_list textsList_denotes texts_elems rfl
    (by intro e he u hu; subst hu; simp at he) [.bytes [97, 98], .none, .bytes []]
  exact ⟨r, h1, h2.mpr (.cons rfl (.cons trivial (.cons rfl .nil)))⟩

/-- C29: lists of structs cannot be compared. -/
theorem C29_structs_raise {l : ListObj} {d p : Int} (h : l.itemType = .struct d p) (l' : ListObj) (b : Bool) (n : Nat) :
    l.equals l' b n = .error .typeError := by
  unfold ListObj.equals
  rw [h]
  rfl

/-! ## Non-vacuity -/

example : ∃ (b b' : Bytes) (l l' : ListObj),
    copyFromList 10 .text ((8 : Nat) : Int) (some [.bytes [97], .none]) (List.replicate 16 0) = .ok () b ∧
    copyFromList 10 .text ((8 : Nat) : Int) (some [.bytes [97], .bytes []]) (List.replicate 16 0) = .ok () b' ∧
    (objAt b none 0 1 1).readList ((8 * 0 : Nat) : Int) .text = .ok (some l) ∧
    (objAt b' none 0 1 1).readList ((8 * 0 : Nat) : Int) .text = .ok (some l') ∧
    l.equals l true 5 = .ok true ∧ l.equals l' true 5 = .ok false := by
  have v1 : ListVal .text [.bytes [97], .none] (.listPtr [.listPrim 2 2 [97, 0], .null]) :=
    ⟨_, .cons rfl (.cons rfl .nil), rfl⟩
  have v2 : ListVal .text [.bytes [97], .bytes []] (.listPtr [.listPrim 2 2 [97, 0], .listPrim 2 1 [0]]) :=
    ⟨_, .cons rfl (.cons rfl .nil), rfl⟩
  have f1 : (Val.listPtr [.listPrim 2 2 [97, 0], .null]).Fits := by simp [Val.Fits, Val.AllFits]
  have f2 : (Val.listPtr [.listPrim 2 2 [97, 0], .listPrim 2 1 [0]]).Fits := by simp [Val.Fits, Val.AllFits]
  obtain ⟨b, l, _, h1, h2, _⟩ := C28_roundtrip (fuel := 10) v1 f1 (by decide) (List.replicate 16 0) 0 1 1 0
    (by decide) (by decide) (by decide) (by decide) (by decide)
  obtain ⟨b', l', _, h1', h2', _⟩ := C28_roundtrip (fuel := 10) v2 f2 (by decide) (List.replicate 16 0) 0 1 1 0
    (by decide) (by decide) (by decide) (by decide) (by decide)
  obtain ⟨r, hr, hri⟩ := C29_constructed (it := .text) trivial v1 f1 (by decide) (by decide) (by decide) (by decide)
    (by decide) (by decide) h1 h2 v1 f1 (by decide) (by decide) (by decide) (by decide) (by decide) (by decide)
    h1 h2 (n := 5) (by decide) (by decide)
  obtain ⟨r', hr', hri'⟩ := C29_constructed (it := .text) trivial v1 f1 (by decide) (by decide) (by decide) (by decide)
    (by decide) (by decide) h1 h2 v2 f2 (by decide) (by decide) (by decide) (by decide) (by decide) (by decide)
    h1' h2' (n := 5) (by decide) (by decide)
  refine ⟨b, b', l, l', h1, h1', h2, h2', by rw [hr, hri.mpr rfl], ?_⟩
  rw [hr']
  have : r' ≠ true := by
    intro h; have := hri'.mp h; simp at this
  rw [Bool.eq_false_iff.mpr this]

/-! ## Findings -/

/-- A list of one int16, `1`, with garbage `g` after it. -/
def padList (g : UInt8) : ListObj :=
  listAt (leBytes 8 (listWord 0 3 1) ++ [1, 0, 0, 0, 0, 0, 0, g]) none 8 (listWord 0 3 1) (.prim .h)

example : CompactList (padList 7) (.listPrim 3 1 [1, 0]) :=
  ⟨_, none, 0, listWord 0 3 1, 8, 16, rfl, by decide, by decide, by decide,
    .listPrim 0 (listWord 0 3 1) 8 (by decide) (by decide) (by decide) (by decide) (by intro h; cases h),
    by decide⟩

/-- Finding: `==` includes the padding after the last item, so two lists with the
same items, from two messages, may compare different. -/
theorem C29_padding_garbage : (padList 0).toList = (padList 7).toList ∧ (padList 0).toList = .ok [.int 1] ∧
    (padList 0).equals (padList 7) true 5 = .ok false := by
  refine ⟨?_, ?_, ?_⟩ <;> decide +kernel

/-- A list of one data item of 8 bytes, with a word of garbage before it. -/
def gapList (x : UInt8) : ListObj :=
  listAt (leBytes 8 (listWord 0 6 1) ++ leBytes 8 (listWord 1 2 8) ++ leBytes 8 0 ++ [1, 2, 3, 4, 5, 6, 7, x])
    none 8 (listWord 0 6 1) .data

/-- Finding: for a list that is not compact `_get_end` returns -1, and `==` compares
`buf[start:-1]`: everything up to the last byte of the message, excluded.  Two lists
with different items may compare equal... -/
theorem C29_false_positive : (gapList 8).toList = .ok [.bytes [1, 2, 3, 4, 5, 6, 7, 8]] ∧
    (gapList 9).toList = .ok [.bytes [1, 2, 3, 4, 5, 6, 7, 9]] ∧
    (gapList 8).equals (gapList 9) true 5 = .ok true := by
  refine ⟨?_, ?_, ?_⟩ <;> decide +kernel

/-- The same list as `gapList 8`, without the gap. -/
def noGapList : ListObj :=
  listAt (leBytes 8 (listWord 0 6 1) ++ leBytes 8 (listWord 0 2 8) ++ [1, 2, 3, 4, 5, 6, 7, 8])
    none 8 (listWord 0 6 1) .data

/-- ... and two lists with the same items may compare different. -/
theorem C29_false_negative : (gapList 8).toList = noGapList.toList ∧
    (gapList 8).equals noGapList true 5 = .ok false := by
  refine ⟨?_, ?_⟩ <;> decide +kernel

/-- Finding: in pure Python, a list of lists of numbers, texts, data or lists read
from a struct is never equal to another one, not even to one read from the same
field of the same struct: each access creates a new inner item type (`innerIsGlobal`
is false), and item types are compared by identity. -/
theorem C29_nested_never_equal {l l' : ListObj} {inner : ItemType} (h : l.itemType = .list inner)
    (h' : l'.itemType = .list inner) (_hi : ListObj.innerIsGlobal inner = false) (n : Nat) :
    l.equals l' (ListObj.innerIsGlobal inner) n = .ok false := by
  unfold ListObj.equals
  rw [h, h', _hi]
  rw [if_neg (by simp [ItemType.canCompare]), if_neg]
  rintro ⟨-, h2⟩
  simp [ListObj.sameGetType] at h2

/-- A list of a null list, and a list of an empty list of int8. -/
def nullInner : ListObj := listAt (leBytes 8 (listWord 0 6 1) ++ leBytes 8 0) none 8 (listWord 0 6 1) (.list (.prim .b))
def emptyInner : ListObj :=
  listAt (leBytes 8 (listWord 0 6 1) ++ leBytes 8 (listWord 0 2 0)) none 8 (listWord 0 6 1) (.list (.prim .b))

/-- Finding: `[None]` and `[[]]` both read as a list of one empty list, but are not
equal. -/
theorem C29_null_is_not_empty : ∃ a b : ListObj, nullInner.getItem 0 = .ok (.list a) ∧ a.toList = .ok [] ∧
    emptyInner.getItem 0 = .ok (.list b) ∧ b.toList = .ok [] ∧ nullInner.equals emptyInner true 5 = .ok false :=
  ⟨listAt (leBytes 8 (listWord 0 6 1) ++ leBytes 8 0) none 16 0 (.prim .b),
    listAt (leBytes 8 (listWord 0 6 1) ++ leBytes 8 (listWord 0 2 0)) none 16 (listWord 0 2 0) (.prim .b),
    by decide +kernel, by decide +kernel, by decide +kernel, by decide +kernel, by decide +kernel⟩

end Capnpy.Props
