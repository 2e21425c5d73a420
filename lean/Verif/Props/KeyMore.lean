import Verif.Proof.KeyMore
import Verif.Props.KeyRead

/-!
# C74: keys with floats and lists

The key of a value is `Spec.keyOfM` (Spec/KeyMore.lean): numbers are rational numbers, whatever their type in the
schema is.  The hash contract holds for keys without lists; for keys with lists it does not.
-/

namespace Capnpy.Props

open Key Hash Spec KeyMore
open Capnpy.Repr (Env Kind RField RItem)

/-- C74: comparing two messages that have keys (and are tidy, if there are lists in the keys) does not raise and says
whether the keys are the same. -/
theorem C74_eq (lists : Bool) (E : Env) (ks : Nat → Option (List RField)) (m n fuel : Nat) (hn : 2 ≤ n) (hfuel : 5 * (m + 1) ≤ fuel)
    (c1 c2 : Nat) (o1 o2 : StructObj) (v1 v2 : Val) (h1 : Denotes o1 v1) (h2 : Denotes o2 v2)
    (t1 : lists = true → Tidy o1 v1) (t2 : lists = true → Tidy o2 v2) (k1 k2 : KVal)
    (hk1 : keyOfM lists E ks m c1 v1 = some k1) (hk2 : keyOfM lists E ks m c2 v2 = some k2) (i : Nat) :
    ∃ r, KeyMore.eqObjects E ks m n fuel c1 o1 c2 o2 i = .ok r ∧ (r = true ↔ k1 = k2) := by
  obtain ⟨x, i1, hx, a1, a2, -⟩ := KeyMore.objectOf_spec lists E ks m c1 v1 k1 hk1 o1 h1 t1 i
  obtain ⟨y, i2, hy, b1, b2, -⟩ := KeyMore.objectOf_spec lists E ks m c2 v2 k2 hk2 o2 h2 t2 i1
  obtain ⟨r, hr, hi⟩ := KeyMore.pyEq_spec hn fuel x y k1 k2 a1 b1 (by omega) (by omega)
  refine ⟨r, ?_, hi⟩
  unfold KeyMore.eqObjects
  rw [bind_okP hx]
  simp only []
  rw [bind_okP hy]
  exact hr

/-- C74: messages whose keys have floats but no lists: two messages that are equal have the same hash, whenever it is
computed; in the pure and in the compiled version. -/
theorem C74_hash (E : Env) (H : KeyMore.HashEnv) (ks : Nat → Option (List RField)) (m n fuel : Nat) (hn : 2 ≤ n)
    (hfuel : 5 * (m + 1) ≤ fuel) (c1 c2 : Nat) (o1 o2 : StructObj) (v1 v2 : Val) (h1 : Denotes o1 v1) (h2 : Denotes o2 v2) (k1 k2 : KVal)
    (hk1 : keyOfM false E ks m c1 v1 = some k1) (hk2 : keyOfM false E ks m c2 v2 = some k2) (i j j' : Nat)
    (h : KeyMore.eqObjects E ks m n fuel c1 o1 c2 o2 i = .ok true) :
    ∃ x, KeyMore.hashObject E H ks m c1 o1 j = .ok x ∧ KeyMore.hashObject E H ks m c2 o2 j' = .ok x := by
  obtain ⟨r, hr, hi⟩ := C74_eq false E ks m n fuel hn hfuel c1 c2 o1 o2 v1 v2 h1 h2 (by simp) (by simp) k1 k2 hk1 hk2 i
  rw [h] at hr
  injection hr with hr
  subst hr
  obtain rfl := hi.mp rfl
  have key : ∀ c o v, Denotes o v → keyOfM false E ks m c v = some k1 → ∀ j,
      KeyMore.hashObject E H ks m c o j = .ok (KeyMore.valHash H k1) := by
    intro c o v ho hk j
    obtain ⟨x, i1, hx, a1, a2, a3⟩ := KeyMore.objectOf_spec false E ks m c v k1 hk o ho (by simp) j
    unfold KeyMore.hashObject
    rw [bind_okP hx]
    exact KeyMore.pyHash_spec H x k1 a1 (a3 rfl)
  exact ⟨_, key c1 o1 v1 h1 hk1 j, key c2 o2 v2 h2 hk2 j'⟩

/-- C74: `compact()` makes a message tidy. -/
theorem C74_compact {o : StructObj} {v : Val} (ho : Denotes o v) (hf : v.Fits) (hlen : o.seg.buf.length ≤ 2 ^ 32)
    (hsz : 8 + v.size ≤ 2 ^ 32) {fuel : Nat} (hfuel : 2 * v.depth ≤ fuel + 1) :
    ∃ o', o.compact fuel = .ok o' ∧ Tidy o' v :=
  compact_tidy ho hf hlen hsz hfuel

/-- C74: a tidy message has the value it says it has, and the messages in it are tidy. -/
theorem C74_tidy {o : StructObj} {data : Bytes} {ptrs : List Val} (h : Tidy o (.struct data ptrs)) :
    Denotes o (.struct data ptrs) ∧ ∀ (j : Nat) d p, ptrs[j]? = some (.struct d p) →
      ∃ o', o.readStruct ((8 * j : Nat) : Int) = .ok (some o') ∧ Tidy o' (.struct d p) :=
  ⟨Tidy.denotes h, fun _ _ _ hj => tidy_struct h hj⟩

/-- C74: the hash of a finite float is that of the rational number, and so is that of an integer: so `hash(2.0)` is
`hash(2)`. -/
theorem C74_number_hash (H : KeyMore.HashEnv) (fmt : Fmt) (bits : Nat) (q : ℚ) (hq : floatKey fmt bits = some (.num q)) (i : Nat) (z : Int) :
    KeyMore.pyHash H (.float (floatOf fmt (bits : Int)) i) = .ok (BitVec.ofInt 64 (pyRatHash q)) ∧
    KeyMore.pyHash H (.int z) = .ok (BitVec.ofInt 64 (pyRatHash (z : ℚ))) := by
  constructor
  · have h := KeyMore.pyHash_spec H _ _ ((floatOf_spec hq).2 i) (by simp [Listless])
    rw [h]
    simp only [KeyMore.valHash]
  · have h := KeyMore.pyHash_spec H (.int z) (.num z) (by simp [Is]) (by simp [Listless])
    rw [h]
    simp only [KeyMore.valHash]

/-! ## NaN -/

theorem nan_ne (n fuel i : Nat) (y : Obj) :
    KeyMore.pyEq n fuel (.float .nan i) y ≠ .ok true ∧ KeyMore.pyEq n fuel y (.float .nan i) ≠ .ok true := by
  cases fuel with
  | zero => constructor <;> (intro h; simp [KeyMore.pyEq] at h)
  | succ fuel =>
    have hs : ∀ s : Obj, KeyMore.structEquals n fuel s (.float .nan i) ≠ .ok true := by
      intro s h
      cases fuel <;> simp [KeyMore.structEquals] at h
    have hl : ∀ l, listEq n l (.float .nan i) ≠ .ok true := by
      intro l h
      unfold listEq at h
      simp only [] at h
      split at h <;> cases h
    cases y with
    | keyed k => simp only [KeyMore.pyEq]; exact ⟨hs _, hs _⟩
    | unkeyed => simp only [KeyMore.pyEq]; exact ⟨hs _, hs _⟩
    | list l j => simp only [KeyMore.pyEq]; exact ⟨hl _, hl _⟩
    | float v j => cases v <;> simp [KeyMore.pyEq, FVal.eq]
    | _ => simp [KeyMore.pyEq, FVal.eq]

theorem tuple_nan (n fuel i : Nat) : ∀ (xs ys : List Obj), Obj.float .nan i ∈ xs →
    KeyMore.tupleEq n fuel xs ys ≠ .ok true ∧ KeyMore.tupleEq n fuel ys xs ≠ .ok true
  | [], _, h => by cases h
  | x :: xs, [], _ => by simp [KeyMore.tupleEq]
  | x :: xs, y :: ys, h => by
    have step : ∀ a b as bs, KeyMore.pyEq n fuel a b ≠ .ok true ∨ KeyMore.tupleEq n fuel as bs ≠ .ok true →
        KeyMore.tupleEq n fuel (a :: as) (b :: bs) ≠ .ok true := by
      intro a b as bs hab
      simp only [KeyMore.tupleEq]
      cases hp : KeyMore.pyEq n fuel a b with
      | error e => simp
      | ok r =>
        cases r with
        | false => simp
        | true =>
          rcases hab with h' | h'
          · exact absurd hp h'
          · exact h'
    rcases List.mem_cons.mp h with rfl | h
    · exact ⟨step _ _ _ _ (.inl (nan_ne n fuel i y).1), step _ _ _ _ (.inl (nan_ne n fuel i y).2)⟩
    · obtain ⟨a, b⟩ := tuple_nan n fuel i xs ys h
      exact ⟨step _ _ _ _ (.inr a), step _ _ _ _ (.inr b)⟩

theorem tuple_obj_nan (n : Nat) {i : Nat} {xs : List Obj} (h : Obj.float .nan i ∈ xs) : ∀ (fuel : Nat) (b : Obj),
    KeyMore.pyEq n fuel (.tuple xs) b ≠ .ok true ∧ KeyMore.pyEq n fuel b (.tuple xs) ≠ .ok true ∧
    KeyMore.pyEq n fuel (.keyed xs) b ≠ .ok true ∧ KeyMore.pyEq n fuel b (.keyed xs) ≠ .ok true := by
  intro fuel
  induction fuel using Nat.strongRecOn with
  | ind fuel ih =>
    intro b
    cases fuel with
    | zero => simp [KeyMore.pyEq]
    | succ f =>
      have hse : ∀ b : Obj, KeyMore.structEquals n f (.keyed xs) b ≠ .ok true := by
        intro b
        cases f with
        | zero => simp [KeyMore.structEquals]
        | succ g =>
          cases b <;> simp only [KeyMore.structEquals, KeyMore.getKey] <;>
            first | (intro hc; cases hc; done) | exact (ih g (by omega) _).2.1
      have hse2 : ∀ ys : List Obj, KeyMore.structEquals n f (.keyed ys) (.tuple xs) ≠ .ok true ∧
          KeyMore.structEquals n f (.keyed ys) (.keyed xs) ≠ .ok true := by
        intro ys
        cases f with
        | zero => simp [KeyMore.structEquals]
        | succ g =>
          simp only [KeyMore.structEquals, KeyMore.getKey]
          exact ⟨(ih g (by omega) _).1, (ih g (by omega) _).2.2.1⟩
      have hsu : ∀ b : Obj, KeyMore.structEquals n f .unkeyed b ≠ .ok true := by
        intro b
        cases f with
        | zero => simp [KeyMore.structEquals]
        | succ g =>
          cases b <;> simp only [KeyMore.structEquals, KeyMore.getKey] <;> (intro hc; cases hc)
      have hl : ∀ l, listEq n l (.tuple xs) ≠ .ok true ∧ listEq n l (.keyed xs) ≠ .ok true := by
        intro l
        constructor <;> (intro hc; unfold listEq at hc; simp only [] at hc; split at hc <;> cases hc)
      refine ⟨?_, ?_, ?_, ?_⟩
      · cases b with
        | keyed ys => simp only [KeyMore.pyEq]; exact (hse2 ys).1
        | unkeyed => simp only [KeyMore.pyEq]; exact hsu _
        | list l j => simp only [KeyMore.pyEq]; exact (hl l).1
        | tuple ys => simp only [KeyMore.pyEq]; exact (tuple_nan n f i xs ys h).1
        | _ => simp [KeyMore.pyEq]
      · cases b with
        | keyed ys => simp only [KeyMore.pyEq]; exact (hse2 ys).1
        | unkeyed => simp only [KeyMore.pyEq]; exact hsu _
        | list l j => simp only [KeyMore.pyEq]; exact (hl l).1
        | tuple ys => simp only [KeyMore.pyEq]; exact (tuple_nan n f i xs ys h).2
        | _ => simp [KeyMore.pyEq]
      · simp only [KeyMore.pyEq]; exact hse b
      · cases b with
        | keyed ys => simp only [KeyMore.pyEq]; exact (hse2 ys).2
        | unkeyed => simp only [KeyMore.pyEq]; exact hsu _
        | list l j => simp only [KeyMore.pyEq]; exact (hl l).2
        | _ => simp only [KeyMore.pyEq]; exact hse _

theorem isNaN_key {fmt : Fmt} {bits : Nat} (h : IsNaN fmt bits) : (fmt = .f ∨ fmt = .d) ∧ floatKey fmt bits = none := by
  have key : ∀ eb fb : Nat, bits / 2 ^ fb % 2 ^ eb = 2 ^ eb - 1 → bits % 2 ^ fb ≠ 0 → ieee eb fb bits = none := by
    intro eb fb h1 h2
    unfold ieee
    simp only []
    rw [if_pos h1, if_neg]
    rw [div_eq_zero_iff]
    rintro (h | h)
    · exact h2 (by exact_mod_cast h)
    · exact absurd h (pow_ne_zero _ (by norm_num))
  rcases h with ⟨rfl, h1, h2⟩ | ⟨rfl, h1, h2⟩
  · exact ⟨.inl rfl, key 8 23 h1 h2⟩
  · exact ⟨.inr rfl, key 11 52 h1 h2⟩

theorem keyValues_member {E : Env} {rec : Nat → StructObj → Nat → Py (Obj × Nat)} {o : StructObj} {u : Option Nat} {f : RField}
    {P : Obj → Prop} (hf : ∀ i x i', KeyMore.prop E rec o u f i = .ok (x, i') → P x) :
    ∀ {fs : List RField} {i i' : Nat} {xs : List Obj}, f ∈ fs → KeyMore.keyValues E rec o u fs i = .ok (xs, i') → ∃ x ∈ xs, P x
  | [], _, _, _, h, _ => by cases h
  | g :: fs, i, i', xs, h, hk => by
    unfold KeyMore.keyValues at hk
    cases hp : KeyMore.prop E rec o u g i with
    | error e => rw [hp] at hk; cases hk
    | ok r =>
      obtain ⟨x, i1⟩ := r
      rw [hp, bind_okP rfl] at hk
      simp only [] at hk
      cases hv : KeyMore.keyValues E rec o u fs i1 with
      | error e => rw [hv] at hk; cases hk
      | ok r =>
        obtain ⟨ys, i2⟩ := r
        rw [hv, bind_okP rfl] at hk
        simp only [] at hk
        obtain ⟨rfl, -⟩ := Prod.mk.inj (Except.ok.inj hk)
        rcases List.mem_cons.mp h with rfl | h
        · exact ⟨x, List.mem_cons_self, hf i x i1 hp⟩
        · obtain ⟨y, hy, hP⟩ := keyValues_member hf h hv
          exact ⟨y, List.mem_cons_of_mem _ hy, hP⟩

theorem objectOf_member {E : Env} {ks : Nat → Option (List RField)} {m c : Nat} {o : StructObj} {fs : List RField} (hks : ks c = some fs)
    {f : RField} (hf : f ∈ fs) {P : Obj → Prop}
    (hP : ∀ rec i x i', KeyMore.prop E rec o (E.cls c).union f i = .ok (x, i') → P x) {i i' : Nat} {a : Obj}
    (ha : KeyMore.objectOf E ks m c o i = .ok (a, i')) : ∃ xs, a = .keyed xs ∧ ∃ x ∈ xs, P x := by
  cases m with
  | zero => cases ha
  | succ m =>
    unfold KeyMore.objectOf at ha
    rw [hks] at ha
    simp only [] at ha
    cases hv : KeyMore.keyValues E (KeyMore.objectOf E ks m) o (E.cls c).union fs i with
    | error e => rw [hv] at ha; cases ha
    | ok r =>
      obtain ⟨xs, i2⟩ := r
      rw [hv, bind_okP rfl] at ha
      simp only [] at ha
      obtain ⟨rfl, -⟩ := Prod.mk.inj (Except.ok.inj ha)
      exact ⟨xs, rfl, keyValues_member (hP _) hf hv⟩

theorem prop_float_nan {E : Env} {o : StructObj} {data : Bytes} {ptrs : List Val} (ho : Denotes o (.struct data ptrs)) {f : RField}
    {fmt : Fmt} {off : Nat} {d : Option Int} (hk : f.kind = .float fmt off d)
    (hnan : IsNaN fmt (leNat (bytesZ data (off * fmt.size) fmt.size))) (rec : Nat → StructObj → Nat → Py (Obj × Nat)) (u : Option Nat)
    (i : Nat) (x : Obj) (i' : Nat) (h : KeyMore.prop E rec o u f i = .ok (x, i')) : x = .float .nan i := by
  obtain ⟨hfd, hkey⟩ := isNaN_key hnan
  unfold KeyMore.prop KeyMore.prop0 at h
  rw [hk] at h
  simp only [] at h
  cases he : ensureMember o u f.disc with
  | error e => rw [he] at h; cases h
  | ok r =>
    have hread := readPrimitive_zext ho (k := off * fmt.size) (fmt := fmt) (Nat.dvd_mul_left _ _)
    rw [valueOf_float hfd] at hread
    rw [he, bind_okP rfl, bind_okP hread, floatOf_nan hfd hkey] at h
    split at h
    · cases h
    · exact (Prod.mk.inj (Except.ok.inj h)).1.symm

/-- C74: a message with a NaN in a key field is not equal to any message, not even to itself. -/
theorem C74_nan (E : Env) (ks : Nat → Option (List RField)) (m n fuel : Nat) (c : Nat) (o : StructObj) (data : Bytes) (ptrs : List Val)
    (ho : Denotes o (.struct data ptrs)) (fs : List RField) (hks : ks c = some fs) (f : RField) (hf : f ∈ fs)
    (fmt : Fmt) (off : Nat) (d : Option Int) (hk : f.kind = .float fmt off d)
    (hnan : IsNaN fmt (leNat (bytesZ data (off * fmt.size) fmt.size))) (c' : Nat) (o' : StructObj) (i : Nat) :
    KeyMore.eqObjects E ks m n fuel c o c' o' i ≠ .ok true ∧ KeyMore.eqObjects E ks m n fuel c' o' c o i ≠ .ok true := by
  have key : ∀ i i' a, KeyMore.objectOf E ks m c o i = .ok (a, i') → ∃ xs, a = .keyed xs ∧ ∃ j, Obj.float .nan j ∈ xs := by
    intro i i' a ha
    obtain ⟨xs, h1, x, hx, j, rfl⟩ := objectOf_member hks hf (P := fun x => ∃ j, x = .float .nan j)
      (fun rec i x i' h => ⟨i, prop_float_nan ho hk hnan rec _ i x i' h⟩) ha
    exact ⟨xs, h1, j, hx⟩
  unfold KeyMore.eqObjects
  constructor
  · intro h
    cases h1 : KeyMore.objectOf E ks m c o i with
    | error e => rw [h1] at h; cases h
    | ok r =>
      obtain ⟨a, i1⟩ := r
      rw [h1, bind_okP rfl] at h
      simp only [] at h
      cases h2 : KeyMore.objectOf E ks m c' o' i1 with
      | error e => rw [h2] at h; cases h
      | ok r =>
        obtain ⟨b, i2⟩ := r
        rw [h2, bind_okP rfl] at h
        simp only [] at h
        obtain ⟨xs, rfl, j, hj⟩ := key _ _ _ h1
        exact (tuple_obj_nan n hj fuel b).2.2.1 h
  · intro h
    cases h1 : KeyMore.objectOf E ks m c' o' i with
    | error e => rw [h1] at h; cases h
    | ok r =>
      obtain ⟨a, i1⟩ := r
      rw [h1, bind_okP rfl] at h
      simp only [] at h
      cases h2 : KeyMore.objectOf E ks m c o i1 with
      | error e => rw [h2] at h; cases h
      | ok r =>
        obtain ⟨b, i2⟩ := r
        rw [h2, bind_okP rfl] at h
        simp only [] at h
        obtain ⟨xs, rfl, j, hj⟩ := key _ _ _ h2
        exact (tuple_obj_nan n hj fuel a).2.2.2 h

/-! ## Lists -/

theorem pyHashes_list {H : KeyMore.HashEnv} (hH : H.compiled = true) {l : ListObj} {i : Nat} : ∀ {xs : List Obj}, Obj.list l i ∈ xs →
    ∃ e, KeyMore.pyHashes H xs = .error e
  | [], h => by cases h
  | x :: xs, h => by
    simp only [KeyMore.pyHashes]
    cases hp : KeyMore.pyHash H x with
    | error e => exact ⟨e, rfl⟩
    | ok y =>
      rw [bind_okP rfl]
      rcases List.mem_cons.mp h with rfl | h
      · simp [KeyMore.pyHash, hH] at hp
      · obtain ⟨e, he⟩ := pyHashes_list hH h
        rw [he]
        exact ⟨e, rfl⟩

theorem prop_list {E : Env} {o : StructObj} {data : Bytes} {ptrs : List Val} (ho : Denotes o (.struct data ptrs)) {f : RField}
    {it : RItem} {j : Nat} (hk : f.kind = .list it j) (hc : child ptrs j ≠ .null) (rec : Nat → StructObj → Nat → Py (Obj × Nat)) (u : Option Nat)
    (i : Nat) (x : Obj) (i' : Nat) (h : KeyMore.prop E rec o u f i = .ok (x, i')) : ∃ l, x = .list l i ∧ l.itemType = it.toItemType E := by
  unfold KeyMore.prop KeyMore.prop0 at h
  rw [hk] at h
  simp only [] at h
  cases he : ensureMember o u f.disc with
  | error e => rw [he] at h; cases h
  | ok r =>
    have hread := C10_list o data ptrs ho j (it.toItemType E)
    rw [Nat.mul_comm 8 j] at hread
    rw [he, bind_okP rfl] at h
    by_cases hs : ∀ d p, child ptrs j ≠ .struct d p
    · obtain ⟨l, h1, h2, -⟩ := hread.2.1 hc hs
      rw [bind_okP h1] at h
      exact ⟨l, (Prod.mk.inj (Except.ok.inj h)).1.symm, h2⟩
    · push Not at hs
      obtain ⟨d, p, hs⟩ := hs
      rw [hread.2.2 d p hs] at h
      cases h

/-- C74, finding: in the compiled version a message with a list in a key field has no hash: the class `List` is not
hashable there. -/
theorem C74_list_compiled (E : Env) (H : KeyMore.HashEnv) (hH : H.compiled = true) (ks : Nat → Option (List RField)) (m : Nat) (c : Nat)
    (o : StructObj) (data : Bytes) (ptrs : List Val) (ho : Denotes o (.struct data ptrs)) (fs : List RField) (hks : ks c = some fs)
    (f : RField) (hf : f ∈ fs) (it : RItem) (j : Nat) (hk : f.kind = .list it j) (hc : child ptrs j ≠ .null) (i : Nat) :
    ∃ e, KeyMore.hashObject E H ks m c o i = .error e := by
  unfold KeyMore.hashObject
  cases h1 : KeyMore.objectOf E ks m c o i with
  | error e => exact ⟨e, rfl⟩
  | ok r =>
    obtain ⟨a, i1⟩ := r
    rw [bind_okP rfl]
    simp only []
    obtain ⟨xs, rfl, x, hx, l, i', rfl⟩ := objectOf_member hks hf (P := fun x => ∃ l i, x = .list l i)
      (fun rec i x i' h => by obtain ⟨l, h, -⟩ := prop_list ho hk hc rec _ i x i' h; exact ⟨l, i, h⟩) h1
    obtain ⟨e, he⟩ := pyHashes_list hH hx
    simp only [KeyMore.pyHash]
    rw [he]
    exact ⟨e, rfl⟩

/-- C74, finding: comparing two messages whose first key field is a list of structs which is not null raises. -/
theorem C74_struct_list (E : Env) (ks : Nat → Option (List RField)) (m n fuel : Nat) (c : Nat)
    (o : StructObj) (data : Bytes) (ptrs : List Val) (ho : Denotes o (.struct data ptrs)) (fs : List RField) (f : RField) (hks : ks c = some (f :: fs))
    (s : Nat) (j : Nat) (hk : f.kind = .list (.struct s) j) (hc : child ptrs j ≠ .null) (i : Nat) :
    ∃ e, KeyMore.eqObjects E ks m n fuel c o c o i = .error e := by
  have key : ∀ i a i', KeyMore.objectOf E ks m c o i = .ok (a, i') → ∃ l i xs, a = .keyed (.list l i :: xs) ∧ l.itemType.canCompare = false := by
    intro i a i' ha
    cases m with
    | zero => cases ha
    | succ m =>
      unfold KeyMore.objectOf at ha
      rw [hks] at ha
      simp only [] at ha
      unfold KeyMore.keyValues at ha
      cases hp : KeyMore.prop E (KeyMore.objectOf E ks m) o (E.cls c).union f i with
      | error e => rw [hp] at ha; cases ha
      | ok r =>
        obtain ⟨x, i1⟩ := r
        rw [hp, bind_okP rfl] at ha
        simp only [] at ha
        cases hv : KeyMore.keyValues E (KeyMore.objectOf E ks m) o (E.cls c).union fs i1 with
        | error e => rw [hv] at ha; cases ha
        | ok r =>
          obtain ⟨xs, i2⟩ := r
          rw [hv, bind_okP rfl] at ha
          simp only [] at ha
          obtain ⟨l, rfl, hl⟩ := prop_list ho hk hc _ _ i x i1 hp
          obtain ⟨rfl, -⟩ := Prod.mk.inj (Except.ok.inj ha)
          exact ⟨l, i, xs, rfl, by rw [hl]; rfl⟩
  unfold KeyMore.eqObjects
  cases h1 : KeyMore.objectOf E ks m c o i with
  | error e => exact ⟨e, rfl⟩
  | ok r =>
    obtain ⟨a, i1⟩ := r
    rw [bind_okP rfl]
    simp only []
    cases h2 : KeyMore.objectOf E ks m c o i1 with
    | error e => exact ⟨e, rfl⟩
    | ok r =>
      obtain ⟨b, i2⟩ := r
      rw [bind_okP rfl]
      simp only []
      obtain ⟨l, i1, xs, rfl, hl⟩ := key _ _ _ h1
      obtain ⟨l', i1', ys, rfl, hl'⟩ := key _ _ _ h2
      have hle : ∀ k i, listEq n l (.list k i) = .error .typeError := by
        intro k i
        unfold listEq ListObj.equals
        simp only []
        rw [if_pos hl]
      match fuel with
      | 0 => exact ⟨_, by simp only [KeyMore.pyEq]; rfl⟩
      | 1 => exact ⟨_, by simp only [KeyMore.pyEq, KeyMore.structEquals]; rfl⟩
      | 2 => exact ⟨_, by simp only [KeyMore.pyEq, KeyMore.structEquals, KeyMore.getKey]; rfl⟩
      | 3 => exact ⟨_, by simp only [KeyMore.pyEq, KeyMore.structEquals, KeyMore.getKey]; rfl⟩
      | 4 => exact ⟨_, by simp only [KeyMore.pyEq, KeyMore.structEquals, KeyMore.getKey]; rfl⟩
      | 5 => exact ⟨_, by simp only [KeyMore.pyEq, KeyMore.structEquals, KeyMore.getKey, KeyMore.tupleEq]; rfl⟩
      | fuel + 6 =>
        exact ⟨_, by simp only [KeyMore.pyEq, KeyMore.structEquals, KeyMore.getKey, KeyMore.tupleEq, hle]; rfl⟩


/-! ## Examples -/

/-- Class 0 has a Float64 and a list of numbers; class 1 a Float64, class 2 a Float32, class 3 an Int8, class 4 a list of
structs, and class 5 a list of numbers. -/
def moreEnv : Env where
  cls c :=
    if c = 0 then ⟨1, 2, none, [⟨"x".toList, none, .float .d 0 none⟩, ⟨"l".toList, none, .list (.prim .B) 1⟩]⟩
    else if c = 1 then ⟨1, 0, none, [⟨"x".toList, none, .float .d 0 none⟩]⟩
    else if c = 2 then ⟨1, 0, none, [⟨"x".toList, none, .float .f 0 none⟩]⟩
    else if c = 3 then ⟨1, 0, none, [⟨"x".toList, none, .prim .b 0 none⟩]⟩
    else if c = 4 then ⟨0, 1, none, [⟨"l".toList, none, .list (.struct 1) 0⟩]⟩
    else ⟨0, 1, none, [⟨"l".toList, none, .list (.prim .B) 0⟩]⟩
  floatRepr _ _ := "0.0".toList

/-- All fields are key fields. -/
def moreTable (c : Nat) : Option (List RField) := some (moreEnv.cls c).fields

theorem active_none (data : Bytes) (u : Option Nat) : Active data u none := fun d hd => by cases hd

theorem moreExample : keyOfM true moreEnv moreTable 1 0 sampleVal =
    some (.tuple [.num (77 * 2 ^ (-1074 : Int)), .list (.prim .B) (.listPrim 2 3 [1, 2, 3])]) := by
  have h1 : floatKey .d (leNat (bytesZ (leBytes 8 77) (0 * Fmt.size .d) (Fmt.size .d))) = some (.num (77 * 2 ^ (-1074 : Int))) := by
    have : leNat (bytesZ (leBytes 8 77) (0 * Fmt.size .d) (Fmt.size .d)) = 77 := by decide +kernel
    rw [this]
    simp only [floatKey, ieee]
    norm_num
    have e : (2 : ℚ) ^ 1074 = 2 ^ 52 * 2 ^ 1022 := by rw [← pow_add]
    rw [e, mul_inv]
    generalize ((2 : ℚ) ^ 1022)⁻¹ = z
    norm_num
    ring
  have h2 : (elems (.prim .B) (.listPrim 2 3 [1, 2, 3])).isSome = true := by decide +kernel
  have hl : moreTable 0 = some [⟨"x".toList, none, .float .d 0 none⟩, ⟨"l".toList, none, .list (.prim .B) 1⟩] := rfl
  have hc : child [Val.struct [] [], .listPrim 2 3 [1, 2, 3]] 1 = .listPrim 2 3 [1, 2, 3] := rfl
  have hs : keyOfM true moreEnv moreTable 1 0 sampleVal =
      match moreTable 0 with
      | Option.none => Option.none
      | some fs => (allSome (fieldKeyM true moreEnv (keyOfM true moreEnv moreTable 0) (leBytes 8 77)
          [Val.struct [] [], .listPrim 2 3 [1, 2, 3]] (moreEnv.cls 0).union) fs).map .tuple := rfl
  rw [hs, hl]
  simp only [allSome, fieldKeyM, active_none, if_true, kindKeyM, Option.getD_none, h1, hc, listKey, RItem.toItemType,
    FlatItem, h2, and_self, Option.map_some]

/-- Two copies of the sample made by `compact()` are equal. -/
example : ∃ o', sampleObj.compact 5 = .ok o' ∧ KeyMore.eqObjects moreEnv moreTable 1 2 10 0 o' 0 o' 0 = .ok true := by
  obtain ⟨o', h1, h2⟩ := C74_compact sample_denotes (by simp [sampleVal, Val.Fits, Val.AllFits]) (by decide) (by decide) (fuel := 5) (by decide)
  obtain ⟨r, h3, h4⟩ := C74_eq true moreEnv moreTable 1 2 10 (by decide) (by decide) 0 0 o' o' sampleVal sampleVal
    (Tidy.denotes h2) (Tidy.denotes h2) (fun _ => h2) (fun _ => h2) _ _ moreExample moreExample 0
  exact ⟨o', h1, by rw [h3, h4.mpr rfl]⟩

/-- A struct with one word of data. -/
def wordObj (w : Nat) : StructObj := objAt (leBytes 8 w) none 0 1 0

theorem wordObj_denotes (w : Nat) : Denotes (wordObj w) (.struct (leBytes 8 w) []) := by
  refine ⟨leBytes 8 w, none, 0, 1, 0, _, [], rfl, (by intro _ h; cases h), by omega, by omega, by omega, ⟨by simp [leBytes_length], ?_, rfl, ?_⟩, rfl⟩
  · unfold slice
    simp [leBytes_length]
  · intro j v h
    cases j <;> cases h

theorem wordKey {c w : Nat} {kd : Kind} {k : KVal} (h1 : moreTable c = some [⟨"x".toList, none, kd⟩])
    (h2 : kindKeyM false moreEnv (keyOfM false moreEnv moreTable 0) (leBytes 8 w) [] kd = some k) (hk : ∀ c b, kd ≠ .group c b) :
    keyOfM false moreEnv moreTable 1 c (.struct (leBytes 8 w) []) = some (.tuple [k]) := by
  unfold keyOfM
  rw [h1]
  simp only [allSome, fieldKeyM, active_none, if_true]
  have : ∀ k', kindKeyM false moreEnv (keyOfM false moreEnv moreTable 0) (leBytes 8 w) [] kd = some k' →
    (match kd with
      | .group c true => (none : Option KVal)
      | k => kindKeyM false moreEnv (keyOfM false moreEnv moreTable 0) (leBytes 8 w) [] k) = some k' := by
    intro k' h
    cases kd with
    | group c b => exact absurd rfl (hk c b)
    | _ => exact h
  cases kd with
  | group c b => exact absurd rfl (hk c b)
  | _ => simp only [h2, Option.map_some]

theorem key64 : keyOfM false moreEnv moreTable 1 1 (.struct (leBytes 8 0x4000000000000000) []) = some (.tuple [.num 2]) := by
  refine wordKey (kd := .float .d 0 none) rfl ?_ (by simp)
  have : leNat (bytesZ (leBytes 8 0x4000000000000000) (0 * Fmt.size .d) (Fmt.size .d)) = 0x4000000000000000 := by decide +kernel
  simp only [kindKeyM, Option.getD_none, if_true, this, floatKey, ieee]
  norm_num

theorem key32 : keyOfM false moreEnv moreTable 1 2 (.struct (leBytes 8 0x40000000) []) = some (.tuple [.num 2]) := by
  refine wordKey (kd := .float .f 0 none) rfl ?_ (by simp)
  have : leNat (bytesZ (leBytes 8 0x40000000) (0 * Fmt.size .f) (Fmt.size .f)) = 0x40000000 := by decide +kernel
  simp only [kindKeyM, Option.getD_none, if_true, this, floatKey, ieee]
  norm_num

theorem key8 : keyOfM false moreEnv moreTable 1 3 (.struct (leBytes 8 2) []) = some (.tuple [.num 2]) := by
  refine wordKey (kd := .prim .b 0 none) rfl ?_ (by simp)
  have : intKey (leBytes 8 2) (.prim .b 0 none) = some 2 := by decide +kernel
  simp only [kindKeyM, kindKey, this, Option.map_some, KVal.of]
  norm_num

/-- `2.0`, as Float64 and as Float32, and `2` are equal and have the same hash. -/
example (H : KeyMore.HashEnv) :
    KeyMore.eqObjects moreEnv moreTable 1 2 10 1 (wordObj 0x4000000000000000) 2 (wordObj 0x40000000) 0 = .ok true ∧
    ∃ x, KeyMore.hashObject moreEnv H moreTable 1 2 (wordObj 0x40000000) 5 = .ok x ∧
      KeyMore.hashObject moreEnv H moreTable 1 3 (wordObj 2) 7 = .ok x := by
  obtain ⟨r, h3, h4⟩ := C74_eq false moreEnv moreTable 1 2 10 (by decide) (by decide) 1 2 _ _ _ _
    (wordObj_denotes 0x4000000000000000) (wordObj_denotes 0x40000000) (by simp) (by simp) _ _ key64 key32 0
  obtain ⟨r', h3', h4'⟩ := C74_eq false moreEnv moreTable 1 2 10 (by decide) (by decide) 2 3 _ _ _ _
    (wordObj_denotes 0x40000000) (wordObj_denotes 2) (by simp) (by simp) _ _ key32 key8 0
  obtain ⟨x, h5, h6⟩ := C74_hash moreEnv H moreTable 1 2 10 (by decide) (by decide) 2 3 _ _ _ _
    (wordObj_denotes 0x40000000) (wordObj_denotes 2) _ _ key32 key8 0 5 7 (by rw [h3', h4'.mpr rfl])
  exact ⟨by rw [h3, h4.mpr rfl], x, h5, h6⟩

/-- A NaN. -/
example : KeyMore.eqObjects moreEnv moreTable 1 2 10 1 (wordObj 0x7ff8000000000000) 1 (wordObj 0x7ff8000000000000) 0 ≠ .ok true :=
  (C74_nan moreEnv moreTable 1 2 10 1 _ _ _ (wordObj_denotes 0x7ff8000000000000) _ rfl _ List.mem_cons_self .d 0 none rfl
    (.inr ⟨rfl, by decide +kernel, by decide +kernel⟩) 1 _ 0).1

/-- Finding, pure version: the hash of a message with a NaN is not the same when it is computed again (here for
identity hashes like those of CPython, which are addresses divided by 16). -/
theorem C74_nan_hash : ∃ (H : KeyMore.HashEnv) (o : StructObj), loads (cyMsg [sp 0 1 0, 0x7ff8000000000000]) = .ok (some o) ∧
    KeyMore.hashObject moreEnv H moreTable 1 1 o 0 ≠ KeyMore.hashObject moreEnv H moreTable 1 1 o 1 :=
  ⟨⟨lenHash, fun i => BitVec.ofNat 64 (1000 + i), false⟩, ⟨⟨words [sp 0 1 0, 0x7ff8000000000000], none⟩, 8, 16, 1, 0⟩,
    by decide +kernel, by decide +kernel⟩

theorem eq_lists {E : Env} {ks : Nat → Option (List RField)} {c : Nat} {nm : List Char} {it : RItem} {o o' : StructObj} {l l' : ListObj}
    {r : Bool} (h1 : ks c = some [⟨nm, none, .list it 0⟩]) (h2 : o.readList 0 (it.toItemType E) = .ok (some l))
    (h3 : o'.readList 0 (it.toItemType E) = .ok (some l')) (h4 : listEq 2 l (.list l' 1) = .ok r) :
    KeyMore.eqObjects E ks 1 2 10 c o c o' 0 = .ok r := by
  have key : ∀ (o : StructObj) (l : ListObj) (i : Nat), o.readList 0 (it.toItemType E) = .ok (some l) →
      KeyMore.objectOf E ks 1 c o i = .ok (.keyed [.list l i], i + 1) := by
    intro o l i h
    have hp : KeyMore.prop E (KeyMore.objectOf E ks 0) o (E.cls c).union ⟨nm, none, .list it 0⟩ i = .ok (.list l i, i + 1) := by
      show (do
        let r ← o.readList ((0 * 8 : Nat) : Int) (it.toItemType E)
        match r with
        | none => pure (Obj.none, i)
        | some l => pure (Obj.list l i, i + 1) : Py (Obj × Nat)) = _
      rw [bind_okP (show o.readList ((0 * 8 : Nat) : Int) (it.toItemType E) = .ok (some l) from h)]
      rfl
    unfold KeyMore.objectOf
    rw [h1]
    simp only [KeyMore.keyValues]
    rw [hp]
    rfl
  unfold KeyMore.eqObjects
  rw [key o l 0 h2, bind_okP rfl]
  simp only []
  rw [key o' l' (0 + 1) h3, bind_okP rfl]
  simp only [KeyMore.pyEq, KeyMore.structEquals, KeyMore.getKey, KeyMore.tupleEq]
  rw [h4]
  cases r <;> rfl

/-- A message with a list: its words, the size tag, the item type and the number and length of items. -/
def listMsg (ws : List Nat) : StructObj := ⟨⟨words ws, none⟩, 8, 8, 0, 1⟩

def listOf (ws : List Nat) (it : ItemType) (tag count len : Int) : ListObj := ⟨⟨words ws, none⟩, 16, it, tag, -1, count, len, 0⟩

/-- Finding, pure version: messages with a list in a key field break the contract of `hash`: two messages are equal (a
message and itself, even) but their hashes differ, as a list is hashed by its identity and every access makes a new one.
In sets and dicts such messages are not found again. -/
theorem C74_list_pure : ∃ (H : KeyMore.HashEnv) (o : StructObj), H.compiled = false ∧
    loads (cyMsg [sp 0 0 1, 1 + 2 * 2 ^ 32 + 3 * 2 ^ 35, 0x030201]) = .ok (some o) ∧
    KeyMore.eqObjects moreEnv moreTable 1 2 10 5 o 5 o 0 = .ok true ∧
    KeyMore.hashObject moreEnv H moreTable 1 5 o 0 ≠ KeyMore.hashObject moreEnv H moreTable 1 5 o 1 :=
  ⟨⟨lenHash, fun i => BitVec.ofNat 64 (1000 + i), false⟩, listMsg [sp 0 0 1, 1 + 2 * 2 ^ 32 + 3 * 2 ^ 35, 0x030201],
    rfl, by decide +kernel,
    eq_lists (it := .prim .B) (l := listOf [sp 0 0 1, 1 + 2 * 2 ^ 32 + 3 * 2 ^ 35, 0x030201] (.prim .B) 2 3 1)
      (l' := listOf [sp 0 0 1, 1 + 2 * 2 ^ 32 + 3 * 2 ^ 35, 0x030201] (.prim .B) 2 3 1) rfl (by decide +kernel) (by decide +kernel)
      (by decide +kernel), by decide +kernel⟩

/-- Finding: without the hypothesis that the messages are tidy: these differ only in the padding of a list, and are not
equal. -/
theorem C74_untidy : ∃ o o' : StructObj, loads (cyMsg [sp 0 0 1, 1 + 2 * 2 ^ 32 + 3 * 2 ^ 35, 0x030201]) = .ok (some o) ∧
    loads (cyMsg [sp 0 0 1, 1 + 2 * 2 ^ 32 + 3 * 2 ^ 35, 0x07030201]) = .ok (some o') ∧
    (∃ l l' : ListObj, o.readList 0 (.prim .B) = .ok (some l) ∧ o'.readList 0 (.prim .B) = .ok (some l') ∧
      l.toList = .ok [.int 1, .int 2, .int 3] ∧ l'.toList = .ok [.int 1, .int 2, .int 3]) ∧
    KeyMore.eqObjects moreEnv moreTable 1 2 10 5 o 5 o' 0 = .ok false :=
  ⟨listMsg [sp 0 0 1, 1 + 2 * 2 ^ 32 + 3 * 2 ^ 35, 0x030201], listMsg [sp 0 0 1, 1 + 2 * 2 ^ 32 + 3 * 2 ^ 35, 0x07030201],
    by decide +kernel, by decide +kernel,
    ⟨listOf [sp 0 0 1, 1 + 2 * 2 ^ 32 + 3 * 2 ^ 35, 0x030201] (.prim .B) 2 3 1,
      listOf [sp 0 0 1, 1 + 2 * 2 ^ 32 + 3 * 2 ^ 35, 0x07030201] (.prim .B) 2 3 1, by decide +kernel, by decide +kernel,
      by decide +kernel, by decide +kernel⟩,
    eq_lists (it := .prim .B) (l := listOf [sp 0 0 1, 1 + 2 * 2 ^ 32 + 3 * 2 ^ 35, 0x030201] (.prim .B) 2 3 1)
      (l' := listOf [sp 0 0 1, 1 + 2 * 2 ^ 32 + 3 * 2 ^ 35, 0x07030201] (.prim .B) 2 3 1) rfl (by decide +kernel) (by decide +kernel)
      (by decide +kernel)⟩

/-- Finding: a list of floats is compared by its bytes, not by its numbers: in a list `0.0` and `-0.0` differ, and a NaN is
equal to itself, whereas as key fields it is the other way round. -/
theorem C74_float_lists : ∃ a b c : StructObj,
    loads (cyMsg [sp 0 0 1, 1 + 5 * 2 ^ 32 + 1 * 2 ^ 35, 0]) = .ok (some a) ∧
    loads (cyMsg [sp 0 0 1, 1 + 5 * 2 ^ 32 + 1 * 2 ^ 35, 0x8000000000000000]) = .ok (some b) ∧
    loads (cyMsg [sp 0 0 1, 1 + 5 * 2 ^ 32 + 1 * 2 ^ 35, 0x7ff8000000000000]) = .ok (some c) ∧
    (let E : Env := ⟨fun _ => ⟨0, 1, none, [⟨"l".toList, none, .list (.float .d) 0⟩]⟩, fun _ _ => []⟩
     let ks := fun c => some (E.cls c).fields
     KeyMore.eqObjects E ks 1 2 10 0 a 0 b 0 = .ok false ∧ KeyMore.eqObjects E ks 1 2 10 0 c 0 c 0 = .ok true) :=
  ⟨listMsg [sp 0 0 1, 1 + 5 * 2 ^ 32 + 1 * 2 ^ 35, 0], listMsg [sp 0 0 1, 1 + 5 * 2 ^ 32 + 1 * 2 ^ 35, 0x8000000000000000],
    listMsg [sp 0 0 1, 1 + 5 * 2 ^ 32 + 1 * 2 ^ 35, 0x7ff8000000000000],
    by decide +kernel, by decide +kernel, by decide +kernel,
    eq_lists (it := .float .d) (l := listOf [sp 0 0 1, 1 + 5 * 2 ^ 32 + 1 * 2 ^ 35, 0] (.prim .d) 5 1 8)
      (l' := listOf [sp 0 0 1, 1 + 5 * 2 ^ 32 + 1 * 2 ^ 35, 0x8000000000000000] (.prim .d) 5 1 8) rfl (by decide +kernel) (by decide +kernel)
      (by decide +kernel),
    eq_lists (it := .float .d) (l := listOf [sp 0 0 1, 1 + 5 * 2 ^ 32 + 1 * 2 ^ 35, 0x7ff8000000000000] (.prim .d) 5 1 8)
      (l' := listOf [sp 0 0 1, 1 + 5 * 2 ^ 32 + 1 * 2 ^ 35, 0x7ff8000000000000] (.prim .d) 5 1 8) rfl (by decide +kernel) (by decide +kernel)
      (by decide +kernel)⟩

/-- A list in a key field, in the compiled version, and a list of structs. -/
example (H : KeyMore.HashEnv) (hH : H.compiled = true) : ∃ e, KeyMore.hashObject moreEnv H moreTable 1 0 sampleObj 0 = .error e :=
  C74_list_compiled moreEnv H hH moreTable 1 0 sampleObj _ _ sample_denotes _ rfl _ (List.mem_cons_of_mem _ List.mem_cons_self)
    (.prim .B) 1 rfl (by intro h; cases h) 0

/-- The sample as a message of a class with a list of structs. -/
example : ∃ e, KeyMore.eqObjects moreEnv (fun _ => some [⟨"l".toList, none, .list (.struct 1) 1⟩]) 1 2 10 4 sampleObj 4 sampleObj 0 = .error e :=
  C74_struct_list moreEnv _ 1 2 10 4 sampleObj _ _ sample_denotes [] ⟨"l".toList, none, .list (.struct 1) 1⟩ rfl 1 1 rfl
    (by intro h; cases h) 0

end Capnpy.Props
