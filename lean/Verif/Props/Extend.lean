import Verif.Proof.Extend
import Verif.Props.ModuleExamples

/-!
# C72: `__extend__` and the extension files of schemas

`@Point.__extend__ class Point: ...` copies the body of the class to the generated class, which
stays the same object; the code of `example_extended.py` is executed in the module of
`example.capnp`.
-/

namespace Capnpy.Props

open Spec Capnpy.Module
open Extend (Env ClassInfo XStmt Files own lookupAttr exec extendMethod slots)

/-! ## One class statement -/

/-- Can the attribute be set?  Always for Python classes; for the classes of a compiled module only
with capnpy._util, and only if it is not one of the special methods in its list. -/
def Settable (E : Env) (a : Nat) (k : Str) : Prop :=
  (E.info a).heapType = true ∨ (E.compiled = true ∧ k ∉ slots)

theorem settable_iff {E : Env} {a : Nat} {k : Str} :
    Settable E a k ↔ ¬ Extend.Refused E.compiled (E.info a).heapType k := by
  unfold Settable Extend.Refused
  cases (E.info a).heapType <;> cases E.compiled <;> simp

theorem target_ok {E : Env} {σ : State} {target : Str} {a : Nat} (ht : σ.evalPath [] target = .ok (.ref a))
    (hb : (E.info a).blob = true) : (σ.evalPath [] target).bind (extendMethod E) = .ok a := by
  rw [ht]
  show (if (E.info a).blob = true then Except.ok a else Except.error PyErr.attributeError) = .ok a
  rw [if_pos hb]

theorem own_set {σ : State} {gl : Dict} {a : Nat} {d d' : Dict} (hd : σ.heap[a]? = some d) (b : Nat) (k : Str) :
    own ⟨gl, σ.heap.set a d'⟩ b k = if b = a then d'.lookup k else own σ b k := by
  have hlt : a < σ.heap.length := (List.getElem?_eq_some_iff.1 hd).1
  unfold own
  by_cases hb : b = a
  · subst hb
    rw [if_pos rfl]
    show ((σ.heap.set b d')[b]?).bind _ = _
    rw [List.getElem?_set_self hlt]
    rfl
  · rw [if_neg hb]
    show ((σ.heap.set a d')[b]?).bind _ = _
    rw [List.getElem?_set_ne (fun h => hb h.symm)]

theorem items_settable {E : Env} {a : Nat} {L : Dict} (hs : ∀ k, Bound L k → ¬ Reserved k → Settable E a k) :
    ∀ x ∈ Extend.newClassDict E.modname L, x.1 ∉ Extend.excluded →
      ¬ Extend.Refused E.compiled (E.info a).heapType x.1 := by
  classical
  rintro ⟨k, v⟩ hx hk
  rw [← settable_iff]
  have hm : k ∈ (Extend.newClassDict E.modname L).map Prod.fst := List.mem_map_of_mem hx
  obtain ⟨w, hw⟩ := Extend.mem_keys_lookup.1 hm
  rw [Extend.newClassDict_lookup _ _ _ hk] at hw
  by_cases hq : k = "__qualname__".toList
  · have hh : ¬ (k = "__hash__".toList ∧ Bound L "__eq__".toList) := by
      rintro ⟨hk, -⟩
      rw [hq] at hk
      exact absurd hk (by decide)
    rw [if_pos hq, if_neg hh] at hw
    cases hw
  · have hnr : ¬ Reserved k := by
      rw [Extend.mem_excluded] at hk
      push Not at hk
      rintro (h | h | h | h | h)
      · exact hk.1 h
      · exact hk.2.1 h
      · exact hk.2.2.1 h
      · exact hk.2.2.2 h
      · exact hq h
    rw [if_neg hq] at hw
    cases hl : L.lookup k with
    | some u => exact hs k ⟨u, hl⟩ hnr
    | none =>
      rw [hl] at hw
      by_cases hh : k = "__hash__".toList ∧ Bound L "__eq__".toList
      · rcases hs _ hh.2 (by unfold Reserved; decide) with h | h
        · exact Or.inl h
        · exact absurd (by decide +kernel : "__eq__".toList ∈ slots) h.2
      · rw [if_neg hh] at hw
        cases hw

/-- C72: `@target.__extend__ class name: body`, where `target` is the class at `a`: the class gets
the attributes of the body, keeps its other attributes (but see `After`: a body with `__eq__` and
without `__hash__` makes it unhashable) and its identity; `name` is bound to the same class; no other
class and no other name changes. -/
theorem C72_extend {E : Env} {σ : State} {target name : Str} {body : List (Str × Expr)} {a : Nat} {L : Dict}
    (ht : σ.evalPath [] target = .ok (.ref a)) (hb : (E.info a).blob = true) (ha : a < σ.heap.length)
    (hL : σ.execBody [] body = .ok L) (hs : ∀ k, Bound L k → ¬ Reserved k → Settable E a k) :
    ∃ σ', exec E σ (.extend target name body) = (σ', .ok ()) ∧
      (∀ k, After L (own σ a) k (own σ' a k)) ∧ (∀ b, b ≠ a → ∀ k, own σ' b k = own σ b k) ∧
      σ'.heap.length = σ.heap.length ∧
      σ'.globals.lookup name = some (.ref a) ∧ ∀ x, x ≠ name → σ'.globals.lookup x = σ.globals.lookup x := by
  have hd : σ.heap[a]? = some σ.heap[a] := List.getElem?_eq_getElem ha
  refine ⟨⟨(name, .ref a) :: σ.globals, σ.heap.set a
    ((Extend.copied (Extend.newClassDict E.modname L)).reverse ++ σ.heap[a])⟩, ?_, ?_, ?_, ?_, ?_, ?_⟩
  · unfold exec
    simp only
    rw [target_ok ht hb]
    simp only
    rw [hL]
    simp only [Extend.extendClass, hd, Extend.extendLoop_ok _ _ (items_settable hs)]
  · intro k
    rw [own_set hd, if_pos rfl]
    have : own σ a = fun k => σ.heap[a].lookup k := by
      funext k
      unfold own
      rw [hd]
      rfl
    rw [this]
    exact Extend.after_newClassDict _ _ _ _
  · intro b hb k
    rw [own_set hd, if_neg hb]
  · simp
  · simp
  · intro x hx
    have : (x == name) = false := beq_eq_false_iff_ne.2 hx
    simp [List.lookup_cons, this]

/-- C72: the methods of the body, e.g. `distance`. -/
theorem C72_attribute {σ σ' : State} {a : Nat} {L : Dict} {k : Str} {v : Obj}
    (h : After L (own σ a) k (own σ' a k)) (hr : ¬ Reserved k) (hv : L.lookup k = some v) : own σ' a k = some v :=
  Extend.After.unique h (.bound hr hv)

/-- C72: the attributes of the schema that the body does not mention stay. -/
theorem C72_keeps {σ σ' : State} {a : Nat} {L : Dict} {k : Str}
    (h : After L (own σ a) k (own σ' a k)) (hv : ¬ Bound L k) (hh : k ≠ "__hash__".toList) : own σ' a k = own σ a k := by
  refine Extend.After.unique h (.other ?_ (fun h => absurd h hh))
  cases hl : L.lookup k with
  | none => rfl
  | some v => exact absurd ⟨v, hl⟩ hv

/-- C72: a docstring in the body is not copied, whatever the body says. -/
theorem C72_docstring {σ σ' : State} {a : Nat} {L : Dict} (h : After L (own σ a) "__doc__".toList
    (own σ' a "__doc__".toList)) : own σ' a "__doc__".toList = own σ a "__doc__".toList :=
  Extend.After.unique h (.reserved (Or.inr (Or.inl rfl)))

/-- C72: a body with `__eq__` and without `__hash__` makes the class unhashable, also if it has a
`__hash__` from a `$Py.key`. -/
theorem C72_eq_unhashable {σ σ' : State} {a : Nat} {L : Dict} (h : After L (own σ a) "__hash__".toList
    (own σ' a "__hash__".toList)) (he : Bound L "__eq__".toList) (hh : ¬ Bound L "__hash__".toList) :
    own σ' a "__hash__".toList = some .none := by
  refine Extend.After.unique h (.unhashable rfl ?_ he)
  cases hl : L.lookup "__hash__".toList with
  | none => rfl
  | some v => exact absurd ⟨v, hl⟩ hh

/-- C72: the target must be a class derived from `Blob`, i.e. a struct or a group: extending an enum
raises AttributeError and changes nothing. -/
theorem C72_only_structs {E : Env} {σ : State} {target name : Str} {body : List (Str × Expr)} {a : Nat}
    (ht : σ.evalPath [] target = .ok (.ref a)) (hb : (E.info a).blob = false) :
    exec E σ (.extend target name body) = (σ, .error .attributeError) := by
  have h : (σ.evalPath [] target).bind (extendMethod E) = .error .attributeError := by
    rw [ht]
    show (if (E.info a).blob = true then Except.ok a else Except.error PyErr.attributeError) = _
    rw [hb]
    rfl
  unfold exec
  simp only
  rw [h]

/-! ## Inheritance -/

theorem findSome_split {f : Nat → Option Obj} {pre post : List Nat} {a : Nat} (h : ∀ b ∈ pre, f b = none) :
    (pre ++ a :: post).findSome? f = (f a).or (post.findSome? f) := by
  induction pre with
  | nil =>
    rw [List.nil_append, List.findSome?_cons]
    cases f a <;> rfl
  | cons x r ih =>
    rw [List.cons_append, List.findSome?_cons, h x (List.mem_cons_self ..)]
    exact ih fun b hb => h b (List.mem_cons_of_mem _ hb)

/-- C72: the new attributes are found through every class that has the extended one in its method
resolution order (the class itself, subclasses), unless an earlier class has the name. -/
theorem C72_inherited {E : Env} {σ σ' : State} {a b : Nat} {L : Dict} {k : Str} {v : Obj} {pre post : List Nat}
    (h : After L (own σ a) k (own σ' a k)) (hf : ∀ c, c ≠ a → ∀ k, own σ' c k = own σ c k) (hr : ¬ Reserved k)
    (hv : L.lookup k = some v) (hm : (E.info b).mro = pre ++ a :: post) (hp : ∀ c ∈ pre, c ≠ a ∧ own σ c k = none) :
    lookupAttr E σ' b k = some v := by
  unfold lookupAttr
  rw [hm, findSome_split (fun c hc => by rw [hf c (hp c hc).1, (hp c hc).2]),
    Extend.After.unique h (.bound hr hv)]
  rfl

theorem findSome_congr {f g : Nat → Option Obj} : ∀ {l : List Nat}, (∀ b ∈ l, f b = g b) → l.findSome? f = l.findSome? g
  | [], _ => rfl
  | x :: r, h => by
    rw [List.findSome?_cons, List.findSome?_cons, h x (List.mem_cons_self ..),
      findSome_congr fun b hb => h b (List.mem_cons_of_mem _ hb)]

/-- C72: what the body does not mention is found as before, through every class. -/
theorem C72_inherited_keeps {E : Env} {σ σ' : State} {a b : Nat} {L : Dict} {k : Str}
    (h : After L (own σ a) k (own σ' a k)) (hf : ∀ c, c ≠ a → ∀ k, own σ' c k = own σ c k) (hv : ¬ Bound L k)
    (hh : k ≠ "__hash__".toList) : lookupAttr E σ' b k = lookupAttr E σ b k := by
  refine findSome_congr fun c _ => ?_
  by_cases hc : c = a
  · subst hc
    exact C72_keeps h hv hh
  · exact hf c hc k

/-! ## Classes of compiled modules -/

theorem firsts_append (l l' : List Str) :
    Extend.firsts (l ++ l') = Extend.firsts l ++ (Extend.firsts l').filter (fun k => decide (k ∉ l)) := by
  induction l with
  | nil => simp [Extend.firsts]
  | cons x r ih =>
    simp only [List.cons_append, Extend.firsts, ih, List.filter_append, List.filter_filter]
    congr 2
    apply List.filter_congr
    intro k _
    simp only [List.mem_cons, not_or]
    by_cases h : k = x <;> simp [h]

theorem execBody_keys {σ : State} : ∀ {body : List (Str × Expr)} {L0 L : Dict}, σ.execBody L0 body = .ok L →
    L.map Prod.fst = (body.map Prod.fst).reverse ++ L0.map Prod.fst
  | [], L0, L, h => by
    cases h
    simp
  | (k, e) :: r, L0, L, h => by
    unfold State.execBody at h
    cases he : σ.eval L0 e with
    | error x => rw [he] at h; cases h
    | ok x =>
      rw [he] at h
      have := execBody_keys (body := r) (L0 := (k, x) :: L0) h
      rw [this]
      simp

theorem copied_append (l l' : List (Str × Obj)) : Extend.copied (l ++ l') = Extend.copied l ++ Extend.copied l' :=
  List.filter_append ..

theorem addItem_append (d : List (Str × Obj)) (k : Str) (v : Obj) : ∃ t, Extend.addItem d k v = d ++ t := by
  unfold Extend.addItem
  split
  · exact ⟨[], by simp⟩
  · exact ⟨_, rfl⟩

theorem newClassDict_append (m : Str) (L : Dict) : ∃ t, Extend.newClassDict m L = Extend.bodyItems m L ++ t := by
  obtain ⟨t1, h1⟩ := addItem_append (Extend.bodyItems m L) "__dict__".toList .value
  obtain ⟨t2, h2⟩ := addItem_append (Extend.bodyItems m L ++ t1) "__weakref__".toList .value
  obtain ⟨t3, h3⟩ := addItem_append (Extend.bodyItems m L ++ t1 ++ t2) "__doc__".toList .none
  have hb : Extend.baseItems m L = Extend.bodyItems m L ++ (t1 ++ t2 ++ t3) := by
    unfold Extend.baseItems
    rw [h1, h2, h3]
    simp only [List.append_assoc]
  unfold Extend.newClassDict
  split
  · obtain ⟨t4, h4⟩ := addItem_append (Extend.baseItems m L) "__hash__".toList .none
    exact ⟨t1 ++ t2 ++ t3 ++ t4, by rw [h4, hb]; simp only [List.append_assoc]⟩
  · exact ⟨_, hb⟩

/-- C72: on a class of a compiled module (or, without capnpy._util, on any class that is not a Python
class) a body with a special method of the list raises TypeError.  The attributes whose names come
before it in the body have been set; nothing else has changed. -/
theorem C72_special_methods {E : Env} {σ : State} {target name : Str} {body : List (Str × Expr)} {a : Nat} {L : Dict}
    {pre post : List Str} {k0 : Str}
    (ht : σ.evalPath [] target = .ok (.ref a)) (hb : (E.info a).blob = true) (ha : a < σ.heap.length)
    (hL : σ.execBody [] body = .ok L) (hsplit : body.map Prod.fst = pre ++ k0 :: post)
    (hpre : ∀ k ∈ pre, ¬ Reserved k → Settable E a k) (hk0 : ¬ Reserved k0) (href : ¬ Settable E a k0) :
    ∃ σ', exec E σ (.extend target name body) = (σ', .error .typeError) ∧ σ'.globals = σ.globals ∧
      (∀ b, b ≠ a → ∀ k, own σ' b k = own σ b k) ∧
      (∀ k, k ∈ pre ∧ ¬ Reserved k → own σ' a k = L.lookup k) ∧
      ∀ k, ¬ (k ∈ pre ∧ ¬ Reserved k) → own σ' a k = own σ a k := by
  classical
  have hd : σ.heap[a]? = some σ.heap[a] := List.getElem?_eq_getElem ha
  have hq0 : k0 ≠ "__qualname__".toList := fun h => hk0 (Or.inr (Or.inr (Or.inr (Or.inr h))))
  have hm0 : k0 ≠ "__module__".toList := fun h => hk0 (Or.inr (Or.inr (Or.inl h)))
  have hx0 : k0 ∉ Extend.excluded := by
    rw [Extend.mem_excluded]
    rintro (h | h | h | h)
    · exact hk0 (Or.inl h)
    · exact hk0 (Or.inr (Or.inl h))
    · exact hk0 (Or.inr (Or.inr (Or.inl h)))
    · exact hk0 (Or.inr (Or.inr (Or.inr (Or.inl h))))
  have hk0pre : k0 ∉ pre := fun h => href (hpre k0 h hk0)
  have hkeys : L.map Prod.fst = (body.map Prod.fst).reverse := by
    have := execBody_keys hL
    simpa using this
  -- the names in order
  have hnames : ((L ++ [("__module__".toList, Obj.str E.modname)]).map Prod.fst).reverse =
      ("__module__".toList :: pre) ++ k0 :: post := by
    rw [List.map_append, hkeys, List.reverse_append, List.reverse_reverse, hsplit]
    rfl
  have hk0' : k0 ∉ ("__module__".toList :: pre) := by
    rw [List.mem_cons]
    rintro (h | h)
    · exact hm0 h
    · exact hk0pre h
  obtain ⟨v0, hv0⟩ : ∃ v, (L ++ [("__module__".toList, Obj.str E.modname)]).lookup k0 = some v := by
    rw [← Extend.mem_keys_lookup, ← List.mem_reverse, hnames]
    simp
  -- the items before the special method
  generalize hP : (((Extend.firsts ("__module__".toList :: pre)).filter
      fun k => decide (k ≠ "__qualname__".toList)).filterMap
    fun k => ((L ++ [("__module__".toList, Obj.str E.modname)]).lookup k).map fun v => (k, v)) = P
  obtain ⟨R, hR⟩ : ∃ R, Extend.newClassDict E.modname L = P ++ (k0, v0) :: R := by
    obtain ⟨t, h⟩ := newClassDict_append E.modname L
    rw [h]
    unfold Extend.bodyItems
    rw [hnames, firsts_append, List.filter_append, List.filterMap_append, hP]
    show ∃ R, P ++ (List.filter _ (List.filter _ (k0 :: _))).filterMap _ ++ t = _
    rw [List.filter_cons_of_pos (by exact decide_eq_true hk0'), List.filter_cons_of_pos (by exact decide_eq_true hq0),
      List.filterMap_cons, hv0]
    exact ⟨_, by simp only [Option.map_some, List.append_assoc, List.cons_append]; rfl⟩
  have hPk : ∀ k, k ∉ Extend.excluded → P.lookup k = if k ∈ pre ∧ k ≠ "__qualname__".toList then L.lookup k else none := by
    intro k hk
    rw [Extend.mem_excluded] at hk
    push Not at hk
    have hb : (k == "__module__".toList) = false := beq_eq_false_iff_ne.2 hk.2.2.1
    rw [← hP, Extend.lookup_filterMap, Extend.lookup_append, List.lookup_cons, hb]
    simp only [List.lookup_nil, Option.or_none]
    refine if_congr ?_ rfl rfl
    rw [List.mem_filter, Extend.mem_firsts, List.mem_cons, decide_eq_true_iff]
    constructor
    · rintro ⟨h | h, hq⟩
      · exact absurd h hk.2.2.1
      · exact ⟨h, hq⟩
    · rintro ⟨h, hq⟩
      exact ⟨Or.inr h, hq⟩
  have hPok : ∀ x ∈ P, x.1 ∉ Extend.excluded → ¬ Extend.Refused E.compiled (E.info a).heapType x.1 := by
    rintro ⟨k, v⟩ hx hk
    rw [← settable_iff]
    obtain ⟨w, hw⟩ := Extend.mem_keys_lookup.1 (List.mem_map_of_mem (f := Prod.fst) hx)
    rw [hPk k hk] at hw
    split at hw
    · next h =>
      refine hpre k h.1 ?_
      rw [Extend.mem_excluded] at hk
      push Not at hk
      rintro (h' | h' | h' | h' | h')
      · exact hk.1 h'
      · exact hk.2.1 h'
      · exact hk.2.2.1 h'
      · exact hk.2.2.2 h'
      · exact h.2 h'
    · cases hw
  have hPn : (P.map Prod.fst).Nodup := by
    have := Extend.newClassDict_nodup E.modname L
    rw [hR, List.map_append, List.nodup_append] at this
    exact this.1
  have hrefd : Extend.Refused E.compiled (E.info a).heapType k0 := by
    by_contra h
    exact href (settable_iff.2 h)
  have hfinal : ∀ k, ((Extend.copied P).reverse ++ σ.heap[a]).lookup k =
      (if k ∈ pre ∧ ¬ Reserved k then L.lookup k else none).or (own σ a k) := by
    intro k
    have ho : own σ a k = σ.heap[a].lookup k := by
      unfold own
      rw [hd]
      rfl
    rw [Extend.lookup_after hPn, ho]
    refine congrArg (fun o : Option Obj => o.or (σ.heap[a].lookup k)) ?_
    by_cases hk : k ∈ Extend.excluded
    · rw [if_pos hk, if_neg]
      rintro ⟨-, h⟩
      rw [Extend.mem_excluded] at hk
      rcases hk with h' | h' | h' | h'
      · exact h (Or.inl h')
      · exact h (Or.inr (Or.inl h'))
      · exact h (Or.inr (Or.inr (Or.inl h')))
      · exact h (Or.inr (Or.inr (Or.inr (Or.inl h'))))
    · rw [if_neg hk, hPk k hk]
      refine if_congr (and_congr_right fun _ => ?_) rfl rfl
      rw [Extend.mem_excluded] at hk
      push Not at hk
      constructor
      · rintro hq (h' | h' | h' | h' | h')
        · exact hk.1 h'
        · exact hk.2.1 h'
        · exact hk.2.2.1 h'
        · exact hk.2.2.2 h'
        · exact hq h'
      · exact fun h hq => h (Or.inr (Or.inr (Or.inr (Or.inr hq))))
  refine ⟨⟨σ.globals, σ.heap.set a ((Extend.copied P).reverse ++ σ.heap[a])⟩, ?_, rfl, ?_, ?_, ?_⟩
  · unfold exec
    simp only
    rw [target_ok ht hb]
    simp only
    rw [hL]
    simp only [Extend.extendClass, hd, hR, Extend.extendLoop_error hx0 hrefd R P _ hPok]
  · intro b hb k
    rw [own_set hd, if_neg hb]
  · intro k hk
    rw [own_set hd, if_pos rfl, hfinal, if_pos hk]
    obtain ⟨w, hw⟩ : ∃ w, L.lookup k = some w := by
      rw [← Extend.mem_keys_lookup, hkeys, List.mem_reverse, hsplit]
      exact List.mem_append_left _ hk.1
    rw [hw, Option.some_or]
  · intro k hk
    rw [own_set hd, if_pos rfl, hfinal, if_neg hk, Option.none_or]

/-- C72: the list has the special methods of Python 2: those of Python 3 only are taken without an
error (CPython does not call them, since the slots of the type are not updated). -/
theorem C72_python3_methods : "__bool__".toList ∉ slots ∧ "__next__".toList ∉ slots ∧ "__matmul__".toList ∉ slots ∧
    "__nonzero__".toList ∈ slots ∧ "next".toList ∈ slots := by
  decide +kernel

/-! ## Programs -/

/-- The statement does not concern the path `x.r₁.r₂…`: its class body binds no name of the `r`s, and
it gives `x` no other value: `@x.__extend__ class x` is allowed. -/
def Leaves (x : Str) (r : List Str) : XStmt → Prop
  | .extend target name body => (∀ k ∈ r, k ∉ body.map Prod.fst ∧ k ≠ "__hash__".toList) ∧ (name = x → target = x)
  | .assign name _ => name ≠ x

theorem extendLoop_frame {compiled heapType : Bool} {k : Str} : ∀ (items : List (Str × Obj)) (d : Dict),
    (∀ x ∈ items, x.1 ∉ Extend.excluded → x.1 ≠ k) →
    (Extend.extendLoop compiled heapType d items).1.lookup k = d.lookup k
  | [], d, _ => rfl
  | (j, v) :: r, d, h => by
    have ih := extendLoop_frame (compiled := compiled) (heapType := heapType) (k := k) r
    have hr := fun x hx => h x (List.mem_cons_of_mem _ hx)
    unfold Extend.extendLoop
    by_cases hj : j ∈ Extend.excluded
    · rw [if_pos hj]
      exact ih d hr
    · rw [if_neg hj]
      have hne : j ≠ k := h (j, v) (List.mem_cons_self ..) hj
      have hb : (k == j) = false := beq_eq_false_iff_ne.2 hne.symm
      by_cases hs : Extend.Refused compiled heapType j
      · rw [Extend.magicSetattr_error hs]
      · rw [Extend.magicSetattr_ok hs]
        simp only
        rw [ih _ hr, List.lookup_cons, hb]

theorem newClassDict_frame {m : Str} {L : Dict} {k : Str} (hk : k ∉ L.map Prod.fst) (hh : k ≠ "__hash__".toList) :
    ∀ x ∈ Extend.newClassDict m L, x.1 ∉ Extend.excluded → x.1 ≠ k := by
  classical
  rintro ⟨j, v⟩ hx hj rfl
  obtain ⟨w, hw⟩ := Extend.mem_keys_lookup.1 (List.mem_map_of_mem (f := Prod.fst) hx)
  rw [Extend.newClassDict_lookup _ _ _ hj, Extend.lookup_none.1 hk,
    if_neg (fun h => hh h.1 : ¬ (j = "__hash__".toList ∧ Bound L "__eq__".toList)), ite_self] at hw
  cases hw

theorem extendClass_frame {E : Env} {σ : State} {a : Nat} {items : List (Str × Obj)} {k : Str}
    (h : ∀ x ∈ items, x.1 ∉ Extend.excluded → x.1 ≠ k) (b : Nat) :
    own (Extend.extendClass E σ a items).1 b k = own σ b k ∧ (Extend.extendClass E σ a items).1.globals = σ.globals ∧
      ∀ c, (Extend.extendClass E σ a items).2 = .ok c → c = .ref a := by
  unfold Extend.extendClass
  cases hd : σ.heap[a]? with
  | none => exact ⟨rfl, rfl, fun c hc => by cases hc⟩
  | some d =>
    have hl := extendLoop_frame (compiled := E.compiled) (heapType := (E.info a).heapType) items d h
    simp only
    generalize Extend.extendLoop E.compiled (E.info a).heapType d items = R at hl ⊢
    obtain ⟨d', res⟩ := R
    have key : own ⟨σ.globals, σ.heap.set a d'⟩ b k = own σ b k := by
      rw [own_set hd]
      split
      · next hb =>
        subst hb
        unfold own
        rw [hd]
        exact hl
      · rfl
    cases res with
    | error e => exact ⟨key, rfl, fun c hc => by cases hc⟩
    | ok u => exact ⟨key, rfl, fun c hc => by cases hc; rfl⟩

theorem exec_frame {E : Env} {σ : State} {s : XStmt} {x : Str} {r : List Str} (hs : Leaves x r s) :
    (∀ b, ∀ k ∈ r, own (exec E σ s).1 b k = own σ b k) ∧
      ((∃ a, σ.globals.lookup x = some (.ref a)) → '.' ∉ x →
        (exec E σ s).1.globals.lookup x = σ.globals.lookup x) := by
  cases s with
  | assign name e =>
    unfold exec
    simp only
    cases σ.eval [] e with
    | error e => exact ⟨fun _ _ _ => rfl, fun _ _ => rfl⟩
    | ok o =>
      refine ⟨fun _ _ _ => rfl, fun _ _ => ?_⟩
      have hb : (x == name) = false := beq_eq_false_iff_ne.2 (Ne.symm hs)
      simp [List.lookup_cons, hb]
  | extend target name body =>
    obtain ⟨hr, hn⟩ := hs
    unfold exec
    simp only
    cases ht : (σ.evalPath [] target).bind (extendMethod E) with
    | error e => exact ⟨fun _ _ _ => rfl, fun _ _ => rfl⟩
    | ok a =>
      simp only
      cases hL : σ.execBody [] body with
      | error e => exact ⟨fun _ _ _ => rfl, fun _ _ => rfl⟩
      | ok L =>
        have hkeys : L.map Prod.fst = (body.map Prod.fst).reverse := by
          have := execBody_keys hL
          simpa using this
        have hf := fun k (hk : k ∈ r) => extendClass_frame (E := E) (σ := σ) (a := a)
          (newClassDict_frame (m := E.modname) (L := L) (k := k) (by rw [hkeys, List.mem_reverse]; exact (hr k hk).1)
            (hr k hk).2)
        have hg : (Extend.extendClass E σ a (Extend.newClassDict E.modname L)).1.globals = σ.globals ∧
            ∀ c, (Extend.extendClass E σ a (Extend.newClassDict E.modname L)).2 = .ok c → c = .ref a := by
          unfold Extend.extendClass
          cases σ.heap[a]? with
          | none => exact ⟨rfl, fun c hc => by cases hc⟩
          | some d =>
            simp only
            generalize Extend.extendLoop E.compiled (E.info a).heapType d (Extend.newClassDict E.modname L) = R
            obtain ⟨d', res⟩ := R
            cases res with
            | error e => exact ⟨rfl, fun c hc => by cases hc⟩
            | ok u => exact ⟨rfl, fun c hc => by cases hc; rfl⟩
        simp only
        generalize Extend.extendClass E σ a (Extend.newClassDict E.modname L) = R at hf hg ⊢
        obtain ⟨σ', res⟩ := R
        cases res with
        | error e => exact ⟨fun b k hk => (hf k hk b).1, fun _ _ => congrArg _ hg.1⟩
        | ok c =>
          refine ⟨fun b k hk => (hf k hk b).1, fun hx hdot => ?_⟩
          have hc := hg.2 c rfl
          have hgl : σ'.globals = σ.globals := hg.1
          show ((name, c) :: σ'.globals).lookup x = _
          rw [List.lookup_cons, hgl]
          by_cases hxn : x = name
          · obtain ⟨a', ha'⟩ := hx
            have htx := hn hxn.symm
            have : (σ.evalPath [] target).bind (extendMethod E) = extendMethod E (.ref a') := by
              rw [htx, evalPath_nodot (loc := []) hdot rfl ha']
              rfl
            rw [this] at ht
            have : a' = a := by
              unfold extendMethod at ht
              simp only at ht
              split at ht
              · cases ht; rfl
              · cases ht
            rw [ha', hc, this, hxn]
            simp
          · have hb : (x == name) = false := beq_eq_false_iff_ne.2 hxn
            rw [hb]

theorem run_frame {E : Env} {x : Str} {r : List Str} (hdot : '.' ∉ x) : ∀ (prog : List XStmt) (σ : State),
    (∀ s ∈ prog, Leaves x r s) → (∃ a, σ.globals.lookup x = some (.ref a)) →
    (∀ b, ∀ k ∈ r, own (Extend.run E σ prog).1 b k = own σ b k) ∧
      (Extend.run E σ prog).1.globals.lookup x = σ.globals.lookup x
  | [], σ, _, _ => ⟨fun _ _ _ => rfl, rfl⟩
  | s :: rest, σ, h, hx => by
    have h1 := exec_frame (E := E) (σ := σ) (h s (List.mem_cons_self ..))
    unfold Extend.run
    generalize exec E σ s = R at h1 ⊢
    obtain ⟨σ', res⟩ := R
    cases res with
    | error e => exact ⟨h1.1, h1.2 hx hdot⟩
    | ok u =>
      have hg := h1.2 hx hdot
      have ih := run_frame (E := E) (r := r) hdot rest σ' (fun t ht => h t (List.mem_cons_of_mem _ ht))
        (by simp only at hg; rw [hg]; exact hx)
      exact ⟨fun b k hk => (ih.1 b k hk).trans (h1.1 b k hk), ih.2.trans hg⟩

theorem getattr_own {σ σ' : State} {k : Str} (h : ∀ b, own σ' b k = own σ b k) (o : Obj) :
    σ'.getattr o k = σ.getattr o k := by
  cases o <;> try rfl
  next a =>
    have := h a
    unfold own at this
    unfold State.getattr
    simp only
    rw [this]

/-- C72: a program of class statements and assignments keeps what a path like `Outer.Inner` means,
unless it assigns `Outer` or binds `Inner` in the body of a class statement; also if it ends with an
exception. -/
theorem C72_keeps_path {E : Env} {σ : State} {prog : List XStmt} {x : Str} {r : List Str} {a : Nat}
    (hdot : ∀ s ∈ x :: r, '.' ∉ s) (hx : σ.globals.lookup x = some (.ref a)) (hs : ∀ s ∈ prog, Leaves x r s) :
    (Extend.run E σ prog).1.evalPath [] (dotted (x :: r)) = σ.evalPath [] (dotted (x :: r)) := by
  obtain ⟨h1, h2⟩ := run_frame (E := E) (hdot x (List.mem_cons_self ..)) prog σ hs ⟨a, hx⟩
  generalize (Extend.run E σ prog).1 = σ' at h1 h2 ⊢
  have key : ∀ (l : List Str), (∀ k ∈ l, k ∈ r) → ∀ o : Obj,
      l.foldlM (fun o a => σ'.getattr o a) o = l.foldlM (fun o a => σ.getattr o a) o := by
    intro l
    induction l with
    | nil => intro _ o; rfl
    | cons k l ih =>
      intro hl o
      rw [List.foldlM_cons, List.foldlM_cons, getattr_own (fun b => h1 b k (hl k (List.mem_cons_self ..)))]
      congr 1
      funext o'
      exact ih (fun j hj => hl j (List.mem_cons_of_mem _ hj)) o'
  unfold State.evalPath dotted
  rw [split_join (by simp) hdot]
  simp only
  have hl : σ'.lookup [] x = σ.lookup [] x := by
    unfold State.lookup
    simp only [List.lookup_nil, h2]
  rw [hl]
  congr 1
  funext o
  exact key r (fun _ h => h) o

/-- C72: the classes of a schema (C52) are the same objects with the same ids after its extension has
been executed. -/
theorem C72_types {g : Gen} {file : Tree} (ok : FileOK g file) (sup : Supported g file) {F : Nat} (hF : Deep file F)
    {σ0 σ : State} (hi : importModule g F σ0 = .ok σ) {x : Str} {r : List Str} {t : Tree} (h : Sub file (x :: r) t)
    (ht : Node.isType t.node) {E : Env} {prog : List XStmt}
    (hs : ∀ s ∈ prog, Leaves x (r ++ ["__capnpy_id__".toList]) s) :
    ∃ a, σ.evalPath [] (dotted (x :: r)) = .ok (.ref a) ∧
      (Extend.run E σ prog).1.evalPath [] (dotted (x :: r)) = .ok (.ref a) ∧
      HasId (Extend.run E σ prog).1 (.ref a) t.node.id := by
  obtain ⟨A, B, im⟩ := the_import ok sup hF hi
  obtain ⟨x', r', hxr, h1, h2⟩ := attrs_of ok im h ht
  cases hxr
  have hdot := h.no_dot ok
  have hs' : ∀ s ∈ prog, Leaves x r s := by
    intro s hsm
    have := hs s hsm
    cases s with
    | assign n e => exact this
    | extend n t b => exact ⟨fun k hk => this.1 k (List.mem_append_left _ hk), this.2⟩
  obtain ⟨a, e1, -, e3, -⟩ := C52_types ok sup hF hi h ht
  refine ⟨a, e1, ?_, ?_⟩
  · rw [C72_keeps_path hdot h1 hs', e1]
  · obtain ⟨f1, -⟩ := run_frame (E := E) (hdot x (List.mem_cons_self ..)) prog σ hs ⟨_, h1⟩
    unfold HasId
    rw [getattr_own (fun b => f1 b "__capnpy_id__".toList (by simp))]
    exact e3

/-! ## Which file is executed -/

theorem rsplit_none {c : Char} : ∀ {s : Str}, c ∉ s → Extend.rsplit c s = (none, s)
  | [], _ => rfl
  | x :: r, h => by
    rw [List.mem_cons, not_or] at h
    unfold Extend.rsplit
    rw [rsplit_none h.2]
    simp only
    rw [if_neg (Ne.symm h.1)]

theorem rsplit_some {c : Char} {post : Str} (h : c ∉ post) : ∀ (pre : Str),
    Extend.rsplit c (pre ++ c :: post) = (some pre, post)
  | [] => by
    show Extend.rsplit c (c :: post) = _
    unfold Extend.rsplit
    rw [rsplit_none h]
    simp only [if_true]
  | x :: r => by
    rw [List.cons_append]
    unfold Extend.rsplit
    rw [rsplit_some h r]

/-- C72: the extension of `/dir/stem.capnp` is `/dir/stem_extended.py`, if there is such a file.  The
stem may contain dots. -/
theorem C72_file {F : Files} {dir stem ext : Str} {m : Option Str} (h1 : '/' ∉ stem) (h2 : '/' ∉ ext) (h3 : '.' ∉ ext) :
    Extend.extensionFile F (some (dir ++ "/".toList ++ stem ++ ".".toList ++ ext)) m =
      .ok (if F.isFile (dir ++ "/".toList ++ stem ++ "_extended.py".toList) = true then
        some (dir ++ "/".toList ++ stem ++ "_extended.py".toList) else none) := by
  have hb : '/' ∉ stem ++ '.' :: ext := by
    rw [List.mem_append, List.mem_cons]
    rintro (h | h | h)
    · exact h1 h
    · exact absurd h (by decide)
    · exact h2 h
  have hs : dir ++ "/".toList ++ stem ++ ".".toList ++ ext = dir ++ '/' :: (stem ++ '.' :: ext) := by
    simp only [show "/".toList = ['/'] from rfl, show ".".toList = ['.'] from rfl, List.append_assoc,
      List.cons_append, List.nil_append]
  have hp : Extend.purebasename (dir ++ '/' :: (stem ++ '.' :: ext)) = stem := by
    unfold Extend.purebasename
    rw [rsplit_some hb]
    simp only
    rw [rsplit_some h3]
  have hn : Extend.newPath (dir ++ '/' :: (stem ++ '.' :: ext)) (stem ++ "_extended".toList) =
      dir ++ "/".toList ++ stem ++ "_extended.py".toList := by
    unfold Extend.newPath
    rw [rsplit_some hb]
    show dir ++ ['/'] ++ (stem ++ "_extended".toList) ++ ".py".toList = _
    rw [show "_extended.py".toList = "_extended".toList ++ ".py".toList from by decide]
    simp only [show "/".toList = ['/'] from rfl, List.append_assoc]
  unfold Extend.extensionFile
  rw [hs]
  simp only
  rw [hp, hn]

theorem map_joinWith {p : List Str} (h : ∀ s ∈ p, '.' ∉ s) :
    (joinWith '.' p).map (fun c => if c = '.' then '/' else c) = joinWith '/' p := by
  have hm : ∀ s : Str, '.' ∉ s → s.map (fun c => if c = '.' then '/' else c) = s := by
    intro s hs
    conv_rhs => rw [← List.map_id s]
    refine List.map_congr_left fun c hc => ?_
    have : c ≠ '.' := fun h => hs (h ▸ hc)
    rw [if_neg this]
    rfl
  induction p with
  | nil => rfl
  | cons x r ih =>
    cases r with
    | nil => exact hm x (h x (List.mem_cons_self ..))
    | cons y r =>
      have ih := ih fun s hs => h s (List.mem_cons_of_mem _ hs)
      unfold joinWith
      rw [List.map_append, List.map_append, hm x (h x (List.mem_cons_self ..)), ih]
      rfl

/-- C72: a module that was compiled to a file, `a.b.c`, takes the file `a/b/c_extended.py` from the
first directory of sys.path that has one; none: no extension. -/
theorem C72_search {F : Files} {comps : List Str} (h : ∀ s ∈ comps, '.' ∉ s) {f : Str} :
    Extend.extensionFile F none (some (dotted comps)) = .ok (some f) ↔
      ∃ pre d post, F.path = pre ++ d :: post ∧ f = d ++ "/".toList ++ joinWith '/' comps ++ "_extended.py".toList ∧
        F.isFile f = true ∧
        ∀ d' ∈ pre, F.isFile (d' ++ "/".toList ++ joinWith '/' comps ++ "_extended.py".toList) = false := by
  have hrel : ((dotted comps ++ "_extended".toList).map fun c => if c = '.' then '/' else c) ++ ".py".toList =
      joinWith '/' comps ++ "_extended.py".toList := by
    unfold dotted
    rw [List.map_append, map_joinWith h, List.append_assoc]
    congr 1
  have hfun : ∀ d : Str, d ++ ['/'] ++ (joinWith '/' comps ++ "_extended.py".toList) =
      d ++ "/".toList ++ joinWith '/' comps ++ "_extended.py".toList := by
    intro d
    simp only [show "/".toList = ['/'] from rfl, List.append_assoc]
  have he : Extend.extensionFile F none (some (dotted comps)) =
      .ok ((F.path.map fun d => d ++ "/".toList ++ joinWith '/' comps ++ "_extended.py".toList).find? F.isFile) := by
    unfold Extend.extensionFile
    simp only
    unfold Extend.findModule
    simp only
    rw [hrel]
    simp only [hfun]
  rw [he]
  constructor
  · intro hf
    injection hf with hf
    obtain ⟨hp, as, bs, hsp, hn⟩ := List.find?_eq_some_iff_append.1 hf
    obtain ⟨pre, q, h1, h2, h3⟩ := List.map_eq_append_iff.1 hsp
    obtain ⟨d, post, h4, h5, h6⟩ := List.map_eq_cons_iff.1 h3
    refine ⟨pre, d, post, by rw [h1, h4], h5.symm, hp, ?_⟩
    intro d' hd'
    have := hn _ (by rw [← h2]; exact List.mem_map_of_mem hd')
    simpa using this
  · rintro ⟨pre, d, post, h1, h2, h3, h4⟩
    congr 1
    refine List.find?_eq_some_iff_append.2 ⟨h3,
      pre.map (fun d => d ++ "/".toList ++ joinWith '/' comps ++ "_extended.py".toList),
      post.map (fun d => d ++ "/".toList ++ joinWith '/' comps ++ "_extended.py".toList), ?_, ?_⟩
    · rw [h1, List.map_append, List.map_cons, h2]
    · intro x hx
      obtain ⟨d', hd', rfl⟩ := List.mem_map.1 hx
      simpa using h4 d' hd'

/-- C72: … none if no directory has one. -/
theorem C72_search_none {F : Files} {comps : List Str} (h : ∀ s ∈ comps, '.' ∉ s)
    (hn : ∀ d ∈ F.path, F.isFile (d ++ "/".toList ++ joinWith '/' comps ++ "_extended.py".toList) = false) :
    Extend.extensionFile F none (some (dotted comps)) = .ok none := by
  cases he : Extend.extensionFile F none (some (dotted comps)) with
  | error e => unfold Extend.extensionFile at he; cases he
  | ok o =>
    cases o with
    | none => rfl
    | some f =>
      obtain ⟨pre, d, post, h1, h2, h3, -⟩ := (C72_search h).1 he
      rw [h2, hn d (by rw [h1]; simp)] at h3
      cases h3

/-- C72: without a file name and a module name: ValueError. -/
theorem C72_neither {E : Env} {F : Files} {σ : State} :
    Extend.extendModuleMaybe E F σ none none = (σ, .error .valueError) := rfl

/-- C72: a schema without an extension gives the module of C52; with one, its code is executed after
everything else, in the namespace of the module. -/
theorem C72_load {E : Env} {F : Files} {g : Gen} {fuel : Nat} {σ0 σ : State} {dir stem ext : Str}
    (hi : importModule g fuel σ0 = .ok σ) (h1 : '/' ∉ stem) (h2 : '/' ∉ ext) (h3 : '.' ∉ ext) :
    (F.isFile (dir ++ "/".toList ++ stem ++ "_extended.py".toList) = false →
      Extend.importExtended E F g fuel σ0 false (dir ++ "/".toList ++ stem ++ ".".toList ++ ext) = (σ, .ok ())) ∧
    (∀ prog, F.isFile (dir ++ "/".toList ++ stem ++ "_extended.py".toList) = true →
      F.source (dir ++ "/".toList ++ stem ++ "_extended.py".toList) = .ok prog →
      Extend.importExtended E F g fuel σ0 false (dir ++ "/".toList ++ stem ++ ".".toList ++ ext) =
        Extend.run E σ prog) := by
  have hf := C72_file (F := F) (dir := dir) (m := none) h1 h2 h3
  generalize dir ++ "/".toList ++ stem ++ ".".toList ++ ext = schema at hf ⊢
  generalize dir ++ "/".toList ++ stem ++ "_extended.py".toList = x at hf ⊢
  have key : Extend.importExtended E F g fuel σ0 false schema = Extend.extendModuleMaybe E F σ (some schema) none := by
    unfold Extend.importExtended
    rw [hi]
    rfl
  rw [key]
  unfold Extend.extendModuleMaybe
  rw [hf]
  constructor
  · intro h
    rw [h]
    rfl
  · intro prog h hs
    rw [h]
    simp only [if_true]
    rw [hs]

/-- C72: a module that was compiled to a file searches sys.path under its own name. -/
theorem C72_standalone {E : Env} {F : Files} {g : Gen} {fuel : Nat} {σ0 σ : State} {schema : Str} {comps : List Str}
    (hi : importModule g fuel σ0 = .ok σ) (hm : E.modname = dotted comps) (h : ∀ s ∈ comps, '.' ∉ s) :
    ((∀ d ∈ F.path, F.isFile (d ++ "/".toList ++ joinWith '/' comps ++ "_extended.py".toList) = false) →
      Extend.importExtended E F g fuel σ0 true schema = (σ, .ok ())) ∧
    (∀ pre d post prog, F.path = pre ++ d :: post →
      F.isFile (d ++ "/".toList ++ joinWith '/' comps ++ "_extended.py".toList) = true →
      (∀ d' ∈ pre, F.isFile (d' ++ "/".toList ++ joinWith '/' comps ++ "_extended.py".toList) = false) →
      F.source (d ++ "/".toList ++ joinWith '/' comps ++ "_extended.py".toList) = .ok prog →
      Extend.importExtended E F g fuel σ0 true schema = Extend.run E σ prog) := by
  have key : Extend.importExtended E F g fuel σ0 true schema =
      Extend.extendModuleMaybe E F σ none (some (dotted comps)) := by
    unfold Extend.importExtended
    rw [hi, hm]
    rfl
  rw [key]
  unfold Extend.extendModuleMaybe
  constructor
  · intro hn
    rw [C72_search_none h hn]
  · intro pre d post prog h1 h2 h3 h4
    rw [(C72_search h).2 ⟨pre, d, post, h1, rfl, h2, h3⟩]
    simp only
    rw [h4]

/-- C72: if a statement of the extension raises, the rest is not executed and loading the schema
raises the same exception. -/
theorem C72_raises {E : Env} {σ0 σ1 σ2 : State} {pre rest : List XStmt} {s : XStmt} {e : PyErr}
    (h1 : Extend.run E σ0 pre = (σ1, .ok ())) (h2 : exec E σ1 s = (σ2, .error e)) :
    Extend.run E σ0 (pre ++ s :: rest) = (σ2, .error e) := by
  induction pre generalizing σ0 with
  | nil =>
    cases h1
    show Extend.run E _ (s :: rest) = _
    unfold Extend.run
    rw [h2]
  | cons t pre ih =>
    unfold Extend.run at h1
    rw [List.cons_append]
    unfold Extend.run
    generalize exec E σ0 t = R at h1 ⊢
    obtain ⟨σ', res⟩ := R
    cases res with
    | error e => cases h1
    | ok u => exact ih h1

/-! ## Examples -/

/-- Address 0: `_Struct`, 1: `object`; the classes of the module follow.  Enums (`notBlob`) have no
`__extend__`. -/
def extendEnv (heapType : Bool) (notBlob : List Nat := []) : Env :=
  ⟨fun a => ⟨decide (a ∉ notBlob), heapType, if a = 0 then [0, 1] else if a = 1 then [1] else [a, 0, 1]⟩, true,
    "x".toList⟩

/-- Before the import: `_Struct` with a `__hash__`, and `object`. -/
def extendBefore : State := ⟨[("_Struct".toList, .ref 0)], [[("__hash__".toList, .int 7), ("compact".toList, .int 8)], []]⟩

/-- Files with one extension. -/
def extendFiles (f : String) (prog : List XStmt) : Files := ⟨fun s => decide (s = f.toList), fun _ => .ok prog, []⟩

/-- The module of `/d/x.capnp` with the extension `prog`. -/
def extendLoad (file : Tree) (heapType : Bool) (prog : List XStmt) : State × Py Unit :=
  Extend.importExtended (extendEnv heapType) (extendFiles "/d/x_extended.py" prog) (genOf file) 10 extendBefore false
    "/d/x.capnp".toList

/-- ```
@Outer.__extend__
class Outer:
    "a docstring"
    def norm(self): ...
    def __eq__(self, other): ...
``` -/
def extendProg : List XStmt := [.extend "Outer".toList "Outer".toList [("__doc__".toList, .id 1), ("norm".toList, .id 42),
  ("__eq__".toList, .id 43)]]

/-- The module after the extension: the class has the method, and is unhashable. -/
example : (extendLoad exFile true extendProg).2 = .ok () ∧
    (extendLoad exFile true extendProg).1.evalPath [] "Outer.norm".toList = .ok (.int 42) ∧
    (extendLoad exFile true extendProg).1.evalPath [] "Outer.Inner.__capnpy_id__".toList = .ok (.int 3) ∧
    (extendLoad exFile true extendProg).1.evalPath [] "Outer.__hash__".toList = .ok .none ∧
    (extendLoad exFile true extendProg).1.evalPath [] "Outer.__doc__".toList = .error .attributeError := by
  decide +kernel

/-- In a compiled module the same file fails, after `norm` was set. -/
example : (extendLoad exFile false extendProg).2 = .error .typeError ∧
    (extendLoad exFile false extendProg).1.evalPath [] "Outer.norm".toList = .ok (.int 42) ∧
    (extendLoad exFile false extendProg).1.evalPath [] "Outer.__eq__".toList = .error .attributeError := by
  decide +kernel

/-- The hypotheses of C72_types are met. -/
example : ∀ s ∈ extendProg, Leaves "Outer".toList ["Inner".toList, "__capnpy_id__".toList] s := by
  intro s hs
  rw [extendProg, List.mem_singleton] at hs
  subst hs
  unfold Leaves
  decide

/-- ```
struct Outer { struct Inner {} }
struct Inner {}
``` -/
def extendTwo : Tree := fileOf [
  .mk (nd 2 1 "Outer" (.struct false 0 (some []) false)) [leaf (nd 3 2 "Inner" (.struct false 0 (some []) false))],
  leaf (nd 4 1 "Inner" (.struct false 0 (some []) false))]

/-- ```
@Outer.Inner.__extend__
class Inner: ...
``` -/
def extendNested : List XStmt := [.extend "Outer.Inner".toList "Inner".toList [("norm".toList, .id 42)]]

/-- C72: extending a nested class under its own name binds this name in the module: if the module
has a class of the same name at top level, it is replaced by the nested one.  (The hypothesis of
C72_keeps_path about the names of the statements is needed.) -/
theorem C72_nested_replaces : FileOK (genOf extendTwo) extendTwo ∧ Supported (genOf extendTwo) extendTwo ∧
    afterImport extendTwo "Inner.__capnpy_id__" = .ok (.int 4) ∧ (extendLoad extendTwo true extendNested).2 = .ok () ∧
    (extendLoad extendTwo true extendNested).1.evalPath [] "Inner.__capnpy_id__".toList = .ok (.int 3) :=
  ⟨fileB_spec (by decide +kernel), supportedB_spec (by decide +kernel), by decide +kernel, by decide +kernel,
    by decide +kernel⟩

/-- C72: a standalone module can get the extension of another directory: `/app/a/b.py` with
`/app/a/b_extended.py` beside it, if `/site/a/b_extended.py` comes first in sys.path. -/
theorem C72_other_directory : ∃ F : Files, F.isFile "/app/a/b_extended.py".toList = true ∧
    F.isFile "/app/a/b.py".toList = true ∧ F.isFile "/site/a/b.py".toList = false ∧
    Extend.extensionFile F none (some "a.b".toList) = .ok (some "/site/a/b_extended.py".toList) :=
  ⟨⟨fun s => decide (s ∈ ["/app/a/b.py".toList, "/app/a/b_extended.py".toList, "/site/a/b_extended.py".toList]),
    fun _ => .ok [], ["/site".toList, "/app".toList]⟩, by decide +kernel, by decide +kernel, by decide +kernel,
    by decide +kernel⟩

/-- C72_search on an example: the first directory has no such file. -/
example : Extend.extensionFile ⟨fun s => decide (s = "/app/a/b_extended.py".toList), fun _ => .ok [],
    ["/site".toList, "/app".toList]⟩ none (some "a.b".toList) = .ok (some "/app/a/b_extended.py".toList) := by
  decide +kernel

/-- A subclass finds the new attribute, unless it has its own. -/
example : lookupAttr (extendEnv true) (extendLoad exFile true extendProg).1 2 "compact".toList =
    lookupAttr (extendEnv true) extendBefore 0 "compact".toList ∧
    lookupAttr (extendEnv true) (extendLoad exFile true [.extend "_Struct".toList "_Struct".toList [("norm".toList, .id 42)]]).1 2
      "norm".toList = some (.int 42) := by
  decide +kernel

end Capnpy.Props
