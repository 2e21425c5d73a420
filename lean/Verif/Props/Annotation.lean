import Verif.Model.Annotation

/-! # C43: looking up annotations

`hasAnnotation x obj id` is `m.has_annotation(obj, anncls)` for the annotation class
with that id; `x` is the state of the generator. -/

namespace Capnpy.Props

/-- What the caller expects: the first annotation with this id among those registered
for the object and then its own ones. -/
def expectedAnnotation (registered own : List AnnRef) (annId : Nat) : Option AnnRef :=
  (registered ++ own).find? fun a => a.id = annId

theorem firstWithId_eq (annId : Nat) (l : List AnnRef) :
    firstWithId annId l = l.find? fun a => a.id = annId := by
  induction l with
  | nil => rfl
  | cons a l ih =>
    unfold firstWithId
    by_cases h : a.id = annId
    · rw [if_pos h, List.find?_cons_of_pos (by simpa using h)]
    · rw [if_neg h, List.find?_cons_of_neg (by simpa using h), ih]

/-- The annotations which the schema gives the object. -/
def ownAnns (obj : AnnObj) : List AnnRef := obj.annotations.getD []

/-- The stored list of the object. -/
def storedAnns (x : Extra) (obj : AnnObj) : List AnnRef :=
  match obj.key with
  | none => []
  | some k => (x.lookup k).getD []

theorem hasAnnotation_answer (x : Extra) (obj : AnnObj) (annId : Nat) :
    (hasAnnotation x obj annId).1 = expectedAnnotation (storedAnns x obj) (ownAnns obj) annId := by
  obtain ⟨key, anns⟩ := obj
  unfold hasAnnotation expectedAnnotation storedAnns ownAnns
  cases key with
  | none => cases anns <;> simp [firstWithId_eq, firstWithId]
  | some k => cases hl : x.lookup k <;> cases anns <;> simp [firstWithId_eq, firstWithId, hl]

/-- `l` is `base` followed by any number of copies of `own`. -/
inductive Repeats (base own : List AnnRef) : List AnnRef → Prop
  | base : Repeats base own base
  | more {l} : Repeats base own l → Repeats base own (l ++ own)

theorem Repeats.answer {base own l : List AnnRef} (h : Repeats base own l) (annId : Nat) :
    expectedAnnotation l own annId = expectedAnnotation base own annId := by
  unfold expectedAnnotation
  induction h with
  | base => rfl
  | @more l _ ih =>
    rw [← ih]
    simp only [List.find?_append]
    cases (l.find? fun a => a.id = annId) <;> cases (own.find? fun a => a.id = annId) <;> rfl

/-- All objects in the history have the annotations which the schema gives to their key. -/
def OwnOf (own : Nat → List AnnRef) (obj : AnnObj) : Prop :=
  ∀ k, obj.key = some k → ownAnns obj = own k

theorem hasAnnotation_lookup (x : Extra) (obj : AnnObj) (annId : Nat) (k : Nat) :
    (hasAnnotation x obj annId).2.lookup k =
      if obj.key = some k ∧ obj.annotations.isSome then (x.lookup k).map (· ++ ownAnns obj) else x.lookup k := by
  obtain ⟨key, anns⟩ := obj
  unfold hasAnnotation ownAnns
  cases key with
  | none => cases anns <;> simp
  | some j =>
    cases anns with
    | none => simp
    | some own =>
      by_cases hjk : j = k
      · subst hjk
        cases hl : x.lookup j <;> simp [hl, List.lookup_cons]
      · have : (k == j) = false := by simpa using fun h => hjk h.symm
        cases hl : x.lookup j <;> simp [hl, List.lookup_cons, this, hjk]

/-- C43: earlier queries never change an answer: after any history of queries on
whatever objects, `has_annotation` answers as it would have answered before.
(An object is its key: two objects which are equal as dictionary keys are the same
schema object and have the same annotations.) -/
theorem C43_queries_do_not_matter (x : Extra) (own : Nat → List AnnRef) (qs : List (AnnObj × Nat))
    (hqs : ∀ q ∈ qs, OwnOf own q.1) (obj : AnnObj) (hobj : OwnOf own obj) (annId : Nat) :
    (hasAnnotation (annHistory x (qs.map fun q => .query q.1 q.2)) obj annId).1 = (hasAnnotation x obj annId).1 := by
  rw [hasAnnotation_answer, hasAnnotation_answer]
  have key : ∀ (qs : List (AnnObj × Nat)) (y : Extra), (∀ q ∈ qs, OwnOf own q.1) →
      (∀ k, ∃ l, Repeats ((x.lookup k).getD []) (own k) l ∧ (y.lookup k).getD [] = l) →
      ∀ k, ∃ l, Repeats ((x.lookup k).getD []) (own k) l ∧
        ((annHistory y (qs.map fun q => .query q.1 q.2)).lookup k).getD [] = l := by
    intro qs
    induction qs with
    | nil => intro y _ h; exact h
    | cons q qs ih =>
      intro y hq h
      refine ih _ (fun q' hq' => hq q' (by simp [hq'])) fun k => ?_
      obtain ⟨l, hl, e⟩ := h k
      show ∃ l, _ ∧ ((hasAnnotation y q.1 q.2).2.lookup k).getD [] = l
      rw [hasAnnotation_lookup]
      by_cases hc : q.1.key = some k ∧ q.1.annotations.isSome
      · rw [if_pos hc]
        have hown := hq q (by simp) k hc.1
        cases hy : y.lookup k with
        | none =>
          rw [hy] at e
          exact ⟨l, hl, e⟩
        | some l' =>
          rw [hy] at e
          simp only [Option.getD_some] at e
          subst e
          refine ⟨_, hl.more, ?_⟩
          rw [hown]; rfl
      · rw [if_neg hc]; exact ⟨l, hl, e⟩
  obtain ⟨k?, anns⟩ := obj
  cases k? with
  | none => rfl
  | some k =>
    obtain ⟨l, hl, e⟩ := key qs x hqs (fun k => ⟨_, .base, rfl⟩) k
    unfold storedAnns
    simp only
    rw [e, hobj k rfl]
    exact hl.answer annId

/-- C43: in a new generator, after registering annotations for an object, the answer is
the first one registered with that id, else the first one in the schema. -/
theorem C43_registered (obj : AnnObj) (k : Nat) (hk : obj.key = some k) (anns : List AnnRef) (annId : Nat) :
    (hasAnnotation (annHistory [] (anns.map fun a => .register obj a)) obj annId).1 =
      (anns ++ ownAnns obj).find? fun a => a.id = annId := by
  rw [hasAnnotation_answer]
  have : ∀ (anns : List AnnRef) (x : Extra),
      storedAnns (annHistory x (anns.map fun a => .register obj a)) obj = storedAnns x obj ++ anns := by
    intro anns
    induction anns with
    | nil => intro x; simp [annHistory]
    | cons a anns ih =>
      intro x
      show storedAnns (annHistory (AnnOp.run x (.register obj a)) _) obj = _
      rw [ih]
      unfold AnnOp.run registerExtra storedAnns
      rw [hk]
      simp only [hk, List.lookup_cons]
      simp
  rw [this]
  simp [storedAnns, hk, expectedAnnotation]

/-- C43: an object which nothing was registered for has the annotations of the schema,
whatever was registered or asked for other objects. -/
theorem C43_unregistered (ops : List AnnOp) (obj : AnnObj)
    (h : ∀ o a, AnnOp.register o a ∈ ops → o.key ≠ obj.key) (annId : Nat) :
    (hasAnnotation (annHistory [] ops) obj annId).1 = (ownAnns obj).find? fun a => a.id = annId := by
  rw [hasAnnotation_answer]
  have : storedAnns (annHistory [] ops) obj = [] := by
    unfold storedAnns
    cases hk : obj.key with
    | none => rfl
    | some k =>
      simp only
      have key : ∀ (ops : List AnnOp) (x : Extra), (∀ o a, AnnOp.register o a ∈ ops → o.key ≠ some k) →
          x.lookup k = none → (annHistory x ops).lookup k = none := by
        intro ops
        induction ops with
        | nil => intro x _ hx; exact hx
        | cons op ops ih =>
          intro x hops hx
          refine ih _ (fun o a hm => hops o a (by simp [hm])) ?_
          cases op with
          | query o id =>
            show (hasAnnotation x o id).2.lookup k = none
            rw [hasAnnotation_lookup, hx]; simp
          | register o a =>
            have ho := hops o a (by simp)
            cases hok : o.key with
            | none => simp only [AnnOp.run, registerExtra, hok]; exact hx
            | some j =>
              have hjk : (k == j) = false := by
                have : j ≠ k := fun h => ho (by rw [hok, h])
                simpa using fun h => this h.symm
              simp only [AnnOp.run, registerExtra, hok, List.lookup_cons, hjk]
              exact hx
      rw [key ops [] (fun o a hm => hk ▸ h o a hm) rfl]
      rfl
  rw [this]
  rfl

/-- With registrations in between, a query does matter: it leaves the schema's
annotations in the stored list, in front of what is registered later.  Here the object
has annotation `⟨1, 10⟩` in the schema and `⟨2, 0⟩`, `⟨1, 20⟩` are registered: the answer
for id 1 is the registered one, unless somebody asked in between. -/
theorem C43_query_between_registers :
    let obj : AnnObj := ⟨some 0, some [⟨1, 10⟩]⟩
    (hasAnnotation (annHistory [] [.register obj ⟨2, 0⟩, .register obj ⟨1, 20⟩]) obj 1).1 = some ⟨1, 20⟩ ∧
    (hasAnnotation (annHistory [] [.register obj ⟨2, 0⟩, .query obj 7, .register obj ⟨1, 20⟩]) obj 1).1 = some ⟨1, 10⟩ := by
  decide

/-- Every query makes the stored list of a registered object longer. -/
theorem C43_list_grows (obj : AnnObj) (k : Nat) (hk : obj.key = some k) (a : AnnRef) (annId n : Nat)
    (hown : obj.annotations.isSome) :
    (storedAnns (annHistory [] (.register obj a :: List.replicate n (.query obj annId))) obj).length =
      1 + n * (ownAnns obj).length := by
  have key : ∀ (n : Nat) (x : Extra) (l : List AnnRef), x.lookup k = some l →
      (storedAnns (annHistory x (List.replicate n (.query obj annId))) obj).length =
        l.length + n * (ownAnns obj).length := by
    intro n
    induction n with
    | zero =>
      intro x l hx
      simp [annHistory, storedAnns, hk, hx]
    | succ n ih =>
      intro x l hx
      rw [List.replicate_succ]
      show (storedAnns (annHistory (hasAnnotation x obj annId).2 _) obj).length = _
      rw [ih _ (l ++ ownAnns obj) (by rw [hasAnnotation_lookup, if_pos ⟨hk, hown⟩, hx]; rfl)]
      rw [List.length_append, Nat.succ_mul]
      omega
  show (storedAnns (annHistory (AnnOp.run [] (.register obj a)) _) obj).length = _
  rw [key n _ [a] (by simp [AnnOp.run, registerExtra, hk, List.lookup_cons])]
  rfl

/-! A concrete case: an object with a registered annotation, asked several times. -/

example : let obj : AnnObj := ⟨some 0, some [⟨1, 10⟩]⟩
    (hasAnnotation (annHistory [] [.register obj ⟨2, 20⟩, .query obj 1, .query obj 2]) obj 2).1 = some ⟨2, 20⟩ := by
  decide

example : OwnOf (fun _ => [⟨1, 10⟩]) ⟨some 0, some [⟨1, 10⟩]⟩ := fun _ _ => rfl

end Capnpy.Props
