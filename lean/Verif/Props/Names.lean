import Verif.Model.Names
import Verif.Props.Fields

/-!
# C35, C37: enum names and name conversion
-/

namespace Capnpy.Props

open Capnpy Spec Names

/-! ## C37 -/

theorem toNat_ofNat_small {n : Nat} (h : n < 128) : (Char.ofNat n).toNat = n := by
  have : n.isValidChar := by left; omega
  unfold Char.ofNat
  rw [dif_pos this]
  rfl

theorem lowerChar_not_upper (c : Char) : isUpper (lowerChar c) = false := by
  unfold lowerChar
  by_cases h : isUpper c = true
  · rw [if_pos h]
    have h1 : 65 ≤ c.toNat ∧ c.toNat ≤ 90 := by
      simpa [isUpper] using h
    have h2 := toNat_ofNat_small (n := c.toNat + 32) (by omega)
    have h3 : ¬ (c.toNat + 32 ≤ 'Z'.toNat) := by
      have : 'Z'.toNat = 90 := by decide
      omega
    unfold isUpper
    rw [h2, decide_eq_false h3, Bool.and_false]
  · rw [if_neg h]; simpa using h

theorem lowerChar_of_not_upper {c : Char} (h : isUpper c = false) : lowerChar c = c := by
  unfold lowerChar; simp [h]

theorem subA_id (s : List Char) (h : ∀ c ∈ s, isUpper c = false) : subA s = s := by
  fun_induction subA s with
  | case1 c u l rest hc =>
    have := h u (by simp)
    simp [this] at hc
  | case2 c u l rest hc ih =>
    rw [ih (fun x hx => h x (by simp only [List.mem_cons] at hx ⊢; tauto))]
  | case3 => rfl
  | case4 => rfl
  | case5 => rfl

theorem subB_id (s : List Char) (h : ∀ c ∈ s, isUpper c = false) : subB s = s := by
  fun_induction subB s with
  | case1 c u rest hc ih =>
    have := h u (by simp)
    simp [this] at hc
  | case2 c u rest hc ih =>
    rw [ih (fun x hx => h x (by simp only [List.mem_cons] at hx ⊢; tauto))]
  | case3 => rfl
  | case4 => rfl

theorem lower_id (s : List Char) (h : ∀ c ∈ s, isUpper c = false) : lower s = s := by
  unfold lower
  conv => rhs; rw [← List.map_id s]
  exact List.map_congr_left (fun c hc => lowerChar_of_not_upper (h c hc))

/-- C37: the converted name contains no uppercase ASCII letter. -/
theorem C37_no_uppercase (name : List Char) : ∀ c ∈ fromCamelCase name, isUpper c = false := by
  intro c hc
  unfold fromCamelCase lower at hc
  obtain ⟨d, -, rfl⟩ := List.mem_map.mp hc
  exact lowerChar_not_upper d

/-- C37: a name without uppercase letters (snake_case) is unchanged. -/
theorem C37_snake_case_unchanged (name : List Char) (h : ∀ c ∈ name, isUpper c = false) :
    fromCamelCase name = name := by
  unfold fromCamelCase
  rw [subA_id name h, subB_id name h, lower_id name h]

/-- C37: conversion is idempotent. -/
theorem C37_idempotent (name : List Char) :
    fromCamelCase (fromCamelCase name) = fromCamelCase name :=
  C37_snake_case_unchanged _ (C37_no_uppercase name)

theorem subA_filter (s : List Char) : (subA s).filter (· ≠ '_') = s.filter (· ≠ '_') := by
  fun_induction subA s with
  | case1 c u l rest hc ih =>
    have hs : rest.filter (· ≠ '_') = (rest.takeWhile isLower).filter (· ≠ '_')
        ++ (rest.dropWhile isLower).filter (· ≠ '_') := by
      rw [← List.filter_append, List.takeWhile_append_dropWhile]
    simp only [List.filter_cons, List.filter_append, ih, hs]
    simp
  | case2 c u l rest hc ih => simp only [List.filter_cons (x := c), ih]
  | case3 => rfl
  | case4 => rfl
  | case5 => rfl

theorem subB_filter (s : List Char) : (subB s).filter (· ≠ '_') = s.filter (· ≠ '_') := by
  fun_induction subB s with
  | case1 c u rest hc ih =>
    simp only [List.filter_cons, ih]
    simp
  | case2 c u rest hc ih => simp only [List.filter_cons (x := c), ih]
  | case3 => rfl
  | case4 => rfl

theorem lowerChar_underscore (c : Char) : lowerChar c = '_' ↔ c = '_' := by
  constructor
  · intro h
    unfold lowerChar at h
    by_cases hu : isUpper c = true
    · rw [if_pos hu] at h
      have h1 : 65 ≤ c.toNat ∧ c.toNat ≤ 90 := by simpa [isUpper] using hu
      have h2 := toNat_ofNat_small (n := c.toNat + 32) (by omega)
      rw [h] at h2
      have : '_'.toNat = 95 := by decide
      omega
    · rwa [if_neg hu] at h
  · rintro rfl; decide

theorem lower_filter (s : List Char) : (lower s).filter (· ≠ '_') = lower (s.filter (· ≠ '_')) := by
  unfold lower
  induction s with
  | nil => rfl
  | cons c s ih =>
    simp only [List.map_cons, List.filter_cons]
    by_cases h : c = '_'
    · subst h
      have : lowerChar '_' = '_' := by decide
      rw [this]; simpa using ih
    · have h2 : ¬ lowerChar c = '_' := by rw [lowerChar_underscore]; exact h
      simp only [ne_eq, h, h2, not_false_eq_true, decide_true, if_true, List.map_cons]
      rw [← ih]

/-- C37: conversion only inserts underscores and lowercases letters: apart from
underscores, the result is the lowercased name. -/
theorem C37_only_inserts_underscores (name : List Char) :
    (fromCamelCase name).filter (· ≠ '_') = lower (name.filter (· ≠ '_')) := by
  unfold fromCamelCase
  rw [lower_filter, subB_filter, subA_filter]

theorem subA_head (s : List Char) : (subA s).head? = s.head? := by
  fun_induction subA s <;> rfl
theorem subB_head (s : List Char) : (subB s).head? = s.head? := by
  fun_induction subB s <;> rfl

/-- C37: no underscore is inserted at the start: the first character is the first
character of the name, lowercased. -/
theorem C37_first_character (name : List Char) :
    (fromCamelCase name).head? = name.head?.map lowerChar := by
  unfold fromCamelCase lower
  rw [List.head?_map, subB_head, subA_head]

/-! What the conversion does, in full: the specification says where the underscores go. -/

/-- An underscore goes between `p` and `c` (followed by `next`) if `c` is an uppercase letter
and either `p` is a lowercase letter or a digit, or `c` starts a capitalized word. -/
def splitsBefore (p c : Char) (next : Option Char) : Bool :=
  isUpper c && (isLower p || isDigit p || (p != '\n' && next.any isLower))

/-- The rest of a converted name, after the character `p`. -/
def snakeFrom (p : Char) : List Char → List Char
  | [] => []
  | c :: rest => (if splitsBefore p c rest.head? then ['_', c] else [c]) ++ snakeFrom c rest

/-- `subB`, with the character before. -/
def goB (p : Char) : List Char → List Char
  | [] => []
  | c :: rest => (if (isLower p || isDigit p) && isUpper c then ['_', c] else [c]) ++ goB c rest

theorem not_ld_of_upper {c : Char} (h : isUpper c = true) : (isLower c || isDigit c) = false := by
  unfold isUpper at h
  unfold isLower isDigit
  simp only [Bool.and_eq_true, decide_eq_true_eq] at h
  have h1 : 'A'.toNat = 65 := by decide
  have h2 : 'Z'.toNat = 90 := by decide
  have h3 : 'a'.toNat = 97 := by decide
  have h5 : '9'.toNat = 57 := by decide
  rw [h1, h2] at h
  rw [h3, h5]
  simp only [Bool.or_eq_false_iff, Bool.and_eq_false_iff, decide_eq_false_iff_not]
  omega

theorem not_upper_of_lower {c : Char} (h : isLower c = true) : isUpper c = false := by
  cases hu : isUpper c with
  | false => rfl
  | true => have := not_ld_of_upper hu; simp [h] at this

theorem subB_goB (p : Char) (s : List Char) : subB (p :: s) = p :: goB p s := by
  induction hn : s.length using Nat.strong_induction_on generalizing p s with
  | _ n ih =>
    cases s with
    | nil => simp [subB, goB]
    | cons c rest =>
      unfold subB goB
      by_cases h : ((isLower p || isDigit p) && isUpper c) = true
      · rw [if_pos h, if_pos h]
        have hc : isUpper c = true := by simp only [Bool.and_eq_true] at h; exact h.2
        cases rest with
        | nil => simp [subB, goB]
        | cons d rest' =>
          rw [ih rest'.length (by rw [← hn]; simp only [List.length_cons]; omega) d rest' rfl]
          conv => rhs; unfold goB
          rw [not_ld_of_upper hc]
          simp
      · rw [if_neg h, if_neg h, ih rest.length (by rw [← hn]; simp) c rest rfl]
        rfl

theorem goB_lower : ∀ (p : Char) (run tail : List Char), (∀ c ∈ run, isLower c = true) →
    goB p (run ++ tail) = run ++ goB (run.getLast?.getD p) tail
  | _, [], _, _ => rfl
  | p, c :: run, tail, h => by
    rw [List.cons_append]
    conv => lhs; unfold goB
    rw [not_upper_of_lower (h c (by simp)), Bool.and_false, if_neg (by simp),
      goB_lower c run tail (fun x hx => h x (by simp [hx]))]
    cases run with
    | nil => rfl
    | cons d run => simp [List.getLast?_cons_cons, List.getLast?_cons]

theorem snake_lower : ∀ (p : Char) (run tail : List Char), (∀ c ∈ run, isLower c = true) →
    snakeFrom p (run ++ tail) = run ++ snakeFrom (run.getLast?.getD p) tail
  | _, [], _, _ => rfl
  | p, c :: run, tail, h => by
    rw [List.cons_append]
    conv => lhs; unfold snakeFrom
    unfold splitsBefore
    rw [not_upper_of_lower (h c (by simp)), Bool.false_and, if_neg (by simp),
      snake_lower c run tail (fun x hx => h x (by simp [hx]))]
    cases run with
    | nil => rfl
    | cons d run => simp [List.getLast?_cons_cons, List.getLast?_cons]

theorem subA_cons (p : Char) (s : List Char) : ∃ t, subA (p :: s) = p :: t := by
  have := subA_head (p :: s)
  cases h : subA (p :: s) with
  | nil => rw [h] at this; cases this
  | cons q t => rw [h] at this; simp at this; subst this; exact ⟨t, rfl⟩

theorem sub_spec (p : Char) (s : List Char) : subB (subA (p :: s)) = p :: snakeFrom p s := by
  induction hn : s.length using Nat.strong_induction_on generalizing p s with
  | _ n ih =>
    match s, hn with
    | [], _ => simp [subA, subB, snakeFrom]
    | [c], _ =>
      simp only [subA, subB_goB, goB, snakeFrom, splitsBefore]
      simp [Bool.and_comm]
    | u :: l :: rest, hn =>
      unfold subA
      by_cases h : p ≠ '\n' ∧ isUpper u = true ∧ isLower l = true
      · rw [if_pos h]
        obtain ⟨h1, h2, h3⟩ := h
        rw [subB_goB]
        have e1 : goB p ('_' :: u :: l :: (rest.takeWhile isLower ++ subA (rest.dropWhile isLower))) =
            '_' :: u :: goB u ((l :: rest.takeWhile isLower) ++ subA (rest.dropWhile isLower)) := by
          unfold goB
          have hu : isUpper '_' = false := by decide
          have hl : (isLower '_' || isDigit '_') = false := by decide
          rw [hu, Bool.and_false, if_neg (by simp)]
          conv => lhs; unfold goB
          rw [hl, Bool.false_and, if_neg (by simp)]
          rfl
        have hrun : ∀ c ∈ l :: rest.takeWhile isLower, isLower c = true := by
          intro c hc
          rcases List.mem_cons.mp hc with rfl | hc
          · exact h3
          · exact (List.all_eq_true.mp (List.all_takeWhile (p := isLower) (l := rest))) c hc
        rw [e1, goB_lower u _ _ hrun]
        have e2 : snakeFrom p (u :: l :: rest) =
            '_' :: u :: snakeFrom u ((l :: rest.takeWhile isLower) ++ rest.dropWhile isLower) := by
          conv => lhs; unfold snakeFrom
          have : splitsBefore p u (l :: rest).head? = true := by
            unfold splitsBefore; simp [h1, h2, h3]
          rw [if_pos this, List.cons_append (a := l), List.takeWhile_append_dropWhile]
          rfl
        rw [e2, snake_lower u _ _ hrun]
        have hz : isLower ((l :: rest.takeWhile isLower).getLast?.getD u) = true := by
          rw [List.getLast?_eq_some_getLast (by simp)]
          exact hrun _ (List.getLast_mem _)
        generalize (l :: rest.takeWhile isLower).getLast?.getD u = z at hz
        have key : goB z (subA (rest.dropWhile isLower)) = snakeFrom z (rest.dropWhile isLower) := by
          have hlen := (List.dropWhile_sublist isLower (l := rest)).length_le
          cases hr : rest.dropWhile isLower with
          | nil => simp [subA, goB, snakeFrom]
          | cons d r =>
            rw [hr, List.length_cons] at hlen
            have hi := ih r.length (by rw [← hn]; simp only [List.length_cons]; omega) d r rfl
            obtain ⟨t, ht⟩ := subA_cons d r
            rw [ht, subB_goB] at hi
            have hi : goB d t = snakeFrom d r := by injection hi
            rw [ht]
            conv => lhs; unfold goB
            conv => rhs; unfold snakeFrom
            rw [hi]
            unfold splitsBefore
            simp [hz]
        rw [key]
      · rw [if_neg h]
        have hi := ih (l :: rest).length (by rw [← hn]; simp) u (l :: rest) rfl
        obtain ⟨t, ht⟩ := subA_cons u (l :: rest)
        rw [ht, subB_goB] at hi
        have hi : goB u t = snakeFrom u (l :: rest) := by injection hi
        rw [ht, subB_goB]
        conv => lhs; unfold goB
        conv => rhs; unfold snakeFrom
        rw [hi]
        have : splitsBefore p u (l :: rest).head? = ((isLower p || isDigit p) && isUpper u) := by
          unfold splitsBefore
          simp only [List.head?_cons, Option.any_some]
          by_cases hp : p = '\n'
          · subst hp
            have : isLower '\n' = false := by decide
            have : isDigit '\n' = false := by decide
            simp [*]
          · cases hu : isUpper u with
            | false => simp
            | true =>
              cases hl : isLower l with
              | true => exact absurd ⟨hp, hu, hl⟩ h
              | false => simp
        rw [this]

/-- C37: where the underscores go. -/
theorem C37_characterization (c : Char) (rest : List Char) :
    fromCamelCase (c :: rest) = lower (c :: snakeFrom c rest) := by
  unfold fromCamelCase
  rw [sub_spec]

/-- C37: after conversion and mangling the name is never a Python keyword. -/
theorem C37_never_a_keyword (kwlist : List (List Char)) (hk : ∀ k ∈ kwlist, k ++ ['_'] ∉ kwlist)
    (cc : Bool) (name : List Char) : pyFieldName kwlist cc name ∉ kwlist := by
  unfold pyFieldName mangleName
  generalize (if cc = true then fromCamelCase name else name) = n
  by_cases h : n ∈ kwlist
  · rw [if_pos h]; exact hk _ h
  · rw [if_neg h]; exact h

example : fromCamelCase "fooBarXYZBaz2Qux".toList = "foo_bar_xyz_baz2_qux".toList := by
  decide +kernel
example : fromCamelCase "getHTTPResponse".toList = "get_http_response".toList := by
  decide +kernel

/-- Finding: the conversion is not injective, so two fields with distinct schema names
can get the same Python name. -/
theorem C37_collision : "fooBar".toList ≠ "fooBAR".toList ∧
    fromCamelCase "fooBar".toList = fromCamelCase "fooBAR".toList := by decide +kernel

/-- Finding: so can the mangling of keywords: the schema names `from` and `from_`. -/
theorem C37_mangle_collision : pyFieldName ["from".toList] true "from".toList
    = pyFieldName ["from".toList] true "from_".toList := by decide +kernel

/-! ## C35 -/

/-- The claim of C35 about one value: the name is the member's name when the value is
the index of a member, and `unknown<n>` otherwise. -/
def NameSpec (members : List String) (n : Int) (s : String) : Prop :=
  (∀ i : Nat, n = i → ∀ m, members[i]? = some m → s = m) ∧
  ((n < 0 ∨ members.length ≤ n) → s = "unknown<" ++ toString n ++ ">")

theorem classAttr_name (members : List String) (h : "name" ∉ members) :
    classAttr members "name" = some .nameProperty := by
  have : (fillEnum members).reverse.lookup "name" = none := by
    rw [List.lookup_eq_none_iff]
    intro p hp
    simp only [List.mem_reverse, fillEnum, List.mem_map] at hp
    obtain ⟨⟨m, i⟩, hq, rfl⟩ := hp
    have := (List.mem_zipIdx hq).2.2
    simp only [bne_iff_ne, ne_eq]
    rintro rfl
    apply h
    rw [this]
    exact List.getElem_mem _
  unfold classAttr
  rw [this]; rfl

theorem tupleGet_nonneg {α} (t : List α) (i : Nat) : tupleGet t (i : Int) = t[i]? := by
  unfold tupleGet
  simp only
  rw [if_neg (by omega), if_neg (by omega), Int.toNat_natCast]

/-- C35: the name of every value of every enum without a member called "name".
A value that is the index of a member has that member's name; a value which is too
large, or below `-len(members)`, is `unknown<n>`; the remaining negative values are
Python negative indices, counted from the end. -/
theorem C35_name (members : List String) (hn : "name" ∉ members) (n : Int) :
    ∃ s, enumName members n = .str s ∧ enumStr members n = .ok s ∧
      (∀ (i : Nat) m, members[i]? = some m → (n = i ∨ n = (i : Int) - members.length) → s = m) ∧
      ((n < -members.length ∨ members.length ≤ n) → s = "unknown<" ++ toString n ++ ">") := by
  have e : enumName members n = .str (nameOf members n) := by
    unfold enumName; rw [classAttr_name members hn]
  refine ⟨_, e, by unfold enumStr; rw [e], ?_, ?_⟩
  · rintro i m hm (rfl | rfl)
    · unfold nameOf
      rw [tupleGet_nonneg members i, hm]
    · have hi : i < members.length := by
        by_contra hc
        rw [List.getElem?_eq_none (by omega)] at hm
        cases hm
      unfold nameOf tupleGet
      simp only
      rw [if_pos (show (i : Int) - members.length < 0 by omega),
        if_neg (show ¬ (i : Int) - members.length + members.length < 0 by omega),
        show ((i : Int) - members.length + members.length).toNat = i by omega, hm]
  · rintro (h | h)
    · unfold nameOf tupleGet
      simp only
      rw [if_pos (show n < 0 by omega), if_pos (show n + (members.length : Int) < 0 by omega)]
    · obtain ⟨k, rfl⟩ := Int.eq_ofNat_of_zero_le (show 0 ≤ n by omega)
      have : members[k]? = none := by
        rw [List.getElem?_eq_none_iff]; omega
      unfold nameOf
      rw [tupleGet_nonneg members k, this]

/-- C35: for the values the wire can hold as unsigned 16-bit enum values, i.e. for
non-negative ones, this is the plain specification. -/
theorem C35_name_nonneg (members : List String) (hn : "name" ∉ members) (n : Int) (h0 : 0 ≤ n) :
    ∃ s, enumName members n = .str s ∧ enumStr members n = .ok s ∧ NameSpec members n s := by
  obtain ⟨s, h1, h2, h3, h4⟩ := C35_name members hn n
  exact ⟨s, h1, h2, fun i hi m hm => h3 i m hm (.inl hi), fun h => h4 (by omega)⟩

/-- Finding: the remaining negative values are used as Python negative indices: the
name of -1 is the last member's.  A 16-bit enum value of 65535 is read as -1. -/
theorem C35_negative_value : ∃ members : List String, ∃ n : Int,
    enumName members n = .str "green" ∧ ¬ NameSpec members n "green" := by
  refine ⟨["red", "green"], -1, by decide +kernel, ?_⟩
  intro h
  have := h.2 (Or.inl (by decide))
  revert this
  decide +kernel

/-- Finding: if the schema has an enumerant called `name`, `e.name` is that member for
every value, and `str(e)` raises TypeError. -/
theorem C35_member_called_name (pre post : List String) (h : "name" ∉ post) (v : Int) :
    enumName (pre ++ "name" :: post) v = .member pre.length ∧
    enumStr (pre ++ "name" :: post) v = .error .typeError := by
  have e : enumName (pre ++ "name" :: post) v = .member pre.length := by
    have : (fillEnum (pre ++ "name" :: post)).reverse.lookup "name" = some (.member pre.length) := by
      have h1 : fillEnum (pre ++ "name" :: post) =
          (pre.zipIdx.map fun (m, i) => (m, Attr.member ((i : Nat) : Int))) ++
          (("name", Attr.member (pre.length : Int)) ::
            ((post.zipIdx (pre.length + 1)).map fun (m, i) => (m, Attr.member ((i : Nat) : Int)))) := by
        unfold fillEnum
        rw [List.zipIdx_append, List.map_append, List.zipIdx_cons, List.map_cons]
        simp
      rw [h1, List.reverse_append, List.reverse_cons, List.append_assoc, List.lookup_append]
      have h2 : (((post.zipIdx (pre.length + 1)).map
          fun (m, i) => (m, Attr.member ((i : Nat) : Int))).reverse).lookup "name" = none := by
        rw [List.lookup_eq_none_iff]
        intro p hp
        simp only [List.mem_reverse, List.mem_map] at hp
        obtain ⟨⟨m, i⟩, hq, rfl⟩ := hp
        have := (List.mem_zipIdx hq).2.2
        simp only [bne_iff_ne, ne_eq]
        rintro rfl
        apply h
        rw [this]
        exact List.getElem_mem _
      rw [h2]
      simp
    unfold enumName classAttr
    rw [this]
  exact ⟨e, by unfold enumStr; rw [e]⟩

/-- C35: with distinct member names, the class attribute of each member is its index,
so `Color.red.name == 'red'`. -/
theorem C35_members (members : List String) (hd : members.Nodup) (hn : "name" ∉ members) (i : Nat)
    (m : String) (hm : members[i]? = some m) :
    classAttr members m = some (.member i) ∧ enumName members i = .str m := by
  constructor
  · have : (fillEnum members).reverse.lookup m = some (.member i) := by
      have hnd : ((fillEnum members).map Prod.fst) = members := by
        unfold fillEnum
        rw [List.map_map]
        exact List.zipIdx_map_fst 0 members
      have hin : (m, Attr.member (i : Int)) ∈ (fillEnum members).reverse := by
        rw [List.mem_reverse]
        unfold fillEnum
        rw [List.mem_map]
        exact ⟨(m, i), by rw [List.mem_zipIdx_iff_getElem?]; simpa using hm, rfl⟩
      have hnd2 : ((fillEnum members).reverse.map Prod.fst).Nodup := by
        rw [List.map_reverse, hnd]; exact List.nodup_reverse.mpr hd
      generalize (fillEnum members).reverse = l at hin hnd2
      induction l with
      | nil => simp at hin
      | cons p l ih =>
        obtain ⟨k, a⟩ := p
        simp only [List.map_cons, List.nodup_cons] at hnd2
        rcases List.mem_cons.mp hin with h | h
        · injection h with h1 h2
          subst h1; subst h2
          simp
        · have hne : m ≠ k := by
            rintro rfl
            exact hnd2.1 (List.mem_map.mpr ⟨_, h, rfl⟩)
          have : (m == k) = false := by simpa using hne
          simp only [List.lookup, this]
          exact ih h hnd2.2
    unfold classAttr
    rw [this]
  · obtain ⟨s, e, -, h1, -⟩ := C35_name_nonneg members hn i (by omega)
    rw [e, h1 i rfl m hm]

example : enumName ["red", "green"] 1 = .str "green" ∧ enumName ["red", "green"] 2 = .str "unknown<2>" := by
  decide +kernel

end Capnpy.Props
