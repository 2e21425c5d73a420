import Verif.Spec.KeyRead
import Verif.Proof.ReprMain
import Verif.Proof.Key
import Verif.Proof.VirtualGroup
import Verif.Proof.CtorBits
import Verif.Props.CyReader
import Verif.Props.Options

/-! # Keys of messages: lemmas -/

namespace Capnpy.KeyRead

open Key Hash Spec Props Cy
open Capnpy.Repr (Env Kind RField decodeUtf8)
open Capnpy.Spec.Short (getText_spec ensureMember_spec valueOf_h_eq bytesZ_length readInt16_spec group_spec decodeUtf8_isSome)
open Spec.Short (textOf dataOf tagOf)

theorem Same.liftOk {α} {c : CRes α} {v : α} {p : Py α} (h : Agree p c) (hv : p = .ok v) : c = .ret (.ok v) false := by
  have := Same.of_ok h hv
  rw [hv] at this
  exact this

/-- One step of compiled code. -/
theorem bindC {α β} {c : CRes α} {a : α} {g : α → CRes β} (h : c = .ret (.ok a) false) : (c >>= g) = g a := by
  rw [h]; exact ret_bind a g

theorem lift_bind {α β} (a : α) (g : α → CRes β) : (CRes.lift (.ok a) >>= g) = g a := ret_bind a g

theorem text_spec {o : StructObj} {data : Bytes} {ptrs : List Val} (ho : Denotes o (.struct data ptrs)) {j : Nat}
    {t : Option Bytes} (h : textKey (child ptrs j) = some t) : o.textField ((j * 8 : Nat) : Int) = .ok t := by
  have hd := C10_data o data ptrs ho j
  rw [Nat.mul_comm 8 j] at hd
  cases hc : child ptrs j with
  | null => rw [hc] at h; cases h; exact (hd.1 hc).2
  | struct d p => rw [hc] at h; cases h
  | listPtr _ => rw [hc] at h; cases h
  | listComp _ _ _ => rw [hc] at h; cases h
  | listPrim tag n bs =>
    rw [hc] at h
    have h' : (textOf (.listPrim tag n bs)).map some = some t := h
    cases ht : textOf (.listPrim tag n bs) with
    | none => rw [ht] at h'; cases h'
    | some b =>
      rw [ht] at h'
      cases h'
      have := getText_spec ho (j := j) (b := b) (by rw [hc]; exact ht)
      rw [(C11_get o _).1] at this
      cases hf : o.textField ((j * 8 : Nat) : Int) with
      | error e => rw [hf] at this; cases this
      | ok x =>
        rw [hf] at this
        cases x with
        | some y => simp only [] at this; exact this
        | none =>
          exfalso
          unfold textOf at ht
          split at ht
          · rename_i heq; cases heq
          · rename_i heq
            injection heq with e1 e2 e3
            subst e1 e2 e3
            by_cases hl : bs.getLast? = some 0
            · have hne : bs ≠ [] := by rintro rfl; cases hl
              have hbs : bs = bs.dropLast ++ [0] := by
                rw [List.getLast?_eq_some_getLast hne] at hl
                injection hl with hl
                rw [← hl]
                exact (List.dropLast_append_getLast hne).symm
              have hlen := (hd.2.1 _ _ hc).1
              have e : child ptrs j = .listPrim 2 (bs.dropLast.length + 1) (bs.dropLast ++ [0]) := by
                rw [← hbs, hc]
                congr 1
                rw [← hlen]
                conv => lhs; rw [hbs]
                simp
              rw [hd.2.2 _ e] at hf
              cases hf
            · rw [if_neg hl] at ht; cases ht
          · cases ht

theorem data_spec {o : StructObj} {data : Bytes} {ptrs : List Val} (ho : Denotes o (.struct data ptrs)) {j : Nat}
    {t : Option Bytes} (h : dataKey (child ptrs j) = some t) : o.dataField ((j * 8 : Nat) : Int) = .ok t := by
  have hd := C10_data o data ptrs ho j
  rw [Nat.mul_comm 8 j] at hd
  cases hc : child ptrs j with
  | null => rw [hc] at h; cases h; exact (hd.1 hc).1
  | struct d p => rw [hc] at h; cases h
  | listPtr _ => rw [hc] at h; cases h
  | listComp _ _ _ => rw [hc] at h; cases h
  | listPrim tag n bs =>
    rw [hc] at h
    have h' : (dataOf (.listPrim tag n bs)).map some = some t := h
    cases ht : dataOf (.listPrim tag n bs) with
    | none => rw [ht] at h'; cases h'
    | some b =>
      rw [ht] at h'
      cases h'
      unfold dataOf at ht
      split at ht
      · rename_i heq; cases heq
      · rename_i heq
        injection heq with e1 e2 e3
        subst e1 e2 e3
        cases ht
        exact (hd.2.1 _ _ hc).2
      · cases ht

theorem active_ensure {o : StructObj} {data : Bytes} {ptrs : List Val} (ho : Denotes o (.struct data ptrs))
    {u disc : Option Nat} (h : Active data u disc) : ensureMember o u disc = .ok () :=
  ensureMember_spec ho fun d hd => by
    obtain ⟨h1, u', h2, h3⟩ := h d hd
    exact ⟨h1, u', h2, h3⟩

theorem active_ensureC {o : StructObj} {data : Bytes} {ptrs : List Val} (ho : Denotes o (.struct data ptrs))
    {u disc : Option Nat} (h : Active data u disc) : ensureMemberC o u disc = .ret (.ok ()) false := by
  cases disc with
  | none => rfl
  | some d =>
    have hp := active_ensure ho h
    obtain ⟨hd, u', rfl, ht⟩ := h d rfl
    refine Same.liftOk (ensureUnion_agree o (some ((u' * 2 : Nat) : Int)) d ?_) hp
    intro hw
    have e := valueOf_h_eq (bytesZ_length data (2 * u') 2) hd
    unfold tagOf at ht
    rw [ht] at e
    simp only [decide_true, beq_iff_eq] at e
    have hw : o.readInt16 ((u' * 2 : Nat) : Int) = .ok (-1) := hw
    rw [show o.readInt16 ((u' * 2 : Nat) : Int) = _ from readInt16_spec ho u', e] at hw
    injection hw with hw
    omega

/-- `x` is a Python object for the key `k`. -/
def Good (x : PyObj) (k : KeyVal) (n : Nat) : Prop := Comparable x ∧ denote x = k ∧ objDepth x ≤ n + 1

theorem good_none (n : Nat) : Good .none .none n := ⟨trivial, rfl, by simp [objDepth]⟩
theorem good_int (i : Int) (n : Nat) : Good (.int i) (.int i) n := ⟨trivial, rfl, by simp [objDepth]⟩
theorem good_bytes (b : Bytes) (n : Nat) : Good (.bytes b) (.bytes b) n := ⟨trivial, rfl, by simp [objDepth]⟩
theorem good_str (b : Bytes) (n : Nat) : Good (.str b) (.str b) n := ⟨trivial, rfl, by simp [objDepth]⟩

/-- The objects made by `rec` have the keys given by `kr`. -/
def ObjSpec (rec : Nat → StructObj → Py PyObj) (kr : Nat → Val → Option KeyVal) (n : Nat) : Prop :=
  ∀ c v k, kr c v = some k → ∀ o, Denotes o v → ∃ x, rec c o = .ok x ∧ Good x k n

/-- The hashes computed by `rec` are those of the keys given by `kr`. -/
def HashSpec (H : HashEnv) (rec : Nat → StructObj → CRes CLong) (kr : Nat → Val → Option KeyVal) : Prop :=
  ∀ c v k, kr c v = some k → ∀ o, Denotes o v → rec c o = .ret (.ok (valHash H k)) false

theorem optStr_some {b : Bytes} (h : (b.toByteArray.utf8Decode?).isSome = true) : optStr (some b) = .ok (.str b) := by
  obtain ⟨cs, hcs⟩ := decodeUtf8_isSome h
  unfold optStr
  simp only [hcs]

/-- What `kindKey` says about an integer field. -/
theorem intKey_cases {data : Bytes} {kd : Kind} {i : Int} (h : intKey data kd = some i) :
    (∃ fmt off d, kd = .prim fmt off d ∧ i = Int.xor (valueOf fmt (bytesZ data (off * fmt.size) fmt.size)) (d.getD 0)) ∨
    (∃ off d, kd = .bool off d ∧
      i = if (byteZ data (off / 8)).toNat.testBit (off % 8) ^^ (d.getD 0 != 0) then 1 else 0) ∨
    (∃ m off d, kd = .enum m off d ∧ i = Int.xor (valueOf .h (bytesZ data (off * 2) 2)) (d.getD 0)) := by
  cases kd <;> first | (cases h; done) | skip
  all_goals injection h with h; subst h
  · exact .inl ⟨_, _, _, rfl, rfl⟩
  · exact .inr (.inl ⟨_, _, rfl, rfl⟩)
  · exact .inr (.inr ⟨_, _, _, rfl, rfl⟩)

theorem prop0_int {rec : Nat → StructObj → Py PyObj} {o : StructObj} {data : Bytes} {ptrs : List Val}
    (ho : Denotes o (.struct data ptrs)) {u : Option Nat} {f : RField} (ha : Active data u f.disc) {i : Int}
    (h : intKey data f.kind = some i) : prop0 rec o u f = .ok (.int i) := by
  unfold prop0
  rw [bind_okP (active_ensure ho ha)]
  rcases intKey_cases h with ⟨fmt, off, d, hk, rfl⟩ | ⟨off, d, hk, rfl⟩ | ⟨m, off, d, hk, rfl⟩ <;> rw [hk] <;> simp only []
  · rw [bind_okP (C09_prim o data ptrs ho (off * fmt.size) fmt (Nat.dvd_mul_left _ _) (d.getD 0))]; rfl
  · rw [bind_okP (C09_bool o data ptrs ho off (d.getD 0 != 0))]; rfl
  · rw [bind_okP (C09_enum o data ptrs ho (off * 2) (Nat.dvd_mul_left _ _) (d.getD 0))]; rfl

theorem hashProp0_int {H : HashEnv} {rec : Nat → StructObj → CRes CLong} {o : StructObj} {data : Bytes} {ptrs : List Val}
    (ho : Denotes o (.struct data ptrs)) {u : Option Nat} {f : RField} (ha : Active data u f.disc) {i : Int}
    (h : intKey data f.kind = some i) : hashProp0 H rec o u f = .ret (.ok (valHash H (.int i))) false := by
  unfold hashProp0
  rw [bindC (active_ensureC ho ha)]
  rcases intKey_cases h with ⟨fmt, off, d, hk, rfl⟩ | ⟨off, d, hk, rfl⟩ | ⟨m, off, d, hk, rfl⟩ <;> rw [hk] <;> simp only []
  · rw [C09_prim o data ptrs ho (off * fmt.size) fmt (Nat.dvd_mul_left _ _) (d.getD 0)]
    rw [lift_bind]; rfl
  · rw [C09_bool o data ptrs ho off (d.getD 0 != 0)]
    rw [lift_bind]; rfl
  · rw [bindC (Same.liftOk (enumField_agree o _ _)
      (C09_enum o data ptrs ho (off * 2) (Nat.dvd_mul_left _ _) (d.getD 0)))]; rfl

theorem isNullC_int {o : StructObj} {data : Bytes} {ptrs : List Val}
    (ho : Denotes o (.struct data ptrs)) {u : Option Nat} {f : RField} (ha : Active data u f.disc) {i : Int}
    (h : intKey data f.kind = some i) : isNullC o u f = .ret (.ok (i != 0)) false := by
  unfold isNullC
  rw [bindC (active_ensureC ho ha)]
  rcases intKey_cases h with ⟨fmt, off, d, hk, rfl⟩ | ⟨off, d, hk, rfl⟩ | ⟨m, off, d, hk, rfl⟩ <;> rw [hk] <;> simp only []
  · rw [C09_prim o data ptrs ho (off * fmt.size) fmt (Nat.dvd_mul_left _ _) (d.getD 0)]
    rw [lift_bind]; rfl
  · rw [C09_bool o data ptrs ho off (d.getD 0 != 0)]
    cases ((byteZ data (off / 8)).toNat.testBit (off % 8) ^^ (d.getD 0 != 0)) <;> rfl
  · rw [bindC (Same.liftOk (enumField_agree o _ _)
      (C09_enum o data ptrs ho (off * 2) (Nat.dvd_mul_left _ _) (d.getD 0)))]; rfl

/-- What `kindKey` says, case by case. -/
theorem kindKey_cases {strict : Bool} {kr : Nat → Val → Option KeyVal} {data : Bytes} {ptrs : List Val} {kd : Kind}
    {k : KeyVal} (h : kindKey strict kr data ptrs kd = some k) :
    (kd = .void ∧ k = .none) ∨
    (∃ j t, kd = .textBytes j ∧ textKey (child ptrs j) = some t ∧ k = (t.map .bytes).getD .none) ∨
    (∃ j, kd = .textUnicode j ∧ textKey (child ptrs j) = some none ∧ k = .none ∧ strict = false) ∨
    (∃ j b, kd = .textUnicode j ∧ textKey (child ptrs j) = some (some b) ∧ (b.toByteArray.utf8Decode?).isSome = true ∧
      k = .str b) ∨
    (∃ j t, kd = .data j ∧ dataKey (child ptrs j) = some t ∧ k = (t.map .bytes).getD .none) ∨
    (∃ c j, kd = .struct c j ∧ child ptrs j = .null ∧ k = .none) ∨
    (∃ c j d p, kd = .struct c j ∧ child ptrs j = .struct d p ∧ kr c (.struct d p) = some k) ∨
    (∃ c, kd = .group c false ∧ kr c (.struct data ptrs) = some k) ∨
    (∃ i, intKey data kd = some i ∧ k = .int i) := by
  cases kd with
  | void => injection h with h; exact .inl ⟨rfl, h.symm⟩
  | textBytes j =>
    right; left
    unfold kindKey at h
    simp only [] at h
    cases ht : textKey (child ptrs j) with
    | none => rw [ht] at h; cases h
    | some t =>
      rw [ht] at h
      refine ⟨j, t, rfl, ht, ?_⟩
      cases t <;> (injection h with h; exact h.symm)
  | textUnicode j =>
    unfold kindKey at h
    simp only [] at h
    cases ht : textKey (child ptrs j) with
    | none => rw [ht] at h; cases h
    | some t =>
      rw [ht] at h
      cases t with
      | none =>
        right; right; left
        cases strict with
        | true => cases h
        | false => injection h with h; exact ⟨j, rfl, ht, h.symm, rfl⟩
      | some b =>
        right; right; right; left
        simp only [] at h
        by_cases hb : (b.toByteArray.utf8Decode?).isSome = true
        · rw [if_pos hb] at h
          injection h with h
          exact ⟨j, b, rfl, ht, hb, h.symm⟩
        · rw [if_neg hb] at h; cases h
  | data j =>
    right; right; right; right; left
    unfold kindKey at h
    simp only [] at h
    cases ht : dataKey (child ptrs j) with
    | none => rw [ht] at h; cases h
    | some t =>
      rw [ht] at h
      refine ⟨j, t, rfl, ht, ?_⟩
      cases t <;> (injection h with h; exact h.symm)
  | struct c j =>
    right; right; right; right; right
    unfold kindKey at h
    simp only [] at h
    split at h
    · rename_i hc; injection h with h; exact .inl ⟨c, j, rfl, hc, h.symm⟩
    · rename_i d p hc; exact .inr (.inl ⟨c, j, d, p, rfl, hc, h⟩)
    · cases h
  | group c nl =>
    cases nl with
    | true => cases h
    | false =>
      right; right; right; right; right; right; right; left
      exact ⟨c, rfl, h⟩
  | prim fmt off d =>
    right; right; right; right; right; right; right; right
    injection h with h; exact ⟨_, rfl, h.symm⟩
  | bool off d =>
    right; right; right; right; right; right; right; right
    injection h with h; exact ⟨_, rfl, h.symm⟩
  | enum m off d =>
    right; right; right; right; right; right; right; right
    injection h with h; exact ⟨_, rfl, h.symm⟩
  | float fmt off d => cases h
  | list it j => cases h
  | anyPointer j => cases h

theorem kindKey_prop0 {strict : Bool} {rec : Nat → StructObj → Py PyObj} {kr : Nat → Val → Option KeyVal} {n : Nat}
    (hrec : ObjSpec rec kr n) {o : StructObj} {data : Bytes} {ptrs : List Val} (ho : Denotes o (.struct data ptrs))
    {u : Option Nat} {f : RField} (ha : Active data u f.disc) {k : KeyVal}
    (h : kindKey strict kr data ptrs f.kind = some k) : ∃ x, prop0 rec o u f = .ok x ∧ Good x k n := by
  have hm := active_ensure ho ha
  rcases kindKey_cases h with ⟨hk, rfl⟩ | ⟨j, t, hk, ht, rfl⟩ | ⟨j, hk, ht, rfl, _⟩ | ⟨j, b, hk, ht, hb, rfl⟩ |
    ⟨j, t, hk, ht, rfl⟩ | ⟨c, j, hk, hc, rfl⟩ | ⟨c, j, d, p, hk, hc, hkr⟩ | ⟨c, hk, hkr⟩ | ⟨i, hi, rfl⟩
  · refine ⟨.none, ?_, good_none n⟩
    unfold prop0
    rw [bind_okP hm, hk]; rfl
  · refine ⟨optBytes t, ?_, ?_⟩
    · unfold prop0
      rw [bind_okP hm, hk]
      simp only []
      rw [bind_okP (text_spec ho ht)]; rfl
    · cases t with
      | none => exact good_none n
      | some b => exact good_bytes b n
  · refine ⟨.none, ?_, good_none n⟩
    unfold prop0
    rw [bind_okP hm, hk]
    simp only []
    rw [bind_okP (text_spec ho ht)]; rfl
  · refine ⟨.str b, ?_, good_str b n⟩
    unfold prop0
    rw [bind_okP hm, hk]
    simp only []
    rw [bind_okP (text_spec ho ht)]
    exact optStr_some hb
  · refine ⟨optBytes t, ?_, ?_⟩
    · unfold prop0
      rw [bind_okP hm, hk]
      simp only []
      rw [bind_okP (data_spec ho ht)]; rfl
    · cases t with
      | none => exact good_none n
      | some b => exact good_bytes b n
  · refine ⟨.none, ?_, good_none n⟩
    have hd := (C10_struct o data ptrs ho j).1 hc
    rw [Nat.mul_comm 8 j] at hd
    unfold prop0
    rw [bind_okP hm, hk]
    simp only []
    rw [bind_okP hd]; rfl
  · obtain ⟨o', hd, ho'⟩ := (C10_struct o data ptrs ho j).2.1 d p hc
    rw [Nat.mul_comm 8 j] at hd
    obtain ⟨x, hx, hg⟩ := hrec c _ k hkr o' ho'
    refine ⟨x, ?_, hg⟩
    unfold prop0
    rw [bind_okP hm, hk]
    simp only []
    rw [bind_okP hd]
    exact hx
  · obtain ⟨x, hx, hg⟩ := hrec c _ k hkr o ho
    refine ⟨x, ?_, hg⟩
    unfold prop0
    rw [bind_okP hm, hk]
    simp only []
    rw [bind_okP (group_spec ho)]
    exact hx
  · exact ⟨.int i, prop0_int ho ha hi, good_int i n⟩

theorem kindKey_hashProp0 {strict : Bool} {H : HashEnv} {rec : Nat → StructObj → CRes CLong} {kr : Nat → Val → Option KeyVal}
    (hrec : HashSpec H rec kr) {o : StructObj} {data : Bytes} {ptrs : List Val} (ho : Denotes o (.struct data ptrs))
    {u : Option Nat} {f : RField} (ha : Active data u f.disc) {k : KeyVal}
    (h : kindKey strict kr data ptrs f.kind = some k) : hashProp0 H rec o u f = .ret (.ok (valHash H k)) false := by
  have hm := active_ensureC ho ha
  rcases kindKey_cases h with ⟨hk, rfl⟩ | ⟨j, t, hk, ht, rfl⟩ | ⟨j, hk, ht, rfl, _⟩ | ⟨j, b, hk, ht, hb, rfl⟩ |
    ⟨j, t, hk, ht, rfl⟩ | ⟨c, j, hk, hc, rfl⟩ | ⟨c, j, d, p, hk, hc, hkr⟩ | ⟨c, hk, hkr⟩ | ⟨i, hi, rfl⟩
  · unfold hashProp0
    rw [bindC hm, hk]; rfl
  · unfold hashProp0
    rw [bindC hm, hk]
    simp only []
    rw [bindC (Same.liftOk (readData_agree o _ none (-1)) (text_spec ho ht))]
    cases t <;> rfl
  · unfold hashProp0
    rw [bindC hm, hk]
    simp only []
    rw [bindC (Same.liftOk (readData_agree o _ none (-1)) (text_spec ho ht))]
    rfl
  · unfold hashProp0
    rw [bindC hm, hk]
    simp only []
    rw [bindC (Same.liftOk (readData_agree o _ none (-1)) (text_spec ho ht)), optStr_some hb]
    rfl
  · unfold hashProp0
    rw [bindC hm, hk]
    simp only []
    rw [bindC (Same.liftOk (readData_agree o _ none 0) (data_spec ho ht))]
    cases t <;> rfl
  · have hd := (C10_struct o data ptrs ho j).1 hc
    rw [Nat.mul_comm 8 j] at hd
    unfold hashProp0
    rw [bindC hm, hk]
    simp only []
    rw [bindC (Same.liftOk (readStruct_agree o _) hd)]; rfl
  · obtain ⟨o', hd, ho'⟩ := (C10_struct o data ptrs ho j).2.1 d p hc
    rw [Nat.mul_comm 8 j] at hd
    unfold hashProp0
    rw [bindC hm, hk]
    simp only []
    rw [bindC (Same.liftOk (readStruct_agree o _) hd)]
    exact hrec c _ k hkr o' ho'
  · unfold hashProp0
    rw [bindC hm, hk]
    simp only []
    rw [group_spec ho, lift_bind]
    exact hrec c _ k hkr o ho
  · exact hashProp0_int ho ha hi

/-- What `fieldKey` says, case by case. -/
theorem fieldKey_cases {strict : Bool} {E : Env} {kr : Nat → Val → Option KeyVal} {data : Bytes} {ptrs : List Val}
    {u : Option Nat} {f : RField} {k : KeyVal} (h : fieldKey strict E kr data ptrs u f = some k) :
    Active data u f.disc ∧
    ((∃ c isNull value i, f.kind = .group c true ∧ (E.cls c).fields = [isNull, value] ∧
      Active data (E.cls c).union isNull.disc ∧ Active data (E.cls c).union value.disc ∧
      intKey data isNull.kind = some i ∧
      ((i = 0 ∧ kindKey strict kr data ptrs value.kind = some k) ∨ (i ≠ 0 ∧ k = .none))) ∨
    ((∀ c, f.kind ≠ .group c true) ∧ kindKey strict kr data ptrs f.kind = some k)) := by
  unfold fieldKey at h
  by_cases ha : Active data u f.disc
  · rw [if_pos ha] at h
    refine ⟨ha, ?_⟩
    by_cases hg : ∃ c, f.kind = .group c true
    · obtain ⟨c, hk⟩ := hg
      left
      rw [hk] at h
      simp only [] at h
      split at h
      · rename_i isNull value hf
        by_cases hc : Active data (E.cls c).union isNull.disc ∧ Active data (E.cls c).union value.disc
        · rw [if_pos hc] at h
          cases hi : intKey data isNull.kind with
          | none => rw [hi] at h; cases h
          | some i =>
            rw [hi] at h
            refine ⟨c, isNull, value, i, hk, hf, hc.1, hc.2, hi, ?_⟩
            by_cases h0 : i = 0
            · subst h0; exact .inl ⟨rfl, h⟩
            · right
              refine ⟨h0, ?_⟩
              split at h
              · rename_i heq; cases heq
              · rename_i heq; injection heq with heq; exact absurd heq h0
              · injection h with h; exact h.symm
        · rw [if_neg hc] at h; cases h
      · cases h
    · right
      refine ⟨fun c hc => hg ⟨c, hc⟩, ?_⟩
      split at h
      · rename_i c hk; exact absurd ⟨c, hk⟩ hg
      · exact h
  · rw [if_neg ha] at h; cases h

theorem fieldKey_prop {strict : Bool} {E : Env} {rec : Nat → StructObj → Py PyObj} {kr : Nat → Val → Option KeyVal} {n : Nat}
    (hrec : ObjSpec rec kr n) {o : StructObj} {data : Bytes} {ptrs : List Val} (ho : Denotes o (.struct data ptrs))
    {u : Option Nat} {f : RField} {k : KeyVal} (h : fieldKey strict E kr data ptrs u f = some k) :
    ∃ x, prop E rec o u f = .ok x ∧ Good x k n := by
  obtain ⟨ha, ⟨c, isNull, value, i, hk, hf, h1, h2, hi, hv⟩ | ⟨hk, hv⟩⟩ := fieldKey_cases h
  · unfold prop
    rw [hk]
    simp only []
    rw [bind_okP (active_ensure ho ha), bind_okP (group_spec ho), hf]
    simp only []
    rw [bind_okP (prop0_int ho h1 hi)]
    rcases hv with ⟨rfl, hv⟩ | ⟨h0, rfl⟩
    · exact kindKey_prop0 hrec ho h2 hv
    · refine ⟨.none, ?_, good_none n⟩
      rw [if_pos (by simp [truthy, h0])]; rfl
  · have : prop E rec o u f = prop0 rec o u f := by
      unfold prop
      split
      · rename_i c hc; exact absurd hc (hk c)
      · rfl
    rw [this]
    exact kindKey_prop0 hrec ho ha hv

theorem fieldKey_hashProp {strict : Bool} {E : Env} {H : HashEnv} {rec : Nat → StructObj → CRes CLong}
    {kr : Nat → Val → Option KeyVal}
    (hrec : HashSpec H rec kr) {o : StructObj} {data : Bytes} {ptrs : List Val} (ho : Denotes o (.struct data ptrs))
    {u : Option Nat} {f : RField} {k : KeyVal} (h : fieldKey strict E kr data ptrs u f = some k) :
    hashProp E H rec o u f = .ret (.ok (valHash H k)) false := by
  obtain ⟨ha, ⟨c, isNull, value, i, hk, hf, h1, h2, hi, hv⟩ | ⟨hk, hv⟩⟩ := fieldKey_cases h
  · unfold hashProp
    rw [hk]
    simp only []
    rw [bindC (active_ensureC ho ha), group_spec ho, lift_bind, hf]
    simp only []
    rw [bindC (isNullC_int ho h1 hi)]
    rcases hv with ⟨rfl, hv⟩ | ⟨h0, rfl⟩
    · exact kindKey_hashProp0 hrec ho h2 hv
    · rw [if_pos (by simp [h0])]; rfl
  · have : hashProp E H rec o u f = hashProp0 H rec o u f := by
      unfold hashProp
      split
      · rename_i c hc; exact absurd hc (hk c)
      · rfl
    rw [this]
    exact kindKey_hashProp0 hrec ho ha hv

theorem keyValues_spec {strict : Bool} {E : Env} {rec : Nat → StructObj → Py PyObj} {kr : Nat → Val → Option KeyVal} {n : Nat}
    (hrec : ObjSpec rec kr n) {o : StructObj} {data : Bytes} {ptrs : List Val} (ho : Denotes o (.struct data ptrs))
    {u : Option Nat} : ∀ {fs : List RField} {kv : List KeyVal}, allSome (fieldKey strict E kr data ptrs u) fs = some kv →
    ∃ xs, keyValues E rec o u fs = .ok xs ∧ Comparables xs ∧ denotes xs = kv ∧ objDepths xs ≤ n + 1
  | [], kv, h => by
    cases h
    exact ⟨[], rfl, trivial, rfl, by simp [objDepths]⟩
  | f :: fs, kv, h => by
    unfold allSome at h
    cases h1 : fieldKey strict E kr data ptrs u f with
    | none => rw [h1] at h; cases h
    | some k =>
      cases h2 : allSome (fieldKey strict E kr data ptrs u) fs with
      | none => rw [h1, h2] at h; cases h
      | some ks =>
        rw [h1, h2] at h
        cases h
        obtain ⟨x, hx, g1, g2, g3⟩ := fieldKey_prop hrec ho h1
        obtain ⟨xs, hxs, e1, e2, e3⟩ := keyValues_spec hrec ho h2
        refine ⟨x :: xs, ?_, ⟨g1, e1⟩, ?_, ?_⟩
        · unfold keyValues
          rw [bind_okP hx, bind_okP hxs]; rfl
        · simp only [denotes, g2, e2]
        · simp only [objDepths]; omega

/-- The object for a message has the key of the value. -/
theorem objectOf_spec (strict : Bool) (E : Env) (ks : Nat → Option (List RField)) :
    ∀ n, ObjSpec (objectOf E ks n) (keyOf strict E ks n) n
  | 0 => by intro c v k h; cases h
  | n + 1 => by
    intro c v k h o ho
    cases v with
    | null => cases h
    | listPrim _ _ _ => cases h
    | listPtr _ => cases h
    | listComp _ _ _ => cases h
    | struct data ptrs =>
      unfold keyOf at h
      cases hf : ks c with
      | none => rw [hf] at h; cases h
      | some fs =>
        rw [hf] at h
        simp only [] at h
        cases ha : allSome (fieldKey strict E (keyOf strict E ks n) data ptrs (E.cls c).union) fs with
        | none => rw [ha] at h; cases h
        | some kv =>
          rw [ha] at h
          simp only [Option.map_some, Option.some.injEq] at h
          subst h
          obtain ⟨xs, hxs, e1, e2, e3⟩ := keyValues_spec (objectOf_spec strict E ks n) ho ha
          refine ⟨.keyed xs, ?_, ?_, ?_, ?_⟩
          · unfold objectOf
            rw [hf]
            simp only []
            rw [bind_okP hxs]; rfl
          · simpa only [Comparable] using e1
          · simp only [denote, e2]
          · simp only [objDepth]; omega

/-! ## The compiled hash -/

/-- The pointer of a text or data field, and where the bytes are. -/
theorem resolve_text {o : StructObj} {data : Bytes} {ptrs : List Val}
    (ho : Denotes o (.struct data ptrs)) {j n : Nat} {bs : Bytes}
    (hj : ptrs[j]? = some (.listPrim 2 n bs)) :
    ∃ q p, o.resolve ((8 * j : Nat) : Int) = .ok (q, p) ∧ 0 ≤ Ptr.deref p q ∧ Ptr.listItemCount p = n ∧
      Ptr.deref p q + n ≤ o.seg.buf.length ∧ Ptr.kind p = Ptr.LIST ∧ Ptr.listSizeTag p = Ptr.LIST_SIZE_8 := by
  obtain ⟨B, offs, t, ds, ps, data', ptrs', rfl, hta, h8, hds, hps, hob, hv⟩ := ho
  injection hv with h1 h2
  subst h1 h2
  obtain ⟨q, w, r1, r2, r3, r4, r5, r6⟩ := resolve_spec hta h8 hob hj
  have hm := signed64_mod _ r2
  generalize hvv : Val.listPrim 2 n bs = v at r5
  cases r5 with
  | null => cases hvv
  | struct => cases hvv
  | listPtr => cases hvv
  | listComp => cases hvv
  | far => omega
  | far2 => omega
  | listPrim _ _ s hk hg hs hb =>
    injection hvv with g1 g2 g3
    rw [← g1] at hb g3
    rw [← g2] at hb g3
    have hpl : primLen 2 n = n := rfl
    rw [hpl] at hb g3
    refine ⟨q, signed64 w, r1, ?_, ?_, ?_, ?_, ?_⟩
    · rw [deref_spec hm, hs]; exact Int.natCast_nonneg s
    · rw [Ptr.listCount_spec hm, ← g2]
    · rw [deref_spec hm, hs]
      show (s : Int) + n ≤ (B.length : Int)
      omega
    · rw [Ptr.kind_spec hm, hk]; rfl
    · rw [Ptr.listTag_spec hm, ← g1]; rfl

theorem region_isSome {a : Bytes} {start size : Int} (h1 : 0 ≤ start) (h2 : 0 ≤ size) (h3 : start + size ≤ a.length) :
    ∃ r, region a start size = some r := by
  unfold region
  rw [if_pos ⟨h1, h2, h3⟩]
  exact ⟨_, rfl⟩

theorem strhash3_inside (hb : Bytes → Int) {a : Bytes} {start size : Int} (h1 : 0 ≤ start) (h2 : 0 ≤ size)
    (h3 : start + size ≤ a.length) : ∃ r, strhash3 hb a start size = some r := by
  unfold strhash3
  simp only
  by_cases hc : start ≥ a.length ∨ size = 0
  · rw [if_pos hc]; exact ⟨_, rfl⟩
  · rw [if_neg hc]
    obtain ⟨r, hr⟩ := region_isSome (a := a) (start := start) (size := if size > a.length then a.length - start else size)
      h1 (by split <;> omega) (by split <;> omega)
    rw [hr]
    exact ⟨_, rfl⟩

theorem readStr_none {s : Seg} {p off k : Int} (h : s.readStr p off none k = .ok none) : p = 0 := by
  by_contra hp
  unfold Seg.readStr at h
  rw [if_neg hp] at h
  split at h
  · cases h
  · split at h
    · cases h
    · cases h

/-- The first statement generated for a bytes text has no effect. -/
theorem hashTextBytes_spec (H : HashEnv) {o : StructObj} {data : Bytes} {ptrs : List Val}
    (ho : Denotes o (.struct data ptrs)) {j : Nat} {t : Option Bytes} (h : textKey (child ptrs j) = some t) :
    ∃ x, hashTextBytes H o ((j * 8 : Nat) : Int) = .ret (.ok x) false := by
  have hr : ∃ q p y, o.resolve ((j * 8 : Nat) : Int) = .ok (q, p) ∧
      o.seg.hashStrPyx (fun b => (H.hashBytes b).toInt) p q H.hashNone.toInt (-1) = some (.ok y) := by
    by_cases hn : child ptrs j = .null
    · have ht := text_spec ho h
      rw [hn] at h
      cases h
      cases hres : o.resolve ((j * 8 : Nat) : Int) with
      | error e =>
        rw [show o.textField ((j * 8 : Nat) : Int) = (o.resolve ((j * 8 : Nat) : Int) >>=
          fun x => o.seg.readStr x.2 x.1 none (-1)) from rfl, hres] at ht
        cases ht
      | ok x =>
        obtain ⟨q, p⟩ := x
        rw [show o.textField ((j * 8 : Nat) : Int) = (o.resolve ((j * 8 : Nat) : Int) >>=
          fun x => o.seg.readStr x.2 x.1 none (-1)) from rfl, hres] at ht
        have hp : p = 0 := readStr_none ht
        subst hp
        exact ⟨q, 0, _, rfl, by unfold Seg.hashStrPyx; rw [if_pos rfl]⟩
    · have hs := child_some hn
      cases hc : child ptrs j with
      | null => exact absurd hc hn
      | struct _ _ => rw [hc] at h; cases h
      | listPtr _ => rw [hc] at h; cases h
      | listComp _ _ _ => rw [hc] at h; cases h
      | listPrim tag n bs =>
        rw [hc] at h hs
        have h' : (textOf (.listPrim tag n bs)).map some = some t := h
        cases ht : textOf (.listPrim tag n bs) with
        | none => rw [ht] at h'; cases h'
        | some b =>
          unfold textOf at ht
          split at ht
          · rename_i heq; cases heq
          · rename_i heq
            injection heq with e1 e2 e3
            subst e1 e2 e3
            by_cases hl : bs.getLast? = some 0
            · have hne : bs ≠ [] := by rintro rfl; cases hl
              have hlen := (readData_bytes ho hs none).2.2
              have hpos : 0 < bs.length := List.length_pos_iff.mpr hne
              obtain ⟨q, p, r1, r2, r3, r4, r5, r6⟩ := resolve_text ho hs
              rw [Nat.mul_comm 8 j] at r1
              obtain ⟨r, hr⟩ := strhash3_inside (fun b => (H.hashBytes b).toInt) (a := o.seg.buf) (start := Ptr.deref p q)
                (size := Ptr.listItemCount p + -1) r2 (by omega) (by omega)
              have hp0 : p ≠ 0 := by
                intro hp; rw [hp] at r5; revert r5; decide
              refine ⟨q, p, r, r1, ?_⟩
              unfold Seg.hashStrPyx
              rw [if_neg hp0, if_neg (not_not.mpr r5), if_neg (not_not.mpr r6)]
              simp only
              rw [hr]; rfl
            · rw [if_neg hl] at ht; cases ht
          · cases ht
  obtain ⟨q, p, y, h1, h2⟩ := hr
  refine ⟨BitVec.ofInt 64 y, ?_⟩
  unfold hashTextBytes
  rw [bindC (Same.liftOk (resolve_agree o _) h1)]
  simp only [h2]
  rfl

theorem small_range {fmt : Fmt} {v : Int} (h : InRange fmt v) (hq : fmt ≠ .Q) (hd : fmt ≠ .d) : -2 ^ 63 ≤ v ∧ v < 2 ^ 63 := by
  unfold InRange at h
  cases fmt <;> simp [isSigned, Fmt.size] at h hq hd <;> omega

theorem fieldKey_fast {E : Env} {H : HashEnv} {rec : Nat → StructObj → CRes CLong} {kr : Nat → Val → Option KeyVal}
    (hrec : HashSpec H rec kr) {o : StructObj} {data : Bytes} {ptrs : List Val} (ho : Denotes o (.struct data ptrs))
    {u : Option Nat} {f : RField} {k : KeyVal} (h : fieldKey true E kr data ptrs u f = some k)
    (hd : ∀ fmt off d, f.kind = .prim fmt off d → fmt ≠ .f ∧ fmt ≠ .d ∧ ∀ x ∈ d, InRange fmt x) :
    fastField E H rec o u f = .ret (.ok (valHash H k)) false := by
  have hp := fieldKey_hashProp (H := H) hrec ho h
  obtain ⟨ha, hcs⟩ := fieldKey_cases h
  unfold fastField
  split
  · rename_i off hk
    rcases hcs with ⟨c, _, _, _, hk', _⟩ | ⟨_, hv⟩
    · rw [hk] at hk'; cases hk'
    rw [hk] at hv
    rcases kindKey_cases hv with ⟨hk', _⟩ | ⟨j, t, hk', ht, _⟩ | ⟨j, hk', _⟩ | ⟨j, b, hk', _⟩ |
      ⟨j, t, hk', _⟩ | ⟨c, j, hk', _⟩ | ⟨c, j, d, p, hk', _⟩ | ⟨c, hk', _⟩ | ⟨i, hi, _⟩
    all_goals first | (cases hk'; done) | skip
    · injection hk' with hk'
      subst hk'
      obtain ⟨x, hx⟩ := hashTextBytes_spec H ho ht
      rw [bindC hx]
      exact hp
    · cases hi
  · rename_i off hk
    rcases hcs with ⟨c, _, _, _, hk', _⟩ | ⟨_, hv⟩
    · rw [hk] at hk'; cases hk'
    rw [hk] at hv
    rcases kindKey_cases hv with ⟨hk', _⟩ | ⟨j, t, hk', ht, _⟩ | ⟨j, hk', _, _, hs⟩ | ⟨j, b, hk', ht, hb, rfl⟩ |
      ⟨j, t, hk', _⟩ | ⟨c, j, hk', _⟩ | ⟨c, j, d, p, hk', _⟩ | ⟨c, hk', _⟩ | ⟨i, hi, _⟩
    all_goals first | (cases hk'; done) | skip
    · cases hs
    · injection hk' with hk'
      subst hk'
      have hr : o.readData ((off * 8 : Nat) : Int) (some []) (-1) = .ok (some b) := by
        have hx := text_spec ho ht
        cases hres : o.resolve ((off * 8 : Nat) : Int) with
        | error e =>
          rw [show o.textField ((off * 8 : Nat) : Int) = (o.resolve ((off * 8 : Nat) : Int) >>=
            fun x => o.seg.readStr x.2 x.1 none (-1)) from rfl, hres] at hx
          cases hx
        | ok x =>
          obtain ⟨q, p⟩ := x
          rw [show o.textField ((off * 8 : Nat) : Int) = (o.resolve ((off * 8 : Nat) : Int) >>=
            fun x => o.seg.readStr x.2 x.1 none (-1)) from rfl, hres] at hx
          rw [show o.readData ((off * 8 : Nat) : Int) (some []) (-1) = (o.resolve ((off * 8 : Nat) : Int) >>=
            fun x => o.seg.readStr x.2 x.1 (some []) (-1)) from rfl, hres]
          have hx' : o.seg.readStr p q none (-1) = .ok (some b) := hx
          show o.seg.readStr p q (some []) (-1) = .ok (some b)
          unfold Seg.readStr at hx' ⊢
          by_cases hp0 : p = 0
          · rw [if_pos hp0] at hx'; cases hx'
          · rw [if_neg hp0] at hx' ⊢; exact hx'
      unfold hashTextUnicode
      rw [bindC (Same.liftOk (readData_agree o _ (some []) (-1)) hr), optStr_some hb, lift_bind]
      rfl
    · cases hi
  · rename_i fmt off d hk
    rcases hcs with ⟨c, _, _, _, hk', _⟩ | ⟨_, hv⟩
    · rw [hk] at hk'; cases hk'
    rw [hk] at hv
    rcases kindKey_cases hv with ⟨hk', _⟩ | ⟨j, t, hk', ht, _⟩ | ⟨j, hk', _, _, hs⟩ | ⟨j, b, hk', ht, hb, _⟩ |
      ⟨j, t, hk', _⟩ | ⟨c, j, hk', _⟩ | ⟨c, j, d, p, hk', _⟩ | ⟨c, hk', _⟩ | ⟨i, hi, rfl⟩
    all_goals first | cases hk' | skip
    rw [bindC (active_ensureC ho ha), C09_prim o data ptrs ho (off * fmt.size) fmt (Nat.dvd_mul_left _ _) (d.getD 0),
      lift_bind]
    injection hi with hi
    rw [hi]
    have hrange : InRange fmt i := by
      rw [← hi]
      refine inRange_xor (inRange_valueOf fmt _ (by simp [bytesZ])) ?_
      cases d with
      | none => rw [inRange_iff]; cases fmt <;> simp [Fmt.lo, Fmt.hi]
      | some d => exact (hd fmt off (some d) hk).2.2 d rfl
    by_cases hq : fmt = .Q
    · rw [if_pos hq]
      subst hq
      have hrr : 0 ≤ i ∧ i < 2 ^ 64 := by
        unfold InRange at hrange; simp [isSigned, Fmt.size] at hrange; omega
      have := fastHash_field H (.uint64 i) hrr
      injection this with this
      rw [this]; rfl
    · rw [if_neg hq]
      have := fastHash_field H (.smallInt i) (small_range hrange hq (hd fmt off d hk).2.1)
      injection this with this
      rw [this]; rfl
  · exact hp

theorem fastHashesC_spec {E : Env} {H : HashEnv} {rec : Nat → StructObj → CRes CLong} {kr : Nat → Val → Option KeyVal}
    (hrec : HashSpec H rec kr) {o : StructObj} {data : Bytes} {ptrs : List Val} (ho : Denotes o (.struct data ptrs))
    {u : Option Nat} : ∀ {fs : List RField} {kv : List KeyVal}, IntegersFit fs →
    allSome (fieldKey true E kr data ptrs u) fs = some kv →
    fastHashesC E H rec o u fs = .ret (.ok (valHashes H kv)) false
  | [], kv, _, h => by cases h; rfl
  | f :: fs, kv, hd, h => by
    unfold allSome at h
    cases h1 : fieldKey true E kr data ptrs u f with
    | none => rw [h1] at h; cases h
    | some k =>
      cases h2 : allSome (fieldKey true E kr data ptrs u) fs with
      | none => rw [h1, h2] at h; cases h
      | some ks =>
        rw [h1, h2] at h
        cases h
        unfold fastHashesC
        rw [bindC (fieldKey_fast hrec ho h1 (hd f List.mem_cons_self)),
          bindC (fastHashesC_spec hrec ho (fun g hg => hd g (List.mem_cons_of_mem _ hg)) h2)]
        rfl

theorem valHash_ne (H : HashEnv) (hH : H.Valid) (k : KeyVal) : valHash H k ≠ BitVec.ofInt 64 (-1) := by
  cases k with
  | none => exact hH.1
  | int i => exact pyHash_ne H hH (.int i) _ rfl
  | bytes b => exact hH.2.1 b
  | str b => exact hH.2.2 b
  | tuple xs => exact pyTupleHash_ne _

theorem valHashes_ne (H : HashEnv) (hH : H.Valid) : ∀ (kv : List KeyVal), ∀ h ∈ valHashes H kv, h ≠ BitVec.ofInt 64 (-1)
  | [], h, hm => by simp [valHashes] at hm
  | k :: kv, h, hm => by
    simp only [valHashes, List.mem_cons] at hm
    rcases hm with rfl | hm
    · exact valHash_ne H hH k
    · exact valHashes_ne H hH kv h hm

/-- The generated `__hash__` of a message is the hash of its key. -/
theorem hashObjectC_spec (E : Env) (H : HashEnv) (hH : H.Valid) (ks : Nat → Option (List RField))
    (hd : ∀ c fs, ks c = some fs → IntegersFit fs) : ∀ n, HashSpec H (hashObjectC E H ks n) (keyOf true E ks n)
  | 0 => by intro c v k h; cases h
  | n + 1 => by
    intro c v k h o ho
    cases v with
    | null => cases h
    | listPrim _ _ _ => cases h
    | listPtr _ => cases h
    | listComp _ _ _ => cases h
    | struct data ptrs =>
      unfold keyOf at h
      cases hf : ks c with
      | none => rw [hf] at h; cases h
      | some fs =>
        rw [hf] at h
        simp only [] at h
        cases ha : allSome (fieldKey true E (keyOf true E ks n) data ptrs (E.cls c).union) fs with
        | none => rw [ha] at h; cases h
        | some kv =>
          rw [ha] at h
          simp only [Option.map_some, Option.some.injEq] at h
          subst h
          unfold hashObjectC
          rw [hf]
          simp only []
          rw [bindC (fastHashesC_spec (hashObjectC_spec E H hH ks hd n) ho (hd c fs hf) ha),
            tuplehash_spec _ (valHashes_ne H hH kv)]
          rfl

end Capnpy.KeyRead
