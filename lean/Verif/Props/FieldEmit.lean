import Verif.Proof.FieldEmit
import Verif.Props.Const

/-!
# C76: every field is read from, and written to, the place which the schema gives it, as the type of the schema

`FieldEmit.emitGetter` and `emitSetter` are what the compiler does with a slot of the schema: they choose offsets,
formats and methods from the type.  The theorems run the chosen code.  The places and the meaning of the bits are
given in Spec/FieldEmit.lean.
-/

namespace Capnpy.Props

open Spec FieldEmit
open Const (STy TextType PyVal)
open Module (Str Gen)

/-! ## Which fields can be compiled -/

/-- The names that the code of the field refers to can be written. -/
def NamesWritable (c : Ctx) (ty : STy) : Prop :=
  match ty with
  | .struct i => ∃ n s, c.g.node i = .ok n ∧ c.g.runtimeName c.fuel n = .ok s
  | .enum i => ∃ s, Const.nodeName c.g c.fuel i [] = .ok s
  | .list e => ∃ s, Const.listItemType c.g c.pyx c.tt c.fuel e = .ok s
  | _ => True

/-- Numbers, bools and enums: the types for which explicit defaults are supported. -/
def Numeric : STy → Prop
  | .prim _ | .bool | .enum _ => True
  | _ => False

theorem defaultSupported_iff (t : STy) : defaultSupported t = true ↔ Numeric t := by
  cases t with
  | prim fmt => cases fmt <;> simp [defaultSupported, isPrimitive, tag, Numeric]
  | _ => simp [defaultSupported, isPrimitive, tag, Numeric]

/-- C76: a slot can be compiled exactly if it has no explicit default or is a number, a bool or an enum; is not an
interface; if a text, `text_type` is set; the names of the types exist. -/
theorem C76_compiles (c : Ctx) (s : Slot) :
    (∃ code, emitGetter c s = .ok code) ↔
      (s.explicit = true → Numeric s.ty) ∧ s.ty ≠ .interface ∧ (s.ty = .text → c.tt ≠ .notset) ∧ NamesWritable c s.ty := by
  obtain ⟨ty, off, d, ex⟩ := s
  by_cases hex : ex = true ∧ ¬ Numeric ty
  · have hd : defaultSupported ty = false := by
      rw [Bool.eq_false_iff, Ne, defaultSupported_iff]; exact hex.2
    have e : emitGetter c ⟨ty, off, d, ex⟩ = .error .valueError := by
      unfold emitGetter
      rw [hex.1, hd]
      rfl
    rw [e]
    constructor
    · rintro ⟨code, h⟩; cases h
    · rintro ⟨h, _⟩; exact absurd (h hex.1) hex.2
  · have hex' : ex = true → Numeric ty := fun h => by by_contra hn; exact hex ⟨h, hn⟩
    have hg : (ex && !defaultSupported ty) = false := by
      cases ex with
      | false => rfl
      | true => rw [(defaultSupported_iff ty).mpr (hex' rfl)]; rfl
    have bindex : ∀ {α β : Type} (x : Py α) (f : α → β), (∃ code, (do pure (f (← x)) : Py β) = .ok code) ↔ ∃ a, x = .ok a := by
      intro α β x f
      cases x with
      | error e => exact ⟨fun ⟨_, h⟩ => (by cases h), fun ⟨_, h⟩ => (by cases h)⟩
      | ok a => exact ⟨fun _ => ⟨a, rfl⟩, fun _ => ⟨f a, rfl⟩⟩
    unfold emitGetter
    simp only
    rw [hg]
    cases ty with
    | prim fmt => cases fmt <;> exact ⟨fun _ => ⟨hex', nofun, nofun, trivial⟩, fun _ => ⟨_, rfl⟩⟩
    | void => exact ⟨fun _ => ⟨hex', nofun, nofun, trivial⟩, fun _ => ⟨_, rfl⟩⟩
    | bool => exact ⟨fun _ => ⟨hex', nofun, nofun, trivial⟩, fun _ => ⟨_, rfl⟩⟩
    | data => exact ⟨fun _ => ⟨hex', nofun, nofun, trivial⟩, fun _ => ⟨_, rfl⟩⟩
    | anyPointer => exact ⟨fun _ => ⟨hex', nofun, nofun, trivial⟩, fun _ => ⟨_, rfl⟩⟩
    | interface => exact ⟨fun ⟨_, h⟩ => (by cases h), fun h => absurd rfl h.2.1⟩
    | text =>
      obtain ⟨g, pyx, tt, fuel⟩ := c
      cases tt with
      | notset => exact ⟨fun ⟨_, h⟩ => (by cases h), fun h => absurd rfl (h.2.2.1 rfl)⟩
      | bytes => exact ⟨fun _ => ⟨hex', nofun, nofun, trivial⟩, fun _ => ⟨_, rfl⟩⟩
      | unicode => exact ⟨fun _ => ⟨hex', nofun, nofun, trivial⟩, fun _ => ⟨_, rfl⟩⟩
    | enum i =>
      refine (bindex (Const.nodeName c.g c.fuel i []) (fun s => Getter.enum s (off * 2) d)).trans ?_
      exact ⟨fun h => ⟨hex', nofun, nofun, h⟩, fun h => h.2.2.2⟩
    | list e =>
      refine (bindex (Const.listItemType c.g c.pyx c.tt c.fuel e) (fun s => Getter.list s (off * 8))).trans ?_
      exact ⟨fun h => ⟨hex', nofun, nofun, h⟩, fun h => h.2.2.2⟩
    | struct i =>
      have : (∃ code, (do pure (Getter.struct (← c.g.runtimeName c.fuel (← c.g.node i)) (off * 8)) : Py Getter) = .ok code) ↔
          NamesWritable c (.struct i) := by
        show _ ↔ ∃ n s, c.g.node i = .ok n ∧ c.g.runtimeName c.fuel n = .ok s
        cases hn : c.g.node i with
        | error e => exact ⟨fun ⟨_, h⟩ => (by cases h), fun ⟨_, _, h, _⟩ => (by cases h)⟩
        | ok n =>
          refine (bindex (c.g.runtimeName c.fuel n) (fun s => Getter.struct s (off * 8))).trans ?_
          exact ⟨fun ⟨s, h⟩ => ⟨n, s, rfl, h⟩, fun ⟨n', s, h, h'⟩ => (by cases h; exact ⟨s, h'⟩)⟩
      exact this.trans ⟨fun h => ⟨hex', nofun, nofun, h⟩, fun h => h.2.2.2⟩

/-! ## Reading -/

/-- C76: the names of the item types of the module stand for the item types of the elements. -/
def ItemsOK (c : Ctx) (items : Str → Option ItemType) (cls : Nat → Option Const.Cls) (ty : STy) : Prop :=
  ∀ e, ty = .list e → ∀ s, Const.listItemType c.g c.pyx c.tt c.fuel e = .ok s →
    ∃ it, itemOf cls c.tt e = some it ∧ items s = some it.toItemType

theorem applyDefault_int (v d : Int) : applyDefault v (.int d) = .ok (Int.xor v d) := by
  unfold applyDefault defaultNonZero
  show (if (d != 0) = true then xorInt v (.int d) else pure v) = _
  by_cases hd : d = 0
  · subst hd
    rw [if_neg (by decide), xor_zero_right]
    rfl
  · rw [if_pos (by simpa using hd)]
    rfl

/-- The property of an integer field. -/
theorem reads_int {o : StructObj} {data : Bytes} {ptrs : List Val} (ho : Denotes o (.struct data ptrs)) {fmt : Fmt}
    {off : Nat} {d : Int} (hd : InRange fmt d) :
    ∃ v, (do pure (RVal.int (← applyDefault (← o.readPrimitive ((off * fmt.size : Nat) : Int) fmt) (.int d))) : Py RVal) =
        .ok (.int v) ∧
      IsNumber (8 * fmt.size) (isSigned fmt) (fun i => sectionBit data (8 * fmt.size * off + i) ^^ Int.testBit d i) v := by
  refine ⟨Int.xor (valueOf fmt (bytesZ data (off * fmt.size) fmt.size)) d, ?_, ?_⟩
  · rw [bind_okP (readPrimitive_zext ho (Dvd.intro_left off rfl))]
    rw [bind_okP (applyDefault_int _ _)]
    rfl
  · obtain ⟨h1, h2⟩ := xor_number (valueOf_inRange fmt _ (bytesZ_len data (off * fmt.size) fmt.size)) hd
    refine ⟨h1, fun i hi => (h2 i hi).trans ?_⟩
    simp only
    rw [valueOf_section fmt data off hi]

/-- The property of a float field without default. -/
theorem reads_float {o : StructObj} {data : Bytes} {ptrs : List Val} (ho : Denotes o (.struct data ptrs)) {fmt : Fmt}
    (hf : fmt = .f ∨ fmt = .d) {off : Nat} :
    ∃ v, (do
        let value ← o.readPrimitive ((off * fmt.size : Nat) : Int) fmt
        if (← defaultNonZero (.float fmt 0)) then .error .typeError else pure (RVal.float value) : Py RVal) = .ok (.float v) ∧
      IsNumber (8 * fmt.size) false (fun i => sectionBit data (8 * fmt.size * off + i)) v := by
  refine ⟨valueOf fmt (bytesZ data (off * fmt.size) fmt.size), ?_, ?_⟩
  · rw [bind_okP (readPrimitive_zext ho (Dvd.intro_left off rfl))]
    rcases hf with rfl | rfl <;> rfl
  · have h := valueOf_inRange fmt _ (bytesZ_len data (off * fmt.size) fmt.size)
    refine ⟨?_, fun i hi => valueOf_section fmt data off hi⟩
    rcases hf with rfl | rfl <;> exact h

/-- The property of a bool field. -/
theorem reads_bool {o : StructObj} {data : Bytes} {ptrs : List Val} (ho : Denotes o (.struct data ptrs)) (off : Nat) (d : Bool) :
    (do
      let value ← o.readBit ((off / 8 : Nat) : Int) ((1 <<< (off % 8) : Nat) : Int)
      if (← defaultNonZero (.bool d)) then xorBool value (.bool d) else pure (.bool value) : Py RVal) =
        .ok (.bool (sectionBit data off ^^ d)) := by
  have h := C09_bool o data ptrs ho off d
  unfold StructObj.boolField at h
  have e : shl 1 (off % 8) = ((1 <<< (off % 8) : Nat) : Int) := by
    unfold shl
    simp [Nat.shiftLeft_eq]
  rw [e] at h
  cases hv : o.readBit ((off / 8 : Nat) : Int) ((1 <<< (off % 8) : Nat) : Int) with
  | error err =>
    rw [hv] at h
    cases h
  | ok value =>
    rw [hv] at h
    have hs : (byteZ data (off / 8)).toNat.testBit (off % 8) = sectionBit data off := by
      unfold sectionBit byteZ
      rw [List.getD_eq_getElem?_getD]
    rw [hs] at h
    rw [bind_okP rfl]
    rw [bind_okP rfl] at h
    cases d with
    | false => exact congrArg Except.ok (congrArg RVal.bool (by rw [← Except.ok.inj h]))
    | true => exact congrArg Except.ok (congrArg RVal.bool (Except.ok.inj h))

/-- C76: for every type of the schema, the property reads the field from its place in the encoding: the bits which
belong to it and no others, as a number of its width and sign, with the default of the schema; or the pointer which
belongs to it, as its type.  For every struct, wherever it is in a message. -/
theorem C76_reads (c : Ctx) (items : Str → Option ItemType) (cls : Nat → Option Const.Cls) (s : Slot) (hd : DefaultOK s)
    (hi : ItemsOK c items cls s.ty) {code : Getter} (h : emitGetter c s = .ok code) (o : StructObj) (data : Bytes)
    (ptrs : List Val) (ho : Denotes o (.struct data ptrs)) :
    ReadsSlot cls c.tt data ptrs o s (code.run items o) := by
  have hc := (C76_compiles c s).mp ⟨code, h⟩
  obtain ⟨ty, off, d, ex⟩ := s
  obtain ⟨hex, hni, htt, -⟩ := hc
  have hg : (ex && !defaultSupported ty) = false := by
    cases ex with
    | false => rfl
    | true => rw [(defaultSupported_iff ty).mpr (hex rfl)]; rfl
  have text : ∀ t : Bytes, child ptrs off = .listPrim 2 (t.length + 1) (t ++ [0]) →
      o.textField ((off * 8 : Nat) : Int) = .ok (some t) := by
    intro t ht
    have := (C10_data o data ptrs ho off).2.2 t ht
    rwa [Nat.mul_comm] at this
  obtain ⟨t1, t2⟩ := show (child ptrs off = .null → o.dataField ((off * 8 : Nat) : Int) = .ok none ∧
      o.textField ((off * 8 : Nat) : Int) = .ok none) ∧
      (∀ n bs, child ptrs off = .listPrim 2 n bs → bs.length = n ∧ o.dataField ((off * 8 : Nat) : Int) = .ok (some bs)) from by
    rw [Nat.mul_comm]; exact ⟨(C10_data o data ptrs ho off).1, (C10_data o data ptrs ho off).2.1⟩
  have textcase : ∀ r : Py RVal, r = (do pure (((← o.textField ((off * 8 : Nat) : Int)).map RVal.bytes).getD .none) : Py RVal) →
      ReadsSlot cls c.tt data ptrs o ⟨.text, off, d, ex⟩ r := by
    intro r hr
    show match child ptrs off with
      | .null => r = .ok .none
      | .listPrim 2 _ bs => (STy.text = .data → r = .ok (.bytes bs)) ∧ ∀ t, STy.text = .text → bs = t ++ [0] → r = .ok (.bytes t)
      | _ => True
    split
    · next hch => rw [hr, (t1 hch).2]; rfl
    · next n bs hch =>
      refine ⟨nofun, fun t _ hbs => ?_⟩
      have hl := (t2 n bs hch).1
      subst hbs
      rw [List.length_append] at hl
      have hl : n = t.length + 1 := by rw [← hl]; rfl
      subst hl
      rw [hr, text t hch]
      rfl
    · trivial
  unfold emitGetter at h
  simp only at h
  rw [hg] at h
  cases ty with
  | interface => exact absurd rfl hni
  | void =>
    have h := Except.ok.inj h; subst h
    rfl
  | bool =>
    have h := Except.ok.inj h; subst h
    obtain ⟨b, hb⟩ := hd
    have hb : d = .bool b := hb
    subst hb
    refine (reads_bool ho off b).trans ?_
    show _ = Except.ok (RVal.bool (sectionBit data off ^^ (b && decide (0 = 0))))
    rw [decide_eq_true rfl, Bool.and_true]
  | prim fmt =>
    cases fmt with
    | f =>
      have h := Except.ok.inj h; subst h
      have hd : d = .float .f 0 := hd
      subst hd
      exact reads_float ho (.inl rfl)
    | d =>
      have h := Except.ok.inj h; subst h
      have hd : d = .float .d 0 := hd
      subst hd
      exact reads_float ho (.inr rfl)
    | b =>
      have h := Except.ok.inj h; subst h
      obtain ⟨v, hv, hr⟩ := hd
      have hv : d = .int v := hv
      subst hv
      exact reads_int (fmt := .b) ho hr
    | B =>
      have h := Except.ok.inj h; subst h
      obtain ⟨v, hv, hr⟩ := hd
      have hv : d = .int v := hv
      subst hv
      exact reads_int (fmt := .B) ho hr
    | h =>
      have h := Except.ok.inj h; subst h
      obtain ⟨v, hv, hr⟩ := hd
      have hv : d = .int v := hv
      subst hv
      exact reads_int (fmt := .h) ho hr
    | H =>
      have h := Except.ok.inj h; subst h
      obtain ⟨v, hv, hr⟩ := hd
      have hv : d = .int v := hv
      subst hv
      exact reads_int (fmt := .H) ho hr
    | i =>
      have h := Except.ok.inj h; subst h
      obtain ⟨v, hv, hr⟩ := hd
      have hv : d = .int v := hv
      subst hv
      exact reads_int (fmt := .i) ho hr
    | I =>
      have h := Except.ok.inj h; subst h
      obtain ⟨v, hv, hr⟩ := hd
      have hv : d = .int v := hv
      subst hv
      exact reads_int (fmt := .I) ho hr
    | q =>
      have h := Except.ok.inj h; subst h
      obtain ⟨v, hv, hr⟩ := hd
      have hv : d = .int v := hv
      subst hv
      exact reads_int (fmt := .q) ho hr
    | Q =>
      have h := Except.ok.inj h; subst h
      obtain ⟨v, hv, hr⟩ := hd
      have hv : d = .int v := hv
      subst hv
      exact reads_int (fmt := .Q) ho hr
  | enum i =>
    obtain ⟨v, hv, hr⟩ := hd
    have hv : d = .int v := hv
    subst hv
    have h : (do pure (Getter.enum (← Const.nodeName c.g c.fuel i []) (off * 2) (.int v)) : Py Getter) = .ok code := h
    cases hn : Const.nodeName c.g c.fuel i [] with
    | error e => rw [hn] at h; cases h
    | ok name =>
      rw [hn] at h
      have h := Except.ok.inj h; subst h
      exact reads_int (fmt := .h) ho hr
  | text =>
    obtain ⟨g, pyx, tt, fuel⟩ := c
    cases tt with
    | notset => exact absurd rfl (htt rfl)
    | bytes => have h := Except.ok.inj h; subst h; exact textcase _ rfl
    | unicode => have h := Except.ok.inj h; subst h; exact textcase _ rfl
  | data =>
    have h := Except.ok.inj h; subst h
    show ReadsSlot cls c.tt data ptrs o ⟨.data, off, d, ex⟩ ((Getter.data (off * 8)).run items o)
    generalize hr : (Getter.data (off * 8)).run items o = r
    have hr : (do pure (((← o.dataField ((off * 8 : Nat) : Int)).map RVal.bytes).getD .none) : Py RVal) = r := hr
    show match child ptrs off with
      | .null => r = .ok .none
      | .listPrim 2 _ bs => (STy.data = .data → r = .ok (.bytes bs)) ∧ ∀ t, STy.data = .text → bs = t ++ [0] → r = .ok (.bytes t)
      | _ => True
    split
    · next hch => rw [← hr, (t1 hch).1]; rfl
    · next n bs hch => exact ⟨fun _ => by rw [← hr, (t2 n bs hch).2]; rfl, nofun⟩
    · trivial
  | struct i =>
    have h : (do pure (Getter.struct (← c.g.runtimeName c.fuel (← c.g.node i)) (off * 8)) : Py Getter) = .ok code := h
    cases hn : c.g.node i with
    | error e => rw [hn] at h; cases h
    | ok n =>
      rw [hn] at h
      cases hs : c.g.runtimeName c.fuel n with
      | error e =>
        have h : (do pure (Getter.struct (← c.g.runtimeName c.fuel n) (off * 8)) : Py Getter) = .ok code := h
        rw [hs] at h; cases h
      | ok name =>
        have h : (do pure (Getter.struct (← c.g.runtimeName c.fuel n) (off * 8)) : Py Getter) = .ok code := h
        rw [hs] at h
        have h := Except.ok.inj h; subst h
        generalize hr : (Getter.struct name (off * 8)).run items o = r
        have hr : (do pure (((← o.readStruct ((off * 8 : Nat) : Int)).map RVal.struct).getD .none) : Py RVal) = r := hr
        obtain ⟨s1, s2, s3⟩ := C10_struct o data ptrs ho off
        rw [Nat.mul_comm] at s1 s2 s3
        show match child ptrs off with
          | .null => r = .ok .none
          | .struct d p => ∃ o', r = .ok (.struct o') ∧ Denotes o' (.struct d p)
          | _ => r = .error .assertionError
        split
        · next hch => rw [← hr, s1 hch]; rfl
        · next d p hch =>
          obtain ⟨o', e, hd⟩ := s2 d p hch
          exact ⟨o', by rw [← hr, e]; rfl, hd⟩
        · next h1 h2 => rw [← hr, s3 h1 h2]; rfl
  | list e =>
    have h : (do pure (Getter.list (← Const.listItemType c.g c.pyx c.tt c.fuel e) (off * 8)) : Py Getter) = .ok code := h
    cases hs : Const.listItemType c.g c.pyx c.tt c.fuel e with
    | error e => rw [hs] at h; cases h
    | ok name =>
      rw [hs] at h
      have h := Except.ok.inj h; subst h
      obtain ⟨it, hit, hit'⟩ := hi e rfl name hs
      generalize hr : (Getter.list name (off * 8)).run items o = r
      have hr : (match items name with
        | Option.none => .error .nameError
        | some it => do pure (((← o.readList ((off * 8 : Nat) : Int) it).map RVal.list).getD .none) : Py RVal) = r := hr
      rw [hit'] at hr
      have hr : (do pure (((← o.readList ((off * 8 : Nat) : Int) it.toItemType).map RVal.list).getD .none) : Py RVal) = r := hr
      obtain ⟨s1, s2, s3⟩ := C10_list o data ptrs ho off it.toItemType
      rw [Nat.mul_comm] at s1 s2 s3
      show match child ptrs off with
        | .null => r = .ok .none
        | .struct _ _ => r = .error .assertionError
        | v => ∃ l it, r = .ok (.list l) ∧ ListDenotes l v ∧ itemOf cls c.tt e = some it ∧ l.itemType = it.toItemType
      split
      · next hch => rw [← hr, s1 hch]; rfl
      · next d p hch => rw [← hr, s3 d p hch]; rfl
      · next h1 h2 =>
        obtain ⟨l, e, h3, h4⟩ := s2 h1 h2
        exact ⟨l, it, by rw [← hr, e]; rfl, h4, hit, h3⟩
  | anyPointer =>
    have h := Except.ok.inj h; subst h
    obtain ⟨b, hb, hb'⟩ := C11_has o data ptrs ho off
    rw [Nat.mul_comm] at hb
    have hr : (Getter.any (off * 8)).run items o =
      (do if (← o.hasField ((off * 8 : Nat) : Int)) then pure (.any o (off * 8)) else pure .none : Py RVal) := rfl
    show (child ptrs off = .null → (Getter.any (off * 8)).run items o = Except.ok .none) ∧
      (child ptrs off ≠ .null → (Getter.any (off * 8)).run items o = Except.ok (.any o (8 * off)))
    rw [show (Getter.any (off * 8)).run items o = (if b = true then pure (.any o (off * 8)) else pure .none : Py RVal) by
      rw [hr, bind_okP hb]]
    constructor
    · intro hch
      rw [if_neg (fun hbt => (hb'.mp hbt) hch)]
      rfl
    · intro hch
      rw [if_pos (hb'.mpr hch), Nat.mul_comm]
      rfl

end Capnpy.Props
