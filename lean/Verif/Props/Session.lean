import Verif.Model.Session
import Verif.Props.Message
import Verif.Props.Streams
import Verif.Props.Evolve
import Mathlib.Data.List.Forall2

/-!
# C65: objects sent over a connection

A program dumps objects to a `BufferedSocket` and flushes it now and then; the connection or one of
the programs fails at any moment; the other program reads whatever has arrived, in chunks of
any sizes, with `load_all`.
-/

namespace Capnpy.Props

open Spec

/-- An object that `dumps` can write (C17), with its value. -/
structure Sendable (fuel : Nat) (o : StructObj) (fastpath : Bool) (v : Val) : Prop where
  denotes : Denotes o v
  fits : v.Fits
  buf : o.seg.buf.length ≤ 2 ^ 32
  size : 16 + v.size ≤ 2 ^ 32
  depth : 2 * v.depth ≤ fuel + 1
  fast : fastpath = true → v ≠ .struct [] [] ∧ 8 ∣ o.seg.buf.length

/-- The objects a program dumps, in this order. -/
def sent : List Step → List (StructObj × Bool)
  | [] => []
  | .send o fp :: steps => (o, fp) :: sent steps
  | .flush _ :: steps => sent steps

/-- The program does not go on with the socket after a `flush` that failed when a part of the data
had been sent. -/
def NoRetry : List Step → Prop
  | [] => True
  | .send _ _ :: steps => NoRetry steps
  | .flush .ok :: steps => NoRetry steps
  | .flush (.fail k) :: steps => (k = 0 ∨ ∀ r, .flush r ∉ steps) ∧ NoRetry steps

/-- The bytes of one message. -/
structure Sent (fuel : Nat) (x : StructObj × Bool) (v : Val) (S : Bytes) (o' : StructObj) : Prop where
  dumps : dumps x.1 x.2 fuel = .ok (frame [S] [])
  frameable : Frameable [S] []
  nonempty : [S].flatten ≠ []
  loads : loads (frame [S] []) = .ok (some o')
  value : Denotes o' v

theorem sent_of_sendable {fuel : Nat} {o : StructObj} {fp : Bool} {v : Val} (h : Sendable fuel o fp v) :
    ∃ S o', Sent fuel (o, fp) v S o' := by
  obtain ⟨s, o', h1, h2, h3⟩ : ∃ s o', dumps o fp fuel = .ok s ∧ loads s = .ok (some o') ∧ Denotes o' v := by
    cases fp with
    | false => exact C17_slow_path h.denotes h.fits h.buf h.size h.depth
    | true =>
      obtain ⟨h1, h2⟩ := h.fast rfl
      exact C17_fast_path_loaded h.denotes h.fits h1 h2 h.buf h.size h.depth
  obtain ⟨words, body, rfl, hb, hw⟩ := C18_frame h.denotes h.fits h.buf h.size h.depth fp h1
  have hfr : le32 0 ++ le32 words ++ body = frame [body] [] := by
    have hq : body.length / 8 = words := by omega
    unfold frame
    simp [hq]
  have hne : body ≠ [] := by
    rintro rfl
    obtain rfl : words = 0 := by simpa using hb.symm
    have h2 : loads [0, 0, 0, 0, 0, 0, 0, 0] = .ok (some o') := h2
    rw [show loads [0, 0, 0, 0, 0, 0, 0, 0] = .error .assertionError by decide +kernel] at h2
    cases h2
  rw [hfr] at h1 h2
  refine ⟨body, o', h1, ⟨by simp, by simp, ?_, ?_, by simp⟩, by simpa using hne, h2, h3⟩
  · intro s hs; rw [List.mem_singleton] at hs; subst hs; omega
  · intro s hs; rw [List.mem_singleton] at hs; subst hs; omega

/-- The messages of the objects that were sent. -/
abbrev Msg := Bytes × StructObj × Val

abbrev AllSent (fuel : Nat) (xs : List (StructObj × Bool)) (ms : List Msg) : Prop :=
  List.Forall₂ (fun x m => Sent fuel x m.2.2 m.1 m.2.1) xs ms

/-- Their bytes. -/
def bytesOf (ms : List Msg) : Bytes := (ms.map fun m => frame [m.1] []).flatten

theorem bytesOf_cons (m : Msg) (ms : List Msg) : bytesOf (m :: ms) = frame [m.1] [] ++ bytesOf ms := rfl

theorem allSent_of_sendable {fuel : Nat} : ∀ {xs : List (StructObj × Bool)} {vs : List Val},
    List.Forall₂ (fun x v => Sendable fuel x.1 x.2 v) xs vs → ∃ ms, AllSent fuel xs ms ∧ ms.map (fun m => m.2.2) = vs
  | _, _, .nil => ⟨[], .nil, rfl⟩
  | _, _, .cons h hs => by
    obtain ⟨S, o', h1⟩ := sent_of_sendable h
    obtain ⟨ms, h2, h3⟩ := allSent_of_sendable hs
    exact ⟨(S, o', _) :: ms, .cons h1 h2, by rw [List.map_cons, h3]⟩

theorem dump_ok {o : StructObj} {fp : Bool} {fuel : Nat} {b : Bytes} (h : dumps o fp fuel = .ok b) (s : WSock) :
    dump o s fp fuel = .ok (s.write b) := by
  unfold dump
  rw [bind_okP h]
  rfl

theorem sender_noflush {fuel : Nat} : ∀ (steps : List Step) (s : WSock) (ms : List Msg), AllSent fuel (sent steps) ms →
    (∀ r, .flush r ∉ steps) → ∃ s', sender fuel s steps = .ok s' ∧ s'.calls = s.calls
  | [], s, ms, _, _ => ⟨s, rfl, rfl⟩
  | .send o fp :: steps, s, _, .cons h hs, hn => by
    obtain ⟨s', h1, h2⟩ := sender_noflush steps (s.write _) _ hs (fun r hr => hn r (List.mem_cons_of_mem _ hr))
    refine ⟨s', ?_, h2⟩
    unfold sender
    rw [bind_okP (dump_ok h.dumps s)]
    exact h1
  | .flush r :: steps, s, _, _, hn => absurd List.mem_cons_self (hn r)

theorem received_flush (s : WSock) (r : SendRes) : received (s.flush r).1 = received s ++
    (match r with | .ok => s.wbuf.flatten | .fail k => s.wbuf.flatten.take k) := by
  cases r <;> simp [received, WSock.flush, List.flatten_append]

theorem received_congr {s s' : WSock} (h : s'.calls = s.calls) : received s' = received s := by
  unfold received
  rw [h]

/-- What has been received is a prefix of what has been dumped. -/
theorem sender_prefix {fuel : Nat} : ∀ (steps : List Step) (s : WSock) (ms : List Msg), AllSent fuel (sent steps) ms →
    NoRetry steps → ∃ s' tail, sender fuel s steps = .ok s' ∧
      received s' ++ tail = received s ++ s.wbuf.flatten ++ bytesOf ms
  | [], s, _, .nil, _ => ⟨s, s.wbuf.flatten, rfl, by simp [bytesOf]⟩
  | .send o fp :: steps, s, m :: ms, .cons h hs, hn => by
    obtain ⟨s', tail, h1, h2⟩ := sender_prefix steps (s.write (frame [m.1] [])) _ hs hn
    refine ⟨s', tail, ?_, ?_⟩
    · unfold sender
      rw [bind_okP (dump_ok h.dumps s)]
      exact h1
    · rw [h2, bytesOf_cons]
      have : received (s.write (frame [m.1] [])) = received s := received_congr rfl
      rw [this]
      simp [WSock.write]
  | .flush .ok :: steps, s, ms, hs, hn => by
    obtain ⟨s', tail, h1, h2⟩ := sender_prefix steps (s.flush .ok).1 ms hs hn
    refine ⟨s', tail, h1, ?_⟩
    rw [h2, received_flush]
    simp [WSock.flush]
  | .flush (.fail k) :: steps, s, ms, hs, hn => by
    rcases hn.1 with rfl | h
    · obtain ⟨s', tail, h1, h2⟩ := sender_prefix steps (s.flush (.fail 0)).1 ms hs hn.2
      refine ⟨s', tail, h1, ?_⟩
      rw [h2, received_flush]
      simp [WSock.flush]
    · obtain ⟨s', h1, h2⟩ := sender_noflush steps (s.flush (.fail k)).1 ms hs h
      refine ⟨s', s.wbuf.flatten.drop k ++ bytesOf ms, h1, ?_⟩
      rw [received_congr h2, received_flush]
      simp only [List.append_assoc]
      congr 1
      rw [← List.append_assoc, List.take_append_drop]

/-- A prefix of the messages: some complete messages, and a part of the next one. -/
theorem prefix_split : ∀ (ms : List Msg) (p more : Bytes), p ++ more = bytesOf ms →
    ∃ k rest, k ≤ ms.length ∧ p = bytesOf (ms.take k) ++ rest ∧
      (rest = [] ∨ ∃ m more', ms[k]? = some m ∧ rest ++ more' = frame [m.1] [] ∧ more' ≠ [])
  | [], p, more, h => by
    have : p = [] := by
      have h : p ++ more = [] := h
      exact (List.append_eq_nil_iff.mp h).1
    exact ⟨0, [], le_refl _, by rw [this]; rfl, .inl rfl⟩
  | m :: ms, p, more, h => by
    rw [bytesOf_cons] at h
    rcases Nat.lt_or_ge p.length (frame [m.1] []).length with hl | hl
    · refine ⟨0, p, Nat.zero_le _, by simp [bytesOf], ?_⟩
      rcases List.append_eq_append_iff.mp h with ⟨a, h1, h2⟩ | ⟨a, h1, h2⟩
      · refine .inr ⟨m, a, rfl, h1.symm, ?_⟩
        rintro rfl
        rw [h1] at hl
        simp at hl
      · rw [h1] at hl
        simp at hl
    · rcases List.append_eq_append_iff.mp h with ⟨a, h1, h2⟩ | ⟨a, h1, h2⟩
      · obtain rfl : a = [] := by
          rw [h1, List.length_append] at hl
          exact List.length_eq_zero_iff.mp (by omega)
        rw [List.append_nil] at h1
        refine ⟨1, [], by simp, ?_, .inl rfl⟩
        rw [← h1]
        simp [bytesOf]
      · obtain ⟨k, rest, h3, h4, h5⟩ := prefix_split ms a more h2.symm
        refine ⟨k + 1, rest, by simpa using h3, ?_, h5⟩
        rw [h1, h4, List.take_succ_cons, bytesOf_cons, List.append_assoc]

/-- What the reader gets out of the bytes `p` when the objects `xs` with the values `vs` were
sent: the first `k` of them, equal in value, where `k` is the number of messages that are
complete; then the end, or ValueError if a part of another message follows. -/
def Got (fuel : Nat) (xs : List (StructObj × Bool)) (vs : List Val) (p : Bytes) (objs : List (Option StructObj))
    (e : GenEnd) : Prop :=
  ∃ (frames : List Bytes) (rest : Bytes),
    List.Forall₂ (fun x b => dumps x.1 x.2 fuel = .ok b) xs frames ∧
    objs.length ≤ xs.length ∧
    p = (frames.take objs.length).flatten ++ rest ∧
    (∀ b, frames[objs.length]? = some b → rest.length < b.length) ∧
    (objs.length = xs.length → rest = []) ∧
    e = (if rest = [] then .stop else .raised .valueError) ∧
    ∀ i, i < objs.length → ∃ v o', vs[i]? = some v ∧ objs[i]? = some (some o') ∧ Denotes o' v

theorem allSent_dumps {fuel : Nat} {xs : List (StructObj × Bool)} {ms : List Msg} (h : AllSent fuel xs ms) :
    List.Forall₂ (fun x b => dumps x.1 x.2 fuel = .ok b) xs (ms.map fun m => frame [m.1] []) := by
  induction h with
  | nil => exact .nil
  | cons h _ ih => exact .cons h.dumps ih

theorem allSent_mem {fuel : Nat} {xs : List (StructObj × Bool)} {ms : List Msg} (h : AllSent fuel xs ms) :
    ∀ m ∈ ms, Frameable [m.1] [] ∧ [m.1].flatten ≠ [] ∧ loads (frame [m.1] []) = .ok (some m.2.1) ∧ Denotes m.2.1 m.2.2 := by
  induction h with
  | nil => intro m hm; cases hm
  | cons h _ ih =>
    intro m hm
    rcases List.mem_cons.mp hm with rfl | hm
    · exact ⟨h.frameable, h.nonempty, h.loads, h.value⟩
    · exact ih m hm

theorem reader_got {fuel : Nat} {xs : List (StructObj × Bool)} {ms : List Msg} (h : AllSent fuel xs ms) (p more : Bytes)
    (hp : p ++ more = bytesOf ms) (chunks : List Bytes) (hc : ∀ c ∈ chunks, c ≠ []) (hs : chunks.flatten = p) (n : Nat)
    (hn : xs.length < n) :
    ∃ objs e st', loadAll BStream.file n (BStream.init chunks) = (objs, e, st') ∧
      Got fuel xs (ms.map fun m => m.2.2) p objs e := by
  obtain ⟨k, rest, hk, rfl, hrest⟩ := prefix_split ms p more hp
  have hlen := h.length_eq
  have hmem := allSent_mem h
  have hload : ∀ m ∈ (ms.take k).map (fun m => (([m.1], [], some m.2.1) : List Bytes × Bytes × Option StructObj)), Loadable m := by
    intro m hm
    obtain ⟨x, hx, rfl⟩ := List.mem_map.mp hm
    obtain ⟨h1, h2, h3, _⟩ := hmem x (List.mem_of_mem_take hx)
    exact ⟨h1, h2, h3⟩
  have hcc : concat ((ms.take k).map fun m => (([m.1], [], some m.2.1) : List Bytes × Bytes × Option StructObj)) =
      bytesOf (ms.take k) := by
    unfold concat bytesOf
    rw [List.map_map]
    rfl
  have hlk : (ms.take k).length = k := by rw [List.length_take]; omega
  have hobjs : ((ms.take k).map fun m => (([m.1], [], some m.2.1) : List Bytes × Bytes × Option StructObj)).map (fun m => m.2.2) =
      (ms.take k).map fun m => some m.2.1 := by
    rw [List.map_map]
    rfl
  have fin : ∀ e, (e = if rest = [] then GenEnd.stop else .raised .valueError) →
      Got fuel xs (ms.map fun m => m.2.2) (bytesOf (ms.take k) ++ rest) ((ms.take k).map fun m => some m.2.1) e := by
    intro e he
    refine ⟨_, rest, allSent_dumps h, by rw [List.length_map, hlk]; omega, ?_, ?_, ?_, he, ?_⟩
    · rw [List.length_map, hlk, ← List.map_take]
      rfl
    · rw [List.length_map, hlk]
      intro b hb
      rcases hrest with rfl | ⟨m, more', h1, h2, h3⟩
      · rw [List.getElem?_map] at hb
        obtain ⟨m, -, rfl⟩ := Option.map_eq_some_iff.mp hb
        rw [frame_length]
        simp
      · rw [List.getElem?_map, h1] at hb
        injection hb with hb
        rw [← hb]
        show rest.length < (frame [m.1] []).length
        rw [← h2, List.length_append]
        have := List.length_pos_of_ne_nil h3
        omega
    · rw [List.length_map, hlk]
      intro hkx
      rcases hrest with rfl | ⟨m, more', h1, h2, h3⟩
      · rfl
      · have := (List.getElem?_eq_some_iff.mp h1).1
        omega
    · rw [List.length_map, hlk]
      intro i hi
      have hi' : i < ms.length := by omega
      refine ⟨(ms[i]).2.2, (ms[i]).2.1, ?_, ?_, (hmem _ (List.getElem_mem hi')).2.2.2⟩
      · rw [List.getElem?_map, List.getElem?_eq_getElem hi']; rfl
      · rw [List.getElem?_map, List.getElem?_take_of_lt hi, List.getElem?_eq_getElem hi']; rfl
  by_cases hr : rest = []
  · obtain ⟨st', h1⟩ := C22_load_all _ hload chunks hc (by rw [hcc, hs, hr, List.append_nil]) (fuel := n)
      (by rw [List.length_map, hlk]; omega)
    rw [hobjs] at h1
    exact ⟨_, _, st', h1, fin _ (by rw [if_pos hr])⟩
  · rcases hrest with h0 | ⟨m, more', h1, h2, h3⟩
    · exact absurd h0 hr
    · obtain ⟨g1, g2, _⟩ := hmem m (List.mem_of_getElem? h1)
      obtain ⟨st', h4⟩ := C22_load_all_truncated _ hload g1 g2 h2 hr h3 chunks hc (by rw [hcc, hs]) (fuel := n)
        (by rw [List.length_map, hlk]; omega)
      rw [hobjs] at h4
      exact ⟨_, _, st', h4, fin _ (by rw [if_neg hr])⟩

/-- C65: for every program that dumps objects and flushes (and does not retry a flush that failed
midway), every failure of the sender or of the connection (`p` is any prefix of what the socket
sent), and every way in which the bytes arrive: the reader gets exactly the complete messages, in
order, with the values that were sent, then the end or a ValueError. -/
theorem C65_stream (fuel : Nat) (steps : List Step) (vs : List Val)
    (hs : List.Forall₂ (fun x v => Sendable fuel x.1 x.2 v) (sent steps) vs) (hr : NoRetry steps) :
    ∃ sock, sender fuel WSock.init steps = .ok sock ∧
      ∀ p more, p ++ more = received sock → ∀ chunks : List Bytes, (∀ c ∈ chunks, c ≠ []) → chunks.flatten = p →
        ∀ n, (sent steps).length < n →
        ∃ objs e st', loadAll BStream.file n (BStream.init chunks) = (objs, e, st') ∧ Got fuel (sent steps) vs p objs e := by
  obtain ⟨ms, h1, rfl⟩ := allSent_of_sendable hs
  obtain ⟨sock, tail, h2, h3⟩ := sender_prefix steps WSock.init ms h1 hr
  refine ⟨sock, h2, fun p more hp chunks hc hcs n hn => ?_⟩
  refine reader_got h1 p (more ++ tail) ?_ chunks hc hcs n hn
  rw [← List.append_assoc, hp, h3]
  rfl

/-! ## What arrives for sure -/

theorem sender_append {fuel : Nat} : ∀ (a b : List Step) (s : WSock),
    sender fuel s (a ++ b) = (sender fuel s a >>= fun s' => sender fuel s' b)
  | [], b, s => rfl
  | .send o fp :: a, b, s => by
    show (dump o s fp fuel >>= fun s => sender fuel s (a ++ b)) = ((dump o s fp fuel >>= fun s => sender fuel s a) >>= _)
    cases dump o s fp fuel with
    | error e => rfl
    | ok s' => exact sender_append a b s'
  | .flush r :: a, b, s => sender_append a b (s.flush r).1

theorem sent_append : ∀ a b : List Step, sent (a ++ b) = sent a ++ sent b
  | [], b => rfl
  | .send o fp :: a, b => by
    show (o, fp) :: sent (a ++ b) = _
    rw [sent_append]
    rfl
  | .flush r :: a, b => sent_append a b

theorem received_grows {fuel : Nat} : ∀ (steps : List Step) (s s' : WSock), sender fuel s steps = .ok s' →
    ∃ t, received s' = received s ++ t
  | [], s, s', h => by
    injection h with h
    exact ⟨[], by rw [h, List.append_nil]⟩
  | .send o fp :: steps, s, s', h => by
    cases hd : dumps o fp fuel with
    | error e =>
      unfold sender dump at h
      rw [hd] at h
      cases h
    | ok b =>
      unfold sender at h
      rw [bind_okP (dump_ok hd s)] at h
      obtain ⟨t, ht⟩ := received_grows steps _ s' h
      exact ⟨t, ht⟩
  | .flush r :: steps, s, s', h => by
    obtain ⟨t, ht⟩ := received_grows steps _ s' h
    rw [received_flush, List.append_assoc] at ht
    exact ⟨_, ht⟩

/-- With no tainted flush before the end, everything dumped is either received or buffered. -/
theorem sender_clean {fuel : Nat} : ∀ (steps : List Step) (s : WSock) (ms : List Msg) (tail : List Step) (r : SendRes),
    AllSent fuel (sent steps) ms → NoRetry (steps ++ .flush r :: tail) →
    ∃ s', sender fuel s steps = .ok s' ∧
      received s' ++ s'.wbuf.flatten = received s ++ s.wbuf.flatten ++ bytesOf ms
  | [], s, _, _, _, .nil, _ => ⟨s, rfl, by simp [bytesOf]⟩
  | .send o fp :: steps, s, m :: ms, tail, r, .cons h hs, hn => by
    obtain ⟨s', h1, h2⟩ := sender_clean steps (s.write (frame [m.1] [])) _ tail r hs hn
    refine ⟨s', ?_, ?_⟩
    · unfold sender
      rw [bind_okP (dump_ok h.dumps s)]
      exact h1
    · rw [h2, bytesOf_cons]
      have : received (s.write (frame [m.1] [])) = received s := received_congr rfl
      rw [this]
      simp [WSock.write]
  | .flush .ok :: steps, s, ms, tail, r, hs, hn => by
    obtain ⟨s', h1, h2⟩ := sender_clean steps (s.flush .ok).1 ms tail r hs hn
    refine ⟨s', h1, ?_⟩
    rw [h2, received_flush]
    simp [WSock.flush]
  | .flush (.fail k) :: steps, s, ms, tail, r, hs, hn => by
    rcases hn.1 with rfl | h
    · obtain ⟨s', h1, h2⟩ := sender_clean steps (s.flush (.fail 0)).1 ms tail r hs hn.2
      refine ⟨s', h1, ?_⟩
      rw [h2, received_flush]
      simp [WSock.flush]
    · exact absurd (by simp) (h r)

theorem forall2_take {α β : Type} {R : α → β → Prop} : ∀ {a b : List α} {c : List β}, List.Forall₂ R (a ++ b) c →
    List.Forall₂ R a (c.take a.length)
  | [], b, c, h => by simpa using List.Forall₂.nil
  | x :: a, b, _, .cons h hs => .cons h (forall2_take hs)

theorem bytesOf_take (ms : List Msg) (k : Nat) : ∃ t, bytesOf ms = bytesOf (ms.take k) ++ t := by
  refine ⟨bytesOf (ms.drop k), ?_⟩
  unfold bytesOf
  rw [← List.flatten_append, ← List.map_append, List.take_append_drop]

/-- C65: an object that was dumped before a successful flush is received, if what the socket sent
arrives: whatever the sender does (or fails to do) afterwards. -/
theorem C65_flushed (fuel : Nat) (a b : List Step) (vs : List Val)
    (hs : List.Forall₂ (fun x v => Sendable fuel x.1 x.2 v) (sent (a ++ .flush .ok :: b)) vs)
    (hr : NoRetry (a ++ .flush .ok :: b)) :
    ∃ sock, sender fuel WSock.init (a ++ .flush .ok :: b) = .ok sock ∧
      ∀ chunks : List Bytes, (∀ c ∈ chunks, c ≠ []) → chunks.flatten = received sock →
        ∀ n, (sent (a ++ .flush .ok :: b)).length < n →
        ∃ objs e st', loadAll BStream.file n (BStream.init chunks) = (objs, e, st') ∧ (sent a).length ≤ objs.length ∧
          Got fuel (sent (a ++ .flush .ok :: b)) vs (received sock) objs e := by
  obtain ⟨sock, h1, h2⟩ := C65_stream fuel _ vs hs hr
  refine ⟨sock, h1, fun chunks hc hcs n hn => ?_⟩
  obtain ⟨objs, e, st', h3, h4⟩ := h2 (received sock) [] (by simp) chunks hc hcs n hn
  refine ⟨objs, e, st', h3, ?_, h4⟩
  obtain ⟨ms, hm, _⟩ := allSent_of_sendable hs
  have hm' : AllSent fuel (sent a) (ms.take (sent a).length) := by
    rw [sent_append] at hm
    exact forall2_take hm
  obtain ⟨s1, g1, g2⟩ := sender_clean a WSock.init _ b .ok hm' hr
  rw [sender_append, bind_okP g1] at h1
  obtain ⟨t, ht⟩ := received_grows b _ sock h1
  rw [received_flush] at ht
  have g2 : received s1 ++ s1.wbuf.flatten = bytesOf (ms.take (sent a).length) := g2
  simp only at ht
  rw [g2] at ht
  obtain ⟨frames, rest, f1, f2, f3, f4, f5, _⟩ := h4
  by_contra hlt
  have hfr : frames = ms.map fun m => frame [m.1] [] := by
    have := allSent_dumps hm
    clear * - f1 this
    generalize sent (a ++ .flush .ok :: b) = xs at f1 this
    induction f1 generalizing ms with
    | nil => cases ms with
      | nil => rfl
      | cons m ms => cases this
    | cons h _ ih =>
      cases ms with
      | nil => cases this
      | cons m ms =>
        cases this with
        | cons h' hs =>
          rw [h] at h'
          injection h' with h'
          rw [h', ih ms hs]
          rfl
  have hlen := hm.length_eq
  rw [sent_append, List.length_append] at hlen
  have hk : objs.length < ms.length := by
    omega
  have hb : frames[objs.length]? = some (frame [(ms[objs.length]).1] []) := by
    rw [hfr, List.getElem?_map, List.getElem?_eq_getElem hk]
    rfl
  have hrest := f4 _ hb
  have e1 : bytesOf (ms.take (sent a).length) = bytesOf (ms.take objs.length) ++ frame [(ms[objs.length]).1] [] ++
      bytesOf ((ms.take (sent a).length).drop (objs.length + 1)) := by
    have : ms.take (sent a).length = ms.take objs.length ++ ms[objs.length] :: (ms.take (sent a).length).drop (objs.length + 1) := by
      have h := (List.take_append_drop objs.length (ms.take (sent a).length)).symm
      rw [List.take_take, Nat.min_eq_left (by omega)] at h
      rw [List.drop_eq_getElem_cons (by rw [List.length_take]; omega)] at h
      rw [List.getElem_take] at h
      exact h
    conv_lhs => rw [this]
    unfold bytesOf
    simp
  have hfl := congrArg List.length f3
  have htl := congrArg List.length ht
  rw [e1] at htl
  have e2 : (frames.take objs.length).flatten = bytesOf (ms.take objs.length) := by
    rw [hfr, ← List.map_take]
    rfl
  rw [e2] at hfl
  simp only [List.length_append] at hfl htl
  omega

/-- C65: with the constructors: what was given to the constructor of the `i`-th message is read from
the `i`-th object of the reader. -/
theorem C65_fields (fuel : Nat) (xs : List (StructObj × Bool)) (vs : List Val)
    (hs : List.Forall₂ (fun x v => Sendable fuel x.1 x.2 v) xs vs) (p : Bytes) (objs : List (Option StructObj)) (e : GenEnd)
    (hg : Got fuel xs vs p objs e) (i : Nat) (x : StructObj × Bool) (hx : xs[i]? = some x) (hi : i < objs.length)
    (fuel' : Nat) (S : Schema) (args : List Arg) (n : Nat) (hS : S.WF)
    (hl : S.locals.Nodup) (ha : AccFields fuel' S.fields args n) (hm : (members S.fields args).length ≤ 1)
    (hsz : 8 * (S.dataWords + S.ptrs) + n ≤ 2 ^ 32) (hc : S.construct fuel' args = .ok x.1) :
    ∃ o', objs[i]? = some (some o') ∧
      ∀ (k : Nat) (f : Field) (a : Arg), S.params[k]? = some f → args[k]? = some a → absent f a = false →
        ReadsVal o' f a (getField o' S.union f) := by
  obtain ⟨v, o', h1, h2, h3⟩ : ∃ v o', vs[i]? = some v ∧ objs[i]? = some (some o') ∧ Denotes o' v := by
    obtain ⟨_, _, _, _, _, _, _, _, h⟩ := hg
    exact h i hi
  refine ⟨o', h2, fun k f a hf hk hab => ?_⟩
  have hsend : Sendable fuel x.1 x.2 v := by
    clear h2 h3 hi hg
    induction hs generalizing i with
    | nil => cases hx
    | cons hy _ ih =>
      cases i with
      | zero => cases hx; cases h1; exact hy
      | succ i => exact ih i hx h1
  exact (C63_renamed fuel' S args n o' hS hl ha hm hsz ⟨x.1, v, hc, hsend.denotes, h3⟩ k f a hf hk hab).1

/-! ## Without the hypothesis `NoRetry` -/

/-- `A(x=77)`, dumped: 24 bytes. -/
def a77 : StructObj := objAt [77, 0, 0, 0, 0, 0, 0, 0] none 0 1 0

theorem a77_sendable (fp : Bool) : Sendable 1 a77 fp (.struct [77, 0, 0, 0, 0, 0, 0, 0] []) where
  denotes := by
    refine ⟨_, none, 0, 1, 0, _, [], rfl, (by intro t h; cases h), by norm_num, by norm_num, by norm_num,
      ⟨by decide, by decide, rfl, ?_⟩, rfl⟩
    intro j v hj
    simp at hj
  fits := by simp [Val.Fits, Val.AllFits]
  buf := by decide
  size := by simp [Val.size, Val.sizes]
  depth := by simp [Val.depth, Val.depths]
  fast := fun _ => ⟨by simp, by decide⟩

/-- The message. -/
def bytes77 : Bytes := [0, 0, 0, 0, 2, 0, 0, 0, 0, 0, 0, 0, 1, 0, 0, 0, 77, 0, 0, 0, 0, 0, 0, 0]

/-- The object, when loaded. -/
def loaded77 : StructObj := objAt [0, 0, 0, 0, 1, 0, 0, 0, 77, 0, 0, 0, 0, 0, 0, 0] none 8 1 0

/-- C65 (a retried flush, see C25_retry_duplicates): the connection breaks when the message has been
sent completely, but `sendall` raises; the program flushes again: the reader gets the object
twice.  If the header and the root pointer were sent, it gets an object that was never sent: `A(x=0)`. -/
theorem C65_retry :
    (∃ sock, sender 1 WSock.init [.send a77 true, .flush (.fail 24), .flush .ok] = .ok sock ∧
      (loadAll BStream.file 5 (BStream.init [received sock])).1 = [some loaded77, some loaded77] ∧
      (loadAll BStream.file 5 (BStream.init [received sock])).2.1 = .stop) ∧
    (∃ sock o, sender 1 WSock.init [.send a77 true, .flush (.fail 16), .flush .ok] = .ok sock ∧
      (loadAll BStream.file 5 (BStream.init [received sock])).1 = [some o] ∧
      (loadAll BStream.file 5 (BStream.init [received sock])).2.1 = .raised .assertionError ∧
      a77.primField 0 .i 0 = .ok 77 ∧ o.primField 0 .i 0 = .ok 0) :=
  ⟨⟨⟨[], [(bytes77, .fail 24), (bytes77, .ok)]⟩, by decide +kernel, by decide +kernel, by decide +kernel⟩,
    ⟨⟨[], [(bytes77, .fail 16), (bytes77, .ok)]⟩, objAt [0, 0, 0, 0, 1, 0, 0, 0, 0, 0, 0, 0, 2, 0, 0, 0] none 8 1 0,
      by decide +kernel, by decide +kernel, by decide +kernel, by decide +kernel, by decide +kernel⟩⟩

/-! ## Non-vacuity -/

/-- Two messages, a flush, a third message, and a flush that breaks after ten bytes. -/
def program : List Step :=
  [.send a77 true, .send a77 false, .flush .ok, .send a77 true, .flush (.fail 10)]

example : List.Forall₂ (fun x v => Sendable 1 x.1 x.2 v) (sent program)
    [.struct [77, 0, 0, 0, 0, 0, 0, 0] [], .struct [77, 0, 0, 0, 0, 0, 0, 0] [], .struct [77, 0, 0, 0, 0, 0, 0, 0] []] :=
  .cons (a77_sendable _) (.cons (a77_sendable _) (.cons (a77_sendable _) .nil))

example : NoRetry program := ⟨.inr (by simp), trivial⟩

/-- The reader, which gets one byte at a time, reads two objects and a ValueError. -/
example : ∃ sock, sender 1 WSock.init program = .ok sock ∧
    (loadAll BStream.file 5 (BStream.init ((received sock).map fun b => [b]))).1 = [some loaded77, some loaded77] ∧
    (loadAll BStream.file 5 (BStream.init ((received sock).map fun b => [b]))).2.1 = .raised .valueError :=
  ⟨⟨[bytes77], [(bytes77 ++ bytes77, .ok), (bytes77, .fail 10)]⟩, by decide +kernel, by decide +kernel, by decide +kernel⟩

end Capnpy.Props
