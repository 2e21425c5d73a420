import Verif.Proof.Buffered

/-!
# C23 - C26: BufferedStream, StringBuffer, BufferedSocket

`Spec.flatRun` (Spec/Stream.lean) says what a sequence of calls returns when the
stream is one flat byte sequence.
-/

namespace Capnpy.Props

open Capnpy Spec

/-- Run one call on a `BufferedStream`. -/
def BStream.exec (s : BStream) : Cmd → Bytes × BStream
  | .read n => s.read n
  | .readAll => s.read (-1)
  | .readline => s.readline

/-- The results of a sequence of calls on a `BufferedStream`. -/
def BStream.run : BStream → List Cmd → List Bytes
  | _, [] => []
  | s, c :: cs => (BStream.exec s c).1 :: BStream.run (BStream.exec s c).2 cs

/-- Run one call on a `StringBuffer`. -/
def SBuffer.exec (s : SBuffer) : Cmd → Bytes × SBuffer
  | .read n => s.read n
  | .readAll => s.read (-1)
  | .readline => s.readline

/-- The results of a sequence of calls on a `StringBuffer`. -/
def SBuffer.run : SBuffer → List Cmd → List Bytes
  | _, [] => []
  | s, c :: cs => (SBuffer.exec s c).1 :: SBuffer.run (SBuffer.exec s c).2 cs

theorem BStream.exec_spec {s : BStream} (hs : s.Inv) (c : Cmd) :
    (BStream.exec s c).1 = c.result s.rest ∧
    (BStream.exec s c).2.rest = s.rest.drop (c.result s.rest).length ∧
    (BStream.exec s c).2.Inv := by
  cases c with
  | read n =>
    obtain ⟨h1, h2, h3⟩ := BStream.read_spec hs n
    refine ⟨h1, ?_, h3⟩
    change (s.read n).2.rest = _
    rw [h2]
    simp only [Cmd.result, List.length_take]
    by_cases h : n ≤ s.rest.length
    · rw [Nat.min_eq_left h]
    · rw [List.drop_of_length_le (by omega), Nat.min_eq_right (by omega), List.drop_length]
  | readAll =>
    obtain ⟨h1, h2, h3⟩ := BStream.readall_spec hs
    refine ⟨h1, ?_, h3⟩
    change (s.read (-1)).2.rest = _
    rw [h2]; simp [Cmd.result]
  | readline => exact BStream.readline_spec hs

theorem SBuffer.exec_spec {s : SBuffer} (hs : 0 ≤ s.i) (c : Cmd) :
    (SBuffer.exec s c).1 = c.result s.rest ∧
    (SBuffer.exec s c).2.rest = s.rest.drop (c.result s.rest).length ∧
    0 ≤ (SBuffer.exec s c).2.i := by
  cases c with
  | read n =>
    obtain ⟨h1, h2, h3, -⟩ := SBuffer.read_spec hs n
    refine ⟨h1, ?_, h3⟩
    change (s.read n).2.rest = _
    rw [h2]
    simp only [Cmd.result, List.length_take]
    by_cases h : n ≤ s.rest.length
    · rw [Nat.min_eq_left h]
    · rw [List.drop_of_length_le (by omega), Nat.min_eq_right (by omega), List.drop_length]
  | readAll =>
    obtain ⟨h1, h2, h3⟩ := SBuffer.readall_spec hs
    refine ⟨h1, ?_, h3⟩
    change (s.read (-1)).2.rest = _
    rw [h2]; simp [Cmd.result]
  | readline => exact SBuffer.readline_spec hs

theorem BStream.run_spec (cs : List Cmd) : ∀ {s : BStream}, s.Inv →
    BStream.run s cs = flatRun s.rest cs := by
  induction cs with
  | nil => intro s _; rfl
  | cons c cs ih =>
    intro s hs
    obtain ⟨h1, h2, h3⟩ := BStream.exec_spec hs c
    simp only [BStream.run, flatRun]
    rw [h1, ih h3, h2]

theorem SBuffer.run_spec (cs : List Cmd) : ∀ {s : SBuffer}, 0 ≤ s.i →
    SBuffer.run s cs = flatRun s.rest cs := by
  induction cs with
  | nil => intro s _; rfl
  | cons c cs ih =>
    intro s hs
    obtain ⟨h1, h2, h3⟩ := SBuffer.exec_spec hs c
    simp only [SBuffer.run, flatRun]
    rw [h1, ih h3, h2]

/-! ## C23 -/

/-- C23: for every way the peer splits the stream into (non-empty) chunks and
every sequence of `read(n)`, `read()` and `readline()` calls, a `BufferedStream`
returns what the same calls return on the flat byte sequence. -/
theorem C23_buffered_equals_flat (chunks : List Bytes) (hc : ∀ c ∈ chunks, c ≠ []) (cmds : List Cmd) :
    BStream.run (BStream.init chunks) cmds = flatRun chunks.flatten cmds := by
  rw [BStream.run_spec cmds (s := BStream.init chunks) ⟨le_refl _, hc⟩]
  simp [BStream.init, BStream.rest]

/-- C23, spelled out: the results, concatenated, are a prefix of the stream
(nothing is lost, duplicated or reordered), and the whole stream if the last call
is `read()`. -/
theorem C23_nothing_lost (chunks : List Bytes) (hc : ∀ c ∈ chunks, c ≠ []) (cmds : List Cmd) :
    (∃ rest, (BStream.run (BStream.init chunks) cmds).flatten ++ rest = chunks.flatten) ∧
    (BStream.run (BStream.init chunks) (cmds ++ [.readAll])).flatten = chunks.flatten := by
  have hres : ∀ (l : Bytes) (c : Cmd), c.result l ++ l.drop (c.result l).length = l := by
    intro l c
    cases c with
    | read n =>
      simp only [Cmd.result, List.length_take]
      by_cases h : n ≤ l.length
      · rw [Nat.min_eq_left h, List.take_append_drop]
      · rw [List.take_of_length_le (by omega), Nat.min_eq_right (by omega), List.drop_length,
          List.append_nil]
    | readAll => simp [Cmd.result]
    | readline =>
      have h := firstLine_eq_take l
      simp only [Cmd.result]
      conv_lhs => arg 1; rw [h]
      exact List.take_append_drop _ _
  have key : ∀ (cs : List Cmd) (l : Bytes),
      (∃ rest, (flatRun l cs).flatten ++ rest = l) ∧ (flatRun l (cs ++ [.readAll])).flatten = l := by
    intro cs
    induction cs with
    | nil => intro l; exact ⟨⟨l, rfl⟩, by simp [flatRun, Cmd.result]⟩
    | cons c cs ih =>
      intro l
      obtain ⟨⟨r, h1⟩, h2⟩ := ih (l.drop (c.result l).length)
      constructor
      · refine ⟨r, ?_⟩
        simp only [flatRun, List.flatten_cons, List.append_assoc]
        rw [h1, hres]
      · simp only [List.cons_append, flatRun, List.flatten_cons]
        rw [h2, hres]
  rw [C23_buffered_equals_flat chunks hc, C23_buffered_equals_flat chunks hc]
  exact key cmds chunks.flatten

example : BStream.run (BStream.init [[1, 10], [2], [3, 10, 4], [5]]) [.read 1, .readline, .readline, .read 1, .readAll]
    = [[1], [10], [2, 3, 10], [4], [5]] := by
  rw [C23_buffered_equals_flat _ (by decide)]; decide

/-! ## C24 -/

/-- C24: after any history of calls, `readline` returns the bytes up to and
including the first newline of what is left, or all of it. -/
theorem C24_readline (chunks : List Bytes) (hc : ∀ c ∈ chunks, c ≠ []) (cmds : List Cmd) :
    ∃ rest, (BStream.run (BStream.init chunks) cmds).flatten ++ rest = chunks.flatten ∧
      BStream.run (BStream.init chunks) (cmds ++ [.readline])
        = BStream.run (BStream.init chunks) cmds ++ [firstLine rest] := by
  have key : ∀ (cs : List Cmd) (l : Bytes), ∃ rest, (flatRun l cs).flatten ++ rest = l ∧
      flatRun l (cs ++ [.readline]) = flatRun l cs ++ [firstLine rest] := by
    intro cs
    induction cs with
    | nil => intro l; exact ⟨l, rfl, rfl⟩
    | cons c cs ih =>
      intro l
      obtain ⟨r, h1, h2⟩ := ih (l.drop (c.result l).length)
      refine ⟨r, ?_, ?_⟩
      · have := (C23_nothing_lost [l ++ [0]] (by simp) [c]).1
        simp only [flatRun, List.flatten_cons, List.append_assoc]
        rw [h1]
        cases c with
        | read n =>
          simp only [Cmd.result, List.length_take]
          by_cases h : n ≤ l.length
          · rw [Nat.min_eq_left h, List.take_append_drop]
          · rw [List.take_of_length_le (by omega), Nat.min_eq_right (by omega), List.drop_length,
              List.append_nil]
        | readAll => simp [Cmd.result]
        | readline =>
          have h := firstLine_eq_take l
          simp only [Cmd.result]
          conv_lhs => arg 1; rw [h]
          exact List.take_append_drop _ _
      · simp only [List.cons_append, flatRun]
        rw [h2]
  rw [C23_buffered_equals_flat chunks hc, C23_buffered_equals_flat chunks hc]
  exact key cmds chunks.flatten

/-- The specification of a line: everything if there is no newline, else up to the
first newline. -/
theorem C24_firstLine (a b : Bytes) (h : (10 : UInt8) ∉ a) :
    firstLine (a ++ 10 :: b) = a ++ [10] ∧ firstLine a = a := by
  induction a with
  | nil => exact ⟨by simp [firstLine], rfl⟩
  | cons c cs ih =>
    simp only [List.mem_cons, not_or] at h
    obtain ⟨h1, h2⟩ := ih h.2
    have hc : ¬ c = 10 := fun e => h.1 e.symm
    constructor
    · simp only [List.cons_append, firstLine]; rw [if_neg hc, h1]
    · simp only [firstLine]; rw [if_neg hc, h2]

example : (10 : UInt8) ∉ [1, 2, 3] := by decide

/-! ## C26 -/

/-- C26: for every string and every sequence of calls `StringBuffer` returns the
same results as `BufferedStream` over any chunking of that string. -/
theorem C26_string_buffer (chunks : List Bytes) (hc : ∀ c ∈ chunks, c ≠ []) (cmds : List Cmd) :
    SBuffer.run (SBuffer.init chunks.flatten) cmds = BStream.run (BStream.init chunks) cmds := by
  rw [C23_buffered_equals_flat chunks hc, SBuffer.run_spec cmds (by simp [SBuffer.init])]
  simp [SBuffer.init, SBuffer.rest]

example : ∀ c ∈ ([[1, 10], [2], [3, 10, 4], [5]] : List Bytes), c ≠ [] := by decide

/-! ## C25 -/

/-- The calls a client makes to send data. -/
inductive WCmd
  | write (data : Bytes)
  | flush (r : SendRes)

/-- Run a sequence of write/flush calls. -/
def wrun : WSock → List WCmd → WSock
  | s, [] => s
  | s, .write d :: cs => wrun (s.write d) cs
  | s, .flush r :: cs => wrun (s.flush r).1 cs

/-- What `BufferedSocket` promises, on a flat history: (bytes written up to the last
successful flush, bytes written since, data handed to each `sendall` with its
outcome). -/
def flushSpec : Bytes × Bytes × List (Bytes × SendRes) → List WCmd →
    Bytes × Bytes × List (Bytes × SendRes)
  | acc, [] => acc
  | (done, pend, l), .write d :: cs => flushSpec (done, pend ++ d, l) cs
  | (done, pend, l), .flush .ok :: cs => flushSpec (done ++ pend, [], l ++ [(pend, .ok)]) cs
  | (done, pend, l), .flush (.fail k) :: cs => flushSpec (done, pend, l ++ [(pend, .fail k)]) cs

/-- All the bytes written in a history. -/
def allWrites (cs : List WCmd) : Bytes :=
  (cs.map fun c => match c with | .write d => d | .flush _ => []).flatten

/-- The data of the `sendall` calls that succeeded. -/
def delivered (s : WSock) : Bytes :=
  (s.calls.map fun c => match c.2 with | .ok => c.1 | .fail _ => []).flatten

/-- What the peer received: a `sendall` that raised may have sent any prefix. -/
def received (s : WSock) : Bytes :=
  (s.calls.map fun c => match c.2 with | .ok => c.1 | .fail k => c.1.take k).flatten

theorem flushSpec_app : ∀ (cs : List WCmd) (x y : Bytes) (l : List (Bytes × SendRes)),
    (flushSpec (x, y, l) cs).1 ++ (flushSpec (x, y, l) cs).2.1 = x ++ y ++ allWrites cs := by
  intro cs
  induction cs with
  | nil => intro x y l; simp [flushSpec, allWrites]
  | cons c cs ih =>
    intro x y l
    cases c with
    | write d =>
      simp only [flushSpec]
      rw [ih]; simp [allWrites, List.append_assoc]
    | flush r =>
      cases r with
      | ok => simp only [flushSpec]; rw [ih]; simp [allWrites]
      | fail k => simp only [flushSpec]; rw [ih]; simp [allWrites]

theorem wrun_spec : ∀ (cs : List WCmd) (s : WSock) (x : Bytes), x = delivered s →
    delivered (wrun s cs) = (flushSpec (x, s.wbuf.flatten, s.calls) cs).1 ∧
    (wrun s cs).wbuf.flatten = (flushSpec (x, s.wbuf.flatten, s.calls) cs).2.1 ∧
    (wrun s cs).calls = (flushSpec (x, s.wbuf.flatten, s.calls) cs).2.2 := by
  intro cs
  induction cs with
  | nil => rintro s x rfl; exact ⟨rfl, rfl, rfl⟩
  | cons c cs ih =>
    rintro s x rfl
    cases c with
    | write d =>
      have := ih (s.write d) (delivered s) rfl
      simpa [wrun, flushSpec, WSock.write, List.flatten_append] using this
    | flush r =>
      cases r with
      | ok =>
        have := ih (s.flush .ok).1 (delivered s ++ s.wbuf.flatten)
          (by simp [delivered, WSock.flush, List.flatten_append])
        simpa [wrun, flushSpec, WSock.flush] using this
      | fail k =>
        have := ih (s.flush (.fail k)).1 (delivered s)
          (by simp [delivered, WSock.flush, List.flatten_append])
        simpa [wrun, flushSpec, WSock.flush] using this

/-- C25: after any history of writes and flushes, failing ones included,

1. the data of the `sendall` calls that returned are exactly the bytes written up
   to the last successful flush, in order, each once;
2. the bytes written since are still buffered: a failing flush drops nothing;
3. the two together are all the bytes ever written;
4. every `sendall` call, successful or not, was handed exactly the bytes pending
   at that moment. -/
theorem C25_write_flush (cs : List WCmd) :
    delivered (wrun WSock.init cs) = (flushSpec ([], [], []) cs).1 ∧
    (wrun WSock.init cs).wbuf.flatten = (flushSpec ([], [], []) cs).2.1 ∧
    delivered (wrun WSock.init cs) ++ (wrun WSock.init cs).wbuf.flatten = allWrites cs ∧
    (wrun WSock.init cs).calls = (flushSpec ([], [], []) cs).2.2 := by
  obtain ⟨h1, h2, h3⟩ := wrun_spec cs WSock.init [] rfl
  have hi : WSock.init.wbuf.flatten = [] := rfl
  have hc : WSock.init.calls = [] := rfl
  rw [hi, hc] at h1 h2 h3
  refine ⟨h1, h2, ?_, h3⟩
  rw [h1, h2, flushSpec_app]; rfl

/-- C25: if the failing `sendall` calls sent nothing, the peer has received exactly
the bytes written up to the last successful flush. -/
theorem C25_peer (cs : List WCmd) (hc : ∀ k, .flush (.fail k) ∈ cs → k = 0) :
    received (wrun WSock.init cs) = (flushSpec ([], [], []) cs).1 := by
  have key : ∀ (cs : List WCmd) (s : WSock), (∀ k, .flush (.fail k) ∈ cs → k = 0) →
      received s = delivered s → received (wrun s cs) = delivered (wrun s cs) := by
    intro cs
    induction cs with
    | nil => intro s _ h; exact h
    | cons c cs ih =>
      intro s h hs
      have h' : ∀ k, .flush (.fail k) ∈ cs → k = 0 := fun k hk => h k (List.mem_cons_of_mem _ hk)
      cases c with
      | write d => exact ih (s.write d) h' hs
      | flush r =>
        refine ih (s.flush r).1 h' ?_
        cases r with
        | ok => unfold received delivered at *; simp [WSock.flush, List.flatten_append, hs]
        | fail k =>
          obtain rfl := h k (by simp)
          unfold received delivered at *; simp [WSock.flush, List.flatten_append, hs]
  rw [key cs WSock.init hc rfl, (C25_write_flush cs).1]

/-- Finding: if `sendall` raises after having sent a part of the data, a retried
flush sends this part again. -/
theorem C25_retry_duplicates :
    received (wrun WSock.init [.write [1, 2, 3], .flush (.fail 2), .flush .ok]) = [1, 2, 1, 2, 3] := rfl

example : wrun WSock.init [.write [1], .flush .ok, .write [2], .flush (.fail 0), .write [3]]
    = ⟨[[2], [3]], [([1], .ok), ([2], .fail 0)]⟩ := rfl

example : flushSpec ([], [], []) [.write [1], .flush .ok, .write [2], .flush (.fail 1), .write [3]]
    = ([1], [2, 3], [([1], .ok), ([2], .fail 1)]) := rfl

end Capnpy.Props
