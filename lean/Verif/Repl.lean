import Verif.Auth

/-!
# The gate program's `repl` command

Model of cmd/gate/main/repl.go, and of the command's parts in local.go (361-393) and remote.go (316-337): what is shown of
the instance's output, what is sent to it, and how the command ends.

Simplifications: reading and writing of the terminal succeeds; a chunk of a message fits the buffer of 4096 bytes.
-/

namespace Gate.Repl
open Gate.Auth (str)

inductive Err where
  | ok
  | eof
  | fail
deriving DecidableEq, Repr

/-- The results of successive `Read` calls of a pipe (local.go:364-365): the chunks, and the end of file. -/
def pipeReads (chunks : List Bytes) : List (Bytes × Err) := chunks.map (·, .ok) ++ [([], .eof)]

/-- A websocket message: whether it's a binary one, and its content as the chunks by which it's read. -/
abbrev Msg := Bool × List Bytes

/-- repl.go:72-92: the results of successive calls of `websocketConn.Read`. gorilla's message reader has `io.EOF` after
the content, without any bytes. When the messages have run out, `NextReader` returns the connection's error. -/
def websocketReads : List Msg → List (Bytes × Err)
  | [] => [([], .fail)]
  | (false, _) :: ms => websocketReads ms
  | (true, cs) :: ms => (cs.filter (· ≠ [])).map (·, Err.ok) ++ ([], .eof) :: websocketReads ms

/-- repl.go:30-47: the goroutine which shows the output. The result is what was shown, and the error by which the loop was
ended; `none` if it's waiting for more. -/
def show_ : List (Bytes × Err) → Bytes × Option Err
  | [] => ([], none)
  | (b, .ok) :: rs => (b ++ (show_ rs).1, (show_ rs).2)
  | (b, e) :: _ => (b, some e)

/-- repl.go:49: the first write. -/
def greeting : Bytes := [13, 13, 13, 13, 13, 13, 13, 10]

/-- repl.go:49-63: the writes when these lines are typed. -/
def sent (lines : List Bytes) : List Bytes := greeting :: lines.map (· ++ [10])

/-! ### Ending -/

/-- The instance's program, as it reads its input until the end, and ends then (such as an interpreter). -/
structure St where
  /-- lines to be typed -/
  typing : Nat
  /-- the loop of repl.go:51-63 has ended -/
  typed : Bool
  /-- the goroutine has ended (readErr is closed) -/
  readerDone : Bool
  /-- the write end of the program's input is open (local.go:380 or repl.go:105-106 hasn't been reached) -/
  input : Bool
  /-- the program has ended, so that there is end of file for the reader -/
  ended : Bool
  /-- the command has finished -/
  finished : Bool
deriving DecidableEq

inductive Label where
  | type
  | eof
  | reader
  | wait
  | program
deriving DecidableEq

def init (n : Nat) : St := ⟨n, false, false, true, false, false⟩

/-- `wait`: repl.go:65 gets past the channel, `repl` returns and the input is closed. -/
def step (s : St) : Label → Option St
  | .type => if s.typing > 0 ∧ ¬s.typed then some { s with typing := s.typing - 1 } else none
  | .eof => if s.typing = 0 ∧ ¬s.typed then some { s with typed := true } else none
  | .reader => if s.ended ∧ ¬s.readerDone then some { s with readerDone := true } else none
  | .wait => if s.typed ∧ s.readerDone ∧ ¬s.finished then some { s with input := false, finished := true } else none
  | .program => if ¬s.input ∧ ¬s.ended then some { s with ended := true } else none

def run : St → List Label → Option St
  | s, [] => some s
  | s, l :: ls => (step s l).bind fun s' => run s' ls

/-! ### Properties -/

/-- The content of a message. -/
def content (m : Msg) : Bytes := m.2.flatten

theorem show_chunks (cs : List Bytes) (rs : List (Bytes × Err)) :
    show_ (cs.map (·, Err.ok) ++ rs) = (cs.flatten ++ (show_ rs).1, (show_ rs).2) := by
  induction cs with
  | nil => simp
  | cons c cs ih => simp [show_, ih]

/-- C155: bytes which are read together with an error are shown, too, and nothing is shown after an error. -/
theorem show_last (cs : List Bytes) (b : Bytes) (e : Err) (rs : List (Bytes × Err)) (h : e ≠ .ok) :
    show_ (cs.map (·, Err.ok) ++ (b, e) :: rs) = (cs.flatten ++ b, some e) := by
  rw [show_chunks]
  cases e <;> first | exact absurd rfl h | rfl

/-- C155: the local command shows all that the instance has sent. -/
theorem local_shown (chunks : List Bytes) : show_ (pipeReads chunks) = (chunks.flatten, some .eof) := by
  rw [pipeReads, show_chunks]; simp [show_]

theorem filter_flatten (cs : List Bytes) : (cs.filter (· ≠ [])).flatten = cs.flatten := by
  induction cs with
  | nil => rfl
  | cons c cs ih =>
    by_cases h : c = []
    · subst h; simpa using ih
    · simp only [ne_eq, h, not_false_eq_true, decide_true, List.filter_cons_of_pos, List.flatten_cons]
      rw [← ih]

/-- C155: what the remote command shows: the first binary message. -/
theorem remote_shown (skipped rest : List Msg) (m : Msg) (hs : ∀ x ∈ skipped, x.1 = false) (hm : m.1 = true) :
    show_ (websocketReads (skipped ++ m :: rest)) = (content m, some .eof) := by
  induction skipped with
  | nil =>
    obtain ⟨b, cs⟩ := m
    simp only at hm
    subst hm
    simp only [List.nil_append, websocketReads]
    rw [show_chunks, filter_flatten]
    simp [show_, content]
  | cons x xs ih =>
    obtain ⟨b, cs⟩ := x
    have hb := hs (b, cs) (by simp)
    simp only at hb
    subst hb
    simp only [List.cons_append, websocketReads]
    exact ih fun y hy => hs y (List.mem_cons_of_mem _ hy)

/-- C155: if there is nothing to be shown before the connection is closed, the error is noticed. -/
theorem remote_closed (ms : List Msg) (h : ∀ x ∈ ms, x.1 = false) : show_ (websocketReads ms) = ([], some .fail) := by
  induction ms with
  | nil => rfl
  | cons x xs ih =>
    obtain ⟨b, cs⟩ := x
    have hb := h (b, cs) (by simp)
    simp only at hb
    subst hb
    exact ih fun y hy => h y (List.mem_cons_of_mem _ hy)

/-- C155 (why it's partial): the output after the first message isn't shown, and neither is the error by which the
connection ends. For all connections. -/
theorem remote_refuted (a b : Msg) (rest : List Msg) (ha : a.1 = true) (_hb : b.1 = true) (h : content b ≠ []) :
    (show_ (websocketReads (a :: b :: rest))).1 = content a ∧
    (show_ (websocketReads (a :: b :: rest))).1 ≠ content a ++ content b ∧
    (show_ (websocketReads (a :: b :: rest))).2 = some .eof := by
  have := remote_shown [] (b :: rest) a (by simp) ha
  simp only [List.nil_append] at this
  rw [this]
  refine ⟨rfl, fun e => h ?_, rfl⟩
  have := congrArg List.length e
  simp at this
  exact this

example : show_ (websocketReads [(false, [[1]]), (true, [[104], [105]]), (true, [[33]])]) = ([104, 105], some .eof) := by decide

/-- C155: every line is sent once, in order, with its end, in a message of its own; nothing else is sent but the first
empty line. -/
theorem sent_lines (lines : List Bytes) :
    (sent lines).flatten = greeting ++ (lines.map fun l => l ++ [10]).flatten ∧
    (sent lines).length = lines.length + 1 ∧ (∀ i l, lines[i]? = some l → (sent lines)[i + 1]? = some (l ++ [10])) ∧
    ∀ m ∈ sent lines, m ≠ [] := by
  refine ⟨by simp [sent], by simp [sent], ?_, ?_⟩
  · intro i l h
    simp [sent, h]
  · intro m hm
    simp only [sent, List.mem_cons, List.mem_map] at hm
    rcases hm with rfl | ⟨l, _, rfl⟩
    · decide
    · simp

/-- C155 (why it's partial): when the user has ended the input, a program which waits for that isn't told about it: the
command waits for the program, which waits for the command, forever. -/
theorem end_refuted (n : Nat) :
    ∃ s, run (init n) (List.replicate n .type ++ [.eof]) = some s ∧ s.finished = false ∧ s.ended = false ∧ ∀ l, step s l = none := by
  refine ⟨⟨0, true, false, true, false, false⟩, ?_, rfl, rfl, by intro l; cases l <;> rfl⟩
  have h : ∀ m, run (init m) (List.replicate m .type ++ [.eof]) = some ⟨0, true, false, true, false, false⟩ := by
    intro m
    induction m with
    | zero => rfl
    | succ m ih =>
      rw [List.replicate_succ, List.cons_append, run]
      have : step (init (m + 1)) .type = some (init m) := by simp [step, init]
      rw [this]
      exact ih
  exact h n

end Gate.Repl
