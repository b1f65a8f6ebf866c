import Verif.Base
/-
Model of the exit status queue of runtime/executor/executor.c (send_queue_*, send_queued,
wait_process, executor) as a transition system: the choices of the kernel (how much is
accepted, which events are ready) are the labels.
-/
namespace Gate.Ring
open Gate

/-- `SEND_BUFLEN` and `POLL_BUFLEN`, executor.c:250-252. -/
abbrev N : Nat := 128

/-- A status: process identifier and wait status, executor.c:236-240. -/
abbrev Status := Nat × Nat

/-- The queue: `send_buf`, `send_beg`, `send_end`, executor.c:267-272. -/
structure Q where
  buf : Nat → Status
  beg : Nat
  fin : Nat

/-- `send_queue_empty`, executor.c:427-430. -/
def Q.empty (q : Q) : Bool := q.beg == q.fin
/-- `send_queue_length`, executor.c:432-435: unsigned subtraction, then the mask. -/
def Q.length (q : Q) : Nat := (q.fin + N - q.beg) % N
/-- `send_queue_avail`, executor.c:437-441. -/
def Q.avail (q : Q) : Nat := (N - 1) - q.length

/-- The end of `wait_process`, executor.c:518-521. -/
def Q.push (q : Q) (x : Status) : Q :=
  { q with buf := fun i => if i = q.fin then x else q.buf i, fin := (q.fin + 1) % N }

/-- The number of contiguous statuses, executor.c:462-466. -/
def Q.num (q : Q) : Nat := if q.beg < q.fin then q.fin - q.beg else N - q.beg

/-- The first `c` statuses in memory from `send_beg`, executor.c:468. -/
def Q.chunk (q : Q) (c : Nat) : List Status := (List.range c).map fun i => q.buf (q.beg + i)

/-- executor.c:486-487. -/
def Q.drop (q : Q) (c : Nat) : Q := { q with beg := (q.beg + c) % N }

/-- Position in the main loop, executor.c:526-559: sending queued statuses, or handling
at most so many more events. -/
inductive Phase where
  | send
  | poll (left : Nat)

structure St where
  q : Q
  sendBlock : Bool
  phase : Phase
  reaped : List Status   -- history: statuses of reaped processes, in order
  sent : List Status     -- history: what the socket has accepted
  polls : List Nat       -- history: the buffer lengths given to epoll_wait

inductive Label where
  | accept (c : Nat)     -- send() accepts c statuses
  | again                -- send() returns EAGAIN
  | wait                 -- epoll_wait is called
  | reap (x : Status)    -- an event for a process which has exited
  | other (writable : Bool) -- any other event, possibly EPOLLOUT
  | round                -- all events have been handled

def step (s : St) (l : Label) : Option St :=
  match l, s.phase with
  | .accept c, .send =>
    -- executor.c:443-491; nothing else than whole statuses is accepted (line 483)
    if s.q.empty = false ∧ (s.q.avail = 0 ∨ s.sendBlock = false) ∧ 1 ≤ c ∧ c ≤ s.q.num then
      some { s with q := s.q.drop c, sent := s.sent ++ s.q.chunk c }
    else none
  | .again, .send =>
    -- executor.c:453-458, 469-473; a blocking send (line 452) does not return EAGAIN
    if s.q.empty = false ∧ s.q.avail ≠ 0 ∧ s.sendBlock = false then some { s with sendBlock := true }
    else none
  | .wait, .send =>
    -- send_queued has returned (lines 447, 454); executor.c:533-537
    if s.q.empty = true ∨ (s.q.avail ≠ 0 ∧ s.sendBlock = true) then
      some { s with phase := .poll (min s.q.avail N), polls := s.polls ++ [min s.q.avail N] }
    else none
  | .reap x, .poll (k + 1) =>
    -- executor.c:544-545 and 494-524
    some { s with q := s.q.push x, reaped := s.reaped ++ [x], phase := .poll k }
  | .other w, .poll (k + 1) =>
    -- executor.c:546-554
    some { s with sendBlock := s.sendBlock && !w, phase := .poll k }
  | .round, .poll _ => some { s with phase := .send }
  | _, _ => none

def run (s : St) : List Label → Option St
  | [] => some s
  | l :: ls => match step s l with
    | some s' => run s' ls
    | none => none

/-- The zeroed structure. -/
def init : St := ⟨⟨fun _ => (0, 0), 0, 0⟩, false, .send, [], [], []⟩

/-- What is in the queue, in order. -/
def Q.contents (q : Q) : List Status := (List.range q.length).map fun i => q.buf ((q.beg + i) % N)

end Gate.Ring
