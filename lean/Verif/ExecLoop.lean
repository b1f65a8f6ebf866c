import Verif.Base
/-
Model of the executor process, runtime/executor/executor.c: the main loop (send_queued, receive_ops, wait_process,
executor, initiate_shutdown), as a transition system whose labels are the choices of the kernel, the processes and the
peer (runtime/executor.go or another host process).

What is assumed of the kernel: an edge-triggered epoll item has one `ready` bit, which is set when the file's state
changes in a way that is in the item's mask or when EPOLL_CTL_MOD finds that the file is ready; epoll_wait reports the
file's state at that time and clears the bit.  A pidfd is readable from the exit of its process.  System calls which
can't fail in a working kernel (epoll_ctl, close, waitpid of a zombie) succeed, as does prlimit, although it doesn't if a
process is suspended twice and the second limit is greater (C137).  Descriptors are allocated until there
are RLIMIT_NOFILE of them; a control message whose descriptors don't fit is truncated (MSG_CTRUNC).

The status ring buffer is the list of its contents; Verif/Ring.lean is about the ring.
-/
namespace Gate.ExecLoop

/-- The operations, executor.c:222-226; how many descriptors come with a creation is the peer's choice
(executor.go:384-392: two, or three if there's a group). -/
inductive Op where
  | create
  | kill
  | suspend
  | other
deriving DecidableEq, Repr

/-- A request, executor.c:229-233, with the number of descriptors in its control message (0: there is none). -/
structure Req where
  id : Nat
  op : Op
  fds : Nat
deriving DecidableEq, Repr

/-- A process, executor.c:254-257.  `num` tells the processes apart in specifications: the number of processes created
before it. -/
structure Proc where
  id : Nat
  num : Nat
  exited : Bool := false
deriving DecidableEq, Repr

/-- A received message: `none` is one of zero length (end of file). -/
structure Msg where
  req : Option Req
  trunc : Bool
deriving DecidableEq, Repr

/-- An event: of a process, or of the control socket. -/
inductive Ev where
  | proc (id : Nat)
  | control (inn out hup err : Bool)
deriving DecidableEq, Repr

/-- Error codes, runtime/include/errors.h. -/
abbrev errClone : Nat := 16
abbrev errEpollWait : Nat := 27
abbrev errRecv : Nat := 30
abbrev errTrunc : Nat := 32
abbrev errOp : Nat := 33
abbrev errIdRange : Nat := 34
abbrev errMismatch : Nat := 35
abbrev errCmsgLen : Nat := 38
abbrev errCreateState : Nat := 40
abbrev errWaitState : Nat := 41
abbrev errOtherEvents : Nat := 44
abbrev errProcStat : Nat := 50

/-- Where the executor is: at the head of the loop (executor.c:528), in send_queued, in receive_ops before recvmmsg,
in its loop, in epoll_wait, handling events; exited with status 0, died with an error code, or died because of sending to
a closed connection (by SIGPIPE, or with ERR_EXEC_SEND if the signal is ignored, as it is by the init of a PID namespace). -/
inductive Phase where
  | top
  | send
  | recv
  | handle (batch : List Msg)
  | wait
  | events (l : List Ev)
  | done
  | dead (code : Nat)
  | sigpipe
deriving DecidableEq, Repr

/-- What is done about processes: one is created with an identifier, a signal is sent to one, or there's nothing with the
identifier to be signalled, and one is reaped. -/
inductive Act where
  | created (id num : Nat)
  | signalled (op : Op) (id num : Nat)
  | missed (op : Op) (id : Nat)
  | reaped (id num : Nat)
deriving DecidableEq, Repr

structure St where
  phase : Phase := .top
  sock : List Req := []          -- unread requests
  eof : Bool := false            -- the peer won't send any more
  hup : Bool := false            -- the peer has closed the connection
  err : Bool := false            -- ... with unread statuses
  full : Bool := false           -- there's no room for statuses in the connection
  ready : Bool := true           -- the control socket's epoll item (executor.c:292-296)
  recvBlock : Bool := false
  sendBlock : Bool := false
  shutdown : Bool := false
  procs : List Proc := []
  queue : List (Nat × Nat) := [] -- statuses: identifier and process number
  opened : Nat := 8              -- descriptors: stdio, control, loader, cgroup, proc, epoll
  asked : List Req := []         -- history: all the requests
  handled : List Req := []       -- history: the requests which have been handled
  log : List Act := []           -- history: what has been done about processes
  unread : Nat := 0              -- statuses which the peer hasn't read yet
  sent : List (Nat × Nat) := []  -- history: statuses accepted by the connection
  count : Nat := 0               -- history: number of processes created
deriving DecidableEq, Repr

/-- `ID_PROCS`, executor.c:247. -/
abbrev idProcs : Nat := 16384
/-- `NOFILE`, executor.c:619. -/
abbrev nofile : Nat := 3 + 4 + 1 + 3 + 2 + 16384
/-- `RECEIVE_BUFLEN`, executor.c:251. -/
abbrev recvLen : Nat := 128
/-- One slot is left unoccupied, executor.c:437-441. -/
abbrev queueMax : Nat := 127

/-- The descriptors of the messages of a batch are installed in order, as long as they fit. -/
def install : Nat → List Req → Nat × List Msg
  | n, [] => (n, [])
  | n, r :: rest =>
    let (m, l) := install (min nofile (n + r.fds)) rest
    (m, ⟨some r, decide (nofile < n + r.fds)⟩ :: l)

/-- The process with an identifier: `id_procs[id]`. -/
def St.find (s : St) (id : Nat) : Option Proc := s.procs.find? (fun p => p.id == id)

/-- `initiate_shutdown`, executor.c:308-320.  EPOLL_CTL_MOD makes the item ready if the socket is. -/
def St.startShutdown (s : St) : St :=
  { s with shutdown := true, recvBlock := true, ready := s.ready || !s.full || s.hup || s.err }

/-- `signal_pidfd` if there is a process, executor.c:145-149, 394-399, 408-413. -/
def St.signal (s : St) (r : Req) : Act :=
  match s.find r.id with
  | some p => .signalled r.op r.id p.num
  | none => .missed r.op r.id

/-- One request, executor.c:349-421, and create_process, executor.c:115-143 (its result and the pidfd; the process is
created with the first two descriptors; SOL_SOCKET and SCM_RIGHTS are taken for granted, as is only one control message). -/
def St.request (s : St) (m : Msg) (r : Req) (rest : List Msg) : St :=
  if m.trunc then { s with phase := .dead errTrunc }
  else if idProcs ≤ r.id then { s with phase := .dead errIdRange }
  else match r.op with
  | .create =>
    if r.fds = 0 then { s with phase := .dead errMismatch }
    else if (s.find r.id).isSome then { s with phase := .dead errCreateState }
    else if r.fds ≠ 2 ∧ r.fds ≠ 3 then { s with phase := .dead errCmsgLen }
    else if nofile ≤ s.opened then { s with phase := .dead errClone }
    else { s with phase := .handle rest, procs := s.procs ++ [⟨r.id, s.count, false⟩], count := s.count + 1,
                  opened := s.opened + 1 - r.fds, handled := s.handled ++ [r], log := s.log ++ [.created r.id s.count] }
  | .kill =>
    if r.fds ≠ 0 then { s with phase := .dead errMismatch }
    else { s with phase := .handle rest, handled := s.handled ++ [r], log := s.log ++ [s.signal r] }
  | .suspend =>
    if r.fds ≠ 0 then { s with phase := .dead errMismatch }
    else if (s.find r.id).isSome ∧ nofile ≤ s.opened then { s with phase := .dead errProcStat }
    else { s with phase := .handle rest, handled := s.handled ++ [r], log := s.log ++ [s.signal r] }
  | .other => { s with phase := .dead errOp }

/-- An event of a process: wait_process, executor.c:494-524. -/
def St.waitProcess (s : St) (id : Nat) (rest : List Ev) : St :=
  match s.find id with
  | none => { s with phase := .dead errWaitState }
  | some p =>
    if p.exited then { s with phase := .events rest, procs := s.procs.filter (fun q => q.id != id),
                              queue := s.queue ++ [(id, p.num)], opened := s.opened - 1,
                              log := s.log ++ [.reaped id p.num] }
    else { s with phase := .events rest }

/-- An event of the control socket, executor.c:546-554. -/
def St.controlEvent (s : St) (inn out hup err : Bool) (rest : List Ev) : St :=
  let s := { s with recvBlock := s.recvBlock && !inn, sendBlock := s.sendBlock && !out }
  let s := if hup then s.startShutdown else s
  if err then { s with phase := .dead errOtherEvents } else { s with phase := .events rest }

/-- What epoll_wait reports about the control socket: EPOLLIN is masked out after shutdown has been initiated. -/
def St.levels (s : St) : Ev := .control (!s.shutdown && (!s.sock.isEmpty || s.eof)) (!s.full || s.hup) s.hup s.err

/-- It has something to report. -/
def St.hot (s : St) : Bool := (!s.shutdown && (!s.sock.isEmpty || s.eof)) || (!s.full || s.hup) || s.hup || s.err

/-- An event which epoll_wait may report now. -/
def St.reportable (s : St) (e : Ev) : Bool :=
  match e with
  | .proc id => s.procs.any (fun p => p.id == id && p.exited)
  | e => s.ready && s.hot && (e == s.levels)

def Ev.isControl : Ev → Bool
  | .control .. => true
  | .proc _ => false

inductive Label where
  -- the executor
  | top
  | flush (k : Nat) (full : Bool)  -- send accepts k statuses, after which the connection may be full
  | again                          -- send returns EAGAIN
  | pipe                           -- send fails because the peer is gone
  | sendDone
  | recvSkip                       -- receive_ops returns at once
  | recvNone                       -- recvmmsg finds no messages
  | recv (k : Nat)                 -- recvmmsg receives k messages
  | handle                         -- the next message
  | deliver (l : List Ev)          -- epoll_wait returns events
  | spurious                       -- epoll_wait drops a ready item which has nothing to report
  | einval                         -- epoll_wait fails because the buffer has no room
  | event                          -- the next event
  -- the rest of the world
  | ask (r : Req)
  | closeWrite
  | close (err : Bool)
  | peerRead (k : Nat) (full : Bool)  -- the peer reads k statuses, after which the connection may still be full
  | exit (id : Nat)
deriving DecidableEq, Repr

/-- A step of the executor. -/
def Label.internal : Label → Bool
  | .ask _ | .closeWrite | .close _ | .peerRead _ _ | .exit _ => false
  | _ => true

def Phase.final : Phase → Bool
  | .done | .dead _ | .sigpipe => true
  | _ => false

/-- A step. -/
def step (s : St) : Label → Option St
  -- executor.c:528
  | .top => if s.phase = .top then
      some { s with phase := if s.shutdown && s.procs.isEmpty && s.queue.isEmpty then .done else .send } else none
  -- executor.c:443-492: sends are blocking if the queue is full
  | .flush k f => if s.phase = .send ∧ s.hup = false ∧ (s.queue.length = queueMax ∨ s.sendBlock = false) ∧ 1 ≤ k ∧ k ≤ s.queue.length ∧ (s.full = true → f = true) then
      some { s with queue := s.queue.drop k, sent := s.sent ++ s.queue.take k, unread := s.unread + k, full := f } else none
  | .again => if s.phase = .send ∧ s.hup = false ∧ s.full = true ∧ s.queue ≠ [] ∧ s.queue.length ≠ queueMax ∧ s.sendBlock = false then
      some { s with sendBlock := true } else none
  | .pipe => if s.phase = .send ∧ s.hup = true ∧ s.queue ≠ [] ∧ (s.queue.length = queueMax ∨ s.sendBlock = false) then
      some { s with phase := .sigpipe } else none
  | .sendDone => if s.phase = .send ∧ (s.queue = [] ∨ (s.queue.length ≠ queueMax ∧ s.sendBlock = true)) then
      some { s with phase := .recv } else none
  -- executor.c:322-341
  | .recvSkip => if s.phase = .recv ∧ s.recvBlock = true then some { s with phase := .wait } else none
  | .recvNone => if s.phase = .recv ∧ s.recvBlock = false ∧ s.sock = [] then
      some (if s.err then { s with phase := .dead errRecv }
            else if s.eof then { s with phase := .handle [⟨none, false⟩] }
            else { s with recvBlock := true, phase := .wait })
      else none
  | .recv k => if s.phase = .recv ∧ s.recvBlock = false ∧ 1 ≤ k ∧ k ≤ s.sock.length ∧ k ≤ recvLen then
      some { s with sock := s.sock.drop k, opened := (install s.opened (s.sock.take k)).1, phase := .handle (install s.opened (s.sock.take k)).2 }
      else none
  -- executor.c:343-424
  | .handle => match s.phase with
    | .handle [] => some { s with phase := .recv }
    | .handle (m :: rest) => match m.req with
      | none => some { s.startShutdown with phase := .wait }
      | some r => some (s.request m r rest)
    | _ => none
  -- executor.c:532-539: level-triggered events of processes, edge-triggered ones of the control socket
  | .deliver l => if s.phase = .wait ∧ l ≠ [] ∧ l.length + s.queue.length ≤ queueMax ∧ l.all s.reportable = true ∧ l.Nodup then
      some { s with phase := .events l, ready := s.ready && !l.any Ev.isControl } else none
  | .spurious => if s.phase = .wait ∧ s.ready = true ∧ s.hot = false then some { s with ready := false } else none
  | .einval => if s.phase = .wait ∧ queueMax ≤ s.queue.length then some { s with phase := .dead errEpollWait } else none
  -- executor.c:541-558
  | .event => match s.phase with
    | .events [] => some { s with phase := .top }
    | .events (.proc id :: rest) => some (s.waitProcess id rest)
    | .events (.control i o h e :: rest) => some (s.controlEvent i o h e rest)
    | _ => none
  | .ask r => if s.eof = false ∧ s.phase.final = false then
      some { s with sock := s.sock ++ [r], asked := s.asked ++ [r], ready := s.ready || !s.shutdown } else none
  | .closeWrite => if s.eof = false ∧ s.phase.final = false then some { s with eof := true, ready := s.ready || !s.shutdown } else none
  | .close e => if s.hup = false ∧ s.phase.final = false then some { s with eof := true, hup := true, err := e, ready := true } else none
  | .peerRead k f => if s.hup = false ∧ s.phase.final = false ∧ 1 ≤ k ∧ k ≤ s.unread ∧ (f = true → s.full = true ∧ k < s.unread) then
      some { s with unread := s.unread - k, full := f, ready := s.ready || !f } else none
  | .exit id => if (s.find id).isSome ∧ s.phase.final = false then
      some { s with procs := s.procs.map (fun p => if p.id == id then { p with exited := true } else p) } else none

/-- The states of an executor. -/
inductive Reach : St → Prop
  | init : Reach {}
  | step {s t : St} (l : Label) : Reach s → step s l = some t → Reach t

def run (s : St) : List Label → Option St
  | [] => some s
  | l :: ls => match step s l with
    | some t => run t ls
    | none => none

theorem Reach.run {s t : St} (h : Reach s) (ls : List Label) (e : run s ls = some t) : Reach t := by
  induction ls generalizing s with
  | nil => cases e; exact h
  | cons l ls ih =>
    simp only [ExecLoop.run] at e
    split at e
    · next s1 e1 => exact ih (h.step l e1) e
    · cases e

end Gate.ExecLoop
