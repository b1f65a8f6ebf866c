import Verif.Base
/-
Model of runtime/executor.go (identifier pool, execute, kill, suspend, finalize,
sender and receiver goroutines) together with the request and reaping side of
runtime/executor/executor.c: a transition system whose steps are the atomic
actions of the goroutines and of the executor process.  The death of the executor
(doneSending, doneReceiving) ends a run and is modelled only as `crash`.
-/
namespace Gate.Executor
open Gate

inductive Op where
  | kill
  | suspend
deriving DecidableEq, Repr

/-- `execProcess.id`, runtime/executor.go:268-281: the identifier, or one of the three
negative constants. -/
inductive Hid where
  | live (id : Nat)
  | finalized
  | killed
  | suspended
deriving DecidableEq, Repr

/-- Where the handle's current call is: waiting at the `select` of `execute`
(runtime/executor.go:148-163), given up there, idle, waiting to send a kill request
(lines 307-314), in the loop of `finalize` holding the identifier (lines 331-352), or
about to return the identifier (lines 309, 335). -/
inductive Pc where
  | exec
  | gone
  | idle
  | sendK (id : Nat) (op : Op)
  | fin (id : Nat)
  | ret (id : Nat)
deriving DecidableEq, Repr

/-- A process handle.  `dead` is set by the receiver: the exit status it got, recorded as
the handle of the process which really exited. -/
structure Handle where
  hid : Hid
  pc : Pc
  dead : Option Nat
deriving DecidableEq, Repr

/-- A message on the control socket; the handle is only recorded for the
specification, the message itself has the identifier and the operation. -/
inductive Msg where
  | create (id : Nat) (h : Nat)
  | op (id : Nat) (h : Nat) (o : Op)
deriving DecidableEq, Repr

inductive Crash where
  | createBadState   -- executor.c: ERR_EXEC_CREATE_PROCESS_BAD_STATE
  | nilDeref         -- receiver goroutine: e.procs[id] is nil
deriving DecidableEq, Repr

structure St where
  pool : List Nat                    -- e.ids (FIFO channel)
  handles : List Handle
  killQ : List (Nat × Nat × Op)      -- e.killRequests: (id, requesting handle, op)
  procs : List (Nat × Nat)           -- e.procs
  sock : List Msg                    -- requests in the socket
  table : List (Nat × Nat)           -- x->id_procs: existing processes
  statuses : List (Nat × Nat)        -- statuses queued or in the socket
  log : List (Nat × Op × Option Nat) -- requests handled: requester, op, process signalled
  crash : Option Crash
deriving DecidableEq, Repr

inductive Label where
  | alloc                 -- execute receives an identifier, 130-137
  | execSend (h : Nat)    -- the sender takes the request, 196-210 and 229
  | execCancel (h : Nat)  -- context done in the second select, 161-162
  | kill (h : Nat)        -- Kill or Close: load and compare-and-swap, 298-301
  | suspend (h : Nat)     -- the I/O loop suspends the process
  | finalize (h : Nat)    -- 317-329
  | sendKill (h : Nat)    -- 307-308 and 333
  | retId (h : Nat)       -- 309 and 335
  | finDead (h : Nat)     -- 342-347
  | senderKill            -- sender: 211-227 and 229
  | recvOp                -- executor.c receive_ops: one request
  | exit (id : Nat)       -- executor.c wait_process: reaps a process
  | recvStatus            -- receiver: 250-262
deriving DecidableEq, Repr

def assoc (k : Nat) : List (Nat × Nat) → Option Nat
  | [] => none
  | (a, b) :: r => if a = k then some b else assoc k r

/-- Map assignment and deletion. -/
def remove (k : Nat) (m : List (Nat × Nat)) : List (Nat × Nat) := m.filter (fun e => e.1 ≠ k)

def withHandle (s : St) (h : Nat) (f : Handle → Option St) : Option St :=
  match s.handles[h]? with
  | some x => f x
  | none => none

def upd (s : St) (h : Nat) (x : Handle) : St := { s with handles := s.handles.set h x }

/-- `killSuspend` until the send, runtime/executor.go:298-306: loads the identifier; if it
is non-negative and the compare-and-swap succeeds, the caller owns it.  A failed
swap is a call ordered after the one that won. -/
def claim (s : St) (h : Nat) (to : Hid) (pc : Nat → Pc) : Option St :=
  withHandle s h fun x =>
    if x.pc = .exec ∨ x.pc = .gone then none  -- the handle is not accessible yet, or any more
    else match x.hid with
      | .live id => some (upd s h { x with hid := to, pc := pc id })
      | _ => some s

def step (s : St) (l : Label) : Option St :=
  if s.crash.isSome then none
  else match l with
  | .alloc =>
    match s.pool with
    | [] => none
    | id :: rest => some { s with pool := rest, handles := s.handles ++ [⟨.live id, .exec, none⟩] }
  | .execSend h => withHandle s h fun x =>
    match x.pc, x.hid with
    | .exec, .live id =>
      some { s with
        handles := s.handles.set h { x with pc := .idle }
        procs := (id, h) :: remove id s.procs
        sock := s.sock ++ [.create id h] }
    | _, _ => none
  | .execCancel h => withHandle s h fun x =>
    -- runtime/executor.go:161-162 and process.go:143-146: the handle is dropped
    if x.pc = .exec then some (upd s h { x with pc := .gone }) else none
  | .kill h => claim s h .killed (fun id => .sendK id .kill)
  | .suspend h => claim s h .suspended (fun id => .sendK id .suspend)
  | .finalize h => claim s h .finalized (fun id => .fin id)
  | .sendKill h => withHandle s h fun x =>
    match x.pc with
    | .sendK id o => some { s with
        handles := s.handles.set h { x with pc := .ret id }
        killQ := s.killQ ++ [(id, h, o)] }
    | .fin id => some { s with
        handles := s.handles.set h { x with pc := .ret id }
        killQ := s.killQ ++ [(id, h, .kill)] }
    | _ => none
  | .retId h => withHandle s h fun x =>
    match x.pc with
    | .ret id => some { s with
        handles := s.handles.set h { x with pc := .idle }
        pool := s.pool ++ [id] }
    | _ => none
  | .finDead h => withHandle s h fun x =>
    match x.pc, x.dead with
    | .fin id, some _ => some { s with
        handles := s.handles.set h { x with pc := .idle }
        pool := s.pool ++ [id] }
    | _, _ => none
  | .senderKill =>
    match s.killQ with
    | [] => none
    | (id, h, o) :: rest => some { s with killQ := rest, sock := s.sock ++ [.op id h o] }
  | .recvOp =>
    match s.sock with
    | [] => none
    | .create id h :: rest =>
      match assoc id s.table with
      | some _ => some { s with crash := some .createBadState }
      | none => some { s with sock := rest, table := (id, h) :: s.table }
    | .op id h o :: rest => some { s with sock := rest, log := s.log ++ [(h, o, assoc id s.table)] }
  | .exit id =>
    match assoc id s.table with
    | some h => some { s with table := remove id s.table, statuses := s.statuses ++ [(id, h)] }
    | none => none
  | .recvStatus =>
    match s.statuses with
    | [] => none
    | (id, h) :: rest =>
      match assoc id s.procs with
      | none => some { s with crash := some .nilDeref }
      | some h' =>
        match s.handles[h']? with
        | some x => some { s with
            statuses := rest
            procs := remove id s.procs
            handles := s.handles.set h' { x with dead := some h } }
        | none => none

def run (s : St) : List Label → Option St
  | [] => some s
  | l :: ls => match step s l with
    | some s' => run s' ls
    | none => none

/-- A new executor, runtime/executor.go:85-97, with identifiers `0 .. n-1`. -/
def init (n : Nat) : St := ⟨List.range n, [], [], [], [], [], [], [], none⟩

end Gate.Executor
