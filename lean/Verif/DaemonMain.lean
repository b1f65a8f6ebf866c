import Verif.Auth
/-
C184: starting and stopping the daemon.  cmd/gate-daemon/main/daemoncmd.go:93-249 (Main, mainResult), 262-276 (methods).

A step which fails panics with its error (check, 868-872); deferred functions are run, and Main's deferred function ends the process (93-104): log.Fatal (status 1) for errors, a crash (status 2) for other values.
The configuration of the web interface is C176's, calls which come during the initialization are C122's, what Shutdown does is C181's.
-/
namespace Gate.DaemonMain

inductive Step where
  | services | executor | clearCaps | mkdir | filesystem | bus | auth | hello | export_ | name | server | webConfig | notify
  deriving DecidableEq, Repr

/-- What is released by deferred functions. -/
inductive Res where
  | executor | filesystem | bus
  /-- The channel through which the bus methods get the server: closed. -/
  | inited
  | server
  deriving DecidableEq, Repr

inductive Ev where
  | done (s : Step)
  | failed (s : Step)
  | acquire (r : Res)
  | release (r : Res)
  /-- The goroutine which listens has been started; the server has been given to the bus methods; systemd has been told. -/
  | listening | given | ready | stopping
  deriving DecidableEq, Repr

inductive Reply where
  | primaryOwner | exists_ | other
  deriving DecidableEq, Repr

structure Env where
  fails : Step → Bool
  varDir : Bool
  http : Bool
  reply : Reply
  /-- http.ListenAndServe returns (it's always an error) before a signal comes. -/
  httpEnds : Bool
  /-- The connection to the bus is lost before the daemon is stopped: its context is canceled (163-168). -/
  busLost : Bool

inductive Out where
  | code (n : Nat)
  /-- A panic with an error, with something else. -/
  | error | crash
  deriving DecidableEq, Repr

abbrev M := List Ev → List Ev × Out

/-- check(…) -/
def step (e : Env) (s : Step) (k : M) : M := fun l => if e.fails s then (l ++ [.failed s], .error) else k (l ++ [.done s])

/-- What has been acquired is released by a deferred function. -/
def acquire (r : Res) (k : M) : M := fun l => let x := k (l ++ [.acquire r]); (x.1 ++ [.release r], x.2)

def event (v : Ev) (k : M) : M := fun l => k (l ++ [v])

def ret (o : Out) : M := fun l => (l, o)

/-- 235-248 -/
def serve (e : Env) : M :=
  event .given <| step e .notify <| event .ready <| if e.http && e.httpEnds then ret .error else event .stopping <| ret (.code 0)

/-- 188-233 -/
def serverPart (e : Env) : M :=
  step e .server <| acquire .server <| if e.http then step e .webConfig <| event .listening <| serve e else serve e

/-- 160-186 -/
def busPart (e : Env) : M :=
  step e .bus <| acquire .bus <| step e .auth <| step e .hello <| acquire .inited <| step e .export_ <| step e .name <|
    match e.reply with
    | .primaryOwner => serverPart e
    | .exists_ => ret (.code 3)
    | .other => ret .crash

/-- 138-158 -/
def mainResult (e : Env) : M :=
  step e .services <| step e .executor <| acquire .executor <| step e .clearCaps <|
    if e.varDir then step e .mkdir <| step e .filesystem <| acquire .filesystem <| busPart e else busPart e

/-- 93-104: what has happened, and the exit status. -/
def main (e : Env) : List Ev × Nat :=
  let x := mainResult e []
  (x.1, match x.2 with | .code n => n | .error => 1 | .crash => 2)

/-- Specification: resources are held like a stack. -/
def held : List Res → List Ev → Option (List Res)
  | st, [] => some st
  | st, .acquire r :: l => held (r :: st) l
  | r' :: st, .release r :: l => if r = r' then held st l else none
  | [], .release _ :: _ => none
  | st, .done _ :: l => held st l
  | st, .failed _ :: l => held st l
  | st, .listening :: l => held st l
  | st, .given :: l => held st l
  | st, .ready :: l => held st l
  | st, .stopping :: l => held st l

/-- What Shutdown is called with (190): the context of the bus connection. -/
def shutdownCanceled (e : Env) : Bool := e.busLost

end Gate.DaemonMain
