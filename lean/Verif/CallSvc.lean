import Verif.Auth
/-
C117, C118: calls of the identity and catalog services, over any number of suspensions.
service/identity/identity.go:46-144, service/catalog/catalog.go:50-136, runtime/io.go:57-236 (the parts which concern one service), service/registry.go:183-258 (StartServing), 287-341 (serve), 430-453 (Suspend).
-/
namespace Gate.CallSvc
open Gate.Auth (str)

/-- What tells one request of a program from another: identity's call byte, catalog's pending byte. -/
abbrev Req := UInt8

/-- A service which answers calls one at a time: how a call's content is understood, how a call which hasn't been answered is stored when suspending, and how that's understood when restoring. -/
structure Svc where
  reqOf : Bytes → Req
  enc : Req → Bytes
  dec : Bytes → Option Req

/-- identity.go:91-107 (Handle), 138-144 (Suspend), 72-81 (restore). -/
def identity : Svc where
  reqOf := fun content => content.head?.getD 0
  enc := fun r => [1, r]
  dec := fun
    | [] => none
    | b :: rest => if b &&& 1 ≠ 0 then some (rest.head?.getD 0) else none

/-- catalog.go:90-106 (Handle), 132-138 (Suspend), 74-80 and 82-88 (restore, Start). -/
def catalog : Svc where
  reqOf := fun content => if content = str "json" then 1 else 2
  enc := fun r => [r]
  dec := fun
    | [] => none
    | b :: _ => if b ≠ 0 then some b else none

/-- What identity answers, identity.go:109-127: the content of the reply. -/
def identityReply (principal : Option Bytes) (instance_ : Option Bytes) (r : Req) : Bytes :=
  if r = 1 then principal.getD []
  else if r = 2 then instance_.getD []
  else []

/-- The goroutine of serve, registry.go:287-341: waiting for a message; blocked in sending a reply (in Handle or Start); gone. -/
inductive Serve where
  | idle | blocked | returned
  deriving DecidableEq, Repr

/-- ioLoop is running; has returned from the loop and waits for serve to return (in its deferred Suspend, io.go:77-87); has returned, the instance is suspended. -/
inductive Phase where
  | running | stopping | suspended
  deriving DecidableEq, Repr

/-- One program and its connection to one service. `calls`: all calls it has made. `msgs`: calls not given to the service yet (pendingMsgs, or the snapshot's output). `pending`: the service instance's unanswered call.
`evs`: replies not written yet (pendingEvs). `got`: replies written to the program's input. `buffer`: the service's buffer in the registry's list (discoverer.services), which becomes part of the snapshot. `dead`: the process' death has been noticed.
`done`: the context has been canceled. History: `replayed`: a resumption has restored something else than what was pending; `dropped`: a call was made while another was pending. -/
structure St where
  calls : List Req := []
  msgs : List Req := []
  pending : Option Req := none
  serve : Serve := .idle
  evs : List Req := []
  got : List Req := []
  buffer : Bytes := []
  phase : Phase := .running
  dead : Bool := false
  done : Bool := false
  replayed : Bool := false
  dropped : Bool := false
  deriving DecidableEq, Repr

inductive Label where
  | call (content : Bytes) -- the program makes a call, and ioLoop reads it
  | give                   -- ioLoop gives a call to the service
  | reply                  -- ioLoop receives the reply
  | write                  -- and writes it to the program's input
  | died                   -- the process is dead (it has been suspended or it exited)
  | cancel                 -- the context is canceled
  | release                -- the service notices that while it's blocked
  | stop                   -- ioLoop notices the end of the program's output and returns
  | ended                  -- serve notices that there are no more messages and returns
  | suspended              -- the services are suspended
  | resume                 -- and restored later
  deriving DecidableEq, Repr

/-- io.go:145-147: the program's output is read only if there is nothing else to do, or the process is dead. -/
def readable (t : St) : Bool := (t.msgs = [] ∧ t.evs = []) ∨ t.dead = true

def step (v : Svc) (t : St) : Label → Option St
  /- io.go:156, 199-209. -/
  | .call content => if t.phase = .running ∧ readable t then some { t with msgs := t.msgs ++ [v.reqOf content], calls := t.calls ++ [v.reqOf content] } else none
  /- io.go:211-212, registry.go:304-337, identity.go:94-100 and catalog.go:93-99: the pending call is overwritten. -/
  | .give =>
    match t.msgs with
    | [] => none
    | r :: l => if t.phase = .running ∧ t.serve = .idle then some { t with msgs := l, pending := some r, serve := .blocked, dropped := t.dropped || t.pending.isSome } else none
  /- io.go:139-141, 153-154; identity.go:128-131, catalog.go:123-125. -/
  | .reply =>
    match t.pending with
    | none => none
    | some r => if t.phase = .running ∧ t.serve = .blocked ∧ t.evs = [] then some { t with evs := [r], pending := none, serve := .idle } else none
  /- io.go:214-215. -/
  | .write =>
    match t.evs with
    | [] => none
    | e :: l => if t.phase = .running then some { t with evs := l, got := t.got ++ [e] } else none
  /- io.go:217-218. -/
  | .died => if t.phase = .running then some { t with dead := true } else none
  /- Canceling is up to the caller of Serve: ioLoop doesn't. -/
  | .cancel => if t.phase ≠ .suspended then some { t with done := true } else none
  /- identity.go:133-134, catalog.go:127-128. The context of serve (registry.go:293-294) is canceled after it has returned, or with the caller's. -/
  | .release => if t.serve = .blocked ∧ t.done = true ∧ t.phase ≠ .suspended then some { t with serve := .idle } else none
  /- io.go:161-197, and the channel is closed in 79. -/
  | .stop => if t.phase = .running ∧ readable t then some { t with phase := .stopping } else none
  /- registry.go:304, 288-291. -/
  | .ended => if t.phase = .stopping ∧ t.serve = .idle then some { t with serve := .returned } else none
  /- registry.go:430-453: the buffer is replaced only if the instance has something to store. -/
  | .suspended => if t.phase = .stopping ∧ t.serve = .returned then some { t with phase := .suspended, buffer := match t.pending with | some r => v.enc r | none => t.buffer } else none
  /- registry.go:192-243: the buffer in the registry's list isn't cleared (`s` is a copy, 228). identity.go:83-89, catalog.go:82-88: the restored call is handled by Start. -/
  | .resume =>
    if t.phase = .suspended then
      some { t with phase := .running, dead := false, done := false, pending := v.dec t.buffer, serve := if (v.dec t.buffer).isSome then .blocked else .idle, replayed := t.replayed || (v.dec t.buffer ≠ t.pending) }
    else none

def run (v : Svc) (t : St) : List Label → Option St
  | [] => some t
  | l :: ls => (step v t l).bind fun u => run v u ls

/-- Histories of an instance, from its creation. -/
def Reachable (v : Svc) (ls : List Label) (t : St) : Prop := run v {} ls = some t

end Gate.CallSvc
