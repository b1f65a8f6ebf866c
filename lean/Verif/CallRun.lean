import Verif.Auth
/-
C183: a call (web: server/web/handler.go:949-975, 1092-1112; bus: cmd/gate-daemon/main/daemoncmd.go:557-601) and the instance which it has created, while other clients operate the same instance.
server/instance.go:253-309 (Wait, Kill, Suspend), 420-509 (the end of a run); server/server.go:820-834 (SuspendInstance), 841-870 (ResumeInstance).

A call launches a transient instance, connects to it, waits for it, answers with its status, and (deferred) kills it.  A bus call has also a file for asking for suspension: it's read by a goroutine, which goes on after the call.
Kill and Suspend take the process which the instance has at that moment: a resumed instance has a new one (instance.go:341-356).
Runs are numbered: 0 is what the call has started.
-/
namespace Gate.CallRun

inductive St where
  | running
  /-- Suspended or halted (or terminated, killed): it's kept. -/
  | stopped
  /-- Deleted: it was transient when it stopped. -/
  | gone
  deriving DecidableEq, Repr

inductive Pc where
  | connect
  | wait
  /-- Waiting for the `stopped` channel of a run. -/
  | watching (k : Nat)
  | kill
  | done
  deriving DecidableEq, Repr

inductive Go where
  | reading
  /-- There was a byte; Suspend is about to be called. -/
  | acting
  | done
  deriving DecidableEq, Repr

structure World where
  st : St := .running
  run : Nat := 0
  transient : Bool := true
  /-- The program is in the storage. -/
  progStored : Bool
  /-- The call's thread, its goroutine, and what's been answered: the run of which it's the status, and if it's RUNNING. -/
  pc : Pc := .connect
  go : Go := .reading
  answer : Option (Nat × Bool) := none
  /-- The byte has been sent through the suspend file; the file's other end has been closed. -/
  byte : Bool := false
  eof : Bool := false
  canceled : Bool := false
  /-- History: the runs which the call's thread has killed, and those which its goroutine has suspended; another client has asked for suspension or persistence. -/
  killed : Nat → Bool := fun _ => false
  suspended : Nat → Bool := fun _ => false
  other : Bool := false
  persisted : Bool := false

def set (f : Nat → Bool) (k : Nat) : Nat → Bool := fun i => if i = k then true else f i

inductive Step : World → World → Prop where
  /-- The client: SIGQUIT (cmd/gate/main/local.go:569-586). -/
  | send (w : World) : w.byte = false → w.eof = false → Step w { w with byte := true }
  /-- The client exits, or has done so. -/
  | close (w : World) : Step w { w with eof := true }
  | readByte (w : World) : w.go = .reading → w.byte = true → Step w { w with go := .acting }
  | readEnd (w : World) : w.go = .reading → w.byte = false → w.eof = true → Step w { w with go := .done }
  /-- inst.Suspend() -/
  | suspend (w : World) : w.go = .acting → Step w { w with go := .done, transient := w.transient && !(w.st == .running), suspended := set w.suspended w.run }
  /-- SuspendInstance by another client. -/
  | otherSuspend (w : World) : w.st ≠ .gone → Step w { w with progStored := true, transient := w.transient && !(w.st == .running), other := true }
  /-- UpdateInstance with Persist: doesn't store the program (see C81). -/
  | persist (w : World) : w.st ≠ .gone → Step w { w with transient := false, other := true, persisted := true }
  | stop (w : World) : w.st = .running → Step w { w with st := if w.transient then .gone else .stopped }
  /-- ResumeInstance by another client. -/
  | resume (w : World) : w.st = .stopped → Step w { w with st := .running, run := w.run + 1 }
  /-- inst.Connect returns when the instance stops, when the program or the client closes the connection, or never having connected. -/
  | connected (w : World) : w.pc = .connect → Step w { w with pc := .wait }
  | look (w : World) : w.pc = .wait → w.st = .running → Step w { w with pc := .watching w.run }
  | lookStopped (w : World) : w.pc = .wait → w.st ≠ .running → Step w { w with pc := .kill, answer := some (w.run, false) }
  | woken (w : World) (k : Nat) : w.pc = .watching k → w.run ≠ k ∨ w.st ≠ .running ∨ w.canceled = true → Step w { w with pc := .kill, answer := some (w.run, w.st == .running) }
  /-- The client of a web call is gone (bus calls' contexts aren't canceled). -/
  | cancel (w : World) : Step w { w with canceled := true }
  /-- The deferred inst.Kill(). -/
  | kill (w : World) : w.pc = .kill → Step w { w with pc := .done, killed := set w.killed w.run }

/-- `pinned`: the module is pinned by the call, or was in the storage already (server.go:1256-1261). -/
inductive Steps (pinned : Bool) : World → Prop where
  | init : Steps pinned { progStored := pinned }
  | step {w v : World} : Steps pinned w → Step w v → Steps pinned v

end Gate.CallRun
