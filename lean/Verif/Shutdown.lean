import Verif.Auth
/-
C181: shutting down the server while requests are in progress.
server/server.go:151-200 (Shutdown), 840-870 (ResumeInstance), 1155-1183 (starting), 1197-1222 (lookup), 1247-1305 (registration); server/instance.go:125-245, 253-270, 297-311, 341-356, 420-509.

A step is a critical section, or something that happens in a process.  A signal is Process.Suspend (to instances of accounts) or Process.Kill (to anonymous ones).  What a process does about a signal, in particular one which it gets before it has been started, is C25's, C26's and C102's.
Deletion of stopped instances isn't modelled (an instance may be gone for that reason), nor are program references (C43).
-/
namespace Gate.Shutdown

inductive Phase where
  | absent
  /-- Registered, not started: the state is `NONEXISTENT`, and there's a process unless it's launched as suspended. -/
  | registered
  | running
  /-- `_doResume` has been done, and the process hasn't been started: the state is `RUNNING`. -/
  | resuming
  | stopped
  /-- Transient instances which have stopped, failed starts. -/
  | gone
  deriving DecidableEq, Repr

/-- There is, or is going to be, a process. -/
def Phase.live : Phase → Bool
  | .registered | .running | .resuming => true
  | _ => false

/-- The status is `RUNNING`. -/
def Phase.active : Phase → Bool
  | .running | .resuming => true
  | _ => false

structure Inst where
  phase : Phase := .absent
  /-- It belongs to an account; otherwise it's anonymous. -/
  acc : Bool := false
  transient : Bool := false
  /-- The current process has been signalled by Shutdown. -/
  sig : Bool := false
  /-- The current state is in the storage. -/
  stored : Bool := false
  /-- Storing or checking the state failed. -/
  failed : Bool := false
  /-- The number of resumptions: each has a `stopped` channel of its own. -/
  run : Nat := 0
  /-- A resumption's start has failed: the status is still `RUNNING` (instance.go:198-203 leaves it as it is). -/
  stale : Bool := false
  /-- History: started or resumed after Shutdown had closed the server. -/
  lateStart : Bool := false
  lateResume : Bool := false

/-- What `Status` tells. -/
def Inst.statusRunning (x : Inst) : Bool := x.phase.active || x.stale

structure World where
  /-- `s.accounts` and `s.programs` aren't nil. -/
  isOpen : Bool := true
  inst : Nat → Inst := fun _ => {}
  /-- Resumptions which have found the instance, and have checked that it may be resumed. -/
  resumers : Nat → Nat := fun _ => 0
  /-- The signals and waits which Shutdown is yet to do. -/
  toSignal : Nat → Bool := fun _ => false
  toWait : Nat → Bool := fun _ => false
  /-- The channel which is being waited for. -/
  watch : Nat → Option Nat := fun _ => none
  /-- Shutdown's context has been canceled. -/
  canceled : Bool := false
  /-- The variable. -/
  aborted : Bool := false
  /-- `some true`: Shutdown has returned an error. -/
  returned : Option Bool := none

def set {α : Type} (f : Nat → α) (i : Nat) (a : α) : Nat → α := fun x => if x = i then a else f x

def upd (w : World) (i : Nat) (x : Inst) : World := { w with inst := set w.inst i x }

inductive Step : World → World → Prop where
  /-- server.go:1247-1305; after a shutdown there's ErrServerClosed. -/
  | register (w : World) (i : Nat) (acc transient : Bool) : w.isOpen = true → (w.inst i).phase = .absent → (acc = false → transient = true) → Step w (upd w i { phase := .registered, acc, transient })
  /-- instance.go:191-208 -/
  | start (w : World) (i : Nat) : (w.inst i).phase = .registered → Step w (upd w i { w.inst i with phase := .running, lateStart := (w.inst i).lateStart || !w.isOpen })
  | restart (w : World) (i : Nat) : (w.inst i).phase = .resuming → Step w (upd w i { w.inst i with phase := .running })
  /-- instance.go:158-188: no process. -/
  | startStopped (w : World) (i : Nat) : (w.inst i).phase = .registered → Step w (upd w i { w.inst i with phase := .stopped, stored := true })
  /-- instance.go:198-203, server.go:1158-1162 -/
  | startFails (w : World) (i : Nat) : (w.inst i).phase = .registered ∨ (w.inst i).phase = .resuming → Step w (upd w i { w.inst i with phase := .gone, stale := (w.inst i).phase == .resuming })
  /-- instance.go:420-509; whether it was because of the signal doesn't matter. -/
  | stop (w : World) (i : Nat) (fails : Bool) : (w.inst i).phase = .running →
      Step w (upd w i (if (w.inst i).transient then { w.inst i with phase := .gone } else { w.inst i with phase := .stopped, stored := !fails, failed := fails }))
  /-- instance.go:281-295, 511-523 -/
  | persist (w : World) (i : Nat) : (w.inst i).acc = true → (w.inst i).phase.active = true → Step w (upd w i { w.inst i with transient := false })
  /-- server.go:848-851, 1197-1222: accounts have been forgotten after a shutdown. -/
  | resume (w : World) (i : Nat) : w.isOpen = true → (w.inst i).acc = true → (w.inst i).phase = .stopped → Step w { w with resumers := set w.resumers i (w.resumers i + 1) }
  /-- instance.go:341-356; there's a new process. -/
  | doResume (w : World) (i : Nat) : 0 < w.resumers i → (w.inst i).phase = .stopped →
      Step w { upd w i { w.inst i with phase := .resuming, sig := false, stored := false, run := (w.inst i).run + 1, lateResume := (w.inst i).lateResume || !w.isOpen } with resumers := set w.resumers i (w.resumers i - 1) }
  /-- Resuming fails: there are no resources, or the instance isn't stopped any more. -/
  | resumeFails (w : World) (i : Nat) : 0 < w.resumers i → Step w { w with resumers := set w.resumers i (w.resumers i - 1) }
  /-- server.go:156-176 -/
  | close (w : World) : w.isOpen = true → Step w { w with isOpen := false, toSignal := fun i => (w.inst i).phase != .absent, toWait := fun i => (w.inst i).phase != .absent }
  /-- server.go:178-183, instance.go:272-279, 297-311. -/
  | signal (w : World) (i : Nat) : w.toSignal i = true → Step w { upd w i { w.inst i with sig := (w.inst i).sig || (w.inst i).phase.live } with toSignal := set w.toSignal i false }
  /-- server.go:187-194, instance.go:253-262: it's not running. -/
  | waitNot (w : World) (i : Nat) : (∀ j, w.toSignal j = false) → w.toWait i = true → (w.inst i).statusRunning = false → Step w { w with toWait := set w.toWait i false }
  | waitBegin (w : World) (i : Nat) : (∀ j, w.toSignal j = false) → w.toWait i = true → (w.inst i).statusRunning = true → w.watch i = none → Step w { w with watch := set w.watch i (some (w.inst i).run) }
  /-- instance.go:264-269, server.go:188-190: the channel is closed, and the status is looked at. -/
  | waitEnd (w : World) (i k : Nat) : w.toWait i = true → w.watch i = some k → (w.inst i).run ≠ k ∨ (w.inst i).phase.active = false →
      Step w { w with toWait := set w.toWait i false, aborted := w.aborted || ((w.inst i).acc && (w.inst i).statusRunning) }
  | waitCanceled (w : World) (i k : Nat) : w.toWait i = true → w.watch i = some k → w.canceled = true →
      Step w { w with toWait := set w.toWait i false, aborted := w.aborted || ((w.inst i).acc && (w.inst i).statusRunning) }
  | cancel (w : World) : Step w { w with canceled := true }
  /-- server.go:196-199: `ctx.Err()` is nil if the context hasn't been canceled. -/
  | ret (w : World) : w.isOpen = false → (∀ i, w.toSignal i = false) → (∀ i, w.toWait i = false) → w.returned = none → Step w { w with returned := some (w.aborted && w.canceled) }

inductive Steps : World → World → Prop where
  | refl (w : World) : Steps w w
  | step {w x y : World} : Steps w x → Step x y → Steps w y

end Gate.Shutdown
