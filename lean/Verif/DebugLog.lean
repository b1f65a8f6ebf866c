import Verif.Auth
/-
C177: who holds and closes the debug logs which are given to the server. server/instance.go:83-110, 133-232, 342-355, 407-512 (`InvokeOptions`, newInstance, startOrAnnihilate, stop, _doResume, doAnnihilate, drive),
server/server.go:300-345, 840-870, 1155-1168, 1252-1305, 1307-1319, runtime/process.go:213-256, 264-290, runtime/debug.go:14-53, cmd/gate-daemon/main/daemoncmd.go:603-626, 655-661, 779-786.

Logs (`io.WriteCloser`s) are numbered as they are given with calls, and so are instances as they are created (an instance identifier may be used again).  Every step is what happens while the instance's
mutex is locked, or what other goroutines do.

Simplified: `copyDebug`'s line buffer and the newline which it adds (C128) aren't modelled: bytes go from the pipe to the log.  What happens to instances otherwise is C173's; only what logs depend on is here.
-/
namespace Gate.DebugLog

/-- What an instance is doing. -/
inductive State where
  | absent
  /-- Registered by newInstance or changed by _doResume; startOrAnnihilate hasn't been called yet. -/
  | starting
  | running
  /-- Suspended or halted. -/
  | stopped
  /-- Terminated or killed. -/
  | ended
  /-- Removed. -/
  | gone
  deriving DecidableEq, Repr

structure Inst where
  state : State := .absent
  /-- `inst.process` isn't nil. -/
  proc : Bool := false
  /-- `inst.debugLog` -/
  log : Option Nat := none
  /-- The process is alive, and holds the debug pipe's other end. -/
  alive : Bool := false
  /-- What a `copyDebug` goroutine writes to. -/
  copying : Option Nat := none
  /-- What is in the debug pipe. -/
  pipe : Bytes := []
  /-- What the program has written to the debug pipe since it was started or resumed. -/
  produced : Bytes := []
  deriving DecidableEq, Repr

structure World where
  /-- Number of logs which have been given. -/
  next : Nat := 0
  /-- In the `InvokeOptions` of a call which hasn't returned. -/
  caller : Nat → Bool := fun _ => false
  inst : Nat → Inst := fun _ => {}
  /-- How many times `Close` has been called. -/
  closes : Nat → Nat := fun _ => 0
  /-- Writes which have been made after `Close`. -/
  late : Nat → Nat := fun _ => 0
  /-- Doesn't accept writes. -/
  broken : Nat → Bool := fun _ => false
  /-- What has been written to the log. -/
  out : Nat → Bytes := fun _ => []

def set {α : Type} (f : Nat → α) (k : Nat) (v : α) : Nat → α := fun j => if j = k then v else f j

/-- takeDebugLog, instance.go:93-99: the options' log, if any, is the caller's no more. -/
def take (w : World) : Option Nat → World
  | none => w
  | some h => { w with caller := set w.caller h false }

/-- The log, if there is one, is closed. -/
def closeLog (w : World) : Option Nat → World
  | none => w
  | some h => { w with closes := set w.closes h (w.closes h + 1) }

/-- instance.go:215-225 -/
def stop (w : World) (i : Nat) : World :=
  closeLog { w with inst := set w.inst i { w.inst i with log := none, alive := false } } (w.inst i).log

def setState (w : World) (i : Nat) (s : State) : World := { w with inst := set w.inst i { w.inst i with state := s } }

/-- The options have the log. -/
def Has (w : World) (l : Option Nat) : Prop := ∀ h, l = some h → w.caller h = true

/-- instance.go:133-148 -/
def created (w : World) (i : Nat) (l : Option Nat) (proc : Bool) : World := { take w l with inst := set w.inst i { state := .starting, proc := proc, log := l } }

/-- instance.go:215-225, and then the instance's new state. -/
def stopped (w : World) (i : Nat) (s : State) : World := setState (stop w i) i s

inductive Step : World → World → Prop where
  /-- A call with a log: daemoncmd.go:779-783. -/
  | call (w : World) : Step w { w with caller := set w.caller w.next true, next := w.next + 1 }
  /-- The deferred InvokeOptions.Close, instance.go:103-110, daemoncmd.go:614, 657, of a call whose log hasn't been taken. -/
  | dismiss (w : World) (h : Nat) : w.caller h = true → Step w (closeLog (take w (some h)) (some h))
  /-- newInstance, instance.go:133-148.  There is no process if the instance is to be suspended or has come to its end: server.go:1252. -/
  | create (w : World) (i : Nat) (l : Option Nat) (proc : Bool) : (w.inst i).state = .absent → Has w l →
      Step w (created w i l proc)
  /-- _doResume, instance.go:342-355. -/
  | resume (w : World) (i : Nat) (l : Option Nat) : (w.inst i).state = .stopped → Has w l →
      Step w { take w l with inst := set w.inst i { w.inst i with state := .starting, proc := true, log := l } }
  /-- startOrAnnihilate without a process, instance.go:154-188: stored or not (server.go:1159-1161). -/
  | settle (w : World) (i : Nat) (s : State) : (w.inst i).state = .starting → (w.inst i).proc = false → s = .stopped ∨ s = .ended ∨ s = .gone → Step w (setState w i s)
  /-- startOrAnnihilate: Process.Start fails, instance.go:201-206, server.go:1159-1161. -/
  | startFails (w : World) (i : Nat) : (w.inst i).state = .starting → (w.inst i).proc = true → Step w (stopped w i .gone)
  /-- startOrAnnihilate: Process.Start, process.go:251-255. -/
  | start (w : World) (i : Nat) : (w.inst i).state = .starting → (w.inst i).proc = true →
      Step w { w with inst := set w.inst i { w.inst i with state := .running, alive := true, copying := (w.inst i).log, pipe := [], produced := [] } }
  /-- The program writes debug output. -/
  | debug (w : World) (i : Nat) (b : Bytes) : (w.inst i).state = .running → (w.inst i).alive = true →
      Step w { w with inst := set w.inst i { w.inst i with pipe := (w.inst i).pipe ++ b, produced := (w.inst i).produced ++ b } }
  | die (w : World) (i : Nat) : (w.inst i).state = .running → Step w { w with inst := set w.inst i { w.inst i with alive := false } }
  /-- copyDebug, debug.go:26-46. -/
  | copy (w : World) (i h n : Nat) : (w.inst i).copying = some h → w.broken h = false → w.closes h = 0 →
      Step w { w with inst := set w.inst i { w.inst i with pipe := (w.inst i).pipe.drop n }, out := set w.out h (w.out h ++ (w.inst i).pipe.take n) }
  /-- A write fails, debug.go:37-52: what follows is discarded. -/
  | copyFails (w : World) (i h : Nat) : (w.inst i).copying = some h → (w.inst i).pipe ≠ [] → w.broken h = true ∨ w.closes h ≠ 0 →
      Step w { w with inst := set w.inst i { w.inst i with copying := none }, late := if w.closes h ≠ 0 then set w.late h (w.late h + 1) else w.late }
  /-- The end of the pipe, debug.go:27-34. -/
  | copied (w : World) (i h : Nat) : (w.inst i).copying = some h → (w.inst i).pipe = [] → (w.inst i).alive = false → Step w { w with inst := set w.inst i { w.inst i with copying := none } }
  /-- The log's other end is lost. -/
  | breaks (w : World) (h : Nat) : Step w { w with broken := set w.broken h true }
  /-- The instance's services have ended, its process has died, and its debug output has been copied, process.go:269-290, instance.go:460-512. -/
  | served (w : World) (i : Nat) (s : State) : (w.inst i).state = .running → (w.inst i).alive = false → (w.inst i).copying = none → s = .stopped ∨ s = .ended ∨ s = .gone →
      Step w (stopped w i s)
  /-- ioLoop or finalize fails, process.go:269-286: the debug output isn't waited for.  The instance is killed; it is removed if it's transient. -/
  | serveFails (w : World) (i : Nat) (s : State) : (w.inst i).state = .running → s = .ended ∨ s = .gone → Step w (stopped w i s)
  /-- _annihilate, instance.go:389-408. -/
  | delete (w : World) (i : Nat) : (w.inst i).state = .stopped ∨ (w.inst i).state = .ended → Step w (setState w i .gone)

inductive Steps : World → World → Prop where
  | refl (w : World) : Steps w w
  | step {u v w : World} : Steps u v → Step v w → Steps u w

end Gate.DebugLog
