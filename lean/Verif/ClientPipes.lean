import Verif.Auth
/-
C182: pipes of the gate program's local commands.
cmd/gate/main/local.go:60-100 (call), 149-195 (import), 210-228 (io), 300-329 (pull), 531-567 (openStdio, copyStdin, copyStdout).

A bus call is answered when `daemonCall` returns (local.go:31-40; dbus.Object.Call waits), and only then the caller's own files are closed (closeFiles).  When the client exits (log.Fatal, os.Exit, or the end of main), its goroutines are gone and its files are closed.
Pipes have a capacity, writes may be partial.
-/
namespace Gate.ClientPipes

abbrev Bytes := List UInt8

/-! ## Uploading through a pipe (import of something which isn't a regular file, pull) -/

structure Up where
  data : Bytes
  cap : Nat
  /-- The goroutine closes the pipe's write end when it's done: pull does (312), import doesn't (173-176). -/
  closes : Bool
  /-- The collector may close an `os.File` which isn't reachable any more (import: when the goroutine is done). -/
  gc : Bool

structure UpWorld where
  left : Bytes
  pipe : Bytes := []
  wOpen : Bool := true
  rClient : Bool := true
  rDaemon : Bool := true
  /-- What the daemon has read, and if it has seen the end. -/
  got : Bytes := []
  eof : Bool := false
  /-- The daemon's answer to the call: success? -/
  answer : Option Bool := none
  /-- The goroutine's result. -/
  copied : Option Bool := none
  /-- How the command ended. -/
  exit : Option Bool := none

def Up.init (c : Up) : UpWorld := { left := c.data }

inductive UpStep (c : Up) : UpWorld → UpWorld → Prop where
  | write (w) (a b : Bytes) : w.exit = none → w.copied = none → w.left = a ++ b → a ≠ [] → w.pipe.length + a.length ≤ c.cap → (w.rClient = true ∨ w.rDaemon = true) →
      UpStep c w { w with left := b, pipe := w.pipe ++ a }
  /-- EPIPE -/
  | writeFails (w) : w.exit = none → w.copied = none → w.left ≠ [] → w.rClient = false → w.rDaemon = false → UpStep c w { w with copied := some false }
  | writeDone (w) : w.exit = none → w.copied = none → w.left = [] → UpStep c w { w with copied := some true }
  | close (w) : w.exit = none → c.closes = true → w.copied ≠ none → w.wOpen = true → UpStep c w { w with wOpen := false }
  | collect (w) : w.exit = none → c.gc = true → w.copied ≠ none → w.wOpen = true → UpStep c w { w with wOpen := false }
  | read (w) (a b : Bytes) : w.rDaemon = true → w.pipe = a ++ b → a ≠ [] → UpStep c w { w with pipe := b, got := w.got ++ a }
  | readEnd (w) : w.rDaemon = true → w.pipe = [] → w.wOpen = false → w.eof = false → UpStep c w { w with eof := true }
  /-- The module is loaded or validated to its end (server/program.go:59-109, server/upload.go:27-39), and the stream is closed. -/
  | accept (w) : w.answer = none → w.eof = true → UpStep c w { w with answer := some true, rDaemon := false }
  | refuse (w) : w.answer = none → UpStep c w { w with answer := some false, rDaemon := false }
  /-- closeFiles(r) -/
  | answered (w) : w.exit = none → w.answer ≠ none → w.rClient = true → UpStep c w { w with rClient := false }
  /-- `check(call.Store(…))` -/
  | fail (w) : w.exit = none → w.answer = some false → w.rClient = false → UpStep c w { w with exit := some false, wOpen := false }
  /-- `check(<-copied)` -/
  | finish (w) (b : Bool) : w.exit = none → w.answer = some true → w.rClient = false → w.copied = some b → UpStep c w { w with exit := some b, wOpen := false }
  /-- The user interrupts the command (^C). -/
  | interrupt (w) : w.exit = none → UpStep c w { w with exit := some false, wOpen := false, rClient := false }

inductive UpSteps (c : Up) : UpWorld → UpWorld → Prop where
  | refl (w) : UpSteps c w w
  | step {w x y} : UpSteps c w x → UpStep c x y → UpSteps c w y

/-! ## An instance's output (call, io) -/

structure Out where
  cap : Nat
  /-- io.Copy's buffer. -/
  buf : Nat
  /-- The standard output is a terminal: there's a pipe and a goroutine (538-540, 557-567); otherwise the daemon gets the standard output itself. -/
  terminal : Bool
  /-- main waits for the goroutine: it doesn't. -/
  waits : Bool

structure OutWorld where
  /-- What the instance has written to the connection. -/
  written : Bytes := []
  pipe : Bytes := []
  /-- What the goroutine has read and not yet written. -/
  hand : Bytes := []
  /-- What has got to the standard output. -/
  shown : Bytes := []
  /-- The call has been answered: the instance has stopped or the connection was closed, and the daemon has closed its file. -/
  answered : Bool := false
  exited : Bool := false

inductive OutStep (c : Out) : OutWorld → OutWorld → Prop where
  | write (w) (a : Bytes) : c.terminal = true → w.answered = false → w.pipe.length + a.length ≤ c.cap → OutStep c w { w with written := w.written ++ a, pipe := w.pipe ++ a }
  | writeDirect (w) (a : Bytes) : c.terminal = false → w.answered = false → OutStep c w { w with written := w.written ++ a, shown := w.shown ++ a }
  | copyRead (w) (a b : Bytes) : w.exited = false → w.hand = [] → w.pipe = a ++ b → a.length ≤ c.buf → OutStep c w { w with pipe := b, hand := a }
  | copyWrite (w) (a b : Bytes) : w.exited = false → w.hand = a ++ b → OutStep c w { w with hand := b, shown := w.shown ++ a }
  | answer (w) : w.answered = false → OutStep c w { w with answered := true }
  /-- The end of the command, or os.Exit with the instance's result (local.go:93-107). -/
  | exit (w) : w.answered = true → w.exited = false → (c.waits = true → w.pipe = [] ∧ w.hand = []) → OutStep c w { w with exited := true }

inductive OutSteps (c : Out) : OutWorld → OutWorld → Prop where
  | refl (w) : OutSteps c w w
  | step {w x y} : OutSteps c w x → OutStep c x y → OutSteps c w y

/-- cmd/gate/main/local.go:173-176 -/
def importPipe (data : Bytes) (cap : Nat) : Up := { data, cap, closes := false, gc := false }

/-- cmd/gate/main/local.go:311-315 -/
def pullPipe (data : Bytes) (cap : Nat) : Up := { data, cap, closes := true, gc := false }

/-- cmd/gate/main/local.go:531-542; io.Copy's buffer is 32 kB. -/
def stdout (terminal : Bool) (cap : Nat) : Out := { cap, buf := 32768, terminal, waits := false }

end Gate.ClientPipes
