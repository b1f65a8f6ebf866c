/-
C160: what starting an executor opens, starts and leaves behind.

Models runtime/executor.go:45-108 (NewExecutor), runtime/container.go (startContainer, dialContainerDaemon),
internal/sys/socketpair.go (SocketFilePair), internal/container/parent.go:30-117 (Start), 119-127 and 129-155 (Wait),
cmd/gate-runtime/main/runtimecmd.go:130-169 (handle), and what os/exec does with files: a pipe's read end is closed by Start, its write end
is closed by a Start which fails and by Wait, once (exec.Cmd.StdinPipe, closeOnce).

Simplified: of steps which allocate nothing only success or failure is modelled (`sys`).  Finalizers of os.File are not modelled: they would
close what has leaked once the garbage collector finds it; raw descriptors (SocketFilePair's) have none.
-/
namespace Gate.ContRes

/-- What has been opened. -/
inductive Kind where
  | executor | loader | cgroup | socket | pipe
deriving DecidableEq, Repr

/-- An open file as the code has it. -/
structure File where
  id : Nat
  kind : Kind
deriving DecidableEq, Repr

/-- What a deferred function does unless its variable is nil by then. -/
inductive Act where
  | close (f : Nat)
  /-- closeOnce. -/
  | closeOnce (f : Nat)
  /-- parent.go:88-93; `pipe` is closed by Wait. -/
  | killWait (p pipe : Nat)
deriving DecidableEq, Repr

/-- A container process which has been started. -/
structure Proc where
  id : Nat
  /-- The files which are its descriptors 3, 4, 5, ... -/
  extra : List File
deriving DecidableEq, Repr

/-- The server process or the runtime daemon. -/
structure St where
  /-- Open descriptors. -/
  files : List Nat
  nextFile : Nat
  /-- Children which have not been waited for. -/
  procs : List Proc
  nextProc : Nat
  /-- Close calls of what isn't open. -/
  bad : Nat
  /-- Number of fallible steps so far. -/
  t : Nat
  /-- Deferred functions of the function being executed, last one first. -/
  defers : List Act
deriving DecidableEq, Repr

inductive Out (α : Type) where
  | ok (a : α)
  | err
  | panic
deriving DecidableEq, Repr

/-- `ω`: which steps succeed. -/
def M (α : Type) := (ω : Nat → Bool) → St → Out α × St

instance : Monad M where
  pure a := fun _ s => (.ok a, s)
  bind m f := fun ω s =>
    match m ω s with
    | (.ok a, s) => f a ω s
    | (.err, s) => (.err, s)
    | (.panic, s) => (.panic, s)

def fail {α : Type} : M α := fun _ s => (.err, s)
def panic {α : Type} : M α := fun _ s => (.panic, s)

/-- A step which may fail. -/
def sys : M Unit := fun ω s => (if ω s.t then .ok () else .err, { s with t := s.t + 1 })

def openFile (k : Kind) : M File := fun ω s =>
  if ω s.t then (.ok ⟨s.nextFile, k⟩, { s with files := s.nextFile :: s.files, nextFile := s.nextFile + 1, t := s.t + 1 })
  else (.err, { s with t := s.t + 1 })

/-- Two files at once: socketpair(2), pipe(2). -/
def openPair (k : Kind) : M (File × File) := fun ω s =>
  if ω s.t then
    (.ok (⟨s.nextFile, k⟩, ⟨s.nextFile + 1, k⟩), { s with files := s.nextFile :: (s.nextFile + 1) :: s.files, nextFile := s.nextFile + 2, t := s.t + 1 })
  else (.err, { s with t := s.t + 1 })

def St.close (s : St) (f : Nat) : St :=
  if f ∈ s.files then { s with files := s.files.erase f } else { s with bad := s.bad + 1 }

def St.closeOnce (s : St) (f : Nat) : St := { s with files := s.files.erase f }

def close (f : Nat) : M Unit := fun _ s => (.ok (), s.close f)

/-- Kill and Wait. -/
def St.killWait (s : St) (p pipe : Nat) : St := { s.closeOnce pipe with procs := s.procs.filter fun x => x.id != p }

def St.act (s : St) : Act → St
  | .close f => s.close f
  | .closeOnce f => s.closeOnce f
  | .killWait p pipe => s.killWait p pipe

/-- `defer`. -/
def later (a : Act) : M Unit := fun _ s => (.ok (), { s with defers := a :: s.defers })

/-- The variable which a deferred function looks at is reset: it'll do nothing. -/
def disarm (a : Act) : M Unit := fun _ s => (.ok (), { s with defers := s.defers.erase a })

/-- A function: its deferred functions are executed, last one first, also if it panics. -/
def scope {α : Type} (m : M α) : M α := fun ω s =>
  match m ω { s with defers := [] } with
  | (r, s1) => (r, { (s1.defers.foldl St.act s1) with defers := s.defers })

/-! ### The code -/

/-- internal/sys/socketpair.go:14-30: raw descriptors until they're in files, and nothing closes them. -/
def socketFilePair : M (File × File) := do
  let p ← openPair .socket
  sys
  return p

/-- The parts of container.Config which matter here. -/
structure Conf where
  /-- common.Sandbox. -/
  sandbox : Bool
  /-- c.Cgroup.Executor isn't empty. -/
  execCgroup : Bool
  /-- A namespace whose ids are mapped by newuidmap and newgidmap. -/
  newidmap : Bool
deriving DecidableEq, Repr

/-- cmd.Start (os/exec): the child gets the extra files as descriptors 3, 4, ...; the read end of the pipe is closed in any case, the
write end if there's no child. -/
def cmdStart (pr pw : File) (extra : List File) : M Nat := fun ω s =>
  if ω s.t then
    (.ok s.nextProc, { s.close pr.id with procs := ⟨s.nextProc, extra⟩ :: s.procs, nextProc := s.nextProc + 1, t := s.t + 1 })
  else (.err, { (s.close pr.id).closeOnce pw.id with t := s.t + 1 })

def optional (b : Bool) (m : M Unit) : M Unit := if b then m else pure ()

/-- internal/container/parent.go:30-117. -/
def start (control : File) (c : Conf) : M Nat := scope do
  let executorBin ← openFile .executor
  later (.close executorBin.id)
  let loaderBin ← openFile .loader
  later (.close loaderBin.id)
  let cgroupDir ← openFile .cgroup
  later (.close cgroupDir.id)
  let pipe ← openPair .pipe
  later (.closeOnce pipe.2.id)
  let p ← cmdStart pipe.1 pipe.2 [control, loaderBin, executorBin, cgroupDir]
  later (.killWait p pipe.2.id)
  optional c.execCgroup sys
  optional c.sandbox sys
  optional (c.sandbox && c.newidmap) sys
  -- stdin.Close: it's closed even if an error is returned.
  close pipe.2.id
  disarm (.closeOnce pipe.2.id)
  sys
  disarm (.killWait p pipe.2.id)
  return p

/-- net.FileConn duplicates the descriptor; then the file is closed whether or not that has succeeded (runtime/container.go:29-33). -/
def fileConn (connFile : File) : M File := fun ω s =>
  match openFile .socket ω s with
  | (r, s) => (r, s.close connFile.id)

/-- runtime/container.go:17-48. -/
def startContainer (c : Conf) : M (Nat × File) := scope do
  sys
  let (controlFile, connFile) ← socketFilePair
  later (.close controlFile.id)
  let netConn ← fileConn connFile
  later (.close netConn.id)
  let cmd ← start controlFile c
  disarm (.close netConn.id)
  return (cmd, netConn)

/-- How the executor is reached, runtime/executor.go:65-79. -/
inductive Way where
  /-- A connection of the caller's; `unix`: it is a Unix socket. -/
  | connFile (unix : Bool)
  | daemon
  | container (c : Conf)
deriving DecidableEq, Repr

/-- runtime/config.go:13. -/
def maxProcsLimit : Int := 16384

structure Executor where
  conn : File
  cmd : Option Nat
  /-- The ids of the channel, in order. -/
  ids : List Nat
deriving DecidableEq, Repr

/-- runtime/executor.go:65-82. -/
def reach : Way → M (File × Option Nat)
  | .connFile unix => do
    let f ← openFile .socket
    -- The type assertion.
    if unix then return (f, none) else panic
  | .daemon => do
    sys
    let f ← openFile .socket
    return (f, none)
  | .container c => do
    let (cmd, conn) ← startContainer c
    return (conn, some cmd)

/-- runtime/executor.go:46-49. -/
def procLimit (maxProcs : Int) : Int := if maxProcs = 0 then maxProcsLimit else maxProcs

/-- runtime/executor.go:84-97: make panics if the size is negative. -/
def finish (n : Int) (r : File × Option Nat) : M Executor :=
  if n < 0 then panic else return ⟨r.1, r.2, List.range n.toNat⟩

/-- runtime/executor.go:45-108.  `maxProcs`: config.MaxProcs. -/
def newExecutor (maxProcs : Int) (w : Way) : M Executor :=
  if procLimit maxProcs > maxProcsLimit then fail
  else reach w >>= finish (procLimit maxProcs)

/-- How a process ended. -/
inductive Exit where
  | exited (code : Nat)
  | signaled
  /-- Wait itself failed. -/
  | failed
deriving DecidableEq, Repr

/-- What Wait returns. -/
inductive WaitErr where
  | code (n : Nat)
  | stderr
  | noCode
  | other
deriving DecidableEq, Repr

/-- internal/container/parent.go:130-144. -/
def waitErr : Exit → Option WaitErr
  | .exited 0 => none
  | .exited 1 => some .stderr
  | .exited (n + 2) => some (.code (n + 2))
  | .signaled => some .other
  | .failed => some .other

/-- internal/container/parent.go:129-155. `done`: the channel is closed; a nil channel never is. The flag tells an unexpected
termination. -/
def waitResult (done : Bool) (e : Exit) : Option (Bool × WaitErr) :=
  if done then (waitErr e).map fun x => (false, x)
  else some (true, (waitErr e).getD .noCode)

inductive Line where
  | terminated (client : Nat)
  | error (client : Nat)
deriving DecidableEq, Repr

def reap (p : Nat) : M Unit := fun _ s => (.ok (), { s with procs := s.procs.filter fun x => x.id != p })

/-- Logs and returns in case of an error. -/
def orLog {α : Type} (client : Nat) (m : M α) (k : α → M (List Line)) : M (List Line) := fun ω s =>
  match m ω s with
  | (.ok a, s) => k a ω s
  | (.err, s) => (.ok [.error client], s)
  | (.panic, s) => (.panic, s)

/-- cmd/gate-runtime/main/runtimecmd.go:130-169 after its first line is logged; `e`: how the container ends. -/
def handle (client : Nat) (c : Conf) (conn : File) (e : Exit) : M (List Line) := scope do
  later (.close conn.id)
  orLog client (openFile .socket) fun connFile => do
    later (.close connFile.id)
    close conn.id
    disarm (.close conn.id)
    orLog client (start connFile c) fun p => do
      close connFile.id
      disarm (.close connFile.id)
      reap p
      match waitResult false e with
      | none => return [.terminated client]
      | some _ => return [.error client]

end Gate.ContRes
