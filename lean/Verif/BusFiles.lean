import Verif.Auth
/-
C180: the descriptors which are passed with calls of the daemon's bus methods.
cmd/gate-daemon/main/daemoncmd.go:262-430 (the methods which have such parameters), 448-470, 529-626, 655-661, 662-685, 756-786; server/instance.go:86-110 and server/upload.go:13-25 (who closes what).

A method is a function from the world to the world, and to whether it panics (methods answer with an error then).  What can fail is an oracle's decision.
What the server takes is closed by the server: a module's stream when the call which took it returns (C139), a debug log when the instance stops (C177).
-/
namespace Gate.BusFiles

/-- The parameters. -/
inductive Fd where | module_ | suspend | r | w | debug
  deriving DecidableEq, Repr

/-- What an execution depends on. -/
structure Env where
  /-- `s()` panics: the initialization of the daemon failed. -/
  aborted : Bool
  /-- The module file is a regular file; reading it otherwise fails. -/
  regular : Bool
  readFails : Bool
  /-- Checks which the server makes before taking the module or the debug log. -/
  refused : Bool
  /-- The server takes the module's stream (it doesn't always), and the log. -/
  takesModule : Bool
  takesLog : Bool
  /-- The server's call fails (after having taken something). -/
  fails : Bool
  /-- `debugLogging` -/
  logging : Bool
  /-- The first setting of nonblocking mode which fails in connectInstance. -/
  nonblock : Bool
  /-- The instance doesn't accept connections. -/
  noConn : Bool
  /-- The connection's I/O ends in an error. -/
  connFails : Bool
  deriving DecidableEq, Repr

/-- A descriptor's state: how many times it has been closed (on behalf of the call), whether it's held by a goroutine, an instance or the server which closes it, and whether it's an `*os.File`, which gets closed when it has become garbage. -/
structure World where
  closed : Fd → Nat := fun _ => 0
  held : Fd → Bool := fun _ => false
  file : Fd → Bool := fun _ => false
  /-- The variable `suspend` of doCall isn't nil. -/
  suspendVar : Bool := false
  /-- ModuleUpload.Stream is the module file. -/
  stream : Bool := false
  /-- InvokeOptions.DebugLog isn't nil. -/
  log : Bool := false
  /-- Instances which have been created, and the ones killed by the deferred inst.Kill. -/
  launched : Nat := 0
  killed : Nat := 0
  /-- Connections which were made. -/
  connected : Nat := 0

def set {α β : Type} [DecidableEq α] (f : α → β) (a : α) (b : β) : α → β := fun x => if x = a then b else f x

/-- A statement; `true`: panics. -/
abbrev M := World → World × Bool

def nop : M := fun w => (w, false)
def panic : M := fun w => (w, true)
def step (f : World → World) : M := fun w => (f w, false)
def fail (b : Bool) : M := fun w => (w, b)

/-- One statement after another. -/
def next (a b : M) : M := fun w => if (a w).2 then a w else b (a w).1

/-- `defer d; body`: what is deferred is done also after a panic. -/
def deferred (d : World → World) (body : M) : M := fun w => (d (body w).1, (body w).2)

infixr:60 " ;; " => next

/-- os.NewFile -/
def newFile (f : Fd) (w : World) : World := { w with file := set w.file f true }
def close (f : Fd) (w : World) : World := { w with closed := set w.closed f (w.closed f + 1) }
/-- Something else will close it. -/
def hold (f : Fd) (w : World) : World := { w with held := set w.held f true }

/-- ModuleUpload.Close -/
def closeUpload (w : World) : World := if w.stream then close .module_ { w with stream := false } else w
/-- InvokeOptions.Close; it may be nil. -/
def closeInvoke (w : World) : World := if w.log then close .debug { w with log := false } else w

/-- daemoncmd.go:778-785 -/
def invokeOptions (e : Env) : M := step (newFile .debug) ;; if e.logging then step fun w => { w with log := true } else step (close .debug)

/-- daemoncmd.go:756-771: a file which isn't regular isn't closed. -/
def moduleUpload (e : Env) : M := if e.regular then step fun w => { w with stream := true } else fail e.readFails

/-- takeStream; the server closes it. -/
def takeStream (e : Env) (w : World) : World := if e.takesModule && w.stream then hold .module_ { w with stream := false } else w
/-- takeDebugLog; the instance closes it. -/
def takeLog (e : Env) (w : World) : World := if e.takesLog && w.log then hold .debug { w with log := false } else w

/-- UploadModuleInstance and NewInstance: the module is loaded before the instance is created. -/
def serverLaunch (e : Env) (upload : Bool) : M :=
  fail e.refused ;; (if upload then step (takeStream e) else nop) ;; step (takeLog e) ;; fail e.fails ;; step fun w => { w with launched := w.launched + 1 }

/-- daemoncmd.go:602-626 -/
def doLaunch (e : Env) (file : Bool) : M :=
  invokeOptions e ;; deferred closeInvoke (if file then moduleUpload e ;; deferred closeUpload (serverLaunch e true) else serverLaunch e false)

/-- daemoncmd.go:567-573: the deferred function. -/
def closeSuspend (w : World) : World := if w.suspendVar then close .suspend { w with suspendVar := false } else w

/-- daemoncmd.go:554-600. The goroutine closes the suspension file when it has been read. -/
def doCall (e : Env) (file : Bool) : M :=
  step (fun w => newFile .suspend { w with suspendVar := true }) ;; deferred closeSuspend (
    step (newFile .r) ;; deferred (close .r) (
      step (newFile .w) ;; deferred (close .w) (
        doLaunch e file ;; deferred (fun w => { w with killed := w.killed + 1 }) (
          step (hold .suspend) ;; step (fun w => { w with suspendVar := false }) ;; step fun w => { w with connected := w.connected + 1 }))))

/-- daemoncmd.go:662-685. -/
def connectInstance (e : Env) : M :=
  step (newFile .r) ;; deferred (close .r) (
    step (newFile .w) ;; deferred (close .w) (
      fail e.nonblock ;; fail e.fails ;; if e.noConn then nop else step (fun w => { w with connected := w.connected + 1 }) ;; fail e.connFails))

/-- daemoncmd.go:655-661. -/
def resumeInstance (e : Env) : M :=
  invokeOptions e ;; deferred closeInvoke (fail e.refused ;; step (takeLog e) ;; fail e.fails)

inductive Method where | Call | CallFile | ConnectInstance | DownloadModule | Launch | LaunchFile | ResumeInstance | UploadModule
  deriving DecidableEq, Repr

/-- daemoncmd.go:278-500: the server is waited for when the arguments of the function are evaluated, after the module file has been made. -/
def run (e : Env) : Method → M
  | .Call => fail e.aborted ;; doCall e false
  | .CallFile => step (newFile .module_) ;; fail e.aborted ;; doCall e true
  | .ConnectInstance => fail e.aborted ;; connectInstance e
  /- 345-355: the goroutine closes the file. -/
  | .DownloadModule => step (newFile .module_) ;; fail e.aborted ;; fail e.fails ;; step (hold .module_)
  | .Launch => fail e.aborted ;; doLaunch e false
  | .LaunchFile => step (newFile .module_) ;; fail e.aborted ;; doLaunch e true
  | .ResumeInstance => fail e.aborted ;; resumeInstance e
  /- 483-489, 533-545 -/
  | .UploadModule => step (newFile .module_) ;; fail e.aborted ;; step (fun w => { w with stream := true }) ;; deferred closeUpload (fail e.refused ;; step (takeStream e) ;; fail e.fails)

/-- The descriptors among a method's parameters. -/
def params : Method → List Fd
  | .Call => [.suspend, .r, .w, .debug]
  | .CallFile => [.module_, .suspend, .r, .w, .debug]
  | .ConnectInstance => [.r, .w]
  | .DownloadModule => [.module_]
  | .Launch => [.debug]
  | .LaunchFile => [.module_, .debug]
  | .ResumeInstance => [.debug]
  | .UploadModule => [.module_]

end Gate.BusFiles
