/-
The mutexes of the server: which lock sections every API call consists of, and what goes on inside them.

Modelled: server/lock.go, and the lock sections of server/server.go, server/instance.go and server/program.go.

A call is a nondeterministic program (`Prog`): conditions which depend on data are both possible, loops run any number of times, everything that the code does besides
taking mutexes is one of three kinds of action: touching data which a mutex guards, finite work (`ext`), and blocking on another party (`block`).

Not modelled: Go's memory model; the mutexes of other packages (runtime.Executor.mu, service/registry.go, service/origin), which are taken and released inside `ext`
and `block` actions and whose sections don't call back into the server.
-/
namespace Gate.Locks

/-- The mutexes: server/server.go:53 `Server.mu`; server/instance.go:116 `Instance.mu` (one for every instance); server/program.go:50 `program.storeMu` (one for every
program). -/
inductive Mu
  | server
  | inst (i : Nat)
  | store (p : Nat)
  deriving DecidableEq, Repr

/-- One step of a goroutine. -/
inductive Act
  /-- server/lock.go:15,47, server/program.go:182: `sync.Mutex.Lock`. -/
  | lock (m : Mu)
  /-- `sync.Mutex.Unlock`. -/
  | unlock (m : Mu)
  /-- Reads or writes something that the comments in the code say the mutex guards: server/server.go:53-56 (programs, accounts, anonymous), server/account.go:31-33
  (an account's programs and instances), server/program.go:50-54 (stored; reference counts), server/instance.go:116-129. -/
  | touch (m : Mu)
  /-- Work which ends without the help of another goroutine of the server: access policy, image storage, building a program, the executor's socket, closing files. -/
  | ext
  /-- Waits for another party: server/instance.go:264-267 (an instance to stop), :377 (a program to accept a connection), :460 (a program to run), a client's stream. -/
  | block
  deriving DecidableEq, Repr

/-- The shape of a function, as regards mutexes. -/
inductive Prog
  | skip
  | act (a : Act)
  /-- `panic(err)` -/
  | throw
  | seq (p q : Prog)
  /-- A condition which depends on data. -/
  | alt (p q : Prog)
  /-- A loop. -/
  | star (p : Prog)
  /-- The function continues with some instance or program. -/
  | any (f : Nat → Prog)
  /-- `defer d; p`: `d` is also run when `p` panics. -/
  | deferred (d p : Prog)
  /-- `defer func() { err = asError(recover()) }(); p` -/
  | recovered (p : Prog)
  /-- server/lock.go:19-23: `lock := m.Lock(); defer m.Unlock(); p`. -/
  | guard (m : Mu) (p : Prog)

/-- `Run p b t`: the function can perform the actions `t`, and panics if `b`. -/
inductive Run : Prog → Bool → List Act → Prop
  | skip : Run .skip false []
  | act a : Run (.act a) false [a]
  | throw : Run .throw true []
  | seq {p q b t u} : Run p false t → Run q b u → Run (.seq p q) b (t ++ u)
  | seqPanic {p q t} : Run p true t → Run (.seq p q) true t
  | left {p q b t} : Run p b t → Run (.alt p q) b t
  | right {p q b t} : Run q b t → Run (.alt p q) b t
  | stop {p} : Run (.star p) false []
  | again {p b t u} : Run p false t → Run (.star p) b u → Run (.star p) b (t ++ u)
  | againPanic {p t} : Run p true t → Run (.star p) true t
  | any {f b t} (n : Nat) : Run (f n) b t → Run (.any f) b t
  | deferred {d p b c t u} : Run p b t → Run d c u → Run (.deferred d p) (b || c) (t ++ u)
  | recovered {p b t} : Run p b t → Run (.recovered p) false t
  | guard {m p b t} : Run p b t → Run (.guard m p) b (.lock m :: t ++ [.unlock m])

local infixr:60 " ;; " => Prog.seq

/-- Something optional. -/
def opt (p : Prog) : Prog := .alt p .skip

/-- `_check(err)`, or another condition under which a function panics. -/
def check : Prog := .alt .throw .skip

def ext : Prog := .act .ext
def block : Prog := .act .block
def touch (m : Mu) : Prog := .act (.touch m)

/-! ## server/program.go, server/account.go, server/instance.go -/

/-- server/program.go:158-179 (`ref`, `unref`): the reference count; the image is closed when nothing refers to the program. -/
def refCount : Prog := touch .server ;; check ;; ext

/-- server/program.go:181-191 -/
def ensureStorage : Prog := .any fun p => .guard (.store p) (touch (.store p) ;; opt (ext ;; check))

/-- server/instance.go:154-225 -/
def startOrAnnihilate (i : Nat) : Prog := .guard (.inst i) (touch (.inst i) ;; ext)

/-- server/instance.go:227-232 -/
def status (i : Nat) : Prog := .guard (.inst i) (touch (.inst i))

/-- server/instance.go:235-251 -/
def info (i : Nat) : Prog := .guard (.inst i) (touch (.inst i))

/-- server/instance.go:253-270: `Wait`, which waits for the instance without holding its mutex. -/
def wait (i : Nat) : Prog := .guard (.inst i) (touch (.inst i)) ;; opt (block ;; status i)

/-- server/instance.go:272-279, 297-311: `Kill` and `suspend`. -/
def kill (i : Nat) : Prog := .guard (.inst i) (touch (.inst i)) ;; opt ext

/-- server/instance.go:281-295: `Suspend`. -/
def suspend (i : Nat) : Prog := .guard (.inst i) (touch (.inst i)) ;; opt ext

/-- server/instance.go:313-339: `_checkResume`. -/
def checkResume (i : Nat) : Prog := .guard (.inst i) (touch (.inst i) ;; check)

/-- server/instance.go:341-355: `_doResume`. -/
def doResume (i : Nat) : Prog := .guard (.inst i) (touch (.inst i) ;; check)

/-- server/instance.go:357-378: `Connect`, `connect`. -/
def connect (i : Nat) : Prog := .guard (.inst i) (touch (.inst i)) ;; opt (block ;; opt block)

/-- server/instance.go:380-396: `_snapshot`. -/
def instSnapshot (i : Nat) : Prog := .guard (.inst i) (touch (.inst i) ;; check ;; ext ;; check)

/-- server/instance.go:398-418: `_annihilate`. -/
def annihilate (i : Nat) : Prog := .guard (.inst i) (touch (.inst i) ;; check ;; ext)

/-- server/instance.go:420-509: `drive`.  `mon` is the server's monitor function.  The first alternative is the failure of the process's I/O (the deferred cleanup
takes the mutex), the second is the rest. -/
def drive (mon : Prog) (i : Nat) : Prog :=
  let cleanup := touch (.inst i) ;; ext ;; mon ;; opt (ext ;; mon)
  block ;; .alt (mon ;; .guard (.inst i) cleanup)
    (.guard (.inst i) (.deferred cleanup (touch (.inst i) ;; ext ;; opt mon)))

/-- server/instance.go:511-535: `update`. -/
def instUpdate (i : Nat) : Prog := .guard (.inst i) (touch (.inst i))

/-- server/instance.go:537-671: `_debug`; also :679-707, `apply`. -/
def instDebug (i : Nat) : Prog := .guard (.inst i) (touch (.inst i) ;; check ;; ext ;; check)
def rebuildApply (i : Nat) : Prog := .guard (.inst i) (touch (.inst i) ;; ext)

/-! ## server/server.go -/

/-- server/server.go:1083-1091: `unrefProgram`. -/
def unrefProgram : Prog := opt (.guard .server refCount)

/-- server/server.go:1067-1081: `_refProgram`. -/
def refProgram : Prog := .guard .server (touch .server ;; check ;; opt refCount)

/-- server/server.go:1321-1343: `_mergeProgramRef`, with the server's mutex held. -/
def mergeProgramRef : Prog := touch .server ;; check ;; opt refCount

/-- server/server.go:1093-1126: `_registerProgramRef`.  The monitor is called inside the section (:1116 says so). -/
def registerProgramRef (mon : Prog) : Prog :=
  opt (check ;; ensureStorage) ;; .guard .server (mergeProgramRef ;; opt (opt refCount ;; opt mon))

/-- server/server.go:1128-1152: `_checkAccountInstanceID`. -/
def checkAccountInstanceID : Prog := check ;; opt (.guard .server (touch .server ;; check))

/-- server/server.go:1307-1319: `deleteNonexistentInstance`. -/
def deleteNonexistent : Prog := .guard .server (touch .server ;; opt refCount)

/-- server/server.go:1154-1168: `_runOrDeleteInstance`.  The goroutine it starts is `driveInstance`. -/
def runOrDelete (i : Nat) : Prog :=
  .deferred unrefProgram (startOrAnnihilate i ;; opt (deleteNonexistent ;; .throw))

/-- server/server.go:1171-1177: `driveInstance`, a goroutine of its own. -/
def driveInstance (mon : Prog) (i : Nat) : Prog := .deferred unrefProgram (drive mon i ;; opt deleteNonexistent)

/-- server/server.go:1179-1222: `_getInstance`, `_getInstanceProgramID`, `_getInstanceRefProgram`. -/
def getInstance : Prog := check ;; .guard .server (touch .server ;; check)
def getInstanceRef : Prog := check ;; .guard .server (touch .server ;; check ;; refCount)

/-- server/server.go:1224-1242: `_allocateInstanceResources`. -/
def allocate : Prog := check ;; .deferred ext (block ;; check)

/-- server/server.go:1244-1305: `_registerProgramRefInstance`.  The monitor is called inside the section (:1290 says so). -/
def registerInstance (mon : Prog) : Prog :=
  opt allocate ;; .deferred ext
    (opt (check ;; ensureStorage) ;; .guard .server (touch .server ;; check ;; mergeProgramRef ;; opt (opt (opt refCount ;; opt mon) ;; refCount) ;; refCount))

/-- server/server.go:251-274: `_loadKnownModule`. -/
def loadKnown (mon : Prog) : Prog :=
  refProgram ;; opt (.deferred unrefProgram (block ;; check ;; registerProgramRef mon ;; mon))

/-- server/server.go:276-298: `_loadUnknownModule`. -/
def loadUnknown (mon : Prog) : Prog :=
  block ;; check ;; .deferred unrefProgram (registerProgramRef mon ;; mon)

/-- server/server.go:408-448: `_loadKnownModuleInstance`. -/
def loadKnownInstance (mon : Prog) : Prog :=
  refProgram ;; opt (.deferred unrefProgram (block ;; check ;; ext ;; check ;; .deferred ext (registerInstance mon ;; mon ;; .any runOrDelete ;; mon)))

/-- server/server.go:450-498: `_loadUnknownModuleInstance`. -/
def loadUnknownInstance (mon : Prog) : Prog :=
  block ;; check ;; .deferred ext (.deferred unrefProgram (registerInstance mon ;; mon ;; .any runOrDelete ;; mon))

/-- The calls which a program embedding the server can make: the methods of `Server` and of `Instance`. -/
inductive Call
  | shutdown | uploadModule | sourceModule | newInstance | uploadModuleInstance | sourceModuleInstance
  | moduleInfo | modules | moduleContent | moduleContentClose | pinModule | unpinModule
  | instanceConnection | instanceInfo | waitInstance | killInstance | suspendInstance | resumeInstance | deleteInstance
  | snapshot | updateInstance | debugInstance | instances
  | instStatus (i : Nat) | instWait (i : Nat) | instKill (i : Nat) | instSuspend (i : Nat) | instConnect (i : Nat)
  deriving DecidableEq, Repr

/-- server/server.go:840-870: `ResumeInstance`. -/
def resumeInstance (mon : Prog) : Prog :=
  .recovered (ext ;; check ;; getInstanceRef ;; .any fun i =>
    .deferred unrefProgram (checkResume i ;; allocate ;; .deferred ext (doResume i ;; runOrDelete i ;; mon)))

/-- server/server.go:916-948: `_snapshot`. -/
def doSnapshot (mon : Prog) : Prog :=
  ext ;; check ;; getInstanceRef ;; .any fun i => .deferred unrefProgram (instSnapshot i ;; .deferred ext (ext ;; check ;;
    .deferred unrefProgram (registerProgramRef mon ;; mon)))

/-- server/server.go:500-542: `ModuleInfo`, whose monitor event is sent with the server's mutex held. -/
def moduleInfo (mon : Prog) : Prog := .recovered (ext ;; check ;; .guard .server (touch .server ;; check ;; mon))

/-- What a call does. -/
def body (mon : Prog) : Call → Prog
  /- server/server.go:151-200 -/
  | .shutdown => .guard .server (touch .server ;; .star refCount) ;; .star (.any kill) ;; .star (.any wait)
  /- server/server.go:206-224 -/
  | .uploadModule => .recovered (ext ;; check ;; opt (loadKnown mon) ;; opt (loadUnknown mon))
  /- server/server.go:226-249 -/
  | .sourceModule => .recovered (ext ;; check ;; block ;; check ;; .deferred ext (loadUnknown mon))
  /- server/server.go:300-347 -/
  | .newInstance => .recovered (ext ;; check ;; checkAccountInstanceID ;; check ;; .guard .server (touch .server ;; opt refCount) ;; check ;;
      .deferred unrefProgram (ext ;; check ;; .deferred ext (registerInstance mon ;; .any runOrDelete ;; mon)))
  /- server/server.go:349-360, 391-406 -/
  | .uploadModuleInstance => .recovered (ext ;; check ;; checkAccountInstanceID ;; check ;; opt (loadKnownInstance mon) ;; opt (loadUnknownInstance mon))
  /- server/server.go:362-406 -/
  | .sourceModuleInstance => .recovered (ext ;; check ;; checkAccountInstanceID ;; block ;; check ;; .deferred ext (loadUnknownInstance mon))
  | .moduleInfo => moduleInfo mon
  /- server/server.go:544-576 -/
  | .modules => .recovered (ext ;; check ;; mon ;; .guard .server (touch .server))
  /- server/server.go:578-614, 631-641: `ModuleContent`, and closing what it returns. -/
  | .moduleContent => .recovered (ext ;; check ;; .guard .server (touch .server ;; opt refCount) ;; check)
  | .moduleContentClose => mon ;; unrefProgram
  /- server/server.go:643-695 -/
  | .pinModule => .recovered (ext ;; check ;; .guard .server (touch .server ;; check ;; opt refCount) ;; opt mon)
  /- server/server.go:697-730 -/
  | .unpinModule => .recovered (ext ;; check ;; .guard .server (touch .server ;; opt refCount) ;; check ;; mon)
  /- server/server.go:734-767: the connection function included. -/
  | .instanceConnection => .recovered (ext ;; check ;; getInstance ;; .any fun i => connect i ;; opt mon ;; opt (mon ;; block ;; mon))
  /- server/server.go:769-786 -/
  | .instanceInfo => .recovered (ext ;; check ;; getInstance ;; .any fun i => info i ;; check ;; mon)
  /- server/server.go:788-802 -/
  | .waitInstance => .recovered (ext ;; check ;; getInstance ;; .any fun i => wait i ;; mon)
  /- server/server.go:804-818 -/
  | .killInstance => .recovered (ext ;; check ;; getInstance ;; .any fun i => kill i ;; mon)
  /- server/server.go:820-838 -/
  | .suspendInstance => .recovered (ext ;; check ;; getInstanceRef ;; .any fun i => .deferred unrefProgram (ensureStorage ;; suspend i ;; mon))
  | .resumeInstance => resumeInstance mon
  /- server/server.go:872-887 -/
  | .deleteInstance => .recovered (ext ;; check ;; getInstance ;; .any fun i => annihilate i ;; deleteNonexistent ;; mon)
  /- server/server.go:889-914 -/
  | .snapshot => .recovered (getInstance ;; .any fun i => status i ;;
      .alt (doSnapshot mon) (kill i ;; wait i ;; .alt (doSnapshot mon) (.deferred (resumeInstance mon ;; check) (doSnapshot mon))))
  /- server/server.go:950-972 -/
  | .updateInstance => .recovered (ext ;; check ;; getInstance ;; .any fun i => instUpdate i ;; opt mon ;; info i ;; check)
  /- server/server.go:974-1012 -/
  | .debugInstance => .recovered (ext ;; check ;; getInstanceRef ;; .any fun i => .deferred unrefProgram
      (instDebug i ;; opt (ext ;; check ;; .deferred ext (rebuildApply i ;; check)) ;; mon))
  /- server/server.go:1014-1055 -/
  | .instances => .recovered (ext ;; check ;; mon ;; .guard .server (touch .server) ;; .star (.any info))
  | .instStatus i => status i
  | .instWait i => wait i
  | .instKill i => kill i
  | .instSuspend i => suspend i
  | .instConnect i => connect i

/-- What a goroutine does. -/
inductive Task
  /-- It makes API calls, one after another. -/
  | client (calls : List Call)
  /-- server/server.go:1165: it drives an instance. -/
  | driver (i : Nat)

def callsBody (mon : Prog) : List Call → Prog
  | [] => .skip
  | c :: cs => body mon c ;; callsBody mon cs

def taskBody (mon : Prog) : Task → Prog
  | .client cs => callsBody mon cs
  | .driver i => driveInstance mon i

/-! ## Goroutines -/

/-- The actions which each goroutine still has to perform, and who holds each mutex. -/
structure State where
  rest : Nat → List Act
  owner : Mu → Option Nat

def upd {α β} [DecidableEq α] (f : α → β) (a : α) (b : β) : α → β := fun x => if x = a then b else f x

/-- One goroutine performs its next action.  A mutex can be locked only when nobody holds it; unlocking one that nobody holds crashes the process, which is why
nothing follows (`Crash`). -/
inductive Step : Nat → State → State → Prop
  | lock {g m as σ} : σ.rest g = .lock m :: as → σ.owner m = none → Step g σ ⟨upd σ.rest g as, upd σ.owner m (some g)⟩
  | unlock {g m as σ} : σ.rest g = .unlock m :: as → σ.owner m ≠ none → Step g σ ⟨upd σ.rest g as, upd σ.owner m none⟩
  | touch {g m as σ} : σ.rest g = .touch m :: as → Step g σ ⟨upd σ.rest g as, σ.owner⟩
  | ext {g as σ} : σ.rest g = .ext :: as → Step g σ ⟨upd σ.rest g as, σ.owner⟩
  | block {g as σ} : σ.rest g = .block :: as → Step g σ ⟨upd σ.rest g as, σ.owner⟩

/-- The states which any goroutines can reach: `tasks` says what each of them does, `mon` is what the server's monitor function does. -/
inductive Reach (mon : Prog) (tasks : Nat → Task) : State → Prop
  | init (rest : Nat → List Act) : (∀ g, ∃ b, Run (taskBody mon (tasks g)) b (rest g)) → Reach mon tasks ⟨rest, fun _ => none⟩
  | step {σ σ' g} : Reach mon tasks σ → Step g σ σ' → Reach mon tasks σ'

/-- Steps of one goroutine only. -/
inductive Steps (g : Nat) : State → State → Prop
  | refl σ : Steps g σ σ
  | step {σ σ' σ''} : Step g σ σ' → Steps g σ' σ'' → Steps g σ σ''

end Gate.Locks
