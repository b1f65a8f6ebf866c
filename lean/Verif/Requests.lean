import Verif.Base
/-
C138-C141: how the server's API functions use their resources.  server/server.go:204-1437 (every method of Server which is called
with a context), program.go:52-170 and 193-254, upload.go, source.go:13-20, instance.go:93-234, 310-462 and 679-708 with respect to the
order of checks, effects, events, and acquiring, passing on and releasing of resources.

Each function is a program of the small language below, which has Go's deferred calls and panics.  What the checks look at is not
modelled: each of them may fail or not, at every execution (an oracle decides).  Conditions which different places of a function depend on
are in the configuration `Cfg`.  The mutexes' critical sections are not modelled here (but in Server.lean and Lifecycle.lean).
-/

namespace Gate.Requests

/-- Variables which hold a resource: function parameters and local variables, or fields of the instance (`i...`). -/
inductive Var where
  /-- ModuleUpload.Stream; `content` in _buildProgram. -/
  | stream | content
  /-- InvokeOptions.DebugLog. -/
  | log
  /-- `b` in _buildProgram and _rebuildProgramImage. -/
  | build
  | progImage
  /-- `prog` of the API function, and of the functions it is passed to: _registerProgramRef, _registerProgramRefInstance (`prog1`, and its
  result `canonicalProg`), _runOrDeleteInstance (`prog2`). -/
  | prog | prog1 | canonicalProg | prog2
  | instImage | instImage1
  | proc | services | proc1 | services1
  /-- `newImage` and `newProg` in _snapshot. -/
  | newImage | newProg
  /-- Fields of the instance: image, process, services, debugLog, altProgImage. -/
  | iImage | iProc | iServ | iLog | iAlt
deriving DecidableEq, Repr

/-- Fields of the instance, which it has until it is deleted. -/
def Var.field : Var → Bool
  | .iImage | .iProc | .iServ | .iLog | .iAlt => true
  | _ => false

/-- The variable's number. -/
def Var.code : Var → Nat
  | .stream => 0 | .content => 1 | .log => 2 | .build => 3 | .progImage => 4 | .prog => 5 | .prog1 => 6 | .canonicalProg => 7 | .prog2 => 8
  | .instImage => 9 | .instImage1 => 10 | .proc => 11 | .services => 12 | .proc1 => 13 | .services1 => 14 | .newImage => 15 | .newProg => 16
  | .iImage => 17 | .iProc => 18 | .iServ => 19 | .iLog => 20 | .iAlt => 21

/-- What can fail. -/
inductive Chk where
  | policy | anonymous | options | size | sizeMismatch | content | hash | closed | exists_ | status | duplicate | resolve | image | build
  | source | noServices | process | storeProgram | storeInstance | start | debug | conflict
  /-- Not an error: whether there is a change. -/
  | pinModified | modified
deriving DecidableEq, Repr

/-- Changes of state which outlive the request. -/
inductive Eff where
  | account | storeProgram | register | pin | unpin | newInstance | storeInstance | start | kill | suspend | resume | delete | update | reconfigure | serve
deriving DecidableEq, Repr

inductive Ev where
  | uploadNew | uploadExist | sourceNew | sourceExist | modulePin | moduleUnpin | moduleInfo | moduleList | moduleDownload
  | createKnown | createStream | connectFail | instanceInfo | instanceWait | instanceKill | instanceSuspend | instanceResume | instanceDelete
  | instanceSnapshot | instanceUpdate | instanceDebug | instanceList | instanceStop
deriving DecidableEq, Repr

/-- What is observed. -/
inductive Log where
  | passed (c : Chk)
  | failed (c : Chk)
  | opened (h : Nat)
  | closed (h : Nat)
  /-- Handed over to the server's data structures or to another goroutine. -/
  | given (h : Nat)
  | eff (e : Eff)
  | ev (e : Ev)
deriving DecidableEq, Repr

inductive Out where
  | ret
  /-- An error, which asError (server.go:1420-1437) turns into a return value. -/
  | err
  /-- A panic which isn't an error, or is a run-time error: asError panics again. -/
  | crash
deriving DecidableEq, Repr

inductive Cmd where
  /-- Acquire a resource, to a variable. -/
  | open_ (v : Var)
  /-- Release what the variable holds, if anything, and clear it. -/
  | close (v : Var)
  /-- Pass on what the variable holds. -/
  | give (v : Var)
  /-- Parameter passing. -/
  | copy (v w : Var)
  | move (v w : Var)
  /-- Assign nil. -/
  | clear (v : Var)
  /-- Defer the closing of what the variable will hold then. -/
  | defer_ (v : Var)
  /-- The instance is dropped: its fields can't be accessed any more. -/
  | forget
  | eff (e : Eff)
  | ev (e : Ev)
deriving DecidableEq, Repr

inductive P where
  | ret
  | err
  | crash
  | seq (c : Cmd) (k : P)
  /-- A check: what is done if it fails, and if it doesn't. -/
  | check (c : Chk) (fail : P) (k : P)
  /-- A call of a function, with deferred calls of its own. -/
  | call (f : P) (k : P)
  /-- A call of a function which is followed by something in any case. -/
  | attempt (f : P) (k : Out → P)

structure St where
  /-- The number of checks made. -/
  checks : Nat := 0
  next : Nat := 0
  /-- The variables which hold something. -/
  env : List (Var × Nat) := []
  /-- The last one is the first one. -/
  log : List Log := []
deriving DecidableEq, Repr

/-- What the variable holds. -/
def get (env : List (Var × Nat)) (v : Var) : Option Nat := look env
where
  look : List (Var × Nat) → Option Nat
  | [] => none
  | e :: l => if e.1.code.beq v.code then some e.2 else look l

/-- Assignment. -/
def set (env : List (Var × Nat)) (v : Var) (x : Option Nat) : List (Var × Nat) :=
  match x with
  | none => remove env
  | some h => (v, h) :: remove env
where
  remove : List (Var × Nat) → List (Var × Nat)
  | [] => []
  | e :: l => if e.1.code.beq v.code then remove l else e :: remove l

/-- Something happens. -/
def St.say (s : St) (l : Log) : St := { s with log := l :: s.log }

/-- The close functions, server.go:1374-1408, 1080-1088: nothing if the variable is nil. -/
def doClose (s : St) (v : Var) : St :=
  match get s.env v with
  | some h => { s with env := set s.env v none, log := .closed h :: s.log }
  | none => s

/-- The execution of a command. -/
def exec (s : St) : Cmd → St
  | .open_ v => { s with next := s.next + 1, env := set s.env v (some s.next), log := .opened s.next :: s.log }
  | .close v => doClose s v
  | .give v => match get s.env v with
    | some h => { s with env := set s.env v none, log := .given h :: s.log }
    | none => s
  | .copy v w => { s with env := set s.env w (get s.env v) }
  | .move v w => { s with env := set (set s.env w (get s.env v)) v none }
  | .clear v => { s with env := set s.env v none }
  | .defer_ _ => s
  | .forget => { s with env := s.env.filter fun e => !e.1.field }
  | .eff e => s.say (.eff e)
  | .ev e => s.say (.ev e)

/-- The deferred calls, the last one first. -/
def unwind (s : St) (ds : List Var) : St := ds.foldl doClose s

/-- An execution: `o n` tells whether the n-th check fails, `ds` are the function's deferred calls. -/
def run (o : Nat → Bool) : P → List Var → St → St × Out
  | .ret, ds, s => (unwind s ds, .ret)
  | .err, ds, s => (unwind s ds, .err)
  | .crash, ds, s => (unwind s ds, .crash)
  | .seq (.defer_ v) k, ds, s => run o k (v :: ds) s
  | .seq c k, ds, s => run o k ds (exec s c)
  | .check c f k, ds, s =>
    if o s.checks then run o f ds ({ s with checks := s.checks + 1 }.say (.failed c))
    else run o k ds ({ s with checks := s.checks + 1 }.say (.passed c))
  | .call f k, ds, s =>
    match run o f [] s with
    | (s', .ret) => run o k ds s'
    | (s', out) => (unwind s' ds, out)
  | .attempt f k, ds, s =>
    let r := run o f [] s
    run o (k r.2) ds r.1

/-! ### The functions -/

structure Cfg where
  anonymous : Bool := false
  pin : Bool := false
  transient : Bool := false
  suspend : Bool := false
  /-- The instance is to be only inspected (the snapshot's flag). -/
  final : Bool := false
  /-- There's a hash with the upload. -/
  hash : Bool := true
  /-- The module exists on the server when the request comes. -/
  known : Bool := false
  /-- The module exists on the server when it has been compiled. -/
  redundant : Bool := false
  /-- There's something to connect to. -/
  connectable : Bool := true
  /-- The instance is running; it becomes suspended when it's told to. -/
  running : Bool := false
  suspends : Bool := true
  /-- The configuration is changed; the original program will do again. -/
  modified : Bool := true
  original : Bool := false
  /-- There's a debug log with the request; the instance was created suspended, with a debug log; the instance has been rebuilt. -/
  withLog : Bool := false
  oldLog : Bool := false
  alt : Bool := false
deriving DecidableEq, Repr

/-- A check which panics with an error (`_check`, server.go:1410-1414). -/
def must (c : Chk) (k : P) : P := .check c .err k
/-- Something which is done only if the check passes. -/
def onlyIf (c : Chk) (x : Cmd) (k : P) : P := .check c k (.seq x k)
/-- A conditional part. -/
def when_ (b : Bool) (c : P → P) (k : P) : P := if b then c k else k
infixr:60 " ;; " => P.seq

/-- _ensureStorage, program.go:180-191 (the flag is not modelled: the program may be stored more than once). -/
def ensureStorage (k : P) : P := must .storeProgram (.eff .storeProgram ;; k)

/-- upload.go:27-39. -/
def validate (k : P) : P := must .content (.close .stream ;; must .content (must .hash k))

/-- _buildProgram, program.go:67-137. The checks of the compilation (84-114) are taken together. -/
def buildProgram (inst : Bool) (c : Cfg) : P :=
  .move .stream .content ;; .defer_ .content ;;
  must .build (.open_ .build ;; .defer_ .build ;;
  must .content (
  .close .content ;; must .content (
  when_ c.hash (must .hash) (
  must .image (.open_ .progImage ;; .defer_ .progImage ;;
  when_ inst (fun k => must .image (.open_ .instImage ;; k)) (
  .give .progImage ;; .open_ .prog ;; .ret))))))

/-- _mergeProgramRef, server.go:1332-1353: steals `prog1`. -/
def merge (c : Cfg) (k : P) : P :=
  if c.known || c.redundant then .close .prog1 ;; k
  else must .closed (.give .prog1 ;; .eff .register ;; k)

/-- ensureProgramRef (account.go:55-69) and the event, server.go:1117-1124. -/
def pinEv (k : P) : P := .eff .pin ;; onlyIf .pinModified (.ev .modulePin) k

/-- _registerProgramRef, server.go:1092-1127, with the argument `v`. -/
def registerProgramRef (v : Var) (c : Cfg) : P :=
  .copy v .prog1 ;;
  when_ c.pin (fun k => if c.anonymous then must .anonymous .err else ensureStorage k) (
  merge c (
  when_ c.pin (pinEv) .ret))

/-- _loadKnownModule, server.go:252-277, for a module which was found. -/
def loadKnownModule (c : Cfg) : P :=
  must .sizeMismatch (.open_ .prog ;; .defer_ .prog ;;
  validate (must .size (
  .call (registerProgramRef .prog c) (
  .clear .prog ;; .ev .uploadExist ;; .ret))))

/-- _loadUnknownModule, server.go:279-302. -/
def loadUnknownModule (c : Cfg) : P :=
  .call (buildProgram false c) (
  .defer_ .prog ;;
  .call (registerProgramRef .prog c) (
  .clear .prog ;; (if c.redundant then .ev .uploadExist else .ev .uploadNew) ;; .ret))

/-- server.go:204-222. -/
def uploadModule (c : Cfg) : P :=
  must .policy (must .size (
  if c.hash && c.known then .call (loadKnownModule c) .ret else .call (loadUnknownModule { c with known := false }) .ret))

/-- server.go:224-250. -/
def sourceModule (c : Cfg) : P :=
  must .policy (must .source (.open_ .stream ;; .defer_ .stream ;;
  .call (loadUnknownModule { c with known := false, hash := false }) .ret))

/-- _allocateInstanceResources, server.go:1219-1237; the results are assigned to `proc1` and `services1`. -/
def allocate : P :=
  must .noServices (.open_ .services ;; .defer_ .services ;;
  must .process (.open_ .proc1 ;; .move .services .services1 ;; .ret))

/-- _checkAccountInstanceID, server.go:1129-1153. (If there's no id, then it isn't checked, which is the same as it being all right.) -/
def checkAccount (c : Cfg) (k : P) : P :=
  must .options (
  if c.anonymous then k else must .closed (.eff .account ;; must .duplicate k))

/-- _registerProgramRefInstance, server.go:1242-1310, with newInstance (instance.go:129-145). -/
def registerInstance (c : Cfg) : P :=
  .copy .prog .prog1 ;; .copy .instImage .instImage1 ;;
  when_ (!c.suspend && !c.final) (fun k => .call allocate (.defer_ .services1 ;; .defer_ .proc1 ;; k)) (
  when_ (c.pin || !c.transient) (fun k => if c.anonymous then must .anonymous .err else ensureStorage k) (
  when_ (!c.anonymous) (fun k => must .closed (must .duplicate k)) (
  merge c (
  .move .instImage1 .iImage ;; .move .proc1 .iProc ;; .move .services1 .iServ ;; .move .log .iLog ;;
  when_ (!c.anonymous && c.pin) (pinEv) (
  .eff .newInstance ;; .open_ .canonicalProg ;; .ret)))))

/-- startOrAnnihilate, instance.go:151-211, and _runOrDeleteInstance, server.go:1156-1170. -/
def runOrDelete (c : Cfg) : P :=
  .copy .prog .prog2 ;; .defer_ .prog2 ;;
  (if c.suspend || c.final then
    if c.anonymous then .crash  -- inst.acc.ID (instance.go:148)
    else .check .storeInstance (.forget ;; .eff .delete ;; .err) (.eff .storeInstance ;; .ret)
  else .check .start
    (.close .iProc ;; .close .iServ ;; .close .iLog ;; .close .iImage ;; .forget ;; .eff .delete ;; .err)
    (.eff .start ;; .give .prog2 ;; .ret))

/-- server.go:304-353. -/
def newInstance (c : Cfg) : P :=
  must .options (
  must .policy (
  if c.anonymous then must .options (must .anonymous .err) else
  checkAccount c (
  must .exists_ (.open_ .prog ;; .defer_ .prog ;;
  must .resolve (
  must .image (.open_ .instImage ;; .defer_ .instImage ;;
  .call (registerInstance { c with pin := false, known := true }) (
  .move .canonicalProg .prog ;; .clear .instImage ;;
  .call (runOrDelete c) (
  .clear .prog ;; .ev .createKnown ;; .ret))))))))

/-- _loadKnownModuleInstance, server.go:421-464, for a module which was found. -/
def loadKnownModuleInstance (c : Cfg) : P :=
  must .sizeMismatch (.open_ .prog ;; .defer_ .prog ;;
  validate (must .size (must .resolve (
  must .image (.open_ .instImage ;; .defer_ .instImage ;;
  .call (registerInstance c) (
  .move .canonicalProg .prog ;; .clear .instImage ;; .ev .uploadExist ;;
  .call (runOrDelete c) (
  .clear .prog ;; .ev .createKnown ;; .ret)))))))

/-- _loadUnknownModuleInstance, server.go:466-514. -/
def loadUnknownModuleInstance (c : Cfg) : P :=
  .call (buildProgram true c) (
  .defer_ .instImage ;; .defer_ .prog ;;
  .call (registerInstance c) (
  .move .canonicalProg .prog ;; .clear .instImage ;;
  (if c.hash then (if c.redundant then .ev .uploadExist else .ev .uploadNew) else (if c.redundant then .ev .sourceExist else .ev .sourceNew)) ;;
  .call (runOrDelete c) (
  .clear .prog ;; .ev .createStream ;; .ret)))

/-- _loadModuleInstance, server.go:402-419. -/
def loadModuleInstance (c : Cfg) : P :=
  must .size (
  if c.hash && c.known then .call (loadKnownModuleInstance c) .ret else .call (loadUnknownModuleInstance { c with known := false }) .ret)

/-- server.go:355-367. -/
def uploadModuleInstance (c : Cfg) : P :=
  must .options (must .policy (checkAccount c (.call (loadModuleInstance c) .ret)))

/-- server.go:369-400. -/
def sourceModuleInstance (c : Cfg) : P :=
  must .options (must .policy (checkAccount c (
  must .source (.open_ .stream ;; .defer_ .stream ;;
  .call (loadModuleInstance { c with hash := false, known := false }) .ret))))

/-- server.go:507 etc. -/
def ident (c : Cfg) (k : P) : P := if c.anonymous then must .anonymous .err else k

/-- server.go:516-556. -/
def moduleInfo (c : Cfg) : P := must .policy (ident c (must .exists_ (.ev .moduleInfo ;; .ret)))
/-- server.go:558-594. -/
def modules (c : Cfg) : P := must .policy (ident c (.ev .moduleList ;; .ret))
/-- server.go:596-672 and web/handler.go:824-843: the handler closes the content. -/
def moduleContent (c : Cfg) : P :=
  .call (must .policy (ident c (must .exists_ (.open_ .prog ;; .ret)))) (.ev .moduleDownload ;; .close .prog ;; .ret)
/-- server.go:643-696. -/
def pinModule (c : Cfg) : P :=
  if !c.pin then .crash else
  must .policy (ident c (must .closed (must .exists_ (.eff .pin ;; onlyIf .pinModified (.ev .modulePin) .ret))))
/-- server.go:698-733. -/
def unpinModule (c : Cfg) : P := must .policy (ident c (must .exists_ (.eff .unpin ;; .ev .moduleUnpin ;; .ret)))

/-- server.go:1179-1217 without a reference. -/
def getInstance (c : Cfg) (k : P) : P := ident c (must .exists_ k)

/-- server.go:737-771 (the connecting itself is not included). -/
def instanceConnection (c : Cfg) : P :=
  must .policy (getInstance c (if c.connectable then .ret else .ev .connectFail ;; .ret))
/-- server.go:773-791. -/
def instanceInfo (c : Cfg) : P := must .policy (getInstance c (must .exists_ (.ev .instanceInfo ;; .ret)))
/-- server.go:793-807. -/
def waitInstance (c : Cfg) : P := must .policy (getInstance c (.ev .instanceWait ;; .ret))
/-- server.go:809-823. -/
def killInstance (c : Cfg) : P := must .policy (getInstance c (.eff .kill ;; .ev .instanceKill ;; .ret))
/-- server.go:825-844. -/
def suspendInstance (c : Cfg) : P :=
  must .policy (getInstance c (.open_ .prog ;; .defer_ .prog ;; ensureStorage (.eff .suspend ;; .ev .instanceSuspend ;; .ret)))
/-- server.go:846-876 with instance.go:350-365. -/
def resumeInstance (c : Cfg) : P :=
  must .policy (getInstance c (.open_ .prog ;; .defer_ .prog ;; must .status (
  .call allocate (.defer_ .services1 ;; .defer_ .proc1 ;;
  must .status (
  .move .proc1 .iProc ;; .move .services1 .iServ ;; .move .log .iLog ;; .eff .resume ;;
  .call (runOrDelete { c with suspend := false, final := false, anonymous := false }) (
  .clear .prog ;; .ev .instanceResume ;; .ret))))))
/-- server.go:878-894 with instance.go:408-429. -/
def deleteInstance (c : Cfg) : P :=
  must .policy (getInstance c (must .status (.close .iImage ;; .forget ;; .eff .delete ;; .ev .instanceDelete ;; .ret)))
/-- _snapshot, server.go:923-957 with instance.go:388-406. The argument `know` has a pin. -/
def snapshotStopped (c : Cfg) : P :=
  must .policy (getInstance c (.open_ .prog ;; .defer_ .prog ;; must .status (must .image (.open_ .newImage ;; .defer_ .newImage ;;
  must .image (must .storeProgram (.eff .storeProgram ;;
  .give .newImage ;; .open_ .newProg ;; .defer_ .newProg ;;
  .call (registerProgramRef .newProg { c with known := false, pin := true }) (
  .clear .newProg ;; .ev .instanceSnapshot ;; .ret)))))))
/-- server.go:896-921. When a running instance is suspended, its own goroutine releases its process (instance.go:462-468); the instance
is taken to be a persistent one (see C78 for transient ones). -/
def snapshot (c : Cfg) : P :=
  if !c.pin then .crash else
  getInstance c (
  if c.running then
    .eff .suspend ;; .close .iProc ;; .close .iServ ;; .close .iLog ;;
    (if c.suspends then
      .attempt (snapshotStopped c) fun out =>
      .attempt (resumeInstance c) fun out' =>
      match out, out' with
      | .ret, .ret => .ret
      | .crash, _ | _, .crash => .crash
      | _, .err => .err
      | .err, .ret => .err
    else .call (snapshotStopped c) .ret)
  else .call (snapshotStopped c) .ret)
/-- server.go:959-984. -/
def updateInstance (c : Cfg) : P :=
  must .policy (getInstance c (.check .modified (must .exists_ .ret) (.eff .update ;; .ev .instanceUpdate ;; must .exists_ .ret)))
/-- _rebuildProgramImage, program.go:193-254. -/
def rebuildImage : P :=
  must .build (.open_ .build ;; .defer_ .build ;; must .content (must .image (.open_ .progImage ;; .ret)))
/-- server.go:986-1022 with instance.go:537-671 and 679-708. The operations which aren't implemented (C70) are left out. -/
def debugInstance (c : Cfg) : P :=
  must .policy (getInstance c (.open_ .prog ;; .defer_ .prog ;; must .debug (
  if c.modified then
    if c.original then .close .iAlt ;; .eff .reconfigure ;; .ev .instanceDebug ;; .ret
    else .call rebuildImage (.defer_ .progImage ;; must .conflict (
      .close .iAlt ;; .move .progImage .iAlt ;; .eff .reconfigure ;; .ev .instanceDebug ;; .ret))
  else .ev .instanceDebug ;; .ret)))
/-- server.go:1024-1062. -/
def instances (c : Cfg) : P := must .policy (ident c (.ev .instanceList ;; .ret))
/-- driveInstance, server.go:1173-1179, with instance.go:431-515: not a request, but the goroutine which one has started. -/
def drive (c : Cfg) : P :=
  .defer_ .prog2 ;;
  .eff .serve ;; .close .iProc ;; .close .iServ ;; .close .iLog ;; .ev .instanceStop ;;
  when_ c.transient (fun k => .close .iImage ;; .forget ;; .ev .instanceDelete ;; .eff .delete ;; k) .ret

/-! ### Requests -/

inductive Api where
  | uploadModule | sourceModule | newInstance | uploadModuleInstance | sourceModuleInstance | moduleInfo | modules | moduleContent | pinModule
  | unpinModule | instanceConnection | instanceInfo | waitInstance | killInstance | suspendInstance | resumeInstance | deleteInstance | snapshot
  | updateInstance | debugInstance | instances | drive
deriving DecidableEq, Repr

/-- The function of each request. -/
def body : Api → Cfg → P
  | .uploadModule => uploadModule
  | .sourceModule => sourceModule
  | .newInstance => newInstance
  | .uploadModuleInstance => uploadModuleInstance
  | .sourceModuleInstance => sourceModuleInstance
  | .moduleInfo => moduleInfo
  | .modules => modules
  | .moduleContent => moduleContent
  | .pinModule => pinModule
  | .unpinModule => unpinModule
  | .instanceConnection => instanceConnection
  | .instanceInfo => instanceInfo
  | .waitInstance => waitInstance
  | .killInstance => killInstance
  | .suspendInstance => suspendInstance
  | .resumeInstance => resumeInstance
  | .deleteInstance => deleteInstance
  | .snapshot => snapshot
  | .updateInstance => updateInstance
  | .debugInstance => debugInstance
  | .instances => instances
  | .drive => drive

/-- What the caller has made: the stream of an upload and the debug log of an invocation, which it closes unless they have been taken
(upload.go:13-19, source.go:13-20, instance.go:93-118; web/handler.go:849-850,919-920,1062-1063,1172-1173). -/
def callers : Api → Cfg → List Var
  | .uploadModule, _ => [.stream]
  | .uploadModuleInstance, c => .stream :: if c.withLog then [.log] else []
  | .newInstance, c | .sourceModuleInstance, c | .resumeInstance, c => if c.withLog then [.log] else []
  | _, _ => []

/-- What the instance has when the request comes. -/
def fields : Api → Cfg → List Var
  | .deleteInstance, c | .resumeInstance, c => .iImage :: ((if c.oldLog then [.iLog] else []) ++ (if c.alt then [.iAlt] else []))
  | .debugInstance, c | .suspendInstance, c | .killInstance, c | .updateInstance, c | .snapshot, c =>
    .iImage :: ((if c.running then [.iProc, .iServ] else []) ++ (if c.oldLog then [.iLog] else []) ++ (if c.alt then [.iAlt] else []))
  | .drive, c => .iImage :: .iProc :: .iServ :: .prog2 :: ((if c.oldLog then [.iLog] else []) ++ (if c.alt then [.iAlt] else []))
  | _, _ => []

/-- The state when the API function is called. -/
def initial (a : Api) (c : Cfg) : St := (callers a c ++ fields a c).foldl (fun s v => exec s (.open_ v)) {}

/-- The handling of a request: the function and the caller's deferred closings. -/
def request (o : Nat → Bool) (a : Api) (c : Cfg) : St × Out := run o (.call (body a c) .ret) (callers a c) (initial a c)

/-! ### Specification -/

/-- The number of times a resource has been released, passed on, or is held by an existing instance. -/
def uses (s : St) (h : Nat) : Nat :=
  s.log.count (.closed h) + s.log.count (.given h) + s.env.countP fun e => e.1.field && e.2 == h

/-- Every resource which has been acquired has been released or passed on once, or an instance has it. -/
def Balanced (s : St) : Prop := ∀ h, uses s h = if .opened h ∈ s.log then 1 else 0

/-- Something which a request does: a lasting change, an event, or acquiring of a resource (other than those which exist already). -/
def act (n : Nat) : Log → Bool
  | .eff _ | .ev _ => true
  | .opened h => decide (n ≤ h)
  | _ => false

/-- The events which the operation is to report when it succeeds, in order. (Whether a pin or an instance is modified depends on what it
was like: ModulePin and InstanceUpdate are not included.) -/
def report : Api → Cfg → List Ev
  | .uploadModule, c => [if (c.hash && c.known) || c.redundant then .uploadExist else .uploadNew]
  | .sourceModule, c => [if c.redundant then .uploadExist else .uploadNew]
  | .newInstance, _ => [.createKnown]
  | .uploadModuleInstance, c =>
    if c.hash && c.known then [.uploadExist, .createKnown]
    else if c.hash then [if c.redundant then .uploadExist else .uploadNew, .createStream]
    else [if c.redundant then .sourceExist else .sourceNew, .createStream]
  | .sourceModuleInstance, c => [if c.redundant then .sourceExist else .sourceNew, .createStream]
  | .moduleInfo, _ => [.moduleInfo]
  | .modules, _ => [.moduleList]
  | .moduleContent, _ => [.moduleDownload]
  | .pinModule, _ => []
  | .unpinModule, _ => [.moduleUnpin]
  | .instanceConnection, c => if c.connectable then [] else [.connectFail]
  | .instanceInfo, _ => [.instanceInfo]
  | .waitInstance, _ => [.instanceWait]
  | .killInstance, _ => [.instanceKill]
  | .suspendInstance, _ => [.instanceSuspend]
  | .resumeInstance, _ => [.instanceResume]
  | .deleteInstance, _ => [.instanceDelete]
  | .snapshot, c => if c.running && c.suspends then [.instanceSnapshot, .instanceResume] else [.instanceSnapshot]
  | .updateInstance, _ => []
  | .debugInstance, _ => [.instanceDebug]
  | .instances, _ => [.instanceList]
  | .drive, c => if c.transient then [.instanceStop, .instanceDelete] else [.instanceStop]

/-- The events which were reported, in order, without ModulePin and InstanceUpdate. -/
def events (s : St) : List Ev := (s.log.filterMap fun | .ev .modulePin => none | .ev .instanceUpdate => none | .ev e => some e | _ => none).reverse

/-- The lasting changes which the operation is to make when it succeeds, in order. (An update of an instance depends on what it was like; see
`update_effect`.) -/
def changes : Api → Cfg → List Eff
  | .uploadModule, c =>
    (if c.pin then [.storeProgram] else []) ++ (if (c.hash && c.known) || c.redundant then [] else [.register]) ++ (if c.pin then [.pin] else [])
  | .sourceModule, c => (if c.pin then [.storeProgram] else []) ++ (if c.redundant then [] else [.register]) ++ (if c.pin then [.pin] else [])
  | .newInstance, c => [.account] ++ (if c.transient then [] else [.storeProgram]) ++ [.newInstance, if c.suspend || c.final then .storeInstance else .start]
  | .uploadModuleInstance, c =>
    (if c.anonymous then [] else [.account]) ++ (if c.pin || !c.transient then [.storeProgram] else []) ++
    (if (c.hash && c.known) || c.redundant then [] else [.register]) ++ (if c.pin then [.pin] else []) ++
    [.newInstance, if c.suspend || c.final then .storeInstance else .start]
  | .sourceModuleInstance, c =>
    (if c.anonymous then [] else [.account]) ++ (if c.pin || !c.transient then [.storeProgram] else []) ++
    (if c.redundant then [] else [.register]) ++ (if c.pin then [.pin] else []) ++ [.newInstance, if c.suspend || c.final then .storeInstance else .start]
  | .moduleInfo, _ | .modules, _ | .moduleContent, _ | .instanceConnection, _ | .instanceInfo, _ | .waitInstance, _ | .instances, _ => []
  | .pinModule, _ => [.pin]
  | .unpinModule, _ => [.unpin]
  | .killInstance, _ => [.kill]
  | .suspendInstance, _ => [.storeProgram, .suspend]
  | .resumeInstance, _ => [.resume, .start]
  | .deleteInstance, _ => [.delete]
  | .snapshot, c =>
    (if c.running then [.suspend] else []) ++ [.storeProgram, .storeProgram] ++ (if c.redundant then [] else [.register]) ++ [.pin] ++
    (if c.running && c.suspends then [.resume, .start] else [])
  | .updateInstance, _ => []
  | .debugInstance, c => if c.modified then [.reconfigure] else []
  | .drive, c => if c.transient then [.serve, .delete] else [.serve]

/-- The changes which were made, in order, without updates of instances. -/
def effects (s : St) : List Eff := (s.log.filterMap fun | .eff .update => none | .eff e => some e | _ => none).reverse

/-- How many resources a successful request passes on: a new program gets its image, the server gets a new program, and the goroutine which
drives the instance gets the program's reference. -/
def handed : Api → Cfg → Nat
  | .uploadModule, c => if c.hash && c.known then 0 else if c.redundant then 1 else 2
  | .sourceModule, c => if c.redundant then 1 else 2
  | .newInstance, c => if c.suspend || c.final then 0 else 1
  | .uploadModuleInstance, c => (if c.hash && c.known then 0 else if c.redundant then 1 else 2) + if c.suspend || c.final then 0 else 1
  | .sourceModuleInstance, c => (if c.redundant then 1 else 2) + if c.suspend || c.final then 0 else 1
  | .resumeInstance, _ => 1
  | .snapshot, c => (if c.redundant then 1 else 2) + if c.running && c.suspends then 1 else 0
  | _, _ => 0

/-! ### All executions -/

/-- All possible results: every check fails and doesn't. -/
def outcomes : P → List Var → St → List (St × Out)
  | .ret, ds, s => [(unwind s ds, .ret)]
  | .err, ds, s => [(unwind s ds, .err)]
  | .crash, ds, s => [(unwind s ds, .crash)]
  | .seq (.defer_ v) k, ds, s => outcomes k (v :: ds) s
  | .seq c k, ds, s => outcomes k ds (exec s c)
  | .check c f k, ds, s =>
    outcomes f ds ({ s with checks := s.checks + 1 }.say (.failed c)) ++ outcomes k ds ({ s with checks := s.checks + 1 }.say (.passed c))
  | .call f k, ds, s =>
    (outcomes f [] s).flatMap fun r => if r.2 = .ret then outcomes k ds r.1 else [(unwind r.1 ds, r.2)]
  | .attempt f k, ds, s => (outcomes f [] s).flatMap fun r => outcomes (k r.2) ds r.1

end Gate.Requests
