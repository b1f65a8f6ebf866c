import Verif.Services
import Verif.Auth

/-!
# Starting the configured services

Model of service/extension.go, service/grpc/config/config.go, service/grpc/executable/executable.go and
internal/services/services.go: what extensions and gRPC service programs are started and connected to, what their
configurations are, and which services the instances get.

Simplifications: the white space of `strings.Fields` is the ASCII one; an extension's `Init` registers some services
(which are given by its description) and may fail; a gRPC connection offers some services.
-/

namespace Gate.SvcStart
open Gate.Auth (str)
open Gate.Services (Factory Node Categories register find)

/-! ### Extensions -/

/-- service/extension.go:13-17 `Extension`. `config` is `none` if there is nothing to configure
(`zeroconf`, 19-26). -/
structure Ext where
  name : Bytes
  config : Option Nat
  services : List Factory
  fails : Bool

/-- A Go map as a list with the newest entry first. -/
abbrev Map := List (Bytes × Nat)
def get (m : Map) (k : Bytes) : Option Nat := (m.find? fun e => e.1 == k).map (·.2)
def set (m : Map) (k : Bytes) (v : Nat) : Map := (k, v) :: m
def delete (m : Map) (k : Bytes) : Map := m.filter fun e => e.1 != k

/-- extension.go:50-59: the loop of `Config`, with the map and the duplicates. -/
def configLoop : List Ext → Map → List Bytes → Map × List Bytes
  | [], m, dupes => (m, dupes)
  | e :: es, m, dupes =>
    match e.config with
    | none => configLoop es m dupes
    | some c =>
      if (get m e.name).isSome then configLoop es m (dupes ++ [e.name])
      else configLoop es (set m e.name c) dupes

/-- extension.go:46-66 `Config`. -/
def config (es : List Ext) : Map :=
  let (m, dupes) := configLoop es [] []
  dupes.foldl delete m

/-- servercmd.go:185-188 and daemoncmd.go:128-133: the programs add the configurations of the gRPC services and of the
origin service. -/
def programConfig (es : List Ext) (grpc origin : Nat) : Map :=
  set (set (config es) (str "grpc") grpc) (str "origin") origin

/-- A registry's services are registered one by one until an error: extension inits and `Conn.Register`
(grpc.go:130-138). -/
def registerAll (cat : Categories) : Node → List Factory → Res Node
  | n, [] => .ok n
  | n, f :: fs =>
    match register cat n f false with
    | .ok n' => registerAll cat n' fs
    | .err e => .err e
    | .panic => .panic

/-- extension.go:69-76 `Init`. -/
def initExts (cat : Categories) : Node → List Ext → Res Node
  | n, [] => .ok n
  | n, e :: es =>
    match registerAll cat n e.services with
    | .ok n' => if e.fails then .err "extension" else initExts cat n' es
    | r => r

/-! ### Configuration of gRPC services -/

def isSpace (c : UInt8) : Bool := c == 9 || c == 10 || c == 11 || c == 12 || c == 13 || c == 32

/-- `strings.Fields`. -/
def fieldsAux : Bytes → Bytes → List Bytes
  | [], acc => if acc = [] then [] else [acc]
  | c :: cs, acc =>
    if isSpace c then (if acc = [] then fieldsAux cs [] else acc :: fieldsAux cs []) else fieldsAux cs (acc ++ [c])
def fields (b : Bytes) : List Bytes := fieldsAux b []

/-- config.go:64-69: the program's path and its arguments (including the command name). `none` is an index out of range
panic. (The first field isn't empty, so `path[0]` is there.) -/
def parseCommand (command : Bytes) : Option (Bytes × List Bytes) :=
  match fields command with
  | [] => none
  | a :: as => if a.head? = some 64 then some (a.drop 1, as) else some (a, a :: as)

/-- config.go:85-98: dial options. -/
structure Options where
  insecure : Bool
  optional : Bool
deriving DecidableEq

def parseOptions : List Bytes → Options → Option Options
  | [], o => some o
  | s :: ss, o =>
    if s = str "insecure" then parseOptions ss { o with insecure := true }
    else if s = str "optional" then parseOptions ss { o with optional := true }
    else none

/-- A connection: what it was made of, and its services. -/
structure Conn where
  /-- path or address -/
  peer : Bytes
  /-- the arguments of a program; `none` for a target -/
  args : Option (List Bytes)
  insecure : Bool
  services : List Factory
deriving DecidableEq

/-- How an attempt ends: the services of the connected peer, or an error. -/
inductive Reply where
  | services (l : List Factory)
  | fails
deriving DecidableEq

inductive Ev where
  | opened (c : Conn)
  | closed (c : Conn)
  /-- config.go:103 -/
  | logged
deriving DecidableEq

inductive Outcome where
  | ok
  | err
  | panic
deriving DecidableEq

/-- The outside: what starting a program and dialing a target lead to. -/
structure World where
  execute : Bytes → List Bytes → Reply
  dial : Bytes → Bool → Reply

/-- config.go:63-77: the commands. The list is the variable `conns`. A program with an empty argument list is
started, and its index out of range is at executable.go:71 (`args[0]`): the panic terminates the process, but nobody closes the
gRPC connection. -/
def initCommands (w : World) : List Bytes → List Conn → List Ev × List Conn × Outcome
  | [], conns => ([], conns, .ok)
  | command :: rest, conns =>
    match parseCommand command with
    | none => ([], conns, .panic)
    | some (path, args) =>
      match w.execute path args with
      | .fails => ([], conns, .err)
      | .services l =>
        if args = [] then ([.opened ⟨path, some args, true, l⟩], conns, .panic)
        else
          let r := initCommands w rest (conns ++ [⟨path, some args, true, l⟩])
          (.opened ⟨path, some args, true, l⟩ :: r.1, r.2)

/-- config.go:79-110: the targets. -/
def initTargets (w : World) : List Bytes → List Conn → List Ev × List Conn × Outcome
  | [], conns => ([], conns, .ok)
  | target :: rest, conns =>
    match fields target with
    | [] => ([], conns, .panic)
    | addr :: opts =>
      match parseOptions opts ⟨false, false⟩ with
      | none => ([], conns, .err)
      | some o =>
        match w.dial addr o.insecure with
        | .fails =>
          if o.optional then
            let r := initTargets w rest conns
            (.logged :: r.1, r.2)
          else ([], conns, .err)
        | .services l =>
          let r := initTargets w rest (conns ++ [⟨addr, none, o.insecure, l⟩])
          (.opened ⟨addr, none, o.insecure, l⟩ :: r.1, r.2)

/-- The deferred function (config.go:57-61) closes the connections which are in the variable `conns`; it's empty
(112-113) if everything succeeded, and they are in `conf.conns` then. -/
def finish (evs : List Ev) (conns : List Conn) : Outcome → List Ev × List Conn × Outcome
  | .ok => (evs, conns, .ok)
  | o => (evs ++ conns.map .closed, [], o)

/-- config.go:55-115 `Conf.Init`: the events, `conf.conns`, and the outcome. -/
def init (w : World) (commands targets : List Bytes) : List Ev × List Conn × Outcome :=
  let r := initCommands w commands []
  match r.2.2 with
  | .ok =>
    let r' := initTargets w targets r.2.1
    finish (r.1 ++ r'.1) r'.2.1 r'.2.2
  | o => finish r.1 r.2.1 o

/-- config.go:128-135 `Conf.Close`: the connections which get closed, and the remaining ones. The result is the first error. -/
def close (conns : List Conn) (errs : Conn → Option Nat) : List Ev × List Conn × Option Nat :=
  (conns.map .closed, [], conns.findSome? errs)

/-- services.go:20-46 `Init`: extensions first, then gRPC services. `none` in the place of the registry is an error. -/
def start (cat : Categories) (w : World) (es : List Ext) (commands targets : List Bytes) : List Ev × Res Node :=
  match initExts cat ⟨[], none⟩ es with
  | .ok n =>
    match init w commands targets with
    | (evs, conns, .ok) => (evs, registerAll cat n (conns.flatMap (·.services)))
    | (evs, _, .err) => (evs, .err "grpc")
    | (evs, _, .panic) => (evs, .panic)
  | .err e => ([], .err e)
  | .panic => ([], .panic)

/-- services.go:34-43: the registry of an instance. `MustRegister` replaces, and panics if a name is invalid. -/
def instanceLookup (root : Node) (builtins : List Factory) (name : Bytes) : Option Factory :=
  match find name ((builtins.map fun f => (f.name, f)).reverse) with
  | some f => some f
  | none => find name root.factories

/-! ### Executed programs -/

/-- The steps of `Execute` (executable.go:32-81) which may fail. -/
inductive Step where
  | sockets | stderr | process | dial
deriving DecidableEq

inductive Use where
  | acquire (s : Step)
  | release (s : Step)
deriving DecidableEq

/-- executable.go:32-81 `Execute` with the step which fails, if any: resources used, in order. The sockets are closed in any
case (the process and the connection have their own copies). The released process is sent SIGTERM and waited for. On success the
stderr pipe belongs to the goroutine, and the process and the connection to the caller. -/
def execute (fails : Option Step) (args : List Bytes) : List Use × Res Unit :=
  match fails with
  | some .sockets => ([], .err "sockets")
  | some .stderr => ([.acquire .sockets, .release .sockets], .err "stderr")
  | some .process => ([.acquire .sockets, .acquire .stderr, .release .stderr, .release .sockets], .err "start")
  | some .dial =>
    ([.acquire .sockets, .acquire .stderr, .acquire .process, .release .process, .release .stderr, .release .sockets], .err "dial")
  | none =>
    if args = [] then
      ([.acquire .sockets, .acquire .stderr, .acquire .process, .acquire .dial, .release .process, .release .stderr,
        .release .sockets], .panic)
    else ([.acquire .sockets, .acquire .stderr, .acquire .process, .acquire .dial, .release .sockets], .ok ())

/-- How a program behaves: it exits when its connection is closed, or when it's terminated. -/
structure Program where
  onEOF : Bool
  onTerm : Bool

/-- executable.go:84-96 `Conn.Close`: whether it returns. The signal is sent only if closing the connection fails. A context
which gets done terminates the program, too (`terminateWhenDone`, 123-126). -/
def closeReturns (p : Program) (closeFails ctxDone : Bool) : Bool :=
  p.onEOF || ((closeFails || ctxDone) && p.onTerm)

/-- Result of `Conn.Close` (88-95). -/
def closeResult (errClose errWait : Option Nat) : Option Nat :=
  match errClose with
  | some e => some e
  | none => errWait

/-- executable.go:108-121 `logErrorOutput`: the lines of what could be read. -/
def logLines : Bytes → Bytes → List Bytes
  | [], _ => []
  | c :: cs, acc => if c = 10 then (acc ++ [10]) :: logLines cs [] else logLines cs (acc ++ [c])

/-- State of the stderr pipe: what was written and not read, what was read, and whether it was closed by `cmd.Wait`
(which closes the pipe after seeing the command exit). -/
structure Pipe where
  unread : Bytes
  got : Bytes
  exited : Bool
  closed : Bool

/-- A step of the program, of the reading goroutine or of Close; the second argument is what the program writes. -/
inductive PStep : Pipe → Bytes → Pipe → Prop
  | write (s : Pipe) (b : Bytes) (h : s.exited = false) : PStep s b { s with unread := s.unread ++ b }
  | read (s : Pipe) (a b : Bytes) (h : s.unread = a ++ b) (hc : s.closed = false) :
    PStep s [] { s with unread := b, got := s.got ++ a }
  | exit (s : Pipe) : PStep s [] { s with exited := true }
  /-- `cmd.Wait`, called by Close before it waits for the goroutine (88-89) -/
  | wait (s : Pipe) (h : s.exited = true) : PStep s [] { s with closed := true }

/-- The states after the program has written the given bytes. -/
inductive PReach : Pipe → Bytes → Prop
  | init : PReach ⟨[], [], false, false⟩ []
  | step {s t w b} : PReach s w → PStep s b t → PReach t (w ++ b)

end Gate.SvcStart
