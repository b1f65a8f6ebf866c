import Verif.Accept
import Verif.WebRoute

/-!
# Starting and stopping the gate-server program

Model of cmd/gate-server/main/servercmd.go: `main2` (251-508), which makes the server of its configuration, and the HTTP
handlers around the web API (510-583). `net.SplitHostPort` and the rooted case of `path.Join` are those of Go 1.16.

Simplifications: what the operating system and the other packages answer is given by `Env`; reading of the configuration
(Main, 157-249) isn't modelled; contents of the access keys, certificates and access logging aren't modelled; the web
API handler is the one of `WebRoute`.
-/

namespace Gate.Startup
open Gate.Auth (str)

/-! ### net.SplitHostPort -/

/-- The bytes before the last colon and those after it. -/
def cutLast : Bytes → Option (Bytes × Bytes)
  | [] => none
  | c :: cs =>
    match cutLast cs with
    | some (h, p) => some (c :: h, p)
    | none => if c = 58 then some ([], cs) else none

/-- net.SplitHostPort: the host; `none` is an error. A bracketed host ends at the first `]`, which the last colon must
follow. -/
def splitHost (s : Bytes) : Option Bytes :=
  match cutLast s with
  | none => none  -- missing port
  | some (h, _) =>
    if s.head? = some 91 then
      let inner := (s.drop 1).takeWhile (· ≠ 93)
      let rest := (s.drop 1).dropWhile (· ≠ 93)
      if rest = [] then none  -- missing ']'
      else if h.length ≠ inner.length + 2 then none  -- missing port, too many colons
      else if (s.drop 1).contains 91 then none
      else if (s.drop (inner.length + 2)).contains 93 then none
      else some inner
    else if h.contains 58 then none  -- too many colons
    else if s.contains 91 then none
    else if s.contains 93 then none
    else some h

/-! ### path.Join("/", name) -/

/-- `strings.Split(s, "/")`. -/
def components : Bytes → List Bytes
  | [] => [[]]
  | c :: cs =>
    if c = 47 then [] :: components cs
    else match components cs with
      | [] => [[c]]
      | d :: ds => (c :: d) :: ds

/-- path.Clean of a rooted path: `up` are the components so far, the last one first. -/
def clean : List Bytes → List Bytes → List Bytes
  | up, [] => up.reverse
  | up, d :: ds =>
    if d = [] ∨ d = str "." then clean up ds
    else if d = str ".." then clean up.tail ds
    else clean (d :: up) ds

/-- path.Join("/", name). -/
def joinRoot (name : Bytes) : Bytes :=
  match clean [] (components name) with
  | [] => str "/"
  | ds => ds.flatMap fun d => 47 :: d

/-! ### Configuration -/

/-- servercmd.go:69-152 `Config`, as far as `main2` itself uses it. -/
structure Conf where
  executorCount : Nat
  programStorage : Bytes
  preparePrograms : Bool
  instanceStorage : Bytes
  prepareInstances : Bool
  varDir : Bytes
  policy : Bytes
  authorizedKeys : Bytes
  /-- name and address -/
  httpSources : List (Bytes × Bytes)
  ipfsAddr : Bytes
  net : Bytes
  addr : Bytes
  authority : Bytes
  origins : List Bytes
  accessDB : Bytes
  accessLog : Bytes
  tls : Bool
  tlsHTTPAddr : Bytes
  acceptTOS : Bool
  monitorNet : Bytes
  monitorAddr : Bytes
  monitorOrigins : Option (List Bytes)

/-- What succeeds. -/
structure Env where
  listen : Bytes → Bytes → Bool
  snide : Bytes → Bool
  /-- the i'th executor -/
  executor : Nat → Bool
  filesystem : Bytes → Bool
  home : Option Bytes
  keys : Bytes → Bool
  db : Bytes → Bool
  /-- the stored programs and instances can be loaded (see `Restart`) -/
  load : Bool
  log : Bytes → Bool
  clearCaps : Bool
  notify : Bool

/-- Implementations of storage interfaces. `nilFilesystem` is a nil `*Filesystem` in a non-nil interface. -/
inductive Store where
  | memory
  | filesystem (dir : Bytes)
  | nilFilesystem
deriving DecidableEq

inductive Policy where
  | public_
  | ssh (file : Bytes)
deriving DecidableEq

/-- The server which was made. -/
structure Built where
  executors : Nat
  programs : Store
  instances : Store
  policy : Policy
  authority : Bytes
  anyOrigin : Bool
  origins : List Bytes
  /-- the database of nonces -/
  nonces : Option Bytes
  sources : List Bytes
deriving DecidableEq

/-- Effects, in order. -/
inductive Act where
  | listenMonitor (net addr : Bytes)
  | serveMonitor (origins : Option (List Bytes))
  | executor
  | openFilesystem (dir : Bytes)
  | parseKeys (file : Bytes)
  | openDB (name : Bytes)
  | newServer
  | openLog (file : Bytes)
  | listen (net addr : Bytes)
  | watch
  | listenHTTP (addr : Bytes)
  | serveHTTP
  | clearCaps
  | ready
  | serve (tls : Bool) (b : Built)
deriving DecidableEq

/-- How `main2` ends without having served. -/
inductive Stop where
  | err (msg : String)
  | panic
deriving DecidableEq

/-- A computation which has effects and may stop. -/
def M (α : Type) : Type := List Act → Except Stop α × List Act

def M.pure {α : Type} (a : α) : M α := fun l => (.ok a, l)
def M.bind {α β : Type} (x : M α) (f : α → M β) : M β := fun l =>
  match x l with
  | (.ok a, l') => f a l'
  | (.error e, l') => (.error e, l')
instance : Monad M where
  pure := M.pure
  bind := M.bind

def act (a : Act) : M Unit := fun l => (.ok (), l ++ [a])
def stop {α : Type} (s : Stop) : M α := fun l => (.error s, l)
/-- An operation with an effect, if it succeeds. -/
def try_ (ok : Bool) (a : Act) (msg : String) : M Unit := if ok then act a else stop (.err msg)

/-! ### main2 -/

/-- servercmd.go:257-259. -/
def monitorOrigins (c : Conf) : Option (List Bytes) :=
  if c.monitorOrigins = none ∧ (str "localhost:").isPrefixOf c.monitorAddr then some [str "http://" ++ c.monitorAddr]
  else c.monitorOrigins

/-- servercmd.go:256-274: the monitor is served from now on. -/
def startMonitor (c : Conf) (e : Env) : M Unit :=
  if c.monitorAddr ≠ [] then do
    try_ (e.listen c.monitorNet c.monitorAddr) (.listenMonitor c.monitorNet c.monitorAddr) "listen"
    act (.serveMonitor (monitorOrigins c))
  else pure ()

/-- servercmd.go:282-289. -/
def startExecutors (e : Env) : Nat → Nat → M Unit
  | _, 0 => pure ()
  | i, n + 1 => do
    try_ (e.executor i) .executor "executor"
    startExecutors e (i + 1) n

/-- servercmd.go:301-308. -/
def openFilesystem (c : Conf) (e : Env) : M Store :=
  if c.varDir ≠ [] then do
    try_ (e.filesystem c.varDir) (.openFilesystem c.varDir) "filesystem"
    pure (.filesystem c.varDir)
  else pure .nilFilesystem

/-- servercmd.go:313-333. -/
def chooseStorage (option : Bytes) (fs : Store) : M Store :=
  if option = str "memory" then pure .memory
  else if option = str "filesystem" then pure fs
  else stop (.err "unknown storage option")

/-- servercmd.go:335-340: PreparePrograms and PrepareInstances start to make files in a goroutine. -/
def prepare (enabled : Bool) (s : Store) : M Unit :=
  if enabled ∧ s = .nilFilesystem then stop .panic else pure ()

/-- servercmd.go:344-374. -/
def choosePolicy (c : Conf) (e : Env) : M Policy :=
  if c.policy = str "public" then pure .public_
  else if c.policy = str "ssh" then
    if c.authorizedKeys ≠ [] then do
      try_ (e.keys c.authorizedKeys) (.parseKeys c.authorizedKeys) "keys"
      pure (.ssh c.authorizedKeys)
    else match e.home with
      | none => stop (.err "access.ssh.authorizedkeys option required")
      | some h => do
        try_ (e.keys (h ++ str "/.ssh/authorized_keys")) (.parseKeys (h ++ str "/.ssh/authorized_keys")) "keys"
        pure (.ssh (h ++ str "/.ssh/authorized_keys"))
  else stop (.err "unknown access.policy option")

/-- servercmd.go:376-381. -/
def chooseAuthority (c : Conf) : M Bytes :=
  if c.authority = [] then
    match splitHost c.addr with
    | some h => pure h
    | none => stop (.err "http.authority string cannot be inferred")
  else pure c.authority

/-- servercmd.go:383-390. -/
def openDB (c : Conf) (e : Env) : M (Option Bytes) :=
  if c.accessDB ≠ str "none" then do
    try_ (e.db c.accessDB) (.openDB c.accessDB) "database"
    pure (some c.accessDB)
  else pure none

/-- A key is in a map once. -/
def insert (l : List Bytes) (k : Bytes) : List Bytes := if k ∈ l then l else l ++ [k]

/-- servercmd.go:392-400: the keys of the map of module sources. -/
def sources (c : Conf) : List Bytes :=
  let l := ((c.httpSources.filter fun x => x.1 ≠ [] ∧ x.2 ≠ []).map fun x => joinRoot x.1).foldl insert []
  if c.ipfsAddr ≠ [] then insert l (str "/ipfs") else l

/-- server/server.go:59-133 `New`: a nil filesystem's programs can't be listed; the memory and a filesystem's directory
can (see `Restart`). CombinedStorage lists the instances with the instance storage. -/
def newServer (programs instances : Store) (e : Env) : M Unit :=
  if programs = .nilFilesystem ∨ instances = .nilFilesystem then stop .panic
  else try_ e.load .newServer "server"

/-- net/http `ServeMux.HandleFunc` panics for a pattern which has been registered. -/
def duplicates : List Bytes → Bool
  | [] => false
  | p :: ps => ps.contains p || duplicates ps

/-- server/web/handler.go:71-148 `newHandler` for the pattern "/": the host part of the pattern is empty, so that it
doesn't give an authority. -/
def newHandler (authority : Bytes) (origins sources : List Bytes) : M WebRoute.Conf :=
  if authority = [] then stop .panic
  else match WebRoute.newHandler origins with
    | none => stop .panic
    | some w =>
      if duplicates ((WebRoute.patterns [] sources).map (·.1)) then stop .panic else pure w

/-- servercmd.go:410-418. -/
def openLog (c : Conf) (e : Env) : M Unit :=
  if c.accessLog ≠ [] then try_ (e.log c.accessLog) (.openLog c.accessLog) "log" else pure ()

/-- servercmd.go:420-432. -/
def listen (c : Conf) (e : Env) : M Unit :=
  if c.net = str "snide" then
    if c.tls then try_ (e.snide c.addr) (.listen c.net c.addr) "listen"
    else stop (.err "snide HTTP listener configured without TLS")
  else try_ (e.listen c.net c.addr) (.listen c.net c.addr) "listen"

/-- servercmd.go:486-489. -/
def httpAddr (c : Conf) : Bytes :=
  if c.tlsHTTPAddr.contains 58 then c.tlsHTTPAddr else c.tlsHTTPAddr ++ str ":http"

/-- servercmd.go:465-500. -/
def startTLS (c : Conf) (e : Env) : M Unit :=
  if c.tls then
    if c.acceptTOS then do
      try_ (e.listen (str "tcp") (httpAddr c)) (.listenHTTP (httpAddr c)) "listen"
      act .serveHTTP
    else stop (.err "http.tls requires acme.accepttos")
  else pure ()

/-- servercmd.go:251-508 `main2`, up to serving. -/
def main2 (c : Conf) (e : Env) : M Unit := do
  startMonitor c e
  startExecutors e 0 c.executorCount
  let fs ← openFilesystem c e
  let progs ← chooseStorage c.programStorage fs
  let insts ← chooseStorage c.instanceStorage fs
  prepare c.preparePrograms progs
  prepare c.prepareInstances insts
  let policy ← choosePolicy c e
  let authority ← chooseAuthority c
  let nonces ← openDB c e
  newServer progs insts e
  let web ← newHandler authority c.origins (sources c)
  openLog c e
  listen c e
  act .watch
  startTLS c e
  try_ e.clearCaps .clearCaps "caps"
  try_ e.notify .ready "notify"
  act (.serve c.tls ⟨c.executorCount, progs, insts, policy, authority, web.any, web.origins, nonces, sources c⟩)

/-- `none`: the server is serving. -/
def outcome (c : Conf) (e : Env) : Option Stop :=
  match (main2 c e []).1 with
  | .error s => some s
  | .ok _ => none
def acts (c : Conf) (e : Env) : List Act := (main2 c e []).2

/-! ### HTTP handlers -/

/-- Config.HTTP.Index (servercmd.go:120-123). -/
structure Index where
  status : Nat
  location : Bytes

inductive Answer where
  /-- the request is given to the handler of the web API -/
  | api
  /-- `text`: the body and its type -/
  | response (status : Nat) (location : Option Bytes) (text : Option Bytes)
  /-- net/http's WriteHeader panics -/
  | panic
deriving DecidableEq

/-- servercmd.go:553-562 `writeResponse`, with the values of the Accept header. -/
def writeResponse (accept : List Bytes) (status : Nat) (message : Bytes) : Answer :=
  .response status none (if Accept.acceptsText accept then some (message ++ [10]) else none)

/-- net/http `ResponseWriter.WriteHeader` (checkWriteHeaderCode). -/
def writeHeader (status : Nat) (location : Option Bytes) : Answer :=
  if status < 100 ∨ status > 999 then .panic else .response status location none

/-- servercmd.go:526-551 `handle`; `apiAnswer` is the answer of the API handler. -/
def handle (i : Index) (path : Bytes) (method : Bytes) (accept : List Bytes) (apiAnswer : Answer) : Answer :=
  if (WebRoute.pathAPI).isPrefixOf path then apiAnswer
  else if i.status = 404 ∨ path ≠ str "/" then writeResponse accept 404 (str "not found")
  else if method = str "GET" ∨ method = str "HEAD" then
    writeHeader i.status (if i.location ≠ [] then some i.location else none)
  else .response 405 none none

/-- servercmd.go:510-514 `newHTTPSHandler`: the handler of the configured listener. -/
def handleMain (i : Index) (path method : Bytes) (accept : List Bytes) : Answer := handle i path method accept .api
/-- servercmd.go:516-524 `newHTTPHandler`: the handler of the plain HTTP listener of a server with TLS (except for the
requests of ACME challenges). -/
def handlePlain (i : Index) (path method : Bytes) (accept : List Bytes) : Answer :=
  handle i path method accept (writeResponse accept 421 (str "http not supported"))

/-! ### Stopping -/

inductive Main where
  | serving
  /-- `Serve` has returned, and `main2` after it: its deferred calls have closed the databases -/
  | returned
  | exited
deriving DecidableEq

/-- The goroutine of servercmd.go:436-463. -/
inductive Watcher where
  | waiting
  /-- in `httpServer.Shutdown` -/
  | http
  /-- in `Server.Shutdown` -/
  | server
  | done
deriving DecidableEq

structure St where
  main : Main
  watcher : Watcher
  /-- some executor is dead -/
  dead : Bool
  listening : Bool
  /-- files and databases are open -/
  opened : Bool
  /-- requests being handled -/
  requests : Nat
  /-- the instances have been shut down -/
  stopped : Bool
deriving DecidableEq

inductive Label where
  | accept
  | respond
  | die
  | notice
  | return_
  | exit
  | httpDone
  | timeout
  | serverDone
deriving DecidableEq

def init : St := ⟨.serving, .waiting, false, true, true, 0, false⟩

/-- servercmd.go:436-463, 507, 248; net/http `Server.Shutdown` closes the listeners at first, by which `Serve` returns,
and then waits for the connections to become idle. -/
def step (s : St) (l : Label) : Option St :=
  if s.main = .exited then none else
  match l with
  | .accept => if s.listening then some { s with requests := s.requests + 1 } else none
  | .respond => if s.requests > 0 then some { s with requests := s.requests - 1 } else none
  | .die => if s.dead then none else some { s with dead := true }
  | .notice =>
    if s.dead ∧ s.watcher = .waiting then some { s with watcher := .http, listening := false } else none
  | .return_ => if s.main = .serving ∧ ¬s.listening then some { s with main := .returned, opened := false } else none
  | .exit => if s.main = .returned then some { s with main := .exited } else none
  | .httpDone => if s.watcher = .http ∧ s.requests = 0 then some { s with watcher := .server } else none
  | .timeout => if s.watcher = .http ∨ s.watcher = .server then some { s with main := .exited } else none
  | .serverDone => if s.watcher = .server then some { s with watcher := .done, stopped := true } else none

def run : St → List Label → Option St
  | s, [] => some s
  | s, l :: ls => (step s l).bind fun s' => run s' ls

end Gate.Startup
