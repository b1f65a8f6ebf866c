import Verif.Auth
/-
The HTTP side of the gate daemon: where it may be served, and static files.  (The API handler is in WebRoute and the modules which import it.)

Modelled: cmd/gate-daemon/main/daemoncmd.go:197-235 (startup), 251-260 (verifyLoopbackHost), 801-820 (newHTTPHandler), 822-866 (newStaticHTTPHandler); of Go 1.16's net/http:
ServeMux.Handler (the path is cleaned, and the pattern found), containsDotDot and the beginning of ServeFile.

Simplified: net.SplitHostPort, url.Parse and name resolution are parameters.  Patterns have no host part, as they begin with a slash.  A file's content, type and conditional
requests are left out: the result is the file's name.  Symbolic links aren't looked at.
-/
namespace Gate.DaemonWeb
open Gate Gate.Auth

/-- The byte for a slash. -/
def slash : UInt8 := 47

/-- strings.Split by a set of bytes. -/
def elems (sep : UInt8 → Bool) : Bytes → List Bytes
  | [] => [[]]
  | c :: t =>
    if sep c then [] :: elems sep t
    else match elems sep t with
      | e :: es => (c :: e) :: es
      | [] => [[c]]

def isSlash (c : UInt8) : Bool := c == slash

/-- net/http isSlashRune. -/
def isSlashRune (c : UInt8) : Bool := c == slash || c == 92

def dot : Bytes := [46]
def dotDot : Bytes := [46, 46]

/-- net/http containsDotDot. -/
def containsDotDot (p : Bytes) : Bool := (elems isSlashRune p).contains dotDot

/-- Directory by directory. -/
def walk : List Bytes → List Bytes → List Bytes
  | st, [] => st
  | st, e :: es => if e = [] ∨ e = dot then walk st es else if e = dotDot then walk st.dropLast es else walk (st ++ [e]) es

/-- net/http cleanPath: path.Clean of the path as an absolute one, with the slash at the end kept. -/
def cleanPath (p : Bytes) : Bytes :=
  let es := walk [] (elems isSlash p)
  if es = [] then [slash] else es.flatMap (fun e => slash :: e) ++ (if p.getLast? = some slash then [slash] else [])

structure Static where
  uri : Bytes
  path : Bytes
  deriving DecidableEq, Repr

def endsSlash (b : Bytes) : Bool := b.getLast? == some slash

/-- daemoncmd.go:805-813; the first error stops the daemon. -/
def Static.check (s : Static) : Option String :=
  if s.uri.head? ≠ some slash then some "static HTTP URI does not start with slash"
  else if s.path = [] then some "filesystem path not specified for static HTTP URI"
  else if endsSlash s.uri ≠ endsSlash s.path then some "static HTTP URI and filesystem path must both end in slash if one ends in slash"
  else none

/-- net/http: a pattern is registered only once; "/" is the API's, daemoncmd.go:818. -/
def register : List Static → List Bytes → Option String
  | [], seen => if seen.contains [slash] then some "http: multiple registrations" else none
  | s :: rest, seen =>
    match s.check with
    | some e => some e
    | none => if seen.contains s.uri then some "http: multiple registrations" else register rest (s.uri :: seen)

structure Config where
  addr : Bytes
  authority : Bytes
  origins : List Bytes
  statics : List Static

/-- What the daemon asks from others: the host and port of an address, the host name of a URL (`none`: a parse error), and a name's addresses (`none`: none found, or an error) with
whether each of them is a loopback address.  Resolution is numbered, as names needn't be resolved in the same way every time. -/
structure Env where
  splitHostPort : Bytes → Option (Bytes × Bytes)
  hostname : Bytes → Option Bytes
  lookup : Nat → Bytes → Option (List (Bytes × Bool))

/-- daemoncmd.go:251-260. -/
def verifyLoopbackHost (env : Env) (n : Nat) (host : Bytes) : Option String :=
  match env.lookup n host with
  | none => some "lookup"
  | some ips => if ips.all (·.2) then none else some "hostname resolves to non-loopback IP address"

/-- daemoncmd.go:219-224; resolutions are numbered from `n`. -/
def verifyOrigins (env : Env) : Nat → List Bytes → Option String
  | _, [] => none
  | n, o :: os =>
    if o ≠ [] ∧ o ≠ str "null" then
      match env.hostname o with
      | none => some "parse"
      | some h =>
        match verifyLoopbackHost env n h with
        | some e => some e
        | none => verifyOrigins env (n + 1) os
    else verifyOrigins env n os

/-- The own origin, from which static files may be requested, daemoncmd.go:207-213, 228. -/
def ownOrigin (c : Config) (host port : Bytes) : Bytes :=
  str "http://" ++ (if c.authority = [] then (if port = str "80" ∨ port = str "http" then host else c.addr) else c.authority)

inductive Started
  /-- No HTTP. -/
  | off
  /-- The daemon doesn't start. -/
  | error (e : String)
  /-- Serving, with the origin. -/
  | on (origin : Bytes)
  deriving DecidableEq, Repr

/-- daemoncmd.go:197-233. -/
def start (env : Env) (c : Config) : Started :=
  if c.addr = [] then .off
  else match env.splitHostPort c.addr with
    | none => .error "address"
    | some (host, port) =>
      if host = [] then .error "HTTP hostname must be configured explicitly"
      else match verifyLoopbackHost env 0 host with
        | some e => .error e
        | none =>
          if c.origins = [] then .error "no HTTP origins configured"
          else match verifyOrigins env 1 c.origins with
            | some e => .error e
            | none =>
              match register c.statics [] with
              | some e => .error e
              | none => .on (ownOrigin c host port)

structure Request where
  method : Bytes
  /-- r.URL.Path -/
  path : Bytes
  /-- The value of the first Origin header, or empty. -/
  origin : Bytes

inductive Reply
  /-- By the API handler. -/
  | api
  /-- 301, by the mux. -/
  | redirect (path : Bytes)
  | forbidden
  | methodNotAllowed
  | notFound
  /-- 400, by ServeFile. -/
  | badRequest
  /-- http.ServeFile opens this file. -/
  | file (name : Bytes)
  deriving DecidableEq, Repr

structure Response where
  reply : Reply
  /-- The Access-Control-Allow-Origin header. -/
  allow : Option Bytes
  deriving DecidableEq, Repr

/-- daemoncmd.go:845-859: `staticFile`; `none` is the not found response. -/
def staticFile (s : Static) (path : Bytes) : Option Bytes :=
  if endsSlash s.uri then
    if s.uri.isPrefixOf path then
      let f := s.path ++ path.drop s.uri.length
      some (if endsSlash f then f ++ str "index.html" else f)
    else none
  else if path ≠ s.uri then none
  else some s.path

/-- net/http ServeFile. -/
def serveFile (path name : Bytes) : Reply := if containsDotDot path then .badRequest else .file name

/-- daemoncmd.go:822-866. -/
def serveStatic (origin : Bytes) (s : Static) (r : Request) : Response :=
  if r.origin ≠ [] ∧ r.origin ≠ origin then ⟨.forbidden, none⟩
  else
    let allow := if r.origin = [] then none else some r.origin
    if r.method ≠ str "GET" ∧ r.method ≠ str "HEAD" then ⟨.methodNotAllowed, allow⟩
    else match staticFile s r.path with
      | none => ⟨.notFound, allow⟩
      | some f => ⟨serveFile r.path f, allow⟩

/-- The longer pattern. -/
def longest : List Static → Option Static
  | [] => none
  | s :: rest =>
    match longest rest with
    | none => some s
    | some t => if s.uri.length < t.uri.length then some t else some s

/-- net/http ServeMux.match: an exact match, otherwise the longest pattern which ends with a slash and begins the path. `none` is the API's pattern, which matches everything. -/
def match_ (ss : List Static) (path : Bytes) : Option Static :=
  match ss.find? fun s => s.uri == path with
  | some s => some s
  | none => longest (ss.filter fun s => endsSlash s.uri && s.uri.isPrefixOf path)

/-- net/http shouldRedirectRLocked: nothing is registered for the path, but for the path with a slash at the end. -/
def wantsSlash (ss : List Static) (path : Bytes) : Bool :=
  !(path == [slash]) && !(ss.any fun s => s.uri == path) && !(endsSlash path) && ss.any fun s => s.uri == path ++ [slash]

/-- net/http ServeMux.Handler, and the handler which it finds. -/
def serve (origin : Bytes) (ss : List Static) (r : Request) : Response :=
  let dispatch : Response := match match_ ss r.path with
    | none => ⟨.api, none⟩
    | some s => serveStatic origin s r
  if r.method = str "CONNECT" then
    if wantsSlash ss r.path then ⟨.redirect (r.path ++ [slash]), none⟩ else dispatch
  else if wantsSlash ss (cleanPath r.path) then ⟨.redirect (cleanPath r.path ++ [slash]), none⟩
  else if cleanPath r.path ≠ r.path then ⟨.redirect (cleanPath r.path), none⟩
  else dispatch

end Gate.DaemonWeb
