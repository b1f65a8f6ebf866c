import Verif.WebRoute
/-
Model of the `gate` program's commands for a remote server (cmd/gate/main/remote.go) as HTTP requests, and
of the URLs which carry their arguments (remote.go:605-632 `makeURL`, net/url of Go 1.16).

Bytes are bytes; the query strings of `WebActions` represent them one character per byte (`text`).

Simplifications.  The authority part of the address, redirects of the address, TLS and the response bodies
aren't modelled: the address is that of the server, `pre` is the path in it.  Authorization is C149's
subject.  A path which isn't clean is redirected by net/http before the server's code is run; names of
modules and instances have no slashes and dots.
-/
namespace Gate.Client
open Gate.Auth (str)

/-! ### net/url -/

def hexDigit (n : Nat) : UInt8 := (if n < 10 then 48 + n else 55 + n).toUInt8
/-- `unhex` of a digit for which `ishex` is true. -/
def unhex (c : UInt8) : Option Nat :=
  if 48 ≤ c ∧ c ≤ 57 then some (c.toNat - 48)
  else if 97 ≤ c ∧ c ≤ 102 then some (c.toNat - 97 + 10)
  else if 65 ≤ c ∧ c ≤ 70 then some (c.toNat - 65 + 10)
  else none

def alnum (c : UInt8) : Bool := (48 ≤ c && c ≤ 57) || (97 ≤ c && c ≤ 122) || (65 ≤ c && c ≤ 90)

/-- `encodePath` and `encodeQueryComponent`. -/
inductive Mode where
  | path | query
deriving DecidableEq

/-- url.go `shouldEscape`: 45 '-', 95 '_', 46 '.', 126 '~'; 36 '$', 38 '&', 43 '+', 44 ',', 47 '/', 58 ':',
59 ';', 61 '=', 63 '?', 64 '@'. -/
def shouldEscape (m : Mode) (c : UInt8) : Bool :=
  if alnum c || [45, 95, 46, 126].contains c then false
  else if [36, 38, 43, 44, 47, 58, 59, 61, 63, 64].contains c then
    (match m with | .path => c == 63 | .query => true)
  else true

/-- url.go `escape`. -/
def escape (m : Mode) : Bytes → Bytes
  | [] => []
  | c :: cs =>
    (if m = .query ∧ c = 32 then [43]
     else if shouldEscape m c then [37, hexDigit (c.toNat / 16), hexDigit (c.toNat % 16)]
     else [c]) ++ escape m cs

/-- url.go `unescape` of these modes. -/
def unescape (m : Mode) : Bytes → Option Bytes
  | [] => some []
  | 37 :: a :: b :: cs =>
    match unhex a, unhex b with
    | some x, some y => (unescape m cs).map ((16 * x + y).toUInt8 :: ·)
    | _, _ => none
  | 37 :: _ => none
  | c :: cs => (unescape m cs).map ((if m = .query ∧ c = 43 then 32 else c) :: ·)

/-- url.go `validEncodedPath`: 33 '!', 39 ''', 40 '(', 41 ')', 42 '*', 91 '[', 93 ']', 37 '%'. -/
def validEncoded (b : Bytes) : Bool :=
  b.all fun c => [33, 36, 38, 39, 40, 41, 42, 43, 44, 59, 61, 58, 64, 91, 93, 37].contains c || !shouldEscape .path c

/-- `strings.Cut` by a byte: the part before the first one, and the part after it. -/
def cut (sep : UInt8) : Bytes → Bytes × Bytes
  | [] => ([], [])
  | c :: cs => if c = sep then ([], cs) else (c :: (cut sep cs).1, (cut sep cs).2)

/-- The parts of a `url.URL` which matter. -/
structure URL where
  path : Bytes
  rawPath : Bytes
  rawQuery : Bytes
deriving DecidableEq

/-- url.go `setPath`. -/
def setPath (p : Bytes) : Option (Bytes × Bytes) :=
  match unescape .path p with
  | none => none
  | some path => some (path, if escape .path path = p then [] else p)

/-- url.go `parse`, of the part after the authority: a control character or a bad escape is an error. -/
def parseRest (b : Bytes) : Option URL :=
  if b.any fun c => c < 32 || c == 127 then none
  else match setPath (cut 63 b).1 with
    | none => none
    | some (p, rp) => some ⟨p, rp, (cut 63 b).2⟩

/-- url.go `Parse`: a fragment is cut first. -/
def parse (b : Bytes) : Option URL := parseRest (cut 35 b).1

/-- url.go `EscapedPath`. -/
def escapedPath (u : URL) : Bytes :=
  if u.rawPath ≠ [] ∧ validEncoded u.rawPath ∧ unescape .path u.rawPath = some u.path then u.rawPath else escape .path u.path

/-- url.go `RequestURI` (a question mark without query makes no difference to the server). -/
def requestURI (u : URL) : Bytes := if u.rawQuery = [] then escapedPath u else escapedPath u ++ 63 :: u.rawQuery

/-- url.go `Values.Encode` of sorted parameters. -/
def encode : List (Bytes × Bytes) → Bytes
  | [] => []
  | [(k, v)] => escape .query k ++ 61 :: escape .query v
  | (k, v) :: ps => escape .query k ++ 61 :: escape .query v ++ 38 :: encode ps

/-- Text between separators. -/
def split (sep : UInt8 → Bool) : Bytes → List Bytes
  | [] => [[]]
  | c :: cs =>
    match split sep cs with
    | [] => [[c]]
    | f :: fs => if sep c then [] :: f :: fs else (c :: f) :: fs

/-- One parameter of `parseQuery`: key and value. -/
def parsePair (b : Bytes) : Option (Bytes × Bytes) :=
  match unescape .query (cut 61 b).1, unescape .query (cut 61 b).2 with
  | some k, some v => some (k, v)
  | _, _ => none

/-- url.go `parseQuery` of Go 1.16: parameters are separated by '&' and ';'; empty ones are skipped.  The
parameters, and if there was no error. -/
def parsePairs : List Bytes → List (Bytes × Bytes) × Bool
  | [] => ([], true)
  | b :: bs =>
    if b = [] then parsePairs bs
    else match parsePair b with
      | some kv => (kv :: (parsePairs bs).1, (parsePairs bs).2)
      | none => ((parsePairs bs).1, false)
def parseQuery (b : Bytes) : List (Bytes × Bytes) × Bool := parsePairs (split (fun c => c == 38 || c == 59) b)

/-! ### Commands -/

/-- clientcmd.go:34-48 `Config`.  Addresses, identity and scopes aren't here. -/
structure Conf where
  pin : Bool
  moduleTags : List Bytes
  wait : Bool
  function : Bytes
  instance_ : Bytes
  instanceTags : List Bytes
  suspend : Bool
  debugLog : Bool

/-- The commands with their arguments.  `key`: the digest of the file which a module argument names
(remote.go:562-571 `loadModule`), and `size` is its length. -/
inductive Cmd where
  | call (module_ : Bytes) (function : Option Bytes) (key : Bytes) (size : Nat)
  | delete (id : Bytes)
  | export_ (module_ : Bytes)
  | import_ (tags : List Bytes) (key : Bytes) (size : Nat)
  | instances
  | io (id : Bytes)
  | kill (id : Bytes)
  | launch (module_ : Bytes) (function : Option Bytes) (tags : List Bytes) (key : Bytes) (size : Nat)
  | modules
  | pin (module_ : Bytes) (tags : List Bytes)
  /-- local.go:292-317: `size` is told by the daemon. -/
  | push (module_ : Bytes) (size : Nat)
  | repl (id : Bytes)
  | resume (id : Bytes)
  | show_ (module_ : Bytes)
  | snapshot (id : Bytes) (tags : List Bytes)
  | status (id : Bytes)
  | suspend (id : Bytes)
  | unpin (module_ : Bytes)
  | update (id : Bytes) (tags : List Bytes)
  | wait (id : Bytes)

/-- What is given to `doHTTP` (573-603), or to the websocket dialer.  `length`: what the server sees as
ContentLength; a body of unknown length is -1.  `located`: the last argument of `makeURL`, which is true if
there is a body, and for websockets. -/
structure Sent where
  method : String
  types : List String
  onlyJSON : Bool
  located : Bool
  length : Int
  uri : Bytes
  params : List (Bytes × Bytes)

def post (uri : Bytes) (params : List (Bytes × Bytes)) : Sent := ⟨"POST", [], false, false, 0, uri, params⟩

def act (a : String) : Bytes × Bytes := (str "action", str a)
def tagsOf (key : String) (ts : List Bytes) : List (Bytes × Bytes) := ts.map fun t => (str key, t)
/-- `if v != "" { params.Set(key, v) }` -/
def optional (key : String) (v : Bytes) : List (Bytes × Bytes) := if v = [] then [] else [(str key, v)]
def logParam (c : Conf) : List (Bytes × Bytes) := if c.debugLog then [(str "log", str "*")] else []
/-- `if c.Pin {...}` in call and launch. -/
def pinParams (c : Conf) : List (Bytes × Bytes) := if c.pin then act "pin" :: tagsOf "module.tag" c.moduleTags else []

/-- `!(strings.Contains(arg, "/") || strings.Contains(arg, "."))` -/
def isKey (arg : Bytes) : Bool := !(arg.contains 47 || arg.contains 46)

/-- The tail of arguments replaces the configured tags unless it's empty. -/
def orTail (tail conf : List Bytes) : List Bytes := if tail.length ≠ 0 then tail else conf

/-- `if flag.NArg() > 1 { c.Function = flag.Arg(1) }` -/
def functionArg (c : Conf) : Option Bytes → Bytes
  | some f => f
  | none => c.function
/-- remote.go:211-216: tags come after a function. -/
def launchTags (c : Conf) (fn : Option Bytes) (tags : List Bytes) : List Bytes :=
  match fn with
  | some _ => orTail tags c.instanceTags
  | none => c.instanceTags

/-- remote.go:33-464 `remoteCommands` (without debug, which is `debugBody`; the length of
update's JSON body is some positive number); `none`: "no tags" (440-442). -/
def send (c : Conf) : Cmd → Option Sent
  | .call arg fn key _ =>
    let f := functionArg c fn
    let params := act "call" :: (optional "function" f ++ tagsOf "instance.tag" c.instanceTags ++ logParam c)
    if isKey arg then some ⟨"POST", [], false, true, -1, WebRoute.pathKnownModules ++ arg, params⟩
    else if (str "/ipfs/").isPrefixOf arg then
      some ⟨"POST", [], false, true, -1, WebRoute.pathModule ++ arg, params ++ pinParams c⟩
    else some ⟨"GET", [], false, true, 0, WebRoute.pathKnownModules ++ key, params ++ pinParams c⟩
  | .delete id => some (post (WebRoute.pathInstances ++ id) [act "delete"])
  | .export_ m => some ⟨"GET", [], false, false, 0, WebRoute.pathKnownModules ++ m, []⟩
  | .import_ tags key size =>
    some ⟨"PUT", ["application/wasm"], false, true, size, WebRoute.pathKnownModules ++ key,
      act "pin" :: tagsOf "module.tag" (orTail tags c.moduleTags)⟩
  | .instances => some (post WebRoute.pathInstances [])
  | .io id => some ⟨"POST", [], false, true, -1, WebRoute.pathInstances ++ id, [act "io"]⟩
  | .kill id => some (post (WebRoute.pathInstances ++ id) (act "kill" :: if c.wait then [act "wait"] else []))
  | .launch arg fn tags key size =>
    let f := functionArg c fn
    let params := act "launch" :: ((if c.suspend then [act "suspend"] else []) ++ optional "function" f ++ optional "instance" c.instance_ ++
      tagsOf "instance.tag" (launchTags c fn tags) ++ logParam c)
    if isKey arg then some (post (WebRoute.pathKnownModules ++ arg) params)
    else if (str "/ipfs/").isPrefixOf arg then some ⟨"PUT", [], false, false, 0, WebRoute.pathModule ++ arg, params ++ pinParams c⟩
    else some ⟨"PUT", ["application/wasm"], false, true, size, WebRoute.pathKnownModules ++ key, params ++ pinParams c⟩
  | .modules => some (post WebRoute.pathKnownModules [])
  | .pin m tags => some (post (WebRoute.pathKnownModules ++ m) (act "pin" :: tagsOf "module.tag" (orTail tags c.moduleTags)))
  | .push m size => some ⟨"PUT", ["application/wasm"], false, true, size, WebRoute.pathKnownModules ++ m, [act "pin"]⟩
  | .repl id => some ⟨"GET", [], false, true, 0, WebRoute.pathInstances ++ id, [act "io"]⟩
  | .resume id => some (post (WebRoute.pathInstances ++ id) (act "resume" :: logParam c))
  | .show_ m => some (post (WebRoute.pathKnownModules ++ m) [])
  | .snapshot id tags => some (post (WebRoute.pathInstances ++ id) (act "snapshot" :: tagsOf "module.tag" (orTail tags c.moduleTags)))
  | .status id => some { post (WebRoute.pathInstances ++ id) [] with onlyJSON := true }
  | .suspend id => some (post (WebRoute.pathInstances ++ id) (act "suspend" :: if c.wait then [act "wait"] else []))
  | .unpin m => some (post (WebRoute.pathKnownModules ++ m) [act "unpin"])
  | .update id tags =>
    if (orTail tags c.instanceTags).length = 0 then none
    else some ⟨"POST", ["application/json"], false, true, 1, WebRoute.pathInstances ++ id, [act "update"]⟩
  | .wait id => some (post (WebRoute.pathInstances ++ id) [act "wait"])

/-- The keys which the commands use, as `Values.Encode` sorts them. -/
def sortedKeys : List Bytes := [str "action", str "function", str "instance", str "instance.tag", str "log", str "module.tag"]
def sorted (ps : List (Bytes × Bytes)) : List (Bytes × Bytes) := sortedKeys.flatMap fun k => ps.filter fun p => p.1 == k

/-- `strings.Replace(uri, webapi.Path, "", 1)` of a uri which begins with it. -/
def replaceAPI (uri : Bytes) : Bytes := uri.drop WebRoute.pathAPI.length

/-- remote.go:605-632 `makeURL`; `none`: the error is dropped and a nil URL is returned (621-624), which
`doHTTP` dereferences.  With a body the address is resolved first, and the path is used as it is. -/
def makeURL (pre : Bytes) (s : Sent) : Option URL :=
  let u := if s.located then some ⟨(pre ++ WebRoute.pathAPI) ++ replaceAPI s.uri, [], []⟩ else parse (pre ++ s.uri)
  u.map fun u => if 0 < s.params.length then { u with rawQuery := encode (sorted s.params) } else u

def text (b : Bytes) : String := String.ofList (b.map fun c => Char.ofNat c.toNat)

/-- The request as the server's handlers see it: net/http parses the request URI by `url.ParseRequestURI`,
which doesn't cut fragments.  `none`: not a request line (a space in it, or a URL which doesn't parse). -/
def receive (s : Sent) (uri : Bytes) : Option WebRoute.Request :=
  if uri.contains 32 then none
  else match parseRest uri with
    | none => none
    | some u =>
      some ⟨s.method, u.path, [],
        ⟨s.method == "GET", u.rawQuery ≠ [], (parseQuery u.rawQuery).2,
          (parseQuery u.rawQuery).1.map (fun kv => (text kv.1, text kv.2)), s.types, s.length, true, !s.onlyJSON⟩⟩

inductive Outcome where
  /-- The program ends before it connects. -/
  | fatal
  /-- A nil pointer is dereferenced. -/
  | crash
  /-- The server doesn't understand the request line. -/
  | badRequest
  | request (r : WebRoute.Request)

/-- The command's request. -/
def run (pre : Bytes) (c : Conf) (cmd : Cmd) : Outcome :=
  match send c cmd with
  | none => .fatal
  | some s =>
    match makeURL pre s with
    | none => .crash
    | some u =>
      match receive s (requestURI u) with
      | none => .badRequest
      | some r => .request r

/-! ### Debugging (remote.go:82-109, debug.go:59-95, handler.go:1437-1448) -/

/-- What the debug command's second argument says; `offsets`: there are more. -/
inductive DebugCmd where
  | none_ | break_ | delete | detach | backtrace | dumptext | unknown
deriving DecidableEq

inductive DebugOutcome where
  | fatal
  /-- `req.Config` is nil in a new `DebugRequest` (server.pb.go:824). -/
  | crash
  /-- The wire encoding of the request; its config is never set. -/
  | body (b : Bytes)
deriving DecidableEq

/-- A protobuf message whose only field is a small enumeration value of field 1: zero isn't encoded. -/
def encodeOp (op : UInt8) : Bytes := if op = 0 then [] else [8, op]

/-- debug.go:60-94, up to the call.  Ops of server.pb.go: 0 ConfigGet, 1 ConfigSet, 2 ConfigUnion,
3 ConfigComplement, 4 ReadGlobals, 5 ReadMemory, 6 ReadStack. -/
def debugBody (cmd : DebugCmd) (offsets : Bool) : DebugOutcome :=
  match cmd with
  | .none_ => .body (encodeOp 0)
  | .break_ => .crash
  | .delete => if offsets then .crash else .body (encodeOp 3)
  | .detach => if offsets then .fatal else .body (encodeOp 1)
  | .backtrace => if offsets then .fatal else .body (encodeOp 6)
  | .dumptext => if offsets then .fatal else .body (encodeOp 0)
  | .unknown => .fatal

/-- White space of JSON. -/
def jsonSpace (c : UInt8) : Bool := c == 32 || c == 9 || c == 10 || c == 13

/-- protojson.Unmarshal of a message accepts only a JSON object; `rest` is all else that it demands. -/
def acceptsMessage (rest : Bytes → Bool) (b : Bytes) : Bool := (b.dropWhile jsonSpace).head? == some 123 && rest b

end Gate.Client
