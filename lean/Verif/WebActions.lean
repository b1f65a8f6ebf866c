import Verif.Base
/-
Model of the web API's method handlers, which parse query parameters, check content headers and
choose the operation:
  server/web/handler.go 468-775, server/web/request.go 86-264.

The action handlers (handler.go 777-1482) are the operations; each one first checks authorization.
`Op` records which one is called, with the arguments that come from the query, and if it requires
the authorization header.

A request is answered by a trace of effects: error responses and operations. A handler which writes
an error response ends by return or `panic(nil)`; where the code does neither, the model goes on.
-/
namespace Gate.Web

/-- `url.Values` as the sequence of key-value pairs; the map's entry for a key is the list of its
values in this order, and the map has no entries exactly if the sequence is empty. -/
abbrev Query := List (String × String)

/-- What the method handlers look at. `raw`: `r.URL.RawQuery != ""`; `parses`: `url.ParseQuery`
succeeds; `types`: media types of the Content-Type headers; `length`: `r.ContentLength`. -/
structure Req where
  get : Bool
  raw : Bool
  parses : Bool
  query : Query
  types : List String
  length : Int
  acceptJSON : Bool
  acceptWasm : Bool
deriving Repr

inductive Op where
  | moduleList | moduleInfo | moduleDownload
  | moduleUpload (tags : List String)
  | moduleSource (tags : List String)
  | modulePin (tags : List String)
  | moduleUnpin
  /-- handleCall and handleCallWebsocket: transient instance, killed when the connection ends. -/
  | call (pin : Bool) (auth : Bool) (function : String) (modTags instTags : List String)
  | launch (pin : Bool) (suspend : Bool) (function instance_ : String) (modTags instTags : List String)
  | instanceList | instanceInfo | instanceIO
  | resume (function : String)
  | snapshot (tags : List String)
  | delete | update | debug
  | kill (wait : Bool)
  | suspend (wait : Bool)
  | wait
deriving DecidableEq, Repr

inductive Effect where
  | error (msg : String)
  | noContent
  | op (o : Op)
deriving DecidableEq, Repr

/-- Effects so far, and the result unless the handling has ended. -/
abbrev M (α : Type) := List Effect × Option α

def M.pure {α} (a : α) : M α := ([], some a)
def M.bind {α β} (m : M α) (f : α → M β) : M β :=
  match m.2 with
  | none => (m.1, none)
  | some a => (m.1 ++ (f a).1, (f a).2)
instance : Monad M where
  pure := M.pure
  bind := M.bind

/-- `respondX(w, r, s)` alone. -/
def respond (msg : String) : M Unit := ([.error msg], some ())
/-- `respondX(w, r, s); panic(nil)` or `return`. -/
def fail {α} (msg : String) : M α := ([.error msg], none)
def perform (o : Op) : M Unit := ([.op o], some ())

/-- request.go:123-131 `mustParseQuery`. -/
def parseQuery (r : Req) : M Query := if r.parses then M.pure r.query else fail "query"
/-- request.go:133-138 `mustParseOptionalQuery`: a nil map if there is no query. -/
def parseOptionalQuery (r : Req) : M Query := if r.raw then parseQuery r else M.pure []
/-- request.go:116-121 `mustNotHaveQuery`. -/
def noQuery (r : Req) : M Unit := if r.raw then fail "excess query params" else M.pure ()
/-- `query[key]`. -/
def values (q : Query) (key : String) : List String := (q.filter fun p => p.1 == key).map (·.2)
/-- `delete(query, key)`. -/
def del (q : Query) (key : String) : Query := q.filter fun p => p.1 != key
/-- request.go:140-144 `popOptionalParams`. -/
def popAll (q : Query) (key : String) : List String × Query := (values q key, del q key)
/-- request.go:146-168 `popLastParam`. -/
def popLast (r : Req) (q : Query) (key : String) : M (String × Query) :=
  match values q key with
  | [v] => M.pure (v, del q key)
  | [] => if !r.raw && r.get then ([.noContent], none) else fail "missing query param"
  | _ => fail "duplicate query param"
/-- request.go:170-183 `popOptionalLastParam`. -/
def popOptional (q : Query) (key : String) : M (String × Query) :=
  match values q key with
  | [v] => M.pure (v, del q key)
  | [] => M.pure ("", q)
  | _ => fail "duplicate query param"
/-- request.go:185-193 `popOptionalLastLogParam`. -/
def popLog (q : Query) : M Query := do
  let (v, q) ← popOptional q "log"
  if v = "" ∨ v = "*" then M.pure q else fail "unsupported log"
/-- request.go:195-208 `popOptionalActionParam`: removes the first one. -/
def popAction (q : Query) (key : String) : Bool × Query :=
  if ("action", key) ∈ q then (true, q.erase ("action", key)) else (false, q)
/-- webapi.go:375 `FunctionRegexp`. -/
def validFunction (s : String) : Bool :=
  s.toList.all (fun c => c.isAlphanum || c == '-' || c == '.' || c == '_') && 1 ≤ s.toList.length && s.toList.length ≤ 31
/-- request.go:210-217 `mustPopOptionalLastFunctionParam`. -/
def popFunction (q : Query) : M (String × Query) := do
  let (v, q) ← popOptional q "function"
  if v ≠ "" ∧ !validFunction v then fail "invalid function" else M.pure (v, q)
/-- request.go:219-224 `mustNotHaveParams`. -/
def noParams (q : Query) : M Unit := if 0 < q.length then fail "excess query params" else M.pure ()
/-- request.go:226-243 `mustHaveContentType`. -/
def haveType (r : Req) (t : String) : M Unit :=
  match r.types with
  | [v] => if v ≠ t then fail "unsupported media type" else M.pure ()
  | [] => fail "unsupported media type"
  | _ => fail "duplicate header"
/-- request.go:245-250 `mustHaveContentLength`. -/
def haveLength (r : Req) : M Unit := if r.length < 0 then fail "length required" else M.pure ()
/-- request.go:252-257 `mustNotHaveContentType`. -/
def noType (r : Req) : M Unit := if r.types ≠ [] then fail "unsupported media type" else M.pure ()
/-- request.go:259-264 `mustNotHaveContent`. -/
def noBody (r : Req) : M Unit := if r.length ≠ 0 then fail "content not empty" else M.pure ()
/-- request.go:86-114. -/
def acceptsJSON (r : Req) : M Unit := if r.acceptJSON then M.pure () else fail "not acceptable"
def acceptsWasm (r : Req) : M Unit := if r.acceptWasm then M.pure () else fail "not acceptable"

/-- handler.go:468-498 `handleGetKnownModule`. A websocket call which uploads the module requires
authorization if `pin` (1050); one which does not upload is refused by the server unless authorized
(1073, server.go:308). -/
def getKnownModule (r : Req) : M Unit := do
  let q ← parseOptionalQuery r
  let (pin, q) := popAction q "pin"
  let (modTags, q) := if pin then popAll q "module.tag" else ([], q)
  if values q "action" ≠ [] then do
    let (a, q) ← popLast r q "action"
    if a = "call" then do
      let (function, q) ← popFunction q
      let (instTags, q) := popAll q "instance.tag"
      let q ← popLog q
      noParams q
      perform (.call pin pin function modTags instTags)
    else fail "unsupported action"
  else
    if pin then fail "unsupported action"
    else do
      noParams q
      acceptsWasm r
      perform .moduleDownload

/-- handler.go:500-506 `handlePostKnownModules`. -/
def postKnownModules (r : Req) : M Unit := do
  noQuery r; noType r; noBody r; acceptsJSON r
  perform .moduleList

/-- handler.go:508-548 `handlePutKnownModule`. handleCall requires authorization if `pin` (918). -/
def putKnownModule (r : Req) : M Unit := do
  haveType r "application/wasm"
  haveLength r
  let q ← parseOptionalQuery r
  let (pin, q) := popAction q "pin"
  let (suspend, q) := popAction q "suspend"
  let (modTags, q) := if pin then popAll q "module.tag" else ([], q)
  if values q "action" ≠ [] then do
    let (a, q) ← popLast r q "action"
    if a = "call" then do
      let (function, q) ← popFunction q
      let (instTags, q) := popAll q "instance.tag"
      let q ← popLog q
      noParams q
      perform (.call pin pin function modTags instTags)
    else if a = "launch" then do
      let (function, q) ← popFunction q
      let (inst, q) ← popOptional q "instance"
      let (instTags, q) := popAll q "instance.tag"
      let q ← popLog q
      noParams q
      perform (.launch pin suspend function inst modTags instTags)
    else fail "unsupported action"
  else
    if pin then do
      noParams q
      perform (.moduleUpload modTags)
    else fail "unsupported action"

/-- handler.go:550-596 `handlePostKnownModule`. handleCall requires authorization (930). -/
def postKnownModule (r : Req) : M Unit := do
  let q ← parseQuery r
  if (values q "action").length = 0 then do
    noParams q
    acceptsJSON r
    perform .moduleInfo
  else do
    let (suspend, q) := popAction q "suspend"
    let (a, q) ← popLast r q "action"
    if a = "call" then do
      let (function, q) ← popFunction q
      let (instTags, q) := popAll q "instance.tag"
      let q ← popLog q
      noParams q
      perform (.call false true function [] instTags)
    else if a = "launch" then do
      let (function, q) ← popFunction q
      let (inst, q) ← popOptional q "instance"
      let (instTags, q) := popAll q "instance.tag"
      let q ← popLog q
      noParams q
      noType r
      noBody r
      perform (.launch false suspend function inst [] instTags)
    else if a = "pin" then do
      let (modTags, q) := popAll q "module.tag"
      noParams q
      noType r
      noBody r
      perform (.modulePin modTags)
    else if a = "unpin" then do
      noParams q
      noType r
      noBody r
      perform .moduleUnpin
    else fail "unsupported action"

/-- handler.go:598-618 `handleGetModuleSource`. -/
def getModuleSource (r : Req) : M Unit := do
  let q ← parseQuery r
  let (pin, q) := popAction q "pin"
  let (modTags, q) := if pin then popAll q "module.tag" else ([], q)
  let (a, q) ← popLast r q "action"
  if a = "call" then do
    let (function, q) ← popFunction q
    let (instTags, q) := popAll q "instance.tag"
    let q ← popLog q
    noParams q
    perform (.call pin pin function modTags instTags)
  else fail "unsupported action"

/-- handler.go:620-666 `handlePostModuleSource`: the response to a suspended call (634-636) is not
followed by a return. -/
def postModuleSource (r : Req) : M Unit := do
  let q ← parseQuery r
  let (pin, q) := popAction q "pin"
  let (modTags, q) := if pin then popAll q "module.tag" else ([], q)
  if values q "action" ≠ [] then do
    let (suspend, q) := popAction q "suspend"
    let (a, q) ← popLast r q "action"
    if a = "call" then do
      if suspend then respond "unsupported action" else M.pure ()
      let (function, q) ← popFunction q
      let (instTags, q) := popAll q "instance.tag"
      let q ← popLog q
      noParams q
      perform (.call pin pin function modTags instTags)
    else if a = "launch" then do
      let (function, q) ← popFunction q
      let (inst, q) ← popOptional q "instance"
      let (instTags, q) := popAll q "instance.tag"
      let q ← popLog q
      noParams q
      noType r
      noBody r
      perform (.launch pin suspend function inst modTags instTags)
    else fail "unsupported action"
  else
    if pin then do
      noParams q
      noType r
      noBody r
      perform (.moduleSource modTags)
    else fail "unsupported action"

/-- handler.go:668-679 `handleGetInstance`. -/
def getInstance (r : Req) : M Unit := do
  let q ← parseQuery r
  let (a, q) ← popLast r q "action"
  if a = "io" then do
    noParams q
    perform .instanceIO
  else fail "unsupported action"

/-- handler.go:681-687 `handlePostInstances`. -/
def postInstances (r : Req) : M Unit := do
  noQuery r; noType r; noBody r; acceptsJSON r
  perform .instanceList

/-- handler.go:742-757, the loop: (kill, suspend, wait), none if an action is unknown. -/
def scanActions : List String → Bool × Bool × Bool → Option (Bool × Bool × Bool)
  | [], x => some x
  | a :: as, (k, s, w) =>
    if a = "kill" then scanActions as (true, s, w)
    else if a = "suspend" then scanActions as (k, true, w)
    else if a = "wait" then scanActions as (k, s, true)
    else none

/-- handler.go:737-775, after the first switch of `handlePostInstance`. -/
def postInstanceMulti (actions : List String) (q : Query) : M Unit :=
  match scanActions actions (false, false, false) with
  | none => fail "unsupported action"
  | some (kill, suspend, wait) =>
    if kill && !suspend then do noParams q; perform (.kill wait)
    else if suspend && !kill then do noParams q; perform (.suspend wait)
    else if wait && !kill && !suspend then do noParams q; perform .wait
    else fail "unsupported action"

/-- handler.go:689-775 `handlePostInstance`. -/
def postInstance (r : Req) : M Unit := do
  let q ← parseQuery r
  let (actions, q) := popAll q "action"
  match actions with
  | [] => do
    noParams q
    acceptsJSON r
    perform .instanceInfo
  | [a] =>
    if a = "io" then do noParams q; perform .instanceIO
    else if a = "resume" then do
      let (function, q) ← popFunction q
      let q ← popLog q
      noParams q
      perform (.resume function)
    else if a = "snapshot" then do
      let (modTags, q) := popAll q "module.tag"
      noParams q
      perform (.snapshot modTags)
    else if a = "delete" then do noParams q; perform .delete
    else if a = "update" then do noParams q; perform .update
    else if a = "debug" then do noParams q; perform .debug
    else postInstanceMulti [a] q
  | actions => postInstanceMulti actions q

end Gate.Web
