import Mathlib.Data.List.Basic
/-
C169: what a client is told. The handlers of the web API's actions: which operations of the server they ask for, what they answer, in which order, and what they release.

Simplified: the server's operations, the authorization, the decoding of the content and the program's input and output are arbitrary; strings are opaque except where they're concatenated; the error responses'
contents are C110's matter, and the requests' parameters C48's and C72's.
-/
namespace Gate.WebResp

/-- Operations of the server (server.go), with their arguments. `Launch` is serverapi.LaunchOptions, `Pin` serverapi.ModuleOptions. -/
structure Launch where
  function : String
  instance_ : String := ""
  transient : Bool := false
  suspend : Bool := false
  tags : List String
deriving DecidableEq, Repr

structure Pin where
  pin : Bool
  tags : List String
deriving DecidableEq, Repr

inductive Call where
  | modules
  | moduleInfo (key : String)
  | moduleContent (key : String)
  | uploadModule (key : String) (length : Int) (pin : Pin)
  | sourceModule (uri : String) (pin : Pin)
  | pinModule (key : String) (pin : Pin)
  | unpinModule (key : String)
  | newInstance (key : String) (l : Launch)
  | uploadModuleInstance (key : String) (length : Int) (pin : Pin) (l : Launch)
  | sourceModuleInstance (uri : String) (pin : Pin) (l : Launch)
  | instances
  | instanceInfo (id : String)
  | waitInstance (id : String)
  | killInstance (id : String)
  | suspendInstance (id : String)
  | resumeInstance (id : String) (function : String)
  | instanceConnection (id : String)
  | snapshot (id : String) (pin : Pin)
  | deleteInstance (id : String)
  | updateInstance (id : String)
  | debugInstance (id : String)
deriving DecidableEq, Repr

/-- What an operation has given: the module's name, the instance's id, its connection, and the JSON text of what was asked for. -/
structure Given where
  module_ : String := ""
  inst : String := ""
  /-- InstanceConnection: there is a connection. -/
  conn : Bool := false
  json : String := ""
  length : Nat := 0
deriving DecidableEq, Repr

/-- The request and the world. -/
structure Env where
  /-- mustParseAuthorization, jwt.go:21-28: it has responded and panicked, or the principal's id, if there is one; by whether it's required. -/
  auth : Bool → Option (Option String)
  /-- mustDecodeContent, content.go:17-46: it has succeeded. -/
  decodes : Bool
  /-- mustHaveContentType(JSON), request.go. -/
  jsonType : Bool
  /-- protojson.Decode of the body. -/
  parses : Bool
  acceptsJSON : Bool
  acceptsTrailers : Bool
  head : Bool
  /-- r.ContentLength -/
  length : Int
  /-- s.pathKnownModules -/
  path : String
  call : Call → Except Nat Given
  /-- The result of connIO, of inst.Connect, and the JSON text of the instance's status after it. -/
  ioFails : Bool
  status : String
  /-- Websocket: the upgrade succeeds, the first message is a request, with its content type and length; there is a next frame, and it's a binary one; the first message can be sent. -/
  upgrades : Bool := true
  request : Option (String × Int) := none
  frame : Option Bool := none
  sends : Bool := true

/-- What the handlers do, in order. -/
inductive Act where
  | call (c : Call)
  /-- The stream of an upload, or of a module's content, being closed by the deferred call. -/
  | closeContent
  | connect (id : String)
  | wait (id : String)
  | kill (id : String)
deriving DecidableEq, Repr

inductive Part where
  | text (s : String)
  /-- The content of a module: io.Copy. -/
  | module_ (key : String)
  /-- The output of a program. -/
  | output (id : String)
deriving DecidableEq, Repr

/-- Messages of a websocket connection: api.CallConnection (a missing string is an empty one), IOConnection, the program's output, ConnectionStatus, and closing. -/
inductive Msg where
  | reply (location inst : String)
  | connected (b : Bool)
  | output (id : String)
  | status (s : String)
  | close (reason : String)
deriving DecidableEq, Repr

/-- net/http's ResponseWriter: the header map, what was sent at WriteHeader (the status code and the map at the time), and the body. `failed`: an error response (respondServerError and others). -/
structure S where
  header : List (String × String) := []
  sent : Option (Nat × List (String × String)) := none
  body : List Part := []
  failed : Bool := false
  /-- respondServerError's error. -/
  error : Option Nat := none
  acts : List Act := []
  deferred : List Act := []
  msgs : List Msg := []
deriving DecidableEq, Repr

/-- A handler's part: the value is none when the handler has returned or panicked. -/
def H (α : Type) := Env → S → Option α × S

def H.bind {α β : Type} (m : H α) (f : α → H β) : H β := fun e s =>
  match m e s with
  | (some a, s') => f a e s'
  | (none, s') => (none, s')

instance : Monad H where
  pure a := fun _ s => (some a, s)
  bind := H.bind

def get {α : Type} (f : Env → α) : H α := fun e s => (some (f e), s)

/-- w.Header().Set -/
def set (k v : String) : H Unit := fun _ s => (some (), { s with header := s.header.filter (fun p => p.1 ≠ k) ++ [(k, v)] })

/-- w.WriteHeader: only the first one counts. -/
def writeHeader (n : Nat) : H Unit := fun _ s => (some (), { s with sent := s.sent.or (some (n, s.header)) })

/-- w.Write, io.Copy: with status 200, if nothing has been sent. -/
def write (p : Part) : H Unit := fun _ s => (some (), { s with sent := s.sent.or (some (200, s.header)), body := s.body ++ [p] })

def act (a : Act) : H Unit := fun _ s => (some (), { s with acts := s.acts ++ [a] })

def later (a : Act) : H Unit := fun _ s => (some (), { s with deferred := a :: s.deferred })

/-- An error response, after which the handler returns or panics. -/
def refuse {α : Type} (err : Option Nat) : H α := fun _ s => (none, { s with failed := true, error := err })

/-- return -/
def done {α : Type} : H α := fun _ s => (none, s)

/-- mustParseAuthorizationHeader, request.go:266-284. -/
def authorize (required : Bool) : H (Option String) := fun e s =>
  match e.auth required with
  | none => (none, { s with failed := true })
  | some p => (some p, s)

/-- mustDecodeContent, and moduleUpload with its deferred Close. -/
def openUpload : H Unit := do
  let ok ← get (·.decodes)
  if ok then later .closeContent else refuse none

/-- An operation of the server, and respondServerError. -/
def ask (c : Call) : H Given := fun e s =>
  match e.call c with
  | .ok g => (some g, { s with acts := s.acts ++ [.call c] })
  | .error x => (none, { s with acts := s.acts ++ [.call c], failed := true, error := some x })

/-- A JSON response: Content-Length, Content-Type, 200 and the content. -/
def respondJSON (j : String) : H Unit := do
  set "Content-Length" (toString j.utf8ByteSize)
  set "Content-Type" "application/json; charset=utf-8"
  writeHeader 200
  write (.text j)

/-- handler.go:787-804 -/
def moduleList : H Unit := do
  let _ ← authorize true
  let g ← ask .modules
  respondJSON g.json

/-- handler.go:806-822 -/
def knownModule (key : String) : H Unit := do
  let _ ← authorize true
  let g ← ask (.moduleInfo key)
  respondJSON g.json

/-- handler.go:824-843 -/
def moduleDownload (key : String) : H Unit := do
  let _ ← authorize true
  let g ← ask (.moduleContent key)
  later .closeContent
  set "Content-Length" (toString g.length)
  set "Content-Type" "application/wasm"
  writeHeader 200
  let head ← get (·.head)
  if head then pure () else write (.module_ key)

/-- handler.go:845-858 -/
def moduleUpload (key : String) (tags : List String) : H Unit := do
  let _ ← authorize true
  openUpload
  let n ← get (·.length)
  let _ ← ask (.uploadModule key n ⟨true, tags⟩)
  writeHeader 201

/-- handler.go:860-873 -/
def moduleSource (uri : String) (tags : List String) : H Unit := do
  let _ ← authorize true
  let g ← ask (.sourceModule uri ⟨true, tags⟩)
  let path ← get (·.path)
  set "Location" (path ++ g.module_)
  writeHeader 201

/-- handler.go:875-886 -/
def modulePin (key : String) (tags : List String) : H Unit := do
  let _ ← authorize true
  let _ ← ask (.pinModule key ⟨true, tags⟩)
  writeHeader 204

/-- handler.go:888-899 -/
def moduleUnpin (key : String) : H Unit := do
  let _ ← authorize true
  let _ ← ask (.unpinModule key)
  writeHeader 204

/-- How the program of a call or launch is found. -/
inductive From where
  | content | known | source
deriving DecidableEq, Repr

/-- The beginning of handleCall, handler.go:912-950: the principal, the module's name and the instance's id. -/
def callInstance (f : From) (pin : Bool) (key : String) (mt : List String) (l : Launch) : H (Option String × String × String) :=
  match f with
  | .content => do
    let p ← authorize pin
    openUpload
    let n ← get (·.length)
    let g ← ask (.uploadModuleInstance key n ⟨pin, mt⟩ l)
    pure (p, key, g.inst)
  | .known => do
    let p ← authorize true
    let g ← ask (.newInstance key l)
    pure (p, key, g.inst)
  | .source => do
    let p ← authorize pin
    let g ← ask (.sourceModuleInstance key ⟨pin, mt⟩ l)
    pure (p, g.module_, g.inst)

/-- handler.go:953-956 and 972-974: the status trailer. -/
def announceTrailer : H Unit := do
  let t ← get (·.acceptsTrailers)
  if t then set "Trailer" "Gate-Status" else pure ()

def statusTrailer : H Unit := do
  let t ← get (·.acceptsTrailers)
  let st ← get (·.status)
  if t then set "Gate-Status" st else pure ()

/-- handler.go:958-963 -/
def tellCaller (p : Option String) (pin : Bool) (module_ inst : String) : H Unit := do
  let path ← get (·.path)
  match p with
  | none => pure ()
  | some _ => do
    if pin then set "Location" (path ++ module_) else pure ()
    set "Gate-Instance" inst

def created (pin : Bool) (other : Nat) : H Unit := if pin then writeHeader 201 else writeHeader other

/-- inst.Connect and connIO with the response writer: what the program writes goes there at once, which sends the header with status 200 if it hasn't been sent. -/
def connectTo (id : String) : H Unit := do
  act (.connect id)
  write (.output id)

/-- handler.go:901-975 `handleCall`. -/
def call (f : From) (pin : Bool) (key function : String) (mt it : List String) : H Unit := do
  let r ← callInstance f pin key mt { function := function, transient := true, tags := it }
  later (.kill r.2.2)
  announceTrailer
  tellCaller r.1 pin r.2.1 r.2.2
  created pin 200
  connectTo r.2.2
  act (.wait r.2.2)
  statusTrailer

/-- handler.go:1118-1158 `handleLaunch`, and handler.go:1160-1189 `handleLaunchUpload` (From.content). -/
def launchInstance (f : From) (pin : Bool) (key : String) (mt : List String) (l : Launch) : H (String × String) :=
  match f with
  | .content => do
    openUpload
    let n ← get (·.length)
    let g ← ask (.uploadModuleInstance key n ⟨pin, mt⟩ l)
    pure (key, g.inst)
  | .known => do
    let g ← ask (.newInstance key l)
    pure (key, g.inst)
  | .source => do
    let g ← ask (.sourceModuleInstance key ⟨pin, mt⟩ l)
    pure (g.module_, g.inst)

def launch (f : From) (pin : Bool) (key function instance_ : String) (mt it : List String) (suspend : Bool) : H Unit := do
  let _ ← authorize true
  let r ← launchInstance f pin key mt { function := function, instance_ := instance_, suspend := suspend, tags := it }
  set "Gate-Instance" r.2
  let path ← get (·.path)
  if pin then do
    set "Location" (path ++ r.1)
    writeHeader 201
  else writeHeader 204

/-- handler.go:1191-1208 -/
def instanceList : H Unit := do
  let _ ← authorize true
  let g ← ask .instances
  respondJSON g.json

/-- handler.go:1210-1221 `handleInstance`, of DeleteInstance. -/
def instanceDelete (id : String) : H Unit := do
  let _ ← authorize true
  let _ ← ask (.deleteInstance id)
  writeHeader 204

/-- handler.go:1223-1239 -/
def instanceInfo (id : String) : H Unit := do
  let _ ← authorize true
  let g ← ask (.instanceInfo id)
  respondJSON g.json

/-- handler.go:1241-1254 `handleInstanceStatus`, of WaitInstance. -/
def instanceStatus (id : String) : H Unit := do
  let _ ← authorize true
  let g ← ask (.waitInstance id)
  set "Gate-Status" g.json
  writeHeader 204

/-- handler.go:1256-1273 `handleInstanceWaiter`: of KillInstance or SuspendInstance. -/
def instanceWaiter (c : Call) (wait : Bool) : H Unit := do
  let _ ← authorize true
  let g ← ask c
  if wait then do
    act (.wait g.inst)
    let st ← get (·.status)
    set "Gate-Status" st
  else pure ()
  writeHeader 204

/-- handler.go:1275-1287 -/
def instanceResume (id function : String) : H Unit := do
  let _ ← authorize true
  let _ ← ask (.resumeInstance id function)
  writeHeader 204

/-- handler.go:1289-1324 `handleInstanceConnect`. -/
def instanceConnect (id : String) : H Unit := do
  let _ ← authorize true
  openUpload
  let g ← ask (.instanceConnection id)
  if g.conn then do
    announceTrailer
    writeHeader 200
    connectTo g.inst
    let bad ← get (·.ioFails)
    if bad then done else statusTrailer
  else writeHeader 409

/-- handler.go:1392-1405 -/
def instanceSnapshot (id : String) (mt : List String) : H Unit := do
  let _ ← authorize true
  let g ← ask (.snapshot id ⟨true, mt⟩)
  let path ← get (·.path)
  set "Location" (path ++ g.module_)
  writeHeader 201

/-- mustHaveContentType. -/
def jsonOnly : H Unit := do
  let ok ← get (·.jsonType)
  if ok then pure () else refuse none

/-- protojson.Decode, respondContentParseError. -/
def parseBody : H Unit := do
  let ok ← get (·.parses)
  if ok then pure () else refuse none

/-- handler.go:1407-1435 -/
def instanceUpdate (id : String) : H Unit := do
  jsonOnly
  let _ ← authorize true
  parseBody
  let g ← ask (.updateInstance id)
  let acc ← get (·.acceptsJSON)
  if acc then respondJSON g.json else writeHeader 204

/-- handler.go:1437-1460 -/
def instanceDebug (id : String) : H Unit := do
  jsonOnly
  let _ ← authorize true
  parseBody
  let g ← ask (.debugInstance id)
  respondJSON g.json

/-! ### Websocket -/

def send (m : Msg) : H Unit := fun _ s => (some (), { s with msgs := s.msgs ++ [m] })

/-- A message whose failure ends the handler. -/
def mustSend (m : Msg) : H Unit := fun e s => if e.sends then (some (), { s with msgs := s.msgs ++ [m] }) else (none, s)

/-- handler.go:978-1007: the upgrade, and the first message. -/
def wsRequest : H (String × Int) := fun e s =>
  match e.upgrades, e.request with
  | true, some r => (some r, s)
  | _, _ => (none, s)

/-- handler.go:1009-1034: the content type. -/
def wsFrom (source : Bool) (ctype : String) : H From :=
  if ctype = "application/wasm" then
    if source then do
      send (.close "content not supported by action")
      done
    else pure .content
  else if ctype = "" then pure (if source then .source else .known)
  else do
    send (.close "unsupported content type")
    done

/-- handler.go:1051-1060: the frame of the content, and the deferred Close. -/
def wsFrame : H Unit := do
  let f ← get (·.frame)
  match f with
  | none => done
  | some true => later .closeContent
  | some false => do
    send (.close "")
    done

/-- handler.go:1048-1088 -/
def wsInstance (f : From) (pin : Bool) (key : String) (n : Int) (mt : List String) (l : Launch) : H (Option String × String × String) :=
  match f with
  | .content => do
    let p ← authorize pin
    wsFrame
    let g ← ask (.uploadModuleInstance key n ⟨pin, mt⟩ l)
    pure (p, key, g.inst)
  | .known => do
    let p ← authorize false
    let g ← ask (.newInstance key l)
    pure (p, key, g.inst)
  | .source => do
    let p ← authorize pin
    let g ← ask (.sourceModuleInstance key ⟨pin, mt⟩ l)
    pure (p, g.module_, g.inst)

/-- handler.go:1091-1098 -/
def wsReply (path : String) (p : Option String) (pin : Bool) (module_ inst : String) : Msg :=
  match p with
  | none => .reply "" ""
  | some _ => .reply (if pin then path ++ module_ else "") inst

/-- handler.go:977-1116 `handleCallWebsocket`. -/
def callWebsocket (source : Bool) (pin : Bool) (key function : String) (mt it : List String) : H Unit := do
  let r ← wsRequest
  let f ← wsFrom source r.1
  let i ← wsInstance f pin key r.2 mt { function := function, transient := true, tags := it }
  later (.kill i.2.2)
  let path ← get (·.path)
  mustSend (wsReply path i.1 pin i.2.1 i.2.2)
  act (.connect i.2.2)
  send (.output i.2.2)
  act (.wait i.2.2)
  let st ← get (·.status)
  send (.status st)
  send (.close "")

/-- handler.go:1326-1390 `handleInstanceConnectWebsocket`. -/
def connectWebsocket (id : String) : H Unit := do
  let _ ← wsRequest
  let _ ← authorize true
  let g ← ask (.instanceConnection id)
  mustSend (.connected g.conn)
  if g.conn then do
    act (.connect g.inst)
    send (.output g.inst)
    let bad ← get (·.ioFails)
    if bad then done else do
      let st ← get (·.status)
      send (.status st)
      send (.close "")
  else send (.close "not connected")

/-- The end of a request: deferred calls. Without a WriteHeader, net/http answers 200. -/
def finish (h : H Unit) (e : Env) : S :=
  let s := (h e {}).2
  { s with acts := s.acts ++ s.deferred, deferred := [] }

/-- The actions of the API. -/
inductive Action where
  | moduleList
  | knownModule (key : String)
  | moduleDownload (key : String)
  | moduleUpload (key : String) (tags : List String)
  | moduleSource (uri : String) (tags : List String)
  | modulePin (key : String) (tags : List String)
  | moduleUnpin (key : String)
  | call (f : From) (pin : Bool) (key function : String) (mt it : List String)
  | launch (f : From) (pin : Bool) (key function instance_ : String) (mt it : List String) (suspend : Bool)
  | instanceList
  | instanceDelete (id : String)
  | instanceInfo (id : String)
  | instanceStatus (id : String)
  | instanceKill (id : String) (wait : Bool)
  | instanceSuspend (id : String) (wait : Bool)
  | instanceResume (id function : String)
  | instanceConnect (id : String)
  | instanceSnapshot (id : String) (mt : List String)
  | instanceUpdate (id : String)
  | instanceDebug (id : String)
  | callWebsocket (source : Bool) (pin : Bool) (key function : String) (mt it : List String)
  | connectWebsocket (id : String)
deriving DecidableEq, Repr

def handler : Action → H Unit
  | .moduleList => moduleList
  | .knownModule k => knownModule k
  | .moduleDownload k => moduleDownload k
  | .moduleUpload k t => moduleUpload k t
  | .moduleSource u t => moduleSource u t
  | .modulePin k t => modulePin k t
  | .moduleUnpin k => moduleUnpin k
  | .call f p k fn mt it => call f p k fn mt it
  | .launch f p k fn i mt it s => launch f p k fn i mt it s
  | .instanceList => instanceList
  | .instanceDelete i => instanceDelete i
  | .instanceInfo i => instanceInfo i
  | .instanceStatus i => instanceStatus i
  | .instanceKill i w => instanceWaiter (.killInstance i) w
  | .instanceSuspend i w => instanceWaiter (.suspendInstance i) w
  | .instanceResume i f => instanceResume i f
  | .instanceConnect i => instanceConnect i
  | .instanceSnapshot i t => instanceSnapshot i t
  | .instanceUpdate i => instanceUpdate i
  | .instanceDebug i => instanceDebug i
  | .callWebsocket s p k f mt it => callWebsocket s p k f mt it
  | .connectWebsocket i => connectWebsocket i

/-- What is there after an action. -/
def serve (a : Action) (e : Env) : S := finish (handler a) e

end Gate.WebResp
