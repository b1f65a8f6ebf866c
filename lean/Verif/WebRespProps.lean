import Verif.WebResp
namespace Gate.WebResp

/-! ### Specification -/

/-- What an action is for: whether it needs authorization, content (an upload or input), and a JSON body; and the operation. -/
structure Plan where
  auth : Bool
  content : Bool := false
  json : Bool := false
  op : Call

/-- A program may be called by anyone if it isn't kept. -/
def transientLaunch (function : String) (tags : List String) : Launch := { function := function, transient := true, tags := tags }

def plan (e : Env) : Action → Plan
  | .moduleList => { auth := true, op := .modules }
  | .knownModule k => { auth := true, op := .moduleInfo k }
  | .moduleDownload k => { auth := true, op := .moduleContent k }
  | .moduleUpload k t => { auth := true, content := true, op := .uploadModule k e.length ⟨true, t⟩ }
  | .moduleSource u t => { auth := true, op := .sourceModule u ⟨true, t⟩ }
  | .modulePin k t => { auth := true, op := .pinModule k ⟨true, t⟩ }
  | .moduleUnpin k => { auth := true, op := .unpinModule k }
  | .call .content p k f mt it => { auth := p, content := true, op := .uploadModuleInstance k e.length ⟨p, mt⟩ (transientLaunch f it) }
  | .call .known _ k f _ it => { auth := true, op := .newInstance k (transientLaunch f it) }
  | .call .source p k f mt it => { auth := p, op := .sourceModuleInstance k ⟨p, mt⟩ (transientLaunch f it) }
  | .launch .content p k f i mt it s => { auth := true, content := true, op := .uploadModuleInstance k e.length ⟨p, mt⟩ ⟨f, i, false, s, it⟩ }
  | .launch .known _ k f i _ it s => { auth := true, op := .newInstance k ⟨f, i, false, s, it⟩ }
  | .launch .source p k f i mt it s => { auth := true, op := .sourceModuleInstance k ⟨p, mt⟩ ⟨f, i, false, s, it⟩ }
  | .instanceList => { auth := true, op := .instances }
  | .instanceDelete i => { auth := true, op := .deleteInstance i }
  | .instanceInfo i => { auth := true, op := .instanceInfo i }
  | .instanceStatus i => { auth := true, op := .waitInstance i }
  | .instanceKill i _ => { auth := true, op := .killInstance i }
  | .instanceSuspend i _ => { auth := true, op := .suspendInstance i }
  | .instanceResume i f => { auth := true, op := .resumeInstance i f }
  | .instanceConnect i => { auth := true, content := true, op := .instanceConnection i }
  | .instanceSnapshot i t => { auth := true, op := .snapshot i ⟨true, t⟩ }
  | .instanceUpdate i => { auth := true, json := true, op := .updateInstance i }
  | .instanceDebug i => { auth := true, json := true, op := .debugInstance i }
  | .callWebsocket .. => { auth := true, op := .modules }
  | .connectWebsocket _ => { auth := true, op := .modules }

/-- Not a websocket action. -/
def Http : Action → Bool
  | .callWebsocket .. => false
  | .connectWebsocket _ => false
  | _ => true

/-- The request may be carried out, as far as the handler is concerned. -/
def allowed (e : Env) (p : Plan) : Bool := (!p.json || (e.jsonType && e.parses)) && (e.auth p.auth).isSome && (!p.content || e.decodes)

/-- The status code of success. -/
def code (e : Env) (g : Given) : Action → Nat
  | .moduleUpload .. | .moduleSource .. | .instanceSnapshot .. => 201
  | .call _ p .. => if p then 201 else 200
  | .launch _ p .. => if p then 201 else 204
  | .modulePin .. | .moduleUnpin _ | .instanceDelete _ | .instanceStatus _ | .instanceKill .. | .instanceSuspend .. | .instanceResume .. => 204
  | .instanceConnect _ => if g.conn then 200 else 409
  | .instanceUpdate _ => if e.acceptsJSON then 200 else 204
  | _ => 200

/-- The operations asked for. -/
def asked (s : S) : List Call := s.acts.filterMap fun a => match a with
  | .call c => some c
  | _ => none

theorem bind_eq {α β : Type} (m : H α) (f : α → H β) (e : Env) (s : S) : (m >>= f) e s = match m e s with
    | (some a, s') => f a e s'
    | (none, s') => (none, s') := rfl

theorem pure_eq {α : Type} (a : α) (e : Env) (s : S) : (pure a : H α) e s = (some a, s) := rfl

theorem ite_eq {α : Type} (c : Prop) [Decidable c] (m n : H α) (e : Env) (s : S) : (if c then m else n) e s = if c then m e s else n e s := by split <;> rfl

/-- What is to be shown of an action: what the server was asked for, and how the client was answered. -/
def Answered (a : Action) (e : Env) : Prop :=
    asked (serve a e) = (if allowed e (plan e a) then [(plan e a).op] else []) ∧
    (allowed e (plan e a) = false → (serve a e).failed = true ∧ (serve a e).sent = none ∧ (serve a e).error = none) ∧
    (allowed e (plan e a) = true → ∀ x, e.call (plan e a).op = .error x → (serve a e).failed = true ∧ (serve a e).sent = none ∧ (serve a e).error = some x) ∧
    (allowed e (plan e a) = true → ∀ g, e.call (plan e a).op = .ok g → (serve a e).failed = false ∧ (serve a e).sent.map Prod.fst = some (code e g a))

/-- The routing refuses to keep a module which is already known (handler.go:566-590), so such an action comes without it. -/
def Routed : Action → Bool
  | .call .known p .. => !p
  | .launch .known p .. => !p
  | _ => true

/-- The value of a header. -/
def hdr : List (String × String) → String → Option String
  | [], _ => none
  | p :: l, k => if p.1 = k then some p.2 else hdr l k

/-- The headers there may be. -/
def names : List String := ["Location", "Gate-Instance", "Gate-Status", "Content-Length", "Content-Type", "Trailer"]

/-- There are no other headers. -/
def Among : List (String × String) → Prop
  | [] => True
  | p :: l => p.1 ∈ names ∧ Among l

/-- What a client must be told, by header, when the operation has given `g`: where the kept module is if the client doesn't know it for sure, what the instance is called, how it is, and what follows. -/
def told (e : Env) (g : Given) : Action → String → Option String
  | .moduleList, k | .knownModule _, k | .instanceList, k | .instanceInfo _, k | .instanceDebug _, k =>
    if k = "Content-Length" then some (toString g.json.utf8ByteSize) else if k = "Content-Type" then some "application/json; charset=utf-8" else none
  | .instanceUpdate _, k =>
    if e.acceptsJSON then if k = "Content-Length" then some (toString g.json.utf8ByteSize) else if k = "Content-Type" then some "application/json; charset=utf-8" else none
    else none
  | .moduleDownload _, k => if k = "Content-Length" then some (toString g.length) else if k = "Content-Type" then some "application/wasm" else none
  | .moduleSource .., k | .instanceSnapshot .., k => if k = "Location" then some (e.path ++ g.module_) else none
  | .call f p key .., k =>
    if k = "Location" then if p then some (e.path ++ if f = .content then key else g.module_) else none
    else if k = "Gate-Instance" then if (e.auth (p || f = .known)).bind id = none then none else some g.inst
    else if k = "Trailer" then if e.acceptsTrailers then some "Gate-Status" else none
    else none
  | .launch f p key .., k =>
    if k = "Location" then if p then some (e.path ++ if f = .content then key else g.module_) else none
    else if k = "Gate-Instance" then some g.inst
    else none
  | .instanceStatus _, k => if k = "Gate-Status" then some g.json else none
  | .instanceKill _ w, k | .instanceSuspend _ w, k => if k = "Gate-Status" then if w then some e.status else none else none
  | .instanceConnect _, k => if k = "Trailer" then if g.conn && e.acceptsTrailers then some "Gate-Status" else none else none
  | _, _ => none

/-- The trailer: how the program is after a call, or after a connection which ended well. -/
def trailer (e : Env) (g : Given) : Action → Option String
  | .call .. => if e.acceptsTrailers then some e.status else none
  | .instanceConnect _ => if g.conn && e.acceptsTrailers && !e.ioFails then some e.status else none
  | _ => none

/-- The status in the header map after the response's beginning was sent is what goes as a trailer. -/
def later_ (s : S) : Option String := match s.sent with
  | none => none
  | some (_, h) => if (hdr h "Gate-Status").isSome then none else hdr s.header "Gate-Status"

def Told (a : Action) (e : Env) : Prop :=
    allowed e (plan e a) = true → ∀ g, e.call (plan e a).op = .ok g → ∃ n h, (serve a e).sent = some (n, h) ∧ Among h ∧ (∀ k ∈ names, hdr h k = told e g a k) ∧ later_ (serve a e) = trailer e g a

/-- What a handler opens. -/
def opens (a : Action) (ok : Bool) : Bool := match a with
  | .moduleUpload .. => true
  | .call .content .. => true
  | .launch .content .. => true
  | .instanceConnect _ => true
  | .moduleDownload _ => ok
  | _ => false

/-- What is done beside the operation itself: a called program's input and output are carried, it's waited for and then killed; a killed or suspended one is waited for, if that's asked for. -/
def does (g : Given) : Action → List Act
  | .call .. => [.connect g.inst, .wait g.inst, .kill g.inst]
  | .instanceKill _ w => if w then [.wait g.inst] else []
  | .instanceSuspend _ w => if w then [.wait g.inst] else []
  | .instanceConnect _ => if g.conn then [.connect g.inst] else []
  | _ => []

def Did (a : Action) (e : Env) : Prop :=
    (allowed e (plan e a) = false → (serve a e).acts = []) ∧
    (allowed e (plan e a) = true → ∀ x, e.call (plan e a).op = .error x → (serve a e).acts = [.call (plan e a).op] ++ if opens a false then [.closeContent] else []) ∧
    (allowed e (plan e a) = true → ∀ g, e.call (plan e a).op = .ok g → (serve a e).acts = [.call (plan e a).op] ++ does g a ++ if opens a true then [.closeContent] else [])

/-- The contents of the response. -/
def gives (e : Env) (g : Given) : Action → List Part
  | .moduleList | .knownModule _ | .instanceList | .instanceInfo _ | .instanceDebug _ => [.text g.json]
  | .instanceUpdate _ => if e.acceptsJSON then [.text g.json] else []
  | .moduleDownload k => if e.head then [] else [.module_ k]
  | .call .. => [.output g.inst]
  | .instanceConnect _ => if g.conn then [.output g.inst] else []
  | _ => []

def Gave (a : Action) (e : Env) : Prop :=
    (allowed e (plan e a) = false → (serve a e).body = []) ∧
    (allowed e (plan e a) = true → ∀ x, e.call (plan e a).op = .error x → (serve a e).body = []) ∧
    (allowed e (plan e a) = true → ∀ g, e.call (plan e a).op = .ok g → (serve a e).body = gives e g a)

macro "unf" : tactic => `(tactic| simp [*, Answered, Told, Among, Did, Gave, names, hdr, told, later_, does, gives, trailer, opens, serve, finish, handler, moduleList, knownModule, moduleDownload, moduleUpload, moduleSource, modulePin, moduleUnpin, call, callInstance, launch, launchInstance, connectTo,
  instanceList, instanceDelete, instanceInfo, instanceStatus, instanceWaiter, instanceResume, instanceConnect, instanceSnapshot, instanceUpdate, instanceDebug, jsonOnly, parseBody, created, tellCaller, announceTrailer, statusTrailer,
  plan, allowed, asked, code, transientLaunch, respondJSON, bind_eq, pure_eq, ite_eq, authorize, ask, set, get, writeHeader, write, openUpload, later, refuse, act, done])

set_option maxHeartbeats 2000000 in
/-- Exactly the action's operation is asked for, and only if the request is authorized and well-formed; a refusal or a failure is answered with an error response, the failure's own, and a success with its status code. -/
theorem answered (a : Action) (e : Env) (ha : Http a = true) : Answered a e := by
  cases a
  case callWebsocket => cases ha
  case connectWebsocket => cases ha
  case moduleList =>
    cases h1 : e.auth true <;> cases h2 : e.call (.modules) <;> unf
  case knownModule k =>
    cases h1 : e.auth true <;> cases h2 : e.call (.moduleInfo k) <;> unf
  case moduleDownload k =>
    cases h1 : e.auth true <;> cases h2 : e.call (.moduleContent k) <;> cases h3 : e.head <;> unf
  case moduleUpload k t =>
    cases h1 : e.auth true <;> cases h2 : e.call (.uploadModule k e.length ⟨true, t⟩) <;> cases h3 : e.decodes <;> unf
  case moduleSource u t =>
    cases h1 : e.auth true <;> cases h2 : e.call (.sourceModule u ⟨true, t⟩) <;> unf
  case modulePin k t =>
    cases h1 : e.auth true <;> cases h2 : e.call (.pinModule k ⟨true, t⟩) <;> unf
  case moduleUnpin k =>
    cases h1 : e.auth true <;> cases h2 : e.call (.unpinModule k) <;> unf
  case instanceList =>
    cases h1 : e.auth true <;> cases h2 : e.call (.instances) <;> unf
  case instanceDelete i =>
    cases h1 : e.auth true <;> cases h2 : e.call (.deleteInstance i) <;> unf
  case instanceInfo i =>
    cases h1 : e.auth true <;> cases h2 : e.call (.instanceInfo i) <;> unf
  case instanceStatus i =>
    cases h1 : e.auth true <;> cases h2 : e.call (.waitInstance i) <;> unf
  case instanceKill i w =>
    cases h1 : e.auth true <;> cases h2 : e.call (.killInstance i) <;> cases h3 : w <;> unf
  case instanceSuspend i w =>
    cases h1 : e.auth true <;> cases h2 : e.call (.suspendInstance i) <;> cases h3 : w <;> unf
  case instanceResume i f =>
    cases h1 : e.auth true <;> cases h2 : e.call (.resumeInstance i f) <;> unf
  case instanceSnapshot i t =>
    cases h1 : e.auth true <;> cases h2 : e.call (.snapshot i ⟨true, t⟩) <;> unf
  case instanceUpdate i =>
    cases h1 : e.auth true <;> cases h2 : e.call (.updateInstance i) <;> cases h3 : e.jsonType <;> cases h4 : e.parses <;> cases h5 : e.acceptsJSON <;> unf
  case instanceDebug i =>
    cases h1 : e.auth true <;> cases h2 : e.call (.debugInstance i) <;> cases h3 : e.jsonType <;> cases h4 : e.parses <;> unf
  case instanceConnect i =>
    cases h1 : e.auth true <;> cases h2 : e.decodes <;> cases h3 : e.call (.instanceConnection i) with
    | error => unf
    | ok g => cases h4 : g.conn <;> cases h5 : e.acceptsTrailers <;> cases h6 : e.ioFails <;> unf
  case launch f p k fn i mt it s =>
    cases f
    · cases h1 : e.auth true <;> cases h2 : e.call (.uploadModuleInstance k e.length ⟨p, mt⟩ ⟨fn, i, false, s, it⟩) <;> cases h3 : e.decodes <;> cases p <;> unf
    · cases h1 : e.auth true <;> cases h2 : e.call (.newInstance k ⟨fn, i, false, s, it⟩) <;> cases p <;> unf
    · cases h1 : e.auth true <;> cases h2 : e.call (.sourceModuleInstance k ⟨p, mt⟩ ⟨fn, i, false, s, it⟩) <;> cases p <;> unf
  case call f p k fn mt it =>
    cases f
    · cases h1 : e.auth p with
      | none => cases h2 : e.call (.uploadModuleInstance k e.length ⟨p, mt⟩ ⟨fn, "", true, false, it⟩) <;> cases h3 : e.decodes <;> cases p <;> unf
      | some q => cases q <;> cases h2 : e.call (.uploadModuleInstance k e.length ⟨p, mt⟩ ⟨fn, "", true, false, it⟩) <;> cases h3 : e.decodes <;> cases h4 : e.acceptsTrailers <;> cases p <;> unf
    · cases h1 : e.auth true with
      | none => cases h2 : e.call (.newInstance k ⟨fn, "", true, false, it⟩) <;> cases p <;> unf
      | some q => cases q <;> cases h2 : e.call (.newInstance k ⟨fn, "", true, false, it⟩) <;> cases h4 : e.acceptsTrailers <;> cases p <;> unf
    · cases h1 : e.auth p with
      | none => cases h2 : e.call (.sourceModuleInstance k ⟨p, mt⟩ ⟨fn, "", true, false, it⟩) <;> cases p <;> unf
      | some q => cases q <;> cases h2 : e.call (.sourceModuleInstance k ⟨p, mt⟩ ⟨fn, "", true, false, it⟩) <;> cases h4 : e.acceptsTrailers <;> cases p <;> unf

set_option maxHeartbeats 2000000 in
/-- The headers of a successful response, and its trailer, are exactly what the client must be told. -/
theorem told_ (a : Action) (e : Env) (ha : Http a = true) (hr : Routed a = true) (hp : e.auth true ≠ some none) : Told a e := by
  cases a
  case callWebsocket => cases ha
  case connectWebsocket => cases ha
  case moduleList =>
    cases h1 : e.auth true <;> cases h2 : e.call (.modules) <;> first | exact absurd h1 hp | (exfalso; revert hr; simp [Routed]; done) | unf
  case knownModule k =>
    cases h1 : e.auth true <;> cases h2 : e.call (.moduleInfo k) <;> first | exact absurd h1 hp | (exfalso; revert hr; simp [Routed]; done) | unf
  case moduleDownload k =>
    cases h1 : e.auth true <;> cases h2 : e.call (.moduleContent k) <;> cases h3 : e.head <;> first | exact absurd h1 hp | (exfalso; revert hr; simp [Routed]; done) | unf
  case moduleUpload k t =>
    cases h1 : e.auth true <;> cases h2 : e.call (.uploadModule k e.length ⟨true, t⟩) <;> cases h3 : e.decodes <;> first | exact absurd h1 hp | (exfalso; revert hr; simp [Routed]; done) | unf
  case moduleSource u t =>
    cases h1 : e.auth true <;> cases h2 : e.call (.sourceModule u ⟨true, t⟩) <;> first | exact absurd h1 hp | (exfalso; revert hr; simp [Routed]; done) | unf
  case modulePin k t =>
    cases h1 : e.auth true <;> cases h2 : e.call (.pinModule k ⟨true, t⟩) <;> first | exact absurd h1 hp | (exfalso; revert hr; simp [Routed]; done) | unf
  case moduleUnpin k =>
    cases h1 : e.auth true <;> cases h2 : e.call (.unpinModule k) <;> first | exact absurd h1 hp | (exfalso; revert hr; simp [Routed]; done) | unf
  case instanceList =>
    cases h1 : e.auth true <;> cases h2 : e.call (.instances) <;> first | exact absurd h1 hp | (exfalso; revert hr; simp [Routed]; done) | unf
  case instanceDelete i =>
    cases h1 : e.auth true <;> cases h2 : e.call (.deleteInstance i) <;> first | exact absurd h1 hp | (exfalso; revert hr; simp [Routed]; done) | unf
  case instanceInfo i =>
    cases h1 : e.auth true <;> cases h2 : e.call (.instanceInfo i) <;> first | exact absurd h1 hp | (exfalso; revert hr; simp [Routed]; done) | unf
  case instanceStatus i =>
    cases h1 : e.auth true <;> cases h2 : e.call (.waitInstance i) <;> first | exact absurd h1 hp | (exfalso; revert hr; simp [Routed]; done) | unf
  case instanceKill i w =>
    cases h1 : e.auth true <;> cases h2 : e.call (.killInstance i) <;> cases h3 : w <;> first | exact absurd h1 hp | (exfalso; revert hr; simp [Routed]; done) | unf
  case instanceSuspend i w =>
    cases h1 : e.auth true <;> cases h2 : e.call (.suspendInstance i) <;> cases h3 : w <;> first | exact absurd h1 hp | (exfalso; revert hr; simp [Routed]; done) | unf
  case instanceResume i f =>
    cases h1 : e.auth true <;> cases h2 : e.call (.resumeInstance i f) <;> first | exact absurd h1 hp | (exfalso; revert hr; simp [Routed]; done) | unf
  case instanceSnapshot i t =>
    cases h1 : e.auth true <;> cases h2 : e.call (.snapshot i ⟨true, t⟩) <;> first | exact absurd h1 hp | (exfalso; revert hr; simp [Routed]; done) | unf
  case instanceUpdate i =>
    cases h1 : e.auth true <;> cases h2 : e.call (.updateInstance i) <;> cases h3 : e.jsonType <;> cases h4 : e.parses <;> cases h5 : e.acceptsJSON <;> first | exact absurd h1 hp | (exfalso; revert hr; simp [Routed]; done) | unf
  case instanceDebug i =>
    cases h1 : e.auth true <;> cases h2 : e.call (.debugInstance i) <;> cases h3 : e.jsonType <;> cases h4 : e.parses <;> first | exact absurd h1 hp | (exfalso; revert hr; simp [Routed]; done) | unf
  case instanceConnect i =>
    cases h1 : e.auth true <;> cases h2 : e.decodes <;> cases h3 : e.call (.instanceConnection i) with
    | error => first | exact absurd h1 hp | (exfalso; revert hr; simp [Routed]; done) | unf
    | ok g => cases h4 : g.conn <;> cases h5 : e.acceptsTrailers <;> cases h6 : e.ioFails <;> first | exact absurd h1 hp | (exfalso; revert hr; simp [Routed]; done) | unf
  case launch f p k fn i mt it s =>
    cases f
    · cases h1 : e.auth true <;> cases h2 : e.call (.uploadModuleInstance k e.length ⟨p, mt⟩ ⟨fn, i, false, s, it⟩) <;> cases h3 : e.decodes <;> cases p <;> first | exact absurd h1 hp | (exfalso; revert hr; simp [Routed]; done) | unf
    · cases h1 : e.auth true <;> cases h2 : e.call (.newInstance k ⟨fn, i, false, s, it⟩) <;> cases p <;> first | exact absurd h1 hp | (exfalso; revert hr; simp [Routed]; done) | unf
    · cases h1 : e.auth true <;> cases h2 : e.call (.sourceModuleInstance k ⟨p, mt⟩ ⟨fn, i, false, s, it⟩) <;> cases p <;> first | exact absurd h1 hp | (exfalso; revert hr; simp [Routed]; done) | unf
  case call f p k fn mt it =>
    cases f
    · cases h1 : e.auth p with
      | none => cases h2 : e.call (.uploadModuleInstance k e.length ⟨p, mt⟩ ⟨fn, "", true, false, it⟩) <;> cases h3 : e.decodes <;> cases p <;> first | exact absurd h1 hp | (exfalso; revert hr; simp [Routed]; done) | unf
      | some q => cases q <;> cases h2 : e.call (.uploadModuleInstance k e.length ⟨p, mt⟩ ⟨fn, "", true, false, it⟩) <;> cases h3 : e.decodes <;> cases h4 : e.acceptsTrailers <;> cases p <;> first | exact absurd h1 hp | (exfalso; revert hr; simp [Routed]; done) | unf
    · cases h1 : e.auth true with
      | none => cases h2 : e.call (.newInstance k ⟨fn, "", true, false, it⟩) <;> cases p <;> first | exact absurd h1 hp | (exfalso; revert hr; simp [Routed]; done) | unf
      | some q => cases q <;> cases h2 : e.call (.newInstance k ⟨fn, "", true, false, it⟩) <;> cases h4 : e.acceptsTrailers <;> cases p <;> first | exact absurd h1 hp | (exfalso; revert hr; simp [Routed]; done) | unf
    · cases h1 : e.auth p with
      | none => cases h2 : e.call (.sourceModuleInstance k ⟨p, mt⟩ ⟨fn, "", true, false, it⟩) <;> cases p <;> first | exact absurd h1 hp | (exfalso; revert hr; simp [Routed]; done) | unf
      | some q => cases q <;> cases h2 : e.call (.sourceModuleInstance k ⟨p, mt⟩ ⟨fn, "", true, false, it⟩) <;> cases h4 : e.acceptsTrailers <;> cases p <;> first | exact absurd h1 hp | (exfalso; revert hr; simp [Routed]; done) | unf

set_option maxHeartbeats 2000000 in
/-- What the handler does beside its operation: content which was opened is closed, once; a called program is killed at last. -/
theorem did (a : Action) (e : Env) (ha : Http a = true) : Did a e := by
  cases a
  case callWebsocket => cases ha
  case connectWebsocket => cases ha
  case moduleList =>
    cases h1 : e.auth true <;> cases h2 : e.call (.modules) <;> unf
  case knownModule k =>
    cases h1 : e.auth true <;> cases h2 : e.call (.moduleInfo k) <;> unf
  case moduleDownload k =>
    cases h1 : e.auth true <;> cases h2 : e.call (.moduleContent k) <;> cases h3 : e.head <;> unf
  case moduleUpload k t =>
    cases h1 : e.auth true <;> cases h2 : e.call (.uploadModule k e.length ⟨true, t⟩) <;> cases h3 : e.decodes <;> unf
  case moduleSource u t =>
    cases h1 : e.auth true <;> cases h2 : e.call (.sourceModule u ⟨true, t⟩) <;> unf
  case modulePin k t =>
    cases h1 : e.auth true <;> cases h2 : e.call (.pinModule k ⟨true, t⟩) <;> unf
  case moduleUnpin k =>
    cases h1 : e.auth true <;> cases h2 : e.call (.unpinModule k) <;> unf
  case instanceList =>
    cases h1 : e.auth true <;> cases h2 : e.call (.instances) <;> unf
  case instanceDelete i =>
    cases h1 : e.auth true <;> cases h2 : e.call (.deleteInstance i) <;> unf
  case instanceInfo i =>
    cases h1 : e.auth true <;> cases h2 : e.call (.instanceInfo i) <;> unf
  case instanceStatus i =>
    cases h1 : e.auth true <;> cases h2 : e.call (.waitInstance i) <;> unf
  case instanceKill i w =>
    cases h1 : e.auth true <;> cases h2 : e.call (.killInstance i) <;> cases h3 : w <;> unf
  case instanceSuspend i w =>
    cases h1 : e.auth true <;> cases h2 : e.call (.suspendInstance i) <;> cases h3 : w <;> unf
  case instanceResume i f =>
    cases h1 : e.auth true <;> cases h2 : e.call (.resumeInstance i f) <;> unf
  case instanceSnapshot i t =>
    cases h1 : e.auth true <;> cases h2 : e.call (.snapshot i ⟨true, t⟩) <;> unf
  case instanceUpdate i =>
    cases h1 : e.auth true <;> cases h2 : e.call (.updateInstance i) <;> cases h3 : e.jsonType <;> cases h4 : e.parses <;> cases h5 : e.acceptsJSON <;> unf
  case instanceDebug i =>
    cases h1 : e.auth true <;> cases h2 : e.call (.debugInstance i) <;> cases h3 : e.jsonType <;> cases h4 : e.parses <;> unf
  case instanceConnect i =>
    cases h1 : e.auth true <;> cases h2 : e.decodes <;> cases h3 : e.call (.instanceConnection i) with
    | error => unf
    | ok g => cases h4 : g.conn <;> cases h5 : e.acceptsTrailers <;> cases h6 : e.ioFails <;> unf
  case launch f p k fn i mt it s =>
    cases f
    · cases h1 : e.auth true <;> cases h2 : e.call (.uploadModuleInstance k e.length ⟨p, mt⟩ ⟨fn, i, false, s, it⟩) <;> cases h3 : e.decodes <;> cases p <;> unf
    · cases h1 : e.auth true <;> cases h2 : e.call (.newInstance k ⟨fn, i, false, s, it⟩) <;> cases p <;> unf
    · cases h1 : e.auth true <;> cases h2 : e.call (.sourceModuleInstance k ⟨p, mt⟩ ⟨fn, i, false, s, it⟩) <;> cases p <;> unf
  case call f p k fn mt it =>
    cases f
    · cases h1 : e.auth p with
      | none => cases h2 : e.call (.uploadModuleInstance k e.length ⟨p, mt⟩ ⟨fn, "", true, false, it⟩) <;> cases h3 : e.decodes <;> cases p <;> unf
      | some q => cases q <;> cases h2 : e.call (.uploadModuleInstance k e.length ⟨p, mt⟩ ⟨fn, "", true, false, it⟩) <;> cases h3 : e.decodes <;> cases h4 : e.acceptsTrailers <;> cases p <;> unf
    · cases h1 : e.auth true with
      | none => cases h2 : e.call (.newInstance k ⟨fn, "", true, false, it⟩) <;> cases p <;> unf
      | some q => cases q <;> cases h2 : e.call (.newInstance k ⟨fn, "", true, false, it⟩) <;> cases h4 : e.acceptsTrailers <;> cases p <;> unf
    · cases h1 : e.auth p with
      | none => cases h2 : e.call (.sourceModuleInstance k ⟨p, mt⟩ ⟨fn, "", true, false, it⟩) <;> cases p <;> unf
      | some q => cases q <;> cases h2 : e.call (.sourceModuleInstance k ⟨p, mt⟩ ⟨fn, "", true, false, it⟩) <;> cases h4 : e.acceptsTrailers <;> cases p <;> unf

set_option maxHeartbeats 2000000 in
/-- The body of the response. -/
theorem gave (a : Action) (e : Env) (ha : Http a = true) : Gave a e := by
  cases a
  case callWebsocket => cases ha
  case connectWebsocket => cases ha
  case moduleList =>
    cases h1 : e.auth true <;> cases h2 : e.call (.modules) <;> unf
  case knownModule k =>
    cases h1 : e.auth true <;> cases h2 : e.call (.moduleInfo k) <;> unf
  case moduleDownload k =>
    cases h1 : e.auth true <;> cases h2 : e.call (.moduleContent k) <;> cases h3 : e.head <;> unf
  case moduleUpload k t =>
    cases h1 : e.auth true <;> cases h2 : e.call (.uploadModule k e.length ⟨true, t⟩) <;> cases h3 : e.decodes <;> unf
  case moduleSource u t =>
    cases h1 : e.auth true <;> cases h2 : e.call (.sourceModule u ⟨true, t⟩) <;> unf
  case modulePin k t =>
    cases h1 : e.auth true <;> cases h2 : e.call (.pinModule k ⟨true, t⟩) <;> unf
  case moduleUnpin k =>
    cases h1 : e.auth true <;> cases h2 : e.call (.unpinModule k) <;> unf
  case instanceList =>
    cases h1 : e.auth true <;> cases h2 : e.call (.instances) <;> unf
  case instanceDelete i =>
    cases h1 : e.auth true <;> cases h2 : e.call (.deleteInstance i) <;> unf
  case instanceInfo i =>
    cases h1 : e.auth true <;> cases h2 : e.call (.instanceInfo i) <;> unf
  case instanceStatus i =>
    cases h1 : e.auth true <;> cases h2 : e.call (.waitInstance i) <;> unf
  case instanceKill i w =>
    cases h1 : e.auth true <;> cases h2 : e.call (.killInstance i) <;> cases h3 : w <;> unf
  case instanceSuspend i w =>
    cases h1 : e.auth true <;> cases h2 : e.call (.suspendInstance i) <;> cases h3 : w <;> unf
  case instanceResume i f =>
    cases h1 : e.auth true <;> cases h2 : e.call (.resumeInstance i f) <;> unf
  case instanceSnapshot i t =>
    cases h1 : e.auth true <;> cases h2 : e.call (.snapshot i ⟨true, t⟩) <;> unf
  case instanceUpdate i =>
    cases h1 : e.auth true <;> cases h2 : e.call (.updateInstance i) <;> cases h3 : e.jsonType <;> cases h4 : e.parses <;> cases h5 : e.acceptsJSON <;> unf
  case instanceDebug i =>
    cases h1 : e.auth true <;> cases h2 : e.call (.debugInstance i) <;> cases h3 : e.jsonType <;> cases h4 : e.parses <;> unf
  case instanceConnect i =>
    cases h1 : e.auth true <;> cases h2 : e.decodes <;> cases h3 : e.call (.instanceConnection i) with
    | error => unf
    | ok g => cases h4 : g.conn <;> cases h5 : e.acceptsTrailers <;> cases h6 : e.ioFails <;> unf
  case launch f p k fn i mt it s =>
    cases f
    · cases h1 : e.auth true <;> cases h2 : e.call (.uploadModuleInstance k e.length ⟨p, mt⟩ ⟨fn, i, false, s, it⟩) <;> cases h3 : e.decodes <;> cases p <;> unf
    · cases h1 : e.auth true <;> cases h2 : e.call (.newInstance k ⟨fn, i, false, s, it⟩) <;> cases p <;> unf
    · cases h1 : e.auth true <;> cases h2 : e.call (.sourceModuleInstance k ⟨p, mt⟩ ⟨fn, i, false, s, it⟩) <;> cases p <;> unf
  case call f p k fn mt it =>
    cases f
    · cases h1 : e.auth p with
      | none => cases h2 : e.call (.uploadModuleInstance k e.length ⟨p, mt⟩ ⟨fn, "", true, false, it⟩) <;> cases h3 : e.decodes <;> cases p <;> unf
      | some q => cases q <;> cases h2 : e.call (.uploadModuleInstance k e.length ⟨p, mt⟩ ⟨fn, "", true, false, it⟩) <;> cases h3 : e.decodes <;> cases h4 : e.acceptsTrailers <;> cases p <;> unf
    · cases h1 : e.auth true with
      | none => cases h2 : e.call (.newInstance k ⟨fn, "", true, false, it⟩) <;> cases p <;> unf
      | some q => cases q <;> cases h2 : e.call (.newInstance k ⟨fn, "", true, false, it⟩) <;> cases h4 : e.acceptsTrailers <;> cases p <;> unf
    · cases h1 : e.auth p with
      | none => cases h2 : e.call (.sourceModuleInstance k ⟨p, mt⟩ ⟨fn, "", true, false, it⟩) <;> cases p <;> unf
      | some q => cases q <;> cases h2 : e.call (.sourceModuleInstance k ⟨p, mt⟩ ⟨fn, "", true, false, it⟩) <;> cases h4 : e.acceptsTrailers <;> cases p <;> unf

end Gate.WebResp
