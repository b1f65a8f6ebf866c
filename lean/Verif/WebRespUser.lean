import Verif.WebRespProps
namespace Gate.WebResp

/-! ### What follows for the API's user -/

/-- The operation keeps a module in the user's possession. -/
def keeps : Call → Bool
  | .uploadModule _ _ p | .sourceModule _ p | .pinModule _ p | .uploadModuleInstance _ _ p _ | .sourceModuleInstance _ p _ | .snapshot _ p => p.pin
  | _ => false

/-- A module which the server has named, or named the instance of, and which is kept, can be found from the Location header; nothing else is given a location. An upload, or pinning a known module, has its location in its own URL,
and gets no such header. -/
theorem location (a : Action) (e : Env) (ha : Http a = true) (hr : Routed a = true) (hp : e.auth true ≠ some none) (hok : allowed e (plan e a) = true) (g : Given) (hg : e.call (plan e a).op = .ok g) :
    ∃ n h, (serve a e).sent = some (n, h) ∧ ((hdr h "Location").isSome = true ↔ keeps (plan e a).op = true ∧ (∀ k t, a ≠ .moduleUpload k t) ∧ ∀ k t, a ≠ .modulePin k t) := by
  obtain ⟨n, h, h1, h3, h2, h4⟩ := told_ a e ha hr hp hok g hg
  refine ⟨n, h, h1, ?_⟩
  rw [h2 "Location" (by simp [names])]
  clear hok hg h1 h2 h3 h4
  cases a
  case callWebsocket => cases ha
  case connectWebsocket => cases ha
  case call f p k fn mt it => cases f <;> cases p <;> simp [told, keeps, plan, Routed] at hr ⊢
  case launch f p k fn i mt it s => cases f <;> cases p <;> simp [told, keeps, plan, Routed] at hr ⊢
  case instanceUpdate => simp [told, keeps, plan]
  all_goals simp [told, keeps, plan]

def isCall : Action → Bool
  | .call .. => true
  | _ => false

/-- A program which was started for a call is killed when the call is over, whatever happens; nothing else is killed behind the user's back. -/
theorem killed (a : Action) (e : Env) (ha : Http a = true) (i : String) :
    (.kill i ∈ (serve a e).acts ↔ isCall a = true ∧ allowed e (plan e a) = true ∧ ∃ g, e.call (plan e a).op = .ok g ∧ g.inst = i) ∧ (serve a e).acts.count (.kill i) ≤ 1 := by
  obtain ⟨h1, h2, h3⟩ := did a e ha
  cases hok : allowed e (plan e a) with
  | false => simp [h1 hok]
  | true =>
    cases hc : e.call (plan e a).op with
    | error x => rw [h2 hok x hc]; split <;> simp
    | ok g =>
      rw [h3 hok g hc]
      have e1 : ∀ b, Act.kill i ∉ (if opens a b = true then [Act.closeContent] else []) := fun b => by split <;> simp
      have e2 : Act.kill i ∈ does g a ↔ isCall a = true ∧ g.inst = i := by
        cases a <;> simp [does, isCall] <;> exact eq_comm
      have e3 : (does g a).count (.kill i) ≤ 1 := by
        cases a <;> simp [does] <;> (try split) <;> (try simp) <;> (simp [List.count_cons]; try split <;> omega)
      constructor
      · simp [e1, e2]
      · simpa [List.count_append, List.count_eq_zero.2 (e1 _)] using e3

/-- Content which was opened is closed, once and at the very end. -/
theorem closed (a : Action) (e : Env) (ha : Http a = true) : (serve a e).acts.count .closeContent ≤ 1 ∧ (.closeContent ∈ (serve a e).acts → (serve a e).acts.getLast? = some .closeContent) := by
  obtain ⟨h1, h2, h3⟩ := did a e ha
  cases hok : allowed e (plan e a) with
  | false => simp [h1 hok]
  | true =>
    cases hc : e.call (plan e a).op with
    | error x => rw [h2 hok x hc]; split <;> simp
    | ok g =>
      have hd : Act.closeContent ∉ does g a := by
        cases a <;> simp [does] <;> split <;> simp
      rw [h3 hok g hc]
      split
      · exact ⟨by simp [List.count_append, List.count_eq_zero.2 hd], fun _ => List.getLast?_concat ..⟩
      · simp [List.count_eq_zero.2 hd, hd]

/-- A client which doesn't accept trailers isn't told how its call went: neither the headers nor the trailers have the status. -/
theorem status_untold (f : From) (p : Bool) (k fn : String) (mt it : List String) (e : Env) (hr : Routed (.call f p k fn mt it) = true) (hp : e.auth true ≠ some none) (ht : e.acceptsTrailers = false)
    (hok : allowed e (plan e (.call f p k fn mt it)) = true) (g : Given) (hg : e.call (plan e (.call f p k fn mt it)).op = .ok g) :
    ∃ n h, (serve (.call f p k fn mt it) e).sent = some (n, h) ∧ hdr h "Gate-Status" = none ∧ later_ (serve (.call f p k fn mt it) e) = none := by
  obtain ⟨n, h, h1, _, h2, h3⟩ := told_ _ e rfl hr hp hok g hg
  refine ⟨n, h, h1, ?_, ?_⟩
  · rw [h2 _ (by simp [names])]; simp [told]
  · rw [h3]; simp [trailer, ht]

/-! ### Websocket calls -/

/-- What a websocket call's first message asks for. -/
def wsKind (source : Bool) (r : String × Int) : Option From :=
  if r.1 = "application/wasm" then if source then none else some .content
  else if r.1 = "" then if source then some .source else some .known
  else none

def wsOp (f : From) (p : Bool) (k fn : String) (n : Int) (mt it : List String) : Call := match f with
  | .content => .uploadModuleInstance k n ⟨p, mt⟩ (transientLaunch fn it)
  | .known => .newInstance k (transientLaunch fn it)
  | .source => .sourceModuleInstance k ⟨p, mt⟩ (transientLaunch fn it)

/-- The program may be started: a kept module needs authorization, and an upload its frame. -/
def wsAllowed (e : Env) (f : From) (p : Bool) : Bool := e.upgrades && (e.auth (p && f ≠ .known)).isSome && (f ≠ .content || e.frame = some true)

def wsTold (e : Env) (f : From) (p : Bool) (k : String) (g : Given) : Msg :=
  if (e.auth (p && f ≠ .known)).bind id = none then .reply "" "" else .reply (if p then e.path ++ (if f = .source then g.module_ else k) else "") g.inst

macro "unw" : tactic => `(tactic| simp [*, serve, finish, handler, callWebsocket, connectWebsocket, wsRequest, wsFrom, wsFrame, wsInstance, wsReply, wsKind, wsOp, wsAllowed, wsTold, send, mustSend,
  asked, transientLaunch, bind_eq, pure_eq, ite_eq, authorize, ask, get, later, refuse, act, done])

set_option maxHeartbeats 2000000 in
/-- A websocket call asks for one operation if it's allowed to, and for none otherwise; the program's started for the call is killed in the end, and the client told about it before any output, which its status follows. -/
theorem ws_call (source p : Bool) (k fn : String) (mt it : List String) (e : Env) (r : String × Int) (hreq : e.request = some r) :
    asked (serve (.callWebsocket source p k fn mt it) e) = (match wsKind source r with
      | none => []
      | some f => if wsAllowed e f p then [wsOp f p k fn r.2 mt it] else []) ∧
    ∀ f, wsKind source r = some f → wsAllowed e f p = true → ∀ g, e.call (wsOp f p k fn r.2 mt it) = .ok g →
      (serve (.callWebsocket source p k fn mt it) e).msgs = (if e.sends then [wsTold e f p k g, .output g.inst, .status e.status, .close ""] else []) ∧
      (serve (.callWebsocket source p k fn mt it) e).acts = [.call (wsOp f p k fn r.2 mt it)] ++ (if e.sends then [.connect g.inst, .wait g.inst] else []) ++ [.kill g.inst] ++ (if f = .content then [.closeContent] else []) := by
  obtain ⟨c, n⟩ := r
  by_cases h1 : c = "application/wasm"
  · subst h1
    cases source
    · cases h3 : e.upgrades <;> cases h2 : e.auth p with
      | none => unw
      | some q =>
        cases h4 : e.frame with
        | none => unw
        | some b => cases b <;> cases q <;> cases h5 : e.call (.uploadModuleInstance k n ⟨p, mt⟩ ⟨fn, "", true, false, it⟩) <;> cases h6 : e.sends <;> unw
    · cases h3 : e.upgrades <;> unw
  · by_cases h1' : c = ""
    · subst h1'
      cases source
      · cases h3 : e.upgrades <;> cases h2 : e.auth false with
        | none => unw
        | some q => cases q <;> cases h5 : e.call (.newInstance k ⟨fn, "", true, false, it⟩) <;> cases h6 : e.sends <;> unw
      · cases h3 : e.upgrades <;> cases h2 : e.auth p with
        | none => unw
        | some q => cases q <;> cases h5 : e.call (.sourceModuleInstance k ⟨p, mt⟩ ⟨fn, "", true, false, it⟩) <;> cases h6 : e.sends <;> unw
    · cases h3 : e.upgrades <;> unw

/-- Nothing is asked for without a request. -/
theorem ws_silent (source p : Bool) (k fn : String) (mt it : List String) (e : Env) (hreq : e.request = none) : serve (.callWebsocket source p k fn mt it) e = {} ∧ serve (.connectWebsocket k) e = {} := by
  cases h3 : e.upgrades <;> unw

/-- A websocket connection: the client is told whether there's one, and how the program is when the connection has ended well. -/
theorem ws_connect (i : String) (e : Env) (hu : e.upgrades = true) (r : String × Int) (hreq : e.request = some r) :
    asked (serve (.connectWebsocket i) e) = (if (e.auth true).isSome then [.instanceConnection i] else []) ∧
    ((e.auth true).isSome = true → e.sends = true → ∀ g, e.call (.instanceConnection i) = .ok g → (serve (.connectWebsocket i) e).msgs =
      if g.conn then [.connected true, .output g.inst] ++ (if e.ioFails then [] else [.status e.status, .close ""]) else [.connected false, .close "not connected"]) := by
  cases h1 : e.auth true <;> cases h2 : e.call (.instanceConnection i) with
  | error => unw
  | ok g => cases h3 : e.sends <;> cases h4 : g.conn <;> cases h5 : e.ioFails <;> unw

/-- An environment in which everything succeeds. -/
def fine : Env where
  auth _ := some (some "alice")
  decodes := true
  jsonType := true
  parses := true
  acceptsJSON := true
  acceptsTrailers := true
  head := false
  length := 5
  path := "/gate/module/sha256/"
  call _ := .ok { module_ := "abc", inst := "i1", conn := true, json := "{}" }
  ioFails := false
  status := "{\"state\":\"TERMINATED\"}"
  request := some ("", 0)
  frame := some true

/-- The location of a module which isn't kept: a websocket call of a known module with the pin action is carried out without pinning, and its client told where the module supposedly is kept. -/
theorem ws_location_refuted : ∃ e, asked (serve (.callWebsocket false true "abc" "main" [] []) e) = [.newInstance "abc" (transientLaunch "main" [])] ∧ keeps (.newInstance "abc" (transientLaunch "main" [])) = false ∧
    (serve (.callWebsocket false true "abc" "main" [] []) e).msgs.head? = some (.reply "/gate/module/sha256/abc" "i1") := ⟨fine, by decide +kernel⟩

/-- Otherwise, only kept modules are located. -/
theorem ws_location_partial (source p : Bool) (k fn : String) (mt it : List String) (e : Env) (r : String × Int) (hreq : e.request = some r) (f : From) (hf : wsKind source r = some f) (hk : f ≠ .known) (hok : wsAllowed e f p = true)
    (hp : e.auth true ≠ some none) (hs : e.sends = true) (g : Given) (hg : e.call (wsOp f p k fn r.2 mt it) = .ok g) :
    ∃ loc inst, (serve (.callWebsocket source p k fn mt it) e).msgs.head? = some (.reply loc inst) ∧ (keeps (wsOp f p k fn r.2 mt it) = true → loc = e.path ++ if f = .source then g.module_ else k) ∧
      (keeps (wsOp f p k fn r.2 mt it) = false → loc = "") := by
  obtain ⟨_, h⟩ := ws_call source p k fn mt it e r hreq
  obtain ⟨h1, -⟩ := h f hf hok g hg
  rw [h1, hs, wsTold]
  cases f <;> cases p <;> simp [wsOp, keeps, wsAllowed] at hk hok ⊢ <;> split <;> simp_all <;> (cases h9 : e.auth true <;> simp_all)

/-! ### Non-vacuity -/

example : serve (.call .content true "abc" "main" ["m"] ["t"]) fine =
    { header := [("Trailer", "Gate-Status"), ("Location", "/gate/module/sha256/abc"), ("Gate-Instance", "i1"), ("Gate-Status", "{\"state\":\"TERMINATED\"}")]
      sent := some (201, [("Trailer", "Gate-Status"), ("Location", "/gate/module/sha256/abc"), ("Gate-Instance", "i1")])
      body := [.output "i1"]
      acts := [.call (.uploadModuleInstance "abc" 5 ⟨true, ["m"]⟩ ⟨"main", "", true, false, ["t"]⟩), .connect "i1", .wait "i1", .kill "i1", .closeContent] } := by decide +kernel

example : Http (.call .content true "abc" "main" ["m"] ["t"]) = true ∧ Routed (.call .content true "abc" "main" ["m"] ["t"]) = true ∧ fine.auth true ≠ some none ∧
    allowed fine (plan fine (.call .content true "abc" "main" ["m"] ["t"])) = true := by decide +kernel

example : wsKind false ("application/wasm", 5) = some .content ∧ wsAllowed fine .content true = true := by decide +kernel

end Gate.WebResp
