import Verif.MonitorProps
import Verif.Auth
/-
C158: the monitor's websocket. server/monitor/webmonitor/webmonitor.go: Config.checkOrigin, Handler, handle.
One connection (its channel is number `s`) beside the monitor of C114, whose other subscribers and whose callers are arbitrary.
-/
namespace Gate.WebMon
open Gate.Monitor

/-! ### Origins -/

/-- webmonitor.go:33-50 `checkOrigin`. `headers` are the values of the Origin header, in order: `Header.Get` returns the first
one, or the empty string. -/
def checkOrigin (origins : Option (List Bytes)) (headers : List Bytes) : Bool :=
  match origins with
  | none => true
  | some l =>
    let origin := headers.headD []
    if origin = [] then false else l.any (fun allowed => decide (origin = allowed))

/-! ### Paths -/

inductive Page where
  | websocket | dashboard | script | notFound
  deriving DecidableEq, Repr

/-- webmonitor.go:68-86 `Handler`: the patterns of the `http.ServeMux`. "/" matches every path; without a static
directory there's only the websocket. (The mux' cleaning redirects aren't modelled.) -/
def route (staticDir : Bytes) (path : Bytes) : Page :=
  if path = Auth.str "/websocket.json" then .websocket
  else if staticDir = [] then .notFound
  else if path = Auth.str "/dashboard.js" then .script
  else .dashboard

/-! ### Connection -/

/-- What's written to the websocket: the first frame (webmonitor.go:118-123), a frame of an event (140-146; its type, the
event and the error are functions of the item), and the close messages (21-24). -/
inductive Frame where
  | state
  | event (i : Item)
  | tryAgainLater
  | goingAway
  deriving DecidableEq, Repr

/-- Where `handle` is. `start`: about to subscribe (112). `subscribing`: its request has been received by the loop.
`greeting`: about to write the first frame (125). `waiting`: in the select statement (131). `writing`: about to write an
event's frame (148). `leaving`: in the deferred `Unsubscribe` (116). `ended`: it has returned and the connection is closed. -/
inductive Phase where
  | start | subscribing | greeting | waiting | writing (i : Item) | leaving | ended
  deriving DecidableEq, Repr

structure St where
  mon : Monitor.St
  phase : Phase
  /-- the handler's context is done -/
  ctxDone : Bool
  /-- the client has sent a close message or closed the connection -/
  clientGone : Bool
  frames : List Frame
  /-- a write has failed -/
  failed : Bool

/-- The labels of the monitor's steps in which this connection takes part. -/
def own (s : Nat) : Label → Bool
  | .subscribe s' | .answer s' | .cancel s' | .deliver s' | .recv s' | .unsub s' | .unsubClosed s' | .unsubCancel s' => s' = s
  | _ => false

inductive Lab where
  | mon (l : Label)
  | cancel | clientClose
  | subscribe | refused | answered | gaveUp
  | greet (ok : Bool)
  | receive | panic
  | write (ok : Bool)
  | killed (ok : Bool)
  | done (ok : Bool)
  | drain | unsub | unsubClosed | unsubDone | unsubCancel
  deriving DecidableEq, Repr

/-- A frame which was written, if it was. -/
def wrote (ok : Bool) (f : Frame) (l : List Frame) : List Frame := if ok then l ++ [f] else l

inductive Step (s : Nat) : St → Lab → St → Prop where
  /-- The monitor, its callers and the other subscribers. -/
  | mon (t : St) (l : Label) (m : Monitor.St) : Monitor.Step t.mon l m → own s l = false → Step s t (.mon l) { t with mon := m }
  /-- The context given to `Handler` is done. (The close handler, which would cancel the handler's own one at 104-107, is called
  by the read functions of the connection only, and those aren't called.) -/
  | cancel (t : St) : Step s t .cancel { t with ctxDone := true }
  | clientClose (t : St) : Step s t .clientClose { t with clientGone := true }
  /-- monitor.go:68. -/
  | subscribe (t : St) (m : Monitor.St) : t.phase = .start → Monitor.Step t.mon (.subscribe s) m →
    Step s t .subscribe { t with mon := m, phase := .subscribing }
  /-- monitor.go:78-84, webmonitor.go:113-115. -/
  | refused (t : St) (ok : Bool) : t.phase = .start → t.mon.done = true ∨ t.ctxDone = true →
    Step s t .refused { t with phase := .ended, frames := wrote ok .goingAway t.frames }
  /-- monitor.go:70. -/
  | answered (t : St) (m : Monitor.St) : t.phase = .subscribing → Monitor.Step t.mon (.answer s) m →
    Step s t .answered { t with mon := m, phase := .greeting }
  /-- monitor.go:73, webmonitor.go:113-115. -/
  | gaveUp (t : St) (m : Monitor.St) (ok : Bool) : t.phase = .subscribing → t.ctxDone = true → Monitor.Step t.mon (.cancel s) m →
    Step s t .gaveUp { t with mon := m, phase := .ended, frames := wrote ok .goingAway t.frames }
  /-- webmonitor.go:125-128. -/
  | greetOk (t : St) : t.phase = .greeting → Step s t (.greet true) { t with phase := .waiting, frames := t.frames ++ [.state] }
  | greetFail (t : St) : t.phase = .greeting → Step s t (.greet false) { t with phase := .leaving, failed := true }
  /-- webmonitor.go:132: an item from the channel. -/
  | receive (t : St) (m : Monitor.St) (j : Item) (rest : List Nat) (k : List Nat) : t.phase = .waiting →
    t.mon.loop = .delivering j rest (some s) k → Monitor.Step t.mon (.deliver s) m →
    Step s t .receive { t with mon := m, phase := .writing j }
  /-- webmonitor.go:141: `EventType` of a nil event panics; the deferred calls are made. -/
  | panic (t : St) (j : Item) : t.phase = .writing j → j.event = none → Step s t .panic { t with phase := .leaving }
  /-- webmonitor.go:148-151. -/
  | writeOk (t : St) (j : Item) : t.phase = .writing j → j.event ≠ none →
    Step s t (.write true) { t with phase := .waiting, frames := t.frames ++ [.event j] }
  | writeFail (t : St) (j : Item) : t.phase = .writing j → j.event ≠ none → Step s t (.write false) { t with phase := .leaving, failed := true }
  /-- webmonitor.go:133-137: the channel has been closed. -/
  | killed (t : St) (ok : Bool) : t.phase = .waiting → (t.mon.sub s).closed = true →
    Step s t (.killed ok) { t with phase := .leaving, frames := wrote ok .tryAgainLater t.frames }
  /-- webmonitor.go:153-155. -/
  | done (t : St) (ok : Bool) : t.phase = .waiting → t.ctxDone = true →
    Step s t (.done ok) { t with phase := .leaving, frames := wrote ok .goingAway t.frames }
  /-- monitor.go:91-93: an item is dropped. -/
  | drain (t : St) (m : Monitor.St) : t.phase = .leaving → Monitor.Step t.mon (.deliver s) m → Step s t .drain { t with mon := m }
  /-- monitor.go:98. -/
  | unsub (t : St) (m : Monitor.St) : t.phase = .leaving → Monitor.Step t.mon (.unsub s) m → Step s t .unsub { t with mon := m, phase := .ended }
  /-- monitor.go:94-96. -/
  | unsubClosed (t : St) (m : Monitor.St) : t.phase = .leaving → Monitor.Step t.mon (.unsubClosed s) m →
    Step s t .unsubClosed { t with mon := m, phase := .ended }
  /-- monitor.go:101-102. -/
  | unsubDone (t : St) : t.phase = .leaving → t.mon.done = true → Step s t .unsubDone { t with phase := .ended }
  /-- monitor.go:104-105. -/
  | unsubCancel (t : St) (m : Monitor.St) : t.phase = .leaving → t.ctxDone = true → Monitor.Step t.mon (.unsubCancel s) m →
    Step s t .unsubCancel { t with mon := m, phase := .ended }

/-- The connection has been upgraded (webmonitor.go:95-101), and its channel is unbuffered (111). -/
def new (bufSize : Nat) (caps : Nat → Nat) : St where
  mon := Monitor.new bufSize caps
  phase := .start
  ctxDone := false
  clientGone := false
  frames := []
  failed := false

inductive Steps (s : Nat) : St → List Lab → St → Prop where
  | nil (t : St) : Steps s t [] t
  | cons {t u v : St} {l : Lab} {ls : List Lab} : Step s t l u → Steps s u ls v → Steps s t (l :: ls) v

/-- The connection is opened at any time: until then, the monitor has made any steps. -/
def Reachable (s : Nat) (bufSize : Nat) (caps : Nat → Nat) (t : St) : Prop := caps s = 0 ∧ ∃ ls, Steps s (new bufSize caps) ls t

/-! ### Specification -/

/-- The items of the event frames among these. -/
def items (l : List Frame) : List Item := l.filterMap fun | .event i => some i | _ => none

/-- The events which the monitor has taken since the connection was subscribed. -/
def since (s : Nat) (t : St) : List Item := t.mon.taken.drop (t.mon.sub s).since

end Gate.WebMon
