import Verif.Packet
/-
C114: the event monitor. server/monitor/monitor.go (all of it): New, Subscribe, Unsubscribe, monitor, loop, State.update.
A transition system over all interleavings of: any number of concurrent calls of the monitor function, the loop goroutine, and any number of subscribers.
-/
namespace Gate.Monitor

/-- The kinds of events which State.update distinguishes, monitor.go:172-186. -/
inductive Ev where
  | programNew | programExist | instanceCreate | instanceDelete | other
  deriving DecidableEq, Repr

/-- Events which change the counters, monitor.go:173-185. -/
def Ev.counted : Ev → Bool
  | .other => false
  | _ => true

/-- Item, monitor.go:24-27 (`tag` stands for the contents; the event may be nil). -/
structure Item where
  event : Option Ev
  tag : Nat
  deriving DecidableEq, Repr

/-- A call of the monitor function, monitor.go:110-130: about to try the nonblocking send; found the buffer full and wants to have a subscriber killed; has done that and wants to send. -/
inductive Call where
  | absent
  | calling (i : Item)
  | wantKill (i : Item)
  | wantSend (i : Item)
  | returned
  deriving DecidableEq, Repr

/-- Where the loop goroutine is, monitor.go:132-170. `delivering`: in the range over the subscribers, with those not reached yet, the one being sent to, and those killed so far.
`answering`: at `r.subscribe <- s.current`. `crashed`: a panic in the goroutine, which ends the whole server process. -/
inductive Loop where
  | idle
  | delivering (i : Item) (rest : List Nat) (cur : Option Nat) (killed : List Nat)
  | answering (s : Nat)
  | crashed
  | stopped
  deriving DecidableEq, Repr

/-- A subscriber: its channel (capacity, buffer, closed), whether Subscribe has been called for it (accepted by the loop), whether Subscribe's caller gave up before the answer, whether Unsubscribe has returned,
the items which it has received, and how many items the loop had taken when it subscribed. -/
structure Sub where
  cap : Nat := 0
  buf : List Item := []
  closed : Bool := false
  ever : Bool := false
  gone : Bool := false
  left : Bool := false
  got : List Item := []
  since : Nat := 0
  deriving DecidableEq, Repr

/-- MonitorState, monitor.go:34-41, with the goroutines. `current` is a pointer to the counters; New doesn't set it (monitor.go:51-57). `pushed`, `taken` and `everFull` are history:
items sent to the channel, items received by the loop, whether a call has found the buffer full. -/
structure St where
  cap : Nat
  current : Option (Nat × Nat × Nat)
  items : List Item
  subs : List Nat
  sub : Nat → Sub
  call : Nat → Call
  loop : Loop
  done : Bool
  pushed : List Item
  taken : List Item
  everFull : Bool

/-- New, monitor.go:42-62. `bufSize` is nonnegative (make panics otherwise); zero means the default. `caps` are the capacities of the channels which will be subscribed. -/
def new (bufSize : Nat) (caps : Nat → Nat) : St where
  cap := if bufSize = 0 then 1360 else bufSize
  current := none
  items := []
  subs := []
  sub := fun s => { cap := caps s }
  call := fun _ => .absent
  loop := .idle
  done := false
  pushed := []
  taken := []
  everFull := false

/-- State.update, monitor.go:172-186, on a pointer: `none` is a nil pointer dereference. The counters are 32-bit. -/
def update : Option (Nat × Nat × Nat) → Ev → Option (Option (Nat × Nat × Nat))
  | c, .other => some c
  | none, _ => none
  | some (p, l, n), .programNew => some (some ((p + 1) % 2 ^ 32, l, n))
  | some (p, l, n), .programExist => some (some (p, (l + 1) % 2 ^ 32, n))
  | some (p, l, n), .instanceCreate => some (some (p, l, (n + 1) % 2 ^ 32))
  | some (p, l, n), .instanceDelete => some (some (p, l, (n + (2 ^ 32 - 1)) % 2 ^ 32))

/-- The update of monitor.go:136-138: only if there is an event. -/
def updateItem (c : Option (Nat × Nat × Nat)) (i : Item) : Option (Option (Nat × Nat × Nat)) :=
  match i.event with
  | none => some c
  | some e => update c e

/-- Function update. -/
def set {α : Type} (f : Nat → α) (k : Nat) (v : α) : Nat → α := fun k' => if k' = k then v else f k'

/-- Delivery of an item to a channel: to the receiver (unbuffered), or to the buffer. -/
def put (x : Sub) (i : Item) : Sub := if x.cap = 0 then { x with got := x.got ++ [i] } else { x with buf := x.buf ++ [i] }

/-- Whether a channel can take an item: somebody is receiving (for an unbuffered channel that is a choice of the schedule) or there is room. -/
def canPut (x : Sub) : Prop := x.cap = 0 ∨ x.buf.length < x.cap

/-- The channels of killed subscribers are closed, monitor.go:152-155. -/
def closeAll (f : Nat → Sub) (l : List Nat) : Nat → Sub := fun s => if s ∈ l then { f s with closed := true } else f s

inductive Label where
  | enter (p : Nat) (i : Item)  -- the monitor function is called
  | send (p : Nat)              -- nonblocking send succeeds; the call returns
  | full (p : Nat)              -- it doesn't
  | kill (p : Nat)              -- the loop receives the kill request and gives up the current subscriber
  | send2 (p : Nat)             -- the item is sent after that; the call returns
  | giveUp (p : Nat)            -- the call returns because the monitor was stopped
  | take                        -- the loop receives an item
  | pick (s : Nat)              -- the range statement reaches a subscriber
  | deliver (s : Nat)           -- the item is sent to it
  | finish                      -- the loop closes the killed channels, and goes on
  | subscribe (s : Nat)         -- the loop receives a subscription request
  | answer (s : Nat)            -- and sends the snapshot to Subscribe
  | cancel (s : Nat)            -- Subscribe's caller has been canceled meanwhile
  | recv (s : Nat)              -- a subscriber receives from its channel's buffer
  | unsub (s : Nat)             -- the loop receives an unsubscription request
  | unsubClosed (s : Nat)       -- Unsubscribe notices that the channel has been closed
  | unsubCancel (s : Nat)       -- Unsubscribe returns because its caller has been canceled
  | stop                        -- the context given to New is canceled
  | exit                        -- the loop notices that
  deriving DecidableEq, Repr

/-- One step of some goroutine. -/
inductive Step : St → Label → St → Prop where
  /-- monitor.go:110-111. -/
  | enter (t : St) (p : Nat) (i : Item) : t.call p = .absent → t.loop ≠ .crashed → Step t (.enter p i) { t with call := set t.call p (.calling i) }
  /-- monitor.go:113-115: a nonblocking send succeeds iff the buffer has room. -/
  | send (t : St) (p : Nat) (i : Item) : t.call p = .calling i → t.loop ≠ .crashed → t.items.length < t.cap →
    Step t (.send p) { t with call := set t.call p .returned, items := t.items ++ [i], pushed := t.pushed ++ [i] }
  /-- monitor.go:117. -/
  | full (t : St) (p : Nat) (i : Item) : t.call p = .calling i → t.loop ≠ .crashed → ¬ t.items.length < t.cap →
    Step t (.full p) { t with call := set t.call p (.wantKill i), everFull := true }
  /-- monitor.go:119 and 147-148: a rendezvous. -/
  | kill (t : St) (p : Nat) (i j : Item) (rest : List Nat) (s : Nat) (killed : List Nat) : t.call p = .wantKill i → t.loop = .delivering j rest (some s) killed →
    Step t (.kill p) { t with call := set t.call p (.wantSend i), loop := .delivering j rest none (killed ++ [s]) }
  /-- monitor.go:120-122. -/
  | send2 (t : St) (p : Nat) (i : Item) : t.call p = .wantSend i → t.loop ≠ .crashed → t.items.length < t.cap →
    Step t (.send2 p) { t with call := set t.call p .returned, items := t.items ++ [i], pushed := t.pushed ++ [i] }
  /-- monitor.go:124, 127. -/
  | giveUp (t : St) (p : Nat) (i : Item) : t.call p = .wantKill i ∨ t.call p = .wantSend i → t.loop ≠ .crashed → t.done = true →
    Step t (.giveUp p) { t with call := set t.call p .returned }
  /-- monitor.go:135-138. -/
  | take (t : St) (i : Item) (l : List Item) (c : Option (Nat × Nat × Nat)) : t.loop = .idle → t.items = i :: l → updateItem t.current i = some c →
    Step t .take { t with items := l, taken := t.taken ++ [i], current := c, loop := .delivering i t.subs none [] }
  /-- monitor.go:137: the panic. -/
  | takeCrash (t : St) (i : Item) (l : List Item) : t.loop = .idle → t.items = i :: l → updateItem t.current i = none →
    Step t .take { t with items := l, taken := t.taken ++ [i], loop := .crashed }
  /-- monitor.go:142: any order. -/
  | pick (t : St) (j : Item) (rest : List Nat) (killed : List Nat) (s : Nat) : t.loop = .delivering j rest none killed → s ∈ rest →
    Step t (.pick s) { t with loop := .delivering j (rest.erase s) (some s) killed }
  /-- monitor.go:144-145. (A channel which the loop serves isn't closed, see `inv`.) -/
  | deliver (t : St) (j : Item) (rest : List Nat) (killed : List Nat) (s : Nat) : t.loop = .delivering j rest (some s) killed → canPut (t.sub s) →
    Step t (.deliver s) { t with loop := .delivering j rest none killed, sub := set t.sub s (put (t.sub s) j) }
  /-- monitor.go:152-155. -/
  | finish (t : St) (j : Item) (killed : List Nat) : t.loop = .delivering j [] none killed →
    Step t .finish { t with loop := .idle, subs := t.subs.filter (· ∉ killed), sub := closeAll t.sub killed }
  /-- monitor.go:68, 157-159. Simplification: a channel is subscribed at most once (as in webmonitor.go:107-108). -/
  | subscribe (t : St) (s : Nat) : t.loop = .idle → (t.sub s).ever = false →
    Step t (.subscribe s) { t with loop := .answering s, subs := t.subs ++ [s], sub := set t.sub s { t.sub s with ever := true, since := t.taken.length } }
  /-- monitor.go:70, 160. -/
  | answer (t : St) (s : Nat) : t.loop = .answering s → (t.sub s).gone = false → Step t (.answer s) { t with loop := .idle }
  /-- monitor.go:73-75. -/
  | cancel (t : St) (s : Nat) : t.loop = .answering s → Step t (.cancel s) { t with sub := set t.sub s { t.sub s with gone := true } }
  /-- Receiving from the channel's buffer (closed or not); also monitor.go:91-93. -/
  | recv (t : St) (s : Nat) (i : Item) (l : List Item) : t.loop ≠ .crashed → (t.sub s).buf = i :: l →
    Step t (.recv s) { t with sub := set t.sub s { t.sub s with buf := l, got := (t.sub s).got ++ [i] } }
  /-- monitor.go:98, 161-164. -/
  | unsub (t : St) (s : Nat) : t.loop = .idle → (t.sub s).ever = true → (t.sub s).left = false → (t.sub s).closed = false →
    Step t (.unsub s) { t with subs := t.subs.filter (· ≠ s), sub := set t.sub s { t.sub s with closed := true, left := true } }
  /-- monitor.go:163: close of a closed channel is a panic. -/
  | unsubCrash (t : St) (s : Nat) : t.loop = .idle → (t.sub s).ever = true → (t.sub s).left = false → (t.sub s).closed = true →
    Step t (.unsub s) { t with loop := .crashed }
  /-- monitor.go:94-96. -/
  | unsubClosed (t : St) (s : Nat) : t.loop ≠ .crashed → (t.sub s).left = false → (t.sub s).closed = true → (t.sub s).buf = [] →
    Step t (.unsubClosed s) { t with sub := set t.sub s { t.sub s with left := true } }
  /-- monitor.go:104-105 (of Unsubscribe: canceled caller). -/
  | unsubCancel (t : St) (s : Nat) : t.loop ≠ .crashed → (t.sub s).left = false → (t.sub s).ever = true →
    Step t (.unsubCancel s) { t with sub := set t.sub s { t.sub s with left := true } }
  | stop (t : St) : t.loop ≠ .crashed → Step t .stop { t with done := true }
  /-- monitor.go:166-167. -/
  | exit (t : St) : t.loop = .idle → t.done = true → Step t .exit { t with loop := .stopped }

/-- Any number of steps. -/
inductive Steps : St → List Label → St → Prop where
  | nil (t : St) : Steps t [] t
  | cons {t u v : St} {l : Label} {ls : List Label} : Step t l u → Steps u ls v → Steps t (l :: ls) v

/-- What happens before anything else has happened. -/
def Reachable (bufSize : Nat) (caps : Nat → Nat) (t : St) : Prop := ∃ ls, Steps (new bufSize caps) ls t

end Gate.Monitor
