import Verif.Base
/-
Model of the origin service's connections: service/origin/instance.go:124-316 (Handle, connect, drainRestored, shutdown) as a transition system. Any number of goroutines call Connect; one goroutine serves the program's packets
(service/registry.go serve) and afterwards shuts the service down; one drains restored streams; runtime/io.go's loop receives the packets sent to the program until it ends. Every critical section, channel operation and poke is a step of its own.

Simplifications: a stream is reduced to what the two sides know of it; the transfer itself is modelled in ReadStream.lean and WriteStream.lean. Its end is possible when the program has ended both directions (a fresh stream),
or the subscription (a restored stream: its write side fails at once, C12), or it has been stopped; and never while a read from the connection is blocked.

C108: accepting connections. C109: stopping.
-/
namespace Gate.Origin

/-- A stream in the map (instance.go:31), with the state of its transfer. -/
structure Stream where
  id : Nat
  /-- The program hasn't ended its subscription. -/
  sub : Bool
  /-- The program hasn't ended its data. -/
  wr : Bool
  restored : Bool
  /-- StopTransfer has been called. -/
  stop : Bool
  /-- The transfer is reading from the connection (packetio/read.go:189). -/
  reading : Bool
  /-- The channel `stopped` is closed (stream.go:28): the transfer is over. -/
  stopped : Bool
deriving DecidableEq, Repr

/-- Where a call of Connect, and then the use of the function it returned, is. -/
inductive Cl where
  /-- Line 193. -/
  | waiting
  /-- It has received from `wakeup`, line 195. -/
  | woken
  /-- Line 222, with the stream's id. -/
  | replying (id : Nat)
  /-- Line 227. -/
  | replyWoken (id : Nat)
  /-- Line 239. -/
  | finishing (id : Nat) (cancel : Bool)
  /-- Line 251. -/
  | poking (id : Nat) (cancel : Bool)
  /-- The function has been returned, line 257. -/
  | opened (id : Nat)
  /-- Line 258. -/
  | transferring (id : Nat)
  /-- Line 260. -/
  | ended (id : Nat)
  | closed
  /-- Connect has returned nil. -/
  | refused
deriving DecidableEq, Repr

/-- The goroutine which calls Handle and then Shutdown or Suspend (one after another: registry.go, `serve` and `discoverer.stopped`). -/
inductive Sv where
  | serving
  /-- Line 137. -/
  | poking
  /-- Handle has returned an error. -/
  | failed
  /-- Line 298. -/
  | shutWait
  /-- Line 303. -/
  | shutPoke
  /-- Line 305. -/
  | stopping
  /-- Line 308. -/
  | joining
  | down
deriving DecidableEq, Repr

structure St where
  accepting : Nat
  replying : Bool
  shutting : Bool
  /-- The channel `wakeup` (capacity 1) is full. -/
  token : Bool
  /-- Connector.Close has been called. -/
  closed : Bool
  /-- The loop which receives packets for the program is running (runtime/io.go). -/
  loop : Bool
  streams : List Stream
  /-- Calls, and whether their contexts are done. -/
  clients : List (Cl × Bool)
  sv : Sv
  /-- drainRestored: remaining ids, and whether the transfer of the first one has ended (line 287). -/
  drain : List Nat
  drainEnded : Bool
  /-- Ghost: number of accept calls handled, and the ids which have been told to the program. -/
  calls : Nat
  replies : List Nat
deriving DecidableEq, Repr

inductive Label where
  | connect
  | wake (i : Nat)
  | look (i : Nat)
  | giveUp (i : Nat)
  | send (i : Nat)
  | wake2 (i : Nat)
  | look2 (i : Nat)
  | cancel (i : Nat)
  | finish (i : Nat)
  | poke (i : Nat)
  | begin (i : Nat)
  | enterRead (i : Nat)
  | leaveRead (i : Nat)
  | endTransfer (i : Nat)
  | delete (i : Nat)
  | ctxDone (i : Nat)
  | close
  | call
  | callPoke
  | flow (id : Nat) (increment : Nat)
  | data (id : Nat) (length : Nat) (fits : Bool)
  | loopEnd
  | shut
  | shutWaited
  | shutPoke
  | stopAll
  | joined
  | drainEnd
  | drainNext
deriving DecidableEq, Repr

def findS (ss : List Stream) (id : Nat) : Option Stream := ss.find? fun s => s.id = id

def setS (ss : List Stream) (id : Nat) (f : Stream → Stream) : List Stream := ss.map fun s => if s.id = id then f s else s

def delS (ss : List Stream) (id : Nat) : List Stream := ss.filter fun s => s.id ≠ id

/-- Line 197: the first id from `n` which isn't in use; `fuel` ids are tried. -/
def freeFrom (ss : List Stream) : Nat → Nat → Nat
  | 0, n => n
  | fuel + 1, n => if (findS ss n).isSome then freeFrom ss fuel (n + 1) else n

def freeId (ss : List Stream) : Nat := freeFrom ss (ss.length + 1) 0

/-- A stream made by connect (line 199). -/
def fresh (id : Nat) : Stream := ⟨id, true, true, false, false, false, false⟩

/-- Can the transfer of a stream end? See the beginning of the file. -/
def Stream.endable (s : Stream) : Bool := !s.reading && (s.stop || (!s.sub && (!s.wr || s.restored)))

def maxAccepting : Nat := 2 ^ 31 - 1

def St.cl (s : St) (i : Nat) (c : Cl) : List (Cl × Bool) := s.clients.modify i fun x => (c, x.2)

/-- One step; `none`: it's not possible. -/
def step (s : St) : Label → Option St
  -- A new call of Connect.
  | .connect => some { s with clients := s.clients ++ [(.waiting, false)] }
  -- Line 194.
  | .wake i => match s.clients[i]? with
    | some (.waiting, _) => if s.token then some { s with token := false, clients := s.cl i .woken } else none
    | _ => none
  -- Lines 195-206.
  | .look i => match s.clients[i]? with
    | some (.woken, _) =>
      if 0 < s.accepting ∧ s.replying = false ∧ s.shutting = false then
        some { s with streams := s.streams ++ [fresh (freeId s.streams)], replying := true, clients := s.cl i (.replying (freeId s.streams)) }
      else if s.shutting then some { s with clients := s.cl i .refused }
      else some { s with clients := s.cl i .waiting }
    | _ => none
  -- Lines 208-212.
  | .giveUp i => match s.clients[i]? with
    | some (.waiting, done) => if s.closed || done then some { s with clients := s.cl i .refused } else none
    | _ => none
  -- Line 223; the packet is received by the loop.
  | .send i => match s.clients[i]? with
    | some (.replying id, _) => if s.loop then some { s with replies := s.replies ++ [id], clients := s.cl i (.finishing id false) } else none
    | _ => none
  -- Line 226.
  | .wake2 i => match s.clients[i]? with
    | some (.replying id, _) => if s.token then some { s with token := false, clients := s.cl i (.replyWoken id) } else none
    | _ => none
  -- Lines 227-229.
  | .look2 i => match s.clients[i]? with
    | some (.replyWoken id, _) => some { s with clients := s.cl i (if s.shutting then .finishing id true else .replying id) }
    | _ => none
  -- Lines 231-235.
  | .cancel i => match s.clients[i]? with
    | some (.replying id, done) => if s.closed || done then some { s with clients := s.cl i (.finishing id true) } else none
    | _ => none
  -- Lines 239-249.
  | .finish i => match s.clients[i]? with
    | some (.finishing id true, _) => some { s with streams := delS s.streams id, replying := false, clients := s.cl i (.poking id true) }
    | some (.finishing id false, _) => some { s with accepting := s.accepting - 1, replying := false, clients := s.cl i (.poking id false) }
    | _ => none
  -- Lines 251-257.
  | .poke i => match s.clients[i]? with
    | some (.poking id cancel, _) => some { s with token := true, clients := s.cl i (if cancel then .refused else .opened id) }
    | _ => none
  -- The caller calls the function.
  | .begin i => match s.clients[i]? with
    | some (.opened id, _) => some { s with clients := s.cl i (.transferring id) }
    | _ => none
  -- The transfer starts to read from the connection, and the read returns.
  | .enterRead i => match s.clients[i]? with
    | some (.transferring id, _) => some { s with streams := setS s.streams id fun x => { x with reading := true } }
    | _ => none
  | .leaveRead i => match s.clients[i]? with
    | some (.transferring id, _) => some { s with streams := setS s.streams id fun x => { x with reading := false } }
    | _ => none
  -- Line 258 returns.
  | .endTransfer i => match s.clients[i]? with
    | some (.transferring id, _) => match findS s.streams id with
      | some x => if x.endable then some { s with streams := setS s.streams id (fun x => { x with stopped := true }), clients := s.cl i (.ended id) } else none
      | none => none
    | _ => none
  -- Lines 260-266: the stream isn't live if it hasn't been stopped, and it's only stopped when shutting.
  | .delete i => match s.clients[i]? with
    | some (.ended id, _) => some { s with streams := if s.shutting then s.streams else delS s.streams id, clients := s.cl i .closed }
    | _ => none
  | .ctxDone i => some { s with clients := s.clients.modify i fun x => (x.1, true) }
  | .close => some { s with closed := true }
  -- Lines 126-135.
  | .call => if s.sv = .serving then
      if s.accepting + 1 ≤ maxAccepting then some { s with accepting := s.accepting + 1, calls := s.calls + 1, sv := .poking }
      else some { s with sv := .failed }
    else none
  -- Line 137.
  | .callPoke => if s.sv = .poking then some { s with token := true, sv := .serving } else none
  -- Lines 139-158, for one of the flows of a packet, not negative; packetio/read.go:64-90, 254-264.
  | .flow id increment => if s.sv = .serving then
      match findS s.streams id with
      | none => some { s with sv := .failed }
      | some x =>
        if x.sub then some { s with streams := if increment = 0 then setS s.streams id (fun x => { x with sub := false }) else s.streams }
        else some { s with sv := .failed }
    else none
  -- Lines 160-180; packetio/write.go:77-118. `fits`: there's room in the buffer; there's none in a restored stream's (OriginStateProps, restored_not_writable_refuted).
  | .data id length fits => if s.sv = .serving then
      match findS s.streams id with
      | none => some { s with sv := .failed }
      | some x =>
        if x.wr ∧ (length = 0 ∨ (fits = true ∧ x.restored = false)) then some { s with streams := if length = 0 then setS s.streams id (fun x => { x with wr := false }) else s.streams }
        else some { s with sv := .failed }
    else none
  -- The loop ends: the program has stopped, or a service has failed (runtime/io.go:149-246).
  | .loopEnd => some { s with loop := false }
  -- Lines 296-297, called when the loop has ended (runtime/io.go:78-87).
  | .shut => if (s.sv = .serving ∨ s.sv = .failed) ∧ s.loop = false then some { s with shutting := true, sv := .shutWait } else none
  -- Lines 298-301.
  | .shutWaited => if s.sv = .shutWait ∧ s.replying = false then some { s with sv := .shutPoke } else none
  -- Line 303.
  | .shutPoke => if s.sv = .shutPoke then some { s with token := true, sv := .stopping } else none
  -- Lines 305-307.
  | .stopAll => if s.sv = .stopping then some { s with streams := s.streams.map fun x => { x with stop := true }, sv := .joining } else none
  -- Lines 308-310.
  | .joined => if s.sv = .joining ∧ (s.streams.all fun x => x.stopped) then some { s with sv := .down } else none
  -- Line 285 returns.
  | .drainEnd => match s.drain with
    | id :: _ => if s.drainEnded then none else match findS s.streams id with
      | some x => if x.endable then some { s with streams := setS s.streams id (fun x => { x with stopped := true }), drainEnded := true } else none
      | none => none
    | [] => none
  -- Lines 287-291.
  | .drainNext => match s.drain with
    | id :: rest => if s.drainEnded then some { s with streams := if s.shutting then s.streams else delS s.streams id, drain := rest, drainEnded := false } else none
    | [] => none

/-- After restore (instance.go:57-106) and Start (108-122): pending accept calls, and restored streams. -/
def initial (accepting : Nat) (restored : List Stream) : St :=
  ⟨accepting, false, false, decide (0 < accepting), false, true, restored, [], .serving, restored.map (·.id), false, 0, []⟩

/-- A restored stream. -/
def Stream.Restored (x : Stream) : Prop := x.restored = true ∧ x.stop = false ∧ x.reading = false ∧ x.stopped = false

def run (s : St) : List Label → Option St
  | [] => some s
  | l :: ls => match step s l with
    | some s => run s ls
    | none => none

end Gate.Origin
