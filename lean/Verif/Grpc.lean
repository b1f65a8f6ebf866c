import Verif.Packet
import Verif.Framing
/-
C119: keys which tell gRPC services what process an instance belongs to. service/grpc/grpc.go:22-70, 163-188, 284-294.
C120: messages between a program and a gRPC service. service/grpc/grpc.go:216-368, runtime/io.go:153-154, 309-327.
The gRPC library and the remote service are the environment: they may do anything within what the library promises
(messages of a stream arrive in order; a stream whose context has been canceled may fail at any time).
-/
namespace Gate.Grpc
open Gate.Packet

/-! ### Process keys -/

/-- procKeys, grpc.go:27-30: the key and the count. Processes and uuids are numbers. -/
structure Keys where
  entry : Nat → Option (Nat × Int) := fun _ => none
  /-- uuid.New: distinct ones; this many have been made. -/
  made : Nat := 0
  /-- Calls of getProcKey which have found nothing (grpc.go:35-41) and haven't come to the second part (43-54): the process. -/
  missed : List Nat := []
  /-- Instances which have got their key and haven't returned it: process and key. -/
  holders : List (Nat × Nat) := []
  /-- Those which nobody will shut down or suspend: StartServing has failed after they were created (registry.go:226-228, 237-239). -/
  leaked : List (Nat × Nat) := []

inductive KLabel where
  | hit (o : Nat)
  | miss (o : Nat)
  | insert (o : Nat)
  | put (o k : Nat)
  | leak (o k : Nat)
  deriving DecidableEq, Repr

/-- The map with an entry replaced. -/
def setEntry (f : Nat → Option (Nat × Int)) (o : Nat) (v : Option (Nat × Int)) : Nat → Option (Nat × Int) := fun o' => if o' = o then v else f o'

/-- The critical sections; they are atomic because of procMu. -/
def kstep (s : Keys) : KLabel → Option Keys
  /- grpc.go:35-43: found. -/
  | .hit o =>
    match s.entry o with
    | some (k, n) => some { s with entry := setEntry s.entry o (some (k, n + 1)), holders := (o, k) :: s.holders }
    | none => none
  /- grpc.go:35-41: not found. -/
  | .miss o =>
    match s.entry o with
    | some _ => none
    | none => some { s with missed := o :: s.missed }
  /- grpc.go:45-56. -/
  | .insert o =>
    if o ∈ s.missed then
      match s.entry o with
      | some (k, n) => some { s with missed := s.missed.erase o, made := s.made + 1, entry := setEntry s.entry o (some (k, n + 1)), holders := (o, k) :: s.holders }
      | none => some { s with missed := s.missed.erase o, made := s.made + 1, entry := setEntry s.entry o (some (s.made, 1)), holders := (o, s.made) :: s.holders }
    else none
  /- putProcKey, grpc.go:59-72. Called by CreateInstance when it fails (166-170), and by Shutdown or Suspend, of which one is called for each instance (io.go:78-87, registry.go:411-453).
  An absent entry is a zero value. -/
  | .put o k =>
    if (o, k) ∈ s.holders then
      let (k', n) := (s.entry o).getD (0, 0)
      some { s with holders := s.holders.erase (o, k), entry := setEntry s.entry o (if n - 1 = 0 then none else some (k', n - 1)) }
    else none
  /- registry.go:226-228, 237-239: StartServing returns without a discoverer, so ioLoop shuts nothing down (io.go:74-76). -/
  | .leak o k => if (o, k) ∈ s.holders then some { s with holders := s.holders.erase (o, k), leaked := (o, k) :: s.leaked } else none

def krun (s : Keys) : List KLabel → Option Keys
  | [] => some s
  | l :: ls => (kstep s l).bind fun u => krun u ls

/-! ### Messages from the service -/

/-- The goroutine of receiveForward: receiving; sending to the I/O loop; in receiveBuffer; finished, with what was sent to the `leftout` channel, if anything. -/
inductive Fwd where
  | recv
  | holding (p : Bytes)
  | buffering (b : Bytes)
  | done (left : Option Bytes)
  deriving DecidableEq, Repr

/-- `sent`: everything that the service has sent on the stream so far. `stream`: what hasn't been received of that. `recvd`: what has. `closed`: the service has closed the stream. `canceled`: the outer context (of the stream) has been canceled.
`inner`: the inner context is done. `out`: what the I/O loop has received. `aborted`: abort has been called. `crashed`: a panic, which ends the server process. -/
structure St where
  sent : List Bytes := []
  stream : List Bytes := []
  recvd : List Bytes := []
  closed : Bool := false
  canceled : Bool := false
  inner : Bool := false
  fwd : Fwd := .recv
  out : List Bytes := []
  aborted : Bool := false
  crashed : Bool := false
  deriving DecidableEq, Repr

inductive Label where
  | send (p : Bytes)  -- the service sends a packet
  | close             -- the service closes the stream
  | cancel            -- the outer context is canceled (and the inner one with it)
  | stop              -- serve has returned: the inner context is canceled
  | recv              -- the goroutine receives
  | forward           -- the I/O loop receives from the goroutine
  | leave             -- the goroutine notices the context's end instead
  | buffer            -- receiveBuffer receives
  | eof               -- Recv returns io.EOF
  | fail              -- Recv returns another error
  deriving DecidableEq, Repr

/-- mustBePacket, grpc.go:363-368: abort is called, but the value is used nevertheless. -/
def tooShort (b : Bytes) : Bool := b.length < headerSize

def step (code : Int) (t : St) : Label → Option St
  | .send p => if t.closed = false ∧ t.crashed = false then some { t with sent := t.sent ++ [p], stream := t.stream ++ [p] } else none
  | .close => if t.crashed = false then some { t with closed := true } else none
  | .cancel => if t.crashed = false then some { t with canceled := true, inner := true } else none
  | .stop => if t.crashed = false then some { t with inner := true } else none
  /- grpc.go:320, 328-329. -/
  | .recv =>
    match t.fwd, t.stream with
    | .recv, p :: rest =>
      if t.crashed then none
      else match setCode p code with
        | .ok q => some { t with stream := rest, recvd := t.recvd ++ [p], fwd := .holding q, aborted := t.aborted || tooShort p }
        | _ => some { t with stream := rest, recvd := t.recvd ++ [p], aborted := t.aborted || tooShort p, crashed := true }
    | _, _ => none
  /- grpc.go:332; io.go:153-154, 309-316: initMessagePacket panics if the length is out of range. (The code isn't negative, see above in registry.go:218.) -/
  | .forward =>
    match t.fwd with
    | .holding q =>
      if t.crashed then none
      else if q.length < headerSize ∨ q.length > Framing.maxPacketSize then some { t with fwd := .recv, crashed := true }
      else some { t with fwd := .recv, out := t.out ++ [q] }
    | _ => none
  /- grpc.go:334-335, 342-343. -/
  | .leave =>
    match t.fwd with
    | .holding q =>
      if t.crashed ∨ t.inner = false then none
      else match setSize q with
        | .ok r => some { t with fwd := .buffering r }
        | _ => some { t with crashed := true }
    | _ => none
  /- grpc.go:346, 354-357. -/
  | .buffer =>
    match t.fwd, t.stream with
    | .buffering b, p :: rest =>
      if t.crashed then none
      else match setSize p with
        | .ok r => some { t with stream := rest, recvd := t.recvd ++ [p], fwd := .buffering (b ++ r), aborted := t.aborted || tooShort p }
        | _ => some { t with stream := rest, recvd := t.recvd ++ [p], aborted := t.aborted || tooShort p, crashed := true }
    | _, _ => none
  /- grpc.go:321-325, 347-351. -/
  | .eof =>
    if t.crashed = false ∧ t.closed = true ∧ t.stream = [] then
      match t.fwd with
      | .recv => some { t with fwd := .done none }
      | .buffering b => some { t with fwd := .done (some b) }
      | _ => none
    else none
  /- grpc.go:321-324, 347-350: the stream's context is the outer one (Ready, grpc.go:236-246; registry.go:237, 326). -/
  | .fail =>
    if t.crashed = false ∧ t.canceled = true then
      match t.fwd with
      | .recv => some { t with fwd := .done none, aborted := true }
      | .buffering b => some { t with fwd := .done (some b), aborted := true }
      | _ => none
    else none

def run (code : Int) (t : St) : List Label → Option St
  | [] => some t
  | l :: ls => (step code t l).bind fun u => run code u ls

def Reachable (code : Int) (ls : List Label) (t : St) : Prop := run code {} ls = some t

/-! ### Messages to the service -/

/-- How a Handle call to the service ends: success; an error although the service has handled it, or hasn't, with the context canceled; some other error. -/
inductive Rpc where
  | ok | ambiguous | lost | failed
  deriving DecidableEq, Repr

/-- What the service has handled, and the instance's `incoming` buffer. -/
structure In where
  remote : List Bytes := []
  incoming : Bytes := []
  deriving DecidableEq, Repr

/-- instance.Handle, grpc.go:258-280. -/
def handle (s : In) (p : Bytes) (r : Rpc) : Res In :=
  if s.incoming.length = 0 then
    match r with
    | .ok => .ok { s with remote := s.remote ++ [p] }
    | .ambiguous => .ok { s with remote := s.remote ++ [p], incoming := s.incoming ++ p }
    | .lost => .ok { s with incoming := s.incoming ++ p }
    | .failed => .err "error"
  else .ok { s with incoming := s.incoming ++ p }

/-- The packets which serve gives to the instance, one after the other (registry.go:304, 337-340). -/
def handleAll (s : In) : List (Bytes × Rpc) → Res In
  | [] => .ok s
  | (p, r) :: l => (handle s p r).bind fun u => handleAll u l

end Gate.Grpc
