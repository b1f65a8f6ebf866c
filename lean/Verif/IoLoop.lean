import Verif.Services
import Verif.Framing
/-
Model of runtime/io.go `ioLoop`: a transition system.  Each label is one ready
branch of the `select` statement together with what it received.
-/
namespace Gate.IoLoop
open Gate Gate.Packet Gate.Framing

/-- What the loop starts with: whether buffers are kept (`frozen != nil`), the buffers
of a restored instance, the number of services and their availability as returned
by `StartServing`. -/
structure Cfg where
  keep : Bool
  output : Bytes
  input : Bytes
  num : Nat
  initState : List Bool

inductive Err where
  | program (msg : String)   -- badprogram.Error
  | other (msg : String)     -- internal error
  | panic
deriving DecidableEq, Repr

/-- How the loop ended: its error and the buffers it has stored in `frozen`. -/
structure Outcome where
  err : Option Err
  savedOutput : Bytes
  savedInput : Bytes
deriving DecidableEq, Repr

/-- Local variables of `ioLoop` (runtime/io.go:88-99, 121-150) and observations:
`delivered` is what has been sent to the services, `written` what has been sent to
the write goroutine, `consumed` the number of bytes of it that the program has
read from its end of the socket. -/
structure St where
  pendingMsgs : List Bytes
  pendingEvs : List Bytes
  dead : Bool
  num : Nat
  delivered : List Bytes
  written : List Bytes
  consumed : Nat
  out : Option Outcome
deriving DecidableEq, Repr

inductive Label where
  | messageInput (p : Bytes)                        -- a service sends a packet
  | read (p : Bytes) (reply : Res Bytes) (num : Nat) -- the program sent a packet; what
      -- `handleServicesPacket` returns if it is a discovery packet, and the number
      -- of services after it
  | readStop (buf : Bytes) (e : ReadErr)             -- read{buf, err}
  | readBad                                          -- read{err: badprogram}
  | messageOutput                                    -- services receive a message
  | subjectOutput                                    -- the write goroutine takes an event
  | dead                                             -- the process died
  | suspend                                          -- Suspend called or context done
  | serviceError (msg : String)                      -- a service failed
  | consume (n : Nat)                                -- the program reads its input
deriving DecidableEq, Repr

/-- runtime/io.go:82-99: pending messages, initial partial packet, pending events. -/
def start (c : Cfg) : Res (St × Bytes) := do
  let (msgs, rest) ← splitBufferedPackets c.output c.num
  let evs := if c.input.length > 0 then [c.input] else []
  let st ← (if c.initState.length > 0 then do
      let p ← Services.makeServicesPacket domainInfo c.initState
      return evs ++ [p]
    else return evs)
  return (⟨msgs, st, false, c.num, [], [], 0, none⟩, rest)

/-- Everything the write goroutine has written or is about to write,
runtime/io.go:285-307. -/
def stream (written : List Bytes) : Bytes := (written.map eventBytes).flatten

/-- The read error branch, runtime/io.go:161-197.  The write channel has been closed, so
`ReadAll` returns everything written which the program has not consumed. -/
def save (c : Cfg) (s : St) (buf : Bytes) (err : Option Err) : St :=
  { s with out := some (
      if c.keep then
        ⟨err, s.pendingMsgs.flatten ++ buf, (stream s.written).drop s.consumed ++ s.pendingEvs.flatten⟩
      else ⟨err, [], []⟩) }

/-- Leaving the loop without going through that branch: nothing is stored. -/
def fail (s : St) (e : Err) : St := { s with out := some ⟨some e, [], []⟩ }

/-- One iteration of the loop, runtime/io.go:121-236.  `none`: the branch is not
enabled. -/
def step (c : Cfg) (s : St) (l : Label) : Option St :=
  if s.out.isSome then none
  else
    let readEnabled := (s.pendingMsgs.isEmpty && s.pendingEvs.isEmpty) || s.dead
    match l with
    | .messageInput p =>
      if s.pendingEvs = [] then
        match initMessagePacket p with
        | .ok q => some { s with pendingEvs := s.pendingEvs ++ [q] }
        | _ => some (fail s .panic)
      else none
    | .read p reply num =>
      if readEnabled then
        match handlePacket p s.num with
        | .ok (.msg m) => some { s with pendingMsgs := s.pendingMsgs ++ [m] }
        | .ok (.services _) =>
          match reply with
          | .ok ev => if s.num ≤ num then some { s with pendingEvs := s.pendingEvs ++ [ev], num := num } else none
          | .err m => some (fail s (.program m))
          | .panic => some (fail s .panic)
        | .err m => some (fail s (.program m))
        | .panic => some (fail s .panic)
      else none
    | .readStop buf e =>
      if readEnabled then
        some (save c s buf (match e with | .eof => none | .unexpected => some (.other "subject read: unexpected EOF")))
      else none
    | .readBad => if readEnabled then some (save c s [] (some (.program "invalid op packet size"))) else none
    | .messageOutput =>
      match s.pendingMsgs with
      | [] => none
      | m :: rest => some { s with pendingMsgs := rest, delivered := s.delivered ++ [m] }
    | .subjectOutput =>
      match s.pendingEvs with
      | [] => none
      | e :: rest => some { s with pendingEvs := rest, written := s.written ++ [e] }
    | .dead => some { s with dead := true }
    | .suspend => some s
    | .serviceError m => some (fail s (.other m))
    | .consume n => if s.consumed + n ≤ (stream s.written).length then some { s with consumed := s.consumed + n } else none

def run (c : Cfg) (s : St) : List Label → Option St
  | [] => some s
  | l :: ls => match step c s l with
    | some s' => run c s' ls
    | none => none

/-- A run of the loop from its start: the state reached and the initial partial packet
given to the read goroutine. -/
def loop (c : Cfg) (ls : List Label) : Option (St × Bytes) :=
  match start c with
  | .ok (s, rest) => (run c s ls).map fun s' => (s', rest)
  | _ => none

end Gate.IoLoop
