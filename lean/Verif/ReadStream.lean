import Verif.StreamState
import Verif.Packet
/-
Model of packet/packetio/read.go: a ReadStream as a labelled transition system.

One goroutine runs `Transfer` (reader side), another one calls `Subscribe`,
`FinishSubscription` and `StopTransfer` (channel side), and the context may be
cancelled at any time.  Each access to shared memory or a channel by `Transfer`
is a separate step; everything between two such accesses is local and merged
into the step.  Any interleaving of the steps is a schedule.

Simplifications: a data packet is represented by its data bytes (the header is
constant: code, data domain, stream id, see C01); the returned error value is
not tracked; `CloseRead` on the reader is not tracked.
-/
namespace Gate.ReadStream
open Gate Gate.StreamState

/-- Program counter of `Transfer`. -/
inductive Pc where
  | top                       -- line 129: evaluate the loop condition
  | check (sending : Bool)    -- line 143: decide whether to block
  | selBlock (sending : Bool) -- line 144: blocking select
  | selPoll                   -- line 165: non-blocking select
  | body                      -- line 181: r != nil, load Subscribed
  | bodyFlags                 -- line 200: load Flags
  | reading (n : Nat)         -- line 189: inside r.Read(b.Data()), len(b.Data()) = n
  | stopped                   -- line 217: label stopped
  | finished                  -- returned
deriving DecidableEq, Repr

/-- Joint state of the two sides. -/
structure St where
  flagSub : Bool := true     -- FlagSubscribing in State.Flags
  subscribed : Nat := 0      -- State.Subscribed (uint32)
  token : Bool := false      -- wakeup channel (capacity 1) holds a token
  closed : Bool := false     -- wakeup channel closed by StopTransfer
  cancelled : Bool := false  -- ctx.Done() is closed
  r : Bool := true           -- r != nil
  send : Bool := true        -- send != nil
  done : Bool := true        -- done != nil
  readpos : Nat := 0         -- uint32
  pkt : Option Bytes := none -- pkt (none = nil; some d = packet with data d)
  pc : Pc := .top
  sent : List Bytes := []    -- data of the packets sent so far (observable)
  -- ghost variables (never read by the modelled code)
  totalSub : Nat := 0        -- total subscription ever granted, unbounded
  readLog : Bytes := []      -- all bytes the reader returned, in order
deriving DecidableEq, Repr

/-- Actions: the channel side's calls, cancellation, and the steps of `Transfer`. -/
inductive Label where
  | subscribe (inc : Nat)             -- Subscribe(increment), increment ≥ 0
  | finishSub                         -- FinishSubscription()
  | stop                              -- StopTransfer()
  | cancel                            -- context cancelled
  | tau                               -- local step of Transfer
  | sendPkt                           -- `case sending <- pkt`
  | wakeup                            -- `case _, ok := <-s.wakeup`
  | ctxDone                           -- `case <-done`
  | dflt                              -- `default`
  | readRet (data : Bytes) (e : Bool) -- r.Read returned data, and an error iff e
deriving DecidableEq, Repr

/-- `config.MaxSendSize - packet.DataHeaderSize`, limited by the open
subscription, read.go:183-186.  `m` is MaxSendSize. -/
def readSize (m subs : Nat) : Nat :=
  if m - Packet.dataHeaderSize > subs then subs else m - Packet.dataHeaderSize

/-- Open subscription: `atomic.LoadUint32(&s.State.Subscribed) - readpos`
(uint32 subtraction), read.go:182. -/
def St.subs (s : St) : Nat := (s.subscribed + 2 ^ 32 - s.readpos) % 2 ^ 32

/-- Start of `Transfer`, read.go:102-127.  `st` is the stream state (initial or
unmarshaled), `hasReader` tells if a reader was given; `none` models the panic
"reading without sending".  `sub0` is the ghost total subscription at start. -/
def start (st : State) (hasReader : Bool) : Option St :=
  let r := hasReader && hasFlag st.flags flagReadWriting
  let send := hasFlag st.flags flagSendReceiving
  if !send && r then none
  else some {
    flagSub := hasFlag st.flags flagSubscribing
    subscribed := st.subscribed
    r := r, send := send
    pkt := if st.data = [] then none else some st.data
    totalSub := st.subscribed }

/-- One step.  `none` means that the action is not enabled. -/
def step (m : Nat) (s : St) : Label → Option St
  -- Subscribe, read.go:64-76 (the error returns have no effect and are omitted)
  | .subscribe inc =>
    if s.flagSub ∧ ¬ s.closed ∧ inc < 2 ^ 31 then
      some { s with subscribed := (s.subscribed + inc) % 2 ^ 32, token := true,
                    totalSub := s.totalSub + inc }
    else none
  -- FinishSubscription, read.go:79-90
  | .finishSub =>
    if s.flagSub ∧ ¬ s.closed then some { s with flagSub := false, token := true } else none
  -- StopTransfer, read.go:94-96
  | .stop => if ¬ s.closed then some { s with closed := true } else none
  | .cancel => some { s with cancelled := true }
  | .tau =>
    match s.pc with
    -- read.go:129-141
    | .top =>
      if s.send ∨ s.flagSub then
        if s.send then
          match s.pkt with
          | some (_ :: _) => some { s with pc := .check true }
          | some [] => if s.r then some { s with pc := .check false } else some { s with pc := .check true }
          | none =>
            if s.r then some { s with pc := .check false }
            else some { s with pkt := some [], pc := .check true }
        else some { s with pc := .check false }
      else
        -- read.go:210-215: drain the wakeup channel
        some { s with token := false, pc := .stopped }
    -- read.go:143
    | .check sending =>
      if sending ∨ ¬ s.r ∨ s.readpos = s.subscribed then some { s with pc := .selBlock sending }
      else some { s with pc := .selPoll }
    -- read.go:181-186 and 206
    | .body =>
      if s.r then
        if s.subs ≠ 0 then some { s with pc := .reading (readSize m s.subs) }
        else some { s with pc := .bodyFlags }
      else some { s with pc := .top }
    -- read.go:200-205
    | .bodyFlags =>
      if s.flagSub then some { s with pc := .top }
      else some { s with r := false, done := false, pc := .top }
    -- read.go:217-236; see `result`
    | .stopped => some { s with pc := .finished }
    | _ => none
  -- read.go:145-149
  | .sendPkt =>
    match s.pc, s.pkt with
    | .selBlock true, some d =>
      some { s with sent := s.sent ++ [d], pkt := none, send := s.r && s.send, pc := .body }
    | _, _ => none
  -- read.go:151-154 and 160-162, or 166-169
  | .wakeup =>
    match s.pc with
    | .selBlock sending =>
      if s.token then
        some { s with token := false, pc := if sending ∧ s.pkt ≠ none then .top else .body }
      else if s.closed then some { s with pc := .stopped }
      else none
    | .selPoll =>
      if s.token then some { s with token := false, pc := .body }
      else if s.closed then some { s with pc := .stopped }
      else none
    | _ => none
  -- read.go:156-162, or 171-174
  | .ctxDone =>
    if s.done ∧ s.cancelled then
      match s.pc with
      | .selBlock sending =>
        some { s with done := false, r := false, pc := if sending ∧ s.pkt ≠ none then .top else .body }
      | .selPoll => some { s with done := false, r := false, pc := .body }
      | _ => none
    else none
  -- read.go:176: taken only when neither wakeup nor done is ready
  | .dflt =>
    match s.pc with
    | .selPoll =>
      if s.token ∨ s.closed ∨ (s.done ∧ s.cancelled) then none
      else some { s with pc := .body }
    | _ => none
  -- read.go:188-199: any number of bytes up to the buffer size, with or without error
  | .readRet data e =>
    match s.pc with
    | .reading n =>
      if data.length ≤ n then
        some { s with pkt := some data, readpos := (s.readpos + data.length) % 2 ^ 32,
                      readLog := s.readLog ++ data,
                      r := !e, done := !e && s.done, pc := .top }
      else none
    | _ => none

/-- State left in the stream object when `Transfer` has returned, read.go:217-234. -/
def result (s : St) : State :=
  { flags := (if s.flagSub then flagSubscribing else 0) + (if s.r then flagReadWriting else 0)
      + (if s.send then flagSendReceiving else 0)
    subscribed := s.subs
    data := s.pkt.getD []
    cap := 0 }

/-- A schedule: run the labels in order; `none` if some label is not enabled. -/
def run (m : Nat) (s : St) : List Label → Option St
  | [] => some s
  | l :: ls => (step m s l).bind (fun s' => run m s' ls)

end Gate.ReadStream
