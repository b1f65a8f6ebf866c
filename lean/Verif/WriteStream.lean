import Verif.StreamState
/-
Model of packet/packetio/write.go: a WriteStream as a labelled transition system.

The channel side calls `Write`, `CloseWrite` and `StopTransfer`; the writer side
runs `Transfer`; the context may be cancelled at any time.  Accesses to shared
memory and channels are separate steps.  `Write` is split into check, copy and
publish; the connection's `w.Write(b)` reads the bytes of `b` when it returns
(any step of the channel side may happen during the call).

Simplifications: a flow packet is represented by its increment; the returned
error is not tracked; `CloseWrite` on the connection is not tracked; buffer
contents are a list of `size` bytes (the slice extended to its capacity).
-/
namespace Gate.WriteStream
open Gate Gate.StreamState

/-- Program counter of `Transfer`.  `inc = some i` means that the flow packet
with increment `i` is offered to the `send` channel. -/
inductive Pc where
  | top                          -- line 146: loop condition
  | check (inc : Option Nat)     -- line 167: load produced
  | selBlock (inc : Option Nat)  -- line 168: blocking select
  | selPoll (inc : Option Nat)   -- line 187: non-blocking select
  | body                         -- line 209: after the select
  | bodyFlags                    -- line 231: load Flags
  | writing (lo hi : Nat)        -- line 221: inside w.Write(Data[lo:hi])
  | stopped                      -- line 246
  | finished                     -- returned
deriving DecidableEq, Repr

structure St where
  size : Nat                     -- bufferSize(), capacity of State.Data
  flagSR : Bool := true          -- FlagSendReceiving in State.Flags
  subscribed : Nat := 0          -- State.Subscribed (uint32)
  buf : Bytes                    -- State.Data[:size]
  produced : Nat := 0            -- uint32
  consumed : Nat := 0            -- uint32
  token : Bool := false          -- wakeup channel (capacity 1) holds a token
  closed : Bool := false         -- wakeup channel closed by StopTransfer
  cancelled : Bool := false      -- ctx.Done() is closed
  w : Bool := true               -- w != nil
  send : Bool := true            -- send != nil
  done : Bool := true            -- done != nil
  pend : Option (Bytes × Bool) := none -- Write in progress: data, and whether it is copied
  pc : Pc := .top
  flows : List Nat := []         -- increments of the flow packets sent (observable)
  delivered : Bytes := []        -- bytes accepted by the connection (observable)
  -- ghost: concatenation of the published writes (never read by the modelled code)
  written : Bytes := []
deriving DecidableEq, Repr

inductive Label where
  | writeBegin (data : Bytes)    -- Write(data), up to the copying
  | writeCopy
  | writePublish
  | closeWrite                   -- CloseWrite()
  | stop                         -- StopTransfer()
  | cancel
  | tau
  | sendFlow                     -- `case sending <- pkt`
  | wakeup                       -- `case _, ok := <-s.wakeup`
  | ctxDone                      -- `case <-done`
  | dflt                         -- `default`
  | wret (n : Nat) (e : Bool)    -- w.Write returned n, and an error iff e
deriving DecidableEq, Repr

/-- The overflow check of `Write`, write.go:89-93; uint32 subtraction. -/
def canWrite (s : St) (data : Bytes) : Bool :=
  decide ((s.produced + 2 ^ 32 - s.consumed) % 2 ^ 32 + data.length < s.size)

/-- The copying of `Write`, write.go:95-99: `mask` is size-1 for a power of two,
so `x & mask` is `x % size`; the first `copy` is limited by the end of the
buffer, the second one gets the rest. -/
def ringPut (buf : Bytes) (size off : Nat) (data : Bytes) : Bytes :=
  let n := min (size - off) data.length
  putAt (putAt buf off (data.take n)) 0 (data.drop n)

/-- `int32(size-s.State.Subscribed) - 1` (int32 arithmetic wraps) if it is
positive, write.go:153-157. -/
def increment (size subscribed : Nat) : Option Nat :=
  let i := toSigned 32 ((size + 2 ^ 32 - subscribed + (2 ^ 32 - 1)) % 2 ^ 32)
  if i > 0 then some i.toNat else none

/-- Start of `Transfer`, write.go:126-144, of a stream whose circular buffer
offsets are zero (new or unmarshaled).  `none` is the error return
"subscription overflow". -/
def start (st : State) (hasWriter : Bool) : Option St :=
  if st.subscribed ≥ st.cap then none
  else some {
    size := st.cap
    flagSR := hasFlag st.flags flagSendReceiving
    subscribed := st.subscribed
    buf := st.data ++ List.replicate (st.cap - st.data.length) 0
    w := hasWriter && hasFlag st.flags flagReadWriting
    send := hasFlag st.flags flagSubscribing }

/-- One step.  `none` means that the action is not enabled. -/
def step (s : St) : Label → Option St
  -- Write, write.go:78-93 (the error returns have no effect and are omitted)
  | .writeBegin data =>
    if s.pend = none ∧ ¬ s.closed ∧ s.flagSR ∧ canWrite s data then some { s with pend := some (data, false) }
    else none
  -- write.go:95-99
  | .writeCopy =>
    match s.pend with
    | some (data, false) =>
      some { s with buf := ringPut s.buf s.size (s.produced % s.size) data, pend := some (data, true) }
    | _ => none
  -- write.go:101-103
  | .writePublish =>
    match s.pend with
    | some (data, true) =>
      some { s with produced := (s.produced + data.length) % 2 ^ 32, token := true, pend := none,
                    written := s.written ++ data }
    | _ => none
  -- CloseWrite, write.go:107-115
  | .closeWrite =>
    if s.pend = none ∧ ¬ s.closed ∧ s.flagSR then some { s with flagSR := false, token := true } else none
  -- StopTransfer, write.go:118-120
  | .stop => if s.pend = none ∧ ¬ s.closed then some { s with closed := true } else none
  | .cancel => some { s with cancelled := true }
  | .tau =>
    match s.pc with
    -- write.go:146-163 and 240-244
    | .top =>
      if s.send ∨ s.flagSR then
        if s.send then
          if s.w then some { s with pc := .check (increment s.size s.subscribed) }
          else some { s with pc := .check (some 0) }
        else some { s with pc := .check none }
      else some { s with token := false, pc := .stopped }
    -- write.go:165-167
    | .check inc =>
      if ¬ s.w ∨ s.consumed % s.size = s.produced % s.size then some { s with pc := .selBlock inc }
      else some { s with pc := .selPoll inc }
    -- write.go:209-217
    | .body =>
      if s.w then
        if s.consumed % s.size ≠ s.produced % s.size then
          if s.consumed % s.size < s.produced % s.size then
            some { s with pc := .writing (s.consumed % s.size) (s.produced % s.size) }
          else some { s with pc := .writing (s.consumed % s.size) s.size }
        else some { s with pc := .bodyFlags }
      else some { s with pc := .top }
    -- write.go:231-236
    | .bodyFlags =>
      if s.flagSR then some { s with pc := .top }
      else some { s with w := false, done := false, pc := .top }
    -- write.go:246-272; see `result`
    | .stopped => some { s with pc := .finished }
    | _ => none
  -- write.go:169-174, or 188-193
  | .sendFlow =>
    match s.pc with
    | .selBlock (some i) =>
      some { s with flows := s.flows ++ [i], subscribed := (s.subscribed + i) % 2 ^ 32,
                    send := s.w && s.send, pc := .body }
    | .selPoll (some i) =>
      some { s with flows := s.flows ++ [i], subscribed := (s.subscribed + i) % 2 ^ 32,
                    send := s.w && s.send, pc := .body }
    | _ => none
  -- write.go:176-179, or 195-198
  | .wakeup =>
    match s.pc with
    | .selBlock _ =>
      if s.token then some { s with token := false, pc := .body }
      else if s.closed then some { s with pc := .stopped }
      else none
    | .selPoll _ =>
      if s.token then some { s with token := false, pc := .body }
      else if s.closed then some { s with pc := .stopped }
      else none
    | _ => none
  -- write.go:181-184, or 200-203
  | .ctxDone =>
    if s.done ∧ s.cancelled then
      match s.pc with
      | .selBlock _ => some { s with done := false, w := false, pc := .body }
      | .selPoll _ => some { s with done := false, w := false, pc := .body }
      | _ => none
    else none
  -- write.go:205: taken only when neither wakeup nor done is ready (readiness of
  -- the send channel depends on the receiver and is not restricted here)
  | .dflt =>
    match s.pc with
    | .selPoll _ =>
      if s.token ∨ s.closed ∨ (s.done ∧ s.cancelled) then none else some { s with pc := .body }
    | _ => none
  -- write.go:221-230: the connection accepts any part of b, with or without error
  | .wret n e =>
    match s.pc with
    | .writing lo hi =>
      if n ≤ hi - lo then
        some { s with delivered := s.delivered ++ slice s.buf lo n,
                      consumed := (s.consumed + n) % 2 ^ 32,
                      subscribed := (s.subscribed + 2 ^ 32 - n) % 2 ^ 32,
                      w := !e, done := !e && s.done, pc := .top }
      else none
    | _ => none

/-- A schedule: run the labels in order; `none` if some label is not enabled. -/
def run (s : St) : List Label → Option St
  | [] => some s
  | l :: ls => (step s l).bind (fun s' => run s' ls)

/-- Conversion of the circular buffer to a linear one, write.go:257-270.  In the
last case the length given to `make` is the uint32 difference `produced-consumed`
of the masked offsets; `make` zeroes the bytes, the copies fill the beginning. -/
def linearize (s : St) : Bytes :=
  let c := s.consumed % s.size
  let p := s.produced % s.size
  if c = p then []
  else if c < p then slice s.buf c (p - c)
  else
    let n := (p + 2 ^ 32 - c) % 2 ^ 32
    let b := s.buf.drop c ++ s.buf.take p
    b ++ List.replicate (n - b.length) 0

/-- State left in the stream object when `Transfer` has returned, write.go:246-270.
(Flag bits other than the three known ones are dropped here.) -/
def result (s : St) : State :=
  { flags := (if s.send then flagSubscribing else 0) + (if s.w then flagReadWriting else 0)
      + (if s.flagSR then flagSendReceiving else 0)
    subscribed := s.subscribed
    data := linearize s
    cap := s.size }

end Gate.WriteStream
