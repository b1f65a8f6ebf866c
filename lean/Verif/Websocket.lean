import Verif.Base

/-!
# The websocket adapter of the web server

Model of `websocketReadWriter` (server/web/websocket.go:65-183) used by one reading goroutine and
one writing goroutine (packet/packetio/stream.go:89-107: `Stream.Transfer` calls
`ReadStream.Transfer` in one goroutine and `WriteStream.Transfer` in another, and returns after
both have returned), and of the handlers around it
(server/web/handler.go:1103-1116 and 1361-1389).

Every access of shared memory and every begin and end of `conn.WriteMessage` is a step of its own.
Go's atomics are sequentially consistent.  What the connection does (success or failure of a
write, what is read) is chosen freely.
-/

namespace Gate.Ws

/-- The messages which the server writes while the connection is in use:
the first reply (handler.go:1103, 1363), the input hint (websocket.go:115), program output
(websocket.go:142), and the final status (handler.go:1113, 1383) and close (handler.go:1114, 1389)
messages. -/
inductive Msg
  | reply
  | hint
  | data (b : Bytes)
  | status
  | close
  deriving DecidableEq

/-- The goroutine which performs a step: the request handler, the one which reads or the one which
writes. -/
inductive Tid
  | main
  | reader
  | writer
  deriving DecidableEq

/-- What can be observed of the adapter: begins and ends of writes to the connection, calls of
`conn.NextReader`, `CloseRead` calls, and returns of `Write` (with the number of bytes it
reported). -/
inductive Ev
  | beg (t : Tid) (m : Msg)
  | fin (t : Tid) (ok : Bool)
  | read
  | closed
  | ret (b : Bytes) (n : Nat) (ok : Bool)
  deriving DecidableEq

/-- Where the reading goroutine is: `Read` (websocket.go:77-106), `writeInputHint` (108-119) and
`CloseRead` (121-131).  `wait`: the goroutine hasn't been started; `gone`: it has returned. -/
inductive RPc
  | wait
  | idle
  | load            -- websocket.go:82
  | lock            -- websocket.go:109
  | check           -- websocket.go:112
  | writing         -- websocket.go:113
  | store           -- websocket.go:116
  | unlock          -- websocket.go:110
  | frames          -- websocket.go:86-105
  | cload           -- websocket.go:122
  | clock           -- websocket.go:123
  | cstore          -- websocket.go:126
  | cunlock         -- websocket.go:124
  | gone
  deriving DecidableEq

/-- Where the writing goroutine is: `Write` (websocket.go:133-147); `l` tells whether the deferred
unlock has been armed. -/
inductive WPc
  | wait
  | idle
  | load (b : Bytes)                       -- websocket.go:134
  | lock (b : Bytes)                       -- websocket.go:135
  | check (b : Bytes) (l : Bool)           -- websocket.go:139
  | writing (b : Bytes) (l : Bool)         -- websocket.go:143
  | unlock (b : Bytes) (n : Nat) (ok l : Bool)     -- websocket.go:136
  | gone
  deriving DecidableEq

/-- Where the handler is (handler.go:1103-1116, 1361-1389). -/
inductive MPc
  | reply       -- about to write the first reply
  | replying
  | transfer    -- in connIO / inst.Connect
  | status      -- joined; about to write the status
  | statusing
  | close
  | closing
  | done
  deriving DecidableEq

/-- `websocketReadWriter` (websocket.go:65-71) and the goroutines using it. -/
structure St where
  hint : Bool := false
  mu : Option Tid := none
  err : Bool := false
  r : RPc := .wait
  w : WPc := .wait
  m : MPc := .reply
  log : List Ev := []

/-- One step of one goroutine. -/
inductive Step : St → St → Prop
  -- handler.go:1103, 1363: the first reply
  | mReply (s : St) : s.m = .reply →
      Step s { s with m := .replying, log := s.log ++ [.beg .main .reply] }
  | mReplied (s : St) (ok : Bool) : s.m = .replying →
      Step s { s with
        m := if ok then .transfer else .done,
        r := if ok then .idle else s.r,
        w := if ok then .idle else s.w,
        log := s.log ++ [.fin .main ok] }
  -- stream.go:92-107: both goroutines have returned; handler.go:1376-1379: an error ends the
  -- handler of connect requests.
  | mJoin (s : St) (ok : Bool) : s.m = .transfer → s.r = .gone → s.w = .gone →
      Step s { s with m := if ok then .status else .done }
  | mStatus (s : St) : s.m = .status →
      Step s { s with m := .statusing, log := s.log ++ [.beg .main .status] }
  | mStatused (s : St) (ok : Bool) : s.m = .statusing →
      Step s { s with m := if ok then .close else .done, log := s.log ++ [.fin .main ok] }
  | mClose (s : St) : s.m = .close →
      Step s { s with m := .closing, log := s.log ++ [.beg .main .close] }
  | mClosed (s : St) (ok : Bool) : s.m = .closing →
      Step s { s with m := .done, log := s.log ++ [.fin .main ok] }
  -- websocket.go:77-83
  | rCall (s : St) : s.r = .idle → Step s { s with r := .load }
  | rLoad (s : St) : s.r = .load → Step s { s with r := if s.hint then .frames else .lock }
  -- websocket.go:108-119
  | rLock (s : St) : s.r = .lock → s.mu = none → Step s { s with r := .check, mu := some .reader }
  | rCheckErr (s : St) : s.r = .check → s.err = true → Step s { s with r := .store }
  | rCheckOk (s : St) : s.r = .check → s.err = false →
      Step s { s with r := .writing, log := s.log ++ [.beg .reader .hint] }
  | rWritten (s : St) (ok : Bool) : s.r = .writing →
      Step s { s with r := .store, err := !ok, log := s.log ++ [.fin .reader ok] }
  | rStore (s : St) : s.r = .store → Step s { s with r := .unlock, hint := true }
  | rUnlock (s : St) : s.r = .unlock → Step s { s with r := .frames, mu := none }
  -- websocket.go:86-105: any number of frames is read before Read returns
  | rNext (s : St) : s.r = .frames → Step s { s with log := s.log ++ [.read] }
  | rReturn (s : St) : s.r = .frames → Step s { s with r := .idle }
  -- websocket.go:121-131
  | cCall (s : St) : s.r = .idle → Step s { s with r := .cload, log := s.log ++ [.closed] }
  | cLoad (s : St) : s.r = .cload → Step s { s with r := if s.hint then .gone else .clock }
  | cLock (s : St) : s.r = .clock → s.mu = none →
      Step s { s with r := .cstore, mu := some .reader }
  | cStore (s : St) : s.r = .cstore → Step s { s with r := .cunlock, hint := true }
  | cUnlock (s : St) : s.r = .cunlock → Step s { s with r := .gone, mu := none }
  -- read.go:202-203: the transfer is stopped without closing the reader
  | rGone (s : St) : s.r = .idle → Step s { s with r := .gone }
  -- websocket.go:133-147
  | wCall (s : St) (b : Bytes) : s.w = .idle → Step s { s with w := .load b }
  | wLoad (s : St) (b : Bytes) : s.w = .load b →
      Step s { s with w := if s.hint then .check b false else .lock b }
  | wLock (s : St) (b : Bytes) : s.w = .lock b → s.mu = none →
      Step s { s with w := .check b true, mu := some .writer }
  | wCheckErr (s : St) (b : Bytes) (l : Bool) : s.w = .check b l → s.err = true →
      Step s { s with w := .unlock b 0 false l }
  | wCheckOk (s : St) (b : Bytes) (l : Bool) : s.w = .check b l → s.err = false →
      Step s { s with w := .writing b l, log := s.log ++ [.beg .writer (.data b)] }
  | wWritten (s : St) (b : Bytes) (l ok : Bool) : s.w = .writing b l →
      Step s { s with
        w := .unlock b (if ok then b.length else 0) ok l,
        err := if ok then s.err else true,
        log := s.log ++ [.fin .writer ok] }
  | wUnlock (s : St) (b : Bytes) (n : Nat) (ok l : Bool) : s.w = .unlock b n ok l →
      Step s { s with
        w := .idle,
        mu := if l then none else s.mu,
        log := s.log ++ [.ret b n ok] }
  | wGone (s : St) : s.w = .idle → Step s { s with w := .gone }

/-- The states reached from a new connection. -/
inductive Reach : St → Prop
  | init : Reach {}
  | step {s t : St} : Reach s → Step s t → Reach t

/-! ## Specification over observations -/

/-- What is known after a list of events: nobody is writing, or `t` is writing, or something went
wrong (two writes at a time, or an end without a begin). -/
inductive Busy
  | free
  | by (t : Tid)
  | bad
  deriving DecidableEq

/-- One write at a time, each ended by the goroutine which began it. -/
def Busy.next : Busy → Ev → Busy
  | .free, .beg t _ => .by t
  | .by t, .fin t' _ => if t = t' then .free else .bad
  | .free, .fin _ _ => .bad
  | .by _, .beg _ _ => .bad
  | x, _ => x

/-- The connection's users after the events `es`. -/
def busy (es : List Ev) : Busy := es.foldl Busy.next .free

/-- The messages whose writing has been begun. -/
def begun (es : List Ev) : List Msg :=
  es.filterMap fun e => match e with | .beg _ m => some m | _ => none

/-- How far the conversation is. -/
inductive Talk
  | nothing | replied | ended | closed | bad
  deriving DecidableEq

/-- The protocol which clients expect: first the reply, then output and hints, then the status,
then the close message, and nothing after that. -/
def Talk.next : Talk → Msg → Talk
  | .nothing, .reply => .replied
  | .replied, .hint => .replied
  | .replied, .data _ => .replied
  | .replied, .status => .ended
  | .ended, .close => .closed
  | _, _ => .bad

/-- How far the conversation is after the messages `ms`. -/
def talk (ms : List Msg) : Talk := ms.foldl Talk.next .nothing

/-- Whether a write has failed. -/
def failed (es : List Ev) : Bool :=
  es.any fun e => match e with | .fin _ ok => !ok | _ => false

/-- The message being written, and the payloads of the output messages written so far. -/
def outStep : Option Msg × List Bytes → Ev → Option Msg × List Bytes
  | (_, acc), .beg _ m => (some m, acc)
  | (some (.data b), acc), .fin _ true => (none, acc ++ [b])
  | (_, acc), .fin _ _ => (none, acc)
  | x, _ => x

/-- The payloads of messages with program output which have been written as a whole. -/
def outputs (es : List Ev) : List Bytes := (es.foldl outStep (none, [])).2

/-- What `Write` calls have reported as written. -/
def reported (es : List Ev) : List Bytes :=
  es.filterMap fun e => match e with | .ret b _ true => some b | _ => none

/-! ## Reading -/

/-- What the connection does when it's asked: `NextReader` (websocket.go:88) gives a frame or an
error; reading the frame (websocket.go:96) gives bytes, with the end of the frame or another error
perhaps. -/
inductive Act
  | frame
  | frameErr
  | chunk (b : Bytes)
  | chunkEof (b : Bytes)
  | chunkErr (b : Bytes)
  deriving DecidableEq

/-- The loop of `Read` (websocket.go:86-105): `cur` tells whether `readFrame` is non-nil.  The
result has the new `cur`, the bytes, whether an error was returned, and what the connection does
later; `none` if the call is still waiting for the connection. -/
def readLoop : Bool → List Act → Option (Bool × Bytes × Bool × List Act)
  | false, .frame :: es => readLoop true es
  | false, .frameErr :: es => some (false, [], true, es)
  | true, .chunk b :: es => if b = [] then readLoop true es else some (true, b, false, es)
  | true, .chunkEof b :: es => if b = [] then readLoop false es else some (false, b, false, es)
  | true, .chunkErr b :: es => some (true, b, true, es)
  | _, _ => none

/-- `Read` (websocket.go:77-106) with a buffer of `n` bytes; sending of the hint is in `Step`. -/
def readCall (n : Nat) (cur : Bool) (es : List Act) : Option (Bool × Bytes × Bool × List Act) :=
  if n = 0 then some (cur, [], false, es) else readLoop cur es

/-- A client's bytes. -/
def payload (es : List Act) : Bytes :=
  es.flatMap fun e => match e with | .chunk b | .chunkEof b | .chunkErr b => b | _ => []

/-- A sequence of `Read` calls with buffers of sizes `ns`: the bytes which they returned and how
often they canceled the request (websocket.go:161-167). -/
def readCalls : List Nat → Bool → List Act → Bytes × Nat × Bool × List Act
  | [], cur, es => ([], 0, cur, es)
  | n :: ns, cur, es =>
    match readCall n cur es with
    | none => ([], 0, cur, es)
    | some (cur', b, err, es') =>
      let (bs, k, c, rest) := readCalls ns cur' es'
      (b ++ bs, (if err then 1 else 0) + k, c, rest)

end Gate.Ws
