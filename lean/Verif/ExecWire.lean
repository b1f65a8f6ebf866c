import Verif.Auth
/-
C179: what the runtime and the executor process send to each other, as bytes. runtime/executor.go:22-30, 186-265, 309-336; runtime/executor/executor.c:222-251, 343-421, 460-487, 494-524.

Both ends run in the same machine; it's little-endian on the supported architectures (amd64, arm64), as the Go code assumes.  What the operations do is C1's and C134's.
-/
namespace Gate.ExecWire

/-- The two's complement of an integer, with a number of values (2^16 or 2^32). -/
def wrap (size : Nat) (i : Int) : Nat := (i % (size : Int)).toNat

/-- The signed integer of `wrap`'s result. -/
def signed (size n : Nat) : Int := if size / 2 ≤ n then (n : Int) - size else n

def put16 (n : Nat) : Bytes := [UInt8.ofNat n, UInt8.ofNat (n / 256)]
def put32 (n : Nat) : Bytes := [UInt8.ofNat n, UInt8.ofNat (n / 256), UInt8.ofNat (n / 65536), UInt8.ofNat (n / 16777216)]
def get16 (a b : UInt8) : Nat := a.toNat + 256 * b.toNat
def get32 (a b c d : UInt8) : Nat := a.toNat + 256 * b.toNat + 65536 * c.toNat + 16777216 * d.toNat

/-! ### Statuses -/

structure Status where
  id : Int
  status : Int
  deriving DecidableEq, Repr

/-- struct exec_status, executor.c:236-240; the reserved bytes are what is in memory. -/
def encode (r1 r2 : UInt8) (s : Status) : Bytes := put16 (wrap 65536 s.id) ++ [r1, r2] ++ put32 (wrap 4294967296 s.status)

/-- executor.go:252-256 -/
def decode : Bytes → Option (Status × Bytes)
  | a :: b :: _ :: _ :: c :: d :: e :: f :: rest => some (⟨signed 65536 (get16 a b), signed 4294967296 (get32 c d e f)⟩, rest)
  | _ => none

/-- executor.go:251-263: the statuses, and what remains. -/
def statuses : Nat → Bytes → List Status × Bytes
  | 0, b => ([], b)
  | fuel + 1, b =>
    match decode b with
    | none => ([], b)
    | some (s, rest) => (s :: (statuses fuel rest).1, (statuses fuel rest).2)

/-- The receiver: what is buffered, and the statuses which have been delivered. -/
structure Receiver where
  buffered : Bytes := []
  delivered : List Status := []
  deriving DecidableEq, Repr

/-- executor.go:238: the size of the buffer. -/
def bufLen : Nat := 4096

/-- executor.go:241-265: `chunk` is what has been read. -/
def receive (r : Receiver) (chunk : Bytes) : Receiver :=
  ⟨(statuses (r.buffered ++ chunk).length (r.buffered ++ chunk)).2, r.delivered ++ (statuses (r.buffered ++ chunk).length (r.buffered ++ chunk)).1⟩

/-- Reading gives something, and not more than there's room for: `e.conn.Read(buf[buffered:])`. -/
def Fits (r : Receiver) (chunk : Bytes) : Prop := chunk ≠ [] ∧ r.buffered.length + chunk.length ≤ bufLen

/-- Reads until now. -/
inductive Reads : Receiver → Bytes → Prop where
  | nil : Reads {} []
  | read {r : Receiver} {b : Bytes} (chunk : Bytes) : Reads r b → Fits r chunk → Reads (receive r chunk) (b ++ chunk)

/-! ### Requests -/

inductive Op where | create | kill | suspend
  deriving DecidableEq, Repr

structure Request where
  op : Op
  id : Int
  deriving DecidableEq, Repr

/-- executor.go:26-30 -/
def opByte : Op → UInt8
  | .create => 0
  | .kill => 1
  | .suspend => 2

/-- executor.c:222-226, 363-421; `none`: ERR_EXEC_OP. -/
def byteOp (b : UInt8) : Option Op := if b = 0 then some .create else if b = 1 then some .kill else if b = 2 then some .suspend else none

/-- `math.MaxInt16` -/
def closing : Int := 32767

/-- What killSuspend and finalize send to killRequests for a process, executor.go:324-327, 342, 350: `^value` for a suspension. -/
def killValue (suspend : Bool) (id : Int) : Int := if suspend then -id - 1 else id

inductive Sent where
  /-- Shutdown: the connection's write side is closed, and the process executor kills everything. -/
  | close
  | bytes (b : Bytes)
  deriving DecidableEq, Repr

/-- The sender's buffer, executor.go:209-211, 230-231; its fourth byte stays zero. -/
def message (r : Request) : Bytes := put16 (wrap 65536 r.id) ++ [opByte r.op, 0]

/-- executor.go:204-211 -/
def sendCreate (pid : Int) : Sent := .bytes (message ⟨.create, pid⟩)

/-- executor.go:215-232 -/
def sendKill (id : Int) : Sent :=
  if id = closing then .close
  else if id < 0 then .bytes (message ⟨.suspend, -id - 1⟩)
  else .bytes (message ⟨.kill, id⟩)

/-- executor.c:247 -/
def idProcs : Nat := 16384

inductive Received where
  /-- The process dies: ERR_EXEC_MSG_LEN, ERR_EXEC_ID_RANGE, ERR_EXEC_OP. -/
  | dies
  /-- initiate_shutdown -/
  | shutdown
  | request (r : Request)
  deriving DecidableEq, Repr

/-- A message that has been received, executor.c:343-366, 418-421; `MSG_CTRUNC` is C134's. -/
def receiveOp : Bytes → Received
  | [] => .shutdown
  | [a, b, op, _] =>
    if signed 65536 (get16 a b) < 0 ∨ (idProcs : Int) ≤ signed 65536 (get16 a b) then .dies
    else match byteOp op with
      | none => .dies
      | some o => .request ⟨o, signed 65536 (get16 a b)⟩
  | _ => .dies

/-- What the executor process receives: closing the write side reads as an empty message. -/
def wire : Sent → Received
  | .close => receiveOp []
  | .bytes b => receiveOp b

end Gate.ExecWire
