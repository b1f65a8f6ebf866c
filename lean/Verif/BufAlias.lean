import Verif.OriginStateProps
/-
The byte arrays which the snapshot buffers of programs and instances consist of, and everything that writes to byte arrays while programs run.

Modelled: snapshot/buffers.go (buffers are copied without copying their arrays), build/build.go:234-262 (a module's buffers are parts of one array), server/server.go:1281,
server/instance.go:376-397, server/server.go:934 (which buffers are shared), runtime/io.go:22-203 (ioLoop), 205-249 (subjectReadLoop), 309-326 (initMessagePacket),
356-392 (splitBufferedPackets), service/registry.go (StartServing, Suspend: which buffers services get and give), service/origin/instance.go:57-124,
packet/packetio/state.go:58-106 (the data of a stream's state is a part of the array which the state was read from), packet/packetio/write.go:58-103 (Write).

Simplified: a packet which the program has sent and which ioLoop has read is in the list of messages, or has been handled, in one step.  Ended instances' buffers are never
forgotten.  Services other than origin don't keep parts of the buffers which they are restored from.
-/
namespace Gate.BufAlias
open Gate Gate.Varint Gate.StreamState Gate.OriginState

/-- Go's byte arrays: what is at the address of each. -/
abbrev Heap := Nat → Bytes

/-- A slice of an array, the capacity included. -/
structure Slice where
  arr : Nat
  off : Nat
  len : Nat
  cap : Nat
  deriving DecidableEq, Repr

/-- The nil slice. -/
def nil : Slice := ⟨0, 0, 0, 0⟩

/-- What a slice says. -/
def bytes (h : Heap) (s : Slice) : Bytes := ((h s.arr).drop s.off).take s.len

/-- `b` with `data` in place of what is at `i`. -/
def overwrite (b : Bytes) (i : Nat) (data : Bytes) : Bytes := b.take i ++ data ++ b.drop (i + data.length)

/-- `copy(s[i:], data)` -/
def store (h : Heap) (s : Slice) (i : Nat) (data : Bytes) : Heap := fun a => if a = s.arr then overwrite (h a) (s.off + i) data else h a

structure Mem where
  heap : Heap
  /-- The address of the next array. -/
  next : Nat

/-- A new array, of which `b` is the part in use. -/
def alloc (m : Mem) (b : Bytes) (room : Nat) : Mem × Slice :=
  ({ heap := fun a => if a = m.next then b ++ List.replicate room 0 else m.heap a, next := m.next + 1 }, ⟨m.next, 0, b.length, b.length + room⟩)

/-- `append(s, data...)`; the new array, if one is needed, has some room to spare. -/
def append (m : Mem) (s : Slice) (data : Bytes) (room : Nat) : Mem × Slice :=
  if s.len + data.length ≤ s.cap then ({ m with heap := store m.heap s s.len data }, { s with len := s.len + data.length })
  else alloc m (bytes m.heap s ++ data) room

/-- The result of appending many slices one after another. -/
def appendAll (m : Mem) (s : Slice) : List Slice → Nat → Mem × Slice
  | [], _ => (m, s)
  | d :: ds, room => let r := append m s (bytes m.heap d) room; appendAll r.1 r.2 ds room

/-- snapshot/buffers.go:14-18. -/
structure Buffers where
  services : List (String × Slice)
  input : Slice
  output : Slice

/-- All slices of the buffers. -/
def Buffers.slices (b : Buffers) : List Slice := b.input :: b.output :: b.services.map (·.2)

/-- An instance's ioLoop and the services connected to it. -/
structure Run where
  /-- The instance's buffers. -/
  frozen : Buffers
  /-- The buffers which the services were restored from. -/
  restored : List (String × Slice)
  /-- Packets which the program has sent and the services haven't received. -/
  msgs : List Slice
  /-- Incomplete packet which the program has sent. -/
  part : Slice
  /-- Packets which the program hasn't received. -/
  evs : List Slice
  /-- Packets which the services have received. -/
  got : List Slice
  /-- The data buffers of the origin service's restored streams. -/
  streams : List Slice

structure World where
  mem : Mem
  /-- The buffers of programs and of instances which aren't running. -/
  pool : List Buffers
  run : Nat → Option Run

/-- The size field of a packet's header, if it has one. -/
def sizeField : Bytes → Option Nat
  | a :: b :: c :: d :: _ => some (a.toNat + 256 * b.toNat + 65536 * c.toNat + 16777216 * d.toNat)
  | _ => none

/-- The size field for a packet of `n` bytes. -/
def sizeBytes (n : Nat) : Bytes := [UInt8.ofNat n, UInt8.ofNat (n / 256), UInt8.ofNat (n / 65536), UInt8.ofNat (n / 16777216)]

/-- runtime/io.go:356-392: parts of the buffer, and what remains of it.  `none`: an error. -/
def split (h : Heap) : Nat → Slice → Option (List Slice × Slice)
  | 0, s => some ([], s)
  | fuel + 1, s =>
    if s.len < 8 then some ([], s)
    else match sizeField (bytes h s) with
      | none => none
      | some n =>
        if n < 8 ∨ 65536 < n then none
        else if s.len < n then some ([], s)
        else match split h fuel ⟨s.arr, s.off + n, s.len - n, s.cap - n⟩ with
          | none => none
          | some (ms, rest) => some (⟨s.arr, s.off, n, s.cap⟩ :: ms, rest)

/-- Where the data buffers of the streams' write states are in the array which they are restored from, as offset and length: OriginState.restoreLoop. -/
def spanLoop (maxSend bufSize total : Nat) : Nat → Bytes → List (Nat × Nat)
  | 0, _ => []
  | n + 1, input =>
    match scan input with
    | .ok (_, input) =>
      match streamUnmarshal input maxSend bufSize with
      | .ok (s, tail) => (total - tail.length - s.write.data.length, s.write.data.length) :: spanLoop maxSend bufSize total n tail
      | _ => []
    | _ => []

/-- OriginState.restore. -/
def spans (maxSend bufSize : Nat) (input : Bytes) : List (Nat × Nat) :=
  match scan input with
  | .ok (_, t) =>
    match scan t with
    | .ok (n, t') => spanLoop maxSend bufSize input.length n t'
    | _ => []
  | _ => []

/-- packet/packetio/state.go:86: `data := src[:size:size]`, for each of the streams which the origin service restores from its buffer. -/
def streamBuffers (maxSend bufSize : Nat) (h : Heap) (services : List (String × Slice)) : List Slice :=
  services.flatMap fun e => if e.1 = "origin" then (spans maxSend bufSize (bytes h e.2)).map fun x => ⟨e.2.arr, e.2.off + x.1, x.2, x.2⟩ else []

/-- runtime/io.go:309-326. -/
def initPacket (h : Heap) (s : Slice) : Heap := if sizeField (bytes h s) = some s.len then h else store h s 0 (sizeBytes s.len)

/-- packet/packetio/write.go:78-103 with some position in the buffer: nothing is written if there's no room. -/
def writeStream (h : Heap) (s : Slice) (used i : Nat) (data : Bytes) : Heap :=
  if s.cap ≤ used + data.length then h
  else store (store h s i (data.take (s.cap - i))) s 0 (data.drop (s.cap - i))

/-- A service's state: the buffer which it was to be restored from, because the program never discovered the service, or a new one. -/
inductive Saved
  | same (name : String) (s : Slice)
  | new (name : String) (b : Bytes)

/-- service/registry.go, Suspend. -/
def saveServices (m : Mem) : List Saved → Mem × List (String × Slice)
  | [] => (m, [])
  | .same name s :: rest => let r := saveServices m rest; (r.1, (name, s) :: r.2)
  | .new name b :: rest => let r := alloc m b 0; let r' := saveServices r.1 rest; (r'.1, (name, r.2) :: r'.2)

def setRun (f : Nat → Option Run) (i : Nat) (r : Option Run) : Nat → Option Run := fun j => if j = i then r else f j

/-- runtime/io.go:22-55: what an instance has got left of the buffers which it was created with, once ioLoop has taken them. -/
def popped (_ : Buffers) : Buffers := ⟨[], nil, nil⟩

/-- `ok`: which states of the origin service are accepted in modules.  `maxSend`, `bufSize`: its configuration. -/
inductive Step (ok : Bytes → Prop) (maxSend bufSize : Nat) : World → World → Prop
  /-- build/build.go:234-262: a module is uploaded; its buffers are parts of one array. -/
  | upload (σ : World) (data : Bytes) (services : List (String × Slice)) (input output : Slice) :
      (∀ s ∈ Buffers.slices ⟨services, input, output⟩, s.arr = σ.mem.next) →
      (∀ e ∈ services, e.1 = "origin" → ok (bytes (alloc σ.mem data 0).1.heap e.2)) →
      Step ok maxSend bufSize σ { σ with mem := (alloc σ.mem data 0).1, pool := ⟨services, input, output⟩ :: σ.pool }
  /-- server/server.go:1281, runtime/io.go:91-116, service/origin/instance.go:57-124: an instance is launched, or resumed. -/
  | launch (σ : World) (i : Nat) (b : Buffers) (ms : List Slice) (rest : Slice) : σ.run i = none → b ∈ σ.pool → split σ.mem.heap b.output.len b.output = some (ms, rest) →
      Step ok maxSend bufSize σ { σ with run := setRun σ.run i (some ⟨popped b, b.services, ms, rest, if b.input.len = 0 then [] else [b.input], [],
                                                              streamBuffers maxSend bufSize σ.mem.heap b.services⟩) }
  /-- runtime/io.go:118-121: the initial service states; 178-191: the reply to a services packet. -/
  | event (σ : World) (i : Nat) (r : Run) (b : Bytes) : σ.run i = some r →
      Step ok maxSend bufSize σ { σ with mem := (alloc σ.mem b 0).1, run := setRun σ.run i (some { r with evs := r.evs ++ [(alloc σ.mem b 0).2] }) }
  /-- runtime/io.go:142-143, 309-326: a packet from a service which has made it. -/
  | fromService (σ : World) (i : Nat) (r : Run) (b : Bytes) : σ.run i = some r → 8 ≤ b.length →
      Step ok maxSend bufSize σ { σ with mem := { (alloc σ.mem b 0).1 with heap := initPacket (alloc σ.mem b 0).1.heap (alloc σ.mem b 0).2 }
                                         run := setRun σ.run i (some { r with evs := r.evs ++ [(alloc σ.mem b 0).2] }) }
  /-- A service sends a packet which it has received. -/
  | echo (σ : World) (i : Nat) (r : Run) (p : Slice) : σ.run i = some r → p ∈ r.got →
      Step ok maxSend bufSize σ { σ with mem := { σ.mem with heap := initPacket σ.mem.heap p }, run := setRun σ.run i (some { r with evs := r.evs ++ [p] }) }
  /-- runtime/io.go:205-249: a packet from the program; the incomplete one in the buffer was its beginning. -/
  | fromProgram (σ : World) (i : Nat) (r : Run) (b : Bytes) : σ.run i = some r → sizeField (bytes σ.mem.heap r.part ++ b) = some (bytes σ.mem.heap r.part ++ b).length →
      Step ok maxSend bufSize σ { σ with mem := (alloc σ.mem (bytes σ.mem.heap r.part ++ b) 3).1
                                         run := setRun σ.run i (some { r with msgs := r.msgs ++ [(alloc σ.mem (bytes σ.mem.heap r.part ++ b) 3).2], part := nil }) }
  /-- runtime/io.go:193-194. -/
  | deliver (σ : World) (i : Nat) (r : Run) (p : Slice) (ms : List Slice) : σ.run i = some r → r.msgs = p :: ms →
      Step ok maxSend bufSize σ { σ with run := setRun σ.run i (some { r with msgs := ms, got := p :: r.got }) }
  /-- runtime/io.go:196-197. -/
  | written (σ : World) (i : Nat) (r : Run) (p : Slice) (es : List Slice) : σ.run i = some r → r.evs = p :: es →
      Step ok maxSend bufSize σ { σ with run := setRun σ.run i (some { r with evs := es }) }
  /-- service/origin/instance.go:160-180, packet/packetio/write.go:78-103: the program writes to a stream. -/
  | originWrite (σ : World) (i : Nat) (r : Run) (s : Slice) (used pos : Nat) (data : Bytes) : σ.run i = some r → s ∈ r.streams → (s.cap = 0 ∨ pos < s.cap) →
      Step ok maxSend bufSize σ { σ with mem := { σ.mem with heap := writeStream σ.mem.heap s used pos data } }
  /-- runtime/io.go:85-90, 145-172: the program has stopped.  `b`: the beginning of a packet, which the program has sent after what was in the buffer; `piped`: what the program
  hasn't read from the pipe.  `saved`: see OriginState.suspend as to the origin service. -/
  | finish (σ : World) (i : Nat) (r : Run) (b piped : Bytes) (saved : List Saved) (room : Nat) : σ.run i = some r →
      (∀ x ∈ saved, match x with
        | .same name s => (name, s) ∈ r.restored
        | .new name b => name = "origin" → ∀ x ∈ spans maxSend bufSize b, x.2 = 0) →
      Step ok maxSend bufSize σ
        (let part := alloc σ.mem (bytes σ.mem.heap r.part ++ b) 0
         let out := appendAll part.1 r.frozen.output (r.msgs ++ [part.2]) room
         let inp := alloc out.1 piped room
         let inp' := appendAll inp.1 inp.2 r.evs room
         let sv := saveServices inp'.1 saved
         { mem := sv.1, pool := ⟨sv.2, inp'.2, out.2⟩ :: σ.pool, run := setRun σ.run i none })
  /-- An error, or the instance is killed without being stored. -/
  | fail (σ : World) (i : Nat) : Step ok maxSend bufSize σ { σ with run := setRun σ.run i none }

def initial : World := ⟨⟨fun _ => [], 1⟩, [], fun _ => none⟩

inductive Steps (ok : Bytes → Prop) (maxSend bufSize : Nat) : World → World → Prop
  | refl (σ : World) : Steps ok maxSend bufSize σ σ
  | tail {σ σ' σ'' : World} : Steps ok maxSend bufSize σ σ' → Step ok maxSend bufSize σ' σ'' → Steps ok maxSend bufSize σ σ''

end Gate.BufAlias
