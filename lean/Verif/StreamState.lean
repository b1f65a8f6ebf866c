import Verif.Varint
/-
Model of packet/packetio/state.go and the state part of packet/packetio/stream.go.
-/
namespace Gate.StreamState
open Gate Gate.Varint

/-- packet/packetio/state.go:20-24. -/
def flagSubscribing : Nat := 1
def flagReadWriting : Nat := 2
def flagSendReceiving : Nat := 4

/-- Is the single-bit flag set (Go `flags & flag != 0`)? -/
def hasFlag (flags flag : Nat) : Bool := flags / flag % 2 == 1

/-- `State`, packet/packetio/state.go:29-33.  `flags` and `subscribed` are uint32
values; `cap` is the capacity of the `Data` slice. -/
structure State where
  flags : Nat
  subscribed : Nat
  data : Bytes
  cap : Nat
deriving DecidableEq, Repr

/-- `State{}`: the zero value, a final state. -/
def State.zero : State := ⟨0, 0, [], 0⟩

/-- `InitialStateWithDataBuffer`, packet/packetio/state.go:39-44, with a buffer of
capacity `cap` (`databuf[:0]` of a nil buffer has capacity 0). -/
def initialState (cap : Nat) : State := ⟨flagSubscribing + flagReadWriting + flagSendReceiving, 0, [], cap⟩

/-- `State.Live`, packet/packetio/state.go:47-49. -/
def State.live (s : State) : Bool :=
  hasFlag s.flags flagSubscribing || hasFlag s.flags flagReadWriting || hasFlag s.flags flagSendReceiving

/-- `State.Unmarshal`, packet/packetio/state.go:58-106.  Returns the new state and
the unconsumed tail.  The receiver's old value is discarded at line 61
(`*s = State{}`), so `s.Data == nil` always holds at line 89 and the data is a
subslice of `src` whose capacity equals its length (`src[:size:size]`). -/
def unmarshal (src : Bytes) (maxDataSize : Nat) : Res (State × Bytes) := do
  let (flags, src) ← scan src
  let (subscribed, src) ← scan src
  let (size, src) ← scan src
  if size > maxDataSize then .err "serialized buffer state size limit exceeded"
  else if src.length < size then .err "unexpected end of serialized state"
  else
    let st : State := ⟨flags, subscribed, src.take size, size⟩
    if hasFlag flags flagSendReceiving = false ∧ (hasFlag flags flagReadWriting = true ∨ size ≠ 0) then
      .err "impossible state"
    else .ok (st, src.drop size)

/-- `State.MarshaledSize`, packet/packetio/state.go:109-115. -/
def State.marshaledSize (s : State) : Res Nat := do
  let a ← len (toSigned 32 s.flags)
  let b ← len (toSigned 32 s.subscribed)
  let c ← len (toSigned 32 (s.data.length % 2 ^ 32))
  return a + b + c + s.data.length

/-- `State.Marshal`, packet/packetio/state.go:119-125.  Returns the bytes stored
at the head of `dest` and the unused tail of `dest`. -/
def State.marshal (s : State) (dest : Bytes) : Res (Bytes × Bytes) := do
  let (w1, dest) ← put dest (toSigned 32 s.flags)
  let (w2, dest) ← put dest (toSigned 32 s.subscribed)
  let (w3, dest) ← put dest (toSigned 32 (s.data.length % 2 ^ 32))
  if s.data.length ≤ dest.length then
    return (w1 ++ w2 ++ w3 ++ s.data, dest.drop s.data.length)
  else .panic

/-- `Stream` restricted to its two states, packet/packetio/stream.go:26-29. -/
structure Stream where
  read : State
  write : State
deriving DecidableEq, Repr

/-- `Stream.Unmarshal`, packet/packetio/stream.go:53-60.  `bufferSize` is the
receiver's write buffer capacity before the call. -/
def streamUnmarshal (src : Bytes) (maxSendSize bufferSize : Nat) : Res (Stream × Bytes) := do
  let (r, src) ← unmarshal src maxSendSize
  let (w, src) ← unmarshal src bufferSize
  return (⟨r, w⟩, src)

/-- `Stream.MarshaledSize`, packet/packetio/stream.go:63-65. -/
def Stream.marshaledSize (s : Stream) : Res Nat := do
  let a ← s.read.marshaledSize
  let b ← s.write.marshaledSize
  return a + b

/-- `Stream.Marshal`, packet/packetio/stream.go:69-73. -/
def Stream.marshal (s : Stream) (dest : Bytes) : Res (Bytes × Bytes) := do
  let (w1, dest) ← s.read.marshal dest
  let (w2, dest) ← s.write.marshal dest
  return (w1 ++ w2, dest)

end Gate.StreamState
