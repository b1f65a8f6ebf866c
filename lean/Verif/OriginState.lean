import Verif.StreamStateProps
import Verif.WriteStreamProps
/-
Model of the state of the origin service over suspension: service/origin/instance.go:57-106 (restore) and 318-346 (Suspend).

C107: suspending and restoring the origin service.
-/
namespace Gate.OriginState
open Gate Gate.StreamState Gate.Varint

/-- The map of streams (instance.go:31), as a list with distinct ids; Suspend visits it in any order, so every order of the list is covered. -/
abbrev Streams := List (Nat × Stream)

/-- `newStream`, stream.go:20-25 and `MakeWriteStream`, packetio/write.go:39-48: panics unless exactly one of the low 32 bits of the size is set. -/
def goodBuf (bufSize : Nat) : Bool := (List.range 32).any fun k => bufSize % 2 ^ 32 == 2 ^ k

/-- instance.go:84-103 -/
def restoreLoop (maxSend bufSize : Nat) : Nat → Bytes → Streams → Res Streams
  | 0, _, acc => .ok acc
  | n + 1, input, acc =>
    match scan input with
    | .err m => .err m
    | .panic => .panic
    | .ok (id, input) =>
      if goodBuf bufSize then
        match streamUnmarshal input maxSend bufSize with
        | .err m => .err m
        | .panic => .panic
        | .ok (s, input) =>
          if acc.any fun e => e.1 = id then .err "origin service resumed stream with duplicate id"
          else restoreLoop maxSend bufSize n input (acc ++ [(id, s)])
      else .panic

/-- `restore`, instance.go:57-106: the number of pending accept calls, and the streams. -/
def restore (maxSend bufSize : Nat) (input : Bytes) : Res (Nat × Streams) :=
  if input = [] then .ok (0, [])
  else
    match scan input with
    | .err m => .err m
    | .panic => .panic
    | .ok (accepting, input) =>
      if input = [] then .ok (accepting, [])
      else
        match scan input with
        | .err m => .err m
        | .panic => .panic
        | .ok (num, input) =>
          match restoreLoop maxSend bufSize num input [] with
          | .err m => .err m
          | .panic => .panic
          | .ok ss => .ok (accepting, ss)

/-- instance.go:329-332 -/
def sizes : Streams → Res Nat
  | [] => .ok 0
  | (id, s) :: rest => do
    let a ← len (id : Int)
    let b ← s.marshaledSize
    let c ← sizes rest
    return a + b + c

/-- instance.go:339-342; returns what was written and the unused tail. -/
def puts : Streams → Bytes → Res (Bytes × Bytes)
  | [], b => .ok ([], b)
  | (id, s) :: rest, b => do
    let (w1, b) ← put b (id : Int)
    let (w2, b) ← s.marshal b
    let (w3, b) ← puts rest b
    return (w1 ++ w2 ++ w3, b)

/-- `Suspend` after the shutdown, instance.go:321-345. The number of streams is converted to int32. -/
def suspend (accepting : Nat) (ss : Streams) : Res Bytes :=
  if accepting = 0 ∧ ss = [] then .ok []
  else if ss = [] then do
    let n ← len (accepting : Int)
    let (w, b) ← put (List.replicate n 0) (accepting : Int)
    return w ++ b
  else do
    let n1 ← len (accepting : Int)
    let n2 ← len (toSigned 32 (ss.length % 2 ^ 32))
    let n3 ← sizes ss
    let (w1, b) ← put (List.replicate (n1 + n2 + n3) 0) (accepting : Int)
    let (w2, b) ← put b (toSigned 32 (ss.length % 2 ^ 32))
    let (w3, b) ← puts ss b
    return w1 ++ w2 ++ w3 ++ b

end Gate.OriginState
