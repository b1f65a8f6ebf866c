import Verif.Packet
/-
Model of the packet framing and validation part of runtime/io.go:
subjectReadLoop, splitBufferedPackets, checkServicePacket, handlePacket (service
packets), initMessagePacket and the padding of subjectWriteLoop.

The discoverer is represented by its number of services.  Goroutines and channel
operations of the read loop are omitted: the loop's sends are the elements of the
returned list, in order.
-/
namespace Gate.Framing
open Gate Gate.Packet

/-- runtime/runtime.go:9. -/
def maxPacketSize : Nat := 65536

/-- Size field of a buffer with at least four bytes
(`binary.LittleEndian.Uint32(header)`, runtime/io.go:259 and 358). -/
def sizeField (b : Bytes) : Nat := unle (b.take 4)

/-! ### Reading from the pipe -/

/-- A pipe: the chunks in which the kernel returns the bytes, then end of file. -/
abbrev Pipe := List Bytes

/-- `os.File.Read(buf)` with `len(buf) = n > 0`: at most one chunk, the rest of it stays
in the pipe.  `none` is end of file. -/
def read (n : Nat) : Pipe → Option (Bytes × Pipe)
  | [] => none
  | c :: cs => if c.length ≤ n then some (c, cs) else some (c.take n, c.drop n :: cs)

inductive ReadErr where
  | eof         -- io.EOF
  | unexpected  -- io.ErrUnexpectedEOF (wrapped: "subject read: ...")
deriving DecidableEq, Repr

/-- `io.ReadFull(r, buf)` with `len(buf) = n` (Go standard library, `ReadAtLeast`):
returns the bytes read, the remaining pipe and the error.  `got` is what has been
read so far. -/
def readFullLoop (n : Nat) (got : Bytes) : Pipe → Bytes × Pipe × Option ReadErr
  | [] => if n = 0 then (got, [], none)
          else (got, [], some (if got = [] then .eof else .unexpected))
  | c :: cs =>
    if n = 0 then (got, c :: cs, none)
    else if c.length ≤ n then readFullLoop (n - c.length) (got ++ c) cs
    else (got ++ c.take n, c.drop n :: cs, none)

def readFull (n : Nat) (p : Pipe) : Bytes × Pipe × Option ReadErr := readFullLoop n [] p

/-- What the read loop sends to the I/O loop, runtime/io.go:52-55. -/
inductive Event where
  | pkt (buf : Bytes)                  -- read{buf: buf[:size]}
  | stop (buf : Bytes) (e : ReadErr)   -- read{buf: ..., err: err}
  | bad                                -- read{err: badprogram...}
deriving DecidableEq, Repr

/-- The loop of `subjectReadLoop`, runtime/io.go:247-279.  One unit of fuel per
iteration; each iteration consumes at least eight bytes, so the fuel given by
`subjectReads` is enough (see `FramingProps`). -/
def readLoop : Nat → Bytes → Pipe → List Event
  | 0, _, _ => []
  | fuel + 1, part, pipe =>
    let offset := min headerSize part.length
    let header := part.take offset
    let part := part.drop offset
    match readFull (headerSize - offset) pipe with
    | (b, _, some e) => [.stop (header ++ b) e]
    | (b, pipe, none) =>
      let header := header ++ b
      let size := sizeField header
      if size < headerSize ∨ size > maxPacketSize then [.bad]
      else
        let bufLen := align size
        -- copy(buf, header); copy(buf[offset:], partial)
        let n := min (bufLen - headerSize) part.length
        let buf := header ++ part.take n
        match readFull (bufLen - headerSize - n) pipe with
        | (b, _, some e) => [.stop (buf ++ b) e]
        | (b, pipe, none) => .pkt ((buf ++ b).take size) :: readLoop fuel [] pipe

/-- `subjectReadLoop(r, partial)`, runtime/io.go:239-283: everything it sends. -/
def subjectReads (part : Bytes) (pipe : Pipe) : List Event :=
  readLoop (part.length + pipe.flatten.length + 1) part pipe

/-! ### Validation -/

/-- `checkServicePacket`, runtime/io.go:386-408. -/
def checkServicePacket (p : Bytes) (numServices : Nat) : Res Bytes := do
  let c ← code p
  if c ≥ numServices then .err "invalid service code in packet"
  else
    let d ← domain p
    if d = domainCall ∨ d = domainInfo ∨ d = domainFlow then .ok p
    else if d = domainData then
      if p.length < dataHeaderSize then .err "data packet is too short" else .ok p
    else .err "invalid domain in packet"

/-- `splitBufferedPackets`, runtime/io.go:350-384.  Returns the messages and the
tail.  One unit of fuel per iteration. -/
def splitLoop : Nat → Bytes → Nat → List Bytes → Res (List Bytes × Bytes)
  | 0, _, _, _ => .err "out of fuel"
  | fuel + 1, buf, num, msgs =>
    if buf.length < headerSize then .ok (msgs, buf)
    else
      let size := sizeField buf
      if size < headerSize ∨ size > maxPacketSize then .err "buffered packet has invalid size"
      else if buf.length % 2 ^ 32 < size then .ok (msgs, buf)
      else if buf.length < size then .panic
      else do
        let p := buf.take size
        let c ← code p
        if c < 0 then .err "invalid code in buffered packet"
        else
          let p ← checkServicePacket p num
          splitLoop fuel (buf.drop size) num (msgs ++ [p])

def splitBufferedPackets (buf : Bytes) (numServices : Nat) : Res (List Bytes × Bytes) :=
  splitLoop (buf.length + 1) buf numServices []

/-- Outcome of `handlePacket`, runtime/io.go:328-348: a message for services, or a
service discovery request (handled by `handleServicesPacket`, see `Services`). -/
inductive Handled where
  | msg (p : Bytes)
  | services (p : Bytes)
deriving DecidableEq, Repr

def handlePacket (p : Bytes) (numServices : Nat) : Res Handled := do
  let c ← code p
  if c ≥ 0 then
    let m ← checkServicePacket p numServices
    return .msg m
  else if c = codeServices then return .services p
  else .err "invalid code in incoming packet"

/-! ### Writing to the program -/

/-- Number of padding bytes, runtime/io.go:297:
`(Alignment - (uint64(len(buf)) & (Alignment - 1))) &^ Alignment`.  The value
before `&^` is between 1 and 8, so clearing bit 3 maps 8 to 0. -/
def padLen (len : Nat) : Nat :=
  let n := alignment - len % alignment
  if n = 8 then 0 else n

/-- What `subjectWriteLoop` writes for one buffer, runtime/io.go:294-303. -/
def eventBytes (buf : Bytes) : Bytes := buf ++ List.replicate (padLen buf.length) 0

/-- `initMessagePacket`, runtime/io.go:309-326. -/
def initMessagePacket (p : Bytes) : Res Bytes :=
  if p.length < headerSize ∨ p.length > maxPacketSize then .panic
  else do
    let c ← code p
    if c < 0 then .panic
    else if sizeField p ≠ p.length then setSize p
    else .ok p

end Gate.Framing
