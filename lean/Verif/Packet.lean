import Verif.Base
/-
Model of packet/packet.go: packet buffers, header fields, splitting, flow and
data packets.  A `Buf` is its byte contents; Go slice capacity is not modelled
(it only matters for aliasing after `append`).
-/
namespace Gate.Packet
open Gate

/-- packet/packet.go:54 `Alignment`. -/
def alignment : Nat := 8
/-- packet/packet.go:61 `HeaderSize`. -/
def headerSize : Nat := 8
/-- packet/packet.go:65 `ServicesHeaderSize`. -/
def servicesHeaderSize : Nat := 10
/-- packet/packet.go:73 `DataHeaderSize`. -/
def dataHeaderSize : Nat := 16
/-- packet/packet.go:79 `flowSize`. -/
def flowSize : Nat := 8

/-- packet/packet.go:17 `CodeServices`. -/
def codeServices : Int := -1

/-- packet/packet.go:22-27 `Domain` constants. -/
def domainCall : Nat := 0
def domainInfo : Nat := 1
def domainFlow : Nat := 2
def domainData : Nat := 3

/-- `Align`, packet/packet.go:83-85: `(length + 7) &^ 7`, that is, the low three
bits of `length + 7` cleared. -/
def align (length : Nat) : Nat := (length + (alignment - 1)) / alignment * alignment

/-- Store `v` as `k` little-endian bytes at `off`; panics if out of range
(Go `binary.LittleEndian.PutUintN(b[off:], v)`). -/
def putLE (b : Bytes) (off k v : Nat) : Res Bytes :=
  if off + k ≤ b.length then .ok (putAt b off (le k v)) else .panic

/-- Load `k` little-endian bytes at `off`; panics if out of range
(Go `binary.LittleEndian.UintN(b[off:])`). -/
def getLE (b : Bytes) (off k : Nat) : Res Nat :=
  if off + k ≤ b.length then .ok (unle (slice b off k)) else .panic

/-- `Buf.SetCode`, packet/packet.go:154-156.  Offset of code is 4. -/
def setCode (b : Bytes) (code : Int) : Res Bytes := putLE b 4 2 (toUnsigned 16 code)

/-- `Buf.Code`, packet/packet.go:150-152. -/
def code (b : Bytes) : Res Int := do
  let n ← getLE b 4 2
  return toSigned 16 n

/-- `Make`, packet/packet.go:90-95.  `domain` is a byte value. -/
def make (c : Int) (domain : Nat) (packetSize : Nat) : Res Bytes := do
  let b ← setCode (List.replicate packetSize 0) c
  putLE b 6 1 domain

/-- `MakeCall`, packet/packet.go:97-99. -/
def makeCall (c : Int) (contentSize : Nat) : Res Bytes := make c domainCall (headerSize + contentSize)

/-- `MakeInfo`, packet/packet.go:101-103. -/
def makeInfo (c : Int) (contentSize : Nat) : Res Bytes := make c domainInfo (headerSize + contentSize)

/-- `Buf.SetSize`, packet/packet.go:138-143. -/
def setSize (b : Bytes) : Res Bytes :=
  if b.length > 2 ^ 32 - 1 then .panic else putLE b 0 4 b.length

/-- `Buf.EncodedSize`, packet/packet.go:146-148. -/
def encodedSize (b : Bytes) : Res Nat := getLE b 0 4

/-- `Buf.Domain`, packet/packet.go:158-160: low four bits. -/
def domain (b : Bytes) : Res Nat := do
  let n ← getLE b 6 1
  return n % 16

/-- `Buf.Index`, packet/packet.go:162-164. -/
def index (b : Bytes) : Res Nat := getLE b 7 1

/-- `Buf.SetIndex`, packet/packet.go:166-168. -/
def setIndex (b : Bytes) (i : Nat) : Res Bytes := putLE b 7 1 i

/-- `Buf.Content`, packet/packet.go:171-173. -/
def content (b : Bytes) : Res Bytes :=
  if headerSize ≤ b.length then .ok (b.drop headerSize) else .panic

/-- `Buf.Split`, packet/packet.go:180-196.  Returns (prefix, unused).  The Go
statement `unused = unused[0:]` at line 190 is transcribed as it is: it leaves
the slice unchanged. -/
def split (b : Bytes) (headerSize prefixLen : Nat) : Res (Bytes × Bytes) :=
  let prefixCap := if align prefixLen > b.length then b.length else align prefixLen
  if prefixLen ≤ prefixCap then
    let pre := b.take prefixLen
    let unused := b.drop prefixCap
    if unused.length < headerSize then
      .ok (pre, unused)
    else if headerSize ≤ prefixCap then
      -- prefix[:headerSize] may reslice up to the prefix's capacity
      .ok (pre, putAt unused 0 (b.take headerSize))
    else .panic
  else .panic

/-- `MakeFlows`, packet/packet.go:201-203. -/
def makeFlows (c : Int) (count : Nat) : Res Bytes := make c domainFlow (headerSize + count * flowSize)

/-- `FlowBuf.Num`, packet/packet.go:218-220. -/
def flowNum (b : Bytes) : Nat := (b.length - headerSize) / flowSize

/-- `FlowBuf.Get`, packet/packet.go:222-227. -/
def flowGet (b : Bytes) (i : Nat) : Res (Int × Int) := do
  let id ← getLE b (headerSize + i * flowSize) 4
  let inc ← getLE b (headerSize + i * flowSize + 4) 4
  return (toSigned 32 id, toSigned 32 inc)

/-- `FlowBuf.Set`, packet/packet.go:229-233. -/
def flowSet (b : Bytes) (i : Nat) (id increment : Int) : Res Bytes := do
  let b ← putLE b (headerSize + i * flowSize) 4 (toUnsigned 32 id)
  putLE b (headerSize + i * flowSize + 4) 4 (toUnsigned 32 increment)

/-- `MakeFlow`, packet/packet.go:105-109. -/
def makeFlow (c : Int) (id increment : Int) : Res Bytes := do
  let b ← makeFlows c 1
  flowSet b 0 id increment

/-- `MakeData`, packet/packet.go:238-242. -/
def makeData (c : Int) (id : Int) (dataSize : Nat) : Res Bytes := do
  let b ← make c domainData (dataHeaderSize + dataSize)
  putLE b 8 4 (toUnsigned 32 id)

/-- `MakeDataEOF`, packet/packet.go:115-117. -/
def makeDataEOF (c : Int) (id : Int) : Res Bytes := makeData c id 0

/-- `DataBuf.ID`, packet/packet.go:257-259. -/
def dataID (b : Bytes) : Res Int := do
  let n ← getLE b 8 4
  return toSigned 32 n

/-- `DataBuf.Note`, packet/packet.go:263-265. -/
def dataNote (b : Bytes) : Res Int := do
  let n ← getLE b 12 4
  return toSigned 32 n

/-- `DataBuf.SetNote`, packet/packet.go:268-270. -/
def setDataNote (b : Bytes) (v : Int) : Res Bytes := putLE b 12 4 (toUnsigned 32 v)

/-- `DataBuf.Data`, packet/packet.go:272-274. -/
def data (b : Bytes) : Res Bytes :=
  if dataHeaderSize ≤ b.length then .ok (b.drop dataHeaderSize) else .panic

/-- `DataBuf.EOF`, packet/packet.go:280-282: `len(b) - DataHeaderSize == 0`. -/
def dataEOF (b : Bytes) : Bool := b.length == dataHeaderSize

/-- `DataBuf.Split`, packet/packet.go:284-288. -/
def dataSplit (b : Bytes) (dataLen : Nat) : Res (Bytes × Bytes) :=
  split b dataHeaderSize (dataHeaderSize + dataLen)

end Gate.Packet
