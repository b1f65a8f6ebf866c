import Verif.Leb
/-
Model of the section encoders of image/snapshot.go and of the section readers of
snapshot/wasm/wasm.go and image/program.go, and the relevant parts of the WebAssembly
binary format as a specification.

Not modelled: package wag. Its `binary.Varuint32` and `Varuint64` are taken to be the
integer formats of the WebAssembly specification (`Leb.wasmU`), its custom section loader to
remove the section's frame and name.
-/
namespace Gate.Sections
open Gate Gate.Leb Gate.Varint

def ascii (s : String) : Bytes := s.toList.map fun c => UInt8.ofNat c.toNat

/-- Section names, snapshot/wasm/wasm.go:26-30. -/
def nameSnapshot : Bytes := ascii "gate.snapshot"
def nameExport : Bytes := ascii "gate.export"
def nameBuffer : Bytes := ascii "gate.buffer"
def nameStack : Bytes := ascii "gate.stack"

/-! ### Specification: WebAssembly core specification, 5.5 Modules -/

/-- 5.5.2: a section is an identifier byte, a size, and so many bytes. -/
def wasmSection : Bytes → Option (Nat × Bytes × Bytes)
  | [] => none
  | id :: r =>
    match wasmU 32 r with
    | none => none
    | some (n, r') => if n ≤ r'.length then some (id.toNat, r'.take n, r'.drop n) else none

/-- 5.2.4: a name is a length and so many bytes (5.5.3: a custom section's content starts
with its name). -/
def wasmName (b : Bytes) : Option (Bytes × Bytes) :=
  match wasmU 32 b with
  | none => none
  | some (n, r) => if n ≤ r.length then some (r.take n, r.drop n) else none

/-! ### Buffers -/

/-- `snapshot.Service` and `snapshot.Buffers`, snapshot/buffers.go. -/
structure Service where
  name : Bytes
  buffer : Bytes
deriving DecidableEq, Repr

structure Buffers where
  services : List Service
  input : Bytes
  output : Bytes
deriving DecidableEq, Repr

/-- `varint.Put(tail, int32(n))` of a length. -/
def putLen (n : Nat) : Bytes := uvarintBytes (toUnsigned 64 (toSigned 32 (n % 2 ^ 32)))

/-- The header written for one service, image/snapshot.go:572-574. -/
def serviceHeader (s : Service) : Bytes :=
  [UInt8.ofNat s.name.length] ++ s.name ++ putLen s.buffer.length

/-- The payload header, image/snapshot.go:556-579. -/
def bufferPayloadHeader (b : Buffers) : Bytes :=
  [UInt8.ofNat nameBuffer.length] ++ nameBuffer ++ putLen b.input.length ++ putLen b.output.length
    ++ putLen b.services.length ++ (b.services.map serviceHeader).flatten

/-- The data, in the order in which `writeBufferSectionDataAt` writes it,
image/snapshot.go:583-608. -/
def bufferData (b : Buffers) : Bytes := b.input ++ b.output ++ (b.services.map (·.buffer)).flatten

/-- The room made for the header, image/snapshot.go:541-552, without the section frame. -/
def maxBufferHeader (b : Buffers) : Nat :=
  1 + nameBuffer.length + 15 + (b.services.map fun s => 1 + s.name.length + 5).sum

/-- `makeBufferSectionHeader`, image/snapshot.go:533-581: the header and the size of the
section, or a panic if the header does not fit the room made for it. -/
def makeBufferSectionHeader (b : Buffers) : Res (Bytes × Nat) :=
  if b.services = [] ∧ b.input = [] ∧ b.output = [] then .ok ([], 0)
  else
    let ph := bufferPayloadHeader b
    if maxBufferHeader b < ph.length then .panic
    else
      let header := [0] ++ uvarintBytes ((ph.length + (bufferData b).length) % 2 ^ 32) ++ ph
      .ok (header, header.length + (bufferData b).length)

/-- Outcome of reading: an error stands for any returned error. -/
def readU (N : Nat) (r : Bytes) : Res (Nat × Bytes) :=
  match wasmU N r with
  | none => .err "varuint"
  | some x => .ok x

/-- `io.ReadFull`. -/
def readFull (n : Nat) (r : Bytes) : Res (Bytes × Bytes) :=
  if n ≤ r.length then .ok (r.take n, r.drop n) else .err "unexpected EOF"

/-- The loop over services, snapshot/wasm/wasm.go:121-152: names and sizes. -/
def readServices : Nat → Bytes → Res (List (Bytes × Nat) × Bytes)
  | 0, r => .ok ([], r)
  | k + 1, r =>
    match r with
    | [] => .err "EOF"
    | nameLen :: r =>
      if nameLen.toNat = 0 ∨ 127 < nameLen.toNat then .err "service name length out of bounds"
      else do
        let (name, r) ← readFull nameLen.toNat r
        let (size, r) ← readU 32 r
        let (l, r) ← readServices k r
        .ok ((name, size) :: l, r)

/-- What the header says: the sizes of the input and output, the services' names and sizes,
and the number of bytes read. -/
structure BufferHeader where
  input : Nat
  output : Nat
  services : List (Bytes × Nat)
  readLen : Nat
deriving DecidableEq, Repr

def BufferHeader.dataSize (h : BufferHeader) : Nat := h.input + h.output + (h.services.map (·.2)).sum

/-- `ReadBufferSectionHeader`, snapshot/wasm/wasm.go:94-174. The number of bytes read is the
length of the input minus what is left. The `make` calls for the services, 117-118, take place
before the services are read: see `serviceCount`. -/
def readBufferSectionHeader (r : Bytes) (length : Nat) : Res (BufferHeader × Bytes) := do
  let (input, r1) ← readU 32 r
  let (output, r2) ← readU 32 r1
  let (count, r3) ← readU 32 r2
  let (services, r4) ← readServices count r3
  let h : BufferHeader := ⟨input, output, services, r.length - r4.length⟩
  if h.readLen + h.dataSize > length then .err "invalid buffer section in wasm module"
  else .ok (h, r4)

/-- The number of service records allocated by `ReadBufferSectionHeader` before it looks at
any of them, snapshot/wasm/wasm.go:117-118. -/
def serviceCount (r : Bytes) : Res Nat := do
  let (_, r1) ← readU 32 r
  let (_, r2) ← readU 32 r1
  let (count, _) ← readU 32 r2
  .ok count

/-- The slices of the data buffer, snapshot/wasm/wasm.go:160-171. -/
def sliceServices : List (Bytes × Nat) → Bytes → List Service
  | [], _ => []
  | (name, size) :: l, b => ⟨name, b.take size⟩ :: sliceServices l (b.drop size)

def sliceBuffers (h : BufferHeader) (data : Bytes) : Buffers :=
  { input := data.take h.input
    output := (data.drop h.input).take h.output
    services := sliceServices h.services (data.drop (h.input + h.output)) }

/-- The loader of the buffer section, build/build.go:232-257: the header, the data, and the
rest of the section, which must be there. -/
def loadBufferSection (content : Bytes) : Res (Buffers × Nat) := do
  let (h, r) ← readBufferSectionHeader content content.length
  let (data, _) ← readFull h.dataSize r
  .ok (sliceBuffers h data, h.readLen)

/-- `Program.LoadBuffers`, image/program.go:83-107: `file` is the program file from the module
on, `off` and `len` the section's byte range, `headerLen` the header length of the manifest. -/
def loadBuffers (file : Bytes) (off len headerLen : Nat) : Res Buffers :=
  if len = 0 then .ok ⟨[], [], []⟩
  else do
    let (header, _) ← readFull headerLen (file.drop off)
    let (h, _) ← readBufferSectionHeader header (len % 2 ^ 32)
    let (data, _) ← readFull h.dataSize (file.drop (off + h.readLen))
    .ok (sliceBuffers h data)

/-! ### Snapshot metadata -/

/-- `manifest.Snapshot`, internal/manifest/manifest.proto; `snapshot.Snapshot`. -/
structure Snap where
  flags : Nat
  trap : Int
  result : Int
  mono : Nat
  breakpoints : List Nat
deriving DecidableEq, Repr

/-- The payload of the snapshot section, image/snapshot.go:494-506. -/
def snapshotPayload (s : Snap) : Bytes :=
  [UInt8.ofNat nameSnapshot.length] ++ nameSnapshot ++ ([0] ++ uvarintBytes s.flags
    ++ uvarintBytes (toUnsigned 64 s.trap) ++ uvarintBytes (toUnsigned 64 s.result) ++ uvarintBytes s.mono
    ++ uvarintBytes s.breakpoints.length ++ (s.breakpoints.map uvarintBytes).flatten)

/-- `maxPayloadSize`, image/snapshot.go:481-490. -/
def maxSnapshotPayload (s : Snap) : Nat :=
  1 + nameSnapshot.length + 1 + 10 + 5 + 5 + 10 + 5 + 10 * s.breakpoints.length

/-- `makeSnapshotSection`, image/snapshot.go:475-512. -/
def makeSnapshotSection (s : Snap) : Res Bytes :=
  let p := snapshotPayload s
  if maxSnapshotPayload s < p.length then .panic
  else .ok ([0] ++ uvarintBytes (p.length % 2 ^ 32) ++ p)

def readMany (N : Nat) : Nat → Bytes → Res (List Nat × Bytes)
  | 0, r => .ok ([], r)
  | k + 1, r => do
    let (x, r) ← readU N r
    let (l, r) ← readMany N k r
    .ok (x :: l, r)

/-- `ReadSnapshotSection`, snapshot/wasm/wasm.go:32-92; `manifest.MaxBreakpoints` is 100. The
version is unsigned, so none is below the minimum of zero. -/
def readSnapshotSection (r : Bytes) : Res (Snap × Nat) := do
  let (_, r1) ← readU 64 r
  let (flags, r2) ← readU 64 r1
  let (trap, r3) ← readU 32 r2
  let (result, r4) ← readU 32 r3
  let (mono, r5) ← readU 64 r4
  let (n, r6) ← readU 32 r5
  if n > 100 then .err "snapshot has too many breakpoints"
  else do
    let (bps, r7) ← readMany 64 n r6
    .ok (⟨flags, trap, toSigned 32 result, mono, bps⟩, r.length - r7.length)

/-! ### Other sections -/

/-- `makeMemorySection`, image/snapshot.go:378-401. Sizes in bytes; a page is 65536 bytes. -/
def makeMemorySection (size : Nat) (limit : Int) : Bytes :=
  let maxPart := if 0 ≤ limit then uvarintBytes (limit.toNat / 65536 % 2 ^ 32) else []
  let flag : UInt8 := if 0 ≤ limit then 1 else 0
  let p := [1, flag] ++ uvarintBytes (size / 65536) ++ maxPart
  [5, UInt8.ofNat p.length] ++ p

/-- Value types (`wa.Type`). -/
inductive Ty where
  | i32 | i64 | f32 | f64
deriving DecidableEq, Repr

/-- `wa.GlobalType` of wag: a value type and a mutability flag. -/
structure GlobalType where
  ty : Ty
  mutable : Bool
deriving DecidableEq, Repr

/-- `GlobalType.Encode` of wag (not in this repository): assumed to give the encoding of the
WebAssembly specification, 5.3.10. -/
def encodeType (t : GlobalType) : Bytes :=
  [match t.ty with | .i32 => 0x7f | .i64 => 0x7e | .f32 => 0x7d | .f64 => 0x7c, if t.mutable then 1 else 0]

/-- One item of `putGlobals`, image/snapshot.go:437-471. -/
def putGlobal (t : GlobalType) (v : Nat) : Bytes :=
  encodeType t ++
  (match t.ty with
   | .i32 => 0x41 :: svarintBytes (toSigned 32 (v % 2 ^ 32))
   | .i64 => 0x42 :: svarintBytes (toSigned 64 v)
   | .f32 => 0x43 :: le 4 v
   | .f64 => 0x44 :: le 8 v)
  ++ [0x0b]

/-- `putGlobals`, image/snapshot.go:430-473: the values are read in ascending order from the
segment of eight-byte slots. -/
def putGlobals : List GlobalType → Bytes → Res Bytes
  | [], _ => .ok []
  | t :: ts, seg =>
    if seg.length < 8 then .panic
    else do
      let r ← putGlobals ts (seg.drop 8)
      .ok (putGlobal t (unle (seg.take 8)) ++ r)

/-- `makeGlobalSection`, image/snapshot.go:403-428. The room made for the items, 14 bytes for
each, suffices (`putGlobal_length`). -/
def makeGlobalSection (ts : List GlobalType) (seg : Bytes) : Res Bytes :=
  if ts = [] then .ok []
  else do
    let items ← putGlobals ts seg
    let p := uvarintBytes (ts.length % 2 ^ 32) ++ items
    .ok ([6] ++ uvarintBytes (p.length % 2 ^ 32) ++ p)

/-- `makeExportSectionWrapFrame`, image/snapshot.go:514-531. -/
def makeExportSectionWrapFrame (exportSize : Nat) : Bytes :=
  let h := [UInt8.ofNat nameExport.length] ++ nameExport
  [0] ++ uvarintBytes ((h.length + exportSize) % 2 ^ 32) ++ h

/-- `makeStackSectionHeader`, image/snapshot.go:610-624. -/
def makeStackSectionHeader (stackSize : Nat) : Bytes :=
  let h := [UInt8.ofNat nameStack.length] ++ nameStack
  [0] ++ uvarintBytes (h.length + stackSize) ++ h

/-- `makeDataSectionHeader`, image/snapshot.go:626-650. -/
def makeDataSectionHeader (memorySize : Nat) : Bytes :=
  let s := [1, 0, 0x41, 0, 0x0b] ++ uvarintBytes memorySize
  [11] ++ uvarintBytes ((s.length + memorySize) % 2 ^ 32) ++ s

end Gate.Sections
