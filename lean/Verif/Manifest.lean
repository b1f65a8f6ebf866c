import Verif.ImageFile
import Verif.Varint
/-
Model of the manifests' bytes: image/filesystem.go (marshalManifest, unmarshalManifest),
internal/manifest/manifest.proto (the Instance message and its parts; the generated code and
google.golang.org/protobuf are modelled after the Protocol Buffers encoding specification).

Not modelled: the encoding of the Program message; its payload is an arbitrary byte sequence here.
-/
namespace Gate.Manifest
open Gate Gate.ImageFile Gate.Varint

/-! ### Header -/

/-- image/filesystem.go:22-26; internal/manifest/manifest.go:12. -/
abbrev programTag : Nat := 0x4a5274bd
abbrev instanceTag : Nat := 0xb405dd05
abbrev headerSize : Nat := 8
abbrev maxSize : Nat := 4096

/-- image/instance.go:30-31 and image/build.go:35. -/
abbrev instManifestOffset : Nat := 0x180000000
abbrev progManifestOffset : Nat := 0x400000000

/-- image/filesystem.go:262-276 `marshalManifest`: the bytes which are written. -/
def header (tag : Nat) (marsh : Bytes) : Bytes :=
  let size := headerSize + marsh.length
  le 4 tag ++ le 4 size ++ marsh

/-- image/filesystem.go:262-276. -/
def marshalManifest (f : File) (marsh : Bytes) (offset tag : Nat) : File := write f offset (header tag marsh)

/-- Go's `b[lo:hi]`. -/
def slice (b : Bytes) (lo hi : Nat) : Res Bytes := if lo ≤ hi ∧ hi ≤ b.length then .ok ((b.take hi).drop lo) else .panic

/-- image/filesystem.go:278-300 `unmarshalManifest`: what is given to proto.Unmarshal. The file is long enough (it is created with
its final size: 86, 178). -/
def unmarshalManifest (f : File) (offset tag : Nat) : Res Bytes :=
  let b := read f offset maxSize
  if unle (b.take 4) ≠ tag then .err "incorrect file tag"
  else
    let size := unle ((b.drop 4).take 4)
    if size < headerSize ∨ size > maxSize then .err "manifest size out of bounds"
    else slice b headerSize size

/-! ### Protocol Buffers -/

/-- The value of a field: wire type 0 or 2. -/
inductive Val where
  | num (v : Nat)
  | bytes (b : Bytes)
deriving DecidableEq, Repr

/-- The fields of a message in the order of their encoding. -/
abbrev Msg := List (Nat × Val)

/-- Protocol Buffers encoding: records with tags (`field number << 3 | wire type`). -/
def encField : Nat × Val → Bytes
  | (n, .num v) => uvarintBytes (n * 8) ++ uvarintBytes v
  | (n, .bytes b) => uvarintBytes (n * 8 + 2) ++ (uvarintBytes b.length ++ b)

def encMsg (m : Msg) : Bytes := m.flatMap encField

/-- Protocol Buffers decoding, for wire types 0 and 2. `fuel`: at least the number of records. -/
def decMsg : Nat → Bytes → Option Msg
  | _, [] => some []
  | 0, _ => none
  | fuel + 1, b =>
    match uvarintLoop 0 0 b with
    | none => none
    | some (tag, b) =>
      if tag % 8 = 0 then
        match uvarintLoop 0 0 b with
        | none => none
        | some (v, b) => (decMsg fuel b).map ((tag / 8, .num v) :: ·)
      else if tag % 8 = 2 then
        match uvarintLoop 0 0 b with
        | none => none
        | some (n, b) => if b.length < n then none else (decMsg fuel (b.drop n)).map ((tag / 8, .bytes (b.take n)) :: ·)
      else none

/-- Packed repeated varints. -/
def encPacked (l : List Nat) : Bytes := l.flatMap uvarintBytes

def decPacked : Nat → Bytes → Option (List Nat)
  | _, [] => some []
  | 0, _ => none
  | fuel + 1, b =>
    match uvarintLoop 0 0 b with
    | none => none
    | some (v, b) => (decPacked fuel b).map (v :: ·)

/-- A scalar field: left out if it is zero (proto3). -/
def opt (n v : Nat) : Msg := if v = 0 then [] else [(n, .num v)]

/-- A message or bytes field: left out if it is not set. -/
def sub (n : Nat) : Option Bytes → Msg
  | none => []
  | some b => [(n, .bytes b)]

/-- The value of a scalar field: the last one, or zero. -/
def num (m : Msg) (n : Nat) : Nat :=
  m.foldl (fun a f => if f.1 = n then (match f.2 with | .num v => v | .bytes _ => a) else a) 0

/-- The value of a message or bytes field which is not repeated. -/
def get (m : Msg) (n : Nat) : Option Bytes :=
  m.foldl (fun a f => if f.1 = n then (match f.2 with | .num _ => a | .bytes b => some b) else a) none

/-- int32 as a varint: sign-extended to 64 bits. -/
def signExtend (v : Nat) : Nat := if v < 2147483648 then v else v + (18446744073709551616 - 4294967296)

/-! ### Messages -/

/-- manifest.proto:57-60. -/
def fnMsg (f : Fn) : Msg := opt 1 f.index ++ opt 2 f.addr

/-- manifest.proto:62-68. The trap and result are kept as 32 bits. -/
def snapMsg (s : Snap) : Msg :=
  opt 1 s.flags ++ (opt 2 (signExtend s.trap) ++ (opt 3 (signExtend s.result) ++ (opt 4 s.time ++
    sub 5 (if s.breakpoints = [] then none else some (encPacked s.breakpoints)))))

/-- manifest.proto:44-55. (init_routine is not used.) -/
def instMsg (m : InstMan) : Msg :=
  opt 1 m.textAddr ++ (opt 2 m.stackSize ++ (opt 3 m.stackUsage ++ (opt 4 m.globalsSize ++ (opt 5 m.memorySize ++ (opt 6 m.maxMemorySize ++
    (sub 8 (m.start.map (encMsg ∘ fnMsg)) ++ (sub 9 (m.entry.map (encMsg ∘ fnMsg)) ++ sub 10 (m.snap.map (encMsg ∘ snapMsg)))))))))

/-- proto.Marshal of an instance manifest. -/
def encInst (m : InstMan) : Bytes := encMsg (instMsg m)

def two64 : Nat := 18446744073709551616

def decFn (b : Bytes) : Option Fn :=
  (decMsg b.length b).map fun m => ⟨num m 1 % two32, num m 2 % two32⟩

def decSnap (b : Bytes) : Option Snap :=
  match decMsg b.length b with
  | none => none
  | some m =>
    match get m 5 with
    | none => some ⟨num m 1, num m 2 % two32, num m 3 % two32, num m 4, []⟩
    | some p => (decPacked p.length p).map fun l => ⟨num m 1, num m 2 % two32, num m 3 % two32, num m 4, l⟩

/-- An optional submessage: `none` if it is malformed. -/
def decSub {α : Type} (d : Bytes → Option α) : Option Bytes → Option (Option α)
  | none => some none
  | some b => (d b).map some

/-- proto.Unmarshal of an instance manifest. -/
def decInst (b : Bytes) : Option InstMan :=
  match decMsg b.length b with
  | none => none
  | some m =>
    match decSub decFn (get m 8), decSub decFn (get m 9), decSub decSnap (get m 10) with
    | some start, some entry, some snap =>
      some ⟨num m 1, num m 2 % two32, num m 3 % two32, num m 4 % two32, num m 5 % two32, num m 6 % two32, start, entry, snap⟩
    | _, _, _ => none

/-- image/filesystem.go:187: storing an instance's manifest. -/
def storeInst (f : File) (m : InstMan) : File := marshalManifest f (encInst m) instManifestOffset instanceTag

/-- image/filesystem.go:240: loading it. -/
def loadInst (f : File) : Res InstMan :=
  match unmarshalManifest f instManifestOffset instanceTag with
  | .ok b => (match decInst b with | some m => .ok m | none => .err "proto")
  | .err e => .err e
  | .panic => .panic

end Gate.Manifest
