import Verif.Respond
import Verif.Restart
/-
C111: uploading and downloading modules. server/upload.go, server/program.go:31-145, server/server.go:206-298, 349-498, 578-614, 643-730, 1067-1126, 1244-1343,
image/build.go:71-113, 281-300, image/program.go:79-81, server/web/content.go, server/web/handler.go:844-857, 1052-1070, 1462-1468.
-/
namespace Gate.Upload
open Gate.Auth (str)
open Gate.Respond (Err Fail)

/-- A hexadecimal digit of a value below 16 (encoding/hex). -/
def digit (n : Nat) : UInt8 := UInt8.ofNat (if n < 10 then 48 + n else 87 + n)

/-- `hex.EncodeToString`, used by api.EncodeKnownModule (server/api/api.go:17-19): lower case. -/
def hexEncode : Bytes → Bytes
  | [] => []
  | b :: r => digit (b.toNat / 16) :: digit (b.toNat % 16) :: hexEncode r

/-- `hex.DecodeString`, used by _validateHashBytes (program.go:37): both cases. -/
def hexDecode : Bytes → Option Bytes
  | [] => some []
  | a :: b :: r =>
    match Restart.hex a, Restart.hex b, hexDecode r with
    | some x, some y, some l => some (UInt8.ofNat (x * 16 + y) :: l)
    | _, _, _ => none
  | [_] => none

/-- What isn't modelled: the hash function (api.KnownModuleHash), which contents are compilable modules, how much text they compile to, and the errors of a failed build. -/
structure Env where
  H : Bytes → Bytes
  valid : Bytes → Bool
  textSize : Bytes → Nat
  buildErr : Bytes → Err

/-- ProgramPolicy (access.go:34-38). -/
structure Policy where
  maxModule : Int
  maxText : Nat

/-- ModuleUpload (upload.go:13-18): content of the stream, whether the stream ends in an error (or can't be closed), and what the client declares. -/
structure Upload where
  content : Bytes
  fails : Bool := false
  length : Int
  hash : Bytes := []

/-- A program (program.go:45-55) and its image: `size` is the manifest's ModuleSize, `stored` is what NewModuleReader gives. -/
structure Prog where
  id : Bytes
  size : Nat
  stored : Bytes
  text : Nat
deriving DecidableEq

/-- A request which has passed its checks and is going to register its program. -/
structure Pend where
  pri : Option Nat
  pin : Bool
  inst : Bool
  prog : Prog
  ret : Bytes
  up : Upload

/-- Server state: programs by id, pins by account, instances by account (or anonymous), requests in progress. -/
structure St where
  programs : Bytes → Option Prog := fun _ => none
  pins : List (Nat × Bytes) := []
  insts : List (Option Nat × Bytes) := []
  pending : List Pend := []

/-- _validateHashBytes, program.go:36-43. A hash which isn't hexadecimal is an error without a type. -/
def validateHash (hash digest : Bytes) : Option Err :=
  match hexDecode hash with
  | none => some (.other (str "encoding/hex: invalid byte"))
  | some d => if d = digest then none else some (.failRequest .moduleHashMismatch (str "module hash does not match content"))

/-- _buildProgram, program.go:59-133 (text and module parts). The module buffer's capacity is the declared length (image/build.go:102-110; a length which isn't positive
leaves the buffer without capacity); the content is written to it while it's read, overflow is an error. ModuleSize is the capacity (image/build.go:291), the bytes which
weren't written are zeros of the new file. -/
def build (E : Env) (pol : Policy) (up : Upload) : Except Err Prog :=
  if up.fails = false ∧ up.content.length ≤ up.length.toNat ∧ E.valid up.content = true ∧ E.textSize up.content ≤ pol.maxText then
    match (if up.hash = [] then none else validateHash up.hash (E.H up.content)) with
    | some e => .error e
    | none => .ok ⟨hexEncode (E.H up.content), up.length.toNat, up.content ++ List.replicate (up.length.toNat - up.content.length) 0, E.textSize up.content⟩
  else .error (E.buildErr up.content)

/-- errModuleSizeMismatch, program.go:31-34. -/
def sizeMismatch : Err := .badModule (str "content length does not match existing module size") (str "invalid module content")

/-- _refProgram (server.go:1067-1081) and the checks of _loadKnownModule (251-266): `none` when the hash is unknown. -/
def known (E : Env) (pol : Policy) (s : St) (up : Upload) : Option (Except Err Prog) :=
  match s.programs up.hash with
  | none => none
  | some p => some (
    if up.length ≠ (p.size : Int) then .error sizeMismatch
    else if up.fails then .error (.wrapped .payloadError [] (str "content decode error"))
    else match validateHash up.hash (E.H up.content) with
      | some e => .error e
      | none => if p.text > pol.maxText then .error (.resourceLimit (str "program code size limit exceeded")) else .ok p)

/-- UploadModule up to registration (server.go:206-224, and 391-406 for instances): the program and the id to return.
`src`: SourceModule and SourceModuleInstance (226-249, 362-389), where the length is the source's, and isn't checked. -/
def check (E : Env) (pol : Policy) (s : St) (src : Bool) (up : Upload) : Except Err (Prog × Bytes) :=
  if src = false ∧ up.length > pol.maxModule then .error (.resourceLimit (str "module size limit exceeded"))
  else if src = false ∧ up.hash ≠ [] then
    match known E pol s up with
    | some (.error e) => .error e
    | some (.ok p) => .ok (p, up.hash)
    | none => (build E pol up).map fun p => (p, p.id)
  else (build E pol { up with hash := [] }).map fun p => (p, p.id)

/-- errAnonymous (server.go:28). -/
def errAnonymous : Err := .unauthorized (str "anonymous access not supported")

/-- Operations of the server, in the order of their critical sections. Concurrent requests are interleavings of `start` and `finish`.
`extra`: any other reason for failure before registration (authorization, entry function, resources, storage, instance id, shutdown).
`late`: failure to start an instance after registration (server.go:1158-1162). -/
inductive Op where
  | start (pri : Option Nat) (pin inst src : Bool) (pol : Policy) (up : Upload) (extra : Option Err)
  | finish (i : Nat) (late : Option Err)
  | pin (pri : Nat) (id : Bytes)
  | unpin (pri : Nat) (id : Bytes)
  | ends (pri : Option Nat) (id : Bytes)

/-- Start of a request: checks, and either an error or a pending registration. Pinning requires an account (server.go:1098-1102, 1257-1260). -/
def start (E : Env) (s : St) (pri : Option Nat) (pin inst src : Bool) (pol : Policy) (up : Upload) (extra : Option Err) : Except Err Pend :=
  match check E pol s src up with
  | .error e => .error e
  | .ok (p, ret) =>
    match extra with
    | some e => .error e
    | none => if pin = true ∧ pri = none then .error errAnonymous else .ok ⟨pri, pin, inst, p, ret, up⟩

/-- _mergeProgramRef, server.go:1323-1343: an existing program is kept. -/
def merge (s : St) (p : Prog) : Bytes → Option Prog :=
  fun id => if id = p.id then (match s.programs p.id with | some q => some q | none => some p) else s.programs id

/-- Pins after registration. -/
def newPins (s : St) (q : Pend) : List (Nat × Bytes) :=
  match q.pri with
  | some a => if q.pin then (a, q.prog.id) :: s.pins else s.pins
  | none => s.pins

/-- _registerProgramRef (1095-1126), _registerProgramRefInstance (1244-1305). -/
def register (s : St) (q : Pend) : St :=
  { s with programs := merge s q.prog, pins := newPins s q, insts := if q.inst then (q.pri, q.prog.id) :: s.insts else s.insts }

def step (E : Env) (s : St) : Op → St
  | .start pri pin inst src pol up extra =>
    match start E s pri pin inst src pol up extra with
    | .ok q => { s with pending := s.pending ++ [q] }
    | .error _ => s
  | .finish i late =>
    match s.pending[i]? with
    | none => s
    | some q =>
      let s1 := register { s with pending := s.pending.eraseIdx i } q
      if late.isSome ∧ q.inst then { s1 with insts := s1.insts.erase (q.pri, q.prog.id) } else s1
  -- PinModule, server.go:643-695: by hash, if pinned already or an instance of the account uses it.
  | .pin a id => if s.programs id ≠ none ∧ ((a, id) ∈ s.pins ∨ (some a, id) ∈ s.insts) then { s with pins := (a, id) :: s.pins } else s
  -- UnpinModule, server.go:697-730. The programs map isn't touched.
  | .unpin a id => { s with pins := s.pins.filter (· ≠ (a, id)) }
  -- deleteNonexistentInstance, server.go:1307-1319.
  | .ends a id => { s with insts := s.insts.erase (a, id) }

def run (E : Env) (s : St) (ops : List Op) : St := ops.foldl (step E) s

/-- ModuleContent, server.go:578-614: for the accounts which have pinned the program. -/
def download (s : St) (a : Nat) (id : Bytes) : Option (Bytes × Nat) :=
  if (a, id) ∈ s.pins then (s.programs id).map fun p => (p.stored, p.size) else none

/-- A PUT request with `Content-Encoding: gzip` (content.go:32-39; handler.go:849, 1462-1468): the declared length is the length of the compressed body, and
http.MaxBytesReader gives an error if there's more decoded content than that. -/
def gzipUpload (decoded : Bytes) (bodyLength : Nat) (hash : Bytes) : Upload :=
  { content := decoded.take bodyLength, fails := bodyLength < decoded.length, length := bodyLength, hash := hash }

end Gate.Upload
