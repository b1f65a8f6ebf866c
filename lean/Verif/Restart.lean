import Verif.Auth
import Verif.Resolver
import Verif.SectionsProps
/-
Model of the start of a server with a storage: server/server.go:59-149 (New, _loadProgramDuringInit, _loadInstanceDuringInit) and Shutdown as used by it (151-175), server/account.go,
server/program.go:135-181 (reference counts), and of instance ids and storage keys, server/instance.go:33-67.

C105: storage keys. C106: starting a server.
-/
namespace Gate.Restart
open Gate.Auth (str ID parseID)

/-! ### Instance ids -/

/-- xtob of package uuid. -/
def hex (c : UInt8) : Option Nat :=
  let n := c.toNat
  if 48 ≤ n ∧ n ≤ 57 then some (n - 48)
  else if 97 ≤ n ∧ n ≤ 102 then some (n - 87)
  else if 65 ≤ n ∧ n ≤ 70 then some (n - 55)
  else none

def lower (c : UInt8) : UInt8 := if 65 ≤ c.toNat ∧ c.toNat ≤ 90 then c + 32 else c

/-- Pairs of hexadecimal digits. -/
def hexBytes : Bytes → Option (List Nat)
  | [] => some []
  | a :: b :: r =>
    match hex a, hex b, hexBytes r with
    | some x, some y, some l => some ((x * 16 + y) :: l)
    | _, _, _ => none
  | [_] => none

/-- uuid.Parse of github.com/google/uuid v1.0.0 (go.mod:13): 36 characters, optionally with a URN prefix. -/
def uuidParse (s : Bytes) : Option (List Nat) :=
  let body :=
    if s.length = 36 then some s
    else if s.length = 45 ∧ (s.take 9).map lower = str "urn:uuid:" then some (s.drop 9)
    else none
  match body with
  | none => none
  | some b =>
    if b[8]? = some 45 ∧ b[13]? = some 45 ∧ b[18]? = some 45 ∧ b[23]? = some 45 then
      hexBytes (b.take 8 ++ (b.drop 9).take 4 ++ (b.drop 14).take 4 ++ (b.drop 19).take 4 ++ (b.drop 24).take 12)
    else none

/-- instance.go:37-45 `_validateInstanceID`: version 4, and the RFC 4122 variant. -/
def validID (s : Bytes) : Bool :=
  match uuidParse s with
  | none => false
  | some u => u.getD 6 0 / 16 == 4 && u.getD 8 0 / 64 == 2

/-- instance.go:51-53 `instanceStorageKey`. -/
def storageKey (pri : ID) (inst : Bytes) : Bytes := pri.s ++ 46 :: inst

/-- instance.go:55-67 `_parseInstanceStorageKey`. -/
def parseKey (key : Bytes) : Option (ID × Bytes) :=
  match Resolver.cutLast 46 key with
  | none => none
  | some (p, i) =>
    match parseID p with
    | none => none
    | some id => if validID i then some (id, i) else none

/-! ### Starting -/

/-- What LoadProgram and LoadInstance say about a file (image/filesystem.go:119-165, 218-242): it isn't there any more, or it can't be loaded. -/
inductive Load where
  | missing
  | bad
  | ok
deriving DecidableEq, Repr

/-- A stored program: how loading it and its buffers goes (image/program.go:83-107). -/
structure ProgFile where
  name : Bytes
  load : Load
  buffers : Bool
deriving DecidableEq, Repr

structure InstFile where
  name : Bytes
  load : Load
deriving DecidableEq, Repr

/-- The storage. `persistent`: image.PersistentMemory is used for instances. -/
structure Storage where
  progs : List ProgFile
  insts : List InstFile
  persistent : Bool

/-- A program of the server: its reference count, and whether its image is open. -/
structure Prog where
  name : Bytes
  refs : Nat
  isOpen : Bool
deriving DecidableEq, Repr

/-- The server. Accounts are keyed by principals' keys (principalid.go:74). -/
structure Server where
  programs : List Prog
  /-- Accounts and their programs' names. -/
  accounts : List (Bytes × List Bytes)
  /-- Restored instances. -/
  instances : List (Bytes × Bytes)
  /-- Opened images which nobody has closed, other than programs'. -/
  leaked : Nat
deriving DecidableEq, Repr

inductive Out where
  | started (s : Server)
  /-- New returns an error; this is what is left of the server. -/
  | error (s : Server)
  /-- Go panic. -/
  | panic
deriving DecidableEq, Repr

/-- prog.unref, program.go:169-180; `n` times. -/
def unref (n : Nat) (p : Prog) : Prog := { p with refs := p.refs - n, isOpen := p.isOpen && decide (n < p.refs) }

/-- Shutdown, server.go:156-175, account.go:43-53, as New uses it on failure: there are no instances. The map's reference and each account's reference is dropped. -/
def shutdown (s : Server) : Server :=
  { s with programs := s.programs.map fun p => unref (1 + (s.accounts.filter fun a => a.2.contains p.name).length) p, accounts := [] }

/-- server.go:116-134. `owner`: key of the account which gets the programs (account.go:57-69). -/
def loadProgram (owner : Option Bytes) (s : Server) (f : ProgFile) : Except Unit Server :=
  match f.load with
  | .bad => .error ()
  | .missing => .ok s
  | .ok =>
    if f.buffers then
      match owner with
      | none => .ok { s with programs := s.programs ++ [⟨f.name, 1, true⟩] }
      | some o => .ok { s with programs := s.programs ++ [⟨f.name, 2, true⟩], accounts := s.accounts.map fun a => if a.1 = o then (a.1, a.2 ++ [f.name]) else a }
    else .error ()

/-- server.go:1058-1065 -/
def ensureAccount (s : Server) (key : Bytes) : Server :=
  if s.accounts.any fun a => a.1 = key then s else { s with accounts := s.accounts ++ [(key, [])] }

/-- server.go:136-149; PersistentMemory doesn't expect a file to be missing (image/memory.go:126-155). The instance isn't restored. -/
def loadInstance (persistent : Bool) (s : Server) (f : InstFile) : Except Bool Server :=
  match f.load with
  | .bad => .error false
  | .missing => if persistent then .error true else .ok s
  | .ok =>
    match parseKey f.name with
    | none => .error false
    | some (pri, _) => .ok (ensureAccount s pri.key)

def loadPrograms (owner : Option Bytes) : Server → List ProgFile → Server × Bool
  | s, [] => (s, true)
  | s, f :: fs =>
    match loadProgram owner s f with
    | .error _ => (s, false)
    | .ok s => loadPrograms owner s fs

def loadInstances (persistent : Bool) : Server → List InstFile → Server × Option Bool
  | s, [] => (s, none)
  | s, f :: fs =>
    match loadInstance persistent s f with
    | .error p => (s, some p)
    | .ok s => loadInstances persistent s fs

/-- The server before anything is loaded: server.go:71-80, 1046-1056. -/
def initial (owner : Option ID) : Server := ⟨[], (match owner with | some o => [(o.key, [])] | none => []), [], 0⟩

/-- New, server.go:59-114. `configured`: ProcessFactory and AccessPolicy are there (serverconfig.go:52-54); `listed`: the storage's directories can be listed. -/
def new (configured listed : Bool) (owner : Option ID) (st : Storage) : Out :=
  if !configured then .panic
  else
    if !listed then .error (shutdown (initial owner))
    else
      match loadPrograms (owner.map (·.key)) (initial owner) st.progs with
      | (s1, false) => .error (shutdown s1)
      | (s1, true) =>
        match loadInstances st.persistent s1 st.insts with
        | (s2, none) => .started s2
        | (s2, some false) => .error (shutdown s2)
        | (_, some true) => .panic

end Gate.Restart
