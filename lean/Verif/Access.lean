import Verif.Respond
import Verif.Auth
/-
C113: access policies. server/access.go:121-270, server/sshkeys/authorized_keys.go, scope/program/system, cmd/gate-server/main/servercmd.go:337-365.
-/
namespace Gate.Access
open Gate.Auth (str)
open Gate.Respond (Err)

/-- ResourcePolicy, ProgramPolicy and InstancePolicy (access.go:27-48), as integers; `services` is whether the Services function is set. -/
structure Resource where
  maxModules : Int
  maxProcs : Int
  totalStorageSize : Int
  totalResidentSize : Int
deriving DecidableEq

structure Program where
  maxModuleSize : Int
  maxTextSize : Int
  maxStackSize : Int
deriving DecidableEq

structure Instance where
  maxMemorySize : Int
  stackSize : Int
  timeResolution : Int
  services : Bool
deriving DecidableEq

/-- AccessConfig, access.go:154-158. -/
structure Config where
  res : Resource
  prog : Program
  inst : Instance
deriving DecidableEq

/-- The defaults, access.go:14-24; wa.PageSize is 65536. -/
def defRes : Resource := ⟨64, 4, 256 * 1024 * 1024, 64 * 1024 * 1024⟩
def defProg : Program := ⟨32 * 1024 * 1024, 16 * 1024 * 1024, 65536⟩
def defInst : Instance := ⟨32 * 1024 * 1024, 65536, 1000000000 / 100, false⟩

def orDefault (x d : Int) : Int := if x = 0 then d else x

/-- ConfigureResource, access.go:180-194. -/
def configureResource (c : Config) : Resource :=
  ⟨orDefault c.res.maxModules defRes.maxModules, orDefault c.res.maxProcs defRes.maxProcs, orDefault c.res.totalStorageSize defRes.totalStorageSize, orDefault c.res.totalResidentSize defRes.totalResidentSize⟩

/-- ConfigureProgram, access.go:196-207. -/
def configureProgram (c : Config) : Program :=
  ⟨orDefault c.prog.maxModuleSize defProg.maxModuleSize, orDefault c.prog.maxTextSize defProg.maxTextSize, orDefault c.prog.maxStackSize defProg.maxStackSize⟩

/-- ConfigureInstance, access.go:209-220. -/
def configureInstance (c : Config) : Instance :=
  ⟨orDefault c.inst.maxMemorySize defInst.maxMemorySize, orDefault c.inst.stackSize defInst.stackSize, orDefault c.inst.timeResolution defInst.timeResolution, c.inst.services⟩

/-! ### Authorized keys -/

/-- A line of an authorized_keys file, as `ssh.ParseAuthorizedKey` (golang.org/x/crypto/ssh) sees it: a line without a key (comment, empty line, or something it doesn't recognize), or a key with options.
`none` for key types other than ssh-ed25519. -/
inductive Line where
  | noKey
  | key (options : List Bytes) (ed25519 : Option Bytes)
deriving DecidableEq

/-- `ssh.ParseAuthorizedKey`: skips the lines without a key. An error if there's none left. -/
def nextKey : List Line → Option (List Bytes × Option Bytes × List Line)
  | [] => none
  | .noKey :: r => nextKey r
  | .key o k :: r => some (o, k, r)

/-- publicKeys: the uid of a key. -/
abbrev Table := Bytes → Option Nat

/-- Parse, authorized_keys.go:44-78, with the remaining lines; fuel is the number of lines. The keys which were found before an error stay.
The length check (61-63) can't fail for a parsed ed25519 key and is left out. -/
def parseLoop (uid : Nat) : Nat → Table → List Line → Table × Bool
  | _, t, [] => (t, true)
  | 0, t, _ => (t, false)
  | f + 1, t, l =>
    match nextKey l with
    | none => (t, false)
    | some (_, none, r) => parseLoop uid f t r
    | some (_, some k, r) =>
      match t k with
      | some x => if x ≠ uid then (t, false) else parseLoop uid f t r
      | none => parseLoop uid f (fun k' => if k' = k then some uid else t k') r

def parse (t : Table) (uid : Nat) (l : List Line) : Table × Bool := parseLoop uid l.length t l

/-- AuthorizedKeys after a number of Parse calls, whether they succeeded or not. -/
def parseAll (t : Table) (files : List (Nat × List Line)) : Table := files.foldl (fun t f => (parse t f.1 f.2).1) t

/-- Authorize, authorized_keys.go:80-95: the uid which goes to the context, if the scope includes program:system. -/
def authorize (t : Table) (pri : Option Bytes) (systemScope : Bool) : Except Err (Option Nat) :=
  match pri with
  | none => .error (.unauthorized (str "missing authentication credentials"))
  | some k =>
    match t k with
    | none => .error (.forbidden (str "key not authorized"))
    | some uid => .ok (if systemScope then some uid else none)

/-- The access policies of the codebase. -/
inductive Policy where
  | noAccess
  | «public» (c : Config)
  | keys (c : Config) (t : Table)

/-- The kinds of authorization (access.go:76-85), which have the same methods with sources. -/
inductive Kind where
  | plain
  | program
  | instance_
  | programInstance
deriving DecidableEq

/-- What a successful authorization configures. -/
structure Granted where
  uid : Option Nat := none
  res : Option Resource := none
  prog : Option Program := none
  inst : Option Instance := none
deriving DecidableEq

/-- The Authorize methods: access.go:121-150 (NoAccess), 222-270 (PublicAccess), authorized_keys.go:80-122. -/
def grant (p : Policy) (k : Kind) (pri : Option Bytes) (systemScope : Bool) : Except Err Granted :=
  let conf (c : Config) (uid : Option Nat) : Granted :=
    { uid := uid, res := if k = .plain then none else some (configureResource c),
      prog := if k = .program ∨ k = .programInstance then some (configureProgram c) else none,
      inst := if k = .instance_ ∨ k = .programInstance then some (configureInstance c) else none }
  match p with
  | .noAccess => .error (.forbidden (str "no access policy"))
  | .«public» c => .ok (conf c none)
  | .keys c t =>
    match authorize t pri systemScope with
    | .error e => .error e
    | .ok uid => .ok (conf c uid)

end Gate.Access
