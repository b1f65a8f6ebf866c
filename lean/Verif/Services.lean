import Verif.Packet
/-
Model of service/registry.go (registration, clone chains, lookup, catalog,
discovery, restoring and suspending service instances) and of
runtime/service.go (the service discovery packet).
-/
namespace Gate.Services
open Gate Gate.Packet

/-- A Go string, as its bytes. -/
abbrev Name := Bytes

/-- service/registry.go:59-63 `Factory`: what `Service()` returns, and an identity
(Go compares interface values).  `Service()` is taken to return the same value
every time. -/
structure Factory where
  id : Nat
  name : Name
  revision : Bytes
deriving DecidableEq, Repr

/-! ### Registration and lookup -/

/-- service/registry.go:67-70 `Registry`: own factories and the parent.  Registries
are numbered in order of creation; a parent pointer is such a number. -/
structure Node where
  factories : List (Name × Factory)
  parent : Option Nat
deriving DecidableEq, Repr

abbrev Heap := List Node

/-- service/registry.go:21 `maxServiceStringLen`. -/
def maxServiceStringLen : Nat := 127

/-- `checkString`, service/registry.go:112-132.  `ok` stands for the loop over the
string's runes: all of them are in one of the given Unicode categories. -/
def checkString (ok : Bytes → Bool) (s : Bytes) : Res Unit :=
  if s.length = 0 then .err "service string is empty"
  else if s.length > maxServiceStringLen then .err "service string is too long"
  else if ok s then .ok () else .err "service string contains invalid characters"

/-- Map lookup `r.factories[name]`. -/
def find (name : Name) : List (Name × Factory) → Option Factory
  | [] => none
  | (n, f) :: rest => if n = name then some f else find name rest

/-- The two category tests at service/registry.go:88-94. -/
structure Categories where
  nameOk : Bytes → Bool
  revOk : Bytes → Bool

/-- `Registry.register`, service/registry.go:85-110, on the registry's map.  Map
insertion replaces an existing entry; the newest entry is put first. -/
def register (cat : Categories) (node : Node) (f : Factory) (replace : Bool) : Res Node := do
  checkString cat.nameOk f.name
  checkString cat.revOk f.revision
  if !replace && (find f.name node.factories).isSome then
    .err "service already registered"
  else .ok { node with factories := (f.name, f) :: node.factories }

/-- Operations on registries: `Register` (72-75), `MustRegister` (77-83) and `Clone`
(134-140), and creating an empty registry (`new(Registry)`). -/
inductive Op where
  | new
  | clone (r : Nat)
  | register (r : Nat) (f : Factory)
  | mustRegister (r : Nat) (f : Factory)
deriving DecidableEq, Repr

/-- One operation.  A refused registration leaves the registry as it was (for
`MustRegister` the Go program panics; the state is the same).  Operations on
registries that do not exist do nothing. -/
def apply (cat : Categories) (h : Heap) : Op → Heap
  | .new => h ++ [⟨[], none⟩]
  | .clone r => if r < h.length then h ++ [⟨[], some r⟩] else h
  | .register r f =>
    match h[r]? with
    | some node => match register cat node f false with
      | .ok node' => h.set r node'
      | _ => h
    | none => h
  | .mustRegister r f =>
    match h[r]? with
    | some node => match register cat node f true with
      | .ok node' => h.set r node'
      | _ => h
    | none => h

def run (cat : Categories) (ops : List Op) : Heap := ops.foldl (apply cat) []

/-- `Registry.lookup`, service/registry.go:171-186.  One unit of fuel per step up
the chain; chains are shorter than the number of registries. -/
def lookupLoop (h : Heap) (name : Name) : Nat → Nat → Option Factory
  | 0, _ => none
  | fuel + 1, r =>
    match h[r]? with
    | none => none
    | some node =>
      match find name node.factories with
      | some f => some f
      | none =>
        match node.parent with
        | none => none
        | some p => lookupLoop h name fuel p

def lookup (h : Heap) (r : Nat) (name : Name) : Option Factory := lookupLoop h name (h.length + 1) r

/-- `Registry.catalog`, service/registry.go:157-169: the parent's entries first, then
own entries overwrite.  The map is a list of (name, revision); `put` overwrites.
Go iterates over a map; entries have distinct keys, so the order does not matter,
and the model visits older (shadowed) list entries first. -/
def put (m : List (Name × Bytes)) (name : Name) (rev : Bytes) : List (Name × Bytes) :=
  (name, rev) :: m.filter (fun e => e.1 ≠ name)

def catalogMap (h : Heap) (discoverable : Factory → Bool) : Nat → Nat → List (Name × Bytes)
  | 0, _ => []
  | fuel + 1, r =>
    match h[r]? with
    | none => []
    | some node =>
      let base := match node.parent with
        | none => []
        | some p => catalogMap h discoverable fuel p
      node.factories.foldr (fun e m => put m e.1 (if discoverable e.2 then e.2.revision else [])) base

/-- `Registry.Catalog`, service/registry.go:142-155. -/
def catalog (h : Heap) (discoverable : Factory → Bool) (r : Nat) : List (Name × Bytes) :=
  (catalogMap h discoverable (h.length + 1) r).filter (fun e => e.2 ≠ [])

/-! ### Discovery -/

/-- service/registry.go:344-347 `discoveredService` with snapshot.Service. -/
structure Svc where
  name : Name
  buffer : Bytes
  factory : Option Factory
deriving DecidableEq, Repr

/-- service/registry.go:349-355 `discoverer`: services and the set of discovered
factories. -/
structure Disc where
  services : List Svc
  discovered : List Factory
deriving DecidableEq, Repr

/-- Loop of `Discover`, service/registry.go:378-397: `news` is newServices. -/
def discoverLoop (look : Name → Option Factory) (disc : Factory → Bool) :
    List Name → List Svc → List Factory → Res (List Svc) × List Factory
  | [], news, seen => (.ok news, seen)
  | name :: rest, news, seen =>
    match look name with
    | some f =>
      if disc f then
        if f ∈ seen then (.err "duplicate service", seen)
        else discoverLoop look disc rest (news ++ [⟨name, [], some f⟩]) (f :: seen)
      else discoverLoop look disc rest (news ++ [⟨name, [], none⟩]) seen
    | none => discoverLoop look disc rest (news ++ [⟨name, [], none⟩]) seen

/-- `discoverer.Discover`, service/registry.go:371-408.  The result lists, for each
service, whether it is available. -/
def discover (look : Name → Option Factory) (disc : Factory → Bool) (d : Disc) (names : List Name) :
    Res (List Bool) × Disc :=
  match discoverLoop look disc names d.services d.discovered with
  | (.ok news, seen) => (.ok (news.map (·.factory.isSome)), ⟨news, seen⟩)
  | (.err m, seen) => (.err m, ⟨d.services, seen⟩)
  | (.panic, seen) => (.panic, ⟨d.services, seen⟩)

/-- service/registry.go:200-216: rebuilding the list from a snapshot. -/
def restoreLoop (look : Name → Option Factory) :
    List (Name × Bytes) → List Svc → List Factory → Res (List Svc × List Factory)
  | [], ss, seen => .ok (ss, seen)
  | (name, buf) :: rest, ss, seen =>
    match look name with
    | some f =>
      if f ∈ seen then .err "duplicate service"
      else restoreLoop look rest (ss ++ [⟨name, buf, some f⟩]) (f :: seen)
    | none => restoreLoop look rest (ss ++ [⟨name, buf, none⟩]) seen

/-- service/registry.go:218-246: the instances created for the restored services, as
(code, buffer passed to `CreateInstance`).  Line 238 `s.Buffer = nil` assigns to
the loop variable, a copy, so the list of services keeps the buffers. -/
def restoredInstances (ss : List Svc) : List (Nat × Option Bytes) :=
  ss.mapIdx fun i s => (i, s.factory.map fun _ => s.buffer)

/-- `Registry.StartServing`, service/registry.go:189-268 (before the serving goroutine):
the discoverer, the availability list and the created instances.  `CreateInstance`
and `Ready` are taken to succeed. -/
def startServing (look : Name → Option Factory) (initial : List (Name × Bytes)) :
    Res (Disc × List Bool × List (Nat × Option Bytes)) := do
  let (ss, seen) ← restoreLoop look initial [] []
  return (⟨ss, seen⟩, ss.map (·.factory.isSome), restoredInstances ss)

/-- `discoverer.Suspend`, service/registry.go:428-452.  `inst i` is the snapshot
returned by the instance with code `i` (`none` if there is no instance). -/
def suspend (d : Disc) (inst : Nat → Option Bytes) : List (Name × Bytes) :=
  d.services.mapIdx fun i s =>
    match inst i with
    | some b => (s.name, if b.length > 0 then b else s.buffer)
    | none => (s.name, s.buffer)

/-! ### The discovery packet -/

/-- runtime/service.go:16 `maxServices`. -/
def maxServices : Nat := 256

/-- Loop over names, runtime/service.go:97-114. -/
def parseNames : Nat → Bytes → Res (List Name)
  | 0, _ => .ok []
  | k + 1, buf =>
    match buf with
    | [] => .err "name data is truncated in service discovery packet"
    | n :: rest =>
      if n.toNat = 0 ∨ n.toNat > 127 then .err "service name length in discovery packet is out of bounds"
      else if rest.length < n.toNat then .err "name data is truncated in service discovery packet"
      else do
        let names ← parseNames k (rest.drop n.toNat)
        return rest.take n.toNat :: names

/-- Flag byte, runtime/service.go:18 and 27-29. -/
def flag (avail : Bool) : UInt8 := if avail then 1 else 0

/-- Loop at runtime/service.go:130-132. -/
def putFlags : List Bool → Nat → Bytes → Res Bytes
  | [], _, b => .ok b
  | a :: rest, i, b => do
    let b ← putLE b (servicesHeaderSize + i) 1 (flag a).toNat
    putFlags rest (i + 1) b

/-- `makeServicesPacket`, runtime/service.go:125-135. -/
def makeServicesPacket (dom : Nat) (states : List Bool) : Res Bytes := do
  let b ← make codeServices dom (servicesHeaderSize + states.length)
  let b ← setSize b
  let b ← putLE b 8 2 states.length
  putFlags states 0 b

/-- Number of names taken from the packet, runtime/service.go:86-92.  A negative
number makes `make([]string, reqCount)` at line 95 panic. -/
def reqCount (cur req : Nat) : Int :=
  if (cur : Int) + req > maxServices then (maxServices : Int) - cur else req

/-- `handleServicesPacket`, runtime/service.go:75-123.  Returns the reply and the
discoverer's new state. -/
def handleServicesPacket (look : Name → Option Factory) (disc : Factory → Bool) (d : Disc) (req : Bytes) :
    Res Bytes × Disc :=
  match domain req with
  | .ok dom =>
    if dom ≠ domainCall then (.err "service discovery packet has wrong domain", d)
    else if req.length < servicesHeaderSize then (.err "service discovery packet is too short", d)
    else
      let n := reqCount d.services.length (unle (slice req 8 2))
      if n < 0 then (.panic, d)
      else
        match parseNames n.toNat (req.drop servicesHeaderSize) with
        | .ok names =>
          match discover look disc d names with
          | (.ok states, d') => (makeServicesPacket domainCall states, d')
          | (.err m, d') => (.err m, d')
          | (.panic, d') => (.panic, d')
        | .err m => (.err m, d)
        | .panic => (.panic, d)
  | .err m => (.err m, d)
  | .panic => (.panic, d)

end Gate.Services
