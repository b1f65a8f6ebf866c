import Verif.Auth

/-!
# Credentials of the container

Model of internal/container/cred.go (subordinate id allocation), of the id mappings which
internal/container/namespace.go makes of them, and of the place where runtime/container.go calls
for them.
-/

namespace Gate.Creds
open Gate.Auth (str)

/-- Whitespace which `strings.TrimSpace` removes (ASCII; the Unicode spaces aren't modelled). -/
def isSpace (c : UInt8) : Bool := c == 9 || c == 10 || c == 11 || c == 12 || c == 13 || c == 32

/-- `strings.TrimSpace` (cred.go:38). -/
def trim (b : Bytes) : Bytes := ((b.dropWhile isSpace).reverse.dropWhile isSpace).reverse

/-- `strings.Split(s, ":")` (cred.go:38). -/
def split : Bytes → List Bytes
  | [] => [[]]
  | c :: cs =>
    if c = 58 then [] :: split cs else
      match split cs with
      | [] => [[c]]
      | t :: ts => (c :: t) :: ts

/-- The digits of `strconv.ParseInt`. -/
def digits : Bytes → Nat → Option Nat
  | [], n => some n
  | c :: cs, n => if 48 ≤ c.toNat ∧ c.toNat ≤ 57 then digits cs (n * 10 + (c.toNat - 48)) else none

/-- `strconv.ParseInt(s, 10, 32)` (cred.go:39,44): `none` is an error. -/
def parseInt (s : Bytes) : Option Int :=
  let neg := s.head? = some 45
  let ds := if s.head? = some 45 ∨ s.head? = some 43 then s.drop 1 else s
  if ds = [] then none else
  match digits ds 0 with
  | none => none
  | some n =>
    if neg then (if n ≤ 2147483648 then some (-(n : Int)) else none)
    else (if n ≤ 2147483647 then some (n : Int) else none)

/-- `subIDMap` (cred.go:18-24) after parsing. -/
structure IdMap where
  reserved : List Int
  next : Int
  stop : Int

/-- `subIDMap.parse` (cred.go:26-59) of a file with the given lines (the last one needs no
newline): the first line with the user's name and at least three fields decides.  `none` is an
error: a malformed number, or the end of the file. -/
def parse (lines : List Bytes) (user : Bytes) (reserved : List Int) : Option IdMap :=
  match lines with
  | [] => none
  | l :: ls =>
    match split (trim l) with
    | name :: a :: c :: _ =>
      if name = user then
        match parseInt a, parseInt c with
        | some base, some count => some ⟨reserved, base + 1, base + count⟩
        | _, _ => none
      else parse ls user reserved
    | _ => parse ls user reserved

/-- `reservedID > 0 && id == reservedID` for some reserved id (cred.go:67-71). -/
def isReserved (rs : List Int) (id : Int) : Bool := rs.any fun r => decide (r > 0) && id == r

/-- `subIDMap.getID` (cred.go:61-79) with at most `fuel` ids to try. -/
def getLoop : Nat → IdMap → Option (Int × IdMap)
  | 0, _ => none
  | k + 1, m =>
    if m.next < m.stop ∧ m.next ≤ 0xffffffff then
      if isReserved m.reserved m.next then getLoop k { m with next := m.next + 1 }
      else some (m.next, { m with next := m.next + 1 })
    else none

/-- `subIDMap.getID`: every id of the range can be tried. -/
def getID (m : IdMap) : Option (Int × IdMap) := getLoop ((m.stop - m.next).toNat + 1) m

/-- `config.Cred` of the container and of the executor: either the user or the group ids. -/
structure Pair where
  container : Int
  executor : Int
  deriving DecidableEq

/-- Allocation of the unspecified ids of one kind (cred.go:101-121 for users, 123-144 for groups):
`own` is the current process's id. -/
def alloc (lines : List Bytes) (user : Bytes) (own : Int) (p : Pair) : Option Pair :=
  if p.container = 0 ∨ p.executor = 0 then
    match parse lines user [own, p.container, p.executor] with
    | none => none
    | some m =>
      match (if p.container = 0 then getID m else some (p.container, m)) with
      | none => none
      | some (c, m') =>
        match (if p.executor = 0 then getID m' else some (p.executor, m')) with
        | none => none
        | some (e, _) => some ⟨c, e⟩
  else some p

/-- The parts of `config.NamespaceConfig` in use. -/
structure Config where
  disabled : Bool := false
  singleUID : Bool := false
  newidmap : Bool := false
  uid : Pair := ⟨0, 0⟩
  gid : Pair := ⟨0, 0⟩

/-- The host: the current user's name and ids, and the subordinate id files. -/
structure Host where
  user : Bytes
  uid : Int
  gid : Int
  subuid : List Bytes
  subgid : List Bytes

/-- `ParseCreds` (cred.go:87-155): `none` is an error. -/
def parseCreds (h : Host) (c : Config) : Option (Pair × Pair) :=
  match alloc h.subuid h.user h.uid c.uid with
  | none => none
  | some u =>
    match alloc h.subgid h.user h.gid c.gid with
    | none => none
    | some g => some (u, g)

/-- One line of an id map: the id inside and the id on the host (of size one). -/
abbrev Mapping := List (Int × Int)

/-- What the container gets (namespace.go:37-66 `setupNamespace`, 69-89 `configureUserNamespace`;
parent.go:63-71, 103-106): `none` when namespaces are disabled, otherwise the user and the group
mapping.  `common.ContainerCred` is 1 and `common.ExecutorCred` 2 (common/common.go:33-36). -/
def mappings (h : Host) (c : Config) (creds : Pair × Pair) : Option (Mapping × Mapping) :=
  if c.disabled then none
  else if c.singleUID then some ([(1, h.uid)], [(1, h.gid)])
  else some ([(1, creds.1.container), (2, creds.1.executor)],
    [(1, creds.2.container), (2, creds.2.executor)])

/-- `startContainer` (runtime/container.go:16-47) as far as ids are concerned: `ParseCreds` is
called first, whatever the configuration. -/
def start (h : Host) (c : Config) : Option (Option (Mapping × Mapping)) :=
  match parseCreds h c with
  | none => none
  | some creds => some (mappings h c creds)

/-! ## Specification -/

/-- The subordinate range which a file gives to a user: base and count of the user's first line. -/
inductive Grants (user : Bytes) (base count : Int) : List Bytes → Prop
  | here (l : Bytes) (ls : List Bytes) (a c : Bytes) (rest : List Bytes) :
      split (trim l) = user :: a :: c :: rest → parseInt a = some base → parseInt c = some count →
      Grants user base count (l :: ls)
  | there (l : Bytes) (ls : List Bytes) :
      (∀ a c rest, split (trim l) ≠ user :: a :: c :: rest) → Grants user base count ls →
      Grants user base count (l :: ls)

end Gate.Creds
