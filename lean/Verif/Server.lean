import Verif.Base
/-
Model of the program references of package server: server/program.go:131-175 (`newProgram`,
`ref`, `unref`), server/account.go and the server operations of server/server.go as sequences
of critical sections of the server mutex, in any interleaving.

Simplifications: the accounts' maps are flat lists with the account's principal in every
entry; contents of programs are represented by their hashes (no collisions); the state of an
instance is in `Verif.Lifecycle`; failures which leave everything as it was (not found, not
permitted, wrong length, storage error) are steps which end with the deferred `release` of the
operation, or are left out if there is nothing to release.
-/
namespace Gate.Server
open Gate

/- All names are natural numbers: `who`, `w`, `owner` are principals (accounts are found by the
principal's raw key), `h` module hashes (program identifiers), `p`, `q`, `prog` pointers to
program objects, `n`, `name` instance identifiers, `i`, `inst` pointers to instance objects. -/

/-- An entry of an account's `instances`, server/account.go:18-21. -/
structure Entry where
  owner : Nat
  name : Nat
  inst : Nat
  prog : Nat
deriving DecidableEq, Repr

/-- What an operation in progress is going to do with the program reference in its local
variable. -/
inductive Phase
  | unchecked   -- `_refProgram` done, contents of the upload not validated yet
  | op          -- any other; ends with deferred `unrefProgram`
  | launch      -- after `_registerProgramRefInstance` or `_doResume`
  | drive       -- `driveInstance`
deriving DecidableEq, Repr

/-- An operation in progress which holds a program reference. -/
structure Hold where
  prog : Nat
  who : Option Nat
  phase : Phase
  inst : Option Nat
deriving DecidableEq, Repr

/-- The server's state. `known` is a ghost: who has presented which contents. `fails` is a
ghost: how many starts of instances of a program have failed. -/
structure St where
  next : Nat
  hashOf : Nat → Nat
  refs : Nat → Nat
  closed : Nat → Bool                      -- image is closed and nil
  map : Option (List (Nat × Nat))         -- s.programs; nil after shutdown
  pins : List (Nat × Nat)                  -- programs of accounts
  insts : List Entry                       -- instances of accounts
  nextInst : Nat
  instOf : Nat → Option (Nat × Nat)   -- account and ID of an instance object
  holds : List Hold
  fault : Bool                             -- ref, unref or mergeProgramRef panicked, or nil image used
  known : List (Option Nat × Nat)
  fails : Nat → Nat

/-- server.go:60-75: `New`, no programs loaded yet. -/
def init : St :=
  { next := 0, hashOf := fun _ => 0, refs := fun _ => 0, closed := fun _ => false, map := some [], pins := [], insts := []
    nextInst := 0, instOf := fun _ => none, holds := [], fault := false, known := [], fails := fun _ => 0 }

/-- Function update. -/
def upd {α} (f : Nat → α) (i : Nat) (x : α) : Nat → α := fun j => if j = i then x else f j

/-- `program.ref`, program.go:155-162. -/
def ref (s : St) (p : Nat) : St :=
  if s.refs p = 0 then { s with fault := true } else { s with refs := upd s.refs p (s.refs p + 1) }

/-- `program.unref`, program.go:164-175. -/
def unref (s : St) (p : Nat) : St :=
  if s.refs p = 0 then { s with fault := true }
  else { s with refs := upd s.refs p (s.refs p - 1), closed := upd s.closed p (decide (s.refs p = 1) || s.closed p) }

/-- `s.programs[id]`. -/
def lookup (s : St) (h : Nat) : Option Nat := ((s.map.getD []).find? fun x => x.1 == h).map (·.2)

/-- `mergeProgramRef`, server.go:1322-1345; the map is not nil. -/
def merge (s : St) (p : Nat) : St × Nat :=
  match lookup s (s.hashOf p) with
  | none => ({ s with map := some ((s.hashOf p, p) :: s.map.getD []) }, p)
  | some q => if q = p then (if s.refs p < 2 then ({ s with fault := true }, p) else (unref s p, p)) else (unref s p, q)

/-- `account.ensureProgramRef`, account.go:55-69 (tags are not modelled). -/
def ensurePin (s : St) (w : Nat) (p : Nat) : St :=
  if (w, p) ∈ s.pins then s else { ref s p with pins := (w, p) :: s.pins }

/-- An entry of an account's instance map. -/
def findEntry (s : St) (w : Nat) (n : Nat) : Option Entry := s.insts.find? fun e => e.owner == w && e.name == n

/-- `deleteNonexistentInstance`, server.go:1306-1318. -/
def deleteInst (s : St) (i : Nat) : St :=
  match s.instOf i with
  | none => s
  | some (w, n) =>
    match findEntry s w n with
    | none => s
    | some e => if e.inst = i then unref { s with insts := s.insts.erase e } e.prog else s

/-- Drop references one after another. -/
def unrefs (s : St) : List Nat → St
  | [] => s
  | p :: ps => unrefs (unref s p) ps

inductive Label
  /-- `_buildProgram` by an upload (server.go:281, 464) or the new program of a snapshot
  (server.go:951): a new object with reference count 1; the contents are known to the caller. -/
  | build (who : Option Nat) (h : Nat)
  /-- `_loadProgramDuringInit`, server.go:113-136, with the owner's account. -/
  | load (owner : Option Nat) (h : Nat)
  /-- `_refProgram`, server.go:1076-1090, length matches. -/
  | refHash (who : Option Nat) (h : Nat)
  /-- `upload._validate()`, server.go:256 and 409: the contents have the claimed hash. -/
  | validate (x : Hold)
  /-- `refProgram` in NewInstance and ModuleContent, server.go:309-318 and 588-600. -/
  | refPinned (w : Nat) (h : Nat)
  /-- `_getInstanceRefProgram`, server.go:1192-1204. -/
  | refInst (w : Nat) (n : Nat)
  /-- `_registerProgramRef`, server.go:1103-1134. -/
  | register (x : Hold) (pin : Bool)
  /-- `_registerProgramRefInstance`, server.go:1244-1304. -/
  | registerInst (x : Hold) (n : Nat) (pin : Bool)
  /-- `_doResume` in ResumeInstance, server.go:849. -/
  | resume (x : Hold)
  /-- `_runOrDeleteInstance`, server.go:1160-1174: the process runs. -/
  | startRun (x : Hold)
  /-- the same: stored without process. -/
  | startStored (x : Hold)
  /-- the same: an error. -/
  | startFail (x : Hold)
  /-- deferred `unrefProgram`. -/
  | release (x : Hold)
  /-- `driveInstance`, server.go:1177-1183; the instance may have become nonexistent. -/
  | driven (x : Hold) (nonexistent : Bool)
  /-- PinModule, server.go:636-684. -/
  | pin (w : Nat) (h : Nat)
  /-- UnpinModule, server.go:686-719. -/
  | unpin (w : Nat) (h : Nat)
  /-- DeleteInstance, server.go:864-879: the instance was found in the caller's account. -/
  | delete (w : Nat) (i : Nat)
  /-- Shutdown, server.go:151-185. -/
  | shutdown

/-- Replace the caller's reference by others. -/
def St.swap (s : St) (x : Hold) (ys : List Hold) : St := { s with holds := ys ++ s.holds.erase x }

/-- One critical section. `none`: not possible in this state, or it fails without a change. -/
def step (s : St) : Label → Option St
  | .build who h =>
    some { s with
      next := s.next + 1, hashOf := upd s.hashOf s.next h, refs := upd s.refs s.next 1, closed := upd s.closed s.next false
      holds := ⟨s.next, who, .op, none⟩ :: s.holds, known := (who, h) :: s.known }
  | .load owner h =>
    match s.map with
    | none => none
    | some m =>
      if (lookup s h).isSome then none
      else
        let t : St := { s with
          next := s.next + 1, hashOf := upd s.hashOf s.next h, refs := upd s.refs s.next 1, closed := upd s.closed s.next false
          map := some ((h, s.next) :: m), known := (owner, h) :: s.known }
        match owner with
        | none => some t
        | some w => some (ensurePin t w s.next)
  | .refHash who h =>
    match lookup s h with
    | none => none
    | some p =>
      if s.closed p then some { s with fault := true }   -- prog.image.ModuleSize() of a nil image
      else some { ref s p with holds := ⟨p, who, .unchecked, none⟩ :: s.holds }
  | .validate x =>
    if x ∈ s.holds ∧ x.phase = .unchecked then
      some { s.swap x [{ x with phase := .op }] with known := (x.who, s.hashOf x.prog) :: s.known }
    else none
  | .refPinned w h =>
    match lookup s h with
    | none => none
    | some p => if (w, p) ∈ s.pins then some { ref s p with holds := ⟨p, some w, .op, none⟩ :: s.holds } else none
  | .refInst w n =>
    match findEntry s w n with
    | none => none
    | some e => some { ref s e.prog with holds := ⟨e.prog, some w, .op, some e.inst⟩ :: s.holds }
  | .register x pin =>
    if x ∈ s.holds ∧ x.phase = .op ∧ s.map.isSome then
      match pin, x.who with
      | false, _ => some (merge (s.swap x []) x.prog).1
      | true, none => none
      | true, some w =>
        let r := merge (s.swap x []) x.prog
        some (ensurePin r.1 w r.2)
    else none
  | .registerInst x n pin =>
    if x ∈ s.holds ∧ x.phase = .op ∧ s.map.isSome then
      match x.who with
      | none =>
        if pin then none
        else
          let r := merge (s.swap x []) x.prog
          some { ref r.1 r.2 with
            nextInst := s.nextInst + 1, instOf := upd s.instOf s.nextInst none
            holds := ⟨r.2, none, .launch, some s.nextInst⟩ :: r.1.holds }
      | some w =>
        if (findEntry s w n).isSome then none
        else
          let r := merge (s.swap x []) x.prog
          let t := if pin then ensurePin r.1 w r.2 else r.1
          let t := { ref t r.2 with insts := ⟨w, n, s.nextInst, r.2⟩ :: t.insts }
          some { ref t r.2 with
            nextInst := s.nextInst + 1, instOf := upd s.instOf s.nextInst (some (w, n))
            holds := ⟨r.2, some w, .launch, some s.nextInst⟩ :: t.holds }
    else none
  | .resume x =>
    if x ∈ s.holds ∧ x.phase = .op ∧ x.inst.isSome then some (s.swap x [{ x with phase := .launch }]) else none
  | .startRun x =>
    if x ∈ s.holds ∧ x.phase = .launch then some (s.swap x [{ x with phase := .drive }]) else none
  | .startStored x =>
    if x ∈ s.holds ∧ x.phase = .launch then some (unref (s.swap x []) x.prog) else none
  | .startFail x =>
    -- deleteNonexistentInstance; then both the deferred unrefProgram of _runOrDeleteInstance
    -- and the one of its caller, whose assignment `prog = nil` has not been reached
    if x ∈ s.holds ∧ x.phase = .launch then
      match x.inst with
      | none => none
      | some i =>
        let y := { x with phase := .op, inst := none }
        let t := deleteInst s i
        some { t.swap x [y, y] with fails := upd t.fails x.prog (t.fails x.prog + 1) }
    else none
  | .release x =>
    if x ∈ s.holds ∧ (x.phase = .op ∨ x.phase = .unchecked) then some (unref (s.swap x []) x.prog) else none
  | .driven x nonexistent =>
    if x ∈ s.holds ∧ x.phase = .drive then
      match x.inst with
      | none => none
      | some i =>
        let t := if nonexistent then deleteInst s i else s
        some (unref (t.swap x []) x.prog)
    else none
  | .pin w h =>
    match lookup s h with
    | none => none
    | some p =>
      if (w, p) ∈ s.pins ∨ ∃ e ∈ s.insts, e.owner = w ∧ e.prog = p then some (ensurePin s w p) else none
  | .unpin w h =>
    match lookup s h with
    | none => none
    | some p => if (w, p) ∈ s.pins then some (unref { s with pins := s.pins.erase (w, p) } p) else none
  | .delete w i =>
    match s.instOf i with
    | none => none
    | some (w', _) => if w' = w then some (deleteInst s i) else none
  | .shutdown =>
    match s.map with
    | none => none
    | some m =>
      some (unrefs { s with map := none, pins := [], insts := [] }
        (m.map (·.2) ++ s.pins.map (·.2) ++ s.insts.map (·.prog)))

/-- Runs; a run ends at a fault (the operation panics). -/
def run (s : St) : List Label → Option St
  | [] => some s
  | l :: ls => if s.fault then none else (step s l).bind fun t => run t ls

/-- States which the server can be in. -/
def Reachable (s : St) : Prop := ∃ ls, run init ls = some s

/-- How many references there are to a program: registry, accounts, instances, operations. -/
def count (s : St) (p : Nat) : Nat :=
  (s.map.getD []).countP (fun x => x.2 == p) + s.pins.countP (fun x => x.2 == p) + s.insts.countP (fun e => e.prog == p)
    + s.holds.countP (fun x => x.prog == p)

end Gate.Server
