import Verif.Base
import Verif.Process
/-
Model of an instance's life in the server:
  server/instance.go 68-83, 108-212, 214-399, 401-532, 549-562 (the status checks),
  server/server.go 840-914, 1155-1177, 1247-1321, image/instance.go 66-186, 285-338.

One instance, and the operations of any number of clients on it.  Every label of `step` is one critical
section of the instance's mutex (or of the server's, for `remove`), so the interleavings of the operations
are the sequences of labels.  An operation which got hold of the instance can proceed after the instance was
removed from the account, so no step but `remove` depends on `registered`.

What the process does, and which system calls fail, is a parameter of the labels.
-/
namespace Gate.Life
open Gate.Process

/-- server.proto:31-38. -/
inductive State | nonexistent | running | suspended | halted | terminated | killed
deriving DecidableEq, Repr

/-- server.proto:55-60, without the error text.  Causes have the numbers of trap identifiers. -/
structure Status where
  state : State
  cause : Nat := 0
  result : Nat := 0
deriving DecidableEq, Repr

/-- What the image's manifest tells about the status: internal/manifest `Snapshot`'s final flag, trap, result. -/
structure Meta where
  final : Bool
  trap : Nat
  result : Nat
deriving DecidableEq, Repr

/-- image/instance.go:51-65 `Instance`: `entry` is EntryAddr(). -/
structure Image where
  md : Meta
  entry : Nat
  coherent : Bool
deriving DecidableEq, Repr

/-- Who will act on the instance next: nobody yet (`created`: `startOrAnnihilate` of the creation is to
come; `resumed`: that of a resumption is to come), the `driving` goroutine, or nobody (`quiet`).  `unborn`,
`lost`: as `quiet`, after `startOrAnnihilate` has failed at creation or resumption. -/
inductive Phase | created | resumed | driving | quiet | unborn | lost
deriving DecidableEq, Repr

/-- server/instance.go:108-126 `Instance`, without tags, services, debug program and log.
`registered`: in the account's map; `removals`: calls of `deleteNonexistentInstance` to come; `stopped`: the
channel, by number; `closed`: the channels which have been closed; `waits`: the channels on which some
`Wait` is blocked; `entered`: entry addresses which were given to processes, latest first; `file`: what is
found in the storage under the instance's name, that is, the manifest's metadata as it was written
(filesystem.go:185-193, memory.go:96-100). -/
structure St where
  registered : Bool
  removals : Nat
  phase : Phase
  present : Bool
  transient : Bool
  status : Status
  image : Option Image
  process : Bool
  stopped : Nat
  closed : List Nat
  waits : List Nat
  entered : List Nat
  file : Option Meta
deriving Repr

/-- server.go:1247-1305 `_registerProgramRefInstance`, instance.go:128-144 `newInstance`: a process is
allocated unless the instance is to be suspended or the image is final. -/
def launch (transient suspend : Bool) (md : Meta) (entry : Nat) : St :=
  { registered := true, removals := 0, phase := .created, present := false, transient := transient,
    status := ⟨.nonexistent, 0, 0⟩, image := some ⟨md, entry, true⟩,
    process := !suspend && !md.final, stopped := 0, closed := [], waits := [], entered := [], file := none }

/-- instance.go:68-83. -/
def trapStatus (id : Nat) : Status :=
  if id = trapSuspended then ⟨.suspended, 0, 0⟩
  else if id = trapCallStackExhausted ∨ id = trapABIDeficiency ∨ id = trapBreakpoint then ⟨.suspended, id, 0⟩
  else if id = trapKilled then ⟨.killed, 0, 0⟩
  else ⟨.killed, id, 0⟩

/-- instance.go:163-183: the status of an instance which is not started. -/
def imageStatus (md : Meta) (entry : Nat) : Status :=
  if md.final then
    if md.trap ≠ trapExit then ⟨.killed, if md.trap ≠ trapKilled then md.trap else 0, 0⟩
    else ⟨.terminated, 0, md.result⟩
  else if md.trap ≠ trapExit then trapStatus md.trap
  else if entry = 0 then ⟨.halted, 0, md.result⟩
  else ⟨.suspended, 0, 0⟩

/-- image/instance.go:153-170 `Store`: the new content of the storage; `fail`: the storage fails. -/
def Image.store (i : Image) (file : Option Meta) (fail : Bool) : Option Meta :=
  if i.coherent ∧ file = none ∧ fail = false then some i.md else none

/-- What `CheckMutation` finds (image/instance.go:301-338): an invalid state, an untouched stack, or the
state of a program which has been running. -/
inductive Mutation | invalid | untouched | ran
deriving DecidableEq, Repr

def Image.check (i : Image) : Mutation → Image
  | .invalid => i
  | .untouched => { i with coherent := true }
  | .ran => { i with coherent := true, entry := 0 }

inductive Label where
  /-- instance.go:154-212. `fail`: the storage or the process fails; `unstored`: after unstoring. -/
  | start (fail unstored : Bool)
  /-- instance.go:342-357 `_doResume`. -/
  | resume (function : String)
  /-- instance.go:453-508: what `drive` does after `Serve`. -/
  | finish (r : Served) (m : Mutation) (storeFails : Bool)
  /-- instance.go:394-407 `_annihilate`. -/
  | annihilate
  /-- server.go:1307-1321 `deleteNonexistentInstance`. -/
  | remove
  /-- instance.go:275-289 `Suspend`: its critical section. -/
  | suspendRequest
  /-- instance.go:511-533 `update`. -/
  | update (persist : Bool)
  /-- instance.go:377-392 `_snapshot`. -/
  | snapshot
  /-- instance.go:225-240 `info`. -/
  | info
  /-- instance.go:536-549 `_debug` until it accesses the image; `get`: DebugOpConfigGet. -/
  | debug (get : Bool)
  /-- instance.go:242-247 `Wait`, and its end, 249-257. -/
  | wait
  | waited (channel : Nat) (cancelled : Bool)
deriving DecidableEq, Repr

inductive Resp where
  | ok | notFound | refused | failed
  | status (s : Status)
  /-- A nil dereference or a double close. -/
  | crash
deriving DecidableEq, Repr

/-- close(inst.stopped). -/
def St.close (s : St) : Option St := if s.stopped ∈ s.closed then none else some { s with closed := s.stopped :: s.closed }

/-- instance.go:154-212 `startOrAnnihilate`, with server.go:1158-1162. -/
def start (s : St) (failing : Phase) (fail unstored : Bool) : St × Resp :=
  match s.image with
  | none => (s, .crash)
  | some i =>
    if s.process = false then
      match i.store s.file fail with
      | none => ({ s with phase := failing, removals := s.removals + 1 }, .failed)
      | some f =>
        match ({ s with file := some f, status := imageStatus i.md i.entry, present := true, phase := .quiet } : St).close with
        | none => (s, .crash)
        | some s' => (s', .ok)
    else if fail ∨ i.coherent = false then
      -- `Start` has failed: a stored file stays where it was, or it has been unstored (BeginMutation, 290-293)
      match s.close with
      | none => (s, .crash)
      | some s' => ({ s' with image := none, file := if unstored then none else s.file, phase := failing, removals := s.removals + 1 }, .failed)
    else
      ({ s with image := some { i with coherent := false }, file := none, status := { s.status with state := .running },
                present := true, phase := .driving, entered := i.entry :: s.entered }, .ok)

/-- instance.go:409-413 `doAnnihilate`, with the caller's `deleteNonexistentInstance` to come. -/
def doAnnihilate (s : St) : St := { s with present := false, image := none, file := none, removals := s.removals + 1 }

/-- instance.go:496-506: status of the instance after it has run, unless something has failed. -/
def outcome (transient : Bool) (id code : Nat) : Status :=
  if id = trapExit then
    ⟨if transient ∨ code / 2 % 2 = 1 then .terminated else .halted, 0, code % 2⟩
  else trapStatus id

/-- instance.go:453-508: the image, the storage's content, and the status with which `cleanupFunc` is called. -/
def judge (transient : Bool) (i : Image) (file : Option Meta) (r : Served) (m : Mutation) (storeFails : Bool) : Image × Option Meta × Status :=
  if r.err.isSome then (i, file, ⟨.killed, if r.trap = trapABIViolation then trapABIViolation else trapInternalError, 0⟩)
  else if m = .invalid then
    (i, file, if r.trap ≠ trapKilled then ⟨.killed, trapInternalError, 0⟩ else outcome transient r.trap r.result)
  else if transient then (i.check m, file, outcome transient r.trap r.result)
  else match (i.check m).store file storeFails with
    | none => (i.check m, file, ⟨.killed, trapInternalError, 0⟩)
    | some f => (i.check m, some f, outcome transient r.trap r.result)

/-- instance.go:422-443 `cleanupFunc`. -/
def cleanup (s : St) (i : Image) (file : Option Meta) (res : Status) (trap : Nat) : Option St :=
  let md : Meta := ⟨i.md.final || (res.state == .terminated || res.state == .killed), trap, res.result⟩
  match ({ s with image := some { i with md := md }, file := file, status := res, phase := .quiet } : St).close with
  | none => none
  | some s' => some (if s'.transient then doAnnihilate s' else s')

/-- instance.go:318-338 `_resumeCheck`. -/
def resumeCheck (s : St) (function : String) : Resp :=
  if s.present = false then .notFound
  else match s.status.state with
    | .suspended => if function ≠ "" then .refused else .ok
    | .halted => if function = "" then .refused else .ok
    | _ => .refused

/-- A critical section; none: it can't be the next one. -/
def step (s : St) : Label → Option (St × Resp)
  | .start fail unstored =>
    match s.phase with
    | .created => some (start s .unborn fail unstored)
    | .resumed => some (start s .lost fail unstored)
    | _ => none
  | .resume function =>
    match resumeCheck s function with
    | .ok => some ({ s with status := ⟨.running, 0, 0⟩, process := true, stopped := s.stopped + 1, phase := .resumed }, .ok)
    | r => some (s, r)
  | .finish r m storeFails =>
    if s.phase = .driving then
      match s.image with
      | none => some (s, .crash)
      | some i =>
        let x := judge s.transient i s.file r m storeFails
        match cleanup s x.1 x.2.1 x.2.2 r.trap with
        | none => some (s, .crash)
        | some s' => some (s', .ok)
    else none
  | .annihilate =>
    if s.present = false then some (s, .notFound)
    else if s.status.state = .running then some (s, .refused)
    else match s.image with
      | none => some (s, .crash)
      | some _ => some (doAnnihilate s, .ok)
  | .remove =>
    if s.removals = 0 then none else some ({ s with registered := false, removals := s.removals - 1 }, .ok)
  | .suspendRequest => some ({ s with transient := s.transient && s.status.state != .running }, .ok)
  | .update persist =>
    if s.present = false then some (s, .ok)
    else some ({ s with transient := s.transient && !persist }, .ok)
  | .snapshot =>
    if s.present = false then some (s, .notFound)
    else if s.status.state = .running then some (s, .refused)
    else match s.image with
      | none => some (s, .crash)
      | some _ => some (s, .ok)
  | .info =>
    if s.present = false then some (s, .notFound)
    else match s.image with
      | none => some (s, .crash)
      | some _ => some (s, .status s.status)
  | .debug get =>
    if get = false ∧ s.status.state = .running then some (s, .refused)
    else match s.image with
      | none => some (s, .crash)
      | some _ => some (s, .ok)
  | .wait =>
    if s.status.state ≠ .running then some (s, .status s.status)
    else some ({ s with waits := s.stopped :: s.waits }, .ok)
  | .waited c cancelled =>
    if c ∈ s.waits ∧ (c ∈ s.closed ∨ cancelled = true) then some ({ s with waits := s.waits.erase c }, .status s.status)
    else none

/-- A history: labels and responses. -/
def run (s : St) : List Label → Option (St × List Resp)
  | [] => some (s, [])
  | l :: ls =>
    match step s l with
    | none => none
    | some (s', r) =>
      match run s' ls with
      | none => none
      | some (s'', rs) => some (s'', r :: rs)

end Gate.Life
