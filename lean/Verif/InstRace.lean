/-
One instance and everything that its clients and its driver do with it concurrently.

Modelled: server/instance.go:112-147, 153-520 (which fields each function uses, under the instance's mutex or without it), server/server.go:330-340, 840-870, 1153-1177,
1245-1283 (who calls them and in which order), runtime/process.go:158-380 (the conditions under which the process methods may be called).

Go's memory model is simplified to this: the accesses of two goroutines race if both are about to be made at the same time, they are to the same field, and one of them is a write.

Not modelled: the contents of the fields, other than: which process, whether there is an image, and what kind of status.
-/
namespace Gate.InstRace

/-- The fields of an Instance, server/instance.go:112-130. -/
inductive Loc
  | exists_ | transient | status | altProgram | image | buffers | process | services | timeReso | tags | debugLog | stopped
  deriving DecidableEq, Repr

/-- Kinds of status, api.State. -/
inductive St
  /-- The zero status of an instance which has just been created. -/
  | fresh
  | running
  /-- Suspended or halted. -/
  | resumable
  /-- Terminated or killed. -/
  | final
  deriving DecidableEq, Repr

/-- The functions which lock the instance's mutex. -/
inductive Sec
  /-- startOrAnnihilate, server/instance.go:153-211. -/
  | start
  /-- The end of drive, :428-456, 461-519. -/
  | finish
  /-- _checkResume, :314-319. -/
  | checkResume
  /-- _doResume with the process which the caller has allocated, :342-355. -/
  | doResume (p : Nat)
  /-- _snapshot, :380-396. -/
  | snapshot
  /-- _annihilate, :399-411. -/
  | annihilate
  /-- getProcess, :306-311. -/
  | getProcess
  /-- Suspend, :284-289. -/
  | suspend
  /-- connect, :369-372. -/
  | connect
  /-- Status, :227-232. -/
  | status
  /-- Wait, :256-259. -/
  | wait
  /-- info, :235-250. -/
  | info
  /-- update, :512-535. -/
  | update
  /-- _debug, :537-671. -/
  | debug
  /-- instanceRebuild.apply, :679-707. -/
  | apply
  deriving DecidableEq, Repr

/-- The functions which any client may cause to be called at any time (those which a client needs something for — an allocated process, or having created the instance — are
left out). -/
def Sec.free : Sec → Bool
  | .start | .finish | .doResume _ => false
  | _ => true

/-- What a goroutine is doing. -/
inductive Pc
  | idle
  /-- Waits for the mutex. -/
  | want (k : Sec)
  /-- Holds the mutex. -/
  | inside (k : Sec)
  /-- server/server.go:854: closes the process and services which it has allocated, because the resumption was refused. -/
  | discard (p : Nat)
  /-- server/instance.go:460: about to evaluate `inst.process` and `inst.services`. -/
  | drive
  /-- The call of `Process.Serve` with `&inst.buffers`. -/
  | serving (p : Nat)
  deriving DecidableEq, Repr

/-- What has been done to a process, or to the channel of a run. -/
inductive Ev
  /-- runtime.Process.Start, and whether it succeeded. -/
  | start (p : Nat) (ok : Bool)
  /-- runtime.Process.Serve called. -/
  | serve (p : Nat)
  /-- runtime.Process.Serve has returned. -/
  | served (p : Nat)
  /-- runtime.Process.Close and InstanceServices.Close. -/
  | close (p : Nat)
  /-- `close(inst.stopped)`. -/
  | stopped (n : Nat)
  /-- A nil pointer or interface was used. -/
  | crash
  deriving DecidableEq, Repr

structure State where
  pc : Nat → Pc
  /-- Holder of the mutex. -/
  owner : Option Nat
  exist : Bool
  status : St
  image : Bool
  process : Option Nat
  /-- The services, which are named after the process that they were allocated with: server/server.go:1224-1243. -/
  services : Option Nat
  /-- The channel in the field `stopped`. -/
  chan : Nat
  /-- The number of channels made so far. -/
  chans : Nat
  /-- The number of processes allocated so far. -/
  procs : Nat
  /-- Newest first. -/
  log : List Ev

def set (f : Nat → Pc) (i : Nat) (v : Pc) : Nat → Pc := fun j => if j = i then v else f j

/-- server/server.go:1245-1283, newInstance: the creator (goroutine 0) is going to call startOrAnnihilate; other goroutines can already find the instance in its account.
`withProcess`: not created as suspended or from a final snapshot. -/
def initial (withProcess : Bool) : State where
  pc := fun i => if i = 0 then .want .start else .idle
  owner := none
  exist := false
  status := .fresh
  image := true
  process := if withProcess then some 0 else none
  services := if withProcess then some 0 else none
  chan := 0
  chans := 1
  procs := if withProcess then 1 else 0
  log := []

/-- The state when goroutine `i` has left its section. -/
def leave (σ : State) (i : Nat) (next : Pc) : State := { σ with owner := none, pc := set σ.pc i next }

/-- server/instance.go:213-225: stop, when the process and services are `p` and `s`. The services are an interface value, whose method is called without a test. -/
def stopEvents (chan : Nat) (p s : Option Nat) : List Ev :=
  match p, s with
  | some p, some s => if p = s then [.close p, .stopped chan] else [.crash, .stopped chan]
  | _, _ => [.crash, .stopped chan]

/-- Uses of `inst.image`. -/
def imageEvents (image : Bool) : List Ev := if image then [] else [.crash]

inductive Step : State → State → Prop
  /-- A client's call. -/
  | call (σ : State) (i : Nat) (k : Sec) : σ.pc i = .idle → k.free = true → Step σ { σ with pc := set σ.pc i (.want k) }
  /-- server/lock.go:35-38 -/
  | lock (σ : State) (i : Nat) (k : Sec) : σ.pc i = .want k → σ.owner = none → Step σ { σ with owner := some i, pc := set σ.pc i (.inside k) }
  /-- server/instance.go:157-185: no process; the state is that of the image. -/
  | startNone (σ : State) (i : Nat) (st : St) : σ.pc i = .inside .start → σ.process = none → st = .resumable ∨ st = .final →
      Step σ { leave σ i .idle with status := st, exist := true, log := .stopped σ.chan :: imageEvents σ.image ++ σ.log }
  /-- server/instance.go:158-161: storing fails. -/
  | startNoneFail (σ : State) (i : Nat) : σ.pc i = .inside .start → σ.process = none → Step σ { leave σ i .idle with log := imageEvents σ.image ++ σ.log }
  /-- server/instance.go:198, 205-207; server/server.go:1163: the driver is another goroutine of the server, which here gets the number of the one that started it. -/
  | startOk (σ : State) (i p : Nat) : σ.pc i = .inside .start → σ.process = some p →
      Step σ { leave σ i .drive with status := .running, exist := true, log := .start p true :: imageEvents σ.image ++ σ.log }
  /-- server/instance.go:198-203. -/
  | startFail (σ : State) (i p : Nat) : σ.pc i = .inside .start → σ.process = some p →
      Step σ { leave σ i .idle with services := none, image := false,
                                    log := stopEvents σ.chan (some p) σ.services ++ .start p false :: imageEvents σ.image ++ σ.log }
  /-- server/instance.go:460. -/
  | serve (σ : State) (i p : Nat) : σ.pc i = .drive → σ.process = some p →
      Step σ { σ with pc := set σ.pc i (.serving p), log := .serve p :: (if σ.services = some p then [] else [.crash]) ++ σ.log }
  | serveNil (σ : State) (i : Nat) : σ.pc i = .drive → σ.process = none → Step σ { σ with pc := set σ.pc i .idle, log := .crash :: σ.log }
  | served (σ : State) (i p : Nat) : σ.pc i = .serving p → Step σ { σ with pc := set σ.pc i (.want .finish), log := .served p :: σ.log }
  /-- server/instance.go:428-456, 472-519: the final status; the instance ceases to exist if it's transient. -/
  | finish (σ : State) (i : Nat) (st : St) (transient : Bool) : σ.pc i = .inside .finish → st = .resumable ∨ st = .final →
      Step σ { leave σ i .idle with status := st, services := none, exist := σ.exist && !transient, image := σ.image && !transient,
                                    log := stopEvents σ.chan σ.process σ.services ++ imageEvents σ.image ++ σ.log }
  /-- server/server.go:851-853: the resumption is possible, and resources are allocated for it. -/
  | checkPass (σ : State) (i : Nat) : σ.pc i = .inside .checkResume → σ.exist = true → σ.status = .resumable →
      Step σ { leave σ i (.want (.doResume σ.procs)) with procs := σ.procs + 1 }
  /-- Refused, or there were no resources. -/
  | checkFail (σ : State) (i : Nat) : σ.pc i = .inside .checkResume → Step σ (leave σ i .idle)
  /-- server/instance.go:347-354. -/
  | resume (σ : State) (i p : Nat) : σ.pc i = .inside (.doResume p) → σ.exist = true → σ.status = .resumable →
      Step σ { leave σ i (.want .start) with status := .running, process := some p, services := some p, chan := σ.chans, chans := σ.chans + 1 }
  /-- server/instance.go:321-339: the function to call isn't what the state requires, or the state has changed. -/
  | resumeFail (σ : State) (i p : Nat) : σ.pc i = .inside (.doResume p) → Step σ (leave σ i (.discard p))
  | discard (σ : State) (i p : Nat) : σ.pc i = .discard p → Step σ { σ with pc := set σ.pc i .idle, log := .close p :: σ.log }
  /-- server/instance.go:383-391: the image is used only if the instance exists and isn't running. -/
  | snapshot (σ : State) (i : Nat) : σ.pc i = .inside .snapshot →
      Step σ { leave σ i .idle with log := (if σ.exist = true ∧ σ.status ≠ .running then imageEvents σ.image else []) ++ σ.log }
  /-- server/instance.go:403-418. -/
  | annihilate (σ : State) (i : Nat) : σ.pc i = .inside .annihilate → σ.exist = true → σ.status ≠ .running →
      Step σ { leave σ i .idle with exist := false, image := false, log := imageEvents σ.image ++ σ.log }
  | annihilateFail (σ : State) (i : Nat) : σ.pc i = .inside .annihilate → ¬ (σ.exist = true ∧ σ.status ≠ .running) → Step σ (leave σ i .idle)
  /-- server/instance.go:239-249: the image is used only if the instance exists. -/
  | info (σ : State) (i : Nat) : σ.pc i = .inside .info →
      Step σ { leave σ i .idle with log := (if σ.exist = true then imageEvents σ.image else []) ++ σ.log }
  /-- server/instance.go:541-550: an error for the client. -/
  | debugFail (σ : State) (i : Nat) : σ.pc i = .inside .debug → Step σ (leave σ i .idle)
  /-- server/instance.go:549-671: may be followed by a rebuild and its application, server/server.go:983-1003. -/
  | debug (σ : State) (i : Nat) (rebuild : Bool) : σ.pc i = .inside .debug →
      Step σ { leave σ i (if rebuild then .want .apply else .idle) with log := imageEvents σ.image ++ σ.log }
  /-- server/instance.go:683-706. -/
  | apply (σ : State) (i : Nat) : σ.pc i = .inside .apply → Step σ { leave σ i .idle with log := imageEvents σ.image ++ σ.log }
  /-- The rest don't use the image. -/
  | other (σ : State) (i : Nat) (k : Sec) : σ.pc i = .inside k → k = .getProcess ∨ k = .suspend ∨ k = .connect ∨ k = .status ∨ k = .wait ∨ k = .update →
      Step σ (leave σ i .idle)

inductive Reach (b : Bool) : State → Prop
  | init : Reach b (initial b)
  | step {σ σ' : State} : Reach b σ → Step σ σ' → Reach b σ'

/-- Which fields a function reads (`false`) and writes (`true`) while it holds the mutex.  A function which writes what it has read is listed as a writer. -/
def Sec.fields (σ : State) : Sec → List (Loc × Bool)
  | .start => [(.process, false), (.image, true), (.status, true), (.exists_, true), (.stopped, false), (.altProgram, false), (.timeReso, false), (.debugLog, true), (.services, true)]
  | .finish => [(.image, true), (.status, true), (.stopped, false), (.process, false), (.services, true), (.debugLog, true), (.transient, false), (.exists_, true)]
  | .checkResume => [(.exists_, false), (.status, false)]
  | .doResume _ => [(.exists_, false), (.status, false)] ++ (if σ.exist = true ∧ σ.status = .resumable then
      [(.status, true), (.process, true), (.services, true), (.timeReso, true), (.debugLog, true), (.stopped, true)] else [])
  | .snapshot => [(.exists_, false), (.status, false)] ++ (if σ.exist = true ∧ σ.status ≠ .running then [(.buffers, false), (.image, false)] else [])
  | .annihilate => [(.exists_, true), (.status, false), (.image, true)]
  | .getProcess => [(.process, false)]
  | .suspend => [(.status, false), (.transient, true), (.process, false)]
  | .connect => [(.services, false)]
  | .status => [(.status, false)]
  | .wait => [(.status, false), (.stopped, false)]
  | .info => [(.exists_, false), (.status, false), (.transient, false), (.image, false), (.tags, false)]
  | .update => [(.exists_, false), (.transient, true), (.tags, true)]
  | .debug => [(.status, false), (.image, true), (.altProgram, true)]
  | .apply => [(.status, false), (.image, true), (.altProgram, true)]

/-- The fields which goroutine `i` may be accessing now. -/
def accesses (σ : State) (i : Nat) : List (Loc × Bool) :=
  match σ.pc i with
  | .inside k => k.fields σ
  | .drive => [(.process, false), (.services, false)]
  | .serving _ => [(.buffers, true)]
  | _ => []

/-- The process whose Start, Serve or Close goroutine `i` may be executing now. -/
def handles (σ : State) (i : Nat) : Option Nat :=
  match σ.pc i with
  | .inside .start | .inside .finish => σ.process
  | .serving p => some p
  | .discard p => some p
  | _ => none

/-- The events of a process, oldest first. -/
def history (log : List Ev) (p : Nat) : List Ev :=
  (log.filter fun e => match e with
    | .start q _ | .serve q | .served q | .close q => decide (q = p)
    | _ => false).reverse

/-- How often a channel has been closed. -/
def closings (log : List Ev) (n : Nat) : Nat := (log.filter fun e => decide (e = .stopped n)).length

end Gate.InstRace
