import Verif.ExecLoop
/-
C133-C136: the executor process.
-/
namespace Gate.ExecLoop

/-! ### Specification of the history -/

/-- The processes which exist after such a history: identifiers and numbers. -/
def alive (log : List Act) : List (Nat × Nat) :=
  log.foldl (fun l a => match a with
    | .created id n => l ++ [(id, n)]
    | .reaped id _ => l.filter (fun e => e.1 != id)
    | _ => l) []

/-- The number of processes which have been created. -/
def births (log : List Act) : Nat := (log.filter (fun a => match a with | .created _ _ => true | _ => false)).length

/-- What may happen after such a history: a process is created with an identifier which no existing process has, and it's
a new one; a signal goes to the existing process with the identifier; there's nothing to be signalled only if no existing
process has the identifier; and an existing process is reaped. -/
def Ok (log : List Act) : Act → Prop
  | .created id n => (∀ m, (id, m) ∉ alive log) ∧ n = births log
  | .signalled _ id n => (id, n) ∈ alive log
  | .missed _ id => ∀ m, (id, m) ∉ alive log
  | .reaped id n => (id, n) ∈ alive log

/-- Everything in the history was all right when it happened. -/
def Valid (log : List Act) : Prop := ∀ l a l', log = l ++ a :: l' → Ok l a

/-- The statuses of the reaped processes. -/
def reapedOf (log : List Act) : List (Nat × Nat) := log.filterMap (fun a => match a with | .reaped id n => some (id, n) | _ => none)

/-- The requests which the actions answer. -/
def answers (log : List Act) : List (Op × Nat) := log.filterMap (fun a => match a with
  | .created id _ => some (.create, id)
  | .signalled op id _ => some (op, id)
  | .missed op id => some (op, id)
  | .reaped _ _ => none)

/-! ### Steps -/

def batchOf : Phase → List Msg
  | .handle l => l
  | _ => []

def eventsOf : Phase → List Ev
  | .events l => l
  | _ => []

def reqs (l : List Msg) : List Req := l.filterMap (·.req)

def fdsOf (l : List Msg) : Nat := ((reqs l).map (·.fds)).sum

/-- Why a request kills the executor. -/
inductive Cause (s : St) (m : Msg) (r : Req) : Nat → Prop
  | trunc : m.trunc = true → Cause s m r 32
  | range : 16384 ≤ r.id → Cause s m r 34
  | none : r.op = .create → r.fds = 0 → Cause s m r 35
  | state (p : Proc) : r.op = .create → s.find r.id = some p → Cause s m r 40
  | len : r.op = .create → r.fds ≠ 2 → r.fds ≠ 3 → Cause s m r 38
  | clone : r.op = .create → 16397 ≤ s.opened → Cause s m r 16
  | some : r.op = .kill ∨ r.op = .suspend → r.fds ≠ 0 → Cause s m r 35
  | stat : r.op = .suspend → 16397 ≤ s.opened → Cause s m r 50
  | other : r.op = .other → Cause s m r 33

/-- The steps, one by one; whether they are the executor's own. -/
inductive Tr (s : St) : Bool → St → Prop
  | topDone : s.phase = .top → s.shutdown = true → s.procs = [] → s.queue = [] → Tr s true { s with phase := .done }
  | topGo : s.phase = .top → ¬(s.shutdown = true ∧ s.procs = [] ∧ s.queue = []) → Tr s true { s with phase := .send }
  | flush (k : Nat) (f : Bool) : s.phase = .send → s.hup = false → (s.queue.length = 127 ∨ s.sendBlock = false) → 1 ≤ k → k ≤ s.queue.length →
      (s.full = true → f = true) → Tr s true { s with queue := s.queue.drop k, sent := s.sent ++ s.queue.take k, unread := s.unread + k, full := f }
  | again : s.phase = .send → s.hup = false → s.full = true → s.queue ≠ [] → s.queue.length ≠ 127 → s.sendBlock = false → Tr s true { s with sendBlock := true }
  | pipe : s.phase = .send → s.hup = true → s.queue ≠ [] → Tr s true { s with phase := .sigpipe }
  | sendDone : s.phase = .send → (s.queue = [] ∨ (s.queue.length ≠ 127 ∧ s.sendBlock = true)) → Tr s true { s with phase := .recv }
  | recvSkip : s.phase = .recv → s.recvBlock = true → Tr s true { s with phase := .wait }
  | recvErr : s.phase = .recv → s.recvBlock = false → s.sock = [] → s.err = true → Tr s true { s with phase := .dead 30 }
  | recvEof : s.phase = .recv → s.recvBlock = false → s.sock = [] → s.err = false → s.eof = true → Tr s true { s with phase := .handle [⟨none, false⟩] }
  | recvNone : s.phase = .recv → s.recvBlock = false → s.sock = [] → s.err = false → s.eof = false → Tr s true { s with recvBlock := true, phase := .wait }
  | recv (k : Nat) : s.phase = .recv → s.recvBlock = false → 1 ≤ k → k ≤ s.sock.length → k ≤ 128 →
      Tr s true { s with sock := s.sock.drop k, opened := (install s.opened (s.sock.take k)).1, phase := .handle (install s.opened (s.sock.take k)).2 }
  | handleNil : s.phase = .handle [] → Tr s true { s with phase := .recv }
  | handleEof (m : Msg) (rest : List Msg) : s.phase = .handle (m :: rest) → m.req = none → Tr s true { s.startShutdown with phase := .wait }
  | reqDead (m : Msg) (r : Req) (rest : List Msg) (c : Nat) : s.phase = .handle (m :: rest) → m.req = some r → Cause s m r c → Tr s true { s with phase := .dead c }
  | create (m : Msg) (r : Req) (rest : List Msg) : s.phase = .handle (m :: rest) → m.req = some r → m.trunc = false → r.id < 16384 → r.op = .create →
      (r.fds = 2 ∨ r.fds = 3) → s.find r.id = none → s.opened < 16397 →
      Tr s true { s with phase := .handle rest, procs := s.procs ++ [⟨r.id, s.count, false⟩], count := s.count + 1,
                         opened := s.opened + 1 - r.fds, handled := s.handled ++ [r], log := s.log ++ [.created r.id s.count] }
  | signal (m : Msg) (r : Req) (rest : List Msg) : s.phase = .handle (m :: rest) → m.req = some r → m.trunc = false → r.id < 16384 →
      (r.op = .kill ∨ r.op = .suspend) → r.fds = 0 → Tr s true { s with phase := .handle rest, handled := s.handled ++ [r], log := s.log ++ [s.signal r] }
  | deliver (l : List Ev) : s.phase = .wait → l ≠ [] → l.length + s.queue.length ≤ 127 → l.all s.reportable = true → l.Nodup →
      Tr s true { s with phase := .events l, ready := s.ready && !l.any Ev.isControl }
  | spurious : s.phase = .wait → s.ready = true → s.hot = false → Tr s true { s with ready := false }
  | einval : s.phase = .wait → 127 ≤ s.queue.length → Tr s true { s with phase := .dead 27 }
  | evNil : s.phase = .events [] → Tr s true { s with phase := .top }
  | evBad (id : Nat) (rest : List Ev) : s.phase = .events (.proc id :: rest) → s.find id = none → Tr s true { s with phase := .dead 41 }
  | evReap (id : Nat) (rest : List Ev) (p : Proc) : s.phase = .events (.proc id :: rest) → s.find id = some p → p.exited = true →
      Tr s true { s with phase := .events rest, procs := s.procs.filter (fun q => q.id != id), queue := s.queue ++ [(id, p.num)],
                         opened := s.opened - 1, log := s.log ++ [.reaped id p.num] }
  | evNot (id : Nat) (rest : List Ev) (p : Proc) : s.phase = .events (.proc id :: rest) → s.find id = some p → p.exited = false → Tr s true { s with phase := .events rest }
  | evControl (i o : Bool) (rest : List Ev) : s.phase = .events (.control i o false false :: rest) →
      Tr s true { s with recvBlock := s.recvBlock && !i, sendBlock := s.sendBlock && !o, phase := .events rest }
  | evHup (i o : Bool) (rest : List Ev) : s.phase = .events (.control i o true false :: rest) →
      Tr s true { s with shutdown := true, recvBlock := true, sendBlock := s.sendBlock && !o, ready := s.ready || !s.full || s.hup || s.err, phase := .events rest }
  | evErr (i o h : Bool) (rest : List Ev) (t : St) : s.phase = .events (.control i o h true :: rest) →
      t = { s.controlEvent i o h true rest with phase := .dead 44 } → Tr s true t
  | ask (r : Req) : s.eof = false → s.phase.final = false → Tr s false { s with sock := s.sock ++ [r], asked := s.asked ++ [r], ready := s.ready || !s.shutdown }
  | closeWrite : s.eof = false → s.phase.final = false → Tr s false { s with eof := true, ready := s.ready || !s.shutdown }
  | close (e : Bool) : s.hup = false → s.phase.final = false → Tr s false { s with eof := true, hup := true, err := e, ready := true }
  | peerRead (k : Nat) (f : Bool) : s.hup = false → s.phase.final = false → 1 ≤ k → k ≤ s.unread → (f = true → s.full = true ∧ k < s.unread) →
      Tr s false { s with unread := s.unread - k, full := f, ready := s.ready || !f }
  | exit (id : Nat) (p : Proc) : s.find id = some p → s.phase.final = false →
      Tr s false { s with procs := s.procs.map (fun p => if p.id == id then { p with exited := true } else p) }

theorem step_tr {s t : St} {l : Label} (h : step s l = some t) : Tr s l.internal t := by
  cases l with
  | top =>
    simp only [step] at h
    split at h
    · next hp =>
      cases h
      split
      · next hc =>
        simp only [Bool.and_eq_true, List.isEmpty_iff] at hc
        exact .topDone hp hc.1.1 hc.1.2 hc.2
      · next hc =>
        simp only [Bool.and_eq_true, List.isEmpty_iff] at hc
        exact .topGo hp (fun hh => hc ⟨⟨hh.1, hh.2.1⟩, hh.2.2⟩)
    · cases h
  | flush k f =>
    simp only [step] at h
    split at h
    · next hc => cases h; exact .flush k f hc.1 hc.2.1 hc.2.2.1 hc.2.2.2.1 hc.2.2.2.2.1 hc.2.2.2.2.2
    · cases h
  | again =>
    simp only [step] at h
    split at h
    · next hc => cases h; exact .again hc.1 hc.2.1 hc.2.2.1 hc.2.2.2.1 hc.2.2.2.2.1 hc.2.2.2.2.2
    · cases h
  | pipe =>
    simp only [step] at h
    split at h
    · next hc => cases h; exact .pipe hc.1 hc.2.1 hc.2.2.1
    · cases h
  | sendDone =>
    simp only [step] at h
    split at h
    · next hc => cases h; exact .sendDone hc.1 hc.2
    · cases h
  | recvSkip =>
    simp only [step] at h
    split at h
    · next hc => cases h; exact .recvSkip hc.1 hc.2
    · cases h
  | recvNone =>
    simp only [step] at h
    split at h
    · next hc =>
      cases h
      split
      · next he => exact .recvErr hc.1 hc.2.1 hc.2.2 he
      · next he =>
        split
        · next hf => exact .recvEof hc.1 hc.2.1 hc.2.2 (by simpa using he) hf
        · next hf => exact .recvNone hc.1 hc.2.1 hc.2.2 (by simpa using he) (by simpa using hf)
    · cases h
  | recv k =>
    simp only [step] at h
    split at h
    · next hc => cases h; exact .recv k hc.1 hc.2.1 hc.2.2.1 hc.2.2.2.1 hc.2.2.2.2
    · cases h
  | handle =>
    simp only [step] at h
    split at h
    · next hp => cases h; exact .handleNil hp
    · next m rest hp =>
      split at h
      · next hr => cases h; exact .handleEof m rest hp hr
      · next r hr =>
        cases h
        unfold St.request
        split
        · next ht => exact .reqDead m r rest _ hp hr (.trunc ht)
        next ht =>
        split
        · next hi => exact .reqDead m r rest _ hp hr (.range hi)
        next hi =>
        have ht : m.trunc = false := by simpa using ht
        have hi : r.id < 16384 := by simp only [idProcs] at hi; omega
        split
        · next ho =>
          split
          · next hf => exact .reqDead m r rest _ hp hr (.none ho hf)
          split
          · next hf =>
            obtain ⟨p, hp'⟩ := Option.isSome_iff_exists.1 hf
            exact .reqDead m r rest _ hp hr (.state p ho hp')
          next hs =>
          split
          · next hf => exact .reqDead m r rest _ hp hr (.len ho hf.1 hf.2)
          next hf =>
          split
          · next hn => exact .reqDead m r rest _ hp hr (.clone ho hn)
          next hn =>
          have hn : s.opened < 16397 := by simp only [nofile] at hn; omega
          exact .create m r rest hp hr ht hi ho (by omega) (by simpa using hs) hn
        · next ho =>
          split
          · next hf => exact .reqDead m r rest _ hp hr (.some (.inl ho) hf)
          · next hf => exact .signal m r rest hp hr ht hi (.inl ho) (by omega)
        · next ho =>
          split
          · next hf => exact .reqDead m r rest _ hp hr (.some (.inr ho) hf)
          next hf =>
          split
          · next hn => exact .reqDead m r rest _ hp hr (.stat ho hn.2)
          · exact .signal m r rest hp hr ht hi (.inr ho) (by omega)
        · next ho => exact .reqDead m r rest _ hp hr (.other ho)
    · cases h
  | deliver l =>
    simp only [step] at h
    split at h
    · next hc => cases h; exact .deliver l hc.1 hc.2.1 hc.2.2.1 hc.2.2.2.1 hc.2.2.2.2
    · cases h
  | spurious =>
    simp only [step] at h
    split at h
    · next hc => cases h; exact .spurious hc.1 hc.2.1 hc.2.2
    · cases h
  | einval =>
    simp only [step] at h
    split at h
    · next hc => cases h; exact .einval hc.1 hc.2
    · cases h
  | event =>
    simp only [step] at h
    split at h
    · next hp => cases h; exact .evNil hp
    · next id rest hp =>
      cases h
      unfold St.waitProcess
      split
      · next hf => exact .evBad id rest hp hf
      · next p hf =>
        split
        · next he => exact .evReap id rest p hp hf he
        · next he => exact .evNot id rest p hp hf (by simpa using he)
    · next i o hh e rest hp =>
      cases h
      cases e with
      | true => exact .evErr i o hh rest _ hp (by simp [St.controlEvent])
      | false =>
        cases hh with
        | true => exact .evHup i o rest hp
        | false => exact .evControl i o rest hp
    · cases h
  | ask r =>
    simp only [step] at h
    split at h
    · next hc => cases h; exact .ask r hc.1 hc.2
    · cases h
  | closeWrite =>
    simp only [step] at h
    split at h
    · next hc => cases h; exact .closeWrite hc.1 hc.2
    · cases h
  | close e =>
    simp only [step] at h
    split at h
    · next hc => cases h; exact .close e hc.1 hc.2
    · cases h
  | peerRead k f =>
    simp only [step] at h
    split at h
    · next hc => cases h; exact .peerRead k f hc.1 hc.2.1 hc.2.2.1 hc.2.2.2.1 hc.2.2.2.2
    · cases h
  | exit id =>
    simp only [step] at h
    split at h
    · next hc =>
      cases h
      obtain ⟨p, hp⟩ := Option.isSome_iff_exists.1 hc.1
      exact .exit id p hp hc.2
    · cases h

end Gate.ExecLoop
