import Verif.ExecLoopProc
/-
C133, C135: what the executor process does with the requests, and that it doesn't stop.
-/
namespace Gate.ExecLoop

/-! ### Requests -/

/-- C133: The requests are handled in the order in which they were made, each at most once, and what has been done answers
exactly the requests which have been handled. -/
theorem in_order {s : St} (h : Reach s) : s.handled <+: s.asked ∧ answers s.log = s.handled.map (fun r => (r.op, r.id)) := by
  obtain ⟨r, e⟩ := h.hist.pre
  exact ⟨⟨r, e.symm⟩, h.procs.ans⟩

/-- C133: A signal goes to the process which was created by the latest creation with the identifier, if it has not been
reaped, and otherwise nowhere; identifiers of existing processes are different. -/
theorem signals_right {s : St} (h : Reach s) : Valid s.log := h.procs.valid

/-- C133: The statuses which have been accepted by the connection are of different processes, each of which was created,
was reaped and doesn't exist; and each process which has been created exists, or its status is in the queue or has been
sent, exactly once. -/
theorem statuses_once {s : St} (h : Reach s) :
    reapedOf s.log = s.sent ++ s.queue ∧ ((s.sent ++ s.queue ++ alive s.log).map (·.2)).Perm (List.range (births s.log)) := by
  have := accounted _ h.procs.valid
  rw [h.procs.stat] at this
  exact ⟨h.procs.stat, this⟩

/-- C133: When the executor has terminated by itself although the connection was not closed by the peer, all requests have been
handled, and the status of every process has been sent. -/
theorem terminated {s : St} (h : Reach s) (hd : s.phase = .done) (hh : s.hup = false) :
    s.handled = s.asked ∧ s.eof = true ∧ alive s.log = [] ∧ (s.sent.map (·.2)).Perm (List.range (births s.log)) := by
  obtain ⟨h1, h2, h3⟩ := h.hist.done hd
  obtain ⟨h4, h5, h6⟩ := h.hist.shut h1 hh
  have ha : alive s.log = [] := by rw [h.procs.tbl, h2]; rfl
  have := (statuses_once h).2
  rw [h3, ha] at this
  exact ⟨h4.symm, h6, ha, by simpa using this⟩

/-! ### Progress -/

def Enabled (s : St) : Prop := ∃ l t, l.internal = true ∧ step s l = some t

/-- The executor can be woken up at the end. -/
structure Fin (s : St) : Prop where
  last : s.shutdown = true → s.procs = [] → s.queue = [] → (s.phase = .send ∨ s.phase = .recv ∨ s.phase = .wait) → s.ready = true ∨ 0 < s.unread

theorem Fin.init : Fin {} := by constructor; simp

theorem Fin.step {s t : St} {b : Bool} (hf : Flow s) (h : Fin s) (e : Tr s b t) : Fin t := by
  obtain ⟨f1, f2, f3, f4, f5, f6, f7, f8, f9, f10, f11⟩ := hf
  obtain ⟨g⟩ := h
  obtain ⟨phase, sock, eof, hup, err, full, ready, recvBlock, sendBlock, shutdown, procs, queue, opened, asked, handled, log, unread, sent, count⟩ := s
  cases e
  case evErr t h1 h2 =>
    subst h2
    constructor
    simp
  case exit id p h1 h2 =>
    constructor
    intro a1 a2 a3 a4
    simp only [List.map_eq_nil_iff] at *
    exact g a1 a2 a3 a4
  all_goals
    simp only at *
    subst_vars
    simp only [St.hot, eventsOf, isHandle, Phase.final] at *
    constructor
    simp only [St.startShutdown]
    grind

theorem Reach.fin {s : St} (h : Reach s) : Fin s := by
  induction h with
  | init => exact Fin.init
  | step l h e ih => exact ih.step h.flow (step_tr e)

/-- C133: When the executor has nothing to do although it's alive and the connection isn't closed, it has handled all
requests and noticed that there won't be more, it has reaped all exited processes, and the statuses which haven't been
sent don't fit in the connection before the peer reads some of what it has; and if there are no processes and there won't be
more, the peer has something to read. -/
theorem quiescent {s : St} (h : Reach s) (hn : ¬Enabled s) (hh : s.hup = false) (hf : s.phase.final = false) :
    s.phase = .wait ∧ s.handled = s.asked ∧ (s.eof = true → s.shutdown = true) ∧ (∀ p ∈ s.procs, p.exited = false) ∧
    (s.queue = [] ∨ (s.full = true ∧ 0 < s.unread)) ∧ (s.shutdown = true → s.procs ≠ [] ∨ 0 < s.unread) := by
  have fl := h.flow
  have hi := h.hist
  have dis : ∀ l, l.internal = true → step s l = none := by
    intro l hl
    cases hs : step s l with
    | none => rfl
    | some t => exact absurd ⟨l, t, hl, hs⟩ hn
  have hw : s.phase = .wait := by
    cases hp : s.phase with
    | wait => rfl
    | top => have := dis .top rfl; simp [step, hp] at this
    | send =>
      exfalso
      have h1 := dis .sendDone rfl
      have h2 := dis .again rfl
      have h3 := dis (.flush 1 s.full) rfl
      simp only [step, hp, hh, queueMax, true_and] at h1 h2 h3
      by_cases hq : s.queue = []
      · simp [hq] at h1
      · have : 1 ≤ s.queue.length := by cases hq' : s.queue <;> simp_all
        rw [if_pos] at h3
        · cases h3
        · refine ⟨?_, Nat.le_refl _, this, id⟩
          by_cases hl : s.queue.length = 127
          · exact .inl hl
          · cases hb : s.sendBlock with
            | false => exact .inr rfl
            | true => rw [if_pos (.inr ⟨hl, hb⟩)] at h1; cases h1
    | recv =>
      exfalso
      have h1 := dis .recvSkip rfl
      have h2 := dis .recvNone rfl
      have h3 := dis (.recv 1) rfl
      simp only [step, hp, true_and] at h1 h2 h3
      cases hb : s.recvBlock with
      | true => simp [hb] at h1
      | false =>
        cases hs : s.sock with
        | nil => simp [hb, hs] at h2
        | cons r l => simp [hb, hs, recvLen] at h3
    | handle b =>
      exfalso
      have h1 := dis .handle rfl
      simp only [step, hp] at h1
      cases b with
      | nil => simp at h1
      | cons m rest => cases hr : m.req <;> simp [hr] at h1
    | events l =>
      exfalso
      have h1 := dis .event rfl
      simp only [step, hp] at h1
      cases l with
      | nil => simp at h1
      | cons a rest => cases a <;> simp at h1
    | done => rw [hp] at hf; cases hf
    | dead c => rw [hp] at hf; cases hf
    | sigpipe => rw [hp] at hf; cases hf
  have hroom := hi.room (.inr (.inr hw))
  have hready : s.ready = false := by
    cases hr : s.ready with
    | false => rfl
    | true =>
      exfalso
      cases hh' : s.hot with
      | false =>
        have := dis .spurious rfl
        simp [step, hw, hr, hh'] at this
      | true =>
        have := dis (.deliver [s.levels]) rfl
        have hq : 1 + s.queue.length ≤ 127 := by omega
        have hrep : s.reportable s.levels = true := by
          simp only [St.reportable, St.levels]
          simp [hr, hh']
        simp [step, hw, hrep, queueMax, hq] at this
  have hexit : ∀ p ∈ s.procs, p.exited = false := by
    intro p hp
    cases he : p.exited with
    | false => rfl
    | true =>
      exfalso
      have := dis (.deliver [.proc p.id]) rfl
      have hq : 1 + s.queue.length ≤ 127 := by omega
      have hrep : s.reportable (.proc p.id) = true := by
        simp only [St.reportable, List.any_eq_true]
        exact ⟨p, hp, by simp [he]⟩
      simp [step, hw, hrep, queueMax, hq] at this
  have hrb := fl.wait hw
  have hev : eventsOf s.phase = [] := by rw [hw]; rfl
  have hnone : s.shutdown = false → s.sock = [] ∧ s.eof = false := by
    intro hs
    have := fl.wake hf hrb hs
    rw [hev, hready] at this
    simp only [inEv_nil, or_self] at this
    cases hk : s.sock with
    | cons r l => exact absurd (this (.inl (by rw [hk]; simp))) (by simp)
    | nil =>
      cases he : s.eof with
      | false => exact ⟨rfl, rfl⟩
      | true => exact absurd (this (.inr he)) (by simp)
  refine ⟨hw, ?_, ?_, hexit, ?_, ?_⟩
  · cases hs : s.shutdown with
    | true => exact (hi.shut hs hh).1.symm
    | false =>
      have := hi.all hf hs
      rw [(hnone hs).1, hw] at this
      simpa [batchOf] using this.symm
  · intro he
    cases hs : s.shutdown with
    | true => rfl
    | false => rw [(hnone hs).2] at he; cases he
  · rcases hroom.2 with hq | hq
    · exact .inl hq
    · right
      rcases fl.sb hf hq with h1 | h1 | h1
      · exact ⟨h1, fl.unread h1⟩
      · rw [hready] at h1; cases h1
      · rw [hev] at h1; simp at h1
  · intro hs
    by_cases hp : s.procs = []
    · right
      rcases hroom.2 with hq | hq
      · rcases h.fin.last hs hp hq (.inr (.inr hw)) with h1 | h1
        · rw [hready] at h1; cases h1
        · exact h1
      · rcases fl.sb hf hq with h1 | h1 | h1
        · exact fl.unread h1
        · rw [hready] at h1; cases h1
        · rw [hev] at h1; simp at h1
    · exact .inl hp

/-! ### Termination of the executor's own steps -/

def shutFuel (s : St) : Nat :=
  if s.shutdown then 0 else if (batchOf s.phase).any (fun m => m.req.isNone) then 2 else 4

def procEvs (l : List Ev) : Nat := (l.filter (fun e => !e.isControl)).length

def fuel (s : St) : Nat :=
  3 * s.sock.length + 2 * (reqs (batchOf s.phase)).length + (s.procs.length - procEvs (eventsOf s.phase)) + s.ready.toNat + shutFuel s

def rank (s : St) : Nat :=
  match s.phase with
  | .events l => 1800 + l.length
  | .top => 1500
  | .send => 1200 + 2 * s.queue.length + (!s.sendBlock).toNat
  | .handle _ => 900
  | .recv => 600
  | .wait => 300
  | _ => 0

/-- An upper bound for the number of steps the executor takes by itself. -/
def budget (s : St) : Nat := 4096 * fuel s + rank s

end Gate.ExecLoop
