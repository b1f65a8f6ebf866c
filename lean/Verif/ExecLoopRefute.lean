import Verif.ExecLoopDeath
/-
C134: the executor can't be used with MaxProcs processes.  C135: closing doesn't kill.  C136: a closed connection.
-/
namespace Gate.ExecLoop

/-- Waiting, with n processes which were created one after another. -/
def idle (n : Nat) : St :=
  { phase := .wait, ready := false, recvBlock := true, procs := (List.range n).map (fun i => ⟨i, i, false⟩), opened := 8 + n, count := n,
    asked := (List.range n).map (fun i => ⟨i, .create, 2⟩), handled := (List.range n).map (fun i => ⟨i, .create, 2⟩),
    log := (List.range n).map (fun i => .created i i) }

theorem idle_zero : run {} [.top, .sendDone, .recvNone, .deliver [.control false true false false], .event, .event, .top, .sendDone, .recvSkip] = some (idle 0) := by
  decide

theorem idle_succ (n : Nat) (hn : n < 16384) : run (idle n) [.ask ⟨n, .create, 2⟩, .deliver [.control true true false false], .event, .event, .top, .sendDone, .recv 1,
    .handle, .handle, .recvNone] = some (idle (n + 1)) := by
  have hf : (List.find? (fun p : Proc => p.id == n) ((List.range n).map (fun i => ⟨i, i, false⟩))) = none := by
    rw [List.find?_eq_none]
    intro p hp
    obtain ⟨i, hi, rfl⟩ := List.mem_map.1 hp
    have := List.mem_range.1 hi
    simp; omega
  have h1 : ¬ (16397 < 8 + n + 2) := by omega
  have h2 : min 16397 (8 + n + 2) = 8 + n + 2 := by omega
  have h3 : ¬ (16384 ≤ n) := by omega
  have h4 : ¬ (16397 ≤ 8 + n + 2) := by omega
  simp [run, step, idle, St.hot, St.reportable, St.levels, Phase.final, Ev.isControl, St.controlEvent, install, queueMax, recvLen, nofile, idProcs, St.request, St.find, hf, h1, h2, h3, h4,
    List.range_succ]
  omega

theorem idle_reach (n : Nat) (hn : n ≤ 16384) : Reach (idle n) := by
  induction n with
  | zero => exact Reach.init.run _ idle_zero
  | succ n ih => exact (ih (by omega)).run _ (idle_succ n (by omega))

theorem idle_proper (n : Nat) (hn : n ≤ 16384) : ∀ r ∈ (idle n).asked, Proper r := by
  intro r hr
  obtain ⟨i, hi, rfl⟩ := List.mem_map.1 hr
  have := List.mem_range.1 hi
  exact ⟨by simp only; omega, .inl ⟨rfl, .inl rfl⟩⟩

theorem idle_alive (n : Nat) (hn : n ≤ 16384) : (alive (idle n).log).length = n := by
  rw [(idle_reach n hn).procs.tbl, List.length_map]
  simp only [idle, List.length_map, List.length_range]

theorem idle_find (n : Nat) : (idle n).find n = none := by
  unfold St.find
  rw [List.find?_eq_none]
  intro p hp
  simp only [idle] at hp
  obtain ⟨i, hi, rfl⟩ := List.mem_map.1 hp
  have := List.mem_range.1 hi
  simp only [beq_iff_eq]
  omega

/-- C134: It's possible to create 16384 processes one after another. -/
theorem full_house : ∃ s, Reach s ∧ s.phase = .wait ∧ (alive s.log).length = 16384 ∧ ∀ r ∈ s.asked, Proper r :=
  ⟨idle 16384, idle_reach _ (Nat.le_refl _), rfl, idle_alive _ (Nat.le_refl _), idle_proper _ (Nat.le_refl _)⟩

/-- The requests of five creations made at once. -/
def five (n : Nat) : List Req := [⟨n, .create, 2⟩, ⟨n + 1, .create, 2⟩, ⟨n + 2, .create, 2⟩, ⟨n + 3, .create, 2⟩, ⟨n + 4, .create, 2⟩]

theorem idle_five (n : Nat) : (idle n).asked ++ five n = (idle (n + 5)).asked := by
  simp only [idle, five, List.range_succ, List.map_append, List.map_cons, List.map_nil, List.append_assoc, List.cons_append, List.nil_append]

theorem idle_nodup (n : Nat) : ((idle n).asked.map (·.id)).Nodup := by
  simp only [idle, List.map_map]
  have : ((fun r : Req => r.id) ∘ fun i : Nat => (⟨i, .create, 2⟩ : Req)) = id := rfl
  rw [this, List.map_id]
  exact List.nodup_range

theorem crash (s : St) (n : Nat) (hn : n + 4 < 16384) (h1 : s.phase = .wait) (h2 : s.ready = false) (h3 : s.sock = []) (h4 : s.eof = false) (h5 : s.hup = false) (h6 : s.err = false) (h7 : s.full = false)
    (h8 : s.shutdown = false) (h9 : s.queue = []) (h10 : s.opened = 16387) (h11 : s.find n = none) :
    ∃ t, run s ((five n).map .ask ++ [.deliver [.control true true false false], .event, .event, .top, .sendDone, .recv 5, .handle]) = some t ∧
      t.phase = .dead 16 ∧ t.asked = s.asked ++ five n ∧ t.handled = s.handled ∧ t.hup = false ∧ t.log = s.log := by
  obtain ⟨phase, sock, eof, hup, err, full, ready, recvBlock, sendBlock, shutdown, procs, queue, opened, asked, handled, log, unread, sent, count⟩ := s
  simp only at *
  subst_vars
  simp only [St.find] at h11
  have h12 : ¬ 16384 ≤ n := by omega
  simp [run, step, five, St.hot, St.reportable, St.levels, Phase.final, Ev.isControl, St.controlEvent, install, queueMax, recvLen, nofile, idProcs, St.request, St.find, h11, h12]

theorem dies_at (n : Nat) (hn : n = 16379) : ∃ s, Reach s ∧ s.phase = .dead 16 ∧ s.hup = false ∧ (∀ r ∈ s.asked, Proper r) ∧ (s.asked.map (·.id)).Nodup ∧ (alive s.log).length = n := by
  obtain ⟨t, e, t1, t2, t3, t4, t5⟩ := crash (idle n) n (by omega) rfl rfl rfl rfl rfl rfl rfl rfl rfl (by simp only [idle]; omega) (idle_find _)
  rw [idle_five] at t2
  refine ⟨t, (idle_reach n (by omega)).run _ e, t1, t4, ?_, ?_, ?_⟩
  · rw [t2]; exact idle_proper _ (by omega)
  · rw [t2]; exact idle_nodup _
  · rw [t5]; exact idle_alive _ (by omega)

/-- C134: With the maximum number of processes (runtime/config.go:13), the executor may die: when there are 16379 processes, and
five creations, with identifiers which are free, are received at once, there are no descriptors left for the first one of
them.  All processes are lost. -/
theorem executor_dies_refuted : ∃ s, Reach s ∧ s.phase = .dead 16 ∧ s.hup = false ∧ (∀ r ∈ s.asked, Proper r) ∧ (s.asked.map (·.id)).Nodup ∧ (alive s.log).length = 16379 :=
  dies_at _ rfl

/-! ### A run (C133) -/

/-- Two processes are created, one is killed, both exit, and the connection is shut down: everything is handled, both statuses
are sent, and the executor terminates. -/
example : ∃ s, Reach s ∧ s.phase = .done ∧ s.hup = false ∧ s.asked = [⟨5, .create, 2⟩, ⟨6, .create, 3⟩, ⟨5, .kill, 0⟩, ⟨7, .suspend, 0⟩] ∧ s.sent = [(5, 0), (6, 1)] ∧
    s.log = [.created 5 0, .created 6 1, .signalled .kill 5 0, .missed .suspend 7, .reaped 5 0, .reaped 6 1] := by
  have h := Reach.init.run [.ask ⟨5, .create, 2⟩, .top, .ask ⟨6, .create, 3⟩, .sendDone, .recv 2, .handle, .handle, .handle, .recvNone, .ask ⟨5, .kill, 0⟩, .ask ⟨7, .suspend, 0⟩,
    .closeWrite, .deliver [.control true true false false], .event, .event, .top, .sendDone, .recv 2, .handle, .handle, .handle, .recvNone, .exit 5, .handle, .exit 6,
    .deliver [.proc 5, .control false true false false, .proc 6], .event, .event, .event, .event, .top, .flush 2 false, .sendDone, .recvSkip, .peerRead 2 false,
    .deliver [.control false true false false], .event, .event, .top] rfl
  exact ⟨_, h, rfl, rfl, rfl, rfl, rfl⟩

/-! ### Closing (C135) -/

/-- C135: After shutdown has been initiated, nothing is done about processes other than reaping. -/
theorem no_signals {s t : St} {l : Label} (h : Reach s) (hs : s.shutdown = true) (e : step s l = some t) :
    t.shutdown = true ∧ (t.log = s.log ∨ ∃ id n, t.log = s.log ++ [.reaped id n]) := by
  have hf := h.flow
  have hh := (hf.shut hs).2.1
  have htr := step_tr e
  generalize l.internal = b at htr
  cases htr
  case create m r rest h1 _ _ _ _ _ _ _ => rw [h1] at hh; cases hh
  case signal m r rest h1 _ _ _ _ _ => rw [h1] at hh; cases hh
  case evReap id rest p h1 h2 h3 => exact ⟨hs, .inr ⟨_, _, rfl⟩⟩
  case evErr i o hh rest h1 h2 => subst h2; cases hh <;> exact ⟨by first | exact hs | rfl, .inl rfl⟩
  case handleEof => exact ⟨rfl, .inl rfl⟩
  case evHup => exact ⟨rfl, .inl rfl⟩
  all_goals exact ⟨hs, .inl rfl⟩

theorem stays {s t : St} {l : Label} (h : Reach s) (p : Proc) (hp : p ∈ s.procs) (hx : p.exited = false) (hl : l ≠ .exit p.id) (e : step s l = some t) :
    p ∈ t.procs ∧ t.phase ≠ .done := by
  have hpr := h.procs
  have hex : ∀ (id : Nat) (q : Proc), l = .exit id → id ≠ p.id := fun id q h1 h2 => hl (by rw [h1, h2])
  have hnil : s.procs ≠ [] := by intro hn; rw [hn] at hp; cases hp
  by_cases hle : ∃ id, l = .exit id
  · obtain ⟨id, rfl⟩ := hle
    have hid := hex id p rfl
    simp only [step] at e
    split at e
    · next hc =>
      cases e
      refine ⟨List.mem_map.2 ⟨p, hp, ?_⟩, ?_⟩
      · rw [if_neg (by simp only [beq_iff_eq]; exact fun h => hid h.symm)]
      · intro hd
        rw [show s.phase = .done from hd] at hc
        cases hc.2
    · cases e
  · have htr := step_tr e
    cases hb : l.internal with
    | true =>
      rw [hb] at htr
      cases htr
      case topDone h1 h2 h3 h4 => exact absurd h3 hnil
      case create => exact ⟨List.mem_append.2 (.inl hp), by simp⟩
      case evReap id rest q h1 h2 h3 =>
        refine ⟨List.mem_filter.2 ⟨hp, ?_⟩, by simp⟩
        simp only [bne_iff_ne]
        intro e
        obtain ⟨hq1, hq2⟩ := find_some h2
        rw [uniq hpr p q hp hq1 (by rw [e, hq2]), h3] at hx
        cases hx
      case evErr i o hh rest h1 h2 => subst h2; cases hh <;> exact ⟨hp, by simp⟩
      all_goals exact ⟨hp, by simp_all [St.startShutdown]⟩
    | false =>
      cases l <;> first | (cases hb; done) | skip
      case exit id => exact absurd ⟨id, rfl⟩ hle
      all_goals
        simp only [step] at e
        split at e
        · next hc =>
          cases e
          refine ⟨hp, fun hd => ?_⟩
          simp only at hd
          rw [hd] at hc
          simp [Phase.final] at hc
        · cases e

/-- C135: Whatever is done, the executor doesn't terminate by itself while a process doesn't exit; a process exits only by itself or
because of a signal, and signals aren't sent after shutdown has been initiated. -/
theorem waits_for_exit {s t : St} (h : Reach s) (p : Proc) (hp : p ∈ s.procs) (hx : p.exited = false) (ls : List Label) (hl : .exit p.id ∉ ls)
    (e : run s ls = some t) : t.phase ≠ .done ∧ p ∈ t.procs := by
  have hne : ls = [] → s.phase ≠ .done := by
    intro _ hd
    have := (h.hist.done hd).2.1
    rw [this] at hp
    cases hp
  induction ls generalizing s with
  | nil => cases e; exact ⟨hne rfl, hp⟩
  | cons l ls ih =>
    simp only [run] at e
    split at e
    · next s1 e1 =>
      obtain ⟨h1, h2⟩ := stays h p hp hx (by rintro rfl; exact hl (by simp)) e1
      exact ih (h.step l e1) h1 (fun h => hl (by simp [h])) e (fun _ => h2)
    · cases e

/-- C135: So an executor may be closed (the peer has made its last request) and have nothing more to do while the process it was
asked to create runs. -/
theorem close_kills_refuted : ∃ s, Reach s ∧ s.eof = true ∧ s.shutdown = true ∧ s.sock = [] ∧ ¬Enabled s ∧ s.phase = .wait ∧ s.asked = [⟨0, .create, 2⟩] ∧ s.log = [.created 0 0] ∧
    s.procs = [⟨0, 0, false⟩] := by
  have h : Reach { phase := .wait, ready := false, recvBlock := true, procs := [⟨0, 0, false⟩], opened := 9, count := 1, asked := [⟨0, .create, 2⟩], handled := [⟨0, .create, 2⟩], log := [.created 0 0], eof := true, shutdown := true } :=
    (idle_reach 1 (by omega)).run [.closeWrite, .deliver [.control true true false false], .event, .event, .top, .sendDone, .recvNone, .handle,
      .deliver [.control false true false false], .event, .event, .top, .sendDone, .recvSkip] rfl
  refine ⟨_, h, rfl, rfl, rfl, ?_, rfl, rfl, rfl, rfl⟩
  rintro ⟨l, t, hl, e⟩
  cases l with
  | deliver l =>
    simp only [step] at e
    split at e
    · next hc =>
      obtain ⟨_, h2, _, h4, _⟩ := hc
      cases l with
      | nil => exact h2 rfl
      | cons a l =>
        simp only [List.all_cons, Bool.and_eq_true] at h4
        cases a with
        | proc id => simp [St.reportable] at h4
        | control i o hh e => simp [St.reportable] at h4
    · cases e
  | ask | closeWrite | close | peerRead | exit => cases hl
  | handle | event => cases e
  | _ => simp [step, queueMax] at e

/-! ### A closed connection (C136) -/

/-- C136: If the peer has closed the connection, there are processes and the executor has nothing to do, it does it over and over again. -/
theorem spins_refuted {s : St} (h : Reach s) (hh : s.hup = true) (he : s.err = false) (hp : s.phase = .wait) (hs : s.shutdown = true) (hq : s.queue = [])
    (hb : s.sendBlock = false) (hn : s.procs ≠ []) : run s [.deliver [s.levels], .event, .event, .top, .sendDone, .recvSkip] = some s := by
  have hr : s.ready = true := by
    rcases h.flow.hup (by simp [hp, Phase.final]) hh with h1 | h1
    · exact h1
    · rw [hp] at h1; cases h1
  have hb' := (h.flow.shut hs).1
  have hne : s.procs.isEmpty = false := by cases hc : s.procs with | nil => exact absurd hc hn | cons a l => rfl
  obtain ⟨phase, sock, eof, hup, err, full, ready, recvBlock, sendBlock, shutdown, procs, queue, opened, asked, handled, log, unread, sent, count⟩ := s
  simp only at *
  subst_vars
  simp [run, step, St.hot, St.reportable, St.levels, Ev.isControl, St.controlEvent, St.startShutdown, queueMax, hne]

/-- C136: And when a process has exited, the executor dies instead of waiting for the other ones. -/
theorem dies_refuted {s : St} (hh : s.hup = true) (hp : s.phase = .wait) (hq : s.queue = []) (hb : s.sendBlock = false)
    (p : Proc) (hf : s.find p.id = some p) (hx : p.exited = true) :
    ∃ t, run s [.deliver [.proc p.id], .event, .event, .top, .pipe] = some t ∧ t.phase = .sigpipe := by
  obtain ⟨hm, _⟩ := find_some hf
  obtain ⟨phase, sock, eof, hup, err, full, ready, recvBlock, sendBlock, shutdown, procs, queue, opened, asked, handled, log, unread, sent, count⟩ := s
  simp only [St.find] at *
  subst_vars
  have h1 : procs.any (fun q => q.id == p.id && q.exited) = true := List.any_eq_true.2 ⟨p, hm, by simp [hx]⟩
  simp [run, step, St.reportable, queueMax, St.waitProcess, St.find, hf, hx, h1]

/-- It happens: an executor with two processes, the peer of which closes the connection. -/
example : ∃ s, Reach s ∧ s.hup = true ∧ s.err = false ∧ s.phase = .wait ∧ s.shutdown = true ∧ s.queue = [] ∧ s.sendBlock = false ∧ s.procs = [⟨0, 0, false⟩, ⟨1, 1, false⟩] := by
  have h := (idle_reach 2 (by omega)).run [.close false, .deliver [.control true true true false], .event, .event, .top, .sendDone, .recvSkip] rfl
  exact ⟨_, h, rfl, rfl, rfl, rfl, rfl, rfl, rfl⟩

/-- The executor doesn't die of errors because the peer is gone, unless the peer left statuses unread. -/
theorem death_when_closed {s : St} (h : Reach s) (c : Nat) (hd : s.phase = .dead c) :
    (s.err = true ∧ (c = 30 ∨ c = 44)) ∨ ∃ r, s.handled ++ [r] <+: s.asked ∧ Bad s.asked s.log r c := by
  cases h with
  | init => cases hd
  | @step s' _ l h e =>
    have htr := step_tr e
    generalize l.internal = b at htr
    cases htr
    case reqDead m r rest c' h1 h2 h3 =>
      cases hd
      exact .inr ⟨r, cause_bad h m r rest _ h1 h2 h3⟩
    case recvErr h1 h2 h3 h4 => cases hd; exact .inl ⟨h4, .inl rfl⟩
    case einval h1 h2 => have := (h.hist.room (.inr (.inr h1))).1; omega
    case evBad id rest h1 h2 =>
      obtain ⟨p, hp1, hp2, _⟩ := h.procs.evp id (by simp [h1, eventsOf])
      exact absurd hp2 (find_none h2 p hp1)
    case evErr i o hh' rest h1 h2 =>
      subst h2
      have := h.flow.errEv (by rw [h1]; simp [eventsOf])
      cases hd
      left
      cases hh' <;> exact ⟨this, .inr rfl⟩
    all_goals simp_all [Phase.final]

end Gate.ExecLoop
