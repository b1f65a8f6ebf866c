import Verif.ExecLoopInv
/-
C133-C136: requests and processes of the executor.
-/
namespace Gate.ExecLoop

theorem Reach.flow {s : St} (h : Reach s) : Flow s := by
  induction h with
  | init => exact Flow.init
  | step l _ e ih => exact ih.step (step_tr e)

/-! ### Receiving -/

@[simp] theorem reqs_nil : reqs [] = [] := rfl
theorem reqs_cons_some (m : Msg) (r : Req) (l : List Msg) (h : m.req = some r) : reqs (m :: l) = r :: reqs l := by simp [reqs, h]
theorem reqs_cons_none (m : Msg) (l : List Msg) (h : m.req = none) : reqs (m :: l) = reqs l := by simp [reqs, h]

theorem install_cons (n : Nat) (r : Req) (l : List Req) : install n (r :: l) =
    ((install (min nofile (n + r.fds)) l).1, ⟨some r, decide (nofile < n + r.fds)⟩ :: (install (min nofile (n + r.fds)) l).2) := rfl

theorem install_reqs (n : Nat) (l : List Req) : reqs (install n l).2 = l := by
  induction l generalizing n with
  | nil => rfl
  | cons r l ih => rw [install_cons, reqs_cons_some _ r _ rfl, ih]

theorem install_some (n : Nat) (l : List Req) (m : Msg) (h : m ∈ (install n l).2) : m.req ≠ none := by
  induction l generalizing n with
  | nil => cases h
  | cons r l ih =>
    rw [install_cons] at h
    rcases List.mem_cons.1 h with rfl | h
    · simp
    · exact ih _ h

theorem install_length (n : Nat) (l : List Req) : (install n l).2.length = l.length := by
  induction l generalizing n with
  | nil => rfl
  | cons r l ih => rw [install_cons]; simp [ih]

theorem install_opened (n : Nat) (l : List Req) (h : ∀ m ∈ (install n l).2, m.trunc = false) : (install n l).1 = n + (l.map (·.fds)).sum := by
  induction l generalizing n with
  | nil => rfl
  | cons r l ih =>
    rw [install_cons] at h ⊢
    have h1 := h _ (List.mem_cons_self ..)
    simp only [decide_eq_false_iff_not] at h1
    have h2 : min nofile (n + r.fds) = n + r.fds := by omega
    rw [h2] at h ⊢
    simp only at h ⊢
    rw [ih _ (fun m hm => h m (by simp [hm])), List.map_cons, List.sum_cons]
    omega

/-- Nothing is truncated if everything fits. -/
theorem install_fits (n : Nat) (l : List Req) (h : n + (l.map (·.fds)).sum ≤ nofile) : ∀ m ∈ (install n l).2, m.trunc = false := by
  induction l generalizing n with
  | nil => intro m hm; cases hm
  | cons r l ih =>
    rw [List.map_cons, List.sum_cons] at h
    have h2 : min nofile (n + r.fds) = n + r.fds := by omega
    rw [install_cons, h2]
    intro m hm
    rcases List.mem_cons.1 hm with rfl | hm
    · exact decide_eq_false (by omega)
    · exact ih _ (by omega) m hm

/-! ### Requests -/

structure Hist (s : St) : Prop where
  all : s.phase.final = false → s.shutdown = false → s.asked = s.handled ++ reqs (batchOf s.phase) ++ s.sock
  pre : ∃ r, s.asked = s.handled ++ r
  shut : s.shutdown = true → s.hup = false → s.asked = s.handled ∧ s.sock = [] ∧ s.eof = true
  eof : ∀ m ∈ batchOf s.phase, m.req = none → batchOf s.phase = [m] ∧ s.sock = [] ∧ s.eof = true ∧ m.trunc = false
  done : s.phase = .done → s.shutdown = true ∧ s.procs = [] ∧ s.queue = []
  evs : s.queue.length + (eventsOf s.phase).length ≤ 127
  room : (s.phase = .recv ∨ isHandle s.phase = true ∨ s.phase = .wait) → s.queue.length < 127 ∧ (s.queue = [] ∨ s.sendBlock = true)
  batch : (batchOf s.phase).length ≤ 128

theorem Hist.init : Hist {} := by constructor <;> simp [eventsOf, batchOf, isHandle]

set_option maxHeartbeats 1000000 in
theorem Hist.step {s t : St} {b : Bool} (hf : Flow s) (h : Hist s) (e : Tr s b t) : Hist t := by
  obtain ⟨f1, f2, f3, f4, f5, f6, f7, f8, f9, f10, f11⟩ := hf
  obtain ⟨g1, g2, g3, g4, g5, g6, g7, g8⟩ := h
  obtain ⟨phase, sock, eof, hup, err, full, ready, recvBlock, sendBlock, shutdown, procs, queue, opened, asked, handled, log, unread, sent, count⟩ := s
  cases e
  case evErr t h1 h2 =>
    subst h2
    simp only [St.controlEvent] at *
    subst h1
    simp only [eventsOf, batchOf, isHandle, Phase.final, reqs_nil, inEv_control, hupEv_control] at *
    split <;> constructor <;> simp only [eventsOf, batchOf, isHandle, Phase.final, St.startShutdown] <;> grind
  case recv k h1 h2 h3 h4 h5 =>
    have i1 := install_reqs opened (sock.take k)
    have i2 := install_some opened (sock.take k)
    have i3 := install_length opened (sock.take k)
    simp only at *
    subst h1
    simp only [eventsOf, batchOf, isHandle, Phase.final, reqs_nil] at *
    generalize (install opened (sock.take k)).2 = l at *
    constructor <;> simp only [eventsOf, batchOf, isHandle, Phase.final]
    case all => intro _ hs; rw [i1, g1 trivial hs]; simp [List.append_assoc]
    all_goals grind
  case handleEof m rest h1 h2 =>
    simp only at *
    subst h1
    have i1 := g4 m (by simp [batchOf]) h2
    simp only [eventsOf, batchOf, isHandle, Phase.final] at *
    have i2 : reqs (m :: rest) = reqs rest := reqs_cons_none _ _ h2
    constructor <;> simp only [eventsOf, batchOf, isHandle, Phase.final, St.startShutdown, reqs_nil] <;> grind [reqs_nil]
  case create m r rest h1 h2 h3 h4 h5 h6 h7 h8 =>
    simp only at *
    subst h1
    have i2 : reqs (m :: rest) = r :: reqs rest := reqs_cons_some _ _ _ h2
    simp only [eventsOf, batchOf, isHandle, Phase.final] at *
    have i3 : shutdown = false := by cases shutdown <;> grind
    have i4 : asked = (handled ++ [r]) ++ (reqs rest ++ sock) := by rw [g1 trivial i3, i2]; simp
    constructor <;> simp only [eventsOf, batchOf, isHandle, Phase.final]
    case pre => exact ⟨_, i4⟩
    all_goals grind
  case signal m r rest h1 h2 h3 h4 h5 h6 =>
    simp only at *
    subst h1
    have i2 : reqs (m :: rest) = r :: reqs rest := reqs_cons_some _ _ _ h2
    simp only [eventsOf, batchOf, isHandle, Phase.final] at *
    have i3 : shutdown = false := by cases shutdown <;> grind
    have i4 : asked = (handled ++ [r]) ++ (reqs rest ++ sock) := by rw [g1 trivial i3, i2]; simp
    constructor <;> simp only [eventsOf, batchOf, isHandle, Phase.final]
    case pre => exact ⟨_, i4⟩
    all_goals grind
  case recvEof =>
    simp only at *
    subst_vars
    simp only [eventsOf, batchOf, isHandle, Phase.final, reqs_nil] at *
    constructor <;> simp only [eventsOf, batchOf, isHandle, Phase.final, reqs_cons_none ⟨none, false⟩ [] rfl] <;> grind [reqs_nil]
  all_goals
    simp only at *
    subst_vars
    simp only [eventsOf, batchOf, isHandle, Phase.final, reqs_nil, inEv_control, hupEv_control] at *
    constructor <;> simp only [eventsOf, batchOf, isHandle, Phase.final, reqs_nil]
    all_goals grind

theorem Reach.hist {s : St} (h : Reach s) : Hist s := by
  induction h with
  | init => exact Hist.init
  | step l h e ih => exact ih.step h.flow (step_tr e)

end Gate.ExecLoop
