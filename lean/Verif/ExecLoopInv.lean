import Verif.ExecLoopProps
/-
C133-C136: invariants of the executor process.
-/
namespace Gate.ExecLoop

/-! ### Pending events -/

def inEv (l : List Ev) : Bool := l.any fun | .control i _ _ _ => i | _ => false
def outEv (l : List Ev) : Bool := l.any fun | .control _ o _ _ => o | _ => false
def hupEv (l : List Ev) : Bool := l.any fun | .control _ _ h _ => h | _ => false
def errEv (l : List Ev) : Bool := l.any fun | .control _ _ _ e => e | _ => false

@[simp] theorem inEv_nil : inEv [] = false := rfl
@[simp] theorem outEv_nil : outEv [] = false := rfl
@[simp] theorem hupEv_nil : hupEv [] = false := rfl
@[simp] theorem errEv_nil : errEv [] = false := rfl
@[simp] theorem inEv_control (i o h e : Bool) (l : List Ev) : inEv (.control i o h e :: l) = (i || inEv l) := rfl
@[simp] theorem outEv_control (i o h e : Bool) (l : List Ev) : outEv (.control i o h e :: l) = (o || outEv l) := rfl
@[simp] theorem hupEv_control (i o h e : Bool) (l : List Ev) : hupEv (.control i o h e :: l) = (h || hupEv l) := rfl
@[simp] theorem errEv_control (i o h e : Bool) (l : List Ev) : errEv (.control i o h e :: l) = (e || errEv l) := rfl
@[simp] theorem inEv_proc (id : Nat) (l : List Ev) : inEv (.proc id :: l) = inEv l := rfl
@[simp] theorem outEv_proc (id : Nat) (l : List Ev) : outEv (.proc id :: l) = outEv l := rfl
@[simp] theorem hupEv_proc (id : Nat) (l : List Ev) : hupEv (.proc id :: l) = hupEv l := rfl
@[simp] theorem errEv_proc (id : Nat) (l : List Ev) : errEv (.proc id :: l) = errEv l := rfl

def isHandle : Phase → Bool
  | .handle _ => true
  | _ => false

/-- The events have been reported: there's at most one of the control socket. -/
inductive Single : List Ev → Prop
  | nil : Single []
  | proc (id : Nat) (l : List Ev) : Single l → Single (.proc id :: l)
  | control (i o h e : Bool) (l : List Ev) : Single l → inEv l = false → outEv l = false → hupEv l = false → errEv l = false → Single (.control i o h e :: l)

/-- What is reported of the control socket. -/
theorem levels_of (s : St) (l : List Ev) (h : l.all s.reportable = true) (i o hh e : Bool) (hm : Ev.control i o hh e ∈ l) :
    s.ready = true ∧ i = (!s.shutdown && (!s.sock.isEmpty || s.eof)) ∧ o = (!s.full || s.hup) ∧ hh = s.hup ∧ e = s.err := by
  have := List.all_eq_true.1 h _ hm
  simp only [St.reportable, Bool.and_eq_true, beq_iff_eq, St.levels, Ev.control.injEq] at this
  exact ⟨this.1.1, this.2.1, this.2.2.1, this.2.2.2.1, this.2.2.2.2⟩

theorem none_ev (l : List Ev) (h : ∀ x ∈ l, x.isControl = false) : inEv l = false ∧ outEv l = false ∧ hupEv l = false ∧ errEv l = false := by
  induction l with
  | nil => simp
  | cons a l ih =>
    obtain ⟨h1, h2, h3, h4⟩ := ih fun x hx => h x (by simp [hx])
    cases a with
    | proc id => simp [h1, h2, h3, h4]
    | control i o hh e => cases h (.control i o hh e) (by simp)

theorem single_of (s : St) (l : List Ev) (h : l.all s.reportable = true) (hn : l.Nodup) : Single l := by
  induction l with
  | nil => exact .nil
  | cons a l ih =>
    have hn' := List.nodup_cons.1 hn
    have hl : l.all s.reportable = true := by simp only [List.all_cons, Bool.and_eq_true] at h; exact h.2
    cases a with
    | proc id => exact .proc _ _ (ih hl hn'.2)
    | control i o hh e =>
      have hz : ∀ x ∈ l, x.isControl = false := by
        intro x hx
        cases x with
        | proc id => rfl
        | control i' o' hh' e' =>
          obtain ⟨_, a1, a2, a3, a4⟩ := levels_of s _ h i o hh e (by simp)
          obtain ⟨_, b1, b2, b3, b4⟩ := levels_of s _ h i' o' hh' e' (by simp [hx])
          rw [← b1] at a1; rw [← b2] at a2; rw [← b3] at a3; rw [← b4] at a4
          subst a1; subst a2; subst a3; subst a4
          exact absurd hx hn'.1
      obtain ⟨h1, h2, h3, h4⟩ := none_ev l hz
      exact .control _ _ _ _ _ (ih hl hn'.2) h1 h2 h3 h4

/-- If something is reported of the control socket, it's its current state. -/
theorem evs_of (s : St) (l : List Ev) (h : l.all s.reportable = true) :
    (l.any Ev.isControl = false ∧ inEv l = false ∧ outEv l = false ∧ hupEv l = false ∧ errEv l = false) ∨
    (l.any Ev.isControl = true ∧ s.ready = true ∧ inEv l = (!s.shutdown && (!s.sock.isEmpty || s.eof)) ∧ outEv l = (!s.full || s.hup) ∧ hupEv l = s.hup ∧ errEv l = s.err) := by
  induction l with
  | nil => exact .inl (by simp)
  | cons a l ih =>
    have hl : l.all s.reportable = true := by simp only [List.all_cons, Bool.and_eq_true] at h; exact h.2
    cases a with
    | proc id => simpa [Ev.isControl] using ih hl
    | control i o hh e =>
      right
      obtain ⟨a0, a1, a2, a3, a4⟩ := levels_of s _ h i o hh e (by simp)
      rcases ih hl with ⟨_, b1, b2, b3, b4⟩ | ⟨_, _, b1, b2, b3, b4⟩ <;> subst a1 a2 a3 a4 <;> simp [Ev.isControl, a0, b1, b2, b3, b4]

/-- Blocking, events and shutting down. -/
structure Flow (s : St) : Prop where
  single : Single (eventsOf s.phase)
  wait : s.phase = .wait → s.recvBlock = true
  wake : s.phase.final = false → s.recvBlock = true → s.shutdown = false → (s.sock ≠ [] ∨ s.eof = true) → s.ready = true ∨ inEv (eventsOf s.phase) = true
  shut : s.shutdown = true → s.recvBlock = true ∧ isHandle s.phase = false ∧ inEv (eventsOf s.phase) = false
  sb : s.phase.final = false → s.sendBlock = true → s.full = true ∨ s.ready = true ∨ outEv (eventsOf s.phase) = true
  unread : s.full = true → 0 < s.unread
  hup : s.phase.final = false → s.hup = true → s.ready = true ∨ hupEv (eventsOf s.phase) = true
  hupEv : hupEv (eventsOf s.phase) = true → s.hup = true
  errEv : errEv (eventsOf s.phase) = true → s.err = true
  errHup : s.err = true → s.hup = true
  hupEof : s.hup = true → s.eof = true

theorem Flow.init : Flow {} := by constructor <;> simp [eventsOf, Single.nil]

set_option maxHeartbeats 1000000 in
theorem Flow.step {s t : St} {b : Bool} (h : Flow s) (e : Tr s b t) : Flow t := by
  obtain ⟨f1, f2, f3, f4, f5, f6, f7, f8, f9, f10, f11⟩ := h
  obtain ⟨phase, sock, eof, hup, err, full, ready, recvBlock, sendBlock, shutdown, procs, queue, opened, asked, handled, log, unread, sent, count⟩ := s
  cases e
  case deliver l h1 h2 h3 h4 h5 =>
    have g1 := single_of _ _ h4 h5
    have g2 := evs_of _ _ h4
    clear h4 h5
    simp only at *
    subst h1
    simp only [eventsOf, isHandle, Phase.final, inEv_nil, outEv_nil, hupEv_nil, errEv_nil] at *
    rcases g2 with ⟨g, g2, g3, g4, g5⟩ | ⟨g, g1, g2, g3, g4, g5⟩ <;> constructor <;> simp only [eventsOf, isHandle, Phase.final] <;> grind
  case evErr t h1 h2 =>
    subst h2
    simp only [St.controlEvent] at *
    subst h1
    simp only [eventsOf, inEv_control, outEv_control, hupEv_control, errEv_control, isHandle, Phase.final] at *
    cases f1
    split <;> constructor <;> simp only [eventsOf, isHandle, Phase.final, St.startShutdown, inEv_nil, outEv_nil, hupEv_nil, errEv_nil] <;> grind [Single]
  all_goals
    simp only at *
    subst_vars
    simp only [St.hot, eventsOf, isHandle, Phase.final, inEv_nil, outEv_nil, hupEv_nil, errEv_nil, inEv_control, outEv_control, hupEv_control, errEv_control, inEv_proc, outEv_proc, hupEv_proc, errEv_proc] at *
    constructor <;> simp only [eventsOf, isHandle, Phase.final, St.startShutdown, inEv_nil, outEv_nil, hupEv_nil, errEv_nil]
    all_goals grind [Single]

end Gate.ExecLoop
