import Verif.DebugLogInv
/-
C177: every debug log is closed exactly once, after the output has been written to it, except for logs which were given for instances created without a process.
-/
namespace Gate.DebugLog

theorem trans {u v w : World} (a : Steps u v) (b : Steps v w) : Steps u w := by
  induction b with
  | refl => exact a
  | step _ s ih => exact .step ih s

theorem good {w : World} (h : Steps {} w) : Good w := by
  induction h with
  | refl => exact good_initial
  | step _ s ih => exact good_step ih s

/-- The log was given for an instance which was created without a process: one to be suspended at once, or one of a program's snapshot that had come to its end. -/
def GivenSuspended (w : World) (h : Nat) : Prop :=
  ∃ u i, Steps {} u ∧ (u.inst i).state = .absent ∧ u.caller h = true ∧ Steps (created u i (some h) false) w

/-- An instance was stopped because of a failure while its debug output was still being copied to the log. -/
def StoppedEarly (w : World) (h : Nat) : Prop :=
  ∃ u i s, Steps {} u ∧ (u.inst i).state = .running ∧ (u.inst i).log = some h ∧ (u.inst i).copying = some h ∧ Steps (stopped u i s) w

theorem GivenSuspended.step {v w : World} {h : Nat} (g : GivenSuspended v h) (s : Step v w) : GivenSuspended w h := by
  obtain ⟨u, i, a, b, c, d⟩ := g; exact ⟨u, i, a, b, c, .step d s⟩

theorem StoppedEarly.step {v w : World} {h : Nat} (g : StoppedEarly v h) (s : Step v w) : StoppedEarly w h := by
  obtain ⟨u, i, t, a, b, c, d, e⟩ := g; exact ⟨u, i, t, a, b, c, d, .step e s⟩

/-- Where a log is that hasn't been closed. -/
def Accounted (w : World) (GS : Nat → Prop) : Prop :=
  (∀ h, h < w.next → w.closes h = 1 ∨ w.caller h = true ∨ (∃ i, ((w.inst i).state = .starting ∨ (w.inst i).state = .running) ∧ (w.inst i).proc = true ∧ (w.inst i).log = some h) ∨ GS h) ∧
    ∀ i h, (w.inst i).proc = false → (w.inst i).log = some h → GS h

set_option maxHeartbeats 4000000 in
theorem accounted_step {v w : World} {GS : Nat → Prop} (g : Good v) (a : Accounted v GS)
    (hn : ∀ i h, (v.inst i).state = .absent → v.caller h = true → w = created v i (some h) false → GS h) (s : Step v w) : Accounted w GS := by
  obtain ⟨a1, a2⟩ := a
  obtain ⟨g1, g2, g3, g4, g5, g6, g7, g8, g9, g10, g11, g12, g13⟩ := g
  clear g6 g7 g12 g13
  cases s with
  | call => constructor <;> simp only [set] <;> grind
  | dismiss h hc => constructor <;> simp only [set, closeLog, take] at * <;> grind
  | create i l proc hi hl =>
    have hab := g11 i hi
    have hg : ∀ h, l = some h → proc = false → GS h := fun h e e2 => hn i h hi (hl h e) (by rw [e, e2])
    clear hn
    cases l <;> (constructor <;> simp only [set, take, Has, created] at * <;> grind)
  | resume i l hi hl =>
    clear hn
    cases l <;> (constructor <;> simp only [set, take, Has] at * <;> grind)
  | settle i s hs hp hd => clear hn; constructor <;> simp only [set, setState] <;> grind
  | startFails i hs hp => clear hn; cases hlog : (v.inst i).log <;> (constructor <;> simp only [set, stopped, setState, stop, closeLog, hlog] <;> grind)
  | start i hs hp => clear hn; constructor <;> simp only [set] <;> grind
  | debug i b hs ha => clear hn; constructor <;> simp only [set] <;> grind
  | die i hs => clear hn; constructor <;> simp only [set] <;> grind
  | copy i h n hc hb ho => clear hn; constructor <;> simp only [set] <;> grind
  | copyFails i h hc hp hb => clear hn; constructor <;> simp only [set] <;> grind
  | copied i h hc hp ha => clear hn; constructor <;> simp only [set] <;> grind
  | breaks h => clear hn; constructor <;> simp only [] <;> grind
  | served i s hs ha hc hd => clear hn; cases hlog : (v.inst i).log <;> (constructor <;> simp only [set, stopped, setState, stop, closeLog, hlog] <;> grind)
  | serveFails i s hs hd => clear hn; cases hlog : (v.inst i).log <;> (constructor <;> simp only [set, stopped, setState, stop, closeLog, hlog] <;> grind)
  | delete i hs => clear hn; constructor <;> simp only [set, setState] <;> grind

/-- A log given for an instance without a process is never closed. -/
def Stuck (w : World) (h : Nat) : Prop := w.closes h = 0 ∧ w.caller h = false ∧ h < w.next ∧ (∀ i, (w.inst i).log = some h → (w.inst i).proc = false) ∧ ∀ i, (w.inst i).copying ≠ some h

set_option maxHeartbeats 4000000 in
theorem stuck_step {v w : World} {h : Nat} (g : Good v) (k : Stuck v h) (s : Step v w) : Stuck w h := by
  obtain ⟨k1, k2, k3, k4, k5⟩ := k
  have g10 := g.running
  clear g
  cases s with
  | call => refine ⟨?_, ?_, ?_, ?_, ?_⟩ <;> simp only [set] <;> grind
  | dismiss h hc => refine ⟨?_, ?_, ?_, ?_, ?_⟩ <;> simp only [set, closeLog, take] at * <;> grind
  | create i l proc hi hl => cases l <;> (refine ⟨?_, ?_, ?_, ?_, ?_⟩ <;> simp only [set, take, Has, created] at * <;> grind)
  | resume i l hi hl => cases l <;> (refine ⟨?_, ?_, ?_, ?_, ?_⟩ <;> simp only [set, take, Has] at * <;> grind)
  | settle i s hs hp hd => refine ⟨?_, ?_, ?_, ?_, ?_⟩ <;> simp only [set, setState] <;> grind
  | startFails i hs hp => cases hlog : (v.inst i).log <;> (refine ⟨?_, ?_, ?_, ?_, ?_⟩ <;> simp only [set, stopped, setState, stop, closeLog, hlog] <;> grind)
  | start i hs hp => refine ⟨?_, ?_, ?_, ?_, ?_⟩ <;> simp only [set] <;> grind
  | debug i b hs ha => refine ⟨?_, ?_, ?_, ?_, ?_⟩ <;> simp only [set] <;> grind
  | die i hs => refine ⟨?_, ?_, ?_, ?_, ?_⟩ <;> simp only [set] <;> grind
  | copy i h n hc hb ho => refine ⟨?_, ?_, ?_, ?_, ?_⟩ <;> simp only [set] <;> grind
  | copyFails i h hc hp hb => refine ⟨?_, ?_, ?_, ?_, ?_⟩ <;> simp only [set] <;> grind
  | copied i h hc hp ha => refine ⟨?_, ?_, ?_, ?_, ?_⟩ <;> simp only [set] <;> grind
  | breaks h => exact ⟨k1, k2, k3, k4, k5⟩
  | served i s hs ha hc hd => cases hlog : (v.inst i).log <;> (refine ⟨?_, ?_, ?_, ?_, ?_⟩ <;> simp only [set, stopped, setState, stop, closeLog, hlog] <;> grind)
  | serveFails i s hs hd => cases hlog : (v.inst i).log <;> (refine ⟨?_, ?_, ?_, ?_, ?_⟩ <;> simp only [set, stopped, setState, stop, closeLog, hlog] <;> grind)
  | delete i hs => refine ⟨?_, ?_, ?_, ?_, ?_⟩ <;> simp only [set, setState] <;> grind

/-- Writes to closed logs are accounted for. -/
def Late (w : World) (SE : Nat → Prop) : Prop := (∀ i h, (w.inst i).copying = some h → w.closes h ≠ 0 → SE h) ∧ ∀ h, w.late h ≠ 0 → SE h

set_option maxHeartbeats 4000000 in
theorem late_step {v w : World} {SE : Nat → Prop} (g : Good v) (a : Late v SE)
    (hn : ∀ i h s, (v.inst i).state = .running → (v.inst i).log = some h → (v.inst i).copying = some h → w = stopped v i s → SE h) (s : Step v w) : Late w SE := by
  obtain ⟨a1, a2⟩ := a
  obtain ⟨g1, g2, g3, g4, g5, g6, g7, g8, g9, g10, g11, g12, g13⟩ := g
  clear g7 g9 g12 g13
  cases s with
  | call => clear hn; constructor <;> simp only [set] <;> grind
  | dismiss h hc => clear hn; constructor <;> simp only [set, closeLog, take] at * <;> grind
  | create i l proc hi hl =>
    clear hn
    cases l <;> (constructor <;> simp only [set, take, Has, created] at * <;> grind)
  | resume i l hi hl =>
    clear hn
    cases l <;> (constructor <;> simp only [set, take, Has] at * <;> grind)
  | settle i s hs hp hd => clear hn; constructor <;> simp only [set, setState] <;> grind
  | startFails i hs hp => clear hn; cases hlog : (v.inst i).log <;> (constructor <;> simp only [set, stopped, setState, stop, closeLog, hlog] <;> grind)
  | start i hs hp => clear hn; constructor <;> simp only [set] <;> grind
  | debug i b hs ha => clear hn; constructor <;> simp only [set] <;> grind
  | die i hs => clear hn; constructor <;> simp only [set] <;> grind
  | copy i h n hc hb ho => clear hn; constructor <;> simp only [set] <;> grind
  | copyFails i h hc hp hb =>
    clear hn
    by_cases hz : v.closes h = 0
    · simp only [hz, ne_eq, not_true_eq_false, if_false]
      constructor <;> simp only [set] <;> grind
    · simp only [hz, ne_eq, not_false_eq_true, if_true]
      constructor <;> simp only [set] <;> grind
  | copied i h hc hp ha => clear hn; constructor <;> simp only [set] <;> grind
  | breaks h => clear hn; constructor <;> simp only [] <;> grind
  | served i s hs ha hc hd => clear hn; cases hlog : (v.inst i).log <;> (constructor <;> simp only [set, stopped, setState, stop, closeLog, hlog] <;> grind)
  | serveFails i s hs hd =>
    have hg : ∀ h, (v.inst i).log = some h → (v.inst i).copying = some h → SE h := fun h e e2 => hn i h s hs e e2 rfl
    clear hn
    cases hlog : (v.inst i).log <;> (constructor <;> simp only [set, stopped, setState, stop, closeLog, hlog] <;> grind)
  | delete i hs => clear hn; constructor <;> simp only [set, setState] <;> grind

theorem accounted {w : World} (r : Steps {} w) : Accounted w (GivenSuspended w) := by
  induction r with
  | refl => constructor <;> simp
  | @step v w r s ih =>
    refine accounted_step (GS := GivenSuspended w) (good r) ⟨fun h hh => ?_, fun i h a b => (ih.2 i h a b).step s⟩ (fun i h a b e => ⟨v, i, r, a, b, e ▸ .refl _⟩) s
    exact (ih.1 h hh).imp_right (Or.imp_right (Or.imp_right fun x => x.step s))

theorem lateness {w : World} (r : Steps {} w) : Late w (StoppedEarly w) := by
  induction r with
  | refl => constructor <;> simp
  | @step v w r s ih =>
    exact late_step (SE := StoppedEarly w) (good r) ⟨fun i h a b => (ih.1 i h a b).step s, fun h a => (ih.2 h a).step s⟩ (fun i h t a b c e => ⟨v, i, t, r, a, b, c, e ▸ .refl _⟩) s

/-! ## Theorems -/

/-- No log is closed twice. -/
theorem closed_once {w : World} (r : Steps {} w) (h : Nat) : w.closes h ≤ 1 := (good r).once h

/-- Every log which has been given has been closed once, or it's still with the call, or with an instance which is being started or runs; or it was given for an instance without a process. -/
theorem closed_partial {w : World} (r : Steps {} w) {h : Nat} (hh : h < w.next) :
    w.closes h = 1 ∨ w.caller h = true ∨ (∃ i, ((w.inst i).state = .starting ∨ (w.inst i).state = .running) ∧ (w.inst i).proc = true ∧ (w.inst i).log = some h) ∨ GivenSuspended w h :=
  (accounted r).1 h hh

/-- Refuted: those are closed never, not even when the instance is resumed or deleted. -/
theorem suspended_never {w : World} {h : Nat} (g : GivenSuspended w h) : w.closes h = 0 := by
  obtain ⟨u, i, r, a, b, s⟩ := g
  have r1 : Steps {} (created u i (some h) false) := .step r (.create u i (some h) false a (fun _ e => by cases e; exact b))
  have gu := good r
  have k : Stuck (created u i (some h) false) h := by
    obtain ⟨g1, g2, g3, g4, g5, g6, g7, g8, g9, g10, g11, g12, g13⟩ := gu
    refine ⟨?_, ?_, ?_, ?_, ?_⟩ <;> simp only [created, take, set] <;> grind
  have : Stuck w h := by
    clear a b gu
    induction s with
    | refl => exact k
    | step q t ih => exact stuck_step (good (trans r1 q)) ih t
  exact this.1

/-- Two instances never have the same log, and no instance has a log which a call still has, or which has been closed. -/
theorem exclusive {w : World} (r : Steps {} w) {i : Nat} {h : Nat} (hl : (w.inst i).log = some h) :
    w.caller h = false ∧ w.closes h = 0 ∧ ∀ j, (w.inst j).log = some h → j = i := by
  have g := good r
  refine ⟨?_, g.logOpen i h hl, fun j hj => g.logs j i h hj hl⟩
  cases hc : w.caller h with
  | false => rfl
  | true => exact absurd hl ((g.caller h hc).2.2 i).1

/-- A log that is written to although it has been closed was closed because of a failure. -/
theorem written_open_partial {w : World} (r : Steps {} w) {h : Nat} (hl : w.late h ≠ 0) : StoppedEarly w h := (lateness r).2 h hl

/-- When an instance stops without a failure, everything that its program has written since it was started is in the log, if the log hasn't been broken; and the log is closed then. -/
theorem complete {v : World} (r : Steps {} v) {i h : Nat} (hs : (v.inst i).state = .running) (ha : (v.inst i).alive = false) (hc : (v.inst i).copying = none) (hl : (v.inst i).log = some h)
    (hb : v.broken h = false) (s : State) : (stopped v i s).out h = (v.inst i).produced ∧ (stopped v i s).closes h = 1 := by
  have g := good r
  have hz := g.logOpen i h hl
  rcases g.complete i h hs hl hb with ⟨e, _⟩ | ⟨_, _, e⟩
  · rw [hc] at e; cases e
  · simp only [stopped, setState, stop, hl, closeLog, set, if_true]
    exact ⟨e, by omega⟩

/-- Nothing is added to a closed log. -/
theorem closed_final {v w : World} (r : Steps v w) {h : Nat} (hc : v.closes h ≠ 0) : w.out h = v.out h ∧ w.closes h ≠ 0 := by
  induction r with
  | refl => exact ⟨rfl, hc⟩
  | @step u w _ s ih =>
    obtain ⟨e, c⟩ := ih
    rw [← e]
    clear e
    cases s with
    | dismiss k hk => simp only [closeLog, take, set]; grind
    | create i l p hi hl => cases l <;> simp [created, take, c]
    | resume i l hi hl => cases l <;> simp [take, c]
    | startFails i hs hp => cases hlog : (u.inst i).log <;> simp only [set, stopped, setState, stop, closeLog, hlog] <;> grind
    | served i t hs ha hc hd => cases hlog : (u.inst i).log <;> simp only [set, stopped, setState, stop, closeLog, hlog] <;> grind
    | serveFails i t hs hd => cases hlog : (u.inst i).log <;> simp only [set, stopped, setState, stop, closeLog, hlog] <;> grind
    | copy i k n hk hb ho => simp only [set]; grind
    | _ => exact ⟨rfl, c⟩

/-- Nothing else than the program's death is needed for a running instance's log to be closed, with everything in it. -/
theorem can_finish {w : World} (r : Steps {} w) {i h : Nat} (hs : (w.inst i).state = .running) (hl : (w.inst i).log = some h) (hb : w.broken h = false) :
    ∃ w', Steps w w' ∧ w'.closes h = 1 ∧ w'.out h = (w.inst i).produced := by
  have g := good r
  have hz := g.logOpen i h hl
  rcases g.complete i h hs hl hb with ⟨hc, e⟩ | ⟨hc, ha, e⟩
  · let w1 : World := { w with inst := set w.inst i { w.inst i with alive := false } }
    have s1 : Steps w w1 := .step (.refl _) (.die w i hs)
    have c1 : (w1.inst i).copying = some h := by simpa [w1, set] using hc
    let w2 : World := { w1 with inst := set w1.inst i { w1.inst i with pipe := (w1.inst i).pipe.drop (w.inst i).pipe.length }, out := set w1.out h (w1.out h ++ (w1.inst i).pipe.take (w.inst i).pipe.length) }
    have s2 : Steps w w2 := .step s1 (.copy w1 i h _ c1 hb hz)
    have c2 : (w2.inst i).copying = some h := by simpa [w2, set] using c1
    let w3 : World := { w2 with inst := set w2.inst i { w2.inst i with copying := none } }
    have s3 : Steps w w3 := .step s2 (.copied w2 i h c2 (by simp [w2, w1, set]) (by simp [w2, w1, set]))
    have h3 : (w3.inst i).state = .running := by simpa [w3, w2, w1, set] using hs
    have a3 : (w3.inst i).alive = false := by simp [w3, w2, w1, set]
    have k3 : (w3.inst i).copying = none := by simp [w3, set]
    have l3 : (w3.inst i).log = some h := by simpa [w3, w2, w1, set] using hl
    have f := complete (trans r s3) h3 a3 k3 l3 hb .stopped
    refine ⟨stopped w3 i .stopped, .step s3 (.served w3 i .stopped h3 a3 k3 (.inl rfl)), f.2, f.1.trans ?_⟩
    simp [w3, w2, w1, set]
  · have f := complete r hs ha hc hl hb .stopped
    exact ⟨stopped w i .stopped, .step (.refl _) (.served w i .stopped hs ha hc (.inl rfl)), f.2, f.1⟩

/-! ## Executions -/

/-- A launch with a log. -/
theorem exStart : ∃ w, Steps {} w ∧ (w.inst 0).state = .running ∧ (w.inst 0).log = some 0 ∧ w.broken 0 = false ∧ (w.inst 0).copying = some 0 ∧ (w.inst 0).pipe = [104, 105] ∧ (w.inst 0).produced = [104, 105] ∧
    w.closes 0 = 0 ∧ w.late 0 = 0 := by
  have s1 := Steps.step (.refl _) (.call {})
  have s2 := Steps.step s1 (.create _ 0 (some 0) true rfl (by intro h e; cases e; simp [set]))
  have s3 := Steps.step s2 (.start _ 0 (by simp [created, set, take]) (by simp [created, set, take]))
  have s4 := Steps.step s3 (.debug _ 0 ([104, 105]) (by simp [set]) (by simp [set]))
  exact ⟨_, s4, by simp [set], by simp [set, created, take], by simp [created, take], by simp [set, created, take], by simp [set], by simp [set], by simp [created, take], by simp [created, take]⟩

/-- Refuted: the log is written to after it has been closed, if the instance's services fail. -/
theorem written_open_refuted : ∃ w, Steps {} w ∧ w.late 0 = 1 ∧ w.out 0 = [] ∧ w.closes 0 = 1 := by
  obtain ⟨w, r, hs, hl, hb, hc, hp, hpr, hz, ht⟩ := exStart
  have g := good r
  have e : w.out 0 = [] := by
    rcases g.complete 0 0 hs hl hb with ⟨_, e⟩ | ⟨e, _⟩
    · rw [hp, hpr] at e
      simpa using e
    · rw [hc] at e; cases e
  have s1 := Steps.step r (.serveFails w 0 .ended hs (.inl rfl))
  have s2 := Steps.step s1 (.copyFails _ 0 0 (by simp [stopped, setState, stop, hl, closeLog, set, hc]) (by simp [stopped, setState, stop, hl, closeLog, set, hp]) (.inr (by simp [stopped, setState, stop, hl, closeLog, set])))
  exact ⟨_, s2, by simp [stopped, setState, stop, hl, closeLog, set, ht], by simp [stopped, setState, stop, hl, closeLog, e], by simp [stopped, setState, stop, hl, closeLog, set, hz]⟩

/-- A launch with a log and to be suspended; then the instance is resumed with another log. -/
theorem exSuspended : ∃ w, Steps {} w ∧ GivenSuspended w 0 ∧ (w.inst 0).state = .running ∧ (w.inst 0).log = some 1 ∧ w.caller 0 = false := by
  have s1 := Steps.step (.refl _) (.call {})
  have s2 := Steps.step s1 (.create _ 0 (some 0) false rfl (by intro h e; cases e; simp [set]))
  have q1 := Steps.step (.refl (created { ({} : World) with caller := set (fun _ => false) 0 true, next := 1 } 0 (some 0) false)) (.settle _ 0 .stopped (by simp [created, set, take]) (by simp [created, set, take]) (.inl rfl))
  have q2 := Steps.step q1 (.call _)
  have q3 := Steps.step q2 (.resume _ 0 (some 1) (by simp [set, setState]) (by intro h e; cases e; simp [set, setState, created, take]))
  have q4 := Steps.step q3 (.start _ 0 (by simp [set]) (by simp [set]))
  exact ⟨_, trans s2 q4, ⟨_, 0, s1, rfl, by simp [set], q4⟩, by simp [set], by simp [set], by simp [set, take, setState, created]⟩

end Gate.DebugLog
