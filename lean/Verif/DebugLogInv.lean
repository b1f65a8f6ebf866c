import Verif.DebugLog
/-
C177: the invariant.  Every debug log is closed exactly once, after the output has been written to it, except for logs which were given for instances created without a process.
-/
namespace Gate.DebugLog

structure Good (w : World) : Prop where
  fresh : ∀ h, w.next ≤ h → w.caller h = false ∧ w.closes h = 0 ∧ w.late h = 0 ∧ w.out h = [] ∧ ∀ i, (w.inst i).log ≠ some h ∧ (w.inst i).copying ≠ some h
  caller : ∀ h, w.caller h = true → w.closes h = 0 ∧ w.out h = [] ∧ ∀ i, (w.inst i).log ≠ some h ∧ (w.inst i).copying ≠ some h
  logOpen : ∀ i h, (w.inst i).log = some h → w.closes h = 0
  once : ∀ h, w.closes h ≤ 1
  logs : ∀ i j h, (w.inst i).log = some h → (w.inst j).log = some h → i = j
  copies : ∀ i j h, (w.inst i).copying = some h → (w.inst j).log = some h → i = j
  copiers : ∀ i j h, (w.inst i).copying = some h → (w.inst j).copying = some h → i = j
  copyState : ∀ i h, (w.inst i).copying = some h → ((w.inst i).state = .running ∧ (w.inst i).log = some h) ∨ (w.inst i).log = none ∧ ((w.inst i).state = .ended ∨ (w.inst i).state = .gone)
  procLog : ∀ i h, (w.inst i).proc = true → (w.inst i).log = some h → (w.inst i).state = .starting ∨ (w.inst i).state = .running
  running : ∀ i, (w.inst i).state = .running → (w.inst i).proc = true
  absent : ∀ i, (w.inst i).state = .absent → w.inst i = {}
  starting : ∀ i h, (w.inst i).state = .starting → (w.inst i).log = some h → w.out h = []
  complete : ∀ i h, (w.inst i).state = .running → (w.inst i).log = some h → w.broken h = false →
    ((w.inst i).copying = some h ∧ w.out h ++ (w.inst i).pipe = (w.inst i).produced) ∨ ((w.inst i).copying = none ∧ (w.inst i).alive = false ∧ w.out h = (w.inst i).produced)

theorem good_initial : Good {} := by
  constructor <;> simp

set_option maxHeartbeats 4000000 in
theorem good_step {w w' : World} (g : Good w) (s : Step w w') : Good w' := by
  obtain ⟨g1, g2, g3, g4, g5, g6, g7, g8, g9, g10, g11, g12, g13⟩ := g
  cases s with
  | call => constructor <;> simp only [set] <;> grind
  | dismiss h hc => constructor <;> simp only [set, closeLog, take] <;> grind
  | create i l proc hs hl =>
    have := g11 i hs
    cases l <;> (constructor <;> simp only [set, take, Has, created] at * <;> grind)
  | resume i l hs hl => cases l <;> (constructor <;> simp only [set, take, Has] at * <;> grind)
  | settle i s hs hp hd => constructor <;> simp only [set, setState] <;> grind
  | startFails i hs hp =>
    cases hlog : (w.inst i).log <;> (constructor <;> simp only [set, stopped, setState, stop, closeLog, hlog] <;> grind)
  | start i hs hp => constructor <;> simp only [set] <;> grind
  | debug i b hs ha => constructor <;> simp only [set] <;> grind
  | die i hs => constructor <;> simp only [set] <;> grind
  | copy i h n hc hb ho =>
    have := List.take_append_drop n (w.inst i).pipe
    constructor <;> simp only [set] <;> grind
  | copyFails i h hc hp hb =>
    by_cases hz : w.closes h = 0
    · simp only [hz, ne_eq, not_true_eq_false, if_false]
      constructor <;> simp only [set] <;> grind
    · simp only [hz, ne_eq, not_false_eq_true, if_true]
      constructor <;> simp only [set] <;> grind
  | copied i h hc hp ha => constructor <;> simp only [set] <;> grind
  | breaks h => constructor <;> simp only [set] <;> grind
  | served i s hs ha hc hd => cases hlog : (w.inst i).log <;> (constructor <;> simp only [set, stopped, setState, stop, closeLog, hlog] <;> grind)
  | serveFails i s hs hd => cases hlog : (w.inst i).log <;> (constructor <;> simp only [set, stopped, setState, stop, closeLog, hlog] <;> grind)
  | delete i hs => constructor <;> simp only [set, setState] <;> grind

end Gate.DebugLog
