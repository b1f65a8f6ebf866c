import Verif.Shutdown
/-
C181: what a shutdown achieves.
-/
namespace Gate.Shutdown

structure Good (w : World) : Prop where
  opened : w.isOpen = true → (∀ i, w.toSignal i = false ∧ w.toWait i = false ∧ w.watch i = none ∧ (w.inst i).lateStart = false ∧ (w.inst i).lateResume = false ∧ (w.inst i).sig = false) ∧ w.aborted = false ∧ w.returned = none
  signalled : ∀ i, w.isOpen = false → w.toSignal i = false → (w.inst i).phase.live = true → (w.inst i).sig = true ∨ (w.inst i).lateResume = true
  waited : ∀ i, w.isOpen = false → w.toWait i = false → w.canceled = false → (w.inst i).phase.active = true → (w.inst i).lateStart = true ∨ (w.inst i).lateResume = true
  watched : ∀ i k, w.watch i = some k → w.isOpen = false ∧ k ≤ (w.inst i).run ∧ (k < (w.inst i).run → (w.inst i).lateResume = true)
  stored : ∀ i, (w.inst i).phase = .stopped → (w.inst i).stored = true ∨ (w.inst i).failed = true
  anon : ∀ i, (w.inst i).acc = false → (w.inst i).phase ≠ .absent → (w.inst i).transient = true
  noResume : ∀ i, (w.inst i).acc = false → w.resumers i = 0 ∧ (w.inst i).lateResume = false ∧ (w.inst i).phase ≠ .resuming
  aborted : w.aborted = true → w.canceled = true ∨ ∃ i, (w.inst i).lateResume = true ∨ (w.inst i).stale = true
  returned : w.returned ≠ none → w.isOpen = false ∧ ∀ i, w.toSignal i = false ∧ w.toWait i = false
  result : w.returned = some true → w.canceled = true
  absent : ∀ i, (w.inst i).phase = .absent → w.isOpen = false → w.toSignal i = false ∧ w.toWait i = false
  stale : ∀ i, (w.inst i).stale = true → (w.inst i).phase = .gone
  absent' : ∀ i, (w.inst i).phase = .absent → w.resumers i = 0 ∧ (w.inst i).lateResume = false

theorem good_init : Good {} := by constructor <;> simp

set_option maxHeartbeats 4000000 in
theorem good_step {w v : World} (g : Good w) (h : Step w v) : Good v := by
  cases h
  all_goals
    constructor
    · have := g.opened; simp only [upd, set]; grind [Phase.live, Phase.active, Inst.statusRunning]
    · have := g.signalled; have := g.opened; simp only [upd, set]; grind [Phase.live, Phase.active, Inst.statusRunning]
    · have := g.waited; have := g.opened; have := g.watched; have := g.absent; simp only [upd, set]; grind [Phase.live, Phase.active, Inst.statusRunning]
    · have := g.watched; have := g.opened; simp only [upd, set]; grind [Phase.live, Phase.active, Inst.statusRunning]
    · have := g.stored; simp only [upd, set]; grind [Phase.live, Phase.active, Inst.statusRunning]
    · have := g.anon; simp only [upd, set]; grind [Phase.live, Phase.active, Inst.statusRunning]
    · have := g.noResume; have := g.absent'; have := g.opened; simp only [upd, set]; grind [Phase.live, Phase.active, Inst.statusRunning]
    · have := g.aborted; have := g.stale; have := g.watched; have := g.opened; simp only [upd, set]; grind [Phase.live, Phase.active, Inst.statusRunning]
    · have := g.returned; have := g.opened; simp only [upd, set]; grind [Phase.live, Phase.active, Inst.statusRunning]
    · have := g.result; simp only [upd, set]; grind [Phase.live, Phase.active, Inst.statusRunning]
    · have := g.absent; have := g.opened; simp only [upd, set]; grind [Phase.live, Phase.active, Inst.statusRunning]
    · have := g.stale; simp only [upd, set]; grind [Phase.live, Phase.active, Inst.statusRunning]
    · have := g.absent'; have := g.opened; simp only [upd, set]; grind [Phase.live, Phase.active, Inst.statusRunning]

theorem good {w : World} (h : Steps {} w) : Good w := by
  induction h with
  | refl => exact good_init
  | step _ hs ih => exact good_step ih hs

/-- Shutdown has returned. -/
def Done (w : World) : Prop := w.returned ≠ none

/-- After the shutdown nothing is registered, and no resumption finds its instance: what's running then had been asked for before. -/
theorem nothing_new {w v : World} (hc : w.isOpen = false) (h : Step w v) :
    v.isOpen = false ∧ (∀ i, (w.inst i).phase = .absent → (v.inst i).phase = .absent) ∧ ∀ i, v.resumers i ≤ w.resumers i := by
  cases h <;> simp only [upd, set] <;> grind

/-- A resumption's process is a new one, which nobody has signalled, and what it does isn't in the storage. -/
theorem resumed_new {w v : World} (h : Step w v) (i : Nat) (hp : (v.inst i).phase = .resuming) (hw : (w.inst i).phase ≠ .resuming) :
    (v.inst i).sig = false ∧ (v.inst i).stored = false ∧ (v.inst i).run = (w.inst i).run + 1 ∧ 0 < w.resumers i ∧ (w.inst i).phase = .stopped := by
  cases h <;> simp only [upd, set] at hp ⊢ <;> grind

/-- When Shutdown has returned, every process which there is (or is going to be) has been signalled, unless it was created by a resumption which took effect after the shutdown. -/
theorem all_signalled {w : World} (h : Steps {} w) (hd : Done w) (i : Nat) (hl : (w.inst i).phase.live = true) : (w.inst i).sig = true ∨ (w.inst i).lateResume = true :=
  ((good h).signalled i) ((good h).returned hd).1 ((((good h).returned hd).2 i).1) hl

/-- When Shutdown has returned and its context hasn't been canceled, nothing runs but what was started or resumed after the shutdown. -/
theorem all_stopped {w : World} (h : Steps {} w) (hd : Done w) (hc : w.canceled = false) (i : Nat) (ha : (w.inst i).phase.active = true) : (w.inst i).lateStart = true ∨ (w.inst i).lateResume = true :=
  ((good h).waited i) ((good h).returned hd).1 ((((good h).returned hd).2 i).2) hc ha

/-- A stopped instance's state is in the storage, or storing it has failed. -/
theorem all_stored {w : World} (h : Steps {} w) (i : Nat) (hs : (w.inst i).phase = .stopped) : (w.inst i).stored = true ∨ (w.inst i).failed = true := (good h).stored i hs

/-- All together, for an instance which the shutdown found running: it has been stopped, and unless it's transient it's in the storage. -/
theorem stopped_and_stored {w : World} (h : Steps {} w) (hd : Done w) (hc : w.canceled = false) (i : Nat)
    (hs : (w.inst i).lateStart = false) (hr : (w.inst i).lateResume = false) (hf : (w.inst i).failed = false) :
    (w.inst i).phase = .absent ∨ (w.inst i).phase = .registered ∨ (w.inst i).phase = .gone ∨ ((w.inst i).phase = .stopped ∧ (w.inst i).stored = true) := by
  have := all_stopped h hd hc i; have := all_stored h i
  cases hp : (w.inst i).phase <;> grind [Phase.active]

/-- Instances which aren't anybody's are never stored or resumed. -/
theorem anonymous_transient {w : World} (h : Steps {} w) (i : Nat) (ha : (w.inst i).acc = false) (hp : (w.inst i).phase ≠ .absent) :
    (w.inst i).transient = true ∧ (w.inst i).lateResume = false := ⟨(good h).anon i ha hp, ((good h).noResume i ha).2.1⟩

/-- An error means that the context was canceled. -/
theorem error_only {w : World} (h : Steps {} w) (he : w.returned = some true) : w.canceled = true := (good h).result he

/-- An instance seen running after the wait means that the context was canceled, or that there had been a resumption after the shutdown, or one whose start failed. -/
theorem aborted_only {w : World} (h : Steps {} w) (ha : w.aborted = true) : w.canceled = true ∨ ∃ i, (w.inst i).lateResume = true ∨ (w.inst i).stale = true := (good h).aborted ha

theorem Steps.trans {a b c : World} (h : Steps a b) (k : Steps b c) : Steps a c := by
  induction k with
  | refl => exact h
  | step _ s ih => exact .step ih s

/-- Nothing is signalled before everything's been closed, and nothing's waited for before everything has been signalled. -/
theorem order {w v : World} (h : Steps {} w) (s : Step w v) (i : Nat) (hw : v.watch i ≠ w.watch i ∨ v.toWait i = false ∧ w.toWait i = true) :
    w.isOpen = false ∧ ((v.watch i ≠ w.watch i) → ∀ j, w.toSignal j = false) := by
  have := good h
  have h1 := this.opened; have h2 := this.watched
  cases s <;> simp only [upd, set] at hw ⊢ <;> grind

/-- No request is starting or resuming anything. -/
def Idle (w : World) : Prop := ∀ i, w.resumers i = 0 ∧ (w.inst i).phase ≠ .registered ∧ (w.inst i).phase ≠ .resuming

theorem idle_step {w v : World} (hc : w.isOpen = false) (hi : Idle w) (hl : ∀ i, (w.inst i).lateStart = false ∧ (w.inst i).lateResume = false) (s : Step w v) :
    v.isOpen = false ∧ Idle v ∧ ∀ i, (v.inst i).lateStart = false ∧ (v.inst i).lateResume = false := by
  simp only [Idle] at *
  cases s <;> simp only [upd, set] <;> grind

/-- If no request is starting or resuming an instance at the moment of the shutdown, then what's claimed holds: when Shutdown has returned (and it hasn't been canceled), no instance runs, and those which were persistent are in the storage. -/
theorem idle_shutdown {w v x : World} (h : Steps {} w) (ho : w.isOpen = true) (hi : Idle w) (s : Step w v) (hs : v.isOpen = false) (k : Steps v x) (hd : Done x) (hc : x.canceled = false) (i : Nat) :
    (x.inst i).phase.live = false ∧ ((x.inst i).phase = .stopped → (x.inst i).stored = true ∨ (x.inst i).failed = true) := by
  have h0 : Idle v ∧ ∀ i, (v.inst i).lateStart = false ∧ (v.inst i).lateResume = false := by
    have g := (good h).opened ho
    cases s <;> simp_all [upd, Idle]
  have hv : v.isOpen = false ∧ Idle v ∧ ∀ i, (v.inst i).lateStart = false ∧ (v.inst i).lateResume = false := ⟨hs, h0⟩
  have hx : x.isOpen = false ∧ Idle x ∧ ∀ i, (x.inst i).lateStart = false ∧ (x.inst i).lateResume = false := by
    clear hd hc
    induction k with
    | refl => exact hv
    | step _ t ih => exact idle_step ih.1 ih.2.1 ih.2.2 t
  have hr : Steps {} x := (h.step s).trans k
  refine ⟨?_, all_stored hr i⟩
  have h1 := all_stopped hr hd hc i
  have h2 := hx.2.2 i; have h3 := hx.2.1 i
  cases hp : (x.inst i).phase <;> simp_all [Phase.live, Phase.active]

/-! Executions: helpers for writing them. -/

def w1 : World := upd {} 0 { phase := .registered, acc := true }
def w2 : World := upd w1 0 { phase := .running, acc := true }

theorem started : Steps {} w2 := by
  have s1 : Steps {} w1 := .step (.refl _) (.register {} 0 true false rfl rfl (by simp))
  exact .step s1 (.start w1 0 rfl)

/-- The shutdown of a server where instance 0 is running. -/
def w3 : World := { w2 with isOpen := false, toSignal := fun i => (w2.inst i).phase != .absent, toWait := fun i => (w2.inst i).phase != .absent }

theorem only0 (i : Nat) : ((w2.inst i).phase != .absent) = decide (i = 0) := by
  by_cases h : i = 0 <;> simp [w2, w1, upd, set, h]

/-- A running instance is suspended, stops and is stored before Shutdown returns nil. -/
theorem usual : ∃ w, Steps {} w ∧ w.returned = some false ∧ w.canceled = false ∧ (w.inst 0).phase = .stopped ∧ (w.inst 0).stored = true ∧ (w.inst 0).sig = true
    ∧ (w.inst 0).lateStart = false ∧ (w.inst 0).lateResume = false ∧ (w.inst 0).failed = false := by
  have s3 : Steps {} w3 := .step started (.close w2 rfl)
  have s4 := Steps.step s3 (.signal _ 0 rfl)
  have s5 := Steps.step s4 (.waitBegin _ 0 (by intro j; simp only [set, upd]; by_cases h : j = 0 <;> simp [h, w3, only0]) rfl rfl rfl)
  have s6 := Steps.step s5 (.stop _ 0 false rfl)
  have s7 := Steps.step s6 (.waitEnd _ 0 0 rfl rfl (.inr rfl))
  have s8 := Steps.step s7 (.ret _ rfl (by intro j; simp only [set, upd]; by_cases h : j = 0 <;> simp [h, w3, only0]) (by intro j; simp only [set, upd]; by_cases h : j = 0 <;> simp [h, w3, only0]) rfl)
  exact ⟨_, s8, rfl, rfl, rfl, rfl, rfl, rfl, rfl, rfl⟩

/-- A resumption which had found its instance before the shutdown makes it run after Shutdown has returned nil, and nobody signals it. -/
theorem resumed_refuted : ∃ w, Steps {} w ∧ w.returned = some false ∧ w.canceled = false ∧ (w.inst 0).phase = .running ∧ (w.inst 0).sig = false ∧ (∀ i, w.toSignal i = false)
    ∧ (w.inst 0).transient = false ∧ (w.inst 0).stored = false := by
  have a1 := Steps.step started (.stop _ 0 false rfl)
  have a2 := Steps.step a1 (.resume _ 0 rfl rfl rfl)
  have s3 := Steps.step a2 (.close _ rfl)
  have s4 := Steps.step s3 (.signal _ 0 rfl)
  have s5 := Steps.step s4 (.waitNot _ 0 (by intro j; by_cases h : j = 0 <;> simp [h, w2, w1, set, upd]) rfl rfl)
  have s6 := Steps.step s5 (.ret _ rfl (by intro j; by_cases h : j = 0 <;> simp [h, w2, w1, set, upd]) (by intro j; by_cases h : j = 0 <;> simp [h, w2, w1, set, upd]) rfl)
  have s7 := Steps.step s6 (.doResume _ 0 (by decide) rfl)
  have s8 := Steps.step s7 (.restart _ 0 rfl)
  exact ⟨_, s8, rfl, rfl, rfl, rfl, by intro j; by_cases h : j = 0 <;> simp [h, w2, w1, set, upd], rfl, rfl⟩

/-- Shutdown sees that an instance is running when it's been waited for, and returns nil all the same: what it returns then is the context's error. -/
theorem aborted_refuted : ∃ w, Steps {} w ∧ w.returned = some false ∧ w.aborted = true ∧ (w.inst 0).phase = .running := by
  have a1 := Steps.step started (.stop _ 0 false rfl)
  have a2 := Steps.step a1 (.resume _ 0 rfl rfl rfl)
  have a3 := Steps.step a2 (.resume _ 0 rfl rfl rfl)
  have s3 := Steps.step a3 (.close _ rfl)
  have s4 := Steps.step s3 (.signal _ 0 rfl)
  have b1 := Steps.step s4 (.doResume _ 0 (by decide) rfl)
  have b2 := Steps.step b1 (.restart _ 0 rfl)
  have b3 := Steps.step b2 (.waitBegin _ 0 (by intro j; by_cases h : j = 0 <;> simp [h, w2, w1, set, upd]) rfl rfl rfl)
  have b4 := Steps.step b3 (.stop _ 0 false rfl)
  have b5 := Steps.step b4 (.doResume _ 0 (by decide) rfl)
  have b6 := Steps.step b5 (.restart _ 0 rfl)
  have b7 := Steps.step b6 (.waitEnd _ 0 1 rfl rfl (.inl (by decide)))
  have b8 := Steps.step b7 (.ret _ rfl (by intro j; by_cases h : j = 0 <;> simp [h, w2, w1, set, upd]) (by intro j; by_cases h : j = 0 <;> simp [h, w2, w1, set, upd]) rfl)
  exact ⟨_, b8, rfl, rfl, rfl⟩

/-- An instance which was registered and not yet started isn't waited for: Shutdown returns nil, and then the instance starts (its process has been signalled). -/
theorem started_refuted : ∃ w, Steps {} w ∧ w.returned = some false ∧ w.canceled = false ∧ (w.inst 0).phase = .running ∧ (w.inst 0).sig = true := by
  have s1 : Steps {} w1 := .step (.refl _) (.register {} 0 true false rfl rfl (by simp))
  have s3 := Steps.step s1 (.close _ rfl)
  have s4 := Steps.step s3 (.signal _ 0 rfl)
  have s5 := Steps.step s4 (.waitNot _ 0 (by intro j; by_cases h : j = 0 <;> simp [h, w1, set, upd]) rfl rfl)
  have s6 := Steps.step s5 (.ret _ rfl (by intro j; by_cases h : j = 0 <;> simp [h, w1, set, upd]) (by intro j; by_cases h : j = 0 <;> simp [h, w1, set, upd]) rfl)
  have s7 := Steps.step s6 (.start _ 0 rfl)
  exact ⟨_, s7, rfl, rfl, rfl, rfl⟩

/-- When the context is canceled while an anonymous instance is waited for, Shutdown returns nil and the instance is still running. -/
theorem anonymous_refuted : ∃ w, Steps {} w ∧ w.returned = some false ∧ w.canceled = true ∧ (w.inst 0).acc = false ∧ (w.inst 0).phase = .running ∧ (w.inst 0).lateStart = false := by
  have s1 := Steps.step (.refl _) (.register {} 0 false true rfl rfl (by simp))
  have s2 := Steps.step s1 (.start _ 0 rfl)
  have s3 := Steps.step s2 (.close _ rfl)
  have s4 := Steps.step s3 (.signal _ 0 rfl)
  have s5 := Steps.step s4 (.waitBegin _ 0 (by intro j; by_cases h : j = 0 <;> simp [h, set, upd]) rfl rfl rfl)
  have s6 := Steps.step s5 (.cancel _)
  have s7 := Steps.step s6 (.waitCanceled _ 0 0 rfl rfl rfl)
  have s8 := Steps.step s7 (.ret _ rfl (by intro j; by_cases h : j = 0 <;> simp [h, set, upd]) (by intro j; by_cases h : j = 0 <;> simp [h, set, upd]) rfl)
  exact ⟨_, s8, rfl, rfl, rfl, rfl, rfl⟩

/-- With an account's instance the error tells. -/
theorem canceled_error : ∃ w, Steps {} w ∧ w.returned = some true ∧ (w.inst 0).phase = .running := by
  have s3 := Steps.step started (.close _ rfl)
  have s4 := Steps.step s3 (.signal _ 0 rfl)
  have s5 := Steps.step s4 (.waitBegin _ 0 (by intro j; by_cases h : j = 0 <;> simp [h, w2, w1, set, upd]) rfl rfl rfl)
  have s6 := Steps.step s5 (.cancel _)
  have s7 := Steps.step s6 (.waitCanceled _ 0 0 rfl rfl rfl)
  have s8 := Steps.step s7 (.ret _ rfl (by intro j; by_cases h : j = 0 <;> simp [h, w2, w1, set, upd]) (by intro j; by_cases h : j = 0 <;> simp [h, w2, w1, set, upd]) rfl)
  exact ⟨_, s8, rfl, rfl⟩

/-- A running instance and nothing else: the hypotheses of `idle_shutdown`. -/
example : Steps {} w2 ∧ w2.isOpen = true ∧ Idle w2 ∧ Step w2 w3 ∧ w3.isOpen = false :=
  ⟨started, rfl, by intro i; by_cases h : i = 0 <;> simp [h, w2, w1, set, upd], .close w2 rfl, rfl⟩

/-- So the property doesn't hold as such. -/
theorem shutdown_refuted : ¬ ∀ w, Steps {} w → w.returned = some false → ∀ i, (w.inst i).phase.active = false := by
  obtain ⟨w, h, hr, _, hp, _⟩ := resumed_refuted
  intro k
  have := k w h hr 0
  simp [hp, Phase.active] at this

end Gate.Shutdown
