import Verif.CallRun

namespace Gate.CallRun

structure Ok (pinned : Bool) (w : World) : Prop where
  ended : w.pc = .done → w.run ≠ 0 ∨ w.st ≠ .running ∨ w.killed 0 = true
  killed : ∀ k, w.killed k = true → k ≤ w.run ∧ w.pc = .done
  once : ∀ k j, w.killed k = true → w.killed j = true → k = j
  suspended : ∀ k, w.suspended k = true → k ≤ w.run ∧ w.byte = true ∧ w.go = .done
  suspendedOnce : ∀ k j, w.suspended k = true → w.suspended j = true → k = j
  watching : ∀ k, w.pc = .watching k → k ≤ w.run
  answer : ∀ k b, w.answer = some (k, b) → k ≤ w.run ∧ (b = true → w.canceled = true ∨ 0 < k)
  answered : w.answer ≠ none ↔ w.pc = .kill ∨ w.pc = .done
  kept : w.transient = false → w.other = true ∨ w.byte = true
  stopped : w.st = .stopped → w.transient = false
  resumed : 0 < w.run → w.transient = false
  acting : w.go = .acting → w.byte = true
  program : pinned = true → w.progStored = true
  unsuspended : w.transient = false → w.progStored = false → w.persisted = true ∨ ∃ k, w.suspended k = true

set_option maxHeartbeats 4000000 in
theorem ok_step {p : Bool} {w v : World} (g : Ok p w) (h : Step w v) : Ok p v := by
  have := g.ended; have := g.killed; have := g.once; have := g.suspended; have := g.suspendedOnce; have := g.watching; have := g.answer
  have := g.answered; have := g.kept; have := g.stopped; have := g.resumed; have := g.acting; have := g.program; have := g.unsuspended
  cases h <;> constructor <;> (try simp only [set]) <;> first | exact fun _ _ => .inr ⟨w.run, by simp⟩ | grind

theorem ok {p : Bool} {w : World} (h : Steps p w) : Ok p w := by
  induction h with
  | init => constructor <;> simp
  | step _ s ih => exact ok_step ih s

/-- When a call has ended, what it started doesn't run on: the run has ended, or the process has been killed. -/
theorem own_ended {p : Bool} {w : World} (h : Steps p w) (hd : w.pc = .done) : w.run ≠ 0 ∨ w.st ≠ .running ∨ w.killed 0 = true := (ok h).ended hd

/-- A call kills once, at its end, the process which there is. -/
theorem killed_once {p : Bool} {w : World} (h : Steps p w) (k j : Nat) (hk : w.killed k = true) : w.pc = .done ∧ k ≤ w.run ∧ (w.killed j = true → k = j) :=
  ⟨((ok h).killed k hk).2, ((ok h).killed k hk).1, fun hj => (ok h).once k j hk hj⟩

/-- It suspends only if it has been asked to (not because the other end of the file was closed), and once. -/
theorem suspended_asked {p : Bool} {w : World} (h : Steps p w) (k j : Nat) (hk : w.suspended k = true) : w.byte = true ∧ k ≤ w.run ∧ (w.suspended j = true → k = j) :=
  ⟨((ok h).suspended k hk).2.1, ((ok h).suspended k hk).1, fun hj => (ok h).suspendedOnce k j hk hj⟩

/-- If nobody else has resumed the instance, it's the call's own run which is killed and suspended, and whose status is answered. -/
theorem own_only {p : Bool} {w : World} (h : Steps p w) (hr : w.run = 0) (k : Nat) : (w.killed k = true → k = 0) ∧ (w.suspended k = true → k = 0) ∧ ∀ b, w.answer = some (k, b) → k = 0 ∧ (b = true → w.canceled = true) := by
  have g := ok h
  refine ⟨fun hk => ?_, fun hk => ?_, fun b hb => ?_⟩
  · have := (g.killed k hk).1; omega
  · have := (g.suspended k hk).1; omega
  · have := g.answer k b hb
    have hk : k = 0 := by omega
    exact ⟨hk, fun hbt => (this.2 hbt).elim id (fun h => absurd h (by omega))⟩

/-- Nobody can resume it unless the call or someone else has asked for its suspension or persistence: so without that, a call is on its own, and it leaves nothing behind. -/
theorem alone {p : Bool} {w : World} (h : Steps p w) (hb : w.byte = false) (ho : w.other = false) : w.run = 0 ∧ w.st ≠ .stopped ∧ w.transient = true ∧ ∀ k, w.suspended k = false := by
  have g := ok h
  have ht : w.transient = true := by have := g.kept; grind
  refine ⟨by have := g.resumed; grind, by have := g.stopped; grind, ht, fun k => ?_⟩
  have := g.suspended k; grind

/-- A pinned module's program is stored whenever its instance is kept. -/
theorem pinned_stored {w : World} (h : Steps true w) : w.progStored = true := (ok h).program rfl

/-- Whatever the module: the program is stored with a kept instance if another client has asked for the suspension. -/
theorem kept_stored {p : Bool} {w : World} (h : Steps p w) (hs : w.st = .stopped) : w.progStored = true ∨ w.persisted = true ∨ ∃ k, w.suspended k = true := by
  have g := ok h
  have := g.unsuspended (g.stopped hs)
  cases hp : w.progStored with
  | true => exact .inl rfl
  | false => exact .inr (this hp)

/-- But not if the call's own suspension file was used: inst.Suspend doesn't store the program, as SuspendInstance does.  The instance is stored without its program. -/
theorem unstored_refuted : ∃ w, Steps false w ∧ w.st = .stopped ∧ w.progStored = false ∧ w.other = false ∧ w.pc = .done ∧ w.suspended 0 = true := by
  have s1 := Steps.step (.init (pinned := false)) (.send _ rfl rfl)
  have s2 := Steps.step s1 (.readByte _ rfl rfl)
  have s3 := Steps.step s2 (.suspend _ rfl)
  have s4 := Steps.step s3 (.stop _ rfl)
  have s5 := Steps.step s4 (.connected _ rfl)
  have s6 := Steps.step s5 (.lookStopped _ rfl (by simp))
  have s7 := Steps.step s6 (.kill _ rfl)
  exact ⟨_, s7, rfl, rfl, rfl, rfl, rfl⟩

/-- And when the instance has been suspended and somebody else has resumed it, the call kills what isn't its own. -/
theorem kill_refuted : ∃ w, Steps true w ∧ w.pc = .done ∧ w.answer = some (0, false) ∧ w.st = .running ∧ w.run = 1 ∧ w.killed 1 = true ∧ w.byte = false := by
  have s1 := Steps.step (.init (pinned := true)) (.otherSuspend _ (by simp))
  have s2 := Steps.step s1 (.connected _ rfl)
  have s3 := Steps.step s2 (.look _ rfl rfl)
  have s4 := Steps.step s3 (.stop _ rfl)
  have s5 := Steps.step s4 (.woken _ 0 rfl (.inr (.inl (by simp))))
  have s6 := Steps.step s5 (.resume _ rfl)
  have s7 := Steps.step s6 (.kill _ rfl)
  exact ⟨_, s7, rfl, rfl, rfl, rfl, rfl, rfl⟩

/-- And suspends it: the byte is sent when the instance is running, and by then it has been suspended by another client and resumed. -/
theorem suspend_refuted : ∃ w, Steps true w ∧ w.st = .running ∧ w.run = 1 ∧ w.suspended 1 = true ∧ w.suspended 0 = false := by
  have s1 := Steps.step (.init (pinned := true)) (.send _ rfl rfl)
  have s2 := Steps.step s1 (.readByte _ rfl rfl)
  have s3 := Steps.step s2 (.otherSuspend _ (by simp))
  have s4 := Steps.step s3 (.stop _ rfl)
  have s5 := Steps.step s4 (.resume _ rfl)
  have s6 := Steps.step s5 (.suspend _ rfl)
  exact ⟨_, s6, rfl, rfl, rfl, rfl⟩

/-- And answers with the status of another's run: it has waited for that. -/
theorem answer_refuted : ∃ w, Steps true w ∧ w.answer = some (1, false) ∧ w.canceled = false := by
  have s1 := Steps.step (.init (pinned := true)) (.otherSuspend _ (by simp))
  have s2 := Steps.step s1 (.stop _ rfl)
  have s3 := Steps.step s2 (.resume _ rfl)
  have s4 := Steps.step s3 (.connected _ rfl)
  have s5 := Steps.step s4 (.look _ rfl rfl)
  have s6 := Steps.step s5 (.stop _ rfl)
  have s7 := Steps.step s6 (.woken _ 1 rfl (.inr (.inl (by simp))))
  exact ⟨_, s7, rfl, rfl⟩

/-- The usual: the program runs to its end, and there's nothing left. -/
theorem usual : ∃ w, Steps false w ∧ w.byte = false ∧ w.other = false ∧ w.pc = .done ∧ w.st = .gone ∧ w.answer = some (0, false) := by
  have s2 := Steps.step (.init (pinned := false)) (.connected _ rfl)
  have s3 := Steps.step s2 (.look _ rfl rfl)
  have s4 := Steps.step s3 (.stop _ rfl)
  have s5 := Steps.step s4 (.woken _ 0 rfl (.inr (.inl (by simp))))
  have s7 := Steps.step s5 (.kill _ rfl)
  exact ⟨_, s7, rfl, rfl, rfl, rfl, rfl⟩

/-- A web client goes away: the program is killed. -/
theorem canceled : ∃ w, Steps false w ∧ w.pc = .done ∧ w.st = .running ∧ w.answer = some (0, true) ∧ w.killed 0 = true := by
  have s2 := Steps.step (.init (pinned := false)) (.connected _ rfl)
  have s3 := Steps.step s2 (.look _ rfl rfl)
  have s4 := Steps.step s3 (.cancel _)
  have s5 := Steps.step s4 (.woken _ 0 rfl (.inr (.inr rfl)))
  have s7 := Steps.step s5 (.kill _ rfl)
  exact ⟨_, s7, rfl, rfl, rfl, rfl⟩

/-- The client goes away without having asked for suspension: nothing is suspended, and the goroutine ends. -/
theorem closed : ∃ w, Steps false w ∧ w.go = .done ∧ w.suspended 0 = false ∧ w.transient = true := by
  have s2 := Steps.step (.init (pinned := false)) (.close _)
  have s3 := Steps.step s2 (.readEnd _ rfl rfl rfl)
  exact ⟨_, s3, rfl, rfl, rfl⟩

end Gate.CallRun
