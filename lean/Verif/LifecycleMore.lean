import Verif.LifecycleProps
/-
Properties C45 (waiters), C73, C74, C75, C76, C77.
-/
namespace Gate.Life
open Gate.Process

/-! ### C45: waiters -/

theorem waits_step (s : St) (h : Inv s) (hw : s.phase = .created ∨ s.phase = .unborn → s.waits = []) (l : Label) (s' : St) (r : Resp)
    (hs : step s l = some (s', r)) : s'.phase = .created ∨ s'.phase = .unborn → s'.waits = [] := by
  have hph := h.phase
  cases l with
  | start fail unst =>
    simp only [step] at hs
    split at hs
    · rename_i hp
      have hw := hw (.inl hp)
      have hst : ∀ fl, start s fl fail unst = (s', r) → s'.waits = s.waits := by
        intro fl hs
        unfold start St.close at hs
        split at hs
        · cases hs; rfl
        · split at hs
          · split at hs
            · cases hs; rfl
            · split at hs
              · cases hs; rfl
              · rename_i h; split at h
                · cases h
                · cases h; cases hs; rfl
          · split at hs
            · split at hs
              · cases hs; rfl
              · rename_i h; split at h
                · cases h
                · cases h; cases hs; rfl
            · cases hs; rfl
      simp only [Option.some.injEq] at hs
      intro _; rw [hst _ hs, hw]
    · rename_i hp
      have hi := (inv_start s h .lost (.inr ⟨hp, rfl⟩) fail unst).1
      simp only [Option.some.injEq] at hs
      unfold start at hs
      rw [hp] at hph; simp only at hph
      obtain ⟨_, hst, hnc, hpr, i, hi, hco, _⟩ := hph
      simp only [hi, hpr, St.close, hnc, hco, if_false, Bool.true_eq_false] at hs
      split at hs <;> cases hs <;> simp
    · cases hs
  | resume f =>
    simp only [step] at hs
    split at hs
    · cases hs; simp
    · cases hs; exact hw
  | finish rr m sf =>
    obtain ⟨i, _, _, _, _, _, e⟩ := finish_shape s h rr m sf s' r hs
    rw [e]; split <;> simp [doAnnihilate]
  | wait =>
    simp only [step] at hs
    split at hs
    · cases hs; exact hw
    · rename_i hn; cases hs
      rintro (hp | hp) <;> simp only at hp <;> rw [hp] at hph <;> simp only at hph
      · rw [hph.2.1] at hn; simp at hn
      · rw [hph.2] at hn; simp at hn
  | waited c cc =>
    simp only [step] at hs
    split at hs
    · rename_i hc; cases hs
      intro hp; have := hw hp; rw [this] at hc; simp at hc
    · cases hs
  | _ =>
    simp only [step] at hs
    repeat' split at hs
    all_goals first | (cases hs; done) | (cases hs; exact hw)

theorem reachable_waits (s : St) (h : Reachable s) : s.phase = .created ∨ s.phase = .unborn → s.waits = [] := by
  obtain ⟨t, su, md, e, ls, rs, hr⟩ := h
  have gen : ∀ (ls : List Label) (s0 : St), Inv s0 → (s0.phase = .created ∨ s0.phase = .unborn → s0.waits = []) → ∀ rs, run s0 ls = some (s, rs) →
      (s.phase = .created ∨ s.phase = .unborn → s.waits = []) := by
    intro ls
    induction ls with
    | nil => intro s0 _ hw rs h; cases h; exact hw
    | cons l ls ih =>
      intro s0 hi hw rs h
      obtain ⟨s1, r1, rs1, h1, h2, rfl⟩ := run_cons h
      exact ih s1 (inv_step _ hi _ _ _ h1) (waits_step _ hi hw _ _ _ h1) rs1 h2
  exact gen ls _ (inv_launch t su md e) (by simp [launch]) rs hr

/-- C45: a wait begins to block only while the instance is running, and it is on the instance's current run;
and (`released`) it is released exactly when that run is over: when the instance has been resumed since,
or it is not running, or (`lost`) the run could not be started. -/
theorem wait_blocks (s : St) (s' : St) (r : Resp) (hs : step s .wait = some (s', r)) :
    (s.status.state ≠ .running ∧ r = .status s.status ∧ s' = s) ∨ (s.status.state = .running ∧ s'.waits = s.stopped :: s.waits) := by
  simp only [step] at hs
  split at hs <;> cases hs
  · rename_i h; exact .inl ⟨h, rfl, rfl⟩
  · rename_i h; exact .inr ⟨by simpa using h, rfl⟩

theorem released (s : St) (h : Reachable s) (c : Nat) (hc : c ∈ s.waits) :
    (∃ s' r, step s (.waited c false) = some (s', r)) ↔ (c < s.stopped ∨ s.status.state ≠ .running ∨ s.phase = .lost) := by
  have hi := reachable_inv s h
  have hw := reachable_waits s h
  have hph := hi.phase
  have hle := hi.waits_le c hc
  have hiff : (∃ s' r, step s (.waited c false) = some (s', r)) ↔ c ∈ s.closed := by
    simp only [step]
    constructor
    · rintro ⟨s', r, h⟩; split at h
      · rename_i hh; rcases hh.2 with h | h; exact h; cases h
      · cases h
    · intro hcc; rw [if_pos ⟨hc, .inl hcc⟩]; exact ⟨_, _, rfl⟩
  rw [hiff]
  by_cases hlt : c < s.stopped
  · exact ⟨fun _ => .inl hlt, fun _ => hi.older c hlt⟩
  · have e : c = s.stopped := by omega
    subst e
    cases hp : s.phase <;> rw [hp] at hph <;> simp only at hph
    · rw [hw (.inl hp)] at hc; cases hc
    · simp [hph.2.1, hph.2.2.1]
    · simp [hph.2.1, hph.2.2.1]
    · refine ⟨fun _ => .inr (.inl ?_), fun _ => hph.1⟩
      intro hr; have := hph.2.1; rw [hr] at this; simp [Stopped] at this
    · rw [hw (.inr hp)] at hc; cases hc
    · simp [hph.2.2.2]

/-- C45, what a wait without cancellation reports: a status of a stopped instance, if the instance has not
been resumed since it stopped and the run could be started. -/
theorem waited_status_partial (s : St) (h : Reachable s) (c : Nat) (s' : St) (r : Resp)
    (hs : step s (.waited c false) = some (s', r)) (hc : c = s.stopped) (hl : s.phase ≠ .lost) :
    ∃ st, r = .status st ∧ st = s.status ∧ Stopped st.state := by
  have hm : c ∈ s.waits := by
    simp only [step] at hs; split at hs
    · rename_i h; exact h.1
    · cases hs
  have hr : r = .status s.status := by
    simp only [step] at hs; split at hs
    · cases hs; rfl
    · cases hs
  rcases (released s h c hm).mp ⟨s', r, hs⟩ with h1 | h1 | h1
  · omega
  · refine ⟨_, hr, rfl, ?_⟩
    have hph := (reachable_inv s h).phase
    cases hp : s.phase <;> rw [hp] at hph <;> simp only at hph
    · rw [reachable_waits s h (.inl hp)] at hm; cases hm
    · rw [hph.2.1] at h1; exact absurd rfl h1
    · rw [hph.2.1] at h1; exact absurd rfl h1
    · exact hph.2.1
    · rw [reachable_waits s h (.inr hp)] at hm; cases hm
    · exact absurd hp hl
  · exact absurd h1 hl

/-- A program without a snapshot. -/
def fresh : Meta := ⟨false, 0, 0⟩
/-- A process which was suspended, one which exited. -/
def suspendedProcess : Served := serve .ok (some (exitWait 102)) false
def exitedProcess (n : Nat) : Served := serve .ok (some (exitWait n)) false

/-- False of the code: a wait reports an instance which has stopped. The instance stops and is resumed
before the waiter has looked at the status. -/
theorem waited_running : ∃ ls s' rs, run (launch false false fresh 64) ls = some (s', rs) ∧
    rs.getLast? = some (.status ⟨.running, 0, 0⟩) ∧ ls.getLast? = some (.waited 0 false) :=
  ⟨[.start false false, .wait, .finish suspendedProcess .ran false, .resume "", .waited 0 false], _, _, rfl, rfl, rfl⟩

/-- A history with most of the operations. -/
example : (run (launch false false fresh 64)
    [.start false false, .wait, .snapshot, .finish suspendedProcess .ran false, .waited 0 false, .snapshot, .resume "", .start false false,
     .annihilate, .finish (exitedProcess 2) .ran false, .resume "", .info, .annihilate, .remove, .info]).map (·.2) =
    some [.ok, .ok, .refused, .ok, .status ⟨.suspended, 0, 0⟩, .ok, .ok, .ok, .refused, .ok, .refused, .status ⟨.terminated, 0, 0⟩, .ok, .ok, .notFound] := rfl

/-! ### C73: instance operations don't crash -/

/-- C73: exactly these operations crash, in any history: asking for information about an instance which could not be
started when it was resumed, and debugging an instance whose image is gone. -/
theorem crash_iff (s : St) (h : Reachable s) (l : Label) :
    (∃ s', step s l = some (s', .crash)) ↔
      (l = .info ∧ s.phase = .lost) ∨ (∃ g, l = .debug g ∧ s.image = none ∧ ¬ (g = false ∧ s.status.state = .running)) := by
  have hi := reachable_inv s h
  have hph := hi.phase
  cases l with
  | start fail unst =>
    constructor
    · rintro ⟨s', hs⟩
      simp only [step] at hs
      split at hs
      · rename_i hp; have := (inv_start s hi .unborn (.inl ⟨hp, rfl⟩) fail unst).2
        simp only [Option.some.injEq] at hs; rw [hs] at this; exact absurd rfl this
      · rename_i hp; have := (inv_start s hi .lost (.inr ⟨hp, rfl⟩) fail unst).2
        simp only [Option.some.injEq] at hs; rw [hs] at this; exact absurd rfl this
      · cases hs
    · simp
  | finish rr m sf =>
    constructor
    · rintro ⟨s', hs⟩
      obtain ⟨i, _, _, _, _, e, _⟩ := finish_shape s hi rr m sf s' _ hs
      cases e
    · simp
  | resume f =>
    constructor
    · rintro ⟨s', hs⟩
      simp only [step] at hs
      split at hs
      · cases hs
      · exfalso
        simp only [Option.some.injEq, Prod.mk.injEq] at hs
        have : ∀ f, resumeCheck s f ≠ .crash := by
          intro f; unfold resumeCheck; repeat' split
          all_goals simp
        exact this f hs.2
    · simp
  | info =>
    constructor
    · rintro ⟨s', hs⟩
      left
      refine ⟨rfl, ?_⟩
      simp only [step] at hs
      split at hs
      · cases hs
      · rename_i hpres
        split at hs
        · rename_i hn
          cases hp : s.phase <;> rw [hp] at hph <;> simp only at hph
          · obtain ⟨_, _, _, _, i, e, _⟩ := hph; rw [hn] at e; cases e
          · obtain ⟨_, _, _, _, i, e, _⟩ := hph; rw [hn] at e; cases e
          · obtain ⟨_, _, _, _, i, e, _⟩ := hph; rw [hn] at e; cases e
          · rw [hph.2.2.1, hn] at hpres; exact absurd rfl hpres
          · rw [hph.1] at hpres; exact absurd rfl hpres
        · cases hs
    · rintro (⟨_, hp⟩ | ⟨g, h, _⟩)
      · rw [hp] at hph; simp only at hph
        exact ⟨s, by simp [step, hph.1, hph.2.2.1]⟩
      · cases h
  | debug g =>
    constructor
    · rintro ⟨s', hs⟩
      right
      simp only [step] at hs
      split at hs
      · cases hs
      · rename_i hn
        split at hs
        · rename_i hi; exact ⟨g, rfl, hi, hn⟩
        · cases hs
    · rintro (⟨h, _⟩ | ⟨g', h, hi, hn⟩)
      · cases h
      · cases h
        refine ⟨s, ?_⟩
        simp only [step]
        rw [if_neg hn]
        simp [hi]
  | annihilate =>
    constructor
    · rintro ⟨s', hs⟩
      simp only [step] at hs
      split at hs
      · cases hs
      · rename_i hpres
        split at hs
        · cases hs
        · rename_i hnr
          split at hs
          · rename_i hn
            exfalso
            cases hp : s.phase <;> rw [hp] at hph <;> simp only at hph
            · obtain ⟨_, _, _, _, i, e, _⟩ := hph; rw [hn] at e; cases e
            · obtain ⟨_, _, _, _, i, e, _⟩ := hph; rw [hn] at e; cases e
            · obtain ⟨_, _, _, _, i, e, _⟩ := hph; rw [hn] at e; cases e
            · rw [hph.2.2.1, hn] at hpres; exact absurd rfl hpres
            · rw [hph.1] at hpres; exact absurd rfl hpres
            · exact absurd hph.2.1 hnr
          · cases hs
    · simp
  | snapshot =>
    constructor
    · rintro ⟨s', hs⟩
      simp only [step] at hs
      split at hs
      · cases hs
      · rename_i hpres
        split at hs
        · cases hs
        · rename_i hnr
          split at hs
          · rename_i hn
            exfalso
            cases hp : s.phase <;> rw [hp] at hph <;> simp only at hph
            · obtain ⟨_, _, _, _, i, e, _⟩ := hph; rw [hn] at e; cases e
            · obtain ⟨_, _, _, _, i, e, _⟩ := hph; rw [hn] at e; cases e
            · obtain ⟨_, _, _, _, i, e, _⟩ := hph; rw [hn] at e; cases e
            · rw [hph.2.2.1, hn] at hpres; exact absurd rfl hpres
            · rw [hph.1] at hpres; exact absurd rfl hpres
            · exact absurd hph.2.1 hnr
          · cases hs
    · simp
  | _ =>
    constructor
    · rintro ⟨s', hs⟩
      simp only [step] at hs
      repeat' split at hs
      all_goals cases hs
    · simp

/-- Both crashes happen: an instance is listed while a resumption of it has failed to start, or a client who is
about to debug an instance is overtaken by another who deletes it. -/
theorem info_crash : ∃ ls s' rs, run (launch false false fresh 64) ls = some (s', rs) ∧ rs.getLast? = some .crash ∧ ls.getLast? = some .info :=
  ⟨[.start false false, .finish suspendedProcess .ran false, .resume "", .start true false, .info], _, _, rfl, rfl, rfl⟩
theorem debug_crash (g : Bool) : ∃ ls s' rs, run (launch false false fresh 64) ls = some (s', rs) ∧ rs.getLast? = some .crash ∧ ls.getLast? = some (.debug g) := by
  refine ⟨[.start false false, .finish suspendedProcess .ran false, .annihilate, .debug g], ?_⟩
  cases g <;> exact ⟨_, _, rfl, rfl, rfl⟩

/-- C73 as far as it holds: if no resumption fails to start and nothing is debugged, nothing crashes. -/
theorem no_crash_partial (s : St) (h : Reachable s) (hp : s.phase ≠ .lost) (l : Label) (hl : ∀ g, l ≠ .debug g) (s' : St) (r : Resp)
    (hs : step s l = some (s', r)) : r ≠ .crash := by
  rintro rfl
  rcases (crash_iff s h l).mp ⟨s', hs⟩ with ⟨_, h⟩ | ⟨g, h, _⟩
  · exact hp h
  · exact hl g h

/-! ### C76: a failing resumption -/

/-- C76, refuted: for every suspended instance, if the process can't be started when the instance is
resumed, the instance is lost: its image is closed, and whatever is done, it remains unusable — it is
reported as running, and neither resumed, snapshotted nor deleted. -/
theorem resume_failure_loses (s : St) (h : Reachable s) (hp : s.present = true) (hs : s.status.state = .suspended) (u : Bool) :
    ∃ s', run s [.resume "", .start true u] = some (s', [.ok, .failed]) ∧
      ∀ ls s'' rs, run s' ls = some (s'', rs) → s''.image = none ∧ s''.status.state = .running ∧ s''.present = true ∧
        ∀ l, (l = .snapshot ∨ l = .annihilate ∨ ∃ f, l = .resume f) → step s'' l = some (s'', .refused) := by
  have hres : step s (.resume "") = some ({ s with status := ⟨.running, 0, 0⟩, process := true, stopped := s.stopped + 1, phase := .resumed }, .ok) := by
    simp [step, resumeCheck, hp, hs]
  obtain ⟨s1, e1⟩ : ∃ s1 : St, s1 = { s with status := ⟨.running, 0, 0⟩, process := true, stopped := s.stopped + 1, phase := .resumed } := ⟨_, rfl⟩
  rw [← e1] at hres
  have hr1 : Reachable s1 := reachable_step h hres
  have hph := (reachable_inv s1 hr1).phase
  have hp1 : s1.phase = .resumed := by rw [e1]
  rw [hp1] at hph; simp only at hph
  obtain ⟨hpr1, hst1, hnc1, hproc1, i, hi, _, _⟩ := hph
  have hst : ∃ s2, step s1 (.start true u) = some (s2, .failed) ∧ s2.phase = .lost := by
    simp only [step, hp1, start, hi, hproc1, St.close, hnc1]
    simp
  obtain ⟨s2, h2, hl2⟩ := hst
  have hr2 : Reachable s2 := reachable_step hr1 h2
  refine ⟨s2, by simp [run, hres, h2], ?_⟩
  intro ls s'' rs hr
  have hlost : ∀ (ls : List Label) (s2 : St), Reachable s2 → s2.phase = .lost → ∀ rs, run s2 ls = some (s'', rs) → Reachable s'' ∧ s''.phase = .lost := by
    intro ls
    induction ls with
    | nil => intro s2 hr2 hl rs h; cases h; exact ⟨hr2, hl⟩
    | cons l ls ih =>
      intro s2 hr2 hl rs h
      obtain ⟨s3, r3, rs3, h3, h4, rfl⟩ := run_cons h
      refine ih s3 (reachable_step hr2 h3) ?_ rs3 h4
      have hph := (reachable_inv s2 hr2).phase
      rw [hl] at hph; simp only at hph
      cases l with
      | start => simp [step, hl] at h3
      | finish => simp [step, hl] at h3
      | resume f =>
        simp only [step, resumeCheck, hph.1, hph.2.1] at h3
        simp at h3; rw [← h3.1]; exact hl
      | annihilate =>
        simp [step, hph.1, hph.2.1] at h3; rw [← h3.1]; exact hl
      | _ =>
        simp only [step] at h3
        repeat' split at h3
        all_goals first | (cases h3; done) | (cases h3; exact hl)
  obtain ⟨hr'', hl''⟩ := hlost ls s2 hr2 hl2 rs hr
  have hph := (reachable_inv s'' hr'').phase
  rw [hl''] at hph; simp only at hph
  refine ⟨hph.2.2.1, hph.2.1, hph.1, ?_⟩
  rintro l (rfl | rfl | ⟨f, rfl⟩) <;> simp [step, resumeCheck, hph.1, hph.2.1]

example : ∃ s rs, run (launch false true fresh 64) [.start false false] = some (s, rs) ∧ s.present = true ∧ s.status.state = .suspended :=
  ⟨_, _, rfl, rfl, rfl⟩

/-- C76 as far as it holds: a resumption which is refused, for any reason, changes nothing. -/
theorem refused_resume_partial (s : St) (f : String) (s' : St) (r : Resp) (hs : step s (.resume f) = some (s', r)) (hr : r ≠ .ok) : s' = s :=
  (resume_iff s f s' r hs).2 hr

/-! ### C77: the function with which a halted instance is resumed -/

/-- C77, refuted: the function's name makes no difference: after the resumption the instance is in the same state
whatever the name, so all that follows is the same. -/
theorem resume_function_ignored (s : St) (f g : String) (a b : St) (hf : step s (.resume f) = some (a, .ok)) (hg : step s (.resume g) = some (b, .ok)) : a = b := by
  simp only [step] at hf hg
  split at hf
  · split at hg
    · cases hf; cases hg; rfl
    · rename_i h; simp only [Option.some.injEq, Prod.mk.injEq] at hg; exact absurd hg.2 h
  · rename_i h; simp only [Option.some.injEq, Prod.mk.injEq] at hf; exact absurd hf.2 h

/-- C77, refuted: and the process is not told to enter any function, if the program was run before it halted. -/
theorem resumed_enters_nothing (s : St) (h : Reachable s) (rr : Served) (s1 : St) (r1 : Resp) (h1 : step s (.finish rr .ran false) = some (s1, r1))
    (hh : s1.status.state = .halted) (f : String) (hf : f ≠ "") :
    ∃ s2, run s1 [.resume f, .start false false] = some (s2, [.ok, .ok]) ∧ s2.entered = 0 :: s.entered ∧ s2.status.state = .running := by
  have hi := reachable_inv s h
  obtain ⟨i, him, hfin, hfile, hpres, hok, e⟩ := finish_shape s hi rr .ran false s1 r1 h1
  have hr1 := reachable_step h h1
  have ht : s.transient = false := by
    by_cases ht : s.transient = true
    · exfalso
      rw [e] at hh; simp only [ht, if_true, doAnnihilate] at hh
      unfold judge at hh
      split at hh
      · simp at hh
      · simp only [reduceCtorEq, if_false, if_true] at hh
        unfold outcome at hh
        split at hh
        · simp at hh
        · unfold trapStatus at hh
          repeat' split at hh
          all_goals simp at hh
    · simpa using ht
  simp only [ht, Bool.false_eq_true, if_false] at e
  have hp1 : s1.present = true := by rw [e]; exact hpres
  have hres : step s1 (.resume f) = some ({ s1 with status := ⟨.running, 0, 0⟩, process := true, stopped := s1.stopped + 1, phase := .resumed }, .ok) := by
    simp [step, resumeCheck, hp1, hh, hf]
  obtain ⟨s2, e2⟩ : ∃ s2 : St, s2 = { s1 with status := ⟨.running, 0, 0⟩, process := true, stopped := s1.stopped + 1, phase := .resumed } := ⟨_, rfl⟩
  rw [← e2] at hres
  have hph := (reachable_inv s2 (reachable_step hr1 hres)).phase
  have hp2 : s2.phase = .resumed := by rw [e2]
  rw [hp2] at hph; simp only at hph
  obtain ⟨hpr2, hst2, hnc2, hproc2, j, hj, hco, _⟩ := hph
  have hent : j.entry = 0 := by
    have hj' : s1.image = some j := by rw [e2] at hj; exact hj
    rw [e] at hj' hh
    simp only [Option.some.injEq] at hj' hh
    rw [← hj']
    simp only
    unfold judge at hh ⊢
    split
    · rename_i he; simp only [he, if_true] at hh; simp at hh
    · simp only [reduceCtorEq, if_false, Bool.false_eq_true]
      split <;> rfl
  have hee : s2.entered = s.entered := by rw [e2, e]
  have hfin : step s2 (.start false false) =
      some ({ s2 with image := some { j with coherent := false }, file := none, status := ⟨.running, 0, 0⟩,
                      present := true, phase := .driving, entered := 0 :: s.entered }, .ok) := by
    simp [step, start, hp2, hj, hproc2, hco, hent, hst2, hee]
  refine ⟨_, by simp only [run, hres, hfin]; rfl, rfl, rfl⟩

example : ∃ s rs, run (launch false false fresh 64) [.start false false, .finish (exitedProcess 0) .ran false, .resume "other", .start false false] = some (s, rs) ∧
    s.entered = [0, 64] := ⟨_, _, rfl, rfl⟩


/-! ### C74: the status tells how the program ended -/

/-- What `finish` makes of the status, if the instance's state is valid and can be stored. -/
theorem finish_status (s : St) (h : Reachable s) (rr : Served) (he : rr.err = none) (m : Mutation) (hm : m ≠ .invalid) (s' : St) (r : Resp)
    (hs : step s (.finish rr m false) = some (s', r)) : s'.status = outcome s.transient rr.trap rr.result := by
  obtain ⟨i, him, hfin, hfile, hpres, hok, e⟩ := finish_shape s (reachable_inv s h) rr m false s' r hs
  have hst : (judge s.transient i none rr m false).2.2 = outcome s.transient rr.trap rr.result := by
    unfold judge
    rw [if_neg (by simp [he]), if_neg hm]
    split
    · rfl
    · have hc : (i.check m).coherent = true := by cases m <;> simp_all [Image.check]
      simp [Image.store, hc]
  rw [e]
  split
  · simp only [doAnnihilate]; exact hst
  · exact hst

/-- C74: a program which exits by itself: 0 and 1 halt a persistent instance and terminate a transient one, 2 and 3
terminate; the result is the lowest bit. -/
theorem exit_status (s : St) (h : Reachable s) (n : Nat) (hn : n < 4) (m : Mutation) (hm : m ≠ .invalid) (s' : St) (r : Resp)
    (hs : step s (.finish (serve .ok (some (exitWait n)) false) m false) = some (s', r)) :
    s'.status = ⟨if s.transient = true ∨ 2 ≤ n then .terminated else .halted, 0, n % 2⟩ := by
  have e : serve .ok (some (exitWait n)) false = ⟨n, trapExit, none⟩ := by
    have : n = 0 ∨ n = 1 ∨ n = 2 ∨ n = 3 := by omega
    rcases this with rfl | rfl | rfl | rfl <;> rfl
  rw [e] at hs
  rw [finish_status s h _ rfl m hm s' r hs]
  have : n = 0 ∨ n = 1 ∨ n = 2 ∨ n = 3 := by omega
  rcases this with rfl | rfl | rfl | rfl <;> cases s.transient <;> rfl

theorem serve_trap (n : Nat) (h0 : 100 < n) (h1 : n ≤ 127) : serve .ok (some (exitWait n)) false = ⟨0, n - 100, none⟩ := by
  have e1 : exited (exitWait n) = true := by simp only [exited, exitWait, beq_iff_eq]; omega
  have e2 : exitStatus (exitWait n) = n := by simp only [exitStatus, exitWait]; omega
  simp only [serve, e1, e2, if_true, Bool.false_eq_true, false_and, if_false]
  rw [if_neg (by omega), if_pos (by omega)]

/-- C74: a trap suspends the instance if it is one which a resumption can get over, and kills it otherwise; the cause is the trap. -/
theorem trap_status (s : St) (h : Reachable s) (t : Nat) (h0 : 0 < t) (ht : t ≤ 27) (m : Mutation) (hm : m ≠ .invalid) (s' : St) (r : Resp)
    (hs : step s (.finish (serve .ok (some (exitWait (100 + t))) false) m false) = some (s', r)) :
    s'.status = ⟨if t = 2 ∨ t = 4 ∨ t = 10 ∨ t = 27 then .suspended else .killed, if t = 2 then 0 else t, 0⟩ := by
  have e : serve .ok (some (exitWait (100 + t))) false = ⟨0, t, none⟩ := by
    obtain ⟨n, hn⟩ : ∃ n, n = 100 + t := ⟨_, rfl⟩
    rw [← hn, serve_trap n (by omega) (by omega)]
    have : n - 100 = t := by omega
    rw [this]
  rw [e] at hs
  rw [finish_status s h _ rfl m hm s' r hs]
  simp only [outcome, trapStatus, trapExit, trapSuspended, trapCallStackExhausted, trapABIDeficiency, trapBreakpoint, trapKilled]
  rw [if_neg (by omega)]
  by_cases h2 : t = 2
  · simp [h2]
  · by_cases h4 : t = 4 ∨ t = 10 ∨ t = 27
    · have h5 : t = 4 ∨ t = 27 ∨ t = 10 := by omega
      simp [h2, h4, h5]
    · have h5 : ¬ (t = 4 ∨ t = 27 ∨ t = 10) := by omega
      have h6 : t ≠ 30 := by omega
      simp [h2, h4, h5, h6]

/-- C74: when a kill was requested, a program which exits or suspends, or is ended by the kill signal, is reported
as killed — even if its state is not valid any more. -/
theorem killed_status (s : St) (h : Reachable s) (w : Nat) (hw : w = exitWait 0 ∨ w = exitWait 1 ∨ w = exitWait 2 ∨ w = exitWait 3 ∨ w = exitWait 102 ∨ w = signalWait sigKill)
    (m : Mutation) (s' : St) (r : Resp) (hs : step s (.finish (serve .ok (some w) true) m false) = some (s', r)) :
    s'.status = ⟨.killed, 0, 0⟩ := by
  have e : ∃ n, serve .ok (some w) true = ⟨n, trapKilled, none⟩ := by
    rcases hw with rfl | rfl | rfl | rfl | rfl | rfl <;> exact ⟨_, rfl⟩
  obtain ⟨n, e⟩ := e
  rw [e] at hs
  by_cases hm : m = .invalid
  · obtain ⟨i, him, hfin, hfile, hpres, hok, e⟩ := finish_shape s (reachable_inv s h) _ m false s' r hs
    have hst : (judge s.transient i none ⟨n, trapKilled, none⟩ m false).2.2 = ⟨.killed, 0, 0⟩ := by
      rw [hm]; rfl
    rw [e]; split
    · exact hst
    · exact hst
  · rw [finish_status s h _ rfl m hm s' r hs]; rfl

/-- C74: a failure to serve, to get a valid state or to store it kills the instance, with the cause. -/
theorem failure_status (s : St) (h : Reachable s) (rr : Served) (m : Mutation) (sf : Bool) (s' : St) (r : Resp)
    (hf : rr.err ≠ none ∨ (m = .invalid ∧ rr.trap ≠ trapKilled) ∨ (m ≠ .invalid ∧ s.transient = false ∧ sf = true))
    (hs : step s (.finish rr m sf) = some (s', r)) :
    s'.status = ⟨.killed, if rr.err ≠ none ∧ rr.trap = trapABIViolation then trapABIViolation else trapInternalError, 0⟩ := by
  obtain ⟨i, him, hfin, hfile, hpres, hok, e⟩ := finish_shape s (reachable_inv s h) rr m sf s' r hs
  have hst : (judge s.transient i none rr m sf).2.2 = ⟨.killed, if rr.err ≠ none ∧ rr.trap = trapABIViolation then trapABIViolation else trapInternalError, 0⟩ := by
    unfold judge
    cases hrr : rr.err with
    | some x => simp
    | none =>
      rw [hrr] at hf
      simp only [Option.isSome_none, Bool.false_eq_true, if_false, ne_eq, not_true_eq_false, false_and]
      rcases hf with hf | ⟨h1, h2⟩ | ⟨h1, h2, h3⟩
      · exact absurd rfl hf
      · simp [h1, h2]
      · rw [if_neg h1, h2, h3]
        simp [Image.store]
  rw [e]; split
  · exact hst
  · exact hst

example : ∃ s rs, run (launch false false fresh 64) [.start false false] = some (s, rs) ∧ ∃ s' r, step s (.finish (serve .ok (some (exitWait 127)) false) .ran false) = some (s', r) ∧
    s'.status = ⟨.suspended, 27, 0⟩ := ⟨_, _, rfl, _, _, rfl, rfl⟩

/-- What the image records is the status, for a persistent instance whose program was run and which
did not fail internally: an instance made of this image, without starting it, has the same status. -/
theorem status_recorded_partial (s : St) (h : Reachable s) (ht : s.transient = false) (rr : Served) (he : rr.err = none) (s' : St) (r : Resp)
    (hs : step s (.finish rr .ran false) = some (s', r)) :
    ∃ i, s'.image = some i ∧ imageStatus i.md i.entry = s'.status := by
  have hst := finish_status s h rr he .ran (by simp) s' r hs
  obtain ⟨i, him, hfin, hfile, hpres, hok, e⟩ := finish_shape s (reachable_inv s h) rr .ran false s' r hs
  simp only [ht, Bool.false_eq_true, if_false] at e
  have hj : judge false i none rr .ran false = ({ i with coherent := true, entry := 0 }, some i.md, outcome false rr.trap rr.result) := by
    unfold judge
    rw [if_neg (by simp [he]), if_neg (by simp)]
    simp [Image.check, Image.store]
  rw [hst, ht, e, hj]
  refine ⟨_, rfl, ?_⟩
  simp only [outcome, imageStatus]
  by_cases h0 : rr.trap = trapExit
  · simp only [h0, if_true]
    by_cases hc : rr.result / 2 % 2 = 1
    · simp [hc]
    · simp [hc]
  · simp only [h0, if_false, trapStatus]
    by_cases h2 : rr.trap = trapSuspended
    · simp [h2]
    · by_cases h4 : rr.trap = trapCallStackExhausted ∨ rr.trap = trapABIDeficiency ∨ rr.trap = trapBreakpoint
      · simp [h2, h4, h0]
      · by_cases h5 : rr.trap = trapKilled
        · simp only [h5] at h2 h4 h0 ⊢; simp [h2, h4, h0]
        · simp [h2, h4, h5, h0]

/-- False of the code when storing fails: the status is killed by an internal error, and the image records a
termination or a halt with the program's own result dropped. -/
theorem status_misrecorded : ∃ ls s rs i, run (launch false false fresh 64) ls = some (s, rs) ∧ s.image = some i ∧
    s.status = ⟨.killed, trapInternalError, 0⟩ ∧ imageStatus i.md i.entry = ⟨.terminated, 0, 0⟩ :=
  ⟨[.start false false, .finish (exitedProcess 0) .ran true], _, _, _, rfl, rfl, rfl, rfl⟩

/-! ### C75: what is stored of an instance -/

theorem file_step (s : St) (h : Inv s) (hf : ∀ md, s.file = some md → md.final = false)
    (hc : s.phase = .created → ∀ i, s.image = some i → i.md.final = false) (l : Label) (s' : St) (r : Resp)
    (hs : step s l = some (s', r)) :
    (∀ md, s'.file = some md → md.final = false) ∧ (s'.phase = .created → ∀ i, s'.image = some i → i.md.final = false) := by
  have hph := h.phase
  cases l with
  | start fail unst =>
    simp only [step] at hs
    split at hs
    · rename_i hp
      have hfin := hc hp
      simp only [Option.some.injEq] at hs
      unfold start St.close at hs
      rw [hp] at hph; simp only at hph
      obtain ⟨hpres, hst, hnc, hfl, i, hi, hco, hfp⟩ := hph
      simp only [hi, hnc, if_false] at hs
      split at hs
      · split at hs
        · cases hs; exact ⟨hf, by simp⟩
        · rename_i f hstore
          cases hs
          refine ⟨?_, by simp⟩
          intro md hmd
          simp only [Option.some.injEq] at hmd
          unfold Image.store at hstore
          split at hstore
          · cases hstore; rw [← hmd]; exact hfin i hi
          · cases hstore
      · split at hs
        · cases hs
          refine ⟨?_, by simp⟩
          intro md hmd
          simp only at hmd; split at hmd
          · cases hmd
          · exact hf md hmd
        · cases hs; exact ⟨by simp, by simp⟩
    · rename_i hp
      simp only [Option.some.injEq] at hs
      unfold start St.close at hs
      rw [hp] at hph; simp only at hph
      obtain ⟨hpres, hst, hnc, hproc, i, hi, hco, hfp⟩ := hph
      simp only [hi, hnc, hproc, if_false, Bool.true_eq_false] at hs
      split at hs
      · cases hs
        refine ⟨?_, by simp⟩
        intro md hmd
        simp only at hmd; split at hmd
        · cases hmd
        · exact hf md hmd
      · cases hs; exact ⟨by simp, by simp⟩
    · cases hs
  | resume f =>
    simp only [step] at hs
    split at hs
    · cases hs; exact ⟨hf, by simp⟩
    · cases hs; exact ⟨hf, hc⟩
  | finish rr m sf =>
    obtain ⟨i, him, hfin, hfile, hpres, hok, e⟩ := finish_shape s h rr m sf s' r hs
    have hj : ∀ md, (judge s.transient i none rr m sf).2.1 = some md → md.final = false := by
      intro md hmd
      unfold judge at hmd
      split at hmd
      · cases hmd
      · split at hmd
        · cases hmd
        · split at hmd
          · cases hmd
          · split at hmd
            · cases hmd
            · rename_i f hstore
              simp only [Option.some.injEq] at hmd
              unfold Image.store at hstore
              split at hstore
              · cases hstore
                rw [← hmd]
                cases m <;> exact hfin
              · cases hstore
    rw [e]
    split
    · exact ⟨by simp [doAnnihilate], by simp [doAnnihilate]⟩
    · exact ⟨hj, by simp⟩
  | annihilate =>
    simp only [step] at hs
    repeat' split at hs
    all_goals cases hs
    all_goals first | exact ⟨hf, hc⟩ | exact ⟨by simp [doAnnihilate], by simp [doAnnihilate]⟩
  | _ =>
    simp only [step] at hs
    repeat' split at hs
    all_goals first | (cases hs; done) | (cases hs; exact ⟨hf, hc⟩)

/-- C75, refuted: in no history of an instance whose program is not a final snapshot is the stored image marked final: a
terminated or killed instance is stored as one which can be continued. -/
theorem stored_not_final (t su : Bool) (md : Meta) (hm : md.final = false) (e : Nat) (ls : List Label) (s : St) (rs : List Resp)
    (hr : run (launch t su md e) ls = some (s, rs)) (x : Meta) (hx : s.file = some x) : x.final = false := by
  have gen : ∀ (ls : List Label) (s0 : St), Inv s0 → (∀ md, s0.file = some md → md.final = false) →
      (s0.phase = .created → ∀ i, s0.image = some i → i.md.final = false) → ∀ rs, run s0 ls = some (s, rs) → (∀ md, s.file = some md → md.final = false) := by
    intro ls
    induction ls with
    | nil => intro s0 _ hf _ rs h; cases h; exact hf
    | cons l ls ih =>
      intro s0 hi hf hc rs h
      obtain ⟨s1, r1, rs1, h1, h2, rfl⟩ := run_cons h
      have := file_step s0 hi hf hc l s1 r1 h1
      exact ih s1 (inv_step _ hi _ _ _ h1) this.1 this.2 rs1 h2
  exact gen ls _ (inv_launch t su md e) (by simp [launch]) (by intro _ i hi; simp [launch] at hi; rw [← hi]; exact hm) rs hr x hx

theorem stored_terminated : ∃ ls s rs x, run (launch false false fresh 64) ls = some (s, rs) ∧ s.status = ⟨.terminated, 0, 1⟩ ∧ s.file = some x ∧ x = fresh :=
  ⟨[.start false false, .finish (exitedProcess 3) .ran false], _, _, _, rfl, rfl, rfl, rfl⟩

/-- C75 as far as it holds: a persistent instance which stops without an internal failure is stored, and an instance which is created
suspended is stored with its status. -/
theorem stored_partial (s : St) (h : Reachable s) (ht : s.transient = false) (rr : Served) (he : rr.err = none) (m : Mutation) (hm : m ≠ .invalid) (s' : St) (r : Resp)
    (hs : step s (.finish rr m false) = some (s', r)) : s'.file ≠ none := by
  obtain ⟨i, him, hfin, hfile, hpres, hok, e⟩ := finish_shape s (reachable_inv s h) rr m false s' r hs
  simp only [ht, Bool.false_eq_true, if_false] at e
  rw [e]
  have hc : (i.check m).coherent = true := by cases m <;> simp_all [Image.check]
  simp [judge, he, hm, Image.store, hc]

/-- While an instance runs it is not in the storage. -/
theorem running_not_stored (s : St) (h : Reachable s) (hp : s.phase = .driving) : s.file = none := by
  have hph := (reachable_inv s h).phase
  rw [hp] at hph; exact hph.2.2.2.1

/-! ### C78: snapshotting a running instance -/

/-- server.go:898-912 `Snapshot` of a running instance, from the point of view of the instance when no other client interferes: it
is suspended, the snapshot is taken, and it is resumed if it was suspended; the responses of `_snapshot` and of the resumption. -/
def snapshotRunning (s : St) (rr : Served) (m : Mutation) (storeFails startFails : Bool) : Option (St × Resp × Option Resp) :=
  match step s (.finish rr m storeFails) with
  | none => none
  | some (s1, _) =>
    match step s1 .snapshot with
    | none => none
    | some (s2, r) =>
      if s1.status.state = .suspended then
        match step s2 (.resume "") with
        | some (s3, .ok) =>
          match step s3 (.start startFails false) with
          | none => none
          | some (s4, r4) => some (s4, r, some r4)
        | some (s3, r3) => some (s3, r, some r3)
        | none => none
      else some (s2, r, none)

/-- C78 as far as it holds: a running persistent instance which can be suspended is snapshotted and goes on running. -/
theorem snapshot_running_partial (s : St) (h : Reachable s) (hp : s.phase = .driving) (ht : s.transient = false) (m : Mutation) (hm : m ≠ .invalid) :
    ∃ s', snapshotRunning s suspendedProcess m false false = some (s', .ok, some .ok) ∧ s'.status.state = .running ∧ s'.present = true ∧ s'.phase = .driving := by
  have hi := reachable_inv s h
  have hph := hi.phase
  rw [hp] at hph; simp only at hph
  obtain ⟨hpres, hst, hnc, hfile, i, him, hfin⟩ := hph
  have hf : ∃ s1, step s (.finish suspendedProcess m false) = some (s1, .ok) := by
    simp only [step, hp, him, if_true, cleanup, St.close, hnc, if_false]
    exact ⟨_, rfl⟩
  obtain ⟨s1, hs1⟩ := hf
  have hst1 : s1.status = ⟨.suspended, 0, 0⟩ := finish_status s h suspendedProcess rfl m hm s1 .ok hs1
  obtain ⟨j, hj, _, _, _, _, e⟩ := finish_shape s hi suspendedProcess m false s1 .ok hs1
  simp only [ht, Bool.false_eq_true, if_false] at e
  have hp1 : s1.present = true := by rw [e]; exact hpres
  obtain ⟨i1, hi1⟩ : ∃ i1, s1.image = some i1 := by rw [e]; exact ⟨_, rfl⟩
  have hsnap : step s1 .snapshot = some (s1, .ok) := by simp [step, hp1, hst1, hi1]
  have hres : step s1 (.resume "") = some ({ s1 with status := ⟨.running, 0, 0⟩, process := true, stopped := s1.stopped + 1, phase := .resumed }, .ok) := by
    simp [step, resumeCheck, hp1, hst1]
  obtain ⟨s2, e2⟩ : ∃ s2 : St, s2 = { s1 with status := ⟨.running, 0, 0⟩, process := true, stopped := s1.stopped + 1, phase := .resumed } := ⟨_, rfl⟩
  rw [← e2] at hres
  have hph := (reachable_inv s2 (reachable_step (reachable_step h hs1) hres)).phase
  have hp2 : s2.phase = .resumed := by rw [e2]
  rw [hp2] at hph; simp only at hph
  obtain ⟨hpr2, hst2, hnc2, hproc2, k, hk, hco, _⟩ := hph
  have hstart : ∃ s3, step s2 (.start false false) = some (s3, .ok) ∧ s3.status.state = .running ∧ s3.present = true ∧ s3.phase = .driving := by
    simp [step, start, hp2, hk, hproc2, hco]
  obtain ⟨s3, hs3, a, b, c⟩ := hstart
  refine ⟨s3, ?_, a, b, c⟩
  simp only [snapshotRunning, hs1, hsnap, hst1, hres, hs3, if_true]

/-- C78, refuted: for every transient running instance, however its process ends, no snapshot is made and the instance is gone. -/
theorem snapshot_transient_destroys (s : St) (h : Reachable s) (ht : s.transient = true) (rr : Served) (m : Mutation) (sf f : Bool) (s' : St) (r : Resp) (r' : Option Resp)
    (hs : snapshotRunning s rr m sf f = some (s', r, r')) : r = .notFound ∧ s'.present = false ∧ s'.image = none := by
  unfold snapshotRunning at hs
  split at hs
  · cases hs
  · rename_i s1 r1 h1
    obtain ⟨hp, hi, _⟩ := transient_disappears s h ht rr m sf s1 r1 h1
    have h2 : step s1 .snapshot = some (s1, .notFound) := by simp [step, hp]
    have h3 : step s1 (.resume "") = some (s1, .notFound) := by simp [step, resumeCheck, hp]
    simp only [h2] at hs
    split at hs
    · simp only [h3] at hs; cases hs; exact ⟨rfl, hp, hi⟩
    · cases hs; exact ⟨rfl, hp, hi⟩

example : ∃ s rs x, run (launch true false fresh 64) [.start false false] = some (s, rs) ∧
    snapshotRunning s suspendedProcess .ran false false = some x := ⟨_, _, _, rfl, rfl⟩


/-! ### C80: transience -/

/-- C80: an instance's transience changes only from transient to persistent, and exactly when it is running and a suspension is requested, or
it exists and an update asks for persistence. -/
theorem transience (s : St) (l : Label) (s' : St) (r : Resp) (hs : step s l = some (s', r)) :
    s'.transient = (s.transient && !decide ((l = .suspendRequest ∧ s.status.state = .running) ∨ (l = .update true ∧ s.present = true))) := by
  cases l with
  | start fail unst =>
    have hst : ∀ fl, start s fl fail unst = (s', r) → s'.transient = s.transient := by
      intro fl hs
      unfold start St.close at hs
      split at hs
      · cases hs; rfl
      · split at hs
        · split at hs
          · cases hs; rfl
          · split at hs
            · cases hs; rfl
            · rename_i h; split at h
              · cases h
              · cases h; cases hs; rfl
        · split at hs
          · split at hs
            · cases hs; rfl
            · rename_i h; split at h
              · cases h
              · cases h; cases hs; rfl
          · cases hs; rfl
    simp only [step] at hs
    split at hs
    · simp only [Option.some.injEq] at hs; simp [hst _ hs]
    · simp only [Option.some.injEq] at hs; simp [hst _ hs]
    · cases hs
  | finish rr m sf =>
    simp only [step] at hs
    split at hs
    · split at hs
      · cases hs; simp
      · split at hs
        · cases hs; simp
        · rename_i h
          cases hs
          simp only [cleanup, St.close] at h
          split at h
          · cases h
          · rename_i h2; split at h2
            · cases h2
            · cases h2; cases h
              split <;> simp [doAnnihilate]
    · cases hs
  | resume f =>
    simp only [step] at hs
    split at hs
    · cases hs; simp
    · cases hs; simp
  | suspendRequest =>
    simp only [step] at hs; cases hs
    cases s.transient <;> cases s.status.state <;> rfl
  | update p =>
    simp only [step] at hs
    split at hs <;> cases hs
    · rename_i h; simp [h]
    · rename_i h; cases p <;> simp_all
  | _ =>
    simp only [step] at hs
    repeat' split at hs
    all_goals first | (cases hs; done) | (cases hs; simp [doAnnihilate])

/-- C80: a persistent instance still exists after it stops. -/
theorem persistent_remains (s : St) (h : Reachable s) (ht : s.transient = false) (rr : Served) (m : Mutation) (sf : Bool) (s' : St) (r : Resp)
    (hs : step s (.finish rr m sf) = some (s', r)) : s'.present = true ∧ s'.image ≠ none := by
  obtain ⟨i, _, _, _, hp, _, e⟩ := finish_shape s (reachable_inv s h) rr m sf s' r hs
  rw [e]; simp [ht, hp]

example : ∃ s rs, run (launch true false fresh 64) [.start false false, .suspendRequest, .finish suspendedProcess .ran false] = some (s, rs) ∧ s.present = true :=
  ⟨_, _, rfl, rfl⟩

/-! ### C81: the program of a stored instance -/

/-- An instance and whether its program is in the storage (server/program.go:181-191 `_ensureStorage`; it is never removed from there). -/
structure Pair where
  s : St
  programStored : Bool

/-- server.go:1257-1262: the program is stored when the instance is registered, unless it is transient and the module is not pinned. -/
def launchPair (pin transient suspend : Bool) (md : Meta) (entry : Nat) : Pair :=
  ⟨launch transient suspend md entry, pin || !transient⟩

/-- server.go:820-838 `SuspendInstance` stores the program before it makes the instance persistent; 950-972 `UpdateInstance` does not. -/
def stepPair (p : Pair) (l : Label) : Option (Pair × Resp) :=
  match step p.s l with
  | none => none
  | some (s', r) => some (⟨s', p.programStored || decide (l = .suspendRequest)⟩, r)

def runPair (p : Pair) : List Label → Option Pair
  | [] => some p
  | l :: ls => match stepPair p l with
    | none => none
    | some (p', _) => runPair p' ls

/-- C81, refuted: an update which asks for persistence. -/
theorem stored_without_program : ∃ ls p, runPair (launchPair false true false fresh 64) ls = some p ∧ p.s.file ≠ none ∧ p.s.present = true ∧ p.programStored = false :=
  ⟨[.start false false, .update true, .finish suspendedProcess .ran false], _, rfl, by simp [judge, suspendedProcess, serve, exited, exitWait, exitStatus, Image.check, Image.store], rfl, rfl⟩

theorem stored_step (p : Pair) (h : Inv p.s) (hst : p.s.transient = false ∨ p.s.file ≠ none → p.programStored = true)
    (hcr : p.s.phase = .created → p.s.process = false → p.programStored = true) (l : Label) (hl : l ≠ .update true) (p' : Pair) (r : Resp) (hs : stepPair p l = some (p', r)) :
    (p'.s.transient = false ∨ p'.s.file ≠ none → p'.programStored = true) ∧ (p'.s.phase = .created → p'.s.process = false → p'.programStored = true) := by
  unfold stepPair at hs
  split at hs
  · cases hs
  · rename_i s' r' hstep
    cases hs
    simp only [Bool.or_eq_true, decide_eq_true_eq]
    by_cases hps : p.programStored = true
    · exact ⟨fun _ => .inl hps, fun _ _ => .inl hps⟩
    · have ht : p.s.transient = true := by
        cases e : p.s.transient
        · exact absurd (hst (.inl e)) hps
        · rfl
      have hf : p.s.file = none := by
        cases e : p.s.file
        · rfl
        · exact absurd (hst (.inr (by simp [e]))) hps
      have htr := transience p.s l s' r hstep
      by_cases hsr : l = .suspendRequest
      · exact ⟨fun _ => .inr hsr, fun _ _ => .inr hsr⟩
      · have ht' : s'.transient = true := by
          rw [htr, ht]
          simp [hsr, hl]
        have hph := h.phase
        have hgoal : s'.file = none ∧ (s'.phase = .created → s'.process = true) := by
          have hcrp : p.s.phase = .created → p.s.process = true := by
            intro hp
            cases e : p.s.process
            · exact absurd (hcr hp e) hps
            · rfl
          cases l with
          | start fail unst =>
            simp only [step] at hstep
            split at hstep
            · rename_i hp
              have hpr := hcrp hp
              rw [hp] at hph; simp only at hph
              obtain ⟨_, _, hnc, _, i, hi, hco, _⟩ := hph
              simp only [start, hi, hpr, St.close, hnc, if_false, Bool.true_eq_false, Option.some.injEq] at hstep
              split at hstep <;> cases hstep <;> simp [hf]
            · rename_i hp
              rw [hp] at hph; simp only at hph
              obtain ⟨_, _, hnc, hpr, i, hi, hco, _⟩ := hph
              simp only [start, hi, hpr, St.close, hnc, if_false, Bool.true_eq_false, Option.some.injEq] at hstep
              split at hstep <;> cases hstep <;> simp [hf]
            · cases hstep
          | finish rr m sf =>
            obtain ⟨i, _, _, _, _, _, e⟩ := finish_shape p.s h rr m sf s' r hstep
            rw [e, if_pos ht]; simp [doAnnihilate]
          | resume f =>
            simp only [step] at hstep
            split at hstep
            · cases hstep; simp [hf]
            · cases hstep; exact ⟨hf, hcrp⟩
          | annihilate =>
            simp only [step] at hstep
            repeat' split at hstep
            all_goals cases hstep
            all_goals first | exact ⟨hf, hcrp⟩ | (simp only [doAnnihilate]; exact ⟨trivial, hcrp⟩)
          | _ =>
            simp only [step] at hstep
            repeat' split at hstep
            all_goals first | (cases hstep; done) | (cases hstep; exact ⟨hf, hcrp⟩)
        refine ⟨?_, ?_⟩
        · rintro (h | h)
          · rw [ht'] at h; cases h
          · exact absurd hgoal.1 h
        · intro hp hq
          have := hgoal.2 hp
          rw [this] at hq; cases hq

/-- C81 as far as it holds: if no update asks for persistence, and the instance wasn't launched as both transient and not started without the module being pinned, a
stored instance's program is stored. -/
theorem stored_with_program_partial (pin transient suspend : Bool) (md : Meta) (entry : Nat)
    (hl : pin = true ∨ transient = false ∨ (suspend = false ∧ md.final = false)) (ls : List Label) (hu : .update true ∉ ls) (p : Pair)
    (hr : runPair (launchPair pin transient suspend md entry) ls = some p) : p.s.file ≠ none → p.programStored = true := by
  have gen : ∀ (ls : List Label), .update true ∉ ls → ∀ p0 : Pair, Inv p0.s → (p0.s.transient = false ∨ p0.s.file ≠ none → p0.programStored = true) →
      (p0.s.phase = .created → p0.s.process = false → p0.programStored = true) → runPair p0 ls = some p → (p.s.file ≠ none → p.programStored = true) := by
    intro ls
    induction ls with
    | nil => intro _ p0 _ h1 _ hr; cases hr; exact fun h => h1 (.inr h)
    | cons l ls ih =>
      intro hu p0 hi h1 h2 hr
      simp only [List.mem_cons, not_or] at hu
      simp only [runPair] at hr
      split at hr
      · cases hr
      · rename_i p1 r1 hs
        have hinv : Inv p1.s := by
          have hs' := hs
          unfold stepPair at hs'
          split at hs'
          · cases hs'
          · rename_i s' r' hstep
            cases hs'
            exact inv_step _ hi _ _ _ hstep
        obtain ⟨a, b⟩ := stored_step p0 hi h1 h2 l (fun e => hu.1 e.symm) p1 r1 hs
        exact ih hu.2 p1 hinv a b hr
  refine gen ls hu _ (inv_launch _ _ _ _) ?_ ?_ hr
  · simp only [launchPair, launch]; rintro (h | h)
    · simp [h]
    · exact absurd rfl h
  · simp only [launchPair, launch]; intro _ h
    rcases hl with hl | hl | ⟨h1, h2⟩
    · simp [hl]
    · simp [hl]
    · simp [h1, h2] at h

end Gate.Life
