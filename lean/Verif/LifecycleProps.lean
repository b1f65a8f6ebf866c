import Verif.Lifecycle
/-
Properties C45, C73, C74, C75.
-/
namespace Gate.Life
open Gate.Process

/-- The documented states in which an instance is not running and has been. -/
def Stopped (x : State) : Prop := x = .suspended ∨ x = .halted ∨ x = .terminated ∨ x = .killed

/-- What holds between critical sections. -/
structure Inv (s : St) : Prop where
  closed_le : ∀ c ∈ s.closed, c ≤ s.stopped
  waits_le : ∀ c ∈ s.waits, c ≤ s.stopped
  older : ∀ c, c < s.stopped → c ∈ s.closed
  listed : s.registered = true → s.present = false → s.phase = .created ∨ 0 < s.removals
  phase : match s.phase with
    | .created => s.present = false ∧ s.status = ⟨.nonexistent, 0, 0⟩ ∧ s.stopped ∉ s.closed ∧ s.file = none ∧
        ∃ i, s.image = some i ∧ i.coherent = true ∧ (s.process = true → i.md.final = false)
    | .resumed => s.present = true ∧ s.status = ⟨.running, 0, 0⟩ ∧ s.stopped ∉ s.closed ∧ s.process = true ∧
        ∃ i, s.image = some i ∧ i.coherent = true ∧ i.md.final = false
    | .driving => s.present = true ∧ s.status = ⟨.running, 0, 0⟩ ∧ s.stopped ∉ s.closed ∧ s.file = none ∧
        ∃ i, s.image = some i ∧ i.md.final = false
    | .quiet => s.stopped ∈ s.closed ∧ Stopped s.status.state ∧ (s.present = s.image.isSome) ∧
        ∀ i, s.image = some i → s.status.state = .suspended ∨ s.status.state = .halted → i.coherent = true ∧ i.md.final = false
    | .unborn => s.present = false ∧ s.status.state = .nonexistent
    | .lost => s.present = true ∧ s.status.state = .running ∧ s.image = none ∧ s.stopped ∈ s.closed

theorem inv_launch (t su : Bool) (md : Meta) (e : Nat) : Inv (launch t su md e) := by
  constructor
  · simp [launch]
  · simp [launch]
  · simp [launch]
  · simp [launch]
  · simp [launch]

theorem trapStatus_stopped (id : Nat) : Stopped (trapStatus id).state := by
  unfold trapStatus Stopped; repeat' split
  all_goals simp
theorem imageStatus_stopped (md : Meta) (e : Nat) : Stopped (imageStatus md e).state := by
  unfold imageStatus; repeat' split
  all_goals first | exact trapStatus_stopped _ | simp [Stopped]
theorem outcome_stopped (t id c) : Stopped (outcome t id c).state := by
  unfold outcome; split
  · simp only; split <;> simp [Stopped]
  · exact trapStatus_stopped _
theorem imageStatus_final (md : Meta) (e : Nat) (h : (imageStatus md e).state = .suspended ∨ (imageStatus md e).state = .halted) : md.final = false := by
  unfold imageStatus at h
  by_cases hf : md.final = true
  · simp only [hf, if_true] at h; split at h <;> simp at h
  · simpa using hf
theorem judge_stopped (t i f r m sf) : Stopped (judge t i f r m sf).2.2.state := by
  unfold judge; repeat' split
  all_goals first | exact outcome_stopped _ _ _ | simp [Stopped]
theorem judge_final (t i f r m sf) : (judge t i f r m sf).1.md = i.md := by
  unfold judge Image.check; cases m <;> simp <;> repeat' split
  all_goals first | rfl | simp
theorem judge_coherent (t i f r m sf) (h : (judge t i f r m sf).2.2.state = .suspended ∨ (judge t i f r m sf).2.2.state = .halted) :
    (judge t i f r m sf).1.coherent = true := by
  unfold judge at h ⊢
  split at h
  · simp at h
  · rename_i h1; rw [if_neg h1]
    split at h
    · rename_i hm
      split at h
      · simp at h
      · rename_i hk; simp only [ne_eq, Decidable.not_not] at hk; rw [hk] at h; revert h; simp [outcome, trapStatus, trapKilled, trapSuspended, trapExit, trapCallStackExhausted, trapABIDeficiency, trapBreakpoint]
    · rename_i hm
      have hc : (i.check m).coherent = true := by cases m <;> simp_all [Image.check]
      rw [if_neg hm]
      split
      · exact hc
      · split <;> exact hc

theorem inv_start (s : St) (h : Inv s) (fl : Phase) (hp : (s.phase = .created ∧ fl = .unborn) ∨ (s.phase = .resumed ∧ fl = .lost)) (fail unst : Bool) :
    Inv (start s fl fail unst).1 ∧ (start s fl fail unst).2 ≠ .crash := by
  have hph := h.phase
  have hcl := h.closed_le
  have hold := h.older
  have hnc : s.stopped ∉ s.closed := by
    rcases hp with ⟨hp, _⟩ | ⟨hp, _⟩ <;> rw [hp] at hph <;> simp only at hph <;> exact hph.2.2.1
  obtain ⟨i, hi, hco, hfin, hst, hpr⟩ : ∃ i, s.image = some i ∧ i.coherent = true ∧ (s.process = true → i.md.final = false) ∧
      s.status.cause = 0 ∧ (s.process = false → s.phase = .created) := by
    rcases hp with ⟨hp, _⟩ | ⟨hp, _⟩ <;> rw [hp] at hph <;> simp only at hph
    · obtain ⟨_, hs, _, _, i, hi, hc, hf⟩ := hph; exact ⟨i, hi, hc, hf, by rw [hs], fun _ => hp⟩
    · obtain ⟨_, hs, _, hpr, i, hi, hc, hf⟩ := hph; exact ⟨i, hi, hc, fun _ => hf, by rw [hs], fun h => by rw [hpr] at h; cases h⟩
  unfold start
  simp only [hi]
  split
  · rename_i hproc
    have hcr := hpr hproc
    obtain ⟨rfl⟩ : fl = .unborn := by rcases hp with ⟨_, h⟩ | ⟨h, _⟩; exact h; rw [hcr] at h; cases h
    rw [hcr] at hph; simp only at hph
    split
    · refine ⟨⟨hcl, h.waits_le, hold, fun _ _ => .inr (by simp), ?_⟩, by simp⟩
      simp only; exact ⟨hph.1, by rw [hph.2.1]⟩
    · rename_i f hf
      unfold St.close
      simp only [hnc, if_false]
      refine ⟨⟨?_, h.waits_le, ?_, by simp, ?_⟩, by simp⟩
      · intro c hc; simp only [List.mem_cons] at hc; rcases hc with rfl | hc; exact Nat.le_refl _; exact hcl c hc
      · intro c hc; exact List.mem_cons_of_mem _ (hold c hc)
      · simp only
        refine ⟨by simp, imageStatus_stopped _ _, by simp, ?_⟩
        intro j hj hs
        cases hj
        exact ⟨hco, imageStatus_final _ _ hs⟩
  · split
    · rename_i hproc hfail
      unfold St.close
      simp only [hnc, if_false]
      refine ⟨⟨?_, h.waits_le, ?_, fun _ _ => .inr (by simp), ?_⟩, by simp⟩
      · intro c hc; simp only [List.mem_cons] at hc; rcases hc with rfl | hc; exact Nat.le_refl _; exact hcl c hc
      · intro c hc; exact List.mem_cons_of_mem _ (hold c hc)
      · rcases hp with ⟨hp, rfl⟩ | ⟨hp, rfl⟩ <;> rw [hp] at hph <;> simp only at hph ⊢
        · exact ⟨hph.1, by rw [hph.2.1]⟩
        · exact ⟨hph.1, by rw [hph.2.1], trivial, by simp⟩
    · rename_i hproc hfail
      refine ⟨⟨hcl, h.waits_le, hold, by simp, ?_⟩, by simp⟩
      simp only
      have hr : s.status.result = 0 := by
        rcases hp with ⟨hp, rfl⟩ | ⟨hp, rfl⟩ <;> rw [hp] at hph <;> simp only at hph <;> rw [hph.2.1]
      refine ⟨trivial, by rw [hst, hr], hnc, trivial, _, rfl, ?_⟩
      exact hfin (by simpa using hproc)

theorem inv_step (s : St) (h : Inv s) (l : Label) (s' : St) (r : Resp) (hs : step s l = some (s', r)) : Inv s' := by
  have hph := h.phase
  have hcl := h.closed_le
  have hold := h.older
  cases l with
  | start fail unst =>
    simp only [step] at hs
    split at hs
    · rename_i hp; simp only [Option.some.injEq] at hs
      have := (inv_start s h .unborn (.inl ⟨hp, rfl⟩) fail unst).1; rw [hs] at this; exact this
    · rename_i hp; simp only [Option.some.injEq] at hs
      have := (inv_start s h .lost (.inr ⟨hp, rfl⟩) fail unst).1; rw [hs] at this; exact this
    · cases hs
  | resume f =>
    simp only [step] at hs
    split at hs
    · rename_i hr; cases hs
      have hpres : s.present = true := by
        unfold resumeCheck at hr; split at hr; cases hr; rename_i hh; simpa using hh
      have hst : s.status.state = .suspended ∨ s.status.state = .halted := by
        unfold resumeCheck at hr; rw [if_neg (by simp [hpres])] at hr
        split at hr
        · rename_i hh; exact .inl hh
        · rename_i hh; exact .inr hh
        · cases hr
      have hq : s.phase = .quiet := by
        cases hp : s.phase <;> rw [hp] at hph <;> simp only at hph
        · rw [hph.2.1] at hst; simp at hst
        · rw [hph.2.1] at hst; simp at hst
        · rw [hph.2.1] at hst; simp at hst
        · rw [hph.2] at hst; simp at hst
        · rw [hph.2.1] at hst; simp at hst
      rw [hq] at hph; simp only at hph
      obtain ⟨hc, hsp, hpi, hco⟩ := hph
      refine ⟨fun c hm => Nat.le_succ_of_le (hcl c hm), fun c hm => Nat.le_succ_of_le (h.waits_le c hm), ?_, by simp [hpres], ?_⟩
      · intro c hlt
        simp only at hlt ⊢
        by_cases e : c = s.stopped
        · rw [e]; exact hc
        · exact hold c (by omega)
      · simp only
        rw [hpres] at hpi
        obtain ⟨i, hi⟩ := Option.isSome_iff_exists.mp hpi.symm
        exact ⟨hpres, trivial, fun hm => absurd (hcl _ hm) (by omega), trivial, i, hi, hco i hi hst⟩
    · cases hs; exact h
  | finish rr m sf =>
    simp only [step] at hs
    split at hs
    · rename_i hp
      rw [hp] at hph; simp only at hph
      obtain ⟨hpres, hst, hnc, hfile, i, hi, hfin⟩ := hph
      rw [hi] at hs
      simp only at hs
      unfold cleanup St.close at hs
      simp only [hnc, if_false] at hs
      cases hs
      split
      · refine ⟨?_, h.waits_le, ?_, fun _ _ => .inr (by simp [doAnnihilate]), ?_⟩
        · intro c hc; simp only [doAnnihilate, List.mem_cons] at hc ⊢; rcases hc with rfl | hc; exact Nat.le_refl _; exact hcl c hc
        · intro c hc; exact List.mem_cons_of_mem _ (hold c hc)
        · simp only [doAnnihilate]
          exact ⟨by simp, judge_stopped _ _ _ _ _ _, by simp, by simp⟩
      · refine ⟨?_, h.waits_le, ?_, by simp [hpres], ?_⟩
        · intro c hc; simp only [List.mem_cons] at hc ⊢; rcases hc with rfl | hc; exact Nat.le_refl _; exact hcl c hc
        · intro c hc; exact List.mem_cons_of_mem _ (hold c hc)
        · simp only
          refine ⟨by simp, judge_stopped _ _ _ _ _ _, by simp [hpres], ?_⟩
          intro j hj hss
          cases hj
          simp only
          refine ⟨judge_coherent _ _ _ _ _ _ hss, ?_⟩
          rw [judge_final, hfin]
          rcases hss with hss | hss <;> rw [hss] <;> rfl
    · cases hs
  | annihilate =>
    simp only [step] at hs
    split at hs
    · cases hs; exact h
    · split at hs
      · cases hs; exact h
      · split at hs
        · cases hs; exact h
        · rename_i hpres hnr _ i hi
          cases hs
          refine ⟨hcl, h.waits_le, hold, fun _ _ => .inr (by simp [doAnnihilate]), ?_⟩
          cases hp : s.phase <;> rw [hp] at hph <;> simp only at hph <;> simp only [doAnnihilate, hp]
          · rw [hph.1] at hpres; exact absurd rfl hpres
          · rw [hph.2.1] at hnr; exact absurd rfl hnr
          · rw [hph.2.1] at hnr; exact absurd rfl hnr
          · exact ⟨hph.1, hph.2.1, by simp, by simp⟩
          · rw [hph.1] at hpres; exact absurd rfl hpres
          · rw [hph.2.1] at hnr; exact absurd rfl hnr
  | remove =>
    simp only [step] at hs
    split at hs
    · cases hs
    · cases hs; exact ⟨hcl, h.waits_le, hold, by simp, hph⟩
  | suspendRequest =>
    simp only [step] at hs; cases hs
    exact ⟨hcl, h.waits_le, hold, h.listed, hph⟩
  | update p =>
    simp only [step] at hs
    split at hs <;> cases hs
    · exact h
    · exact ⟨hcl, h.waits_le, hold, h.listed, hph⟩
  | snapshot =>
    simp only [step] at hs
    repeat' split at hs
    all_goals cases hs; exact h
  | info =>
    simp only [step] at hs
    repeat' split at hs
    all_goals cases hs; exact h
  | debug g =>
    simp only [step] at hs
    repeat' split at hs
    all_goals cases hs; exact h
  | wait =>
    simp only [step] at hs
    split at hs
    · cases hs; exact h
    · cases hs
      refine ⟨hcl, ?_, hold, h.listed, hph⟩
      intro c hc; simp only [List.mem_cons] at hc; rcases hc with rfl | hc; exact Nat.le_refl _; exact h.waits_le c hc
  | waited c cc =>
    simp only [step] at hs
    split at hs
    · cases hs
      exact ⟨hcl, fun c hc => h.waits_le c (List.mem_of_mem_erase hc), hold, h.listed, hph⟩
    · cases hs

/-- States of an instance: those it gets into in some history after being launched. -/
def Reachable (s : St) : Prop := ∃ t su md e ls rs, run (launch t su md e) ls = some (s, rs)

theorem run_inv (s : St) (h : Inv s) (ls : List Label) (s' : St) (rs : List Resp) (hr : run s ls = some (s', rs)) : Inv s' := by
  induction ls generalizing s s' rs with
  | nil => cases hr; exact h
  | cons l ls ih =>
    simp only [run] at hr
    split at hr
    · cases hr
    · rename_i s1 r1 h1
      split at hr
      · cases hr
      · rename_i s2 rs2 h2
        cases hr
        exact ih s1 (inv_step s h l s1 r1 h1) _ _ h2

theorem reachable_inv (s : St) (h : Reachable s) : Inv s := by
  obtain ⟨t, su, md, e, ls, rs, hr⟩ := h
  exact run_inv _ (inv_launch t su md e) ls s rs hr


/-! ### C45 -/

/-- The documented transitions: an instance comes to be running or stopped; a running one stops; a
suspended or halted one is resumed. -/
inductive Transition : State → State → Prop
  | create (x : State) : x = .running ∨ Stopped x → Transition .nonexistent x
  | stop (x : State) : Stopped x → Transition .running x
  | resumeSuspended : Transition .suspended .running
  | resumeHalted : Transition .halted .running

theorem start_status (s : St) (fl : Phase) (fail unst : Bool) (s' : St) (r : Resp) (hs : start s fl fail unst = (s', r)) :
    s'.status = s.status ∨ s'.status.state = .running ∨ (s.process = false ∧ Stopped s'.status.state) := by
  unfold start at hs
  split at hs
  · cases hs; exact .inl rfl
  · split at hs
    · split at hs
      · cases hs; exact .inl rfl
      · unfold St.close at hs
        split at hs
        · cases hs; exact .inl rfl
        · rename_i h; split at h
          · cases h
          · cases h; cases hs; exact .inr (.inr ⟨by assumption, imageStatus_stopped _ _⟩)
    · split at hs
      · unfold St.close at hs
        split at hs
        · cases hs; exact .inl rfl
        · rename_i h; split at h
          · cases h
          · cases h; cases hs; exact .inl rfl
      · cases hs; exact .inr (.inl rfl)

/-- Steps other than these three don't change the status. -/
theorem status_step (s : St) (h : Inv s) (l : Label) (s' : St) (r : Resp) (hs : step s l = some (s', r)) :
    s'.status = s.status ∨ Transition s.status.state s'.status.state := by
  have hph := h.phase
  cases l with
  | start fail unst =>
    simp only [step] at hs
    split at hs
    · rename_i hp; rw [hp] at hph; simp only at hph
      simp only [Option.some.injEq] at hs
      rcases start_status _ _ _ _ _ _ hs with h | h | ⟨_, h⟩
      · exact .inl h
      · right; rw [hph.2.1, h]; exact .create _ (.inl rfl)
      · right; rw [hph.2.1]; exact .create _ (.inr h)
    · rename_i hp; rw [hp] at hph; simp only at hph
      simp only [Option.some.injEq] at hs
      unfold start at hs
      obtain ⟨_, hst, hnc, hpr, i, hi, hco, _⟩ := hph
      simp only [hi, hpr, St.close, hnc, hco, if_false, Bool.true_eq_false] at hs
      split at hs
      · cases hs; exact .inl rfl
      · cases hs; left; simp [hst]
    · cases hs
  | resume f =>
    simp only [step] at hs
    split at hs
    · rename_i hr; cases hs
      unfold resumeCheck at hr; split at hr
      · cases hr
      · right; simp only
        split at hr
        · rename_i e; rw [e]; exact .resumeSuspended
        · rename_i e; rw [e]; exact .resumeHalted
        · cases hr
    · cases hs; exact .inl rfl
  | finish rr m sf =>
    simp only [step] at hs
    split at hs
    · rename_i hp; rw [hp] at hph; simp only at hph
      obtain ⟨hpres, hst, hnc, hfile, i, hi, hfin⟩ := hph
      rw [hi] at hs
      simp only at hs
      unfold cleanup St.close at hs
      simp only [hnc, if_false] at hs
      cases hs
      right
      rw [hst]
      split <;> exact .stop _ (judge_stopped _ _ _ _ _ _)
    · cases hs
  | annihilate =>
    simp only [step] at hs
    repeat' split at hs
    all_goals first | (cases hs; done) | (cases hs; exact .inl rfl)
  | remove =>
    simp only [step] at hs
    repeat' split at hs
    all_goals first | (cases hs; done) | (cases hs; exact .inl rfl)
  | suspendRequest => simp only [step] at hs; cases hs; exact .inl rfl
  | update p =>
    simp only [step] at hs
    repeat' split at hs
    all_goals first | (cases hs; done) | (cases hs; exact .inl rfl)
  | snapshot =>
    simp only [step] at hs
    repeat' split at hs
    all_goals first | (cases hs; done) | (cases hs; exact .inl rfl)
  | info =>
    simp only [step] at hs
    repeat' split at hs
    all_goals first | (cases hs; done) | (cases hs; exact .inl rfl)
  | debug g =>
    simp only [step] at hs
    repeat' split at hs
    all_goals first | (cases hs; done) | (cases hs; exact .inl rfl)
  | wait =>
    simp only [step] at hs
    repeat' split at hs
    all_goals first | (cases hs; done) | (cases hs; exact .inl rfl)
  | waited c cc =>
    simp only [step] at hs
    repeat' split at hs
    all_goals first | (cases hs; done) | (cases hs; exact .inl rfl)

theorem reachable_step {s : St} (h : Reachable s) {l s' r} (hs : step s l = some (s', r)) : Reachable s' := by
  obtain ⟨t, su, md, e, ls, rs, hr⟩ := h
  refine ⟨t, su, md, e, ls ++ [l], rs ++ [r], ?_⟩
  have gen : ∀ (ls : List Label) (s0 : St) (rs : List Resp), run s0 ls = some (s, rs) → run s0 (ls ++ [l]) = some (s', rs ++ [r]) := by
    intro ls
    induction ls with
    | nil => intro s0 rs h; cases h; simp [run, hs]
    | cons a ls ih =>
      intro s0 rs h
      simp only [run] at h
      split at h
      · cases h
      · rename_i s1 r1 h1
        split at h
        · cases h
        · rename_i s2 rs2 h2
          cases h
          simp only [List.cons_append, run, h1, ih _ _ h2]
  exact gen ls _ _ hr

/-- C45: in every history, the status changes only along the documented transitions. -/
theorem transitions (s : St) (h : Reachable s) (l : Label) (s' : St) (r : Resp) (hs : step s l = some (s', r)) :
    s'.status = s.status ∨ Transition s.status.state s'.status.state := status_step s (reachable_inv s h) l s' r hs

theorem run_cons {s : St} {l ls s' rs} (h : run s (l :: ls) = some (s', rs)) :
    ∃ s1 r1 rs1, step s l = some (s1, r1) ∧ run s1 ls = some (s', rs1) ∧ rs = r1 :: rs1 := by
  simp only [run] at h
  split at h
  · cases h
  · rename_i s1 r1 h1
    split at h
    · cases h
    · rename_i s2 rs2 h2
      cases h
      exact ⟨s1, r1, rs2, h1, h2, rfl⟩

/-- C45: a terminated or killed instance stays so, with the same cause and result. -/
theorem final_forever (s : St) (h : Reachable s) (hf : s.status.state = .terminated ∨ s.status.state = .killed)
    (ls : List Label) (s' : St) (rs : List Resp) (hr : run s ls = some (s', rs)) : s'.status = s.status := by
  induction ls generalizing s rs with
  | nil => cases hr; rfl
  | cons l ls ih =>
    obtain ⟨s1, r1, rs1, h1, h2, rfl⟩ := run_cons hr
    have e : s1.status = s.status := by
      rcases transitions s h l s1 r1 h1 with e | t
      · exact e
      · generalize s1.status.state = b at t
        rcases hf with hf | hf <;> rw [hf] at t <;> cases t
    rw [ih s1 (reachable_step h h1) (by rw [e]; exact hf) rs1 h2, e]

/-- C45: a resumption succeeds exactly of an existing suspended instance without a function, or of a
halted one with a function; else it changes nothing. -/
theorem resume_iff (s : St) (f : String) (s' : St) (r : Resp) (hs : step s (.resume f) = some (s', r)) :
    (r = .ok ↔ s.present = true ∧ ((s.status.state = .suspended ∧ f = "") ∨ (s.status.state = .halted ∧ f ≠ ""))) ∧
    (r ≠ .ok → s' = s) := by
  simp only [step] at hs
  split at hs
  · rename_i hr; cases hs
    refine ⟨⟨fun _ => ?_, fun _ => rfl⟩, fun h => absurd rfl h⟩
    unfold resumeCheck at hr
    split at hr
    · cases hr
    · rename_i hp
      refine ⟨by simpa using hp, ?_⟩
      split at hr
      · rename_i e; split at hr
        · cases hr
        · rename_i hf; exact .inl ⟨e, by simpa using hf⟩
      · rename_i e; split at hr
        · cases hr
        · rename_i hf; exact .inr ⟨e, hf⟩
      · cases hr
  · rename_i hr; cases hs
    refine ⟨⟨fun h => absurd h hr, ?_⟩, fun _ => rfl⟩
    rintro ⟨hp, h | h⟩ <;> exact absurd (by simp [resumeCheck, hp, h.1, h.2]) hr

/-- C45: while the instance is running it is not resumed, snapshotted, deleted or debugged. -/
theorem refused_while_running (s : St) (hr : s.status.state = .running) (l : Label)
    (hl : l = .snapshot ∨ l = .annihilate ∨ l = .debug false ∨ ∃ f, l = .resume f) :
    ∃ r, step s l = some (s, r) ∧ (r = .refused ∨ r = .notFound) := by
  rcases hl with rfl | rfl | rfl | ⟨f, rfl⟩
  · cases hp : s.present <;> simp [step, hr, hp]
  · cases hp : s.present <;> simp [step, hr, hp]
  · simp only [step, hr, true_and, if_true]; exact ⟨_, rfl, .inl rfl⟩
  · simp only [step, resumeCheck, hr]
    split
    · rename_i h; split at h <;> cases h
    · refine ⟨_, rfl, ?_⟩; split
      · exact .inr rfl
      · exact .inl rfl

theorem finish_shape (s : St) (h : Inv s) (rr : Served) (m : Mutation) (sf : Bool) (s' : St) (r : Resp) (hs : step s (.finish rr m sf) = some (s', r)) :
    ∃ i, s.image = some i ∧ i.md.final = false ∧ s.file = none ∧ s.present = true ∧ r = .ok ∧
      let j := judge s.transient i none rr m sf
      let t : St := { s with image := some { j.1 with md := ⟨(j.2.2.state == .terminated || j.2.2.state == .killed), rr.trap, j.2.2.result⟩ },
                             file := j.2.1, status := j.2.2, phase := .quiet, closed := s.stopped :: s.closed }
      s' = if s.transient then doAnnihilate t else t := by
  have hph := h.phase
  simp only [step] at hs
  split at hs
  · rename_i hp; rw [hp] at hph; simp only at hph
    obtain ⟨hpres, hst, hnc, hfile, i, hi, hfin⟩ := hph
    rw [hi] at hs
    simp only at hs
    unfold cleanup St.close at hs
    simp only [hnc, if_false, hfile] at hs
    cases hs
    refine ⟨i, hi, hfin, hfile, hpres, rfl, ?_⟩
    simp only [judge_final, hfin, Bool.false_or]
  · cases hs

/-- C45: when a transient instance stops, it disappears: from the server and from the storage. -/
theorem transient_disappears (s : St) (h : Reachable s) (ht : s.transient = true) (rr : Served) (m : Mutation) (sf : Bool)
    (s' : St) (r : Resp) (hs : step s (.finish rr m sf) = some (s', r)) : s'.present = false ∧ s'.image = none ∧ s'.file = none := by
  obtain ⟨i, _, _, _, _, _, e⟩ := finish_shape s (reachable_inv s h) rr m sf s' r hs
  rw [e]; simp [ht, doAnnihilate]

/-- C45: an instance disappears only by being deleted, or by stopping while it is transient. -/
theorem disappears_only (s : St) (h : Reachable s) (hp : s.present = true) (l : Label) (s' : St) (r : Resp)
    (hs : step s l = some (s', r)) (hg : s'.present = false) :
    l = .annihilate ∨ (s.transient = true ∧ ∃ rr m sf, l = .finish rr m sf) := by
  cases l with
  | annihilate => exact .inl rfl
  | finish rr m sf =>
    right
    obtain ⟨i, _, _, _, _, _, e⟩ := finish_shape s (reachable_inv s h) rr m sf s' r hs
    by_cases ht : s.transient = true
    · exact ⟨ht, _, _, _, rfl⟩
    · rw [e] at hg; simp [ht, hp] at hg
  | start fail unst =>
    exfalso
    simp only [step] at hs
    have hst : ∀ fl, start s fl fail unst = (s', r) → s'.present = true := by
      intro fl hs
      unfold start St.close at hs
      split at hs
      · cases hs; exact hp
      · split at hs
        · split at hs
          · cases hs; exact hp
          · split at hs
            · cases hs; exact hp
            · rename_i h; split at h
              · cases h
              · cases h; cases hs; rfl
        · split at hs
          · split at hs
            · cases hs; exact hp
            · rename_i h; split at h
              · cases h
              · cases h; cases hs; exact hp
          · cases hs; rfl
    split at hs
    · simp only [Option.some.injEq] at hs; rw [hst _ hs] at hg; cases hg
    · simp only [Option.some.injEq] at hs; rw [hst _ hs] at hg; cases hg
    · cases hs
  | _ =>
    exfalso
    simp only [step] at hs
    repeat' split at hs
    all_goals cases hs
    all_goals simp_all

/-- C45: what has disappeared stays away: no operation finds it, ever. -/
theorem gone_forever (s : St) (h : Reachable s) (hp : s.present = false) (hc : s.phase ≠ .created)
    (ls : List Label) (s' : St) (rs : List Resp) (hr : run s ls = some (s', rs)) :
    s'.present = false ∧ ∀ l, (l = .info ∨ l = .snapshot ∨ l = .annihilate ∨ ∃ f, l = .resume f) → step s' l = some (s', .notFound) := by
  suffices hs : s'.present = false by
    refine ⟨hs, ?_⟩
    rintro l (rfl | rfl | rfl | ⟨f, rfl⟩) <;> simp [step, resumeCheck, hs]
  induction ls generalizing s rs with
  | nil => cases hr; exact hp
  | cons l ls ih =>
    obtain ⟨s1, r1, rs1, h1, h2, rfl⟩ := run_cons hr
    suffices hh : s1.present = false ∧ s1.phase ≠ .created from ih s1 (reachable_step h h1) hh.1 hh.2 rs1 h2
    have hph := (reachable_inv s h).phase
    cases l with
    | start fail unst =>
      simp only [step] at h1
      split at h1
      · rename_i e; exact absurd e hc
      · rename_i e; rw [e] at hph; simp only at hph; rw [hph.1] at hp; cases hp
      · cases h1
    | finish rr m sf =>
      obtain ⟨i, _, _, _, e, _, _⟩ := finish_shape s (reachable_inv s h) rr m sf s1 r1 h1
      rw [e] at hp; cases hp
    | resume f => simp only [step, resumeCheck, hp, if_true] at h1; cases h1; exact ⟨hp, hc⟩
    | annihilate => simp only [step, hp, if_true] at h1; cases h1; exact ⟨hp, hc⟩
    | _ =>
      simp only [step] at h1
      repeat' split at h1
      all_goals cases h1
      all_goals exact ⟨hp, hc⟩

/-- C45: an instance which does not exist is listed only until it comes to be, or while a removal is
about to take place. -/
theorem listed_nonexistent (s : St) (h : Reachable s) (hr : s.registered = true) (hp : s.present = false) : s.phase = .created ∨ 0 < s.removals :=
  (reachable_inv s h).listed hr hp

end Gate.Life
