import Verif.CallSvc
/-
C117: calls of the identity and catalog services are answered once each. C118: stopping completes. Model: CallSvc.lean.
-/
namespace Gate.CallSvc
open Gate.Auth (str)

/-! ### Specification -/

/-- Every call has been answered, or is going to be: the answers given, in order, then those of the calls under way, are those of all the calls made. -/
def OnceEach (t : St) : Prop := t.got ++ t.evs ++ t.pending.toList ++ t.msgs = t.calls

/-- A service's storage of calls works. -/
def Lawful (v : Svc) : Prop := ∀ content, v.dec (v.enc (v.reqOf content)) = some (v.reqOf content) ∧ v.enc (v.reqOf content) ≠ []

theorem identity_lawful : Lawful identity := by
  intro content
  refine ⟨?_, by simp [identity]⟩
  simp [identity]

theorem catalog_lawful : Lawful catalog := by
  intro content
  refine ⟨?_, by simp [catalog]⟩
  simp only [catalog]
  split <;> rfl

/-! ### Invariants -/

/-- The calls in the system are calls which were made. -/
structure Good (v : Svc) (t : St) : Prop where
  once : t.replayed = false → t.dropped = false → OnceEach t
  blocked : t.serve = .blocked → t.pending.isSome
  returned : t.serve = .returned → t.phase ≠ .running
  suspended : t.phase = .suspended → t.serve = .returned
  made : ∀ r ∈ t.calls, ∃ c, v.reqOf c = r

theorem good_init (v : Svc) : Good v {} := ⟨fun _ _ => rfl, (by intro h; cases h), (by intro h; cases h), (by intro h; cases h), (by intro r h; cases h)⟩

theorem good_step (v : Svc) (t u : St) (l : Label) (h : step v t l = some u) (g : Good v t) : Good v u := by
  cases l with
  | call c =>
    simp only [step] at h
    split at h
    · cases h
      refine ⟨fun h1 h2 => ?_, g.blocked, g.returned, g.suspended, ?_⟩
      · have := g.once h1 h2
        unfold OnceEach at this ⊢
        simp only
        rw [← this]; simp
      · intro r hr
        simp only [List.mem_append, List.mem_singleton] at hr
        rcases hr with hr | hr
        · exact g.made r hr
        · exact ⟨c, hr.symm⟩
    · cases h
  | give =>
    simp only [step] at h
    cases hm : t.msgs with
    | nil => rw [hm] at h; cases h
    | cons r l =>
      rw [hm] at h
      simp only at h
      split at h
      · rename_i hc
        cases h
        refine ⟨fun h1 h2 => ?_, fun _ => rfl, (by intro h; cases h), (fun h => by simp only at h; rw [hc.1] at h; cases h), g.made⟩
        simp only [Bool.or_eq_false_iff] at h2
        have hn : t.pending = none := by
          cases hp : t.pending with
          | none => rfl
          | some x => rw [hp] at h2; cases h2.2
        have := g.once h1 h2.1
        unfold OnceEach at this ⊢
        rw [hn, hm] at this
        simpa using this
      · cases h
  | reply =>
    simp only [step] at h
    cases hp : t.pending with
    | none => rw [hp] at h; cases h
    | some r =>
      rw [hp] at h
      simp only at h
      split at h
      · rename_i hc
        cases h
        refine ⟨fun h1 h2 => ?_, (by intro h; cases h), (by intro h; cases h), (fun h => by simp only at h; rw [hc.1] at h; cases h), g.made⟩
        have := g.once h1 h2
        unfold OnceEach at this ⊢
        rw [hp, hc.2.2] at this
        simpa using this
      · cases h
  | write =>
    simp only [step] at h
    cases he : t.evs with
    | nil => rw [he] at h; cases h
    | cons e l =>
      rw [he] at h
      simp only at h
      split at h
      · cases h
        refine ⟨fun h1 h2 => ?_, g.blocked, g.returned, g.suspended, g.made⟩
        have := g.once h1 h2
        unfold OnceEach at this ⊢
        rw [he] at this
        simpa using this
      · cases h
  | died =>
    simp only [step] at h
    split at h
    · cases h; exact ⟨g.once, g.blocked, g.returned, g.suspended, g.made⟩
    · cases h
  | cancel =>
    simp only [step] at h
    split at h
    · cases h; exact ⟨g.once, g.blocked, g.returned, g.suspended, g.made⟩
    · cases h
  | release =>
    simp only [step] at h
    split at h
    · rename_i hc
      cases h; exact ⟨g.once, (by intro h; cases h), (by intro h; cases h), (fun h => absurd h hc.2.2), g.made⟩
    · cases h
  | stop =>
    simp only [step] at h
    split at h
    · cases h; exact ⟨g.once, g.blocked, (by intro _ h; cases h), (by intro h; cases h), g.made⟩
    · cases h
  | ended =>
    simp only [step] at h
    split at h
    · rename_i hc
      cases h; exact ⟨g.once, (by intro h; cases h), (by intro _ h; simp only at h; rw [hc.1] at h; cases h), fun _ => rfl, g.made⟩
    · cases h
  | suspended =>
    simp only [step] at h
    split at h
    · rename_i hc
      cases h; exact ⟨g.once, g.blocked, (by intro _ h; cases h), fun _ => hc.2, g.made⟩
    · cases h
  | resume =>
    simp only [step] at h
    split at h
    · cases h
      refine ⟨fun h1 h2 => ?_, fun h => ?_, fun h => ?_, (by intro h; cases h), g.made⟩
      · simp only [Bool.or_eq_false_iff, decide_eq_false_iff_not] at h1
        have := g.once h1.1 h2
        unfold OnceEach at this ⊢
        simp only
        rw [Classical.not_not.mp h1.2]; exact this
      · simp only at h ⊢
        cases hd : v.dec t.buffer with
        | none => rw [hd] at h; cases h
        | some x => rfl
      · simp only at h
        split at h <;> cases h
    · cases h

theorem run_good (v : Svc) (ls : List Label) (t u : St) (h : run v t ls = some u) (g : Good v t) : Good v u := by
  induction ls generalizing t with
  | nil => cases h; exact g
  | cons l ls ih =>
    unfold run at h
    cases hs : step v t l with
    | none => rw [hs] at h; cases h
    | some x => rw [hs] at h; exact ih x h (good_step v t x l hs g)

/-- As long as nobody cancels: a suspended service has nothing pending, and nothing is stored. -/
structure Calm (t : St) : Prop where
  done : t.done = false
  buffer : t.buffer = []
  idle : t.serve ≠ .blocked → t.pending = none
  replayed : t.replayed = false
  dropped : t.dropped = false

theorem calm_step (v : Svc) (hv : v.dec [] = none) (t u : St) (l : Label) (hl : l ≠ .cancel) (h : step v t l = some u) (g : Good v t) (c : Calm t) : Calm u := by
  cases l with
  | call c' =>
    simp only [step] at h
    split at h
    · cases h; exact ⟨c.done, c.buffer, c.idle, c.replayed, c.dropped⟩
    · cases h
  | give =>
    simp only [step] at h
    cases hm : t.msgs with
    | nil => rw [hm] at h; cases h
    | cons r l =>
      rw [hm] at h
      simp only at h
      split at h
      · rename_i hc
        cases h
        refine ⟨c.done, c.buffer, fun h => absurd rfl h, c.replayed, ?_⟩
        simp only [c.dropped, Bool.false_or]
        rw [c.idle (by rw [hc.2]; simp)]; rfl
      · cases h
  | reply =>
    simp only [step] at h
    cases hp : t.pending with
    | none => rw [hp] at h; cases h
    | some r =>
      rw [hp] at h
      simp only at h
      split at h
      · cases h; exact ⟨c.done, c.buffer, fun _ => rfl, c.replayed, c.dropped⟩
      · cases h
  | write =>
    simp only [step] at h
    cases he : t.evs with
    | nil => rw [he] at h; cases h
    | cons e l =>
      rw [he] at h
      simp only at h
      split at h
      · cases h; exact ⟨c.done, c.buffer, c.idle, c.replayed, c.dropped⟩
      · cases h
  | died =>
    simp only [step] at h
    split at h
    · cases h; exact ⟨c.done, c.buffer, c.idle, c.replayed, c.dropped⟩
    · cases h
  | cancel => exact absurd rfl hl
  | release =>
    simp only [step] at h
    split at h
    · rename_i hc; rw [c.done] at hc; cases hc.2.1
    · cases h
  | stop =>
    simp only [step] at h
    split at h
    · cases h; exact ⟨c.done, c.buffer, c.idle, c.replayed, c.dropped⟩
    · cases h
  | ended =>
    simp only [step] at h
    split at h
    · rename_i hc
      cases h; exact ⟨c.done, c.buffer, fun _ => c.idle (by rw [hc.2]; simp), c.replayed, c.dropped⟩
    · cases h
  | suspended =>
    simp only [step] at h
    split at h
    · rename_i hc
      have hn := c.idle (by rw [hc.2]; simp)
      cases h
      refine ⟨c.done, ?_, c.idle, c.replayed, c.dropped⟩
      simp only; rw [hn]; exact c.buffer
    · cases h
  | resume =>
    simp only [step] at h
    split at h
    · rename_i hc
      have hn := c.idle (by rw [g.suspended hc]; simp)
      cases h
      refine ⟨rfl, c.buffer, ?_, ?_, c.dropped⟩
      · intro _; simp only; rw [c.buffer]; exact hv
      · simp only; rw [c.buffer, hv, hn, c.replayed]; rfl
    · cases h

theorem run_calm (v : Svc) (hv : v.dec [] = none) (ls : List Label) (t u : St) (hl : Label.cancel ∉ ls) (h : run v t ls = some u) (g : Good v t) (c : Calm t) : Calm u := by
  induction ls generalizing t with
  | nil => cases h; exact c
  | cons l ls ih =>
    unfold run at h
    rw [List.mem_cons, not_or] at hl
    cases hs : step v t l with
    | none => rw [hs] at h; cases h
    | some x => rw [hs] at h; exact ih x hl.2 h (good_step v t x l hs g) (calm_step v hv t x l (Ne.symm hl.1) hs g c)

/-! ### C117 -/

/-- C117: over any number of suspensions and resumptions, each call is answered once, in order - unless the context in which the program is served is canceled. For identity and catalog. -/
theorem once_each_partial (v : Svc) (hv : v = identity ∨ v = catalog) (ls : List Label) (t : St) (h : Reachable v ls t) (hc : Label.cancel ∉ ls) : OnceEach t := by
  have hn : v.dec [] = none := by rcases hv with rfl | rfl <;> rfl
  have g := run_good v ls {} t h (good_init v)
  have c := run_calm v hn ls {} t hc h (good_init v) ⟨rfl, rfl, fun _ => rfl, rfl, rfl⟩
  exact g.once c.replayed c.dropped

/-- C117: also with cancellations, as long as nothing is replayed or dropped in the way that the refutations show. -/
theorem once_each_flags_partial (v : Svc) (ls : List Label) (t : St) (h : Reachable v ls t) (h1 : t.replayed = false) (h2 : t.dropped = false) : OnceEach t :=
  (run_good v ls {} t h (good_init v)).once h1 h2

/-- C117: a call which is pending when the program is suspended is kept: the first resumption after that restores it. -/
theorem pending_kept (v : Svc) (hv : Lawful v) (t u w : St) (c : Bytes) (hp : t.pending = some (v.reqOf c)) (h1 : step v t .suspended = some u) (h2 : step v u .resume = some w) :
    w.pending = some (v.reqOf c) ∧ w.serve = .blocked ∧ w.replayed = t.replayed := by
  simp only [step] at h1
  split at h1
  · cases h1
    simp only [step] at h2
    have := (hv c).1
    simp only [if_true, hp, this] at h2
    cases h2
    refine ⟨rfl, rfl, ?_⟩
    simp
  · cases h1

/-- A call is made, the client goes away, and the instance is suspended. It's resumed, which gives the answer; then it's suspended and resumed again. -/
def replaySchedule (c : Bytes) : List Label :=
  [.call c, .give, .cancel, .release, .stop, .ended, .suspended, .resume, .reply, .write, .stop, .ended, .suspended, .resume, .reply, .write]

/-- C117, refuted: an answer is given twice. (The registry keeps a service's old buffer when there's nothing to store, see C23.) -/
theorem answered_twice_refuted (v : Svc) (hv : Lawful v) (c : Bytes) :
    ∃ t, Reachable v (replaySchedule c) t ∧ t.calls = [v.reqOf c] ∧ t.got = [v.reqOf c, v.reqOf c] := by
  have hd := (hv c).1
  have h : run v {} (replaySchedule c) = some { calls := [v.reqOf c], got := [v.reqOf c, v.reqOf c], buffer := v.enc (v.reqOf c), replayed := true } := by
    simp [replaySchedule, run, step, readable, hd]
  exact ⟨_, h, rfl, rfl⟩

/-- Two calls are made; the client goes away while the first one is being answered. -/
def lostSchedule (a b : Bytes) : List Label := [.call a, .give, .call b, .cancel, .release, .give, .reply, .write, .stop, .ended, .suspended]

/-- C117, refuted: a call is lost: it's not answered, and nothing of it is left in the snapshot. -/
theorem call_lost_refuted (v : Svc) (a b : Bytes) :
    ∃ t, Reachable v (lostSchedule a b) t ∧ t.phase = .suspended ∧ t.calls = [v.reqOf a, v.reqOf b] ∧ t.got = [v.reqOf b] ∧ t.evs = [] ∧ t.msgs = [] ∧ t.pending = none ∧ t.buffer = [] := by
  have h : run v {} (lostSchedule a b) = some { calls := [v.reqOf a, v.reqOf b], got := [v.reqOf b], phase := .suspended, serve := .returned, done := true, dropped := true } := by
    simp [lostSchedule, run, step, readable]
  exact ⟨_, h, rfl, rfl, rfl, rfl, rfl, rfl, rfl⟩

/-- C117: identity answers with the principal's or the instance's own id, or with nothing. -/
theorem identity_answer (p i : Option Bytes) (content : Bytes) :
    identityReply p i (identity.reqOf content) = match content with
      | 1 :: _ => p.getD []
      | 2 :: _ => i.getD []
      | _ => [] := by
  cases content with
  | nil => rfl
  | cons b r =>
    simp only [identity, identityReply, List.head?, Option.getD_some]
    by_cases h1 : b = 1
    · subst h1; rfl
    · by_cases h2 : b = 2
      · subst h2; rfl
      · simp only [h1, h2, if_false]
        split
        · rename_i heq; injection heq with e; exact absurd e h1
        · rename_i heq; injection heq with e; exact absurd e h2
        · rfl

example : ∃ t, Reachable identity [.call [1], .give, .reply, .write, .stop, .ended, .suspended, .resume, .call [2], .give] t ∧ t.got = [1] ∧ t.pending = some 2 :=
  ⟨_, rfl, rfl, rfl⟩

/-! ### C118 -/

/-- C118: once the program has stopped, suspending completes if the service isn't in the middle of answering, or the context has been canceled: until then there's always a step to make, and there are at most three. -/
def togo (t : St) : Nat :=
  match t.phase, t.serve with
  | .suspended, _ => 0
  | _, .blocked => 3
  | _, .idle => 2
  | _, .returned => 1

theorem stop_progress_partial (v : Svc) (t : St) (hp : t.phase = .stopping) (h : t.serve ≠ .blocked ∨ t.done = true) :
    (∃ l u, (l = .release ∨ l = .ended ∨ l = .suspended) ∧ step v t l = some u) ∧
    ∀ l u, step v t l = some u → l ≠ .cancel → togo u < togo t ∧ (u.phase = .suspended ∨ (u.phase = .stopping ∧ (u.serve ≠ .blocked ∨ u.done = true))) := by
  constructor
  · cases hs : t.serve with
    | idle => exact ⟨.ended, _, Or.inr (Or.inl rfl), if_pos ⟨hp, hs⟩⟩
    | returned => exact ⟨.suspended, _, Or.inr (Or.inr rfl), if_pos ⟨hp, hs⟩⟩
    | blocked =>
      refine ⟨.release, _, Or.inl rfl, if_pos ⟨hs, h.resolve_left (fun h => h hs), by rw [hp]; simp⟩⟩
  · intro l u hst hl
    cases l with
    | call c => simp [step, hp] at hst
    | give =>
      simp only [step] at hst
      split at hst
      · cases hst
      · simp [hp] at hst
    | reply =>
      simp only [step] at hst
      split at hst
      · cases hst
      · simp [hp] at hst
    | write =>
      simp only [step] at hst
      split at hst
      · cases hst
      · simp [hp] at hst
    | died => simp [step, hp] at hst
    | cancel => exact absurd rfl hl
    | release =>
      simp only [step] at hst
      split at hst
      · rename_i hc
        cases hst
        refine ⟨?_, Or.inr ⟨hp, Or.inl (by simp)⟩⟩
        simp only [togo]; rw [hp, hc.1]; simp
      · cases hst
    | stop => simp [step, hp] at hst
    | ended =>
      simp only [step] at hst
      split at hst
      · rename_i hc
        cases hst
        refine ⟨?_, Or.inr ⟨hp, Or.inl (by simp)⟩⟩
        simp only [togo]; rw [hp, hc.2]; simp
      · cases hst
    | suspended =>
      simp only [step] at hst
      split at hst
      · rename_i hc
        cases hst
        refine ⟨?_, Or.inl rfl⟩
        simp only [togo]; rw [hp, hc.2]; simp
      · cases hst
    | resume => simp [step, hp] at hst

/-- C118, refuted: a program which has stopped while a service was answering it is never suspended, whatever else happens, unless the context is canceled by somebody else: nothing changes any more. -/
theorem stuck_refuted (v : Svc) (t u : St) (ls : List Label) (hp : t.phase = .stopping) (hs : t.serve = .blocked) (hd : t.done = false) (hc : Label.cancel ∉ ls) (h : run v t ls = some u) : u = t := by
  cases ls with
  | nil => cases h; rfl
  | cons l ls =>
    exfalso
    rw [List.mem_cons, not_or] at hc
    unfold run at h
    have : step v t l = none := by
      cases l with
      | cancel => exact absurd rfl hc.1
      | give =>
        simp only [step]; split
        · rfl
        · exact if_neg (by rw [hp]; simp)
      | reply =>
        simp only [step]; split
        · rfl
        · exact if_neg (by rw [hp]; simp)
      | write =>
        simp only [step]; split
        · rfl
        · exact if_neg (by rw [hp]; simp)
      | _ => simp [step, hp, hs, hd]
    rw [this] at h; cases h

/-- C118, refuted: and that's a reachable state: a program makes a call, and is suspended (or exits) before it has been answered. -/
theorem stuck_reachable_refuted (v : Svc) (c : Bytes) : ∃ t, Reachable v [.call c, .give, .died, .stop] t ∧ t.phase = .stopping ∧ t.serve = .blocked ∧ t.done = false := by
  have h : run v {} [.call c, .give, .died, .stop] = some { calls := [v.reqOf c], pending := some (v.reqOf c), serve := .blocked, phase := .stopping, dead := true } := by
    simp [run, step, readable]
  exact ⟨_, h, rfl, rfl, rfl⟩

/-- C118: without such a call, a program which stops is suspended. -/
example : ∃ t, Reachable catalog [.call (str "json"), .give, .reply, .write, .died, .stop, .ended, .suspended] t ∧ t.phase = .suspended ∧ t.got = [1] := ⟨_, rfl, rfl, by decide +kernel⟩

end Gate.CallSvc
