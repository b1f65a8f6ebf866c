import Verif.Ring
/-
C28: exit statuses are queued without loss.
-/
namespace Gate.Ring
open Gate

def Q.Ok (q : Q) : Prop := q.beg < N ∧ q.fin < N

theorem length_lt (q : Q) : q.length < N := Nat.mod_lt _ (by decide)

theorem fin_eq (q : Q) (h : q.Ok) : q.fin = (q.beg + q.length) % N := by
  obtain ⟨h1, h2⟩ := h
  unfold Q.length N at *
  omega

theorem push_ok (q : Q) (x : Status) (h : q.Ok) : (q.push x).Ok :=
  ⟨h.1, Nat.mod_lt _ (by decide)⟩

theorem push_length (q : Q) (x : Status) (h : q.Ok) (hl : q.length < N - 1) : (q.push x).length = q.length + 1 := by
  obtain ⟨h1, h2⟩ := h
  simp only [Q.length, Q.push, N] at *
  omega

/-- Adding a status when there is room. -/
theorem push_contents (q : Q) (x : Status) (h : q.Ok) (hl : q.length < N - 1) :
    (q.push x).contents = q.contents ++ [x] := by
  unfold Q.contents
  rw [push_length q x h hl, List.range_succ, List.map_append]
  have hf := fin_eq q h
  congr 1
  · apply List.map_congr_left
    intro i hi
    have hi' : i < q.length := List.mem_range.mp hi
    simp only [Q.push]
    rw [if_neg]
    rw [hf]
    unfold N at *
    omega
  · simp only [List.map_cons, List.map_nil, Q.push]
    rw [if_pos hf.symm]

theorem num_le (q : Q) (h : q.Ok) (he : q.empty = false) : q.num ≤ q.length ∧ q.beg + q.num ≤ N := by
  obtain ⟨h1, h2⟩ := h
  have hne : q.beg ≠ q.fin := by simpa [Q.empty] using he
  unfold Q.num Q.length N at *
  split <;> omega

theorem drop_ok (q : Q) (c : Nat) (h : q.Ok) : (q.drop c).Ok := ⟨Nat.mod_lt _ (by decide), h.2⟩

theorem drop_length (q : Q) (c : Nat) (h : q.Ok) (hc : c ≤ q.length) : (q.drop c).length = q.length - c := by
  obtain ⟨h1, h2⟩ := h
  simp only [Q.length, Q.drop, N] at *
  omega

/-- Removing what was sent. -/
theorem drop_contents (q : Q) (c : Nat) (h : q.Ok) (hc : c ≤ q.length) (hw : q.beg + c ≤ N) :
    q.chunk c ++ (q.drop c).contents = q.contents := by
  unfold Q.contents Q.chunk
  rw [drop_length q c h hc]
  have e : List.range q.length = List.range c ++ (List.range (q.length - c)).map (fun i => c + i) := by
    have := List.range_add (n := c) (m := q.length - c)
    rw [show c + (q.length - c) = q.length by omega] at this
    exact this
  rw [e, List.map_append, List.map_map]
  congr 1
  · apply List.map_congr_left
    intro i hi
    have hi' : i < c := List.mem_range.mp hi
    rw [Nat.mod_eq_of_lt (by omega)]
  · apply List.map_congr_left
    intro i _
    simp only [Function.comp, Q.drop, N]
    congr 1
    omega

structure Inv (s : St) : Prop where
  ok : s.q.Ok
  fifo : s.sent ++ s.q.contents = s.reaped
  room : ∀ k, s.phase = .poll k → s.q.length + k ≤ N - 1
  polls : ∀ n ∈ s.polls, 1 ≤ n

theorem step_inv (s s' : St) (l : Label) (hs : step s l = some s') (hi : Inv s) : Inv s' := by
  obtain ⟨ok, fifo, room, polls⟩ := hi
  unfold step at hs
  split at hs
  · rename_i c hp
    split at hs
    · rename_i hc
      cases hs
      obtain ⟨c1, c2, c3, c4⟩ := hc
      obtain ⟨n1, n2⟩ := num_le s.q ok c1
      refine ⟨drop_ok _ _ ok, ?_, ?_, polls⟩
      · simp only [List.append_assoc]
        rw [drop_contents s.q c ok (by omega) (by omega)]
        exact fifo
      · intro k hk; rw [hp] at hk; cases hk
    · cases hs
  · rename_i hp
    split at hs
    · cases hs; exact ⟨ok, fifo, (by intro k hk; rw [hp] at hk; cases hk), polls⟩
    · cases hs
  · rename_i hp
    split at hs
    · rename_i hc
      cases hs
      have hl := length_lt s.q
      have ha : s.q.avail = N - 1 - s.q.length := rfl
      have h1 : 1 ≤ s.q.avail := by
        rcases hc with hc | hc
        · have : s.q.length = 0 := by
            have hbf : s.q.beg = s.q.fin := by simpa [Q.empty] using hc
            unfold Q.length N; rw [hbf]; omega
          rw [ha, this]; decide
        · omega
      have hm : 1 ≤ min s.q.avail N := by unfold N at *; omega
      refine ⟨ok, fifo, ?_, ?_⟩
      · intro k hk
        cases hk
        simp only
        rw [ha]
        unfold N at *
        omega
      · intro n hn
        simp only [List.mem_append, List.mem_singleton] at hn
        rcases hn with hn | rfl
        · exact polls n hn
        · exact hm
    · cases hs
  · rename_i x k hp
    cases hs
    have hr := room (k + 1) hp
    refine ⟨push_ok _ _ ok, ?_, ?_, polls⟩
    · simp only
      rw [push_contents s.q x ok (by unfold N at *; omega), ← List.append_assoc, fifo]
    · intro k' hk
      cases hk
      simp only
      rw [push_length s.q x ok (by unfold N at *; omega)]
      omega
  · rename_i w k hp
    cases hs
    have hr := room (k + 1) hp
    refine ⟨ok, fifo, ?_, polls⟩
    intro k' hk
    cases hk
    simp only
    omega
  · cases hs
    exact ⟨ok, fifo, (by intro k hk; cases hk), polls⟩
  · cases hs

theorem run_inv : ∀ (ls : List Label) (s s' : St), run s ls = some s' → Inv s → Inv s' := by
  intro ls
  induction ls with
  | nil => intro s s' h hi; simp only [run, Option.some.injEq] at h; subst h; exact hi
  | cons l ls ih =>
    intro s s' h hi
    rw [run] at h
    cases hs : step s l with
    | none => rw [hs] at h; cases h
    | some s1 => rw [hs] at h; exact ih s1 s' h (step_inv s s1 l hs hi)

theorem init_inv : Inv init := ⟨⟨by decide, by decide⟩, rfl, (by intro k hk; cases hk), (by simp [init])⟩

/-- C28: in every run, whatever the kernel does, what has been sent is exactly the statuses of the reaped
processes in order, except for those still queued; and at most 127 are queued.  So no status is
lost, duplicated, overwritten or reordered. -/
theorem statuses_fifo (ls : List Label) (s : St) (hr : run init ls = some s) :
    s.sent ++ s.q.contents = s.reaped ∧ s.sent <+: s.reaped ∧ s.q.contents.length ≤ 127 ∧
    (s.q.empty = true → s.sent = s.reaped) := by
  have hi := run_inv ls init s hr init_inv
  refine ⟨hi.fifo, ⟨_, hi.fifo⟩, ?_, ?_⟩
  · have := length_lt s.q
    simp only [Q.contents, List.length_map, List.length_range]
    unfold N at this; omega
  · intro he
    have : s.q.contents = [] := by
      have hbf : s.q.beg = s.q.fin := by simpa [Q.empty] using he
      have : s.q.length = 0 := by unfold Q.length N; rw [hbf]; omega
      simp [Q.contents, this]
    have h := hi.fifo
    rw [this, List.append_nil] at h
    exact h

/-- C28: `epoll_wait` is never asked for zero events, which would be an error. -/
theorem poll_room (ls : List Label) (s : St) (hr : run init ls = some s) : ∀ n ∈ s.polls, 1 ≤ n :=
  (run_inv ls init s hr init_inv).polls

/-- C28: a full queue does not get stuck: unless it is empty or the socket is not
writable, something can be sent. -/
theorem send_possible (s : St) (hi : Inv s) (hp : s.phase = .send) (he : s.q.empty = false)
    (hb : s.q.avail = 0 ∨ s.sendBlock = false) : ∃ s', step s (.accept s.q.num) = some s' ∧ s'.sent ≠ s.sent := by
  have hn : 1 ≤ s.q.num := by
    obtain ⟨h1, h2⟩ := hi.ok
    unfold Q.num N at *
    split <;> omega
  refine ⟨{ s with q := s.q.drop s.q.num, sent := s.sent ++ s.q.chunk s.q.num }, ?_, ?_⟩
  · simp only [step, hp]
    rw [if_pos ⟨he, hb, hn, Nat.le_refl _⟩]
  · simp only
    intro hc
    have := congrArg List.length hc
    simp [Q.chunk] at this
    omega

/-- Beyond wrap-around: 130 statuses pass through a queue of 128 slots. -/
example : ∃ s, run init ((List.replicate 65 [.wait, .reap (1, 0), .reap (2, 9), .round, .accept 1, .accept 1]).flatten
      ++ [.wait, .reap (3, 0), .round]) = some s ∧
    s.sent.length = 130 ∧ s.reaped.length = 131 ∧ s.q.contents = [(3, 0)] ∧ s.q.beg = 2 := by
  refine exists_of_run ?_
  decide +kernel

/-- C28: when the socket becomes writable, and the round of events is over, the oldest queued statuses can be
sent. -/
theorem send_resumes (ls : List Label) (s s1 s2 : St) (hr : run init ls = some s)
    (h1 : step s (.other true) = some s1) (h2 : step s1 .round = some s2) (he : s2.q.empty = false) :
    ∃ s3, step s2 (.accept s2.q.num) = some s3 ∧ s3.sent ≠ s2.sent := by
  have hi := step_inv _ _ _ h2 (step_inv _ _ _ h1 (run_inv ls init s hr init_inv))
  obtain ⟨k, hk⟩ : ∃ k, s.phase = .poll (k + 1) := by
    unfold step at h1
    split at h1 <;> simp_all
  have hb1 : s1.sendBlock = false := by
    simp only [step, hk, Option.some.injEq] at h1; subst h1; simp
  have hp1 : s1.phase = .poll k := by
    simp only [step, hk, Option.some.injEq] at h1; subst h1; rfl
  simp only [step, hp1, Option.some.injEq] at h2
  subst h2
  exact send_possible _ hi rfl he (.inr hb1)

example : ∃ s s1 s2, run init [.wait, .reap (7, 0), .round, .again, .wait] = some s ∧ s.sendBlock = true ∧
    step s (.other true) = some s1 ∧ step s1 .round = some s2 ∧ s2.q.empty = false :=
  ⟨_, _, _, rfl, rfl, rfl, rfl, rfl⟩

end Gate.Ring
