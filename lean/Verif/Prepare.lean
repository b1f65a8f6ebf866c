import Verif.Base

/-!
# Resources made in advance

Model of image/prepare.go (program and instance files) and runtime/prefork.go (processes): a
goroutine makes resources and sends them to a channel, from which requests take them; when the
context is done the rest is released.
-/

set_option linter.unusedSimpArgs false

namespace Gate.Prepare

/-- What is sent: a resource (numbered in the order of making) or the error which making it gave
(prepare.go:114-117 `fileResult`, prefork.go:14-17 `ResultProcess`). -/
abbrev Item := Option Nat

/-- Where the goroutine is: in `newProgramFile`, `newInstanceFile` or `NewProcess`
(prepare.go:48,97, prefork.go:36), in the select statement with a result
(prepare.go:50-57,99-106, prefork.go:38-46), in the deferred function's loop after closing the
channel (prepare.go:39-45,88-94, prefork.go:26-32), or gone. -/
inductive Pc
  | making
  | holding (x : Item)
  | draining
  | gone
  deriving DecidableEq

/-- The state: channel capacity and contents, cancellation, what has been made, what requests have
got, and what has been released (`file.Close`, `Process.Kill`). -/
structure St where
  cap : Nat
  pc : Pc := .making
  buf : List Item := []
  canceled : Bool := false
  made : Nat := 0
  got : List Item := []
  refused : Nat := 0
  released : List Item := []

/-- Steps. -/
inductive Step : St → St → Prop
  | make (s : St) : s.pc = .making → Step s { s with pc := .holding (some s.made), made := s.made + 1 }
  | makeErr (s : St) : s.pc = .making → Step s { s with pc := .holding none }
  | send (s : St) (x : Item) : s.pc = .holding x → s.buf.length < s.cap →
      Step s { s with pc := .making, buf := s.buf ++ [x] }
  -- a request which waits for an empty channel gets the result directly
  | handOver (s : St) (x : Item) : s.pc = .holding x → s.buf = [] →
      Step s { s with pc := .making, got := s.got ++ [x] }
  | cancel (s : St) : Step s { s with canceled := true }
  -- prepare.go:53-57: `if err == nil { f.Close() }`
  | stop (s : St) (x : Item) : s.pc = .holding x → s.canceled = true →
      Step s { s with
        pc := .draining,
        released := match x with | some i => s.released ++ [some i] | none => s.released }
  -- prepare.go:41-45
  | drain (s : St) (x : Item) (rest : List Item) : s.pc = .draining → s.buf = x :: rest →
      Step s { s with
        buf := rest,
        released := match x with | some i => s.released ++ [some i] | none => s.released }
  | finish (s : St) : s.pc = .draining → s.buf = [] → Step s { s with pc := .gone }
  -- prepare.go:27-36, 76-85, prefork.go:54-66: also after the channel has been closed
  | take (s : St) (x : Item) (rest : List Item) : s.buf = x :: rest →
      Step s { s with buf := rest, got := s.got ++ [x] }
  -- prepare.go:28-31: context.Canceled; prefork.go:56-63
  | refuse (s : St) : s.pc = .draining ∨ s.pc = .gone → s.buf = [] →
      Step s { s with refused := s.refused + 1 }

/-- `make(chan …, n)` panics for a negative size. -/
def makeChan (n : Int) : Res Nat := if n < 0 then .panic else .ok n.toNat

/-- `PreparePrograms` (prepare.go:15-19) and `PrepareProcesses` (prefork.go:22-23). -/
def preparePrograms (bufsize : Int) : Res St := do
  let cap ← makeChan (bufsize - 1)
  return { cap }

/-- `PrepareInstances` (prepare.go:65-72). -/
def prepareInstances (bufsize : Int) : Res St := do
  let bufsize := if bufsize ≤ 0 then 1 else bufsize
  let cap ← makeChan (bufsize - 1)
  return { cap }

/-- States reachable from `s₀`. -/
inductive Reach (s₀ : St) : St → Prop
  | init : Reach s₀ s₀
  | step {s t : St} : Reach s₀ s → Step s t → Reach s₀ t

/-- The result in the goroutine's hands. -/
def held : Pc → List Item
  | .holding x => [x]
  | _ => []

/-- The resources among results. -/
def resources (l : List Item) : List Nat := l.filterMap id

/-! ## C127 -/

/-- Where every resource is. -/
def everything (s : St) : List Nat :=
  resources (s.got ++ s.released ++ s.buf ++ held s.pc)

theorem resources_append (a b : List Item) : resources (a ++ b) = resources a ++ resources b := by
  simp [resources, List.filterMap_append]

theorem perm_step {s t : St} (h : (everything s).Perm (List.range s.made)) (e : Step s t) :
    (everything t).Perm (List.range t.made) := by
  cases e with
  | make hp =>
    simp only [everything, hp, held, resources_append, List.append_nil] at h ⊢
    rw [List.range_succ]
    simp only [resources, List.filterMap_nil, List.append_nil] at h
    exact List.Perm.append h (by simp [resources])
  | makeErr hp =>
    simpa [everything, hp, held, resources] using h
  | send x hp hb =>
    simpa [everything, hp, held, resources_append, List.append_assoc] using h
  | handOver x hp hb =>
    refine List.Perm.trans ?_ h
    simp only [everything, hp, held, hb, resources_append, List.append_nil, List.append_assoc]
    simp only [resources, List.filterMap_nil, List.append_nil, List.nil_append]
    exact List.Perm.append_left _ List.perm_append_comm
  | cancel => exact h
  | stop x hp hc =>
    refine List.Perm.trans ?_ h
    cases x with
    | none => simp [everything, hp, held, resources_append, resources]
    | some i =>
      simp only [everything, hp, held, resources_append, List.append_assoc]
      refine List.Perm.append_left _ (List.Perm.append_left _ ?_)
      simp only [resources, List.filterMap_nil, List.append_nil]
      exact List.perm_append_comm
  | drain x rest hp hb =>
    cases x with
    | none => simpa [everything, hp, hb, held, resources_append, resources] using h
    | some i =>
      simpa [everything, hp, hb, held, resources_append, resources] using h
  | finish hp hb => simpa [everything, hp, hb, held] using h
  | take x rest hb =>
    refine List.Perm.trans ?_ h
    simp only [everything, hb, resources_append, List.append_assoc]
    refine List.Perm.append_left _ ?_
    have e1 : resources (x :: rest) = resources [x] ++ resources rest := by
      rw [← resources_append]; rfl
    rw [e1]
    simp only [← List.append_assoc]
    refine List.Perm.append_right _ (List.Perm.append_right _ ?_)
    exact List.perm_append_comm
  | refuse hp hb => exact h

/-- Every resource which has been made is at exactly one place: given to one request, released,
waiting in the channel or in the goroutine's hands. -/
theorem conserved (cap : Nat) {s : St} (h : Reach { cap } s) :
    (everything s).Perm (List.range s.made) := by
  induction h with
  | init => simp [everything, resources, held]
  | step _ e ih => exact perm_step ih e

/-- No resource is given to two requests, and none which was given is released. -/
theorem given_once (cap : Nat) {s : St} (h : Reach { cap } s) :
    (resources s.got).Nodup ∧ ∀ i, some i ∈ s.got → some i ∉ s.released := by
  have hn : (everything s).Nodup := (conserved cap h).nodup_iff.2 List.nodup_range
  simp only [everything, resources_append, List.append_assoc] at hn
  rw [List.nodup_append] at hn
  refine ⟨hn.1, fun i hg hr => ?_⟩
  refine hn.2.2 i ?_ i ?_ rfl
  · simp [resources, hg]
  · simp [resources, hr]

/-- When the goroutine is gone, every resource has been given to a request or released. -/
theorem nothing_leaks (cap : Nat) {s : St} (h : Reach { cap } s) (hg : s.pc = .gone) (i : Nat)
    (hi : i < s.made) : some i ∈ s.got ∨ some i ∈ s.released := by
  have hb : s.buf = [] := by
    clear hi
    induction h with
    | init => simp at hg
    | step _ e ih =>
      cases e with
      | finish _ hb => exact hb
      | cancel => exact ih hg
      | take x rest hb => have := ih hg; simp [hb] at this
      | refuse _ hb => exact hb
      | drain x rest hp _ => simp [hp] at hg
      | _ => simp at hg
  have hm : i ∈ everything s := (conserved cap h).mem_iff.2 (by simpa using hi)
  simpa [everything, hb, hg, held, resources] using hm

/-- At most `cap + 1` resources are idle. -/
theorem bounded (cap : Nat) {s : St} (h : Reach { cap } s) :
    s.buf.length + (held s.pc).length ≤ cap + 1 := by
  have : s.buf.length ≤ cap ∧ s.cap = cap := by
    induction h with
    | init => simp
    | step _ e ih =>
      cases e with
      | send x hp hb => simp only [List.length_append, List.length_singleton]; omega
      | drain x rest hp hb | take x rest hb => rw [hb] at ih; simp only [List.length_cons] at ih; simp only; omega
      | _ => exact ih
  have : (held s.pc).length ≤ 1 := by cases s.pc <;> simp [held]
  omega

/-- Once the context is done, the goroutine can go on to its end without any request: the number of
steps is bounded by what it holds. -/
theorem stops (cap : Nat) {s : St} (h : Reach { cap } s) (hc : s.canceled = true) :
    ∃ t, Reach { cap } t ∧ t.pc = .gone ∧ t.got = s.got := by
  -- draining ends
  have dr : ∀ n (u : St), Reach { cap } u → u.pc = .draining → u.buf.length = n →
      ∃ t, Reach { cap } t ∧ t.pc = .gone ∧ t.got = u.got := by
    intro n
    induction n with
    | zero =>
      intro u hu hp hl
      exact ⟨_, hu.step (.finish u hp (List.length_eq_zero_iff.1 hl)), rfl, rfl⟩
    | succ n ih =>
      intro u hu hp hl
      match hb : u.buf with
      | [] => simp [hb] at hl
      | x :: rest =>
        obtain ⟨t, h1, h2, h3⟩ := ih _ (hu.step (.drain u x rest hp hb)) hp (by simp [hb] at hl; exact hl)
        exact ⟨t, h1, h2, h3⟩
  cases hp : s.pc with
  | gone => exact ⟨s, h, hp, rfl⟩
  | draining => exact dr _ s h hp rfl
  | holding x =>
    have h1 := h.step (.stop s x hp hc)
    obtain ⟨t, a, b, c⟩ := dr _ _ h1 rfl rfl
    exact ⟨t, a, b, c⟩
  | making =>
    have h1 := h.step (.makeErr s hp)
    have h2 := h1.step (.stop _ none rfl hc)
    obtain ⟨t, a, b, c⟩ := dr _ _ h2 rfl rfl
    exact ⟨t, a, b, c⟩

/-- A request isn't left waiting once the goroutine has closed the channel. -/
theorem answered {s : St} (hp : s.pc = .draining ∨ s.pc = .gone) :
    ∃ t, Step s t ∧ (t.got.length = s.got.length + 1 ∨ t.refused = s.refused + 1) := by
  match hb : s.buf with
  | [] => exact ⟨_, .refuse s hp hb, .inr rfl⟩
  | x :: rest => exact ⟨_, .take s x rest hb, .inl (by simp)⟩

/-- Preparing of instances works with any buffer size. -/
theorem instances_total (n : Int) : ∃ cap, prepareInstances n = .ok { cap } := by
  simp only [prepareInstances, makeChan]
  split
  · exact ⟨0, rfl⟩
  · rw [if_neg (by omega)]; exact ⟨_, rfl⟩

/-- Preparing of programs and processes with a positive buffer size works. -/
theorem programs_partial (n : Int) (hn : n > 0) : ∃ cap, preparePrograms n = .ok { cap } := by
  simp only [preparePrograms, makeChan]
  rw [if_neg (by omega)]; exact ⟨_, rfl⟩

/-- With any other size the server crashes. -/
theorem programs_panic_refuted (n : Int) (hn : n ≤ 0) : preparePrograms n = .panic := by
  simp only [preparePrograms, makeChan]
  rw [if_pos (by omega)]; rfl

/-- An error which happened once is given to as many later requests as it was made in advance, even
though making has been possible ever since: for every buffer size `n + 1`, the next `n` requests
fail. -/
theorem stale_errors_refuted (n : Nat) : ∃ s, Reach { cap := n } s ∧ s.pc = .holding (some 0) ∧
    s.buf = List.replicate n none := by
  have fill : ∀ k, k ≤ n → ∃ s, Reach { cap := n } s ∧ s.pc = .making ∧
      s.buf = List.replicate k none ∧ s.cap = n ∧ s.made = 0 := by
    intro k
    induction k with
    | zero => exact fun _ => ⟨_, .init, rfl, rfl, rfl, rfl⟩
    | succ k ih =>
      intro hk
      obtain ⟨s, h, hp, hb, hc, hm⟩ := ih (by omega)
      have h1 := h.step (.makeErr s hp)
      have h2 := h1.step (.send _ none rfl (by simp only [hb, hc, List.length_replicate]; omega))
      exact ⟨_, h2, rfl, by simp only [hb]; rw [List.replicate_succ'], hc, hm⟩
  obtain ⟨s, h, hp, hb, hc, hm⟩ := fill n (Nat.le_refl n)
  exact ⟨_, h.step (.make s hp), by simp [hm], hb⟩

example : ∃ s, Reach { cap := 1 } s ∧ s.pc = .gone ∧ s.got = [some 0] ∧
    s.released = [some 2, some 1] := by
  have h := Reach.init (s₀ := { cap := 1 })
  replace h := h.step (.make _ rfl)
  replace h := h.step (.send _ (some 0) rfl (by decide))
  replace h := h.step (.take _ (some 0) [] rfl)
  replace h := h.step (.make _ rfl)
  replace h := h.step (.send _ (some 1) rfl (by decide))
  replace h := h.step (.make _ rfl)
  replace h := h.step (.cancel _)
  replace h := h.step (.stop _ (some 2) rfl rfl)
  replace h := h.step (.drain _ (some 1) [] rfl rfl)
  replace h := h.step (.finish _ rfl rfl)
  exact ⟨_, h, rfl, rfl, rfl⟩

end Gate.Prepare
