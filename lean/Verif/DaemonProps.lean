import Verif.Daemon
/-
C121: the scope of programs started through the daemon. C122: calls during its initialization. C123: instances outlive the requests which start them.
-/
namespace Gate.Daemon
open Gate.ScopeAlias (Pkg context contains resolve)

/-! ### C121 -/

/-- A context made with a scope contains the names which the scope gives, and no others, whatever the context contained before. -/
theorem contains_context (p : Pkg) (ctx : Option (List Bytes)) (scope : List Bytes) (n : Bytes) : contains (context p ctx scope) n = true ↔ ∃ s ∈ scope, resolve p s = n := by
  unfold context
  split
  · rename_i h
    rw [h.1, h.2]
    simp [contains]
  · simp only [contains, List.any_map, List.any_eq_true, Function.comp, decide_eq_true_eq]
    constructor
    · rintro ⟨s, h1, h2⟩; exact ⟨s, h1, h2⟩
    · rintro ⟨s, h1, h2⟩; exact ⟨s, h1, h2⟩

theorem srun_append (p : Pkg) (a b : List SLabel) (s : Scopes) : srun p s (a ++ b) = srun p (srun p s a) b := by
  induction a generalizing s with
  | nil => rfl
  | cons l a ih => exact ih _

theorem no_assign (p : Pkg) (mid : List SLabel) (h : ∀ c scope, SLabel.assign c scope ∉ mid) (s : Scopes) : (srun p s mid).ctx = s.ctx := by
  induction mid generalizing s with
  | nil => rfl
  | cons l mid ih =>
    have := ih (fun c scope hm => h c scope (List.mem_cons_of_mem _ hm)) (sstep p s l)
    refine this.trans ?_
    cases l with
    | assign c scope => exact absurd List.mem_cons_self (h c scope)
    | use c => rfl

/-- C121: a program which is started through the daemon has the scope which its caller gave, and nothing else - provided that no other call sets its own in between. Whatever has happened before (also with other scopes). -/
theorem own_scope_partial (p : Pkg) (before mid : List SLabel) (c : Nat) (scope : List Bytes) (h : ∀ c' scope', SLabel.assign c' scope' ∉ mid) :
    ∃ ctx, (srun p {} (before ++ .assign c scope :: mid ++ [.use c])).used c = some ctx ∧ ∀ n, contains ctx n = true ↔ ∃ s ∈ scope, resolve p s = n := by
  refine ⟨context p (srun p {} before).ctx scope, ?_, contains_context p _ scope⟩
  rw [srun_append, srun_append]
  simp only [srun, sstep]
  rw [no_assign p mid h]
  exact if_pos trivial

/-- C121, refuted: when another call is made at the same time, the program may have that call's scope instead, whatever the two scopes are. -/
theorem other_scope_refuted (p : Pkg) (before : List SLabel) (c d : Nat) (a b : List Bytes) :
    ∃ ctx, (srun p {} (before ++ [.assign c a, .assign d b, .use c])).used c = some ctx ∧ ∀ n, contains ctx n = true ↔ ∃ s ∈ b, resolve p s = n := by
  have := own_scope_partial p (before ++ [.assign c a]) [] c b (by simp)
  obtain ⟨ctx, h1, h2⟩ := this
  refine ⟨ctx, ?_, h2⟩
  rw [← h1]
  simp only [srun_append, srun, sstep, List.append_assoc, List.cons_append, List.nil_append]

/-- C121, refuted: no context is ever released: there is one more with each call which gives a scope. -/
theorem contexts_kept_refuted (p : Pkg) (ls : List SLabel) (s : Scopes) (h : ∀ c scope, SLabel.assign c scope ∈ ls → scope ≠ []) :
    (srun p s ls).depth = s.depth + ls.countP (fun l => match l with | .assign _ _ => true | .use _ => false) := by
  induction ls generalizing s with
  | nil => rfl
  | cons l ls ih =>
    have := ih (sstep p s l) (fun c scope hm => h c scope (List.mem_cons_of_mem _ hm))
    refine this.trans ?_
    cases l with
    | assign c scope =>
      have hs := h c scope List.mem_cons_self
      have : ¬ (scope = [] ∧ s.ctx = none) := fun e => hs e.1
      simp only [sstep, List.countP_cons, this, if_false, if_true]
      omega
    | use c => simp [sstep]

example : (srun {} {} [.assign 0 [[1]], .assign 1 [], .use 0, .use 1]).depth = 2 := by decide +kernel

/-! ### C122 -/

theorem irun_inv (P : InitSt → Prop) (hP : ∀ s u l, istep s l = some u → P s → P u) (ls : List ILabel) (s u : InitSt) (h : irun s ls = some u) (hs : P s) : P u := by
  induction ls generalizing s with
  | nil => cases h; exact hs
  | cons l ls ih =>
    simp only [irun] at h
    cases hst : istep s l with
    | none => rw [hst] at h; cases h
    | some v => rw [hst] at h; exact ih v h (hP s v l hst hs)

theorem setCaller_cases (f : Nat → Caller) (c : Nat) (v : Caller) (c' : Nat) : setCaller f c v c' = if c' = c then v else f c' := rfl

structure IGood (s : InitSt) : Prop where
  before : s.sent = false → s.server = false ∧ s.buf = false ∧ (s.closed = false → s.chanVar = true)
  after : s.sent = true → s.closed = false → (s.buf = true ∧ s.server = false ∧ s.chanVar = true) ∨ (s.buf = false ∧ s.server = true ∧ s.chanVar = false)
  got : ∀ c, s.caller c = .got → s.sent = true
  open_ : s.closed = false → ∀ c, s.caller c = .last → s.server = true
  openAborted : s.closed = false → ∀ c, s.caller c ≠ .aborted

theorem igood_step (s u : InitSt) (l : ILabel) (h : istep s l = some u) (g : IGood s) : IGood u := by
  have mk : ∀ (c : Nat) (v : Caller), (v = .got → s.sent = true) → (s.closed = false → v = .last → s.server = true) → (s.closed = false → v ≠ .aborted) → IGood { s with caller := setCaller s.caller c v } := by
    intro c v h1 h2 h3
    refine ⟨g.before, g.after, ?_, ?_, ?_⟩
    · intro c' hc; simp only [setCaller_cases] at hc; split at hc
      · exact h1 hc
      · exact g.got c' hc
    · intro ho c' hc; simp only [setCaller_cases] at hc; split at hc
      · exact h2 ho hc
      · exact g.open_ ho c' hc
    · intro ho c' hc; simp only [setCaller_cases] at hc; split at hc
      · exact h3 ho hc
      · exact g.openAborted ho c' hc
  have server_sent : s.server = true → s.sent = true := by
    intro hs
    cases hb : s.sent with
    | true => rfl
    | false => have := (g.before hb).1; rw [hs] at this; cases this
  cases l with
  | enter c =>
    simp only [istep] at h
    split at h
    · cases h; exact mk c .start (by simp) (by simp) (by simp)
    · cases h
  | move c =>
    simp only [istep] at h
    split at h
    · cases h
      refine mk c _ (fun e => ?_) (fun _ e => ?_) (fun _ e => ?_)
      · split at e
        · exact server_sent ‹_›
        · cases e
      · split at e <;> cases e
      · split at e <;> cases e
    · cases h
      refine mk c _ (fun e => ?_) (fun ho e => ?_) (fun _ e => ?_)
      · split at e <;> cases e
      · split at e
        · cases e
        · rename_i hs
          cases hb : s.sent with
          | false => exact absurd ((g.before hb).2.2 ho) hs
          | true =>
            rcases g.after hb ho with ⟨_, _, e⟩ | ⟨_, e, _⟩
            · exact absurd e hs
            · exact e
      · split at e <;> cases e
    · rename_i hc
      split at h
      · rename_i hb
        cases h
        have hsent : s.sent = true := by
          cases e : s.sent with
          | true => rfl
          | false => have := (g.before e).2.1; rw [hb] at this; cases this
        refine ⟨?_, ?_, ?_, ?_, ?_⟩
        · intro e; simp only at e; rw [hsent] at e; cases e
        · intro _ _; exact Or.inr ⟨rfl, rfl, rfl⟩
        · intro c' _; exact hsent
        · intro _ _ _; rfl
        · intro ho c' he; simp only [setCaller_cases] at he; split at he
          · cases he
          · exact g.openAborted ho c' he
      · split at h
        · rename_i hb hcl
          cases h
          refine ⟨fun e => ⟨rfl, (g.before e).2.1, fun e' => ?_⟩, fun _ e' => ?_, ?_, fun e' => ?_, fun e' => ?_⟩
          · simp only at e'; rw [hcl] at e'; cases e'
          · simp only at e'; rw [hcl] at e'; cases e'
          · intro c' he; simp only [setCaller_cases] at he; split at he
            · cases he
            · exact g.got c' he
          · simp only at e'; rw [hcl] at e'; cases e'
          · simp only at e'; rw [hcl] at e'; cases e'
        · cases h
    · rename_i hc
      cases h
      refine mk c _ (fun e => ?_) (fun _ e => ?_) (fun ho e => ?_)
      · split at e
        · exact server_sent ‹_›
        · cases e
      · split at e <;> cases e
      · split at e
        · cases e
        · exact absurd (g.open_ ho c hc) ‹_›
    · cases h
  | init =>
    simp only [istep] at h
    split at h
    · rename_i hb
      cases h
      have b := g.before hb.1
      exact ⟨fun e => (by cases e), fun _ _ => Or.inl ⟨rfl, b.1, b.2.2 hb.2⟩, fun _ _ => rfl, g.open_, g.openAborted⟩
    · cases h
  | terminate =>
    simp only [istep] at h
    split at h
    · cases h
      exact ⟨fun e => ⟨(g.before e).1, (g.before e).2.1, fun e' => (by cases e')⟩, fun _ e' => (by cases e'), g.got, fun e' => (by cases e'), fun e' => (by cases e')⟩
    · cases h

theorem igood (ls : List ILabel) (s : InitSt) (h : irun {} ls = some s) : IGood s :=
  irun_inv IGood (fun s u l => igood_step s u l) ls {} s h
    ⟨fun _ => ⟨rfl, rfl, fun _ => rfl⟩, fun e => (by cases e), fun _ e => (by cases e), fun _ _ e => (by cases e), fun _ _ e => (by cases e)⟩

/-- C122: no call gets to the server before it has been initialized. -/
theorem not_before (ls : List ILabel) (s : InitSt) (h : irun {} ls = some s) (c : Nat) (hc : s.caller c = .got) : s.sent = true := (igood ls s h).got c hc

/-- C122: no call fails as long as the daemon isn't being terminated. -/
theorem not_aborted (ls : List ILabel) (s : InitSt) (h : irun {} ls = some s) (ho : s.closed = false) (c : Nat) : s.caller c ≠ .aborted := (igood ls s h).openAborted ho c

/-- This many of its own steps get the call to the server. -/
def Served (c : Nat) (s : InitSt) (k : Nat) : Prop := ∃ u, irun s (List.replicate k (.move c)) = some u ∧ u.caller c = .got

theorem served_back (c : Nat) (s v : InitSt) (k : Nat) (h : istep s (.move c) = some v) (hv : Served c v k) : Served c s (k + 1) := by
  obtain ⟨u, h1, h2⟩ := hv
  exact ⟨u, by simp only [List.replicate, irun, h]; exact h1, h2⟩

theorem served_got (c : Nat) (s : InitSt) (h : s.caller c = .got) : Served c s 0 := ⟨s, rfl, h⟩

theorem served_last (c : Nat) (s : InitSt) (h : s.caller c = .last) (hs : s.server = true) : Served c s 1 :=
  served_back c s { s with caller := setCaller s.caller c .got } 0 (by simp only [istep, h, hs, if_true]) (served_got c _ (if_pos rfl))

theorem served_receive (c : Nat) (s : InitSt) (h : s.caller c = .receive) (hb : s.buf = true) : Served c s 2 :=
  served_back c s { s with buf := false, server := true, chanVar := false, caller := setCaller s.caller c .last } 1 (by simp only [istep, h, hb, if_true]) (served_last c _ (if_pos rfl) rfl)

theorem served_second (c : Nat) (s : InitSt) (h : s.caller c = .second) (hs : (s.buf = true ∧ s.chanVar = true) ∨ (s.server = true ∧ s.chanVar = false)) : ∃ k, k ≤ 3 ∧ Served c s k := by
  rcases hs with ⟨hb, hv⟩ | ⟨hs, hv⟩
  · exact ⟨3, Nat.le_refl _, served_back c s { s with caller := setCaller s.caller c .receive } 2 (by simp only [istep, h, hv, if_true]) (served_receive c _ (if_pos rfl) hb)⟩
  · exact ⟨2, by omega, served_back c s { s with caller := setCaller s.caller c .last } 1 (by simp [istep, h, hv]) (served_last c _ (if_pos rfl) hs)⟩

theorem served_start (c : Nat) (s : InitSt) (h : s.caller c = .start) (hs : (s.buf = true ∧ s.chanVar = true) ∨ (s.server = true ∧ s.chanVar = false)) : ∃ k, k ≤ 4 ∧ Served c s k := by
  cases hv : s.server with
  | true => exact ⟨1, by omega, served_back c s { s with caller := setCaller s.caller c .got } 0 (by simp [istep, h, hv]) (served_got c _ (if_pos rfl))⟩
  | false =>
    obtain ⟨k, hk, hser⟩ := served_second c { s with caller := setCaller s.caller c .second } (if_pos rfl) hs
    exact ⟨k + 1, by omega, served_back c s _ k (by simp [istep, h, hv]) hser⟩

/-- C122: once the daemon has been initialized, a call gets to the server, in at most four steps of its own - unless it's already waiting and another one has taken the server from the channel. -/
theorem served_partial (ls : List ILabel) (s : InitSt) (h : irun {} ls = some s) (hs : s.sent = true) (ho : s.closed = false) (c : Nat) (hw : s.caller c ≠ .receive ∨ s.buf = true) (ha : s.caller c ≠ .absent) :
    ∃ k u, k ≤ 4 ∧ irun s (List.replicate k (.move c)) = some u ∧ u.caller c = .got := by
  have g := igood ls s h
  have na := g.openAborted ho c
  have nl := g.open_ ho c
  have hs' : (s.buf = true ∧ s.chanVar = true) ∨ (s.server = true ∧ s.chanVar = false) := by
    rcases g.after hs ho with ⟨b, _, cv⟩ | ⟨_, sv, cv⟩
    · exact Or.inl ⟨b, cv⟩
    · exact Or.inr ⟨sv, cv⟩
  have fin : ∀ k, k ≤ 4 → Served c s k → ∃ k u, k ≤ 4 ∧ irun s (List.replicate k (.move c)) = some u ∧ u.caller c = .got := fun k hk ⟨u, h1, h2⟩ => ⟨k, u, hk, h1, h2⟩
  cases hc : s.caller c with
  | absent => exact absurd hc ha
  | start => obtain ⟨k, hk, h⟩ := served_start c s hc hs'; exact fin k hk h
  | second => obtain ⟨k, hk, h⟩ := served_second c s hc hs'; exact fin k (by omega) h
  | receive => exact fin 2 (by omega) (served_receive c s hc (hw.resolve_left (fun n => n hc)))
  | last => exact fin 1 (by omega) (served_last c s hc (nl hc))
  | got => exact fin 0 (by omega) (served_got c s hc)
  | aborted => exact absurd hc na

/-- C122, refuted: such a call hangs until the daemon is terminated. -/
theorem hangs_refuted (ls : List ILabel) (s u : InitSt) (c : Nat) (hs : s.sent = true) (hb : s.buf = false) (ho : s.closed = false) (hc : s.caller c = .receive) (ht : ILabel.terminate ∉ ls) (h : irun s ls = some u) : u.caller c = .receive := by
  have : ∀ (ls : List ILabel) (s : InitSt), ILabel.terminate ∉ ls → irun s ls = some u → s.sent = true ∧ s.buf = false ∧ s.closed = false ∧ s.caller c = .receive → u.caller c = .receive := by
    intro ls
    induction ls with
    | nil => intro s _ h i; cases h; exact i.2.2.2
    | cons l ls ih =>
      intro s ht h i
      simp only [irun] at h
      cases hst : istep s l with
      | none => rw [hst] at h; cases h
      | some v =>
        rw [hst] at h
        refine ih v (fun hm => ht (List.mem_cons_of_mem _ hm)) h ?_
        obtain ⟨i1, i2, i3, i4⟩ := i
        have keep : ∀ (c' : Nat) (w : Caller), c' ≠ c → setCaller s.caller c' w c = .receive := fun c' w hn => (if_neg (fun e => hn e.symm)).trans i4
        cases l with
        | enter c' =>
          simp only [istep] at hst
          split at hst
          · rename_i ha
            cases hst
            exact ⟨i1, i2, i3, keep c' _ (fun e => by rw [e, i4] at ha; cases ha)⟩
          · cases hst
        | move c' =>
          by_cases hn : c' = c
          · subst hn
            simp only [istep, i4, i2, i3] at hst
            cases hst
          · simp only [istep] at hst
            split at hst
            · cases hst; exact ⟨i1, i2, i3, keep c' _ hn⟩
            · cases hst; exact ⟨i1, i2, i3, keep c' _ hn⟩
            · rw [i2, i3] at hst; cases hst
            · cases hst; exact ⟨i1, i2, i3, keep c' _ hn⟩
            · cases hst
        | init =>
          simp only [istep, i1] at hst
          cases hst
        | terminate => exact absurd List.mem_cons_self ht
  exact this ls s ht h ⟨hs, hb, ho, hc⟩

/-- C122, refuted: two calls made before the initialization is done are enough for that. -/
theorem hangs_reachable_refuted : ∃ s, irun {} [.enter 0, .enter 1, .move 0, .move 1, .move 0, .move 1, .init, .move 0, .move 0] = some s ∧ s.caller 0 = .got ∧ s.caller 1 = .receive ∧ s.sent = true ∧ s.buf = false ∧ s.closed = false :=
  ⟨_, rfl, rfl, rfl, rfl, rfl, rfl⟩

/-! ### C123 -/

theorem done_values (canceled : Nat → Bool) (n : Nat) (c : Ctx) : (withValues n c).done canceled = c.done canceled := by
  induction n with
  | zero => rfl
  | succ n ih => exact ih

/-- Detaching doesn't detach from cancellation. -/
theorem done_request (canceled : Nat → Bool) (n r : Nat) : (withInstanceID (detached (withValues n (requestContext r)))).done canceled = (canceled (2 * r) || canceled (2 * r + 1)) := by
  have : (withInstanceID (detached (withValues n (requestContext r)))).done canceled = (requestContext r).done canceled := done_values canceled n _
  rw [this]
  simp [requestContext, Ctx.done]

theorem done_bus (canceled : Nat → Bool) (n : Nat) : (withInstanceID (detached (withValues n .background))).done canceled = false := done_values canceled n .background

def live (p : Phase) : Prop := p = .running ∨ p = .suspending

structure Good (s : Sys) : Prop where
  web : ∀ i r k, s.by_ i = some (r, k) → (s.ctx i).done s.canceled = (s.canceled (2 * r) || s.canceled (2 * r + 1))
  bus : ∀ i, s.by_ i = none → (s.ctx i).done s.canceled = false
  even : ∀ r, s.canceled (2 * r) = true → s.returned r = true ∨ s.gone r = true
  odd : ∀ r, s.canceled (2 * r + 1) = true → s.gone r = true
  ret : ∀ r, s.returned r = true → s.canceled (2 * r) = true
  call : ∀ i r, s.by_ i = some (r, .call) → live (s.phase i) → s.returned r = true → s.gone r = true
  why : ∀ i, s.phase i = .suspending ∨ s.phase i = .suspended → s.asked i = true ∨ ∃ r k, s.by_ i = some (r, k) ∧ (s.gone r = true ∨ (k = .launch ∧ s.returned r = true))
  shape : ∀ i, ∃ c, s.ctx i = c ∧ ((∃ r k n, s.by_ i = some (r, k) ∧ c = withInstanceID (detached (withValues n (requestContext r)))) ∨ (s.by_ i = none ∧ ∀ f, c.done f = false))

theorem set_same {α : Type} (f : Nat → α) (k : Nat) (v : α) : set f k v k = v := if_pos rfl
theorem set_other {α : Type} (f : Nat → α) (k k' : Nat) (v : α) (h : k' ≠ k) : set f k v k' = f k' := if_neg h

theorem good_init : Good {} :=
  ⟨fun _ _ _ h => (by cases h), fun _ _ => rfl, fun _ h => (by cases h), fun _ h => (by cases h), fun _ h => (by cases h), fun _ _ h => (by cases h), fun _ h => (by rcases h with h | h <;> cases h), fun _ => ⟨_, rfl, Or.inr ⟨rfl, fun _ => rfl⟩⟩⟩

/-- The first two from the last. -/
theorem good_mk (s : Sys) (even : ∀ r, s.canceled (2 * r) = true → s.returned r = true ∨ s.gone r = true) (odd : ∀ r, s.canceled (2 * r + 1) = true → s.gone r = true) (ret : ∀ r, s.returned r = true → s.canceled (2 * r) = true)
    (call : ∀ i r, s.by_ i = some (r, .call) → live (s.phase i) → s.returned r = true → s.gone r = true)
    (why : ∀ i, s.phase i = .suspending ∨ s.phase i = .suspended → s.asked i = true ∨ ∃ r k, s.by_ i = some (r, k) ∧ (s.gone r = true ∨ (k = .launch ∧ s.returned r = true)))
    (shape : ∀ i, ∃ c, s.ctx i = c ∧ ((∃ r k n, s.by_ i = some (r, k) ∧ c = withInstanceID (detached (withValues n (requestContext r)))) ∨ (s.by_ i = none ∧ ∀ f, c.done f = false))) : Good s := by
  refine ⟨?_, ?_, even, odd, ret, call, why, shape⟩
  · intro i r k h
    obtain ⟨c, e, h' | h'⟩ := shape i
    · obtain ⟨r', k', n, h1, h2⟩ := h'
      rw [h] at h1; cases h1
      rw [e, h2]; exact done_request _ _ _
    · rw [h] at h'; cases h'.1
  · intro i h
    obtain ⟨c, e, h' | h'⟩ := shape i
    · obtain ⟨r', k', n, h1, _⟩ := h'
      rw [h] at h1; cases h1
    · rw [e]; exact h'.2 _

theorem good_step (s u : Sys) (l : Label) (h : Step s l u) (g : Good s) : Good u := by
  cases h with
  | start i r k n hi hr hg =>
    apply good_mk
    · exact g.even
    · exact g.odd
    · exact g.ret
    · intro i' r' h1 h2 h3
      simp only at h1 h2 h3
      by_cases e : i' = i
      · subst e
        rw [set_same] at h1
        cases h1
        rw [hr] at h3; cases h3
      · rw [set_other _ _ _ _ e] at h1 h2
        exact g.call i' r' h1 h2 h3
    · intro i' h1
      simp only at h1 ⊢
      by_cases e : i' = i
      · subst e
        rw [set_same] at h1
        rcases h1 with h1 | h1 <;> cases h1
      · rw [set_other _ _ _ _ e] at h1 ⊢
        rw [set_other _ _ _ _ e]
        exact g.why i' h1
    · intro i'
      simp only
      by_cases e : i' = i
      · subst e
        refine ⟨_, set_same _ _ _, Or.inl ⟨r, k, n, set_same _ _ _, rfl⟩⟩
      · rw [set_other _ _ _ _ e, set_other _ _ _ _ e]
        exact g.shape i'
  | startBus i n hi =>
    apply good_mk
    · exact g.even
    · exact g.odd
    · exact g.ret
    · intro i' r' h1 h2 h3
      simp only at h1 h2 h3
      by_cases e : i' = i
      · subst e
        rw [set_same] at h1
        cases h1
      · rw [set_other _ _ _ _ e] at h1 h2
        exact g.call i' r' h1 h2 h3
    · intro i' h1
      simp only at h1 ⊢
      by_cases e : i' = i
      · subst e
        rw [set_same] at h1
        rcases h1 with h1 | h1 <;> cases h1
      · rw [set_other _ _ _ _ e] at h1 ⊢
        rw [set_other _ _ _ _ e]
        exact g.why i' h1
    · intro i'
      simp only
      by_cases e : i' = i
      · subst e
        refine ⟨_, set_same _ _ _, Or.inr ⟨set_same _ _ _, fun f => done_bus f n⟩⟩
      · rw [set_other _ _ _ _ e, set_other _ _ _ _ e]
        exact g.shape i'
  | return_ r hr hc =>
    apply good_mk
    · intro r' h1
      simp only at h1 ⊢
      by_cases e : r' = r
      · subst e; exact Or.inl (set_same _ _ _)
      · rw [set_other _ _ _ _ (by omega)] at h1
        rw [set_other _ _ _ _ e]
        exact g.even r' h1
    · intro r' h1
      simp only at h1
      rw [set_other _ _ _ _ (by omega)] at h1
      exact g.odd r' h1
    · intro r' h1
      simp only at h1 ⊢
      by_cases e : r' = r
      · subst e; exact set_same _ _ _
      · rw [set_other _ _ _ _ e] at h1
        rw [set_other _ _ _ _ (by omega)]
        exact g.ret r' h1
    · intro i r' h1 h2 h3
      simp only at h1 h2 h3 ⊢
      by_cases e : r' = r
      · subst e; exact hc i h1 h2
      · rw [set_other _ _ _ _ e] at h3
        exact g.call i r' h1 h2 h3
    · intro i h1
      rcases g.why i h1 with h | ⟨r', k, h2, h3⟩
      · exact Or.inl h
      · refine Or.inr ⟨r', k, h2, ?_⟩
        rcases h3 with h3 | ⟨h3, h4⟩
        · exact Or.inl h3
        · refine Or.inr ⟨h3, ?_⟩
          simp only
          by_cases e : r' = r
          · subst e; exact set_same _ _ _
          · rw [set_other _ _ _ _ e]; exact h4
    · exact g.shape
  | drop r hr =>
    apply good_mk
    · intro r' h1
      simp only at h1 ⊢
      by_cases e : r' = r
      · subst e; exact Or.inr (set_same _ _ _)
      · rw [set_other _ _ _ _ (by omega), set_other _ _ _ _ (by omega)] at h1
        rw [set_other _ _ _ _ e]
        exact g.even r' h1
    · intro r' h1
      simp only at h1 ⊢
      by_cases e : r' = r
      · subst e; exact set_same _ _ _
      · rw [set_other _ _ _ _ (by omega), set_other _ _ _ _ (by omega)] at h1
        rw [set_other _ _ _ _ e]
        exact g.odd r' h1
    · intro r' h1
      simp only at h1 ⊢
      rw [set_other _ _ _ _ (by omega)]
      by_cases e : r' = r
      · subst e; exact set_same _ _ _
      · rw [set_other _ _ _ _ (by omega)]; exact g.ret r' h1
    · intro i r' h1 h2 h3
      simp only at h1 h2 h3 ⊢
      by_cases e : r' = r
      · subst e; exact set_same _ _ _
      · rw [set_other _ _ _ _ e]; exact g.call i r' h1 h2 h3
    · intro i h1
      rcases g.why i h1 with h | ⟨r', k, h2, h3⟩
      · exact Or.inl h
      · refine Or.inr ⟨r', k, h2, ?_⟩
        rcases h3 with h3 | h3
        · left
          simp only
          by_cases e : r' = r
          · subst e; exact set_same _ _ _
          · rw [set_other _ _ _ _ e]; exact h3
        · exact Or.inr h3
    · exact g.shape
  | ask i hp =>
    apply good_mk
    · exact g.even
    · exact g.odd
    · exact g.ret
    · intro i' r' h1 h2 h3
      simp only at h1 h2 h3
      by_cases e : i' = i
      · subst e; exact g.call i' r' h1 (Or.inl hp) h3
      · rw [set_other _ _ _ _ e] at h2; exact g.call i' r' h1 h2 h3
    · intro i' h1
      simp only at h1 ⊢
      by_cases e : i' = i
      · subst e; exact Or.inl (set_same _ _ _)
      · rw [set_other _ _ _ _ e] at h1 ⊢
        exact g.why i' h1
    · exact g.shape
  | notice i hp hd =>
    apply good_mk
    · exact g.even
    · exact g.odd
    · exact g.ret
    · intro i' r' h1 h2 h3
      simp only at h1 h2 h3
      by_cases e : i' = i
      · subst e; exact g.call i' r' h1 (Or.inl hp) h3
      · rw [set_other _ _ _ _ e] at h2; exact g.call i' r' h1 h2 h3
    · intro i' h1
      simp only at h1 ⊢
      by_cases e : i' = i
      · subst e
        right
        cases hb : s.by_ i' with
        | none => rw [g.bus i' hb] at hd; cases hd
        | some x =>
          obtain ⟨r, k⟩ := x
          refine ⟨r, k, rfl, ?_⟩
          rw [g.web i' r k hb, Bool.or_eq_true] at hd
          rcases hd with hd | hd
          · rcases g.even r hd with h | h
            · cases k with
              | call => exact Or.inl (g.call i' r hb (Or.inl hp) h)
              | launch => exact Or.inr ⟨rfl, h⟩
            · exact Or.inl h
          · exact Or.inl (g.odd r hd)
      · rw [set_other _ _ _ _ e] at h1
        exact g.why i' h1
    · exact g.shape
  | suspended i hp =>
    apply good_mk
    · exact g.even
    · exact g.odd
    · exact g.ret
    · intro i' r' h1 h2 h3
      simp only at h1 h2 h3
      by_cases e : i' = i
      · subst e; exact g.call i' r' h1 (Or.inr hp) h3
      · rw [set_other _ _ _ _ e] at h2; exact g.call i' r' h1 h2 h3
    · intro i' h1
      simp only at h1 ⊢
      by_cases e : i' = i
      · subst e; exact g.why i' (Or.inl hp)
      · rw [set_other _ _ _ _ e] at h1
        exact g.why i' h1
    · exact g.shape
  | end_ i hp =>
    apply good_mk
    · exact g.even
    · exact g.odd
    · exact g.ret
    · intro i' r' h1 h2 h3
      simp only at h1 h2 h3
      by_cases e : i' = i
      · subst e; exact g.call i' r' h1 hp h3
      · rw [set_other _ _ _ _ e] at h2; exact g.call i' r' h1 h2 h3
    · intro i' h1
      simp only at h1 ⊢
      by_cases e : i' = i
      · subst e; rw [set_same] at h1; rcases h1 with h1 | h1 <;> cases h1
      · rw [set_other _ _ _ _ e] at h1
        exact g.why i' h1
    · exact g.shape

theorem good (s : Sys) (h : Reachable s) : Good s := by
  obtain ⟨ls, h⟩ := h
  have : ∀ {a b : Sys} {ls : List Label}, Steps a ls b → Good a → Good b := by
    intro a b ls h
    induction h with
    | nil => exact id
    | cons h1 _ ih => exact fun g => ih (good_step _ _ _ h1 g)
  exact this h good_init

/-- C123: an instance started through the bus is suspended only if somebody asks for it. -/
theorem bus_goes_on (s : Sys) (h : Reachable s) (i : Nat) (hb : s.by_ i = none) (hp : s.phase i = .suspending ∨ s.phase i = .suspended) : s.asked i = true := by
  rcases (good s h).why i hp with h | ⟨r, k, h, _⟩
  · exact h
  · rw [hb] at h; cases h

/-- C123: an instance which a web client has called is suspended only if somebody asks for it, or the client goes away. -/
theorem call_goes_on (s : Sys) (h : Reachable s) (i r : Nat) (hb : s.by_ i = some (r, .call)) (hp : s.phase i = .suspending ∨ s.phase i = .suspended) : s.asked i = true ∨ s.gone r = true := by
  rcases (good s h).why i hp with h | ⟨r', k, h, h'⟩
  · exact Or.inl h
  · rw [hb] at h
    cases h
    rcases h' with h' | ⟨h', _⟩
    · exact Or.inr h'
    · cases h'

/-- C123: an instance which was launched or resumed by a web request isn't suspended by itself as long as the request is being handled and its client is there. -/
theorem launch_goes_on_partial (s : Sys) (h : Reachable s) (i r : Nat) (hb : s.by_ i = some (r, .launch)) (hr : s.returned r = false) (hg : s.gone r = false) (hp : s.phase i = .suspending ∨ s.phase i = .suspended) : s.asked i = true := by
  rcases (good s h).why i hp with h | ⟨r', k, h, h'⟩
  · exact h
  · rw [hb] at h
    cases h
    rcases h' with h' | ⟨_, h'⟩
    · rw [hg] at h'; cases h'
    · rw [hr] at h'; cases h'

/-- C123, refuted: when the request has ended, the I/O loop of an instance which it has launched is told to suspend it, from then on as long as the instance runs. -/
theorem launch_suspended_refuted (s : Sys) (h : Reachable s) (i r : Nat) (k : Kind) (hb : s.by_ i = some (r, k)) (hr : s.returned r = true) (hp : s.phase i = .running) :
    ∃ u, Step s (.notice i) u ∧ u.phase i = .suspending := by
  have g := good s h
  have hd : (s.ctx i).done s.canceled = true := by rw [g.web i r k hb, g.ret r hr]; rfl
  exact ⟨_, .notice s i hp hd, set_same _ _ _⟩

/-- C123, refuted: an instance is launched, the response is sent, and the instance is suspended; nobody has asked for that or gone away. -/
theorem launch_reachable_refuted (i r n : Nat) : ∃ s, Steps {} [.start i r .launch n, .return_ r, .notice i, .suspended i] s ∧ s.phase i = .suspended ∧ s.asked i = false ∧ s.gone r = false := by
  refine ⟨_, .cons (.start {} i r .launch n rfl rfl rfl) (.cons (.return_ _ r rfl ?_) (.cons (.notice _ i (set_same _ _ _) ?_) (.cons (.suspended _ i (set_same _ _ _)) (.nil _)))), set_same _ _ _, set_same _ _ _, rfl⟩
  · intro i' h
    simp only at h
    by_cases e : i' = i
    · subst e; rw [set_same] at h; cases h
    · rw [set_other _ _ _ _ e] at h; cases h
  · simp only [set_same]
    rw [done_request, set_same]
    rfl

/-- A called instance which runs to its end, and the handler returns. -/
example : ∃ s, Steps {} [.start 0 5 .call 3, .end_ 0, .return_ 5] s ∧ s.phase 0 = .ended ∧ s.returned 5 = true := by
  refine ⟨_, .cons (.start {} 0 5 .call 3 rfl rfl rfl) (.cons (.end_ _ 0 (Or.inl rfl)) (.cons (.return_ _ 5 rfl ?_) (.nil _))), rfl, rfl⟩
  intro i h hp
  by_cases e : i = 0
  · subst e; rcases hp with hp | hp <;> cases hp
  · simp only [set_other _ _ _ _ e] at h; cases h

end Gate.Daemon
