import Verif.StartupThms

/-! # Configurations, HTTP handlers and stopping of the gate-server program (C154) -/

namespace Gate.Startup
open Gate.Auth (str)

/-! ### Examples and refutations -/

/-- A configuration of a public server. -/
def good : Conf :=
  ⟨1, str "memory", false, str "filesystem", true, str "/var/lib/gate/image", str "public", [], [(str "example", str "http://x")],
    str "http://127.0.0.1:5001", str "tcp", str "example.net:443", [], [str "https://example.net"], str "sqlite", [], true, [],
    true, str "tcp", str "localhost:8081", none⟩

/-- Everything succeeds. -/
def allOk : Env :=
  ⟨fun _ _ => true, fun _ => true, fun _ => true, fun _ => true, none, fun _ => true, fun _ => true, true, fun _ => true,
    true, true⟩

theorem good_complete : Complete good := by
  refine ⟨.inl rfl, .inr ⟨rfl, by decide⟩, .inl rfl, .inr ⟨str "example.net", by decide, by decide⟩, by decide, ?_, by decide, by decide⟩
  intro x hx
  simp only [good, List.mem_cons, List.not_mem_nil, or_false] at hx
  subst hx
  decide

theorem allOk_available (c : Conf) (h : c.policy ≠ str "ssh") : Available c allOk := by
  refine ⟨fun _ => rfl, fun _ _ => rfl, fun _ => rfl, fun h' => absurd h' h, fun _ => rfl, rfl, fun _ => rfl, ?_, fun _ => rfl, rfl, rfl⟩
  split <;> rfl

/-- The hypotheses of the theorems are met. -/
example : outcome good allOk = none := (serves_iff _ _).2 ⟨good_complete, allOk_available _ (by decide)⟩
example : outcome good { allOk with listen := fun _ a => a ≠ str ":http" } = some (.err "listen") := by decide +kernel
example : (built good allOk).authority = str "example.net" ∧ (built good allOk).sources = [str "/example", str "/ipfs"] := by
  decide +kernel

/-- C154 (why it's partial): for lack of origins, of a host name, of a directory, and for some names of sources the program
crashes instead of telling what's wrong. -/
theorem panic_refuted :
    outcome { good with origins := [] } allOk = some .panic ∧
    outcome { good with addr := str ":443" } allOk = some .panic ∧
    outcome { good with varDir := [] } allOk = some .panic ∧
    outcome { good with httpSources := [(str "sha256", str "http://x")] } allOk = some .panic ∧
    outcome { good with httpSources := [(str ".", str "http://x")] } allOk = some .panic := by
  decide +kernel

/-- C154 (why it's partial): a server without executors starts and tells that it's ready, although no instance can be
made. -/
theorem executors_refuted (c : Conf) (e : Env) (hc : Complete c) (hv : Available c e) :
    outcome { c with executorCount := 0 } e = none ∧ .ready ∈ acts { c with executorCount := 0 } e ∧
      .executor ∉ acts { c with executorCount := 0 } e := by
  have hc' : Complete { c with executorCount := 0 } :=
    ⟨hc.programs, hc.instances, hc.policy, hc.authority, hc.origins, hc.sources, hc.net, hc.tos⟩
  have hv' : Available { c with executorCount := 0 } e :=
    ⟨hv.monitor, fun i hi => absurd hi (Nat.not_lt_zero i), hv.filesystem, hv.keys, hv.db, hv.load, hv.log, hv.listen, hv.listenHTTP,
      hv.clearCaps, hv.notify⟩
  have h := (serves_iff _ _).2 ⟨hc', hv'⟩
  have ha := serves_acts _ _ h
  refine ⟨h, by rw [ha.1]; simp, ?_⟩
  rw [ha.1]
  have := ha.2.2.2.2.1
  simp only [List.mem_append, not_or]
  exact ⟨List.count_eq_zero.1 this, by simp⟩

/-- C154 (why it's partial): the authority which is inferred doesn't include the port number, so that the server doesn't
accept tokens which are made for the address by which it's reached: they have another audience. -/
theorem port_refuted (c : Conf) (e : Env) (h p : Bytes) (hh : Plain h) (hp : Plain p)
    (ha : c.addr = h ++ 58 :: p) (hn : c.authority = []) (ho : outcome c e = none) :
    (built c e).authority = h ∧ str "https://" ++ (built c e).authority ++ WebRoute.pathAPI ≠
      str "https://" ++ c.addr ++ WebRoute.pathAPI := by
  have h1 := (serves_built c e ho).2.2.2.2.2.2.2.1 hn
  have h2 : splitHost c.addr = some h := (splitHost_iff _ _).2 ⟨p, hp, .inl ⟨ha, hh⟩⟩
  rw [h2] at h1
  have h3 : h = (built c e).authority := by simpa using h1.1
  refine ⟨h3.symm, fun e' => ?_⟩
  have e2 := List.append_cancel_right e'
  have e3 := List.append_cancel_left e2
  rw [← h3, ha] at e3
  have := congrArg List.length e3
  simp at this

/-- C154 (why it's partial): the monitor is served while the program still has its privileges. -/
theorem monitor_refuted (c : Conf) (e : Env) (h : outcome c e = none) (hm : c.monitorAddr ≠ []) :
    ∃ l r, acts c e = l ++ .serveMonitor (monitorOrigins c) :: r ∧ .clearCaps ∉ l ∧ .clearCaps ∈ r := by
  refine ⟨[.listenMonitor c.monitorNet c.monitorAddr], (List.replicate c.executorCount .executor ++ (fsActs c ++ (keyActs c e ++
    (dbActs c ++ (.newServer :: (logActs c ++ (.listen c.net c.addr :: .watch :: tlsActs c))))))) ++
      [.clearCaps, .ready, .serve c.tls (built c e)], ?_, by simp, by simp⟩
  rw [(serves_acts c e h).1]
  simp [before, monitorActs, hm]

/-- C154: without configured origins, the monitor's page is restricted to its own origin exactly if its address begins with
"localhost:". -/
theorem monitorOrigins_iff (c : Conf) (h : c.monitorOrigins = none) :
    monitorOrigins c = some [str "http://" ++ c.monitorAddr] ↔ str "localhost:" <+: c.monitorAddr := by
  unfold monitorOrigins
  by_cases hp : (str "localhost:").isPrefixOf c.monitorAddr = true
  · simp [h, hp, List.isPrefixOf_iff_prefix.1 hp]
  · have : ¬ str "localhost:" <+: c.monitorAddr := fun h' => hp (List.isPrefixOf_iff_prefix.2 h')
    simp [h, hp, this]

/-- C154: configured origins (also an empty list of them) are used as such, with any address. -/
theorem monitorOrigins_configured (c : Conf) (o : List Bytes) (h : c.monitorOrigins = some o) : monitorOrigins c = some o := by
  simp [monitorOrigins, h]

/-! ### HTTP handlers -/

/-- C154: requests get to the web API exactly by its paths. -/
theorem main_api_iff (i : Index) (path method : Bytes) (accept : List Bytes) :
    handleMain i path method accept = .api ↔ str "/gate-0/" <+: path := by
  unfold handleMain handle
  by_cases h : (WebRoute.pathAPI).isPrefixOf path = true
  · simp only [h, if_true, true_iff]; exact List.isPrefixOf_iff_prefix.1 h
  · have h' : ¬ str "/gate-0/" <+: path := fun h' => h (List.isPrefixOf_iff_prefix.2 h')
    simp only [h, h', Bool.false_eq_true, if_false, iff_false]
    unfold writeResponse writeHeader
    repeat' split
    all_goals simp

/-- C154: the plain HTTP listener of a server with TLS doesn't give access to the web API: requests for its paths are
answered with "misdirected request". -/
theorem plain_api (i : Index) (path method : Bytes) (accept : List Bytes) :
    handlePlain i path method accept ≠ .api ∧
    (str "/gate-0/" <+: path → ∃ t, handlePlain i path method accept = .response 421 none t ∧
      (t ≠ none ↔ Accept.acceptsText accept = true)) := by
  unfold handlePlain handle
  constructor
  · unfold writeResponse writeHeader
    repeat' split
    all_goals simp
  · intro h
    simp only [List.isPrefixOf_iff_prefix.2 h, if_true, writeResponse]
    refine ⟨_, rfl, ?_⟩
    split <;> simp_all

/-- C154: the index page is at the root, and has the configured status and location. Other paths aren't found. -/
theorem index (i : Index) (path method : Bytes) (accept : List Bytes) (h : ¬ str "/gate-0/" <+: path) :
    (handleMain i path method accept = handlePlain i path method accept) ∧
    (path ≠ str "/" ∨ i.status = 404 → ∃ t, handleMain i path method accept = .response 404 none t) ∧
    (path = str "/" → i.status ≠ 404 → 100 ≤ i.status → i.status ≤ 999 → method = str "GET" ∨ method = str "HEAD" →
      ∃ l, handleMain i path method accept = .response i.status l none ∧ ∀ x, l = some x ↔ x = i.location ∧ x ≠ []) ∧
    (path = str "/" → i.status ≠ 404 → ¬(method = str "GET" ∨ method = str "HEAD") →
      handleMain i path method accept = .response 405 none none) := by
  have hp : ¬((WebRoute.pathAPI).isPrefixOf path = true) := fun h' => h (List.isPrefixOf_iff_prefix.1 h')
  unfold handleMain handlePlain handle
  simp only [hp, Bool.false_eq_true, if_false]
  refine ⟨trivial, ?_, ?_, ?_⟩
  · intro hn
    rw [if_pos (hn.symm)]
    exact ⟨_, rfl⟩
  · intro h1 h2 h3 h4 h5
    rw [if_neg (by simp [h1, h2]), if_pos h5]
    unfold writeHeader
    rw [if_neg (by omega)]
    refine ⟨_, rfl, fun x => ?_⟩
    by_cases hl : i.location = []
    · simp only [hl, ne_eq, not_true_eq_false, if_false, reduceCtorEq, false_iff]
      rintro ⟨rfl, h'⟩; exact h' rfl
    · simp only [ne_eq, hl, not_false_eq_true, if_true, Option.some.injEq]
      constructor
      · rintro rfl; exact ⟨rfl, hl⟩
      · rintro ⟨rfl, _⟩; rfl
  · intro h1 h2 h3
    rw [if_neg (by simp [h1, h2]), if_neg h3]

/-- C154 (why it's partial): a configured status which isn't a status code crashes the handler. -/
theorem index_refuted : handleMain ⟨0, []⟩ (str "/") (str "GET") [] = .panic := by decide +kernel

/-! ### Stopping -/

/-- What's reachable. -/
def Reach (s : St) : Prop := ∃ ls, run init ls = some s

structure Ok (s : St) : Prop where
  alive : s.dead = false → s.watcher = .waiting ∧ s.main = .serving
  waiting : s.watcher = .waiting ↔ s.listening = true
  serving : s.listening = true → s.main = .serving
  opened : s.main = .serving → s.opened = true

theorem step_ok {s s' : St} {l : Label} (h : Ok s) (hs : step s l = some s') : Ok s' := by
  obtain ⟨h1, h2, h3, h4⟩ := h
  unfold step at hs
  split at hs
  · cases hs
  · cases l <;> simp only at hs <;> split at hs <;> simp only [Option.some.injEq, reduceCtorEq] at hs <;> subst hs <;>
      constructor <;> grind

theorem run_ok {ls : List Label} {s s' : St} (h : Ok s) (hr : run s ls = some s') : Ok s' := by
  induction ls generalizing s with
  | nil => cases hr; exact h
  | cons l ls ih =>
    unfold run at hr
    cases hs : step s l with
    | none => rw [hs] at hr; cases hr
    | some t => rw [hs] at hr; exact ih (step_ok h hs) hr

theorem reach_ok {s : St} (h : Reach s) : Ok s := by
  obtain ⟨ls, h⟩ := h
  exact run_ok (s := init) ⟨by simp [init], by simp [init], by simp [init], by simp [init]⟩ h

/-- C154: the server serves as long as its executors live. -/
theorem alive {s : St} (h : Reach s) (hd : s.dead = false) : s.main = .serving ∧ s.listening = true ∧ s.opened = true := by
  have := reach_ok h
  exact ⟨(this.alive hd).2, this.waiting.1 (this.alive hd).1, this.opened (this.alive hd).2⟩

/-- C154: when it has noticed the death of an executor, it takes no more requests. -/
theorem closed {s : St} (h : Reach s) (hw : s.watcher ≠ .waiting) : step s .accept = none := by
  have h1 : s.listening ≠ true := fun hl => hw ((reach_ok h).waiting.2 hl)
  unfold step
  split
  · rfl
  · simp [h1]

def rank (s : St) : Nat :=
  s.requests + (match s.main with | .serving => 2 | .returned => 1 | .exited => 0) +
    (match s.watcher with | .waiting => 3 | .http => 2 | .server => 1 | .done => 0) + (if s.dead then 0 else 1)

theorem step_rank {s s' : St} {l : Label} (h : Ok s) (hw : s.watcher ≠ .waiting) (hs : step s l = some s') :
    rank s' < rank s ∧ s'.watcher ≠ .waiting := by
  have hl : s.listening = false := by
    cases hl : s.listening with
    | false => rfl
    | true => exact absurd (h.waiting.2 hl) hw
  unfold step at hs
  split at hs
  · cases hs
  · rename_i hm
    have hpos : 0 < (match s.main with | .serving => 2 | .returned => 1 | .exited => 0 : Nat) := by
      cases hx : s.main <;> simp_all
    cases l <;> simp only at hs <;> split at hs <;> simp only [Option.some.injEq, reduceCtorEq] at hs
    · simp_all
    · subst hs; simp only [rank]; refine ⟨by omega, hw⟩
    · subst hs; rename_i hd; simp only [rank, hd]; simp [hw]
    · rename_i hd; exact absurd hd.2 hw
    · subst hs; rename_i hd; simp only [rank, hd.1]; exact ⟨by omega, hw⟩
    · subst hs; rename_i hd; simp only [rank, hd]; exact ⟨by omega, hw⟩
    · subst hs; rename_i hd; simp only [rank, hd.1]; exact ⟨by omega, by simp⟩
    · subst hs; simp only [rank]; exact ⟨by omega, hw⟩
    · subst hs; rename_i hd; simp only [rank, hd]; exact ⟨by omega, by simp⟩

/-- C154: and the program ends after a bounded number of steps. -/
theorem ends {s s' : St} (h : Reach s) (hw : s.watcher ≠ .waiting) (ls : List Label) (hr : run s ls = some s') :
    ls.length ≤ s.requests + 5 := by
  have key : ∀ (ls : List Label) (s s' : St), Ok s → s.watcher ≠ .waiting → run s ls = some s' → ls.length ≤ rank s := by
    intro ls
    induction ls with
    | nil => intros; exact Nat.zero_le _
    | cons l ls ih =>
      intro s s' h hw hr
      unfold run at hr
      cases hs : step s l with
      | none => rw [hs] at hr; cases hr
      | some t =>
        rw [hs] at hr
        have h1 := step_rank h hw hs
        have := ih t s' (step_ok h hs) h1.2 hr
        simp only [List.length_cons]; omega
  have := key ls s s' (reach_ok h) hw hr
  have hr : rank s ≤ s.requests + 5 := by
    have hd : s.dead = true := by
      cases hd : s.dead with
      | true => rfl
      | false => exact absurd ((reach_ok h).alive hd).1 hw
    unfold rank
    simp only [hd, if_true]
    cases hm : s.main <;> cases hx : s.watcher <;> simp_all <;> omega
  omega

/-- C154: the program doesn't hang: after the death of an executor there is a step of its own until it has ended. -/
theorem progress {s : St} (h : Reach s) (hd : s.dead = true) (hm : s.main ≠ .exited) :
    ∃ l s', l ∈ [Label.notice, .return_, .exit] ∧ step s l = some s' := by
  have hk := reach_ok h
  cases hx : s.main with
  | exited => exact absurd hx hm
  | returned => exact ⟨.exit, _, by simp, by simp [step, hx]; rfl⟩
  | serving =>
    by_cases hw : s.watcher = .waiting
    · exact ⟨.notice, _, by simp, by simp [step, hx, hd, hw]; rfl⟩
    · have hl : s.listening = false := by
        cases hl : s.listening with
        | false => rfl
        | true => exact absurd (hk.waiting.2 hl) hw
      exact ⟨.return_, _, by simp, by simp [step, hx, hl]; rfl⟩

/-- C154 (why it's partial): requests in progress aren't given the time which is meant for them: with any number of
requests the program may close its files and databases, and end, without having waited for them, and without having
stopped the instances of the other executors. -/
theorem drain_refuted (n : Nat) : ∃ ls s, run init ls = some s ∧ Label.timeout ∉ ls ∧ s.main = .exited ∧ s.requests = n ∧
    s.stopped = false ∧ s.opened = false := by
  have hacc : ∀ (m k : Nat), run { init with requests := k } (List.replicate m .accept) = some { init with requests := k + m } := by
    intro m
    induction m with
    | zero => intro k; rfl
    | succ m ih =>
      intro k
      have : step { init with requests := k } .accept = some { init with requests := k + 1 } := by simp [step, init]
      rw [List.replicate_succ, run, this]
      show run { init with requests := k + 1 } _ = _
      rw [ih, Nat.add_assoc, Nat.add_comm 1 m]
  have happ : ∀ (a b : List Label) (s t : St), run s a = some t → run s (a ++ b) = run t b := by
    intro a
    induction a with
    | nil => intro b s t h; cases h; rfl
    | cons l a ih =>
      intro b s t h
      unfold run at h
      cases hs : step s l with
      | none => rw [hs] at h; cases h
      | some u => rw [hs] at h; rw [List.cons_append, run, hs]; exact ih b u t h
  refine ⟨List.replicate n .accept ++ [.die, .notice, .return_, .exit], ⟨.exited, .http, true, false, false, n, false⟩, ?_, ?_,
    rfl, rfl, rfl, rfl⟩
  · rw [happ _ _ init { init with requests := n } (by have := hacc n 0; rw [Nat.zero_add] at this; exact this)]
    rfl
  · simp

end Gate.Startup
