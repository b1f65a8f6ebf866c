import Verif.ExecutorProps
/-
C26, C27, C57, C58: what kill requests, exit statuses and identifiers do when
identifiers are reused.
-/
namespace Gate.Executor
open Gate

theorem run_append (s : St) (a b : List Label) :
    run s (a ++ b) = (run s a).bind (fun t => run t b) := by
  induction a generalizing s with
  | nil => rfl
  | cons l a ih =>
    simp only [List.cons_append, run]
    cases step s l with
    | none => rfl
    | some t => exact ih t

/-! ### C26 -/

/-- A kill request made on handle `h` is in the request queue, in the control socket, or the
executor has handled it. -/
def killRequested (s : St) (h : Nat) : Prop :=
  (∃ id, (id, h, Op.kill) ∈ s.killQ) ∨ (∃ id, Msg.op id h .kill ∈ s.sock) ∨ (∃ r, (h, Op.kill, r) ∈ s.log)

def KillInv (s : St) : Prop :=
  ∀ h x, s.handles[h]? = some x → x.hid = .killed →
    (∃ id, x.pc = .sendK id .kill) ∨ killRequested s h

theorem killRequested_mono (s s' : St) (h : Nat) (hq : ∀ e ∈ s.killQ, e ∈ s'.killQ) (hsk : ∀ e ∈ s.sock, e ∈ s'.sock)
    (hl : ∀ e ∈ s.log, e ∈ s'.log) : killRequested s h → killRequested s' h := by
  rintro (⟨id, h1⟩ | ⟨id, h1⟩ | ⟨r, h1⟩)
  · exact Or.inl ⟨id, hq _ h1⟩
  · exact Or.inr (Or.inl ⟨id, hsk _ h1⟩)
  · exact Or.inr (Or.inr ⟨r, hl _ h1⟩)

theorem claim_killInv (s s' : St) (h0 : Nat) (to : Hid) (pc : Nat → Pc)
    (hp : to = .killed → ∀ id, pc id = .sendK id .kill)
    (hs : claim s h0 to pc = some s') (hi : KillInv s) : KillInv s' := by
  unfold claim withHandle at hs
  split at hs
  · rename_i x hx0
    simp only at hs
    split at hs
    · cases hs
    · split at hs
      · rename_i id hid
        cases hs
        intro h y hy hk
        simp only [upd] at hy
        rcases getElem?_set' _ _ _ _ _ hy with ⟨rfl, rfl⟩ | ⟨hne, hy⟩
        · exact Or.inl ⟨id, hp hk id⟩
        · exact hi h y hy hk
      · cases hs; exact hi
  · cases hs

theorem step_killInv (s s' : St) (l : Label) (hs : step s l = some s') (hi : KillInv s) : KillInv s' := by
  have key : ∀ (s' : St) (h0 : Nat) (x y : Handle), s.handles[h0]? = some x → s'.handles = s.handles.set h0 y →
      (∀ e ∈ s.killQ, e ∈ s'.killQ) → (∀ e ∈ s.sock, e ∈ s'.sock) → (∀ e ∈ s.log, e ∈ s'.log) →
      (y.hid = .killed → x.hid = .killed ∧ (x.pc = y.pc ∨ (∀ id, x.pc ≠ .sendK id .kill) ∨ killRequested s' h0)) → KillInv s' := by
    intro s' h0 x y hx hh hq hsk hl hy h z hz hk
    rw [hh] at hz
    rcases getElem?_set' _ _ _ _ _ hz with ⟨rfl, rfl⟩ | ⟨hne, hz⟩
    · obtain ⟨h1, h2⟩ := hy hk
      rcases h2 with h2 | h2 | h2
      · rcases hi h x hx h1 with ⟨id, h3⟩ | h3
        · exact Or.inl ⟨id, by rw [← h2]; exact h3⟩
        · exact Or.inr (killRequested_mono s s' h hq hsk hl h3)
      · rcases hi h x hx h1 with ⟨id, h3⟩ | h3
        · exact absurd h3 (h2 id)
        · exact Or.inr (killRequested_mono s s' h hq hsk hl h3)
      · exact Or.inr h2
    · rcases hi h z hz hk with h3 | h3
      · exact Or.inl h3
      · exact Or.inr (killRequested_mono s s' h hq hsk hl h3)
  unfold step at hs
  split at hs
  · cases hs
  cases l with
  | alloc =>
    simp only at hs
    split at hs
    · cases hs
    · cases hs
      intro h y hy hk
      rcases getElem?_snoc' _ _ _ _ hy with hy | ⟨rfl, rfl⟩
      · exact hi h y hy hk
      · cases hk
  | execSend h0 =>
    simp only [withHandle] at hs
    split at hs
    · rename_i x hx0
      split at hs
      · rename_i h1 h2
        cases hs
        refine key _ h0 x _ hx0 rfl (fun _ h => h) (fun _ h => List.mem_append_left _ h) (fun _ h => h) ?_
        intro hk; rw [h2] at hk; cases hk
      · cases hs
    · cases hs
  | execCancel h0 =>
    simp only [withHandle] at hs
    split at hs
    · rename_i x hx0
      split at hs
      · rename_i h1
        cases hs
        refine key _ h0 x _ hx0 rfl (fun _ h => h) (fun _ h => h) (fun _ h => h) ?_
        intro hk; exact ⟨hk, Or.inr (Or.inl (fun id hc => by rw [h1] at hc; cases hc))⟩
      · cases hs
    · cases hs
  | kill h0 => exact claim_killInv s s' h0 _ _ (fun _ _ => rfl) hs hi
  | suspend h0 => exact claim_killInv s s' h0 _ _ (fun h => by cases h) hs hi
  | finalize h0 => exact claim_killInv s s' h0 _ _ (fun h => by cases h) hs hi
  | sendKill h0 =>
    simp only [withHandle] at hs
    split at hs
    · rename_i x hx0
      split at hs
      · rename_i id o hpc
        cases hs
        refine key _ h0 x _ hx0 rfl (fun _ h => List.mem_append_left _ h) (fun _ h => h) (fun _ h => h) ?_
        intro hk
        refine ⟨hk, ?_⟩
        cases o with
        | kill => exact Or.inr (Or.inr (Or.inl ⟨id, by simp⟩))
        | suspend => exact Or.inr (Or.inl (fun id hc => by rw [hpc] at hc; cases hc))
      · rename_i id hpc
        cases hs
        refine key _ h0 x _ hx0 rfl (fun _ h => List.mem_append_left _ h) (fun _ h => h) (fun _ h => h) ?_
        intro hk
        exact ⟨hk, Or.inr (Or.inl (fun id hc => by rw [hpc] at hc; cases hc))⟩
      · cases hs
    · cases hs
  | retId h0 =>
    simp only [withHandle] at hs
    split at hs
    · rename_i x hx0
      split at hs
      · rename_i id hpc
        cases hs
        refine key _ h0 x _ hx0 rfl (fun _ h => h) (fun _ h => h) (fun _ h => h) ?_
        intro hk
        exact ⟨hk, Or.inr (Or.inl (fun id hc => by rw [hpc] at hc; cases hc))⟩
      · cases hs
    · cases hs
  | finDead h0 =>
    simp only [withHandle] at hs
    split at hs
    · rename_i x hx0
      split at hs
      · rename_i id d hpc _
        cases hs
        refine key _ h0 x _ hx0 rfl (fun _ h => h) (fun _ h => h) (fun _ h => h) ?_
        intro hk
        exact ⟨hk, Or.inr (Or.inl (fun id hc => by rw [hpc] at hc; cases hc))⟩
      · cases hs
    · cases hs
  | senderKill =>
    simp only at hs
    split at hs
    · cases hs
    · rename_i id h o rest hq
      cases hs
      intro h' x hx hk
      rcases hi h' x hx hk with h3 | ⟨id', h3⟩ | ⟨id', h3⟩ | h3
      · exact Or.inl h3
      · rw [hq] at h3
        right
        rcases List.mem_cons.mp h3 with h3 | h3
        · cases h3; exact Or.inr (Or.inl ⟨id, by simp⟩)
        · exact Or.inl ⟨id', h3⟩
      · exact Or.inr (Or.inr (Or.inl ⟨id', List.mem_append_left _ h3⟩))
      · exact Or.inr (Or.inr (Or.inr h3))
  | recvOp =>
    simp only at hs
    split at hs
    · cases hs
    · rename_i id h rest hq
      split at hs
      · cases hs; exact hi
      · cases hs
        intro h' x hx hk
        rcases hi h' x hx hk with h3 | ⟨id', h3⟩ | ⟨id', h3⟩ | h3
        · exact Or.inl h3
        · exact Or.inr (Or.inl ⟨id', h3⟩)
        · rw [hq] at h3
          rcases List.mem_cons.mp h3 with h3 | h3
          · cases h3
          · exact Or.inr (Or.inr (Or.inl ⟨id', h3⟩))
        · exact Or.inr (Or.inr (Or.inr h3))
    · rename_i id h o rest hq
      cases hs
      intro h' x hx hk
      rcases hi h' x hx hk with h3 | ⟨id', h3⟩ | ⟨id', h3⟩ | ⟨r, h3⟩
      · exact Or.inl h3
      · exact Or.inr (Or.inl ⟨id', h3⟩)
      · rw [hq] at h3
        rcases List.mem_cons.mp h3 with h3 | h3
        · cases h3; exact Or.inr (Or.inr (Or.inr ⟨_, by simp; exact Or.inr rfl⟩))
        · exact Or.inr (Or.inr (Or.inl ⟨id', h3⟩))
      · exact Or.inr (Or.inr (Or.inr ⟨r, List.mem_append_left _ h3⟩))
  | exit id =>
    simp only at hs
    split at hs
    · cases hs; exact hi
    · cases hs
  | recvStatus =>
    simp only at hs
    split at hs
    · cases hs
    · split at hs
      · cases hs; exact hi
      · rename_i h' _
        split at hs
        · rename_i x0 hx0
          cases hs
          refine key _ h' x0 _ hx0 rfl (fun _ h => h) (fun _ h => h) (fun _ h => h) ?_
          intro hk; exact ⟨hk, Or.inl rfl⟩
        · cases hs

theorem run_killInv : ∀ (ls : List Label) (s s' : St), run s ls = some s' → KillInv s → KillInv s' := by
  intro ls
  induction ls with
  | nil => intro s s' h hi; simp only [run, Option.some.injEq] at h; subst h; exact hi
  | cons l ls ih =>
    intro s s' h hi
    rw [run] at h
    cases hs : step s l with
    | none => rw [hs] at h; cases h
    | some s1 => rw [hs] at h; exact ih s1 s' h (step_killInv s s1 l hs hi)

/-- C26, the part which holds: in every run, if the first of the calls on a process is a
kill, then a kill request on behalf of it has been queued, sent or handled, or the call
itself is still at the queue. -/
theorem first_kill_is_requested_partial (n : Nat) (ls : List Label) (s : St) (hr : run (init n) ls = some s)
    (h : Nat) (x : Handle) (hx : s.handles[h]? = some x) (hk : (calls h ls).head? = some .killed) :
    killRequested s h ∨ ∃ id, x.pc = .sendK id .kill := by
  have h1 := ((decided_once n ls s hr h x hx).2.2).mpr hk
  rcases run_killInv ls _ _ hr (by intro h x hx; simp [init] at hx) h x hx h1 with h2 | h2
  · exact Or.inr h2
  · exact Or.inl h2

/-- A kill after a suspend (or after finalization started) does nothing at all. -/
theorem kill_after_other_call_ignored (s : St) (h : Nat) (x : Handle) (hc : s.crash = none) (hx : s.handles[h]? = some x)
    (hp : x.pc ≠ .exec ∧ x.pc ≠ .gone) (hn : ∀ id, x.hid ≠ .live id) : step s (.kill h) = some s := by
  unfold step
  rw [if_neg (by rw [hc]; simp)]
  simp only [claim, withHandle, hx]
  rw [if_neg (fun h => h.elim hp.1 hp.2)]

/-- C26 fails in general: a process can be asked to suspend and then killed, with the kill
never reaching the executor, although the process still exists and all requests have been
handled. -/
theorem kill_after_suspend_lost : ∃ s, run (init 1) [.alloc, .execSend 0, .recvOp, .suspend 0, .sendKill 0, .retId 0,
    .senderKill, .recvOp, .kill 0] = some s ∧
    s.table = [(0, 0)] ∧ s.killQ = [] ∧ s.sock = [] ∧ s.log = [(0, Op.suspend, some 0)] :=
  exists_of_run (by decide +kernel)

example : ∃ s, run (init 1) [.alloc, .execSend 0, .recvOp, .kill 0, .sendKill 0, .senderKill, .recvOp] = some s ∧
    s.log = [(0, Op.kill, some 0)] ∧ (calls 0 [.alloc, .execSend 0, .recvOp, .kill 0, .sendKill 0, .senderKill, .recvOp]).head? = some .killed :=
  exists_of_run (by decide +kernel)

/-! ### C27, C58: failures -/

/-- C27 fails: an identifier is handed back when the kill request is queued, not when the
process has been reaped, so a new process can get it; the status of the old process
is then attributed to the new process, and the status of the new process makes
the receiver dereference nil. -/
theorem status_misattributed : ∃ s, run (init 1) [.alloc, .execSend 0, .recvOp, .kill 0, .sendKill 0, .retId 0,
    .senderKill, .recvOp, .exit 0, .alloc, .execSend 1, .recvStatus] = some s ∧
    (s.handles.map (·.dead)) = [none, some 0] :=
  exists_of_run (by decide +kernel)

theorem receiver_crashes : ∃ s, run (init 1) [.alloc, .execSend 0, .recvOp, .kill 0, .sendKill 0, .retId 0,
    .senderKill, .recvOp, .exit 0, .alloc, .execSend 1, .recvOp, .recvStatus, .exit 0, .recvStatus] = some s ∧
    s.crash = some .nilDeref :=
  exists_of_run (by decide +kernel)

/-- The executor process itself dies if the old process has not been reaped when the request
to create the new one arrives. -/
theorem executor_dies : ∃ s, run (init 1) [.alloc, .execSend 0, .recvOp, .kill 0, .sendKill 0, .retId 0,
    .senderKill, .alloc, .recvOp, .execSend 1, .recvOp] = some s ∧ s.crash = some .createBadState :=
  exists_of_run (by decide +kernel)

/-- C58 fails: a kill request which is still queued when the identifier is reused kills the new
process, whose handle nobody has called. -/
theorem wrong_process_killed : ∃ s, run (init 1) [.alloc, .execSend 0, .recvOp, .exit 0, .recvStatus, .finalize 0,
    .sendKill 0, .retId 0, .alloc, .execSend 1, .recvOp, .senderKill, .recvOp] = some s ∧
    s.log = [(0, Op.kill, some 1)] ∧ s.crash = none :=
  exists_of_run (by decide +kernel)

/-! ### C57 -/

/-- No identifiers are left: every later run keeps it so, because the only handle is gone. -/
theorem gone_forever : ∀ (ls : List Label) (s s' : St), run s ls = some s' →
    s.pool = [] → s.handles = [⟨.live 0, .gone, none⟩] → s.procs = [] →
    s'.pool = [] ∧ s'.handles.length = 1 := by
  intro ls
  induction ls with
  | nil => intro s s' h h1 h2 _; simp only [run, Option.some.injEq] at h; subst h; exact ⟨h1, by rw [h2]; rfl⟩
  | cons l ls ih =>
    intro s s' h h1 h2 h3
    rw [run] at h
    cases hs : step s l with
    | none => rw [hs] at h; cases h
    | some s1 =>
      rw [hs] at h
      have hw : ∀ (k : Nat) (x : Handle), s.handles[k]? = some x → x = ⟨.live 0, .gone, none⟩ := by
        intro k x hx
        rw [h2] at hx
        cases k with
        | zero => simpa using hx.symm
        | succ k => simp at hx
      unfold step at hs
      split at hs
      · cases hs
      cases l with
      | alloc => simp only [h1] at hs; cases hs
      | senderKill =>
        simp only at hs
        split at hs
        · cases hs
        · cases hs; exact ih _ s' h h1 h2 h3
      | recvOp =>
        simp only at hs
        split at hs
        · cases hs
        · split at hs <;> cases hs <;> exact ih _ s' h h1 h2 h3
        · cases hs; exact ih _ s' h h1 h2 h3
      | exit id =>
        simp only at hs
        split at hs
        · cases hs; exact ih _ s' h h1 h2 h3
        · cases hs
      | recvStatus =>
        simp only at hs
        split at hs
        · cases hs
        · split at hs
          · cases hs; exact ih _ s' h h1 h2 h3
          · rename_i hsome; rw [h3] at hsome; cases hsome
      | _ k =>
        simp only [claim, withHandle] at hs
        split at hs
        · rename_i x hx
          have := hw k x hx
          subst this
          simp at hs
        · cases hs

/-- C57 fails: when the context of a process creation is done after an identifier was
received but before the request was taken, the identifier is lost: with one
identifier, no process can ever be created again. -/
theorem capacity_lost : ∃ s, run (init 1) [.alloc, .execCancel 0] = some s ∧
    ∀ ls s', run s ls = some s' → s'.pool = [] ∧ s'.handles.length = 1 :=
  ⟨_, rfl, fun ls s' h => gone_forever ls _ s' h rfl rfl rfl⟩

/-- C57, the part which holds: identifiers are lost only that way.  In every run the number of free
identifiers, plus the number of handles still responsible for one, is the maximum
number of processes. -/
theorem capacity_accounted_partial (n : Nat) (ls : List Label) (s : St) (hr : run (init n) ls = some s) :
    s.pool.length + (s.handles.filterMap token).length = n := by
  have := (identifiers_conserved n ls s hr).1.length_eq
  simpa using this

/-! ### C27, C58: what holds when identifiers are quiet -/

/-- Processes to be created. -/
def creates (l : List Msg) : List (Nat × Nat) :=
  l.filterMap fun | .create id h => some (id, h) | .op _ _ _ => none

/-- Processes between the creation request and the reception of the exit status. -/
def inflight (s : St) : List (Nat × Nat) := creates s.sock ++ s.table ++ s.statuses

/-- There is a kill or suspend request with the identifier, made on the handle. -/
def requested (s : St) (id h : Nat) : Prop := (∃ o, (id, h, o) ∈ s.killQ) ∨ ∃ o, Msg.op id h o ∈ s.sock

/-- Nothing refers to the identifier. -/
def quiet (s : St) (id : Nat) : Prop := (∀ t, (id, t) ∉ inflight s) ∧ ∀ h, ¬ requested s id h

/-- Runs in which an identifier is reused only when it is quiet. -/
inductive QRun : St → List Label → St → Prop where
  | nil (s) : QRun s [] s
  | cons (s l s1 ls s') : step s l = some s1 → (l = .alloc → ∀ id rest, s.pool = id :: rest → quiet s id) →
      QRun s1 ls s' → QRun s (l :: ls) s'

theorem QRun.run {s s' : St} {ls : List Label} (h : QRun s ls s') : run s ls = some s' := by
  induction h with
  | nil => rfl
  | cons s l s1 ls s' h1 _ _ ih => rw [Executor.run, h1]; exact ih

/-- Handle `h` is responsible for `id`. -/
def holds (s : St) (h id : Nat) : Prop := ∃ x, s.handles[h]? = some x ∧ token x = some id

structure Inv (s : St) : Prop where
  uniq : ∀ h h' id, holds s h id → holds s h' id → h = h'
  pcok : ∀ x ∈ s.handles, PcOk x
  nodup : ((inflight s).map (·.1)).Nodup
  procs : ∀ id t, (id, t) ∈ inflight s → assoc id s.procs = some t
  own : ∀ h id t, holds s h id → (id, t) ∈ inflight s → t = h
  fresh : ∀ (h : Nat) (x : Handle) (id : Nat), s.handles[h]? = some x → x.pc = .exec → x.hid = .live id → quiet s id
  req : ∀ id h t, requested s id h → (id, t) ∈ inflight s → t = h
  dead : ∀ (h : Nat) (x : Handle) (t : Nat), s.handles[h]? = some x → x.dead = some t → t = h
  log : ∀ h o t, (h, o, some t) ∈ s.log → t = h
  ok : s.crash = none

theorem assoc_mem : ∀ (l : List (Nat × Nat)) (k v : Nat), assoc k l = some v → (k, v) ∈ l := by
  intro l
  induction l with
  | nil => intro k v h; cases h
  | cons a l ih =>
    intro k v h
    obtain ⟨a, b⟩ := a
    simp only [assoc] at h
    split at h
    · rename_i hk; cases h; subst hk; exact List.mem_cons_self
    · exact List.mem_cons_of_mem _ (ih k v h)

theorem assoc_none : ∀ (l : List (Nat × Nat)) (k : Nat), assoc k l = none → k ∉ l.map (·.1) := by
  intro l
  induction l with
  | nil => intro k _; simp
  | cons a l ih =>
    intro k h
    obtain ⟨a, b⟩ := a
    simp only [assoc] at h
    split at h
    · cases h
    · rename_i hk
      simp only [List.map_cons, List.mem_cons, not_or]
      exact ⟨fun hc => hk hc.symm, ih k h⟩

theorem assoc_remove_ne (l : List (Nat × Nat)) (k k' : Nat) (hne : k ≠ k') : assoc k (remove k' l) = assoc k l := by
  induction l with
  | nil => rfl
  | cons a l ih =>
    obtain ⟨a, b⟩ := a
    unfold remove at *
    rw [List.filter_cons]
    split
    · simp only [assoc, ih]
    · rename_i h
      have : a = k' := by simpa using h
      subst this
      rw [ih]
      simp only [assoc]
      rw [if_neg (fun hc => hne hc.symm)]

theorem creates_snoc (l : List Msg) (m : Msg) : creates (l ++ [m]) = creates l ++ creates [m] := by
  simp [creates]

theorem mem_creates (l : List Msg) (id h : Nat) : (id, h) ∈ creates l ↔ Msg.create id h ∈ l := by
  unfold creates
  rw [List.mem_filterMap]
  constructor
  · rintro ⟨m, hm, he⟩
    cases m with
    | create a b => simp only [Option.some.injEq, Prod.mk.injEq] at he; obtain ⟨rfl, rfl⟩ := he; exact hm
    | op a b c => cases he
  · intro hm; exact ⟨_, hm, rfl⟩

/-- Changing one handle, keeping or giving up its identifier. -/
theorem Inv.set {s s' : St} (hi : Inv s) (h0 : Nat) (x y : Handle) (hx : s.handles[h0]? = some x)
    (hh : s'.handles = s.handles.set h0 y)
    (htok : token y = none ∨ token y = token x) (hpc : PcOk y)
    (hfr : y.pc = .exec → x.pc = .exec ∧ y.hid = x.hid) (hd : ∀ t, y.dead = some t → t = h0)
    (hin : (inflight s').Perm (inflight s)) (hp : s'.procs = s.procs)
    (hreq : ∀ id h, requested s' id h → requested s id h ∨ (h = h0 ∧ holds s h0 id ∧ x.pc ≠ .exec))
    (hlog : ∀ h o t, (h, o, some t) ∈ s'.log → t = h) (hc : s'.crash = none) : Inv s' := by
  have hold : ∀ h id, holds s' h id → holds s h id := by
    rintro h id ⟨z, hz, ht⟩
    rw [hh] at hz
    rcases getElem?_set' _ _ _ _ _ hz with ⟨rfl, rfl⟩ | ⟨_, hz⟩
    · rcases htok with e | e
      · rw [e] at ht; cases ht
      · exact ⟨x, hx, by rw [← e]; exact ht⟩
    · exact ⟨z, hz, ht⟩
  have hmem : ∀ e, e ∈ inflight s' ↔ e ∈ inflight s := fun e => hin.mem_iff
  refine ⟨?_, ?_, ?_, ?_, ?_, ?_, ?_, ?_, hlog, hc⟩
  · intro h h' id h1 h2; exact hi.uniq h h' id (hold _ _ h1) (hold _ _ h2)
  · intro z hz
    rw [hh] at hz
    rcases List.mem_or_eq_of_mem_set hz with hz | rfl
    · exact hi.pcok z hz
    · exact hpc
  · exact (hin.map _).nodup_iff.mpr hi.nodup
  · intro id t ht; rw [hp]; exact hi.procs id t ((hmem _).mp ht)
  · intro h id t h1 h2; exact hi.own h id t (hold _ _ h1) ((hmem _).mp h2)
  · intro h z id hz hz1 hz2
    have hq : ∀ id, quiet s id → (∀ h', ¬ (h' = h0 ∧ holds s h0 id ∧ x.pc ≠ .exec)) → quiet s' id := by
      intro id hq hn
      refine ⟨fun t ht => hq.1 t ((hmem _).mp ht), fun h' hr => ?_⟩
      rcases hreq id h' hr with h1 | h1
      · exact hq.2 h' h1
      · exact hn h' h1
    rw [hh] at hz
    rcases getElem?_set' _ _ _ _ _ hz with ⟨rfl, rfl⟩ | ⟨hne, hz⟩
    · obtain ⟨e1, e2⟩ := hfr hz1
      exact hq id (hi.fresh h x id hx e1 (by rw [← e2]; exact hz2)) (fun _ hc => hc.2.2 e1)
    · refine hq id (hi.fresh h z id hz hz1 hz2) (fun _ hc => ?_)
      have : holds s h id := ⟨z, hz, by simp [token, hz2]⟩
      exact hne (hi.uniq _ _ _ this hc.2.1)
  · intro id h t h1 h2
    rcases hreq id h h1 with h1 | ⟨rfl, h1, _⟩
    · exact hi.req id h t h1 ((hmem _).mp h2)
    · exact hi.own h id t h1 ((hmem _).mp h2)
  · intro h z t hz hd'
    rw [hh] at hz
    rcases getElem?_set' _ _ _ _ _ hz with ⟨rfl, rfl⟩ | ⟨_, hz⟩
    · exact hd t hd'
    · exact hi.dead h z t hz hd'

/-- Changing no handle. -/
theorem Inv.same {s s' : St} (hi : Inv s) (hh : s'.handles = s.handles)
    (hin : (inflight s').Perm (inflight s)) (hp : s'.procs = s.procs)
    (hreq : ∀ id h, requested s' id h → requested s id h)
    (hlog : ∀ h o t, (h, o, some t) ∈ s'.log → t = h) (hc : s'.crash = none) : Inv s' := by
  have hmem : ∀ e, e ∈ inflight s' ↔ e ∈ inflight s := fun e => hin.mem_iff
  refine ⟨?_, by rw [hh]; exact hi.pcok, (hin.map _).nodup_iff.mpr hi.nodup, ?_, ?_, ?_, ?_, by rw [hh]; exact hi.dead, hlog, hc⟩
  · unfold holds; rw [hh]; exact hi.uniq
  · intro id t ht; rw [hp]; exact hi.procs id t ((hmem _).mp ht)
  · intro h id t h1 h2; unfold holds at h1; rw [hh] at h1; exact hi.own h id t h1 ((hmem _).mp h2)
  · intro h z id hz h1 h2
    rw [hh] at hz
    have := hi.fresh h z id hz h1 h2
    exact ⟨fun t ht => this.1 t ((hmem _).mp ht), fun h' hr => this.2 h' (hreq _ _ hr)⟩
  · intro id h t h1 h2; exact hi.req id h t (hreq _ _ h1) ((hmem _).mp h2)

theorem claim_inv (s s' : St) (h0 : Nat) (to : Hid) (pc : Nat → Pc) (hto : ∀ id, to ≠ .live id)
    (htok : ∀ id d, token ⟨to, pc id, d⟩ = some id) (hpc : ∀ id, pc id ≠ .exec)
    (hs : claim s h0 to pc = some s') (hi : Inv s) : Inv s' := by
  unfold claim withHandle at hs
  split at hs
  · rename_i x hx0
    simp only at hs
    split at hs
    · cases hs
    · split at hs
      · rename_i id hid
        cases hs
        refine hi.set h0 x _ hx0 rfl (Or.inr ?_) ?_ ?_ ?_ (List.Perm.refl _) rfl (fun _ _ h => Or.inl h) hi.log hi.ok
        · rw [htok]; simp [token, hid]
        · intro id' h; exact absurd h (hto id')
        · intro h; exact absurd h (hpc id)
        · intro t h; exact hi.dead h0 x t hx0 h
      · cases hs; exact hi
  · cases hs

theorem step_inv (s s' : St) (l : Label) (hs : step s l = some s') (hi : Inv s)
    (hq : l = .alloc → ∀ id rest, s.pool = id :: rest → quiet s id)
    (hfree : ∀ id h, id ∈ s.pool → ¬ holds s h id) : Inv s' := by
  unfold step at hs
  split at hs
  · cases hs
  cases l with
  | alloc =>
    simp only at hs
    split at hs
    · cases hs
    · rename_i id rest hp
      cases hs
      have hqq := hq rfl id rest hp
      have hold : ∀ h i, holds { s with pool := rest, handles := s.handles ++ [⟨.live id, .exec, none⟩] } h i →
          holds s h i ∨ (h = s.handles.length ∧ i = id) := by
        rintro h i ⟨z, hz, ht⟩
        rcases getElem?_snoc' _ _ _ _ hz with hz | ⟨rfl, rfl⟩
        · exact Or.inl ⟨z, hz, ht⟩
        · right; exact ⟨rfl, by simpa [token] using ht.symm⟩
      have hnot : ∀ h, ¬ holds s h id := fun h => hfree id h (by rw [hp]; exact List.mem_cons_self)
      refine ⟨?_, ?_, hi.nodup, hi.procs, ?_, ?_, hi.req, ?_, hi.log, hi.ok⟩
      · intro h h' i h1 h2
        rcases hold _ _ h1 with k1 | ⟨e1, e1'⟩
        · rcases hold _ _ h2 with k2 | ⟨e2, e2'⟩
          · exact hi.uniq h h' i k1 k2
          · subst e2'; exact (hnot h k1).elim
        · rcases hold _ _ h2 with k2 | ⟨e2, e2'⟩
          · subst e1'; exact (hnot h' k2).elim
          · rw [e1, e2]
      · intro z hz
        simp only [List.mem_append, List.mem_singleton] at hz
        rcases hz with hz | rfl
        · exact hi.pcok z hz
        · intro _ _; exact Or.inl rfl
      · intro h i t h1 h2
        rcases hold _ _ h1 with h1 | ⟨_, e1⟩
        · exact hi.own h i t h1 h2
        · subst e1; exact absurd h2 (hqq.1 t)
      · intro h z i hz h1 h2
        rcases getElem?_snoc' _ _ _ _ hz with hz | ⟨rfl, rfl⟩
        · exact hi.fresh h z i hz h1 h2
        · cases h2; exact hqq
      · intro h z t hz hd
        rcases getElem?_snoc' _ _ _ _ hz with hz | ⟨rfl, rfl⟩
        · exact hi.dead h z t hz hd
        · cases hd
  | execSend h0 =>
    simp only [withHandle] at hs
    split at hs
    · rename_i x hx0
      split at hs
      · rename_i id h1 h2
        cases hs
        have hqq := hi.fresh h0 x id hx0 h1 h2
        have h0holds : holds s h0 id := ⟨x, hx0, by simp [token, h2]⟩
        -- first put the handle aside, then add the process
        generalize hs1 : ({ s with handles := s.handles.set h0 { x with pc := .idle } } : St) = s1
        have hi1 : Inv s1 := by
          rw [← hs1]
          refine hi.set h0 x { x with pc := .idle } hx0 rfl (Or.inr ?_) ?_ ?_ ?_ (List.Perm.refl _) rfl (fun _ _ h => Or.inl h) hi.log hi.ok
          · simp [token, h2]
          · intro _ _; exact Or.inr (Or.inr rfl)
          · intro h; cases h
          · intro t h; exact hi.dead h0 x t hx0 h
        have h0holds1 : holds s1 h0 id := by
          rw [← hs1]
          refine ⟨{ x with pc := .idle }, ?_, by simp [token, h2]⟩
          simp only [List.getElem?_set_self']
          rw [hx0]; rfl
        have e1 : s1.handles = s.handles.set h0 { x with pc := .idle } := by rw [← hs1]
        have e2 : s1.sock = s.sock := by rw [← hs1]
        have e3 : s1.procs = s.procs := by rw [← hs1]
        have hqq1 : quiet s1 id := by rw [← hs1]; exact hqq
        have hnex : ∀ (h : Nat) (z : Handle), s1.handles[h]? = some z → z.pc = .exec → z.hid ≠ .live id := by
          intro h z hz hp hl
          have := hi1.uniq h h0 id ⟨z, hz, by simp [token, hl]⟩ h0holds1
          subst this
          rw [e1, List.getElem?_set_self', hx0] at hz
          cases hz
          cases hp
        have hmem : ∀ i t, (i, t) ∈ inflight { s with handles := s.handles.set h0 { x with pc := .idle }, procs := (id, h0) :: remove id s.procs, sock := s.sock ++ [.create id h0] } ↔
            (i, t) ∈ inflight s1 ∨ (i = id ∧ t = h0) := by
          intro i t
          rw [← hs1]
          simp only [inflight, creates_snoc, List.mem_append]
          simp only [creates, List.filterMap_cons, List.filterMap_nil, List.mem_singleton, Prod.mk.injEq]
          constructor
          · rintro (((h | h) | h) | h)
            · exact Or.inl (Or.inl (Or.inl h))
            · exact Or.inr h
            · exact Or.inl (Or.inl (Or.inr h))
            · exact Or.inl (Or.inr h)
          · rintro (((h | h) | h) | h)
            · exact Or.inl (Or.inl (Or.inl h))
            · exact Or.inl (Or.inr h)
            · exact Or.inr h
            · exact Or.inl (Or.inl (Or.inr h))
        have hrq : ∀ i h, requested { s with handles := s.handles.set h0 { x with pc := .idle }, procs := (id, h0) :: remove id s.procs, sock := s.sock ++ [.create id h0] } i h → requested s1 i h := by
          rintro i h (⟨o, h⟩ | ⟨o, h⟩)
          · rw [← hs1]; exact Or.inl ⟨o, h⟩
          · rw [← hs1]
            simp only [List.mem_append, List.mem_singleton] at h
            rcases h with h | h
            · exact Or.inr ⟨o, h⟩
            · cases h
        refine ⟨?_, ?_, ?_, ?_, ?_, ?_, ?_, ?_, hi.log, hi.ok⟩
        · rw [← hs1] at hi1; exact hi1.uniq
        · rw [← hs1] at hi1; exact hi1.pcok
        · have hp : ((inflight { s with handles := s.handles.set h0 { x with pc := .idle }, procs := (id, h0) :: remove id s.procs, sock := s.sock ++ [.create id h0] }).map (·.1)).Perm
              (id :: (inflight s).map (·.1)) := by
            simp only [inflight, creates_snoc]
            have : creates [Msg.create id h0] = [(id, h0)] := rfl
            rw [this]
            simp only [List.append_assoc, List.singleton_append, List.map_append, List.map_cons]
            exact List.perm_middle
          rw [hp.nodup_iff, List.nodup_cons]
          refine ⟨?_, hi.nodup⟩
          intro hc
          obtain ⟨⟨a, b⟩, hm, rfl⟩ := List.mem_map.mp hc
          exact hqq.1 b hm
        · intro i t ht
          rcases (hmem i t).mp ht with kt | ⟨rfl, rfl⟩
          · have hne : i ≠ id := fun hc => by subst hc; exact hqq1.1 t kt
            simp only [assoc]
            rw [if_neg (fun hc => hne hc.symm), assoc_remove_ne _ _ _ hne, ← e3]
            exact hi1.procs i t kt
          · simp [assoc]
        · intro h i t h1 h2
          have h1' : holds s1 h i := by rw [← hs1]; exact h1
          rcases (hmem i t).mp h2 with h2 | ⟨rfl, rfl⟩
          · exact hi1.own h i t h1' h2
          · exact hi1.uniq _ _ _ h0holds1 h1'
        · intro h z i hz hp hl
          have hz' : s1.handles[h]? = some z := by rw [← hs1]; exact hz
          have hqi := hi1.fresh h z i hz' hp hl
          have hne : i ≠ id := fun hc => by subst hc; exact hnex h z hz' hp hl
          refine ⟨fun t ht => ?_, fun h' hr => hqi.2 h' (hrq _ _ hr)⟩
          rcases (hmem i t).mp ht with ht | ⟨rfl, _⟩
          · exact hqi.1 t ht
          · exact hne rfl
        · intro i h t h1 h2
          rcases (hmem i t).mp h2 with h2 | ⟨rfl, rfl⟩
          · exact hi1.req i h t (hrq _ _ h1) h2
          · exact absurd (hrq _ _ h1) (hqq1.2 h)
        · rw [← hs1] at hi1; exact hi1.dead
      · cases hs
    · cases hs
  | execCancel h0 =>
    simp only [withHandle] at hs
    split at hs
    · rename_i x hx0
      split at hs
      · rename_i h1
        cases hs
        refine hi.set h0 x _ hx0 rfl (Or.inr ?_) ?_ ?_ ?_ (List.Perm.refl _) rfl (fun _ _ h => Or.inl h) hi.log hi.ok
        · simp only [token, h1]
        · intro _ _; exact Or.inr (Or.inl rfl)
        · intro h; cases h
        · intro t h; exact hi.dead h0 x t hx0 h
      · cases hs
    · cases hs
  | kill h0 => exact claim_inv s s' h0 _ _ (fun _ h => by cases h) (fun _ _ => rfl) (fun _ h => by cases h) hs hi
  | suspend h0 => exact claim_inv s s' h0 _ _ (fun _ h => by cases h) (fun _ _ => rfl) (fun _ h => by cases h) hs hi
  | finalize h0 => exact claim_inv s s' h0 _ _ (fun _ h => by cases h) (fun _ _ => rfl) (fun _ h => by cases h) hs hi
  | sendKill h0 =>
    simp only [withHandle] at hs
    split at hs
    · rename_i x hx0
      have hxo := hi.pcok x (List.mem_of_getElem? hx0)
      have fin : ∀ id o, token x = some id → x.pc ≠ .exec → (∀ id, x.hid ≠ .live id) →
          Inv { s with handles := s.handles.set h0 { x with pc := .ret id }, killQ := s.killQ ++ [(id, h0, o)] } := by
        intro id o ht hne hnl
        refine hi.set h0 x { x with pc := .ret id } hx0 rfl (Or.inr ?_) ?_ ?_ ?_ (List.Perm.refl _) rfl ?_ hi.log hi.ok
        · rw [ht]; unfold token
          cases hh : x.hid with
          | live i => exact absurd hh (hnl i)
          | _ => rfl
        · intro i h; exact absurd h (hnl i)
        · intro h; cases h
        · intro t h; exact hi.dead h0 x t hx0 h
        · rintro i h (⟨o', hr⟩ | ⟨o', hr⟩)
          · simp only [List.mem_append, List.mem_singleton, Prod.mk.injEq] at hr
            rcases hr with hr | ⟨rfl, rfl, _⟩
            · exact Or.inl (Or.inl ⟨o', hr⟩)
            · exact Or.inr ⟨rfl, ⟨x, hx0, ht⟩, hne⟩
          · exact Or.inl (Or.inr ⟨o', hr⟩)
      have nl : ∀ id, (∃ o, x.pc = .sendK id o) ∨ x.pc = .fin id → (∀ id, x.hid ≠ .live id) := by
        intro id hpc i hl
        rcases hxo i hl with h | h | h <;> rcases hpc with ⟨o, hpc⟩ | hpc <;> rw [hpc] at h <;> cases h
      split at hs
      · rename_i id o hpc
        cases hs
        have hnl := nl id (Or.inl ⟨o, hpc⟩)
        refine fin id o ?_ (by rw [hpc]; simp) hnl
        unfold token; rw [hpc]
        cases hh : x.hid with
        | live i => exact absurd hh (hnl i)
        | _ => rfl
      · rename_i id hpc
        cases hs
        have hnl := nl id (Or.inr hpc)
        refine fin id .kill ?_ (by rw [hpc]; simp) hnl
        unfold token; rw [hpc]
        cases hh : x.hid with
        | live i => exact absurd hh (hnl i)
        | _ => rfl
      · cases hs
    · cases hs
  | retId h0 =>
    simp only [withHandle] at hs
    split at hs
    · rename_i x hx0
      have hxo := hi.pcok x (List.mem_of_getElem? hx0)
      split at hs
      · rename_i id hpc
        cases hs
        have hnl : ∀ id, x.hid ≠ .live id := by
          intro id hl; rcases hxo id hl with h | h | h <;> rw [hpc] at h <;> cases h
        refine hi.set h0 x { x with pc := .idle } hx0 rfl (Or.inl ?_) ?_ ?_ ?_ (List.Perm.refl _) rfl (fun _ _ h => Or.inl h) hi.log hi.ok
        · unfold token
          cases hh : x.hid with
          | live i => exact absurd hh (hnl i)
          | _ => rfl
        · intro i h; exact absurd h (hnl i)
        · intro h; cases h
        · intro t h; exact hi.dead h0 x t hx0 h
      · cases hs
    · cases hs
  | finDead h0 =>
    simp only [withHandle] at hs
    split at hs
    · rename_i x hx0
      have hxo := hi.pcok x (List.mem_of_getElem? hx0)
      split at hs
      · rename_i id d hpc _
        cases hs
        have hnl : ∀ id, x.hid ≠ .live id := by
          intro id hl; rcases hxo id hl with h | h | h <;> rw [hpc] at h <;> cases h
        refine hi.set h0 x { x with pc := .idle } hx0 rfl (Or.inl ?_) ?_ ?_ ?_ (List.Perm.refl _) rfl (fun _ _ h => Or.inl h) hi.log hi.ok
        · unfold token
          cases hh : x.hid with
          | live i => exact absurd hh (hnl i)
          | _ => rfl
        · intro i h; exact absurd h (hnl i)
        · intro h; cases h
        · intro t h; exact hi.dead h0 x t hx0 h
      · cases hs
    · cases hs
  | senderKill =>
    simp only at hs
    split at hs
    · cases hs
    · rename_i id h o rest hkq
      cases hs
      refine hi.same rfl (List.Perm.of_eq ?_) rfl ?_ hi.log hi.ok
      · simp [inflight, creates]
      · rintro i h' (⟨o', hr⟩ | ⟨o', hr⟩)
        · exact Or.inl ⟨o', by rw [hkq]; exact List.mem_cons_of_mem _ hr⟩
        · simp only [List.mem_append, List.mem_singleton] at hr
          rcases hr with hr | hr
          · exact Or.inr ⟨o', hr⟩
          · cases hr; exact Or.inl ⟨o, by rw [hkq]; exact List.mem_cons_self⟩
  | recvOp =>
    simp only at hs
    split at hs
    · cases hs
    · rename_i id h rest hsk
      have hinf : inflight s = (id, h) :: (creates rest ++ s.table ++ s.statuses) := by
        simp [inflight, hsk, creates]
      split at hs
      · rename_i t hat
        exfalso
        have hm := assoc_mem _ _ _ hat
        have hn := hi.nodup
        rw [hinf, List.map_cons, List.nodup_cons] at hn
        exact hn.1 (List.mem_map.mpr ⟨(id, t), by simp [hm], rfl⟩)
      · cases hs
        refine hi.same rfl ?_ rfl ?_ hi.log hi.ok
        · rw [hinf]
          simp only [inflight, List.append_assoc, List.cons_append]
          exact List.perm_middle
        · rintro i h' (⟨o', hr⟩ | ⟨o', hr⟩)
          · exact Or.inl ⟨o', hr⟩
          · exact Or.inr ⟨o', by rw [hsk]; exact List.mem_cons_of_mem _ hr⟩
    · rename_i id h o rest hsk
      cases hs
      refine hi.same rfl (List.Perm.of_eq ?_) rfl ?_ ?_ hi.ok
      · simp [inflight, hsk, creates]
      · rintro i h' (⟨o', hr⟩ | ⟨o', hr⟩)
        · exact Or.inl ⟨o', hr⟩
        · exact Or.inr ⟨o', by rw [hsk]; exact List.mem_cons_of_mem _ hr⟩
      · intro h' o' t hl
        simp only [List.mem_append, List.mem_singleton, Prod.mk.injEq] at hl
        rcases hl with hl | ⟨rfl, rfl, ht⟩
        · exact hi.log h' o' t hl
        · have hm := assoc_mem _ _ _ ht.symm
          exact hi.req id h' t (Or.inr ⟨o', by rw [hsk]; exact List.mem_cons_self⟩) (by simp [inflight, hm])
  | exit id =>
    simp only at hs
    split at hs
    · rename_i h hat
      cases hs
      refine hi.same rfl ?_ rfl (fun _ _ h => h) hi.log hi.ok
      have hm := assoc_mem _ _ _ hat
      have hnt : (s.table.map (·.1)).Nodup := by
        have := hi.nodup
        simp only [inflight, List.map_append] at this
        exact (List.nodup_append.mp (List.nodup_append.mp this).1).2.1
      have key : ∀ l : List (Nat × Nat), (l.map (·.1)).Nodup → (id, h) ∈ l → ((id, h) :: remove id l).Perm l := by
        intro l
        induction l with
        | nil => intro _ h; simp at h
        | cons a l ih =>
          intro hn hm
          rw [List.map_cons, List.nodup_cons] at hn
          unfold remove
          rw [List.filter_cons]
          rcases List.mem_cons.mp hm with rfl | hm
          · simp only [ne_eq, not_true_eq_false, decide_false, Bool.false_eq_true, if_false]
            rw [List.filter_eq_self.mpr]
            intro b hb
            simp only [decide_not, Bool.not_eq_true', decide_eq_false_iff_not]
            intro hc
            exact hn.1 (List.mem_map.mpr ⟨b, hb, hc⟩)
          · have : a.1 ≠ id := fun hc => hn.1 (List.mem_map.mpr ⟨(id, h), hm, hc.symm⟩)
            rw [if_pos (by simpa using this)]
            exact (List.Perm.swap a (id, h) _).trans ((ih hn.2 hm).cons a)
      simp only [inflight, List.append_assoc]
      apply List.Perm.append_left
      have k1 : (s.table ++ s.statuses).Perm ((id, h) :: remove id s.table ++ s.statuses) := (key _ hnt hm).symm.append_right _
      refine List.Perm.trans ?_ k1.symm
      rw [← List.append_assoc]
      exact (List.perm_append_comm).trans (by simp)
    · cases hs
  | recvStatus =>
    simp only at hs
    split at hs
    · cases hs
    · rename_i id h rest hst
      have hin : (id, h) ∈ inflight s := by simp [inflight, hst]
      have hpr := hi.procs id h hin
      have hperm : (inflight s).Perm ((id, h) :: (creates s.sock ++ s.table ++ rest)) := by
        simp only [inflight, hst]; exact List.perm_middle
      split at hs
      · rename_i hnone; rw [hpr] at hnone; cases hnone
      · rename_i h' hsome
        rw [hpr] at hsome
        cases hsome
        split at hs
        · rename_i x hx0
          cases hs
          have hn := (hperm.map (·.1)).nodup_iff.mp hi.nodup
          rw [List.map_cons, List.nodup_cons] at hn
          -- the rest of the inflight processes
          have hsub : ∀ e, e ∈ creates s.sock ++ s.table ++ rest → e ∈ inflight s := by
            intro e he; exact hperm.mem_iff.mpr (List.mem_cons_of_mem _ he)
          have hold : ∀ k i, (∃ z, (s.handles.set h { x with dead := some h })[k]? = some z ∧ token z = some i) → holds s k i := by
            rintro k i ⟨z, hz, ht⟩
            rcases getElem?_set' _ _ _ _ _ hz with ⟨rfl, rfl⟩ | ⟨_, hz⟩
            · exact ⟨x, hx0, ht⟩
            · exact ⟨z, hz, ht⟩
          refine ⟨?_, ?_, hn.2, ?_, ?_, ?_, ?_, ?_, hi.log, hi.ok⟩
          · intro k k' i h1 h2; exact hi.uniq k k' i (hold _ _ h1) (hold _ _ h2)
          · intro z hz
            rcases List.mem_or_eq_of_mem_set hz with hz | rfl
            · exact hi.pcok z hz
            · exact hi.pcok x (List.mem_of_getElem? hx0)
          · intro i t ht
            have hne : i ≠ id := fun hc => hn.1 (by subst hc; exact List.mem_map.mpr ⟨(i, t), ht, rfl⟩)
            simp only
            rw [assoc_remove_ne _ _ _ hne]
            exact hi.procs i t (hsub _ ht)
          · intro k i t h1 h2; exact hi.own k i t (hold _ _ h1) (hsub _ h2)
          · intro k z i hz h1 h2
            have : quiet s i := by
              rcases getElem?_set' _ _ _ _ _ hz with ⟨rfl, rfl⟩ | ⟨_, hz⟩
              · exact hi.fresh k x i hx0 h1 h2
              · exact hi.fresh k z i hz h1 h2
            exact ⟨fun t ht => this.1 t (hsub _ ht), this.2⟩
          · intro i k t h1 h2; exact hi.req i k t h1 (hsub _ h2)
          · intro k z t hz hd
            rcases getElem?_set' _ _ _ _ _ hz with ⟨rfl, rfl⟩ | ⟨_, hz⟩
            · cases hd; rfl
            · exact hi.dead k z t hz hd
        · cases hs

theorem qrun_inv {s s' : St} {ls : List Label} (h : QRun s ls s') (hok : ∀ x ∈ s.handles, PcOk x)
    (hn : (tokens s).Nodup) (hi : Inv s) : Inv s' := by
  induction h with
  | nil => exact hi
  | cons s l s1 ls s' h1 h2 h3 ih =>
    obtain ⟨a, b⟩ := step_tokens s s1 l h1 hok
    refine ih b (a.nodup_iff.mpr hn) (step_inv s s1 l h1 hi h2 ?_)
    rintro id h hp ⟨x, hx, ht⟩
    have := (List.nodup_append.mp hn).2.2 id hp id (List.mem_filterMap.mpr ⟨x, List.mem_of_getElem? hx, ht⟩)
    exact this rfl

theorem init_inv (n : Nat) : Inv (init n) := by
  refine ⟨?_, ?_, ?_, ?_, ?_, ?_, ?_, ?_, ?_, rfl⟩ <;> simp [init, holds, inflight, creates]

/-- C27 and C58, the part which holds: if every identifier is reused only when no unreaped
process and no queued request refers to it, then the processes which the executor knows have
distinct identifiers, every exit status reaches the handle of the process which exited, signals are
delivered only to the process of the handle on which they were requested, and
neither the executor nor the receiver crashes. -/
theorem quiet_identifiers_safe_partial (n : Nat) (ls : List Label) (s : St) (hr : QRun (init n) ls s) :
    (s.table.map (·.1)).Nodup ∧
    (∀ (h : Nat) (x : Handle) (t : Nat), s.handles[h]? = some x → x.dead = some t → t = h) ∧
    (∀ h o t, (h, o, some t) ∈ s.log → t = h) ∧
    s.crash = none := by
  have hi := qrun_inv hr (by simp [init]) (by simp [tokens, init, List.nodup_range]) (init_inv n)
  refine ⟨?_, hi.dead, hi.log, hi.ok⟩
  have := hi.nodup
  simp only [inflight, List.map_append] at this
  exact (List.nodup_append.mp (List.nodup_append.mp this).1).2.1

/-- Executable version of `QRun`. -/
def quietb (s : St) (id : Nat) : Bool :=
  (inflight s).all (fun e => e.1 ≠ id) && s.killQ.all (fun e => e.1 ≠ id) &&
    s.sock.all (fun | .op i _ _ => i ≠ id | .create _ _ => true)

def qrun (s : St) : List Label → Option St
  | [] => some s
  | l :: ls =>
    if l = .alloc ∧ (s.pool.head?.any fun id => !quietb s id) then none
    else match step s l with
      | some s' => qrun s' ls
      | none => none

theorem quietb_quiet (s : St) (id : Nat) (h : quietb s id = true) : quiet s id := by
  simp only [quietb, Bool.and_eq_true, List.all_eq_true] at h
  obtain ⟨⟨h1, h2⟩, h3⟩ := h
  refine ⟨fun t ht => by simpa using h1 _ ht, ?_⟩
  rintro h (⟨o, hm⟩ | ⟨o, hm⟩)
  · simpa using h2 _ hm
  · simpa using h3 _ hm

theorem qrun_QRun : ∀ (ls : List Label) (s s' : St), qrun s ls = some s' → QRun s ls s' := by
  intro ls
  induction ls with
  | nil => intro s s' h; simp only [qrun, Option.some.injEq] at h; subst h; exact .nil s
  | cons l ls ih =>
    intro s s' h
    simp only [qrun] at h
    split at h
    · cases h
    · rename_i hq
      split at h
      · rename_i s1 hs
        refine .cons s l s1 ls s' hs ?_ (ih s1 s' h)
        intro hl id rest hp
        apply quietb_quiet
        cases hb : quietb s id with
        | true => rfl
        | false => exact absurd ⟨hl, by simp [hp, hb]⟩ hq
      · cases h

/-- The hypothesis is met by a run with one identifier used for three processes: one killed,
one suspended, one which exits by itself. -/
example : ∃ s, QRun (init 1) [.alloc, .execSend 0, .recvOp, .kill 0, .sendKill 0, .retId 0, .senderKill, .recvOp,
    .exit 0, .recvStatus, .alloc, .execSend 1, .suspend 1, .sendKill 1, .senderKill, .recvOp, .recvOp, .retId 1, .exit 0,
    .recvStatus, .alloc, .execSend 2, .recvOp, .exit 0, .recvStatus, .finalize 2, .finDead 2] s ∧
    s.handles.map (·.dead) = [some 0, some 1, some 2] ∧ s.pool = [0] ∧ s.log.length = 2 := by
  obtain ⟨s, h1, h2⟩ : ∃ s, qrun (init 1) [.alloc, .execSend 0, .recvOp, .kill 0, .sendKill 0, .retId 0, .senderKill, .recvOp,
    .exit 0, .recvStatus, .alloc, .execSend 1, .suspend 1, .sendKill 1, .senderKill, .recvOp, .recvOp, .retId 1, .exit 0,
    .recvStatus, .alloc, .execSend 2, .recvOp, .exit 0, .recvStatus, .finalize 2, .finDead 2] = some s ∧
    (s.handles.map (·.dead) = [some 0, some 1, some 2] ∧ s.pool = [0] ∧ s.log.length = 2) :=
    exists_of_run (by decide +kernel)
  exact ⟨s, qrun_QRun _ _ _ h1, h2⟩

end Gate.Executor
