import Verif.Base

/-!
# Setting up of the container

Model of internal/container/child/container.go (`childMain`, `furnishNamespaces`, `setCred`), of
capset.go, and of internal/container/parent.go:30-117 (`Start`).

The child is a fixed sequence of system calls which depends on the configuration.  Any of them can
fail at any time.  What a successful call does to the process is described by `apply`.
-/

set_option linter.unusedSimpArgs false

namespace Gate.Container

/-- Build tags and command line (childMain, container.go:214-227): `sandbox` is `common.Sandbox`
(common/sandbox_enabled.go), `debug` is `runtimeDebug`. -/
structure Cfg where
  sandbox : Bool := true
  debug : Bool := false
  nsDisabled : Bool := false
  singleUID : Bool := false
  fsize : Nat := 0
  deriving DecidableEq

/-- Whether the child has namespaces of its own (container.go:261). -/
def Cfg.namespaced (c : Cfg) : Bool := c.sandbox && !c.nsDisabled

/-- Root file systems: the host's, the new one in its stages (container.go:142-201). -/
inductive Root
  | host          -- shared with the host
  | hostPrivate   -- MS_PRIVATE
  | pivoted       -- tmpfs, with the old root below
  | tmpfs         -- the old root has been unmounted
  | readonly
  deriving DecidableEq

/-- The steps of `childMain`. -/
inductive Act
  | binaries                    -- container.go:231
  | waitParent                  -- container.go:235
  | stdinNull                   -- container.go:241
  | nofile                      -- container.go:246 (error ignored)
  | umask                       -- container.go:249
  | limit (name : String) (value : Nat)  -- container.go:251-265, 287-295
  | setUid (id : Nat)           -- container.go:119
  | setGid (id : Nat)           -- container.go:122
  | setGroups                   -- container.go:275
  | hostname                    -- container.go:131, 135
  | private_                    -- container.go:141
  | mountTmpfs                  -- container.go:148
  | mkProc                      -- container.go:152
  | mountProc                   -- container.go:157
  | openProc                    -- container.go:161
  | umountProc                  -- container.go:165, 169
  | pivot                       -- container.go:173-181
  | umountOld                   -- container.go:185
  | chdir                       -- container.go:192
  | remountRo                   -- container.go:200
  | openHostProc                -- container.go:299
  | lockThread                  -- container.go:304
  | capset                      -- container.go:306
  | ambientClear                -- container.go:310
  | pdeath                      -- container.go:315
  | checkParent                 -- container.go:318
  | stderrNull                  -- container.go:323
  deriving DecidableEq

/-- `furnishNamespaces` (container.go:128-205). -/
def furnish : List Act :=
  [.hostname, .private_, .mountTmpfs, .mkProc, .mountProc, .openProc, .umountProc, .pivot,
   .umountOld, .chdir, .remountRo]

/-- `setCred` (container.go:117-126). -/
def setCred (id : Nat) : List Act := [.setUid id, .setGid id]

/-- The address space limit (container.go:32-39). -/
def limitAS : Nat :=
  12288 + 0x1000 + 0x1000 + 0x80000000 + 0x80000000 + 0x1000 + 0x80000000

/-- `childMain` up to `execveat` (container.go:214-327). -/
def plan (c : Cfg) : List Act :=
  [.binaries, .waitParent, .stdinNull, .nofile] ++
  (if c.sandbox then [.umask, .limit "FSIZE" c.fsize, .limit "MEMLOCK" 0, .limit "MSGQUEUE" 0,
    .limit "RTPRIO" 0, .limit "SIGPENDING" 0] else []) ++
  (if c.namespaced then
    setCred 1 ++ (if c.singleUID then [] else [.setGroups]) ++ furnish ++
    (if c.singleUID then [] else setCred 2) ++
    [.limit "AS" limitAS, .limit "CORE" 0, .limit "STACK" 65536]
  else [.openHostProc]) ++
  [.lockThread, .capset, .ambientClear, .pdeath, .checkParent] ++
  (if c.debug then [] else [.stderrNull])

/-- Whether `childMain` goes on after a failure of the step (container.go:246: the result of
setting NOFILE is ignored). -/
def optional : Act → Bool
  | .nofile => true
  | _ => false

/-- The process, as far as isolation is concerned.  `caps`: it has capabilities; `pdeath`: it's
killed when its parent dies; `proc`: descriptor 7 refers to the host's process file system
(`some true`) or to the namespace's (`some false`). -/
structure K where
  uid : Nat
  gid : Nat
  groups : Bool := true
  caps : Bool
  ambient : Bool
  locked : Bool := false
  pdeath : Bool := true
  root : Root := .host
  proc : Option Bool := none
  limits : List (String × Nat) := []
  stdinNull : Bool := false
  stderrNull : Bool := false
  hostname : Bool := false

/-- The process after `clone` and `exec` of itself (parent.go:55-61, namespace.go:37-45): the
parent-death signal is set; with namespaces it has capabilities.  Its ids are those of the host
(or unmapped). -/
def K.start (c : Cfg) (uid gid : Nat) : K :=
  { uid, gid, caps := c.namespaced, ambient := c.namespaced }

/-- What a successful step does.  Changing of credentials clears the parent-death signal
(prctl(2)). -/
def apply (k : K) : Act → K
  | .stdinNull => { k with stdinNull := true }
  | .limit n v => { k with limits := k.limits ++ [(n, v)] }
  | .setUid id => { k with uid := id, pdeath := false }
  | .setGid id => { k with gid := id, pdeath := false }
  | .setGroups => { k with groups := false }
  | .hostname => { k with hostname := true }
  | .private_ => { k with root := .hostPrivate }
  | .pivot => { k with root := .pivoted }
  | .umountOld => { k with root := .tmpfs }
  | .remountRo => { k with root := .readonly }
  | .openProc => { k with proc := some false }
  | .openHostProc => { k with proc := some true }
  | .lockThread => { k with locked := true }
  | .capset => { k with caps := !k.locked, ambient := !k.locked }
  | .ambientClear => { k with ambient := false }
  | .pdeath => { k with pdeath := true }
  | .stderrNull => { k with stderrNull := true }
  | _ => k

/-- Steps which the kernel refuses without capabilities in the namespace. -/
def needsCaps : Act → Bool
  | .setUid _ | .setGid _ | .setGroups | .hostname | .private_ | .mountTmpfs | .mountProc
  | .umountProc | .pivot | .umountOld | .remountRo => true
  | _ => false

/-- How the child ends: it has exited with an error, it has been killed, or it has become the
executor. -/
inductive Out
  | failed
  | killed
  | exec (k : K)

/-- The parent's process id as the child sees it after the parent's death: in a PID namespace of
its own the child has no visible parent, before and after. -/
def ppid (c : Cfg) (dead : Bool) : Nat := if c.namespaced then 0 else if dead then 1 else 1000

/-- The execution of the steps: `fail i` tells whether the i-th step from the end of the list
fails (it also fails if capabilities are needed and missing); `die i` whether the parent dies
before it. -/
def run (c : Cfg) (fail die : Nat → Bool) (dead : Bool) (k : K) : List Act → Out
  | [] => .exec k
  | a :: as =>
    let i := as.length
    let dead' := dead || die i
    if die i && !dead && k.pdeath then .killed
    else if a = .checkParent then
      if ppid c dead' = 1 then .killed else run c fail die dead' (apply k a) as
    else if (fail i || (needsCaps a && !k.caps)) then
      if optional a then run c fail die dead' k as else .failed
    else run c fail die dead' (apply k a) as

/-- The child. -/
def child (c : Cfg) (uid gid : Nat) (fail die : Nat → Bool) : Out :=
  run c fail die false (K.start c uid gid) (plan c)

/-! ## The parent -/

/-- What the parent does to the child (parent.go:85-117): starts it, moves it to its cgroup, sets
the score, maps the ids, closes the pipe which lets it go on, kills it. -/
inductive PAct
  | start | cgroup | oom | idmap | release | kill
  deriving DecidableEq

/-- Configuration as `Start` sees it. -/
structure PCfg where
  sandbox : Bool := true
  nsDisabled : Bool := false
  singleUID : Bool := false
  newidmap : Bool := false

/-- The steps after `cmd.Start` in order (parent.go:95-114). -/
def pplan (c : PCfg) : List PAct :=
  [.cgroup] ++ (if c.sandbox then [.oom] ++
    (if !c.nsDisabled && !c.singleUID && c.newidmap then [.idmap] else []) else []) ++ [.release]

/-- The rest of `Start`: the first failing step runs the deferred functions: the child is killed
and awaited (parent.go:88-93), and then the pipe is closed (parent.go:78-82) if it hasn't been. -/
def prun (fail : PAct → Bool) : List PAct → List PAct × Bool
  | [] => ([], true)
  | a :: as =>
    if fail a then
      if a = .release then ([.release, .kill], false)  -- stdin = nil before the check
      else ([.kill, .release], false)
    else let (t, ok) := prun fail as; (a :: t, ok)

/-- `Start` (parent.go:30-117): what happens and whether it succeeds. -/
def startParent (fail : PAct → Bool) (c : PCfg) : List PAct × Bool :=
  if fail .start then ([], false) else
    let (t, ok) := prun fail (pplan c)
    (.start :: t, ok)

/-! ## C129 -/

/-- Exec isn't reached unless every mandatory step has succeeded. -/
theorem run_exec {c : Cfg} {fail die : Nat → Bool} {dead : Bool} {k k' : K} {as : List Act}
    (h : run c fail die dead k as = .exec k') :
    ∃ done : List Act, k' = done.foldl apply k ∧
      ((as.filter fun a => !optional a) = done.filter fun a => !optional a) := by
  induction as generalizing k dead with
  | nil =>
    simp only [run, Out.exec.injEq] at h
    exact ⟨[], by simp [h], rfl⟩
  | cons a as ih =>
    rw [run] at h
    split at h
    · simp at h
    · split at h
      · rename_i ha
        split at h
        · simp at h
        · obtain ⟨d, h1, h2⟩ := ih h
          exact ⟨a :: d, by simpa using h1, by simp [List.filter_cons, h2]⟩
      · split at h
        · split at h
          · rename_i ho
            obtain ⟨d, h1, h2⟩ := ih h
            exact ⟨d, h1, by simp [List.filter_cons, ho, h2]⟩
          · simp at h
        · obtain ⟨d, h1, h2⟩ := ih h
          exact ⟨a :: d, by simpa using h1, by simp [List.filter_cons, h2]⟩

/-- Optional steps don't matter for isolation. -/
theorem foldl_filter (l : List Act) (k : K) :
    l.foldl apply k = (l.filter fun a => !optional a).foldl apply k := by
  induction l generalizing k with
  | nil => rfl
  | cons a l ih =>
    simp only [List.foldl_cons, List.filter_cons]
    cases a <;> simp [optional, ih, apply]

/-- The state in which the executor is started is determined by the configuration: no failure and
no schedule changes it. -/
theorem exec_state {c : Cfg} {uid gid : Nat} {fail die : Nat → Bool} {k : K}
    (h : child c uid gid fail die = .exec k) : k = (plan c).foldl apply (K.start c uid gid) := by
  obtain ⟨d, h1, h2⟩ := run_exec h
  rw [h1, foldl_filter, ← h2, ← foldl_filter]

/-- The sandbox of the executor and the programs with namespaces: no capabilities, the container's
executor ids (or the container's only ids), no supplementary groups, an empty read-only root, the
namespace's own process file system, the resource limits, and the parent-death signal. -/
theorem sandboxed {c : Cfg} {uid gid : Nat} {fail die : Nat → Bool} {k : K}
    (h : child c uid gid fail die = .exec k) (hn : c.namespaced = true) :
    k.caps = false ∧ k.ambient = false ∧
    k.uid = (if c.singleUID then 1 else 2) ∧ k.gid = (if c.singleUID then 1 else 2) ∧
    k.groups = c.singleUID ∧ k.root = .readonly ∧ k.proc = some false ∧ k.hostname = true ∧
    k.pdeath = true ∧ k.stdinNull = true ∧ k.stderrNull = !c.debug ∧
    k.limits = [("FSIZE", c.fsize), ("MEMLOCK", 0), ("MSGQUEUE", 0), ("RTPRIO", 0),
      ("SIGPENDING", 0), ("AS", limitAS), ("CORE", 0), ("STACK", 65536)] := by
  rw [exec_state h]
  obtain ⟨sb, db, nd, su, fs⟩ := c
  cases sb <;> cases nd <;> simp [Cfg.namespaced] at hn
  cases db <;> cases su <;>
    simp [plan, Cfg.namespaced, setCred, furnish, apply, K.start]

/-- Without namespaces (if disabled by configuration) the executor still has no capabilities, is
killed with its parent and has the first five limits, but it keeps the server's ids and groups and
sees the host's root and processes. -/
theorem disabled_keeps_host {c : Cfg} {uid gid : Nat} {fail die : Nat → Bool} {k : K}
    (h : child c uid gid fail die = .exec k) (hn : c.namespaced = false) :
    k.caps = false ∧ k.ambient = false ∧ k.uid = uid ∧ k.gid = gid ∧ k.groups = true ∧
    k.root = .host ∧ k.proc = some true ∧ k.pdeath = true ∧ k.stdinNull = true ∧
    k.limits = (if c.sandbox then [("FSIZE", c.fsize), ("MEMLOCK", 0), ("MSGQUEUE", 0),
      ("RTPRIO", 0), ("SIGPENDING", 0)] else []) := by
  rw [exec_state h]
  obtain ⟨sb, db, nd, su, fs⟩ := c
  cases sb <;> cases nd <;> simp [Cfg.namespaced] at hn
  all_goals cases db <;> cases su <;>
    simp [plan, Cfg.namespaced, setCred, furnish, apply, K.start]

/-- Steps aren't blocked by earlier ones: if nothing fails and the parent lives, the executor is
started, in every configuration in which the process has been given the capabilities. -/
theorem starts (c : Cfg) (uid gid : Nat) :
    ∃ k, child c uid gid (fun _ => false) (fun _ => false) = .exec k := by
  obtain ⟨sb, db, nd, su, fs⟩ := c
  cases sb <;> cases db <;> cases nd <;> cases su <;>
    simp [child, run, plan, Cfg.namespaced, setCred, furnish, apply, K.start, optional, needsCaps,
      ppid]

/-- Steps which don't change credentials: a child whose parent has died never becomes the executor,
because it's killed by the signal (or by its own check). -/
theorem orphan_partial {c : Cfg} {fail die : Nat → Bool} {dead : Bool} {k k' : K} {as : List Act}
    (hp : k.pdeath = true) (hd : dead = false)
    (hs : ∀ a ∈ as, (∀ i, a ≠ .setUid i) ∧ (∀ i, a ≠ .setGid i))
    (h : run c fail die dead k as = .exec k') : ∀ i, i < as.length → die i = false := by
  induction as generalizing k dead with
  | nil => intro i hi; simp at hi
  | cons a as ih =>
    rw [run] at h
    subst hd
    simp only [Bool.not_false, Bool.and_true, Bool.false_or, hp] at h
    split at h
    · simp at h
    · rename_i hdi
      have hdi' : die as.length = false := by simpa using hdi
      rw [hdi'] at h
      have ha := hs a (by simp)
      have hk : (apply k a).pdeath = true := by
        cases a <;> simp_all [apply]
      have hs' : ∀ b ∈ as, (∀ i, b ≠ .setUid i) ∧ (∀ i, b ≠ .setGid i) :=
        fun b hb => hs b (by simp [hb])
      intro i hi
      have hi' : i = as.length ∨ i < as.length := by simp at hi; omega
      rcases hi' with rfl | hi'
      · exact hdi'
      · split at h
        · split at h
          · simp at h
          · exact ih hk rfl hs' h i hi'
        · split at h
          · split at h
            · exact ih hp rfl hs' h i hi'
            · simp at h
          · exact ih hk rfl hs' h i hi'

/-- So the executor without namespaces has a living parent when it's started. -/
theorem orphan_child_partial {c : Cfg} {uid gid : Nat} {fail die : Nat → Bool} {k : K}
    (hn : c.namespaced = false) (h : child c uid gid fail die = .exec k) (i : Nat)
    (hi : i < (plan c).length) : die i = false := by
  refine orphan_partial rfl rfl ?_ h i hi
  obtain ⟨sb, db, nd, su, fs⟩ := c
  cases sb <;> cases nd <;> simp [Cfg.namespaced] at hn
  all_goals cases db <;> cases su <;>
    simp [plan, Cfg.namespaced]

/-- With namespaces it's otherwise: if the parent dies after the credentials have been changed and
before the signal has been set again, the executor is started although the parent is dead, in
every such configuration.  (The check looks for process 1, which is never seen in the PID
namespace.) -/
theorem orphan_refuted (c : Cfg) (uid gid : Nat) (hn : c.namespaced = true) :
    ∃ i k, i < (plan c).length ∧
      child c uid gid (fun _ => false) (fun j => j == i) = .exec k := by
  refine ⟨if c.debug then 4 else 5, (plan c).foldl apply (K.start c uid gid), ?_, ?_⟩
  · obtain ⟨sb, db, nd, su, fs⟩ := c
    cases sb <;> cases nd <;> simp [Cfg.namespaced] at hn
    cases db <;> cases su <;> simp [plan, Cfg.namespaced, setCred, furnish]
  · obtain ⟨sb, db, nd, su, fs⟩ := c
    cases sb <;> cases nd <;> simp [Cfg.namespaced] at hn
    cases db <;> cases su <;>
      simp [child, run, plan, Cfg.namespaced, setCred, furnish, apply, K.start, optional, needsCaps,
        ppid]

theorem prun_spec (fail : PAct → Bool) (as : List PAct) (t : List PAct) (ok : Bool)
    (h : prun fail as = (t, ok)) :
    (ok = true → t = as) ∧
    (ok = false → ∃ d a, d ++ [a] <+: as ∧ fail a = true ∧
      (t = d ++ [.kill, .release] ∨ (a = .release ∧ t = d ++ [.release, .kill]))) := by
  induction as generalizing t ok with
  | nil => simp only [prun, Prod.mk.injEq] at h; obtain ⟨rfl, rfl⟩ := h; simp
  | cons a as ih =>
    rw [prun] at h
    split at h
    · rename_i hf
      refine ⟨?_, fun _ => ⟨[], a, by simp, hf, ?_⟩⟩
      · intro hk; split at h <;> simp_all
      · split at h
        · rename_i ha; simp at h; exact .inr ⟨ha, by simp [h]⟩
        · simp at h; exact .inl (by simp [h])
    · generalize hp : prun fail as = r at h
      obtain ⟨t', ok'⟩ := r
      simp only [Prod.mk.injEq] at h
      obtain ⟨rfl, rfl⟩ := h
      obtain ⟨h1, h2⟩ := ih t' ok' hp
      refine ⟨fun hk => by rw [h1 hk], fun hk => ?_⟩
      obtain ⟨d, b, hd, hb, ht⟩ := h2 hk
      refine ⟨a :: d, b, by simpa using hd, hb, ?_⟩
      rcases ht with ht | ⟨hr, ht⟩
      · exact .inl (by simp [ht])
      · exact .inr ⟨hr, by simp [ht]⟩

/-- If `Start` succeeds, the child has been let go only after everything was configured, and it
hasn't been killed.  If it fails after the child was started, the child has been killed, before it
was let go unless closing of the pipe itself failed (after all of the configuration). -/
theorem parent_order (fail : PAct → Bool) (c : PCfg) :
    ((startParent fail c).2 = true → (startParent fail c).1 = .start :: pplan c) ∧
    ((startParent fail c).2 = false → fail .start = true ∧ (startParent fail c).1 = [] ∨
      ∃ d, (startParent fail c).1 = .start :: d ++ [.kill, .release] ∧ .release ∉ d ∨
        (startParent fail c).1 = .start :: d ++ [.release, .kill] ∧ d ++ [.release] = pplan c) := by
  rw [startParent]
  split
  · rename_i hf; simp [hf]
  · generalize hp : prun fail (pplan c) = r
    obtain ⟨t, ok⟩ := r
    obtain ⟨h1, h2⟩ := prun_spec fail _ _ _ hp
    simp only
    refine ⟨fun hk => by rw [h1 hk], fun hk => .inr ?_⟩
    obtain ⟨d, a, hd, ha, ht⟩ := h2 hk
    have nr : ∀ x y : List PAct, x ++ y = pplan c → y ≠ [] → .release ∉ x := by
      intro x y hxy hy
      have hx : x <+: (pplan c).dropLast := by
        rcases List.eq_nil_or_concat y with rfl | ⟨y', z, rfl⟩
        · exact absurd rfl hy
        · rw [List.concat_eq_append, ← List.append_assoc] at hxy
          rw [← hxy]; simp
      intro hr
      have := hx.subset hr
      revert this
      obtain ⟨sb, nd, su, ni⟩ := c
      cases sb <;> cases nd <;> cases su <;> cases ni <;> simp [pplan]
    obtain ⟨rest, hrest⟩ := hd
    rcases ht with ht | ⟨hr, ht⟩
    · exact ⟨d, .inl ⟨by rw [ht]; simp, nr d ([a] ++ rest) (by rw [← hrest]; simp) (by simp)⟩⟩
    · refine ⟨d, .inr ⟨by rw [ht]; simp, ?_⟩⟩
      rcases rest with _ | ⟨b, rest⟩
      · rw [← hrest, hr]; simp
      · have := nr (d ++ [a]) (b :: rest) hrest (by simp)
        simp [hr] at this

/-- What the parent's plan consists of. -/
theorem parent_configures (c : PCfg) :
    PAct.cgroup ∈ pplan c ∧ (c.sandbox = true → .oom ∈ pplan c) ∧
    (c.sandbox = true → c.nsDisabled = false → c.singleUID = false → c.newidmap = true →
      .idmap ∈ pplan c) := by
  obtain ⟨sb, nd, su, ni⟩ := c
  cases sb <;> cases nd <;> cases su <;> cases ni <;> simp [pplan]

example : child {} 1000 1000 (fun i => i == 30) (fun _ => false) = .failed := by
  simp [child, run, plan, Cfg.namespaced, setCred, furnish, apply, K.start, optional, needsCaps,
    ppid]

example : startParent (fun a => a == .oom) {} = ([.start, .cgroup, .kill, .release], false) := by
  decide

end Gate.Container
