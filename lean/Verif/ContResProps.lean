import Verif.ContRes
/-
Properties of starting executors and containers (C160).
-/
set_option linter.unusedSimpArgs false

namespace Gate.ContRes

/-- Files and children which will be are different from the present ones. -/
structure WF (s : St) : Prop where
  files : ∀ f ∈ s.files, f < s.nextFile
  procs : ∀ p ∈ s.procs, p.id < s.nextProc

theorem bind_eq {α β : Type} (m : M α) (f : α → M β) (ω : Nat → Bool) (s : St) :
    (m >>= f) ω s = match m ω s with | (.ok a, s) => f a ω s | (.err, s) => (.err, s) | (.panic, s) => (.panic, s) := rfl

theorem pure_eq {α : Type} (a : α) (ω : Nat → Bool) (s : St) : (pure a : M α) ω s = (.ok a, s) := rfl

theorem filter_new (s : St) (h : WF s) : (s.procs.filter fun x => x.id != s.nextProc) = s.procs := by
  rw [List.filter_eq_self]
  intro p hp
  have := h.procs p hp
  simp; omega

theorem erase_new (s : St) (h : WF s) (k : Nat) : s.files.erase (s.nextFile + k) = s.files :=
  List.erase_of_not_mem fun hm => by have := h.files _ hm; omega

def passes (b : Bool) (ω : Nat → Bool) (t : Nat) : Bool := !b || ω t
def after (b : Bool) (t : Nat) : Nat := if b then t + 1 else t

theorem optional_eq (b : Bool) (ω : Nat → Bool) (s : St) :
    optional b sys ω s = (if passes b ω s.t then .ok () else .err, { s with t := after b s.t }) := by
  cases b <;> rfl

theorem start_run (ω : Nat → Bool) (s : St) (h : WF s) (control : File) (c : Conf) :
    ∃ n m t, s.nextFile ≤ n ∧ s.nextProc ≤ m ∧
      ((start control c ω s = (.err, { s with nextFile := n, nextProc := m, t := t })) ∨
       (s.nextProc < m ∧ start control c ω s = (.ok s.nextProc,
          { s with nextFile := n, nextProc := m, t := t, procs := ⟨s.nextProc, [control, ⟨s.nextFile + 1, .loader⟩, ⟨s.nextFile, .executor⟩, ⟨s.nextFile + 2, .cgroup⟩]⟩ :: s.procs }))) := by
  have f := filter_new s h
  have e := erase_new s h
  have e0 := e 0
  obtain ⟨sb, ec, ni⟩ := c
  cases h0 : ω s.t
  · refine ⟨s.nextFile, s.nextProc, s.t + 1, by omega, by omega, .inl ?_⟩
    simp [start, scope, bind_eq, openFile, h0]
  cases h1 : ω (s.t + 1)
  · refine ⟨s.nextFile + 1, s.nextProc, s.t + 2, by omega, by omega, .inl ?_⟩
    simp [start, scope, bind_eq, openFile, later, h0, h1, St.act, St.close]
  cases h2 : ω (s.t + 2)
  · refine ⟨s.nextFile + 2, s.nextProc, s.t + 3, by omega, by omega, .inl ?_⟩
    simp [start, scope, bind_eq, openFile, later, h0, h1, h2, St.act, St.close]
  cases h3 : ω (s.t + 3)
  · refine ⟨s.nextFile + 3, s.nextProc, s.t + 4, by omega, by omega, .inl ?_⟩
    simp [start, scope, bind_eq, openFile, openPair, later, h0, h1, h2, h3, St.act, St.close]
  cases h4 : ω (s.t + 4)
  · refine ⟨s.nextFile + 5, s.nextProc, s.t + 5, by omega, by omega, .inl ?_⟩
    simp [start, scope, bind_eq, openFile, openPair, later, cmdStart, h0, h1, h2, h3, h4, St.act, St.close, St.closeOnce, List.erase_cons, Nat.add_assoc, e]
  generalize hn : { sandbox := sb, execCgroup := ec, newidmap := ni : Conf } = c
  cases h5 : passes c.execCgroup ω (s.t + 5)
  · refine ⟨s.nextFile + 5, s.nextProc + 1, after c.execCgroup (s.t + 5), by omega, by omega, .inl ?_⟩
    simp [start, scope, bind_eq, openFile, openPair, later, cmdStart, optional_eq, h0, h1, h2, h3, h4, h5, St.act, St.close, St.closeOnce, St.killWait,
      List.erase_cons, Nat.add_assoc, e, f]
  cases h6 : passes c.sandbox ω (after c.execCgroup (s.t + 5))
  · refine ⟨s.nextFile + 5, s.nextProc + 1, after c.sandbox (after c.execCgroup (s.t + 5)), by omega, by omega, .inl ?_⟩
    simp [start, scope, bind_eq, openFile, openPair, later, cmdStart, optional_eq, h0, h1, h2, h3, h4, h5, h6, St.act, St.close, St.closeOnce, St.killWait,
      List.erase_cons, Nat.add_assoc, e, f]
  cases h7 : passes (c.sandbox && c.newidmap) ω (after c.sandbox (after c.execCgroup (s.t + 5)))
  · refine ⟨s.nextFile + 5, s.nextProc + 1, after (c.sandbox && c.newidmap) (after c.sandbox (after c.execCgroup (s.t + 5))), by omega, by omega, .inl ?_⟩
    simp [start, scope, bind_eq, openFile, openPair, later, cmdStart, optional_eq, h0, h1, h2, h3, h4, h5, h6, h7, St.act, St.close, St.closeOnce,
      St.killWait, List.erase_cons, Nat.add_assoc, e, f]
  cases h8 : ω (after (c.sandbox && c.newidmap) (after c.sandbox (after c.execCgroup (s.t + 5))))
  · refine ⟨s.nextFile + 5, s.nextProc + 1, after (c.sandbox && c.newidmap) (after c.sandbox (after c.execCgroup (s.t + 5))) + 1, by omega, by omega, .inl ?_⟩
    simp [start, scope, bind_eq, openFile, openPair, later, disarm, close, sys, cmdStart, optional_eq, h0, h1, h2, h3, h4, h5, h6, h7, h8, St.act, St.close,
      St.closeOnce, St.killWait, List.erase_cons, Nat.add_assoc, e, f]
  · refine ⟨s.nextFile + 5, s.nextProc + 1, after (c.sandbox && c.newidmap) (after c.sandbox (after c.execCgroup (s.t + 5))) + 1, by omega, by omega,
      .inr ⟨by omega, ?_⟩⟩
    simp [start, scope, bind_eq, pure_eq, openFile, openPair, later, disarm, close, sys, cmdStart, optional_eq, h0, h1, h2, h3, h4, h5, h6, h7, h8, St.act,
      St.close, St.closeOnce, St.killWait, List.erase_cons, Nat.add_assoc, e, f]

/-! ### startContainer -/

/-- What the container gets: descriptor 3 and on. -/
def given (n : Nat) (control : File) : List File := [control, ⟨n + 1, .loader⟩, ⟨n, .executor⟩, ⟨n + 2, .cgroup⟩]

theorem startContainer_run (ω : Nat → Bool) (s : St) (h : WF s) (c : Conf) :
    ∃ n m t, s.nextFile ≤ n ∧ s.nextProc ≤ m ∧
      ((startContainer c ω s = (.err, { s with nextFile := n, nextProc := m, t := t }) ∧ ¬(ω s.t = true ∧ ω (s.t + 1) = true ∧ ω (s.t + 2) = false)) ∨
       ((ω s.t = true ∧ ω (s.t + 1) = true ∧ ω (s.t + 2) = false) ∧ startContainer c ω s = (.err,
          { s with nextFile := n, nextProc := m, t := t, files := s.nextFile :: (s.nextFile + 1) :: s.files })) ∨
       (s.nextFile + 2 < n ∧ s.nextProc < m ∧ startContainer c ω s = (.ok (s.nextProc, ⟨s.nextFile + 2, .socket⟩),
          { s with nextFile := n, nextProc := m, t := t, files := (s.nextFile + 2) :: s.files, procs := ⟨s.nextProc, given (s.nextFile + 3) ⟨s.nextFile, .socket⟩⟩ :: s.procs }))) := by
  have e := erase_new s h
  cases h0 : ω s.t
  · refine ⟨s.nextFile, s.nextProc, s.t + 1, by omega, by omega, .inl ⟨?_, by simp⟩⟩
    simp [startContainer, scope, bind_eq, sys, h0]
  cases h1 : ω (s.t + 1)
  · refine ⟨s.nextFile, s.nextProc, s.t + 2, by omega, by omega, .inl ⟨?_, by simp⟩⟩
    simp [startContainer, socketFilePair, fileConn, scope, bind_eq, sys, openPair, h0, h1]
  cases h2 : ω (s.t + 2)
  · refine ⟨s.nextFile + 2, s.nextProc, s.t + 3, by omega, by omega, .inr (.inl ⟨by simp, ?_⟩)⟩
    simp [startContainer, socketFilePair, fileConn, scope, bind_eq, sys, openPair, h0, h1, h2]
  cases h3 : ω (s.t + 3)
  · refine ⟨s.nextFile + 2, s.nextProc, s.t + 4, by omega, by omega, .inl ⟨?_, by simp⟩⟩
    simp [startContainer, socketFilePair, fileConn, scope, bind_eq, pure_eq, sys, openPair, openFile, later, h0, h1, h2, h3, St.close, St.act]
  have hw : WF { s with files := [s.nextFile + 2, s.nextFile] ++ s.files, nextFile := s.nextFile + 3, t := s.t + 4,
                        defers := [.close (s.nextFile + 2), .close s.nextFile] } := by
    refine ⟨fun x hx => ?_, h.procs⟩
    simp only [List.cons_append, List.nil_append, List.mem_cons] at hx
    rcases hx with rfl | rfl | hx
    · simp
    · simp
    · have := h.files x hx; simp; omega
  obtain ⟨n, m, t, hn, hm, hr⟩ := start_run ω _ hw ⟨s.nextFile, .socket⟩ c
  simp only [List.cons_append, List.nil_append] at hn hm hr
  rcases hr with hr | ⟨hm', hr⟩
  · refine ⟨n, m, t, by omega, hm, .inl ⟨?_, by simp⟩⟩
    simp [startContainer, socketFilePair, fileConn, scope, bind_eq, pure_eq, sys, openPair, openFile, later, h0, h1, h2, h3, St.close, St.act, hr]
  · refine ⟨n, m, t, by omega, hm, .inr (.inr ⟨by omega, hm', ?_⟩)⟩
    simp [startContainer, socketFilePair, fileConn, scope, bind_eq, pure_eq, sys, openPair, openFile, later, disarm, h0, h1, h2, h3, St.close, St.act, hr, given]

/-! ### Executors -/

/-- The container of a way, if there's one. -/
def Way.isContainer : Way → Bool
  | .container _ => true
  | _ => false

/-- The socket pair has been made but can't be made non-blocking. -/
def Leak (w : Way) (ω : Nat → Bool) (s : St) : Prop :=
  w.isContainer = true ∧ ω s.t = true ∧ ω (s.t + 1) = true ∧ ω (s.t + 2) = false

/-- The descriptors of a container. -/
structure Given (s : St) (p : Proc) : Prop where
  /-- GATE_CONTROL_FD (runtime/include/runtime.h:27). -/
  control : (p.extra[3 - 3]?).map File.kind = some .socket
  /-- common.LoaderFD. -/
  loader : (p.extra[4 - 3]?).map File.kind = some .loader
  /-- common.ExecutorFD. -/
  executor : (p.extra[5 - 3]?).map File.kind = some .executor
  /-- common.CgroupFD. -/
  cgroup : (p.extra[6 - 3]?).map File.kind = some .cgroup
  count : p.extra.length = 4
  /-- None of the server's other files. -/
  fresh : ∀ f ∈ p.extra, f.id ∉ s.files

theorem given_given (s : St) (h : WF s) (id : Nat) : Given s ⟨id, given (s.nextFile + 3) ⟨s.nextFile, .socket⟩⟩ := by
  refine ⟨rfl, rfl, rfl, rfl, rfl, fun f hf hm => ?_⟩
  have := h.files _ hm
  simp only [given, List.mem_cons, List.not_mem_nil, or_false] at hf
  rcases hf with rfl | rfl | rfl | rfl <;> simp at this <;> omega

/-- What the connection is and what there is besides. -/
def Reached (s s' : St) (w : Way) (conn : File) (cmd : Option Nat) : Prop :=
  conn.id ∉ s.files ∧ conn.kind = .socket ∧ s'.files = conn.id :: s.files ∧ s'.bad = s.bad ∧ s'.defers = s.defers ∧
    cmd.isSome = w.isContainer ∧
    match cmd with
    | none => s'.procs = s.procs
    | some id => (∀ p ∈ s.procs, p.id ≠ id) ∧ ∃ extra, s'.procs = ⟨id, extra⟩ :: s.procs ∧ Given s ⟨id, extra⟩

/-- Nothing is left behind, except if there's a leak. -/
def Clean (s s' : St) (w : Way) (ω : Nat → Bool) : Prop :=
  s'.procs = s.procs ∧ s'.bad = s.bad ∧ s'.defers = s.defers ∧
    (s'.files = s.files ∧ ¬Leak w ω s ∨ s'.files = s.nextFile :: (s.nextFile + 1) :: s.files ∧ Leak w ω s)

theorem reach_run (ω : Nat → Bool) (s : St) (h : WF s) (w : Way) :
    (∃ s', reach w ω s = (.err, s') ∧ Clean s s' w ω) ∨
    (∃ s' conn cmd, reach w ω s = (.ok (conn, cmd), s') ∧ Reached s s' w conn cmd) ∨
    (w = .connFile false ∧ ∃ s' f, reach w ω s = (.panic, s') ∧ f ∉ s.files ∧ s'.files = f :: s.files ∧ s'.procs = s.procs) := by
  have hn : s.nextFile ∉ s.files := fun hm => by have := h.files _ hm; omega
  have hn2 : s.nextFile + 2 ∉ s.files := fun hm => by have := h.files _ hm; omega
  cases w with
  | connFile unix =>
    cases h0 : ω s.t
    · exact .inl ⟨{ s with t := s.t + 1 }, by simp [reach, bind_eq, openFile, h0], rfl, rfl, rfl, .inl ⟨rfl, by simp [Leak, Way.isContainer]⟩⟩
    · cases unix
      · exact .inr (.inr ⟨rfl, { s with files := s.nextFile :: s.files, nextFile := s.nextFile + 1, t := s.t + 1 }, s.nextFile,
          by simp [reach, bind_eq, openFile, panic, h0], hn, rfl, rfl⟩)
      · exact .inr (.inl ⟨{ s with files := s.nextFile :: s.files, nextFile := s.nextFile + 1, t := s.t + 1 }, ⟨s.nextFile, .socket⟩, none,
          by simp [reach, bind_eq, pure_eq, openFile, h0], hn, rfl, rfl, rfl, rfl, rfl, rfl⟩)
  | daemon =>
    cases h0 : ω s.t
    · exact .inl ⟨{ s with t := s.t + 1 }, by simp [reach, bind_eq, sys, h0], rfl, rfl, rfl, .inl ⟨rfl, by simp [Leak, Way.isContainer]⟩⟩
    cases h1 : ω (s.t + 1)
    · exact .inl ⟨{ s with t := s.t + 2 }, by simp [reach, bind_eq, sys, openFile, h0, h1], rfl, rfl, rfl, .inl ⟨rfl, by simp [Leak, Way.isContainer]⟩⟩
    · exact .inr (.inl ⟨{ s with files := s.nextFile :: s.files, nextFile := s.nextFile + 1, t := s.t + 2 }, ⟨s.nextFile, .socket⟩, none,
          by simp [reach, bind_eq, pure_eq, sys, openFile, h0, h1], hn, rfl, rfl, rfl, rfl, rfl, rfl⟩)
  | container c =>
    obtain ⟨n, m, t, hn, hm, ⟨hx, hl⟩ | ⟨hω, hx⟩ | ⟨h1, h2, hx⟩⟩ := startContainer_run ω s h c
    · exact .inl ⟨{ s with nextFile := n, nextProc := m, t := t }, by simp only [reach, bind_eq, hx], rfl, rfl, rfl, .inl ⟨rfl, fun hl' => hl hl'.2⟩⟩
    · exact .inl ⟨{ s with nextFile := n, nextProc := m, t := t, files := s.nextFile :: (s.nextFile + 1) :: s.files }, by simp only [reach, bind_eq, hx], rfl, rfl, rfl, .inr ⟨rfl, rfl, hω⟩⟩
    · refine .inr (.inl ⟨{ s with nextFile := n, nextProc := m, t := t, files := (s.nextFile + 2) :: s.files, procs := ⟨s.nextProc, given (s.nextFile + 3) ⟨s.nextFile, .socket⟩⟩ :: s.procs },
        ⟨s.nextFile + 2, .socket⟩, some s.nextProc, by simp only [reach, bind_eq, pure_eq, hx], hn2, rfl, rfl, rfl, rfl, rfl, ?_⟩)
      exact ⟨fun p hp he => by have := h.procs p hp; omega, _, rfl, given_given s h _⟩

/-- C160: an error leaves nothing behind, except that two descriptors leak if the socket pair can't be made non-blocking. -/
theorem err_clean (ω : Nat → Bool) (s s' : St) (h : WF s) (maxProcs : Int) (w : Way) (hr : newExecutor maxProcs w ω s = (.err, s')) :
    s' = s ∧ maxProcs > 16384 ∨ Clean s s' w ω := by
  unfold newExecutor at hr
  split at hr
  · next hp =>
    cases hr
    refine .inl ⟨rfl, ?_⟩
    unfold procLimit maxProcsLimit at hp
    split at hp <;> omega
  right
  rw [bind_eq] at hr
  rcases reach_run ω s h w with ⟨s1, h1, hc⟩ | ⟨s1, conn, cmd, h1, hc⟩ | ⟨_, s1, f, h1, -⟩
  · rw [h1] at hr; cases hr; exact hc
  · rw [h1] at hr
    simp only [finish] at hr
    split at hr <;> cases hr
  · rw [h1] at hr; cases hr

/-- C160: success means a new connection, and a new child if there's no daemon or connection to use, and nothing else; the child has been
given the control socket, the loader, the executor and the cgroup under the numbers it expects. -/
theorem ok_owns (ω : Nat → Bool) (s s' : St) (h : WF s) (maxProcs : Int) (w : Way) (x : Executor)
    (hr : newExecutor maxProcs w ω s = (.ok x, s')) :
    Reached s s' w x.conn x.cmd ∧ 0 ≤ maxProcs ∧ maxProcs ≤ 16384 ∧
      ∃ n, x.ids = List.range n ∧ (n : Int) = if maxProcs = 0 then 16384 else maxProcs := by
  unfold newExecutor at hr
  split at hr
  · cases hr
  next hp =>
  rw [bind_eq] at hr
  rcases reach_run ω s h w with ⟨s1, h1, hc⟩ | ⟨s1, conn, cmd, h1, hc⟩ | ⟨_, s1, f, h1, -⟩
  · rw [h1] at hr; cases hr
  · rw [h1] at hr
    simp only [finish] at hr
    split at hr
    · cases hr
    next hn =>
    cases hr
    refine ⟨hc, ?_⟩
    have hp' : procLimit maxProcs = if maxProcs = 0 then 16384 else maxProcs := rfl
    rw [maxProcsLimit] at hp
    refine ⟨?_, ?_, _, rfl, ?_⟩
    · split at hp' <;> omega
    · split at hp' <;> omega
    · rw [← hp']; omega
  · rw [h1] at hr; cases hr

/-- The ids are what the executor's messages can carry, and different. -/
theorem ids_int16 (n : Nat) (h : n ≤ 16384) : (List.range n).Nodup ∧ ∀ i ∈ List.range n, i < 2 ^ 15 :=
  ⟨List.nodup_range, fun i hi => by have := List.mem_range.1 hi; omega⟩

/-- C160: it panics only if the process limit is negative or the connection isn't a Unix socket. -/
theorem panic_why (ω : Nat → Bool) (s s' : St) (h : WF s) (maxProcs : Int) (w : Way) (hr : newExecutor maxProcs w ω s = (.panic, s')) :
    maxProcs < 0 ∨ w = .connFile false := by
  unfold newExecutor at hr
  split at hr
  · cases hr
  rw [bind_eq] at hr
  rcases reach_run ω s h w with ⟨s1, h1, hc⟩ | ⟨s1, conn, cmd, h1, hc⟩ | ⟨hw, s1, f, h1, -⟩
  · rw [h1] at hr; cases hr
  · rw [h1] at hr
    simp only [finish] at hr
    split at hr
    · next hn =>
      left
      unfold procLimit maxProcsLimit at hn
      split at hn <;> omega
    · cases hr
  · exact .inr hw

/-- Whatever happens, the caller's files are still open. -/
theorem caller_kept (ω : Nat → Bool) (s : St) (h : WF s) (maxProcs : Int) (w : Way) :
    ∀ f ∈ s.files, f ∈ (newExecutor maxProcs w ω s).2.files := by
  intro f hf
  unfold newExecutor
  split
  · exact hf
  rw [bind_eq]
  rcases reach_run ω s h w with ⟨s1, h1, hc⟩ | ⟨s1, conn, cmd, h1, hc⟩ | ⟨hw, s1, g, h1, -, hg, -⟩
  · rw [h1]
    rcases hc.2.2.2 with ⟨he, -⟩ | ⟨he, -⟩ <;> simp [he, hf]
  · rw [h1]
    simp only [finish]
    split <;> simp [panic, pure_eq, hc.2.2.1, hf]
  · rw [h1]; simp [hg, hf]

def fresh : St := ⟨[0, 1, 2], 3, [], 0, 0, 0, []⟩

theorem fresh_wf : WF fresh := ⟨by decide, by simp [fresh]⟩

/-- C160 refuted: a negative process limit panics after the container has been started, and the container is left behind, with the
connection. -/
theorem negative_refuted (c : Conf) : ∃ s', newExecutor (-1) (.container c) (fun _ => true) fresh = (.panic, s') ∧
    s'.procs.length = 1 ∧ s'.files = [5, 0, 1, 2] := by
  obtain ⟨a, b, d⟩ := c
  cases a <;> cases b <;> cases d <;> exact ⟨_, rfl, rfl, rfl⟩

/-- C160 refuted: a failed start can leak two descriptors. -/
theorem leak_refuted (c : Conf) : ∃ ω s', newExecutor 1 (.container c) ω fresh = (.err, s') ∧ s'.files = [3, 4, 0, 1, 2] :=
  ⟨fun t => t != 2, _, rfl, rfl⟩

/-- C160 refuted: a connection of another type leaks its duplicate. -/
theorem tcp_refuted : ∃ s', newExecutor 1 (.connFile false) (fun _ => true) fresh = (.panic, s') ∧ s'.files = [3, 0, 1, 2] := ⟨_, rfl, rfl⟩

/-! ### Examples -/

/-- A container is started with a limit of five processes. -/
example : newExecutor 5 (.container ⟨true, true, true⟩) (fun _ => true) fresh =
    (.ok ⟨⟨5, .socket⟩, some 0, [0, 1, 2, 3, 4]⟩,
      { fresh with files := [5, 0, 1, 2], nextFile := 11, nextProc := 1, t := 13, procs := [⟨0, given 6 ⟨3, .socket⟩⟩] }) := rfl

/-- The id mapping fails: the container is killed. -/
example : newExecutor 5 (.container ⟨true, true, true⟩) (fun t => t != 11) fresh = (.err, { fresh with nextFile := 11, nextProc := 1, t := 12 }) := rfl

/-! ### The runtime daemon's connections -/

/-- C160: whatever fails, when the daemon is done with a connection it has closed it once, has no other files open than before, and no
child, and has logged one line. -/
theorem handle_clean (ω : Nat → Bool) (s : St) (h : WF s) (client : Nat) (c : Conf) (conn : File) (e : Exit) (hc : conn.id ∈ s.files) :
    ∃ s', handle client c conn e ω s = (.ok [.error client], s') ∧ s'.files = s.files.erase conn.id ∧ s'.procs = s.procs ∧ s'.bad = s.bad ∧
      s'.defers = s.defers := by
  have hlt := h.files _ hc
  have hne : s.nextFile ≠ conn.id := by omega
  have hne' : conn.id ≠ s.nextFile := by omega
  have hwr : ∃ u, waitResult false e = some u := ⟨_, rfl⟩
  obtain ⟨u, hu⟩ := hwr
  cases h0 : ω s.t
  · refine ⟨{ s with files := s.files.erase conn.id, t := s.t + 1 }, ?_, rfl, rfl, rfl, rfl⟩
    simp [handle, scope, bind_eq, later, orLog, openFile, h0, St.act, St.close, hc]
  have hw : WF { s with files := s.nextFile :: s.files.erase conn.id, nextFile := s.nextFile + 1, t := s.t + 1, defers := [.close s.nextFile] } := by
    refine ⟨fun x hx => ?_, h.procs⟩
    simp only [List.mem_cons] at hx
    rcases hx with rfl | hx
    · simp
    · have := h.files x (List.mem_of_mem_erase hx); simp; omega
  obtain ⟨n, m, t, hn, hm, hr⟩ := start_run ω _ hw ⟨s.nextFile, .socket⟩ c
  simp only at hn hm hr
  rcases hr with hr | ⟨hm', hr⟩
  · refine ⟨{ s with files := s.files.erase conn.id, nextFile := n, nextProc := m, t := t }, ?_, rfl, rfl, rfl, rfl⟩
    simp [handle, scope, bind_eq, later, close, disarm, orLog, openFile, h0, St.act, St.close, hc, hne, List.erase_cons, hr]
  · refine ⟨{ s with files := s.files.erase conn.id, nextFile := n, nextProc := m, t := t }, ?_, rfl, rfl, rfl, rfl⟩
    simp [handle, scope, bind_eq, pure_eq, later, close, disarm, orLog, openFile, reap, h0, St.act, St.close, hc, hne, List.erase_cons, hr, hu,
      filter_new s h]

/-- C160 refuted: the daemon never logs that a container has terminated normally, not even one which has. -/
theorem terminated_refuted (client : Nat) (c : Conf) (conn : File) (ω : Nat → Bool) (s : St) (h : WF s) (hc : conn.id ∈ s.files) :
    (handle client c conn (.exited 0) ω s).1 ≠ .ok [.terminated client] := by
  obtain ⟨s', hr, -⟩ := handle_clean ω s h client c conn (.exited 0) hc
  rw [hr]
  intro hx
  cases hx

/-- C160: waiting for a container reports no error just if it's been told to terminate and has exited with zero. -/
theorem wait_nil_iff (done : Bool) (e : Exit) : waitResult done e = none ↔ done = true ∧ e = .exited 0 := by
  cases done <;> rcases e with ⟨_ | _ | n⟩ | _ | _ <;> simp [waitResult, waitErr]

/-- Codes other than 0 and 1 are reported as such. -/
theorem wait_code_iff (done : Bool) (e : Exit) (n : Nat) : (∃ u, waitResult done e = some (u, .code n)) ↔ e = .exited n ∧ 2 ≤ n := by
  cases done <;> rcases e with ⟨_ | _ | k⟩ | _ | _ <;> simp [waitResult, waitErr] <;> omega

/-- An error tells whether it was unexpected. -/
theorem wait_unexpected (done u : Bool) (e : Exit) (x : WaitErr) (h : waitResult done e = some (u, x)) : u = !done := by
  cases done <;> rcases e with ⟨_ | _ | k⟩ | _ | _ <;> simp [waitResult, waitErr] at h <;> simp [h.1]

end Gate.ContRes
