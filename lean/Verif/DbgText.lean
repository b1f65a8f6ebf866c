import Verif.DebuggerProps
/-
C159: the text (machine code) with which an instance is run, and the addresses in it which the instance has saved.

server/instance.go: startOrAnnihilate (191-194: the alternative program), drive, _debug (619-643), instanceRebuild.apply,
_snapshot (392); server/server.go: DebugInstance, ResumeInstance, Snapshot; server/program.go: _rebuildProgramImage;
image/instance.go: NewInstance (87, 143-146), CheckMutation (319-333); image/snapshot.go:263; runtime/process.go: Start (171-205).

The compiler (wag) isn't available: it's an arbitrary function from breakpoints to the positions of call sites and functions.
-/
namespace Gate.DbgText
open Gate.Dbg

/-- Positions of call sites (return addresses) and functions, relative to the beginning of the text, by the breakpoints with
which a module was compiled (program.go:229-236; the debug information doesn't have an effect on the text: 199-209). The positions
are distinct. -/
structure Compiler where
  addr : List Nat → Nat → Nat
  distinct : ∀ b i j, addr b i = addr b j → i = j

/-- An instance. `saved`: the addresses (relative to the text's address, which is saved too) in its stack (image/instance.go:325),
or those of its start and entry functions (image/instance.go:144-145) if it hasn't been started. `sites`: what they stood for when they
were saved. `home`: breakpoints of the text for which they were saved. `text`: breakpoints of the text which its process has, while
running. -/
structure S where
  inst : Inst
  /-- the configuration which altProgImage was compiled with (valid if inst.alt) -/
  altFor : Config
  pending : List (Config × Config)
  saved : List Nat
  sites : List Nat
  home : List Nat
  text : List Nat
deriving DecidableEq, Repr

/-- program's breakpoints: image/program.go:35. -/
def progBreaks (p : Prog) : List Nat := (p.map fun c => c.breaks.list).getD []

/-- instance.go:191-194: breakpoints of the text which would be started. -/
def inUse (p : Prog) (s : S) : List Nat := if s.inst.alt then s.altFor.breaks.list else progBreaks p

inductive Ev where
  /-- a debug request, until the program needs to be rebuilt (server.go:983) -/
  | debug (op : Op)
  /-- the k'th rebuild is ready and is applied (server.go:998) -/
  | apply (k : Nat)
  /-- the instance is resumed (or started) -/
  | resume
  /-- its process stops with these call sites in its stack -/
  | stop (sites : List Nat)
  /-- the server is restarted; the instance is loaded from storage -/
  | restart
deriving DecidableEq, Repr

/-- What an event does; nothing if it isn't possible or is refused. -/
def event (c : Compiler) (p : Prog) (s : S) : Ev → S
  | .debug op =>
    match debug p s.inst op, s.inst.image with
    | .ok i (some new), some img => { s with inst := i, pending := s.pending ++ [(img, new)] }
    | .ok i _, _ => { s with inst := i }
    | _, _ => s
  | .apply k =>
    match s.pending[k]? with
    | none => s
    | some (old, new) =>
      match apply s.inst old new with
      | .ok i _ => { s with inst := i, altFor := new, pending := s.pending.eraseIdx k }
      | _ => { s with pending := s.pending.eraseIdx k }
  | .resume => if s.inst.running then s else { s with inst := { s.inst with running := true }, text := inUse p s }
  | .stop sites =>
    if s.inst.running then
      { s with inst := { s.inst with running := false }, saved := sites.map (c.addr s.text), sites := sites, home := s.text }
    else s
  | .restart => if s.inst.running then s else { s with inst := { s.inst with alt := false }, pending := [] }

/-- A new instance of a program: it has the program's configuration (image/instance.go:146), and addresses which were saved for the
program's text: the functions to be called, or the stack of the snapshot. -/
def new (c : Compiler) (p : Prog) (sites : List Nat) : S :=
  { inst := ⟨false, some (p.getD ⟨false, none⟩), false⟩, altFor := ⟨false, none⟩, pending := [],
    saved := sites.map (c.addr (progBreaks p)), sites := sites, home := progBreaks p, text := [] }

def run (c : Compiler) (p : Prog) (s : S) (es : List Ev) : S := es.foldl (event c p) s

/-! ### Specification -/

/-- If the instance were resumed now, it would go on where it was: in the text which it would get, the saved addresses are those
of the same call sites and functions. -/
def Continues (c : Compiler) (p : Prog) (s : S) : Prop := s.saved = s.sites.map (c.addr (inUse p s))

/-- A snapshot made now would have the instance's call sites: it's made by looking up the saved addresses in the map of the
program's text (image/snapshot.go:263 with server/instance.go:392). -/
def SnapshotRight (c : Compiler) (p : Prog) (s : S) : Prop := s.saved = s.sites.map (c.addr (progBreaks p))

/-- The breakpoints which are told to the client (instance.go:659-667). -/
def told (s : S) : Option (List Nat) := s.inst.image.map fun c => c.breaks.list

/-! ### Setting breakpoints in the text -/

/-- build/build.go:198-205 (`CodeConfig`): keys of the breakpoint map which is given to the compiler; those which aren't 32-bit are
left out. -/
def codeBreakpoints (snapshot : Option (List Nat)) : List Nat := (snapshot.getD []).filter (· ≤ 2 ^ 32 - 1)

/-- build/build.go:215-236 (`VerifyBreakpoints`): `set` tells the breakpoints which the compiler has set, which are such that were
given to it. -/
def verifyBreakpoints (snapshot : Option (List Nat)) (set : Nat → Bool) : Bool :=
  match snapshot with
  | none => true
  | some l => l.all (· ≤ 2 ^ 32 - 1) && (codeBreakpoints snapshot).all set

/-- C159: a module is accepted exactly if every breakpoint of it has been set in its text. -/
theorem verify_iff (l : List Nat) (set : Nat → Bool) (hs : ∀ x, set x = true → x ∈ codeBreakpoints (some l)) :
    verifyBreakpoints (some l) set = true ↔ ∀ x ∈ l, set x = true := by
  simp only [verifyBreakpoints, codeBreakpoints, Option.getD_some, Bool.and_eq_true, List.all_eq_true, List.mem_filter, decide_eq_true_eq,
    and_imp] at hs ⊢
  constructor
  · intro ⟨h1, h2⟩ x hx; exact h2 x hx (h1 x hx)
  · intro h; exact ⟨fun x hx => (hs x (h x hx)).2, fun x hx _ => h x hx⟩

example : verifyBreakpoints (some [3, 2 ^ 32]) (fun x => x = 3) = false ∧ verifyBreakpoints (some [3, 4]) (fun x => x = 3) = false ∧
    verifyBreakpoints (some [3]) (fun x => x = 3) = true ∧ codeBreakpoints (some [3, 2 ^ 32]) = [3] := by decide

/-! ### The text is the configured one -/

/-- The instance has an image, and its breakpoints are those of the text in use. -/
def Same (p : Prog) (s : S) : Prop := ∃ img, s.inst.image = some img ∧ img.breaks.list = inUse p s

theorem finish_ok {p : Prog} {i i' : Inst} {img new : Config} {m : Bool} {r : Option Config} (h : finish p i img new m = .ok i' r) :
    (i' = i) ∨ (r = none ∧ ∃ pc, p = some pc ∧ i' = { i with alt := false, image := some ⟨new.info, setBreakpoints img.breaks pc.breaks⟩ }) := by
  unfold finish at h
  split at h
  · cases p with
    | none => cases h
    | some pc =>
      simp only at h
      split at h
      · simp only [Out.ok.injEq] at h
        exact .inr ⟨h.2.symm, pc, rfl, h.1.symm⟩
      · simp only [Out.ok.injEq] at h
        exact .inl h.1.symm
  · simp only [Out.ok.injEq] at h
    exact .inl h.1.symm

theorem debug_ok {p : Prog} {i i' : Inst} {op : Op} {r : Option Config} (h : debug p i op = .ok i' r) :
    (i' = i) ∨ (r = none ∧ i.running = false ∧ ∃ img pc info, i.image = some img ∧ p = some pc ∧
      i' = { i with alt := false, image := some ⟨info, setBreakpoints img.breaks pc.breaks⟩ }) := by
  unfold debug at h
  split at h
  · cases h
  · split at h
    · cases h
    · rename_i hr
      cases hi : i.image with
      | none => rw [hi] at h; cases h
      | some img =>
        rw [hi] at h
        have key : ∀ new m, finish p i img new m = .ok i' r → op ≠ .get → (i' = i) ∨ (r = none ∧ i.running = false ∧
            ∃ img' pc info, some img = some img' ∧ p = some pc ∧
            i' = { i with alt := false, image := some ⟨info, setBreakpoints img'.breaks pc.breaks⟩ }) := by
          intro new m h hop
          rcases finish_ok h with h | ⟨h1, pc, h2, h3⟩
          · exact .inl h
          · refine .inr ⟨h1, ?_, img, pc, new.info, rfl, h2, h3⟩
            simpa [hop] using hr
        cases op with
        | get =>
          simp only [finish] at h
          simp at h
          exact .inl h.1.symm
        | readStack => exact key _ _ h (by simp)
        | readGlobals | readMemory | other => simp at h
        | set c =>
          cases c with
          | none => simp at h
          | some c =>
            simp only at h
            split at h
            · cases h
            · exact key _ _ h (by simp)
        | union c =>
          cases c with
          | none => simp at h
          | some c =>
            simp only at h
            split at h
            · cases h
            · exact key _ _ h (by simp)
        | complement c =>
          cases c with
          | none => simp at h
          | some c => exact key _ _ h (by simp)

theorem apply_ok {i i' : Inst} {old new : Config} {r : Option Config} (h : apply i old new = .ok i' r) :
    i.image = some old ∧ i' = { i with alt := true, image := some ⟨new.info, setBreakpoints old.breaks new.breaks⟩ } := by
  unfold apply at h
  cases hi : i.image with
  | none => rw [hi] at h; cases h
  | some img =>
    rw [hi] at h
    simp only at h
    split at h
    · rename_i hc
      simp only [Out.ok.injEq] at h
      have : img = old := by cases img; cases old; simp_all
      subst this
      exact ⟨rfl, h.1.symm⟩
    · cases h

/-- What a debug request does to the instance, in terms of this model. -/
theorem event_debug (c : Compiler) (p : Prog) (s : S) (op : Op) :
    (∃ l, event c p s (.debug op) = { s with pending := l }) ∨
    (s.inst.running = false ∧ ∃ img pc info, s.inst.image = some img ∧ p = some pc ∧ event c p s (.debug op) =
      { s with inst := { s.inst with alt := false, image := some ⟨info, setBreakpoints img.breaks pc.breaks⟩ } }) := by
  simp only [event]
  cases h : debug p s.inst op with
  | refused | crash => exact .inl ⟨s.pending, rfl⟩
  | ok i r =>
    rcases debug_ok h with rfl | ⟨rfl, hr, img, pc, info, h1, h2, rfl⟩
    · cases r with
      | none => exact .inl ⟨s.pending, rfl⟩
      | some new =>
        cases hi : s.inst.image with
        | none => exact .inl ⟨s.pending, rfl⟩
        | some img => exact .inl ⟨_, rfl⟩
    · exact .inr ⟨hr, img, pc, info, h1, h2, rfl⟩

theorem event_apply (c : Compiler) (p : Prog) (s : S) (k : Nat) :
    (∃ l, event c p s (.apply k) = { s with pending := l }) ∨
    (∃ old new, (old, new) ∈ s.pending ∧ s.inst.image = some old ∧ event c p s (.apply k) =
      { s with inst := { s.inst with alt := true, image := some ⟨new.info, setBreakpoints old.breaks new.breaks⟩ }, altFor := new,
               pending := s.pending.eraseIdx k }) := by
  simp only [event]
  cases hk : s.pending[k]? with
  | none => exact .inl ⟨s.pending, rfl⟩
  | some x =>
    obtain ⟨old, new⟩ := x
    simp only
    cases ha : apply s.inst old new with
    | refused | crash => exact .inl ⟨_, rfl⟩
    | ok i r =>
      obtain ⟨h1, rfl⟩ := apply_ok ha
      exact .inr ⟨old, new, List.mem_of_getElem? hk, h1, rfl⟩

theorem same_event (c : Compiler) (p : Prog) (s : S) (e : Ev) (he : e ≠ .restart) (h : Same p s) : Same p (event c p s e) := by
  obtain ⟨img, h1, h2⟩ := h
  cases e with
  | debug op =>
    rcases event_debug c p s op with ⟨l, hl⟩ | ⟨-, img', pc, info, -, h4, h5⟩
    · rw [hl]; exact ⟨img, h1, h2⟩
    · rw [h5]
      refine ⟨_, rfl, ?_⟩
      simp only [setBreakpoints_list]
      simp [inUse, progBreaks, h4]
  | apply k =>
    rcases event_apply c p s k with ⟨l, hl⟩ | ⟨old, new, -, -, h5⟩
    · rw [hl]; exact ⟨img, h1, h2⟩
    · rw [h5]
      refine ⟨_, rfl, ?_⟩
      simp only [setBreakpoints_list]
      simp [inUse]
  | resume =>
    simp only [event]
    split
    · exact ⟨img, h1, h2⟩
    · exact ⟨img, h1, h2⟩
  | stop sites =>
    simp only [event]
    split
    · exact ⟨img, h1, h2⟩
    · exact ⟨img, h1, h2⟩
  | restart => exact absurd rfl he

theorem same_run (c : Compiler) (p : Prog) (es : List Ev) : ∀ s, Same p s → .restart ∉ es → Same p (run c p s es) := by
  induction es with
  | nil => intro s h _; exact h
  | cons e es ih =>
    intro s h hr
    simp only [List.mem_cons, not_or] at hr
    exact ih _ (same_event c p s e (fun h => hr.1 h.symm) h) hr.2

theorem same_new (c : Compiler) (p : Prog) (sites : List Nat) : Same p (new c p sites) := by
  refine ⟨_, rfl, ?_⟩
  cases p <;> rfl

/-- C159: as long as the server isn't restarted, the breakpoints which clients are told are exactly those with which the text was
compiled which the instance would be run with: after every history of requests, with rebuilds being ready in any order,
conflicting or not, and the instance being run in between. -/
theorem told_in_use (c : Compiler) (p : Prog) (sites : List Nat) (es : List Ev) (h : .restart ∉ es) :
    told (run c p (new c p sites) es) = some (inUse p (run c p (new c p sites) es)) := by
  obtain ⟨img, h1, h2⟩ := same_run c p es _ (same_new c p sites) h
  simp [told, h1, h2]

/-! ### Resuming -/

/-- The saved addresses are those of the text in which they were saved. -/
def AtHome (c : Compiler) (s : S) : Prop := s.saved = s.sites.map (c.addr s.home)

theorem home_event (c : Compiler) (p : Prog) (s : S) (e : Ev) (h : AtHome c s) : AtHome c (event c p s e) := by
  cases e with
  | debug op =>
    rcases event_debug c p s op with ⟨l, hl⟩ | ⟨-, img', pc, info, -, -, h5⟩
    · rw [hl]; exact h
    · rw [h5]; exact h
  | apply k =>
    rcases event_apply c p s k with ⟨l, hl⟩ | ⟨old, new, -, -, h5⟩
    · rw [hl]; exact h
    · rw [h5]; exact h
  | resume => simp only [event]; split <;> exact h
  | stop sites => simp only [event]; split <;> first | exact h | rfl
  | restart => simp only [event]; split <;> exact h

theorem home_run (c : Compiler) (p : Prog) (es : List Ev) : ∀ s, AtHome c s → AtHome c (run c p s es) := by
  induction es with
  | nil => intro s h; exact h
  | cons e es ih => intro s h; exact ih _ (home_event c p s e h)

/-- C159: after every history (restarts included), the instance goes on where it was exactly if the text which it would get
has the saved call sites and functions where the text has them in which it has last been run (or the program's text, if it hasn't). -/
theorem continues_iff (c : Compiler) (p : Prog) (sites : List Nat) (es : List Ev) :
    Continues c p (run c p (new c p sites) es) ↔ ∀ i ∈ (run c p (new c p sites) es).sites,
      c.addr (inUse p (run c p (new c p sites) es)) i = c.addr (run c p (new c p sites) es).home i := by
  have h : AtHome c (run c p (new c p sites) es) := home_run c p es _ rfl
  generalize run c p (new c p sites) es = s at h
  unfold AtHome at h
  unfold Continues
  rw [h]
  constructor
  · intro h' i hi
    exact (List.map_inj_left.1 h' i hi).symm
  · intro h'
    exact List.map_inj_left.2 (fun i hi => (h' i hi).symm)

/-- C159: likewise for snapshots, with the program's text. -/
theorem snapshot_iff (c : Compiler) (p : Prog) (sites : List Nat) (es : List Ev) :
    SnapshotRight c p (run c p (new c p sites) es) ↔ ∀ i ∈ (run c p (new c p sites) es).sites,
      c.addr (progBreaks p) i = c.addr (run c p (new c p sites) es).home i := by
  have h : AtHome c (run c p (new c p sites) es) := home_run c p es _ rfl
  generalize run c p (new c p sites) es = s at h
  unfold AtHome at h
  unfold SnapshotRight
  rw [h]
  constructor
  · intro h' i hi
    exact (List.map_inj_left.1 h' i hi).symm
  · intro h'
    exact List.map_inj_left.2 (fun i hi => (h' i hi).symm)

/-! ### Without changes of breakpoints -/

/-- The breakpoints stay the program's: the texts which exist are the program's. -/
structure Plain (p : Prog) (s : S) : Prop where
  alt : s.inst.alt = true → s.altFor.breaks.list = progBreaks p
  pending : ∀ x ∈ s.pending, x.2.breaks.list = progBreaks p
  home : s.home = progBreaks p
  text : s.inst.running = true → s.text = progBreaks p

/-- A history in which no rebuild for other breakpoints is made. -/
def Quiet (c : Compiler) (p : Prog) : S → List Ev → Prop
  | _, [] => True
  | s, e :: es => (∀ x ∈ (event c p s e).pending, x.2.breaks.list = progBreaks p) ∧ Quiet c p (event c p s e) es

theorem plain_inUse {p : Prog} {s : S} (h : Plain p s) : inUse p s = progBreaks p := by
  unfold inUse; split
  · exact h.alt ‹_›
  · rfl

theorem plain_event (c : Compiler) (p : Prog) (s : S) (e : Ev) (h : Plain p s)
    (hq : ∀ x ∈ (event c p s e).pending, x.2.breaks.list = progBreaks p) : Plain p (event c p s e) := by
  cases e with
  | debug op =>
    rcases event_debug c p s op with ⟨l, hl⟩ | ⟨hr, img', pc, info, -, -, h5⟩
    · rw [hl] at hq ⊢; exact ⟨h.alt, hq, h.home, h.text⟩
    · rw [h5]; exact ⟨fun h' => by simp at h', h.pending, h.home, h.text⟩
  | apply k =>
    rcases event_apply c p s k with ⟨l, hl⟩ | ⟨old, new, hm, -, h5⟩
    · rw [hl] at hq ⊢; exact ⟨h.alt, hq, h.home, h.text⟩
    · rw [h5] at hq ⊢; exact ⟨fun _ => h.pending _ hm, hq, h.home, h.text⟩
  | resume =>
    simp only [event]
    split
    · exact h
    · exact ⟨h.alt, h.pending, h.home, fun _ => plain_inUse h⟩
  | stop sites =>
    simp only [event]
    split
    · rename_i hr; exact ⟨h.alt, h.pending, h.text hr, fun h' => by simp at h'⟩
    · exact h
  | restart =>
    simp only [event]
    split
    · exact h
    · exact ⟨fun h' => by simp at h', fun x hx => by simp at hx, h.home, h.text⟩

theorem plain_run (c : Compiler) (p : Prog) (es : List Ev) : ∀ s, Plain p s → Quiet c p s es → Plain p (run c p s es) := by
  induction es with
  | nil => intro s h _; exact h
  | cons e es ih => intro s h hq; exact ih _ (plain_event c p s e h hq.1) hq.2

theorem plain_new (c : Compiler) (p : Prog) (sites : List Nat) : Plain p (new c p sites) :=
  ⟨fun h => by simp [new] at h, fun x hx => by simp [new] at hx, rfl, fun h => by simp [new] at h⟩

/-- C159: with any compiler, an instance whose breakpoints aren't changed goes on where it was, and can be snapshotted, after every
history: of runs, restarts, refused requests, and changes of the debug information flag. -/
theorem unchanged_continues (c : Compiler) (p : Prog) (sites : List Nat) (es : List Ev) (h : Quiet c p (new c p sites) es) :
    Continues c p (run c p (new c p sites) es) ∧ SnapshotRight c p (run c p (new c p sites) es) := by
  have hp := plain_run c p es _ (plain_new c p sites) h
  refine ⟨(continues_iff c p sites es).2 fun i _ => ?_, (snapshot_iff c p sites es).2 fun i _ => ?_⟩
  · rw [plain_inUse hp, hp.home]
  · rw [hp.home]

/-! ### With changes -/

/-- The program is a snapshot without breakpoints (an ordinary program's can't be changed: C70). -/
def snap : Prog := some ⟨false, none⟩

/-- Breakpoints are set while an instance is suspended (or hasn't been started). -/
def setOne (b : Nat) : List Ev := [.debug (.set (some ⟨false, some [b]⟩)), .apply 0]

theorem sortDedup_one (b : Nat) : sortDedup [b] = [b] := by
  have : sort [b] = [b] := rfl
  unfold sortDedup
  rw [this, dedupLoop]
  simp

theorem set_one (c : Compiler) (s : S) (b : Nat) (hi : s.inst = ⟨false, some ⟨false, none⟩, false⟩) (hp : s.pending = []) :
    run c snap s (setOne b) = { s with inst := ⟨false, some ⟨false, some [b]⟩, true⟩, altFor := ⟨false, some [b]⟩, pending := [] } := by
  obtain ⟨inst, altFor, pending, saved, sites, home, text⟩ := s
  simp only at hi hp
  subst hi hp
  simp [run, setOne, event, debug, finish, snap, apply, sortDedup_one, setBreakpoints, Slice.list]

/-- C159 refuted: that breakpoints can be set on a suspended instance. With every compiler which puts some call site elsewhere
when there's a certain breakpoint, an instance which is in that call site doesn't go on there after the breakpoint has been set. -/
theorem set_suspended_refuted (c : Compiler) (b i : Nat) (hc : c.addr [b] i ≠ c.addr [] i) (rest : List Nat) :
    ¬ Continues c snap (run c snap (new c snap (i :: rest)) (setOne b)) := by
  rw [set_one c _ b rfl rfl]
  simp only [Continues, new, inUse, if_true, snap, progBreaks, Option.map_some, Option.getD_some, Slice.list, Option.getD_none, List.map_cons,
    List.cons.injEq, not_and]
  intro h
  exact absurd h.symm hc

/-- C159 refuted: that breakpoints can be set on an instance which is in no call site, if it's resumed before the rebuild is ready. -/
theorem race_refuted (c : Compiler) (b i : Nat) (hc : c.addr [b] i ≠ c.addr [] i) (rest : List Nat) :
    ¬ Continues c snap (run c snap (new c snap []) [.debug (.set (some ⟨false, some [b]⟩)), .resume, .apply 0, .stop (i :: rest)]) := by
  simp only [run, List.foldl, event, debug, finish, snap, apply, new, inUse, progBreaks, Continues]
  simp [sortDedup_one, setBreakpoints, Slice.list]
  intro h
  exact absurd h.symm hc

/-- C159 refuted: that an instance which has been run with a breakpoint survives a restart of the server, or can be snapshotted
correctly; and after the restart, the breakpoints which the client is told aren't in the text. -/
theorem restart_refuted (c : Compiler) (b i : Nat) (hc : c.addr [b] i ≠ c.addr [] i) (rest : List Nat) :
    let s := run c snap (new c snap []) (setOne b ++ [.resume, .stop (i :: rest)])
    Continues c snap s ∧ ¬ SnapshotRight c snap s ∧
    ¬ Continues c snap (event c snap s .restart) ∧
    told (event c snap s .restart) = some [b] ∧ inUse snap (event c snap s .restart) = [] := by
  have h1 : run c snap (new c snap []) (setOne b ++ [.resume, .stop (i :: rest)]) =
      run c snap (run c snap (new c snap []) (setOne b)) [.resume, .stop (i :: rest)] := by simp [run]
  simp only [h1]
  rw [set_one c _ b rfl rfl]
  simp only [run, List.foldl, event, new, inUse, progBreaks, Continues, SnapshotRight, told, snap, Slice.list]
  simp
  exact fun h => absurd h hc

/-- A compiler as in the theorems: a breakpoint takes room of five bytes. -/
def compiler : Compiler where
  addr b i := 16 * i + 5 * (b.filter (· < i)).length
  distinct b i j h := by
    rcases Nat.lt_trichotomy i j with hl | rfl | hl
    · exfalso
      have : (b.filter (· < i)).length ≤ (b.filter (· < j)).length := by
        rw [← List.countP_eq_length_filter, ← List.countP_eq_length_filter]
        exact List.countP_mono_left fun x _ h => by simp at h ⊢; omega
      omega
    · rfl
    · exfalso
      have : (b.filter (· < j)).length ≤ (b.filter (· < i)).length := by
        rw [← List.countP_eq_length_filter, ← List.countP_eq_length_filter]
        exact List.countP_mono_left fun x _ h => by simp at h ⊢; omega
      omega

example : compiler.addr [3] 7 ≠ compiler.addr [] 7 := by decide

/-- A quiet history with a change of the debug information flag, which rebuilds the program, and runs. -/
example : Quiet compiler snap (new compiler snap [7]) [.debug (.set (some ⟨true, none⟩)), .apply 0, .resume, .stop [3, 4], .restart, .resume] ∧
    (run compiler snap (new compiler snap [7]) [.debug (.set (some ⟨true, none⟩)), .apply 0]).inst.alt = true := by
  simp [Quiet, run, event, debug, finish, snap, apply, new, progBreaks, inUse, setBreakpoints, Slice.list]

/-- A history for `told_in_use` in which the text changes. -/
example : inUse snap (run compiler snap (new compiler snap [7]) (setOne 3)) = [3] := by
  rw [set_one _ _ _ rfl rfl]; rfl

end Gate.DbgText
