import Verif.ImageFileProps
/-
Limits, snapshots, mutation and storing of instances: continues ImageFileProps.
-/
namespace Gate.ImageFile
open Gate

/-! ### Example -/

/-- A program which has been suspended: 16 bytes of stack, one global variable, 4 bytes of initial memory. -/
def exampleBuild : Build :=
  { textAddr := 0x400000000, stackSize := 65536, stack := List.replicate 16 7, globalsSize := 8,
    globals := List.replicate 4088 0 ++ [1, 2, 3, 4, 5, 6, 7, 8], memory := [9, 8, 7, 6], memorySize := 65536, memorySizeLimit := 131072,
    start := some ⟨3, 0x100⟩, entries := [⟨4, 0x180⟩], snap := some ⟨0, 2, 0, 1000, []⟩ }

theorem exampleBuild_wf : exampleBuild.WF 4096 := ⟨(by rw [exampleBuild]; simp only [List.length_append, List.length_replicate]; rfl), (by rw [exampleBuild]; simp only [List.length_replicate]; decide)⟩

example : ∃ p, buildProgram exampleBuild = .ok p ∧ p.WF 4096 ∧ p.state 4096 = exampleBuild.state :=
  ⟨_, rfl, (build_program_state 4096 (by decide) _ exampleBuild_wf _ rfl).2, (build_program_state 4096 (by decide) _ exampleBuild_wf _ rfl).1⟩

example : ∃ p i, buildProgram exampleBuild = .ok p ∧ newInstance 4096 p 131072 65536 none = .ok i ∧ i.state 4096 = exampleBuild.state :=
  ⟨_, _, rfl, rfl, (new_instance_state 4096 (by decide) (by decide) _ (build_program_state 4096 (by decide) _ exampleBuild_wf _ rfl).2
    131072 65536 (by decide) none _ rfl).trans (build_program_state 4096 (by decide) _ exampleBuild_wf _ rfl).1⟩

example : ∃ p i, buildBoth 4096 exampleBuild 131072 none = .ok (p, i) ∧ i.state 4096 = exampleBuild.state :=
  ⟨_, _, rfl, (build_both_state 4096 (by decide) (by decide) _ exampleBuild_wf (by decide) 131072 none _ _ rfl).2.2⟩

/-! ### An instance is the same whether it is made along with its program or later -/

/-- The manifests of the instances differ at most in the maximum memory size. `htext`: without a call stack there is no text address
(image/build.go:52, 221). -/
theorem built_like_new (ps : Nat) (hps : 0 < ps) (hpm : ps ≤ 65536) (b : Build) (hb : b.WF ps) (hst : b.stackSize ≤ 2147418112)
    (htext : b.stack = [] → b.textAddr = 0) (maxMemory maxMemory' : Nat) (entry : Option Nat) (p : Prog) (i i' : Inst)
    (h : buildBoth ps b maxMemory entry = .ok (p, i)) (h' : newInstance ps p maxMemory' b.stackSize entry = .ok i') :
    i.state ps = i'.state ps ∧ { i.man with maxMemorySize := 0 } = { i'.man with maxMemorySize := 0 } := by
  obtain ⟨h1, h2, h3⟩ := build_both_state ps hps hpm b hb hst maxMemory entry p i h
  refine ⟨by rw [h3, new_instance_state ps hps hpm p h2 maxMemory' b.stackSize hst entry i' h', h1], ?_⟩
  unfold buildBoth at h
  split at h
  · cases h
  · split at h
    · cases h
    · simp only at h
      split at h
      · cases h
      · split at h
        · cases h
        · simp only [Except.ok.injEq, Prod.mk.injEq] at h
          obtain ⟨rfl, rfl⟩ := h
          unfold newInstance at h'
          split at h'
          · cases h'
          · simp only at h'
            split at h'
            · cases h'
            · split at h'
              · cases h'
              · simp only [Except.ok.injEq] at h'
                subst h'
                simp only [progMan, InstMan.mk.injEq, and_true]
                by_cases hl : b.stack.length = 0
                · exact (htext (List.length_eq_zero_iff.mp hl)).trans (if_neg (fun h => h hl)).symm
                · exact (if_pos hl).symm

/-! ### Memory limits -/

theorem toUnsigned32 (n : Int) (h0 : 0 ≤ n) (h1 : n < 4294967296) : (toUnsigned 32 n : Int) = n := by
  unfold toUnsigned
  rw [show ((2 ^ 32 : Nat) : Int) = 4294967296 by decide]
  omega

/-- An instance made of an existing program can't get more memory than allowed by the policy and the program. -/
theorem new_instance_limit (ps : Nat) (p : Prog) (maxMemory : Int) (h0 : 0 ≤ maxMemory) (h1 : maxMemory < 4294967296) (maxStack : Nat)
    (entry : Option Nat) (i : Inst) (h : newInstance ps p maxMemory maxStack entry = .ok i) :
    i.man.memorySize = p.man.memorySize ∧ i.man.memorySize ≤ i.man.maxMemorySize ∧ (i.man.maxMemorySize : Int) ≤ maxMemory ∧
    (0 ≤ p.man.memorySizeLimit → (i.man.maxMemorySize : Int) ≤ p.man.memorySizeLimit) := by
  unfold newInstance at h
  split at h
  · cases h
  · rename_i n hn
    simp only at h
    split at h
    · cases h
    · split at h
      · cases h
      · simp only [Except.ok.injEq] at h
        subst h
        unfold maxInstanceMemory at hn
        simp only at hn ⊢
        split at hn
        · split at hn
          · cases hn
          · simp only [Except.ok.injEq] at hn
            subst hn
            rename_i ha hb
            have := toUnsigned32 p.man.memorySizeLimit (by omega) (by omega)
            exact ⟨trivial, by omega, by omega, fun _ => by omega⟩
        · split at hn
          · cases hn
          · simp only [Except.ok.injEq] at hn
            subst hn
            rename_i ha hb
            have := toUnsigned32 maxMemory (by omega) (by omega)
            exact ⟨trivial, by omega, by omega, fun _ => by omega⟩

example : ∃ p i, buildProgram exampleBuild = .ok p ∧ newInstance 4096 p 100000 65536 none = .ok i ∧ i.man.maxMemorySize = 100000 :=
  ⟨_, _, rfl, rfl, rfl⟩

/-- An instance made along with its program can get more than allowed, but less than a page; not more than the program allows. -/
theorem built_limit_partial (ps : Nat) (b : Build) (maxMemory : Nat) (h1 : maxMemory ≤ 4294901760) (hl : b.memorySizeLimit % 65536 = 0)
    (entry : Option Nat) (p : Prog) (i : Inst) (h : buildBoth ps b maxMemory entry = .ok (p, i)) :
    i.man.memorySize = b.memorySize ∧ i.man.memorySize ≤ i.man.maxMemorySize ∧ i.man.maxMemorySize < maxMemory + 65536 ∧
    (maxMemory % 65536 = 0 → i.man.maxMemorySize ≤ maxMemory) ∧
    (0 ≤ b.memorySizeLimit → (i.man.maxMemorySize : Int) ≤ b.memorySizeLimit) := by
  unfold buildBoth at h
  split at h
  · cases h
  · rename_i n hn
    split at h
    · cases h
    · simp only at h
      split at h
      · cases h
      · rename_i n2 hn2
        split at h
        · cases h
        · simp only [Except.ok.injEq, Prod.mk.injEq] at h
          obtain ⟨rfl, rfl⟩ := h
          simp only
          unfold setMaxMemory at hn
          obtain ⟨m, hm⟩ : ∃ m : Int, m = if b.memorySizeLimit ≥ 0 ∧ (maxMemory : Int) > b.memorySizeLimit then b.memorySizeLimit else maxMemory := ⟨_, rfl⟩
          simp only [← hm] at hn
          have hm' : (m = b.memorySizeLimit ∧ 0 ≤ b.memorySizeLimit ∧ (maxMemory : Int) > b.memorySizeLimit) ∨
              (m = maxMemory ∧ ¬ (0 ≤ b.memorySizeLimit ∧ (maxMemory : Int) > b.memorySizeLimit)) := by
            split at hm
            · rename_i hc; exact .inl ⟨hm, hc.1, hc.2⟩
            · rename_i hc; exact .inr ⟨hm, hc⟩
          split at hn
          · cases hn
          · rename_i hle
            simp only [Except.ok.injEq] at hn
            have hb : n ≤ (maxMemory : Int) + 65535 ∧ (0 ≤ b.memorySizeLimit → n ≤ b.memorySizeLimit) ∧ (b.memorySize : Int) ≤ n ∧
                (maxMemory % 65536 = 0 → n ≤ maxMemory) := by
              rw [← hn]
              refine ⟨by omega, fun _ => by omega, by omega, fun _ => by omega⟩
            have hx : n2 = n := by
              unfold maxInstanceMemory at hn2
              simp only at hn2
              split at hn2
              · rename_i hc; omega
              · split at hn2
                · cases hn2
                · simp only [Except.ok.injEq] at hn2; exact hn2.symm
            subst hx
            have := toUnsigned32 n2 (by omega) (by omega)
            exact ⟨trivial, by omega, by omega, fun _ => by omega, fun _ => by omega⟩

/-- An uploaded program's instance exceeds the policy: 131072 bytes when 100000 are allowed. -/
theorem built_exceeds_limit : ∃ p i, buildBoth 4096 exampleBuild 100000 none = .ok (p, i) ∧ i.man.maxMemorySize = 131072 :=
  ⟨_, _, rfl, rfl⟩

/-- Limits of 4 GiB and more don't fit the field: with a program which hasn't a limit of its own, 4 GiB becomes nothing at all, less than what the instance's memory has to begin with. -/
theorem limit_wraps : ∃ p i, buildProgram { exampleBuild with memorySizeLimit := -1 } = .ok p ∧ newInstance 4096 p 4294967296 65536 none = .ok i ∧ i.man.maxMemorySize = 0 ∧ 0 < i.man.memorySize :=
  ⟨_, _, rfl, rfl, rfl, by decide⟩

/-- A negative limit of the access policy is the greatest which there is. -/
theorem limit_negative : ∃ p i, buildProgram { exampleBuild with memorySizeLimit := -1 } = .ok p ∧ newInstance 4096 p (-1) 65536 none = .ok i ∧ i.man.maxMemorySize = 4294967295 :=
  ⟨_, _, rfl, rfl, rfl⟩

/-! ### Snapshots -/

/-- Globals and memory of a snapshot are the instance's. -/
theorem snapshot_data (ps : Nat) (hps : 0 < ps) (old : Prog) (i : Inst) (hi : i.WF ps) (hg : old.man.globalsSize = i.man.globalsSize)
    (suspended : Bool) :
    ((snapshot ps old i suspended).state ps).globals = (i.state ps).globals ∧ ((snapshot ps old i suspended).state ps).memory = (i.state ps).memory := by
  have hgg := alignPage_ge ps i.man.globalsSize hps
  simp only [Prog.state, Inst.state, snapshot, hg]
  constructor
  · apply read_ext
    intro k hk
    simp only [copyRange]
    rw [if_pos (by omega)]
    refine congrArg i.file ?_; omega
  · funext k
    by_cases hk : k < i.man.memorySize
    · rw [if_pos hk]
      simp only [copyRange]
      rw [if_pos (by omega)]
      refine congrArg i.file ?_; omega
    · rw [if_neg hk, hi.tail k (by omega)]

/-- A snapshot of a suspended or final instance which has been started keeps its call stack. -/
theorem snapshot_stack (ps : Nat) (hps : 0 < ps) (hpm : ps ≤ 65536) (old : Prog) (i : Inst) (hi : i.WF ps)
    (suspended : Bool) (hk : suspended = true ∨ final i.man.snap = true) (hu : i.man.stackUsage ≠ 0) :
    ((snapshot ps old i suspended).state ps).stack = (i.state ps).stack ∧ (snapshot ps old i suspended).man.textAddr = i.man.textAddr ∧
    (snapshot ps old i suspended).man.stackUsage = i.man.stackUsage := by
  have hkeep : (suspended || final i.man.snap) = true := by simpa using hk
  have hst := hi.stack
  have hsz := hi.size
  have hge := alignPage_ge ps i.man.stackUsage hps
  have hlt := alignPage_lt ps i.man.stackUsage hps
  have hle := stackMap_le ps i.man.stackUsage _ hps hi.page (by simp only [stackUsageOffset] at hst; omega)
  refine ⟨?_, by simp [snapshot, hkeep, hu], by simp [snapshot, hkeep, hu]⟩
  simp only [Prog.state, Inst.state, snapshot, hkeep, if_true, hu, ne_eq, not_false_eq_true, and_self]
  apply read_ext
  intro k hk
  simp only [copyRange]
  rw [if_neg (by simp only [progGlobalsOffset]; omega), if_pos (by simp only [progGlobalsOffset]; omega)]
  congr 1; simp only [progGlobalsOffset]; omega

theorem snapshot_wf (ps : Nat) (hps : 0 < ps) (old : Prog) (i : Inst) (hi : i.WF ps) (hg : old.man.globalsSize = i.man.globalsSize)
    (suspended : Bool) : (snapshot ps old i suspended).WF ps := by
  have hst := hi.stack
  have hsz := hi.size
  have hle := fun h => stackMap_le ps i.man.stackUsage _ hps hi.page h
  constructor
  · simp only [snapshot, initStackSize]
    split
    · split
      · simp only [stackUsageOffset] at hst; omega
      · split <;> omega
    · omega
  · intro k hk _
    simp only [snapshot, hg] at hk ⊢
    simp only [copyRange]
    rw [if_neg (by omega)]
    split
    · simp only [copyRange]
      rw [if_neg]; · rfl
      rename_i hc
      rw [if_pos hc.1, if_pos hc.2]
      have := hle (by simp only [stackUsageOffset] at hst; omega)
      simp only [progGlobalsOffset]; omega
    · rfl

/-- An instance made of the snapshot of a suspended instance has its state. -/
theorem snapshot_restores_partial (ps : Nat) (hps : 0 < ps) (hpm : ps ≤ 65536) (old : Prog) (i : Inst) (hi : i.WF ps)
    (hg : old.man.globalsSize = i.man.globalsSize) (hu : i.man.stackUsage ≠ 0) (maxMemory : Int) (maxStack : Nat) (hst : maxStack ≤ 2147418112)
    (entry : Option Nat) (j : Inst) (h : newInstance ps (snapshot ps old i true) maxMemory maxStack entry = .ok j) :
    j.state ps = i.state ps ∧ j.man.textAddr = i.man.textAddr ∧ j.man.memorySize = i.man.memorySize ∧ entry = none := by
  have hs := snapshot_stack ps hps hpm old i hi true (.inl rfl) hu
  have hd := snapshot_data ps hps old i hi hg true
  have hn := new_instance_state ps hps hpm _ (snapshot_wf ps hps old i hi hg true) maxMemory maxStack hst entry j h
  refine ⟨?_, ?_⟩
  · rw [hn]
    calc (snapshot ps old i true).state ps
        = ⟨((snapshot ps old i true).state ps).stack, ((snapshot ps old i true).state ps).globals, ((snapshot ps old i true).state ps).memory⟩ := rfl
      _ = i.state ps := by rw [hs.1, hd.1, hd.2]
  · unfold newInstance at h
    split at h
    · cases h
    · simp only at h
      split at h
      · cases h
      · split at h
        · cases h
        · rename_i he _
          simp only [Except.ok.injEq] at h
          subst h
          have hx : (snapshot ps old i true).man.stackUsage ≠ 0 := by rw [hs.2.2]; exact hu
          refine ⟨?_, rfl, ?_⟩
          · simp only [if_pos hx]; exact hs.2.1
          · cases e : entry with
            | none => rfl
            | some x => exact absurd ⟨hx, by rw [e]; rfl⟩ he

/-- The snapshot of an instance which has been suspended before it was started holds nothing to continue from: its call stack is 24 zero
bytes, and its text address is unknown, whatever functions the instance was going to call. -/
theorem snapshot_unstarted (ps : Nat) (old : Prog) (i : Inst) (hu : i.man.stackUsage = 0) :
    ((snapshot ps old i true).state ps).stack = List.replicate 24 0 ∧ (snapshot ps old i true).man.textAddr = 0 := by
  refine ⟨?_, by simp [snapshot, hu]⟩
  simp only [Prog.state, snapshot, hu, Bool.true_or, if_true, ne_eq, not_true_eq_false, if_false, and_false]
  apply List.ext_getElem
  · simp [read]
  · intro k h1 h2
    simp only [List.length_replicate] at h2
    simp only [read, List.getElem_map, List.getElem_range, List.getElem_replicate, copyRange]
    rw [if_neg (by simp only [initStackSize, progGlobalsOffset]; omega)]
    rfl

/-- The metadata of a snapshot's program is the old program's: the instance's monotonic time, flags, trap, result and breakpoints are lost, and
its start function is the old program's even if the instance has already called it. -/
theorem snapshot_metadata (ps : Nat) (old : Prog) (i : Inst) (suspended : Bool) (maxMemory : Int) (maxStack : Nat) (entry : Option Nat) (j : Inst)
    (h : newInstance ps (snapshot ps old i suspended) maxMemory maxStack entry = .ok j) :
    j.man.snap = old.man.snap ∧ j.man.start = old.man.start := by
  unfold newInstance at h
  split at h
  · cases h
  · simp only at h
    split at h
    · cases h
    · split at h
      · cases h
      · simp only [Except.ok.injEq] at h
        subst h
        exact ⟨rfl, rfl⟩

/-- The example program's instance. -/
def exampleInst : Inst :=
  match buildProgram exampleBuild with
  | .ok p => match newInstance 4096 p 131072 65536 none with
    | .ok i => i
    | .error _ => ⟨⟨0, 0, 0, 0, 0, 0, none, none, none⟩, false, false, blank, none⟩
  | .error _ => ⟨⟨0, 0, 0, 0, 0, 0, none, none, none⟩, false, false, blank, none⟩

def exampleProg : Prog := ⟨progMan exampleBuild, mapped progGlobalsOffset exampleBuild⟩

theorem exampleInst_new : newInstance 4096 exampleProg 131072 65536 none = .ok exampleInst := rfl

theorem exampleInst_wf : exampleInst.WF 4096 :=
  new_instance_wf 4096 (by decide) (by decide) exampleProg (build_program_state 4096 (by decide) _ exampleBuild_wf _ rfl).2 131072 65536
    (by decide) (by decide) (by decide) none _ exampleInst_new

example : ∃ j, newInstance 4096 (snapshot 4096 exampleProg exampleInst true) 131072 65536 none = .ok j ∧ j.state 4096 = exampleBuild.state :=
  ⟨_, rfl, (snapshot_restores_partial 4096 (by decide) (by decide) exampleProg exampleInst exampleInst_wf rfl (by decide) 131072 65536 (by decide) none _ rfl).1.trans
    ((new_instance_state 4096 (by decide) (by decide) _ (build_program_state 4096 (by decide) _ exampleBuild_wf _ rfl).2
      131072 65536 (by decide) none _ exampleInst_new).trans (build_program_state 4096 (by decide) _ exampleBuild_wf _ rfl).1)⟩

/-- The metadata of an instance which has been killed at time 5000. -/
def killed : Option Snap := some ⟨1, 3, 0, 5000, []⟩

/-- An instance which has been killed can be run again by way of a snapshot, and its clock goes back. -/
theorem killed_runs_again : ∃ j, newInstance 4096 (snapshot 4096 exampleProg { exampleInst with man := { exampleInst.man with snap := killed } } false) 131072 65536 none = .ok j ∧
    final killed = true ∧ j.man.stackUsage = 16 ∧ final j.man.snap = false ∧ (inflate killed).time = 5000 ∧ (inflate j.man.snap).time = 1000 :=
  ⟨_, rfl, rfl, rfl, rfl, rfl, rfl⟩

/-- Someone else who uploads the snapshot gets the time right, but not the flags (image/build.go:311-316). -/
theorem upload_metadata (b : Build) (p : Prog) (h : buildProgram b = .ok p) (s : Snap) (hs : b.snap = some s) :
    ∃ s', p.man.snap = some s' ∧ s'.time = s.time ∧ s'.breakpoints = s.breakpoints ∧ final p.man.snap = false := by
  unfold buildProgram at h
  split at h
  · cases h
  · simp only [Except.ok.injEq] at h
    subst h
    simp [progMan, keepSnap, hs, final, inflate]

example : ∃ p, buildProgram exampleBuild = .ok p ∧ (inflate p.man.snap).time = 1000 := ⟨_, rfl, rfl⟩

/-! ### Mutation -/

/-- A process has run: the instance file has new contents. The memory beyond what the variables say, or if it hasn't been
started, beyond what was allocated, has not been touched (it is not accessible). -/
structure Ran (ps : Nat) (i j : Inst) : Prop where
  man : j.man = i.man
  incoherent : j.coherent = false
  tail : ∀ k, (if (readVars j.file).unused = 0 then i.man.memorySize else (readVars j.file).pages * 65536) ≤ k →
    j.file (i.man.stackSize + alignPage ps i.man.globalsSize + k) = 0

theorem unle_read_lt (f : File) (off n : Nat) : unle (read f off n) < 256 ^ n := by
  have h := unle_lt (read f off n)
  simpa [read] using h

/-- Whatever a process leaves in the file, an accepted state is well-formed: the call stack is within the stack area, and the memory is less than
2 GiB. If the program was not started, nothing has changed. -/
theorem accepted_wf (ps : Nat) (i j k : Inst) (hi : i.WF ps) (hg : i.man.globalsSize ≤ 2147483648) (hr : Ran ps i j) (h : checkMutation j = .ok k) :
    k.WF ps ∧ k.coherent = true ∧ k.file = j.file ∧ k.man.stackSize = i.man.stackSize ∧ k.man.maxMemorySize = i.man.maxMemorySize ∧
    ((readVars j.file).unused = 0 → k.man = i.man) ∧
    ((readVars j.file).unused ≠ 0 → k.man.memorySize = (readVars j.file).pages * 65536 ∧ k.man.memorySize < 2147483648 ∧ k.man.stackUsage % 8 = i.man.stackSize % 8 ∧
      k.man.start = none ∧ k.man.entry = none ∧ (inflate k.man.snap).time = (readVars j.file).time) ∧
    ((readVars j.file).unused = i.man.stackSize → (readVars j.file).unused ≠ 0 → k.man.stackUsage = 0 ∧ k.man.textAddr = 0) ∧
    ((readVars j.file).unused ≠ i.man.stackSize → (readVars j.file).unused ≠ 0 →
      k.man.stackUsage = i.man.stackSize - (readVars j.file).unused ∧ k.man.textAddr = (readVars j.file).textAddr) := by
  unfold checkMutation at h
  rw [hr.incoherent] at h
  simp only [Bool.false_eq_true, if_false] at h
  have htail := hr.tail
  obtain ⟨v, hv⟩ : ∃ v, v = readVars j.file := ⟨_, rfl⟩
  rw [← hv] at h htail ⊢
  rw [hr.man] at h
  split at h
  · cases h
  · rename_i hc
    have hc' : checkStack v i.man.stackSize = true := by simpa using hc
    split at h
    · rename_i hz
      simp only [Except.ok.injEq] at h
      subst h
      rw [if_pos hz] at htail
      simp only
      exact ⟨⟨hr.man ▸ hi.page, hr.man ▸ hi.size, hr.man ▸ hi.stack, (by simp only; exact htail), hr.man ▸ hi.total⟩, (by trivial), (by trivial), (by trivial), (by trivial), fun _ => (by trivial), fun h => absurd hz h, fun _ h => absurd hz h, fun _ h => absurd hz h⟩
    · rename_i hz
      rw [if_neg hz] at htail
      unfold checkStack at hc'
      rw [if_neg hz] at hc'
      split at hc'
      · cases hc'
      · split at hc'
        · cases hc'
        · split at hc'
          · cases hc'
          · rename_i hmax hbnd hpg
            simp only [Except.ok.injEq] at h
            have hp : v.pages * 65536 < 2147483648 := by omega
            have hb : stackUsageOffset ≤ v.unused ∧ v.unused ≤ i.man.stackSize ∧ v.unused % 8 = 0 := by omega
            have hto : i.man.globalsSize + v.pages * 65536 < two32 := by simp only [two32]; omega
            subst h
            by_cases hu : v.unused = i.man.stackSize
            · simp only [if_pos hu]
              refine ⟨⟨hi.page, hi.size, .inl rfl, htail, hto⟩, (by trivial), (by trivial), (by trivial), (by trivial), fun h => absurd h hz, fun _ => ⟨(by trivial), hp, ?_, (by trivial), (by trivial), (by trivial)⟩, fun _ _ => ⟨(by trivial), (by trivial)⟩, fun h => absurd hu h⟩
              omega
            · simp only [if_neg hu]
              refine ⟨⟨hi.page, hi.size, .inr ?_, htail, hto⟩, (by trivial), (by trivial), (by trivial), (by trivial), fun h => absurd h hz, fun _ => ⟨(by trivial), hp, ?_, (by trivial), (by trivial), (by trivial)⟩, fun h => absurd h hu, fun _ _ => ⟨(by trivial), (by trivial)⟩⟩
              · simp only; omega
              · omega

/-- The variables of a process which has been suspended with 48 bytes of stack, one page of memory, at time 2000. -/
def exampleVars : Bytes :=
  le 4 65488 ++ le 4 1 ++ le 8 2000 ++ le 4 16 ++ le 4 0 ++ le 8 0x500000000 ++ le 8 stackMagic ++ le 8 stackMagic ++ le 8 stackMagic ++ le 8 stackMagic

def exampleRan : Inst := { exampleInst with coherent := false, file := write exampleInst.file 0 exampleVars }

theorem exampleRan_vars : readVars exampleRan.file = ⟨65488, 1, 2000, 16, 0x500000000, [stackMagic, stackMagic, stackMagic, stackMagic]⟩ := by decide +kernel

theorem exampleRan_ran : Ran 4096 exampleInst exampleRan := by
  refine ⟨rfl, rfl, ?_⟩
  intro k hk
  rw [exampleRan_vars] at hk
  have h2 := exampleInst_wf.tail k (by simp only [if_neg (show ¬ (65488 = 0) by decide)] at hk; exact hk)
  simp only [exampleRan, write]
  rw [if_neg]
  · exact h2
  · rintro ⟨_, h⟩
    have e1 : exampleInst.man.stackSize = 65536 := rfl
    have e2 : exampleVars.length = 64 := rfl
    rw [e1, e2] at h; omega

example : ∃ k, checkMutation exampleRan = .ok k ∧ k.WF 4096 ∧ k.man.stackUsage = 48 ∧ k.man.memorySize = 65536 := by
  have h : ∃ k, checkMutation exampleRan = .ok k ∧ k.man.stackUsage = 48 ∧ k.man.memorySize = 65536 := by
    unfold checkMutation
    rw [if_neg (by decide)]
    simp only [exampleRan_vars]
    exact ⟨_, rfl, rfl, rfl⟩
  obtain ⟨k, h1, h2, h3⟩ := h
  exact ⟨k, h1, (accepted_wf 4096 exampleInst exampleRan k exampleInst_wf (by decide) exampleRan_ran h1).1, h2, h3⟩

/-- A state is rejected exactly if the program was suspended by force, or the variables can't have been left by the runtime. -/
theorem rejected_iff (i : Inst) (hc : i.coherent = false) :
    checkMutation i = .error .invalid ↔ (readVars i.file).unused ≠ 0 ∧
      ((readVars i.file).unused = 4294967295 ∨ (readVars i.file).unused < stackUsageOffset ∨ (readVars i.file).unused > i.man.stackSize ∨
       (readVars i.file).unused % 8 ≠ 0 ∨ (readVars i.file).pages ≥ 32768 ∨ (readVars i.file).random > 16 ∨ ∃ m ∈ (readVars i.file).magic, m ≠ stackMagic) := by
  unfold checkMutation
  rw [hc]
  simp only [Bool.false_eq_true, if_false]
  obtain ⟨v, hv⟩ : ∃ v, v = readVars i.file := ⟨_, rfl⟩
  rw [← hv]
  have key : checkStack v i.man.stackSize = false ↔ v.unused ≠ 0 ∧ (v.unused = 4294967295 ∨ v.unused < stackUsageOffset ∨ v.unused > i.man.stackSize ∨
       v.unused % 8 ≠ 0 ∨ v.pages ≥ 32768 ∨ v.random > 16 ∨ ∃ m ∈ v.magic, m ≠ stackMagic) := by
    unfold checkStack
    by_cases h0 : v.unused = 0
    · simp [h0]
    · rw [if_neg h0]
      by_cases h1 : v.unused = two32 - 1
      · rw [if_pos h1]; simp only [two32] at h1; exact ⟨fun _ => ⟨h0, .inl h1⟩, fun _ => rfl⟩
      · rw [if_neg h1]
        by_cases h2 : v.unused < stackUsageOffset ∨ v.unused > i.man.stackSize ∨ v.unused % 8 ≠ 0
        · rw [if_pos h2]
          refine ⟨fun _ => ⟨h0, .inr ?_⟩, fun _ => rfl⟩
          rcases h2 with h | h | h
          · exact .inl h
          · exact .inr (.inl h)
          · exact .inr (.inr (.inl h))
        · rw [if_neg h2]
          by_cases h3 : v.pages > 2147483647 / 65536
          · rw [if_pos h3]; exact ⟨fun _ => ⟨h0, .inr (.inr (.inr (.inr (.inl (by omega)))))⟩, fun _ => rfl⟩
          · rw [if_neg h3]
            by_cases h4 : v.random > 16
            · rw [if_pos h4]; exact ⟨fun _ => ⟨h0, .inr (.inr (.inr (.inr (.inr (.inl h4)))))⟩, fun _ => rfl⟩
            · rw [if_neg h4]
              rw [List.all_eq_false]
              constructor
              · rintro ⟨m, hm, he⟩
                exact ⟨h0, .inr (.inr (.inr (.inr (.inr (.inr ⟨m, hm, by simpa using he⟩)))))⟩
              · rintro ⟨_, h | h | h | h | h | h | ⟨m, hm, he⟩⟩
                · exact absurd h (by simpa only [two32] using h1)
                · exact absurd (.inl h) h2
                · exact absurd (.inr (.inl h)) h2
                · exact absurd (.inr (.inr h)) h2
                · omega
                · exact absurd h h4
                · exact ⟨m, hm, by simpa using he⟩
  rw [← key]
  constructor
  · intro h
    split at h
    · assumption
    · split at h <;> cases h
  · intro h; rw [if_pos h]

/-- Reading the call stack of a well-formed instance doesn't panic. -/
theorem read_stack_safe (ps : Nat) (i : Inst) (hi : i.WF ps) : readStack i = .ok (i.state ps).stack := by
  have h := hi.stack
  unfold readStack
  split
  · rename_i h0; simp [Inst.state, read, h0]
  · split
    · simp only [stackUsageOffset] at h; omega
    · rfl

/-- Nor does reading the globals, each of which has 8 bytes (wag's GlobalsSize). Global number k is the (k+1)'th word before the memory. -/
theorem read_globals_safe (ps : Nat) (hps : 0 < ps) (i : Inst) (n : Nat) (hn : n * 8 ≤ i.man.globalsSize) : ∃ l, globals ps i n = .ok l ∧ l.length = n ∧
    ∀ k, k < n → l[k]? = some (unle (read i.file (i.man.stackSize + alignPage ps i.man.globalsSize - (k + 1) * 8) 8)) := by
  unfold globals
  have hl : (read i.file (i.man.stackSize + alignPage ps i.man.globalsSize - i.man.globalsSize) i.man.globalsSize).length = i.man.globalsSize := by
    simp [read]
  simp only [hl]
  rw [if_neg (by omega)]
  refine ⟨_, rfl, by simp, fun k hk => ?_⟩
  rw [List.getElem?_map, List.getElem?_range hk]
  simp only [Option.map_some, Option.some.injEq]
  refine congrArg unle ?_
  apply List.ext_getElem
  · simp only [read, List.length_take, List.length_drop, List.length_map, List.length_range]; omega
  · intro m h1 h2
    simp only [read, List.length_map, List.length_range] at h2
    simp only [read, List.getElem_take, List.getElem_drop, List.getElem_map, List.getElem_range]
    refine congrArg i.file ?_
    have := alignPage_ge ps i.man.globalsSize hps
    omega

/-- The variables as the loader initializes them (runtime/loader/loader.c:400-408), in a file. -/
def loaderVars (i : Inst) (textAddr : Nat) : Bytes :=
  le 4 0 ++ le 4 (i.man.memorySize / 65536) ++ le 8 0 ++ le 4 16 ++ le 4 0 ++ le 8 textAddr ++ le 8 stackMagic ++ le 8 stackMagic ++ le 8 stackMagic ++ le 8 stackMagic

/-- An instance which is suspended between loading and its start is as it was. -/
theorem loaded_unchanged (i : Inst) (hc : i.coherent = false) (textAddr : Nat) :
    checkMutation { i with file := write i.file 0 (loaderVars i textAddr) } = .ok { i with file := write i.file 0 (loaderVars i textAddr), coherent := true } := by
  have h0 : (readVars (write i.file 0 (loaderVars i textAddr))).unused = 0 := by
    have : read (write i.file 0 (loaderVars i textAddr)) 0 4 = [0, 0, 0, 0] := by
      apply List.ext_getElem
      · simp [read]
      · intro k h1 h2
        simp only [List.length_cons, List.length_nil] at h2
        have : k = 0 ∨ k = 1 ∨ k = 2 ∨ k = 3 := by omega
        rcases this with rfl | rfl | rfl | rfl <;> simp [read, write, loaderVars, le]
    simp only [readVars, this]; rfl
  unfold checkMutation
  simp only [hc, Bool.false_eq_true, if_false]
  rw [if_neg (by unfold checkStack; rw [if_pos h0]; simp), if_pos h0]

/-! ### Storing -/

/-- The setters of image/instance.go:222-276: the manifest becomes dirty if it changes. (SetFinal, SetDebugInfo, SetTrap, SetResult and
SetBreakpoints change fields of the snapshot metadata.) -/
def setSnap (i : Inst) (f : Snap → Snap) : Inst :=
  if f (inflate i.man.snap) = inflate i.man.snap then i
  else { i with dirty := true, man := { i.man with snap := some (f (inflate i.man.snap)) } }

/-- What can be done to an instance which isn't loaded from a storage. -/
inductive Op where
  | set (f : Snap → Snap)
  | begin
  /-- A process has run and left a file. -/
  | check (file : File)
  | store
  | unstore
  /-- Storing the instance, and loading it in another server. -/
  | reload

/-- `none`: an error. -/
def op (i : Inst) : Op → Option Inst
  | .set f => some (setSnap i f)
  | .begin => (beginMutation i).toOption
  | .check f => (checkMutation { i with file := if i.coherent then i.file else f }).toOption
  | .store => if i.coherent then some (storeFs i).1 else none
  | .unstore => some i
  | .reload => if i.coherent then (loadFs (storeFs i).2).toOption else none

def ops (i : Inst) : List Op → Option Inst
  | [] => some i
  | o :: os => match op i o with
    | none => none
    | some j => ops j os

/-- The manifest in the file is the manifest, unless the instance knows better. -/
def Inst.Synced (i : Inst) : Prop := i.dirty = true ∨ i.written = some i.man

theorem op_synced (i : Inst) (h : i.Synced) (o : Op) (j : Inst) (ho : op i o = some j) : j.Synced := by
  cases o with
  | set f =>
    simp only [op, Option.some.injEq] at ho
    subst ho
    unfold setSnap
    split
    · exact h
    · exact .inl rfl
  | begin =>
    simp only [op, beginMutation] at ho
    split at ho <;> simp only [Except.toOption] at ho <;> cases ho
    exact h
  | check f =>
    simp only [op, checkMutation] at ho
    split at ho
    · simp only [Except.toOption, Option.some.injEq] at ho; subst ho; exact h
    · split at ho
      · simp only [Except.toOption] at ho; cases ho
      · split at ho
        · simp only [Except.toOption, Option.some.injEq] at ho; subst ho; exact h
        · simp only [Except.toOption, Option.some.injEq] at ho; subst ho; exact .inl rfl
  | store =>
    simp only [op] at ho
    split at ho
    · cases ho
      simp only [Inst.Synced, storeFs]
      right
      split
      · rfl
      · rename_i hd
        rcases h with h | h
        · exact absurd h hd
        · exact h
    · cases ho
  | unstore => cases ho; exact h
  | reload =>
    simp only [op] at ho
    split at ho
    · unfold loadFs at ho
      split at ho
      · cases ho
      · cases ho
        exact .inr rfl
    · cases ho

theorem ops_synced (os : List Op) : ∀ i : Inst, i.Synced → ∀ j, ops i os = some j → j.Synced := by
  induction os with
  | nil => intro i h j ho; cases ho; exact h
  | cons o os ih =>
    intro i h j ho
    simp only [ops] at ho
    split at ho
    · cases ho
    · rename_i k hk; exact ih k (op_synced i h o k hk) j ho

theorem synced_load (ps : Nat) (i : Inst) (h : i.Synced) : ∃ j, loadFs (storeFs i).2 = .ok j ∧ j.man = i.man ∧ j.state ps = i.state ps ∧ j.coherent = true := by
  have hw : (storeFs i).2 = ⟨i.file, some i.man⟩ := by
    simp only [storeFs]
    split
    · rfl
    · rename_i hd
      rcases h with h | h
      · exact absurd h hd
      · rw [h]
  rw [hw]
  exact ⟨_, rfl, rfl, rfl, rfl⟩

/-- Whatever has happened to an instance which was made of an existing program, storing it in a filesystem and loading it gives the same manifest and state. -/
theorem store_load_fs_partial (ps : Nat) (p : Prog) (maxMemory : Int) (maxStack : Nat) (entry : Option Nat) (i : Inst)
    (hn : newInstance ps p maxMemory maxStack entry = .ok i) (os : List Op) (j : Inst) (ho : ops i os = some j) :
    ∃ k, loadFs (storeFs j).2 = .ok k ∧ k.man = j.man ∧ k.state ps = j.state ps ∧ k.coherent = true := by
  apply synced_load
  refine ops_synced os i (.inl ?_) j ho
  unfold newInstance at hn
  split at hn
  · cases hn
  · simp only at hn
    split at hn
    · cases hn
    · split at hn
      · cases hn
      · simp only [Except.ok.injEq] at hn; subst hn; rfl

/-- An instance which was made along with its program is stored without a manifest, and can't be loaded. -/
theorem built_unloadable (ps : Nat) (b : Build) (maxMemory : Nat) (entry : Option Nat) (p : Prog) (i : Inst) (h : buildBoth ps b maxMemory entry = .ok (p, i)) :
    loadFs (storeFs i).2 = .error .invalid := by
  unfold buildBoth at h
  split at h
  · cases h
  · split at h
    · cases h
    · simp only at h
      split at h
      · cases h
      · split at h
        · cases h
        · simp only [Except.ok.injEq, Prod.mk.injEq] at h
          obtain ⟨rfl, rfl⟩ := h
          rfl

example : ∃ p i, buildBoth 4096 exampleBuild 131072 none = .ok (p, i) ∧ i.coherent = true := ⟨_, _, rfl, rfl⟩

/-- A copy of an instance which is made by storing or loading it has its state. -/
theorem copy_state (ps : Nat) (hps : 0 < ps) (i : Inst) (hi : i.WF ps) (man : InstMan) (hm : man = i.man) (dirty coherent : Bool) (w : Option InstMan) :
    (Inst.mk man dirty coherent (copyInstance ps i.man i.file blank) w).state ps = i.state ps ∧
    (Inst.mk man dirty coherent (copyInstance ps i.man i.file blank) w).WF ps := by
  subst hm
  have hgg := alignPage_ge ps i.man.globalsSize hps
  have ht := hi.total
  have hmod : (i.man.globalsSize + i.man.memorySize) % two32 = i.man.globalsSize + i.man.memorySize := Nat.mod_eq_of_lt ht
  have hst := hi.stack
  have hmem : ∀ k, copyInstance ps i.man i.file blank (i.man.stackSize + alignPage ps i.man.globalsSize + k) = i.file (i.man.stackSize + alignPage ps i.man.globalsSize + k) := by
    intro k
    simp only [copyInstance, hmod, copyRange]
    split
    · congr 1; omega
    · rename_i ho
      rw [if_neg (by simp only [stackUsageOffset] at hst; omega), hi.tail k (by omega)]; rfl
  refine ⟨?_, hi.page, hi.size, hi.stack, ?_, hi.total⟩
  · simp only [Inst.state]
    congr 1
    · apply read_ext
      intro k hk
      simp only [copyInstance, hmod, copyRange]
      rw [if_neg (by simp only [stackUsageOffset] at hst; omega), if_pos (by simp only [stackUsageOffset] at hst; omega)]
      congr 1; omega
    · apply read_ext
      intro k hk
      simp only [copyInstance, hmod, copyRange]
      rw [if_pos (by omega)]
      congr 1; omega
    · funext k; exact hmem k
  · intro k hk
    exact (hmem k).trans (hi.tail k hk)

/-- With PersistentMemory, storing any well-formed instance and loading it gives the same manifest and state. -/
theorem store_load_mem (ps : Nat) (hps : 0 < ps) (i : Inst) (hi : i.WF ps) :
    ∃ k, loadMem ps (storeMem ps i).2 = .ok k ∧ k.man = i.man ∧ k.state ps = i.state ps ∧ k.coherent = true ∧ k.WF ps := by
  refine ⟨_, rfl, rfl, ?_, rfl, ?_⟩
  · have h1 := copy_state ps hps i hi i.man rfl false true none
    have h2 := copy_state ps hps _ h1.2 i.man rfl false true none
    exact h2.1.trans h1.1
  · have h1 := copy_state ps hps i hi i.man rfl false true none
    exact (copy_state ps hps _ h1.2 i.man rfl false true none).2

example : ∃ k, loadMem 4096 (storeMem 4096 exampleInst).2 = .ok k ∧ k.state 4096 = exampleInst.state 4096 := by
  obtain ⟨k, h1, _, h2, _⟩ := store_load_mem 4096 (by decide) exampleInst exampleInst_wf
  exact ⟨k, h1, h2⟩

end Gate.ImageFile
