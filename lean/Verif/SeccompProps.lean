import Verif.Seccomp
import Verif.ProcessProps
/-
C90: the system call filter of program processes.
-/
namespace Gate.Seccomp
open Gate Gate.Process

theorem e15 (n : Nrs) (d : Data) (f a : Nat) : exec d (filter n) (f + 1) a 15 = some retKill := rfl
theorem e14 (n : Nrs) (d : Data) (f a : Nat) : exec d (filter n) (f + 1) a 14 = some retAllow := rfl
theorem e13 (n : Nrs) (d : Data) (f a : Nat) : exec d (filter n) (f + 2) a 13 = some (if a = 3 then retAllow else retKill) := by
  show exec d (filter n) (f + 1) a (if a = 3 then 14 else 15) = _
  split <;> rfl
theorem e11 (n : Nrs) (d : Data) (f a : Nat) : exec d (filter n) (f + 4) a 11 =
    some (if a = 0 ∧ d.args 2 % 4294967296 = 3 then retAllow else retKill) := by
  show exec d (filter n) (f + 3) a (if a = 0 then 12 else 15) = _
  by_cases h : a = 0
  · rw [if_pos h]
    show exec d (filter n) (f + 2) (d.args 2 % 4294967296) 13 = _
    rw [e13]
    simp only [h, true_and]
  · rw [if_neg h, if_neg (fun x => h x.1)]
    rfl
theorem e8 (n : Nrs) (d : Data) (f a : Nat) : exec d (filter n) (f + 7) a 8 =
    some (if minHeapHigh32 ≤ d.args 0 / 4294967296 ∧ d.args 1 / 4294967296 = 0 ∧ d.args 2 % 4294967296 = 3 then retAllow else retKill) := by
  show exec d (filter n) (f + 5) (d.args 0 / 4294967296) (if minHeapHigh32 ≤ d.args 0 / 4294967296 then 10 else 15) = _
  by_cases h : minHeapHigh32 ≤ d.args 0 / 4294967296
  · rw [if_pos h]
    show exec d (filter n) (f + 4) (d.args 1 / 4294967296) 11 = _
    rw [e11]
    simp only [h, true_and]
  · rw [if_neg h, if_neg (fun x => h x.1)]
    rfl
/-- The instructions from 5: for a system call number which isn't of the first ones. -/
theorem e5 (n : Nrs) (d : Data) (f a : Nat) : exec d (filter n) (f + 5) a 5 =
    some (if a = n.rtSigreturn ∨ a = n.close ∨ a = n.exitGroup ∨ a = 3 then retAllow else retKill) := by
  show exec d (filter n) (f + 4) a (if a = n.rtSigreturn then 14 else 6) = _
  by_cases h1 : a = n.rtSigreturn
  · rw [if_pos h1, if_pos (.inl h1)]; rfl
  rw [if_neg h1]
  show exec d (filter n) (f + 3) a (if a = n.close then 14 else 7) = _
  by_cases h2 : a = n.close
  · rw [if_pos h2, if_pos (.inr (.inl h2))]; rfl
  rw [if_neg h2]
  show exec d (filter n) (f + 2) a (if a = n.exitGroup then 14 else 13) = _
  by_cases h3 : a = n.exitGroup
  · rw [if_pos h3, if_pos (.inr (.inr (.inl h3)))]; rfl
  rw [if_neg h3, e13]
  by_cases h4 : a = 3
  · rw [if_pos h4, if_pos (.inr (.inr (.inr h4)))]
  · rw [if_neg h4, if_neg (fun x => by rcases x with x | x | x | x <;> contradiction)]

/-- What the filter does, as a decision list. -/
theorem run_filter (n : Nrs) (d : Data) :
    run (filter n) d = some (
      if d.nr = n.read ∨ d.nr = n.write ∨ d.nr = n.ppoll then retAllow
      else if d.nr = n.mprotect then
        (if minHeapHigh32 ≤ d.args 0 / 4294967296 ∧ d.args 1 / 4294967296 = 0 ∧ d.args 2 % 4294967296 = 3 then retAllow else retKill)
      else if d.nr = n.rtSigreturn ∨ d.nr = n.close ∨ d.nr = n.exitGroup ∨ d.nr = 3 then retAllow
      else retKill) := by
  show exec d (filter n) 14 d.nr (if d.nr = n.read then 14 else 2) = _
  by_cases h1 : d.nr = n.read
  · rw [if_pos h1, if_pos (.inl h1)]; rfl
  rw [if_neg h1]
  show exec d (filter n) 13 d.nr (if d.nr = n.write then 14 else 3) = _
  by_cases h2 : d.nr = n.write
  · rw [if_pos h2, if_pos (.inr (.inl h2))]; rfl
  rw [if_neg h2]
  show exec d (filter n) 12 d.nr (if d.nr = n.ppoll then 14 else 4) = _
  by_cases h3 : d.nr = n.ppoll
  · rw [if_pos h3, if_pos (.inr (.inr h3))]; rfl
  rw [if_neg h3, if_neg (fun x => by rcases x with x | x | x <;> contradiction)]
  show exec d (filter n) 11 d.nr (if d.nr = n.mprotect then 8 else 5) = _
  by_cases h4 : d.nr = n.mprotect
  · rw [if_pos h4, if_pos h4, e8]
  · rw [if_neg h4, if_neg h4, e5]

theorem decides (n : Nrs) (d : Data) : run (filter n) d = some retAllow ∨ run (filter n) d = some retKill := by
  rw [run_filter]
  repeat' split
  all_goals simp

theorem high (d : Data) : minHeapHigh32 ≤ d.args 0 / 4294967296 ↔ minHeap ≤ d.args 0 := by
  simp only [minHeapHigh32, minHeap]; omega
theorem low (d : Data) : d.args 1 / 4294967296 = 0 ↔ d.args 1 < 4294967296 := by omega

/-- x86-64: the filter allows exactly the intended system calls. Every other one kills the process. -/
theorem x86_exact (d : Data) : (run (filter x86) d = some retAllow ↔ Intended x86 d) ∧ (run (filter x86) d = some retKill ↔ ¬ Intended x86 d) := by
  have key : run (filter x86) d = some retAllow ↔ Intended x86 d := by
    rw [run_filter]
    simp only [high, low]
    unfold Intended x86
    simp only
    constructor
    · intro h
      split at h
      · omega
      · split at h
        · split at h
          · omega
          · simp [retKill, retAllow] at h
        · split at h
          · omega
          · simp [retKill, retAllow] at h
    · intro h
      split
      · rfl
      · split
        · rw [if_pos (by omega)]
        · rw [if_pos (by omega)]
  refine ⟨key, ?_⟩
  rw [← key]
  rcases decides x86 d with h | h <;> rw [h] <;> simp [retKill, retAllow]

/-- aarch64: besides the intended system calls, the filter allows one: the jump of an unknown number goes to the comparison of mprotect's protection flags
instead of the last instruction, so number 3 (io_cancel) passes. -/
theorem arm_allows (d : Data) : run (filter arm) d = some retAllow ↔ Intended arm d ∨ d.nr = 3 := by
  rw [run_filter]
  simp only [high, low]
  unfold Intended arm
  simp only
  constructor
  · intro h
    split at h
    · omega
    · split at h
      · split at h
        · omega
        · simp [retKill, retAllow] at h
      · split at h
        · omega
        · simp [retKill, retAllow] at h
  · intro h
    split
    · rfl
    · split
      · rw [if_pos (by omega)]
      · rw [if_pos (by omega)]

/-- So the filter isn't as intended on aarch64. -/
theorem arm_exact_refuted : ∃ d, d.Valid ∧ run (filter arm) d = some retAllow ∧ ¬ Intended arm d := by
  refine ⟨⟨3, 0, 0, fun _ => 0⟩, ⟨by decide, by intro i; show 0 < _; decide⟩, (arm_allows _).mpr (.inr rfl), ?_⟩
  unfold Intended arm
  simp

/-- The calling convention isn't checked. AUDIT_ARCH_I386 is 0x40000003: with it, 15 is chmod and 271 is utimes, of which both are allowed. -/
theorem convention_ignored (n : Nrs) (d : Data) (a : Nat) : run (filter n) { d with arch := a } = run (filter n) d := by
  rw [run_filter, run_filter]

theorem i386_refuted : ∃ d : Data, d.Valid ∧ d.arch = 0x40000003 ∧ d.nr = 15 ∧ run (filter x86) d = some retAllow :=
  ⟨⟨15, 0x40000003, 0, fun _ => 0⟩, ⟨by decide, by intro i; show 0 < _; decide⟩, rfl, rfl, by rw [(x86_exact _).1]; unfold Intended x86; simp⟩

/-- Code can't be made writable: whatever mprotect the filter allows is of memory which is above every text mapping (which starts below `maxText`
and is smaller than 4 GiB). Nor can anything be made executable. -/
theorem text_protected (n : Nrs) (hn : n = x86 ∨ n = arm) (d : Data) (h : run (filter n) d = some retAllow) (hm : d.nr = n.mprotect)
    (text size : Nat) (ht : text < maxText) (hs : size < 4294967296) :
    text + size ≤ d.args 0 ∧ d.args 2 % 4294967296 = 3 := by
  have : Intended n d := by
    rcases hn with hn | hn <;> subst hn
    · exact (x86_exact d).1.mp h
    · rcases (arm_allows d).mp h with h | h
      · exact h
      · rw [hm] at h; simp [arm] at h
  unfold Intended at this
  simp only [maxText, minHeap] at *
  rcases hn with hn | hn <;> subst hn <;> simp only [x86, arm] at * <;> omega

/-- Growing the memory is not prevented: the calls of grow_memory pass, for every heap address which is chosen. -/
theorem grow_passes (n : Nrs) (d : Data) (hm : d.nr = n.mprotect) (ha : minHeap ≤ d.args 0) (hl : d.args 1 < 4294967296) (hp : d.args 2 = 3)
    (hn : n = x86 ∨ n = arm) : run (filter n) d = some retAllow := by
  have : Intended n d := by
    unfold Intended
    have : d.args 2 % 4294967296 = 3 := by omega
    simp only [hm, ha, hl, this, and_self, or_true]
  rcases hn with hn | hn <;> subst hn
  · exact (x86_exact d).1.mpr this
  · exact (arm_allows d).mpr (.inl this)

/-! Examples: both outcomes occur. -/
example : run (filter x86) ⟨10, 0xc000003e, 0, fun i => if i = 0 then 0x2aa900010000 else if i = 1 then 65536 else 3⟩ = some retAllow := by decide
example : run (filter x86) ⟨10, 0xc000003e, 0, fun i => if i = 0 then 0x2aa600010000 else if i = 1 then 65536 else 3⟩ = some retKill := by decide
example : run (filter x86) ⟨59, 0xc000003e, 0, fun _ => 0⟩ = some retKill := by decide

end Gate.Seccomp
