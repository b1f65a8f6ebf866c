import Verif.ImageFile
/-
What users rely on: the state of an instance (call stack, globals, memory) is that of the
program it was made of, of the snapshot it was restored from, or of the stored instance it was
loaded from; its memory stays within the limits.
-/
namespace Gate.ImageFile
open Gate

/-! ### Specification -/

/-- The state of a program or an instance: its call stack, its global variables, and its memory, which is zero from some
point on. -/
structure State where
  stack : Bytes
  globals : Bytes
  memory : Nat → UInt8

/-- The state in a program file: the stack is just before the page-aligned globals, which are at the end
of their pages; the memory is just after them. -/
def Prog.state (ps : Nat) (p : Prog) : State where
  stack := read p.file (progGlobalsOffset - p.man.stackUsage) p.man.stackUsage
  globals := read p.file (progGlobalsOffset + alignPage ps p.man.globalsSize - p.man.globalsSize) p.man.globalsSize
  memory := fun k => if k < p.man.memoryDataSize then p.file (progGlobalsOffset + alignPage ps p.man.globalsSize + k) else 0

/-- The state in an instance file, as the loader maps it (runtime/loader/loader.c): the stack area is first, its used part
is at its end; the globals and the memory follow. Also the memory which has not been allocated yet is considered. -/
def Inst.state (ps : Nat) (i : Inst) : State where
  stack := read i.file (i.man.stackSize - i.man.stackUsage) i.man.stackUsage
  globals := read i.file (i.man.stackSize + alignPage ps i.man.globalsSize - i.man.globalsSize) i.man.globalsSize
  memory := fun k => i.file (i.man.stackSize + alignPage ps i.man.globalsSize + k)

/-- The state which is put into a build. -/
def Build.state (b : Build) : State where
  stack := b.stack
  globals := b.globals.drop (b.globals.length - b.globalsSize)
  memory := fun k => b.memory.getD k 0

/-- What holds of every program: a stack of at most 2 GiB; the pages of the initial memory are zero after the data. -/
structure Prog.WF (ps : Nat) (p : Prog) : Prop where
  stack : p.man.stackUsage ≤ 2147483648
  tail : ∀ k, p.man.memoryDataSize ≤ k → k < alignPage ps p.man.memoryDataSize →
    p.file (progGlobalsOffset + alignPage ps p.man.globalsSize + k) = 0

/-- What holds of every instance which is not running: its stack is within the stack area, away from the variables, and the
memory which it hasn't allocated is zero. -/
structure Inst.WF (ps : Nat) (i : Inst) : Prop where
  page : i.man.stackSize % ps = 0
  size : i.man.stackSize ≤ 2147483648
  stack : i.man.stackUsage = 0 ∨ i.man.stackUsage + stackUsageOffset ≤ i.man.stackSize
  tail : ∀ k, i.man.memorySize ≤ k → i.file (i.man.stackSize + alignPage ps i.man.globalsSize + k) = 0
  total : i.man.globalsSize + i.man.memorySize < two32

/-! ### Lemmas -/

theorem read_ext (f g : File) (o p n : Nat) (h : ∀ k, k < n → f (o + k) = g (p + k)) : read f o n = read g p n := by
  unfold read
  apply List.map_congr_left
  intro k hk
  exact h k (List.mem_range.mp hk)

theorem read_write (f : File) (off : Nat) (b : Bytes) : read (write f off b) off b.length = b := by
  unfold read write
  apply List.ext_getElem
  · simp
  · intro k h1 h2
    simp only [List.length_map, List.length_range] at h1
    simp [h1]

theorem alignPage_ge (ps n : Nat) (h : 0 < ps) : n ≤ alignPage ps n := by
  unfold alignPage
  have := Nat.div_add_mod (n + (ps - 1)) ps
  have := Nat.mod_lt (n + (ps - 1)) h
  rw [Nat.mul_comm]
  omega

theorem alignPage_lt (ps n : Nat) (h : 0 < ps) : alignPage ps n < n + ps := by
  unfold alignPage
  have := Nat.div_mul_le_self (n + (ps - 1)) ps
  omega

theorem alignPage_dvd (ps n : Nat) : alignPage ps n % ps = 0 := by
  unfold alignPage; exact Nat.mul_mod_left _ _

theorem alignPage_zero (ps : Nat) (h : 0 < ps) : alignPage ps 0 = 0 := by
  unfold alignPage
  rw [Nat.div_eq_of_lt (by omega)]; omega

/-- Alignment is the least multiple. -/
theorem alignPage_le (ps n m : Nat) (h : 0 < ps) (hm : m % ps = 0) (hn : n ≤ m) : alignPage ps n ≤ m := by
  obtain ⟨q, hq⟩ := Nat.dvd_of_mod_eq_zero hm
  unfold alignPage
  have h1 : (n + (ps - 1)) / ps ≤ q := by
    have : (n + (ps - 1)) / ps < q + 1 := by
      rw [Nat.div_lt_iff_lt_mul h, Nat.add_mul, Nat.mul_comm q, ← hq]; omega
    omega
  have h2 := Nat.mul_le_mul_right ps h1
  rw [Nat.mul_comm q] at h2
  omega

theorem alignPage_self (ps n : Nat) (h : 0 < ps) (hn : n % ps = 0) : alignPage ps n = n :=
  Nat.le_antisymm (alignPage_le ps n n h hn (Nat.le_refl n)) (alignPage_ge ps n h)

/-! ### New instances -/

/-- The used part of the stack, in whole pages, fits. -/
theorem stackMap_le (ps usage size : Nat) (h : 0 < ps) (hs : size % ps = 0) (hu : usage ≤ size) : alignPage ps usage ≤ size :=
  alignPage_le ps usage size h hs hu

/-- An instance has the state of its program, whatever the program, the stack size and the page size. -/
theorem new_instance_state (ps : Nat) (hps : 0 < ps) (hpm : ps ≤ 65536) (p : Prog) (hp : p.WF ps) (maxMemory : Int) (maxStack : Nat)
    (hst : maxStack ≤ 2147418112) (entry : Option Nat) (i : Inst) (h : newInstance ps p maxMemory maxStack entry = .ok i) :
    i.state ps = p.state ps := by
  unfold newInstance at h
  split at h
  · cases h
  · rename_i n hn
    simp only at h
    split at h
    · cases h
    · split at h
      · cases h
      · rename_i hus hfit
        have hal := alignPage_lt ps maxStack hps
        have hmod : alignPage ps maxStack % two32 = alignPage ps maxStack := Nat.mod_eq_of_lt (by simp only [two32]; omega)
        have hdvd := alignPage_dvd ps maxStack
        have hge := alignPage_ge ps p.man.stackUsage hps
        have hle := stackMap_le ps p.man.stackUsage _ hps hdvd (by omega)
        have hlt := alignPage_lt ps p.man.stackUsage hps
        have hgm := alignPage_ge ps p.man.memoryDataSize hps
        have hgg := alignPage_ge ps p.man.globalsSize hps
        simp only [Except.ok.injEq] at h
        subst h
        have hw := hp.tail
        have hs := hp.stack
        simp only [Inst.state, Prog.state, hmod]
        obtain ⟨S, hS⟩ : ∃ S, S = alignPage ps maxStack := ⟨_, rfl⟩
        obtain ⟨M, hM⟩ : ∃ M, M = alignPage ps p.man.stackUsage := ⟨_, rfl⟩
        obtain ⟨D, hD⟩ : ∃ D, D = alignPage ps p.man.memoryDataSize := ⟨_, rfl⟩
        obtain ⟨G, hG⟩ : ∃ G, G = alignPage ps p.man.globalsSize := ⟨_, rfl⟩
        rw [← hS] at hal hle hfit hdvd ⊢
        rw [← hM] at hge hle hlt ⊢
        rw [← hD] at hgm hw ⊢
        rw [← hG] at hw hgg ⊢
        congr 1
        · apply read_ext
          intro k hk
          simp only [copyRange]
          rw [if_pos (by omega)]
          congr 1; simp only [progGlobalsOffset]; omega
        · apply read_ext
          intro k hk
          simp only [copyRange]
          rw [if_pos (by omega)]
          congr 1; simp only [progGlobalsOffset]; omega
        · funext k
          simp only [copyRange]
          by_cases hk : k < D
          · rw [if_pos (by omega)]
            have he : progGlobalsOffset - M + (S + G + k - (S - M)) = progGlobalsOffset + G + k := by
              simp only [progGlobalsOffset]; omega
            rw [he]
            split
            · rfl
            · exact hw k (by omega) hk
          · rw [if_neg (by omega), if_neg (by omega)]; rfl

/-- It is well-formed. -/
theorem new_instance_wf (ps : Nat) (hps : 0 < ps) (hpm : ps ≤ 65536) (p : Prog) (hp : p.WF ps) (maxMemory : Int) (maxStack : Nat)
    (hst : maxStack ≤ 2147418112) (hd : p.man.memoryDataSize ≤ p.man.memorySize) (ht : p.man.globalsSize + p.man.memorySize < two32)
    (entry : Option Nat) (i : Inst) (h : newInstance ps p maxMemory maxStack entry = .ok i) : i.WF ps := by
  have hstate := new_instance_state ps hps hpm p hp maxMemory maxStack hst entry i h
  unfold newInstance at h
  split at h
  · cases h
  · rename_i n hn
    simp only at h
    split at h
    · cases h
    · split at h
      · cases h
      · rename_i hus hfit
        have hal := alignPage_lt ps maxStack hps
        have hmod : alignPage ps maxStack % two32 = alignPage ps maxStack := Nat.mod_eq_of_lt (by simp only [two32]; omega)
        have hdvd := alignPage_dvd ps maxStack
        simp only [Except.ok.injEq] at h
        have hmem := congrArg State.memory hstate
        simp only [Inst.state, Prog.state] at hmem
        subst h
        refine ⟨?_, ?_, ?_, ?_, ht⟩
        · simp only [hmod]; exact hdvd
        · simp only [hmod]; omega
        · right; simp only [hmod]; simp only [stackUsageOffset] at hfit ⊢; omega
        · intro k hk
          simp only at hk
          exact (congrFun hmem k).trans (if_neg (by omega))

/-- Its stack variables are zero: it looks like it has not been started. Only if pages are small enough. -/
theorem new_instance_vars (ps : Nat) (hps : 0 < ps) (hpm : ps ≤ 8192) (p : Prog) (maxMemory : Int) (maxStack : Nat)
    (entry : Option Nat) (i : Inst) (h : newInstance ps p maxMemory maxStack entry = .ok i) :
    ∀ k, k < stackVarsSize → i.file k = 0 := by
  unfold newInstance at h
  split at h
  · cases h
  · rename_i n hn
    simp only at h
    split at h
    · cases h
    · split at h
      · cases h
      · rename_i hus hfit
        have hlt := alignPage_lt ps p.man.stackUsage hps
        have hge := alignPage_ge ps maxStack hps
        simp only [Except.ok.injEq] at h
        subst h
        intro k hk
        simp only [copyRange, stackVarsSize] at hk ⊢
        rw [if_neg ?_]; · rfl
        rintro ⟨h1, _⟩
        simp only [stackUsageOffset] at hfit
        omega

/-! ### Built programs and instances -/

theorem getD_append_right (a b : Bytes) (k : Nat) : (a ++ b).getD (a.length + k) 0 = b.getD k 0 := by
  simp [List.getD_eq_getElem?_getD, List.getElem?_append_right]

theorem mapped_stack (off : Nat) (b : Build) (k : Nat) (hk : k < b.stack.length) (ho : b.stack.length ≤ off) :
    mapped off b (off - b.stack.length + k) = b.stack.getD k 0 := by
  simp only [mapped, write]
  rw [if_neg (by omega), if_pos (by omega)]
  congr 1; omega

theorem mapped_data (off : Nat) (b : Build) (k : Nat) (ho : b.stack.length ≤ off) :
    mapped off b (off + k) = (b.globals ++ b.memory).getD k 0 := by
  simp only [mapped, write]
  by_cases h : k < (b.globals ++ b.memory).length
  · rw [if_pos (by omega)]; congr 1; omega
  · rw [if_neg (by omega), if_neg (by omega)]
    rw [List.getD_eq_getElem?_getD, List.getElem?_eq_none (by omega)]; rfl

theorem read_eq_list (f : File) (off : Nat) (l : Bytes) (h : ∀ k, k < l.length → f (off + k) = l.getD k 0) : read f off l.length = l := by
  apply List.ext_getElem
  · simp [read]
  · intro k h1 h2
    simp only [read, List.getElem_map, List.getElem_range]
    rw [h k h2]; simp [List.getD_eq_getElem?_getD, h2]

/-- What the compiler puts into the data buffer (image/build.go:171, 226-238): whole pages of globals, then memory. -/
structure Build.WF (ps : Nat) (b : Build) : Prop where
  globals : b.globals.length = alignPage ps b.globalsSize
  stack : b.stack.length ≤ 2147483648

/-- A file which holds a build's state at an offset. -/
theorem mapped_globals (ps : Nat) (hps : 0 < ps) (off : Nat) (b : Build) (hb : b.WF ps) (ho : b.stack.length ≤ off) :
    read (mapped off b) (off + alignPage ps b.globalsSize - b.globalsSize) b.globalsSize = b.state.globals := by
  have hge := alignPage_ge ps b.globalsSize hps
  have hl : b.state.globals.length = b.globalsSize := by simp only [Build.state, List.length_drop]; have := hb.globals; omega
  have h := read_eq_list (mapped off b) (off + alignPage ps b.globalsSize - b.globalsSize) b.state.globals (by
    intro k hk
    have e : off + alignPage ps b.globalsSize - b.globalsSize + k = off + (b.globals.length - b.globalsSize + k) := by
      rw [hb.globals]; omega
    rw [e, mapped_data off b _ ho]
    simp only [Build.state, List.getD_eq_getElem?_getD, List.getElem?_drop]
    rw [List.getElem?_append_left]
    rw [hl] at hk; have := hb.globals; omega)
  rw [hl] at h; exact h

theorem mapped_memory (ps : Nat) (off : Nat) (b : Build) (hb : b.WF ps) (ho : b.stack.length ≤ off) (k : Nat) :
    mapped off b (off + alignPage ps b.globalsSize + k) = b.memory.getD k 0 := by
  rw [Nat.add_assoc, mapped_data off b _ ho, ← hb.globals, getD_append_right]

theorem ite_getD (l : Bytes) (k : Nat) (v : UInt8) (h : v = l.getD k 0) (d : Decidable (k < l.length)) :
    @ite UInt8 (k < l.length) d v 0 = l.getD k 0 := by
  split
  · exact h
  · rw [List.getD_eq_getElem?_getD, List.getElem?_eq_none (by omega)]; rfl

/-- A built program has the state which was put into the build. -/
theorem build_program_state (ps : Nat) (hps : 0 < ps) (b : Build) (hb : b.WF ps) (p : Prog) (h : buildProgram b = .ok p) :
    p.state ps = b.state ∧ p.WF ps := by
  have hs := hb.stack
  have ho : b.stack.length ≤ progGlobalsOffset := by simp only [progGlobalsOffset]; omega
  unfold buildProgram at h
  split at h
  · cases h
  · simp only [Except.ok.injEq] at h
    subst h
    refine ⟨?_, hb.stack, ?_⟩
    · simp only [Prog.state, progMan]
      congr 1
      · exact read_eq_list _ _ _ (fun k hk => mapped_stack _ b k hk ho)
      · exact mapped_globals ps hps _ b hb ho
      · funext k
        exact ite_getD b.memory k _ (mapped_memory ps _ b hb ho k) _
    · intro k hk _
      simp only [progMan] at hk ⊢
      rw [mapped_memory ps _ b hb ho, List.getD_eq_getElem?_getD, List.getElem?_eq_none (by omega)]; rfl

/-- So do a program and an instance which are built at once. -/
theorem build_both_state (ps : Nat) (hps : 0 < ps) (hpm : ps ≤ 65536) (b : Build) (hb : b.WF ps) (hst : b.stackSize ≤ 2147418112) (maxMemory : Nat)
    (entry : Option Nat) (p : Prog) (i : Inst) (h : buildBoth ps b maxMemory entry = .ok (p, i)) :
    p.state ps = b.state ∧ p.WF ps ∧ i.state ps = b.state := by
  unfold buildBoth at h
  split at h
  · cases h
  · rename_i n hn
    split at h
    · cases h
    · rename_i hft
      simp only at h
      split at h
      · cases h
      · split at h
        · cases h
        · have hs := hb.stack
          have hfit : stackUsageOffset + b.stack.length ≤ b.stackSize := by
            unfold finishText at hft
            split at hft
            · cases hft
            · omega
          have hal := alignPage_lt ps b.stackSize hps
          have hge := alignPage_ge ps b.stackSize hps
          have hmod : alignPage ps b.stackSize % two32 = alignPage ps b.stackSize := Nat.mod_eq_of_lt (by simp only [two32]; omega)
          have hdvd := alignPage_dvd ps b.stackSize
          have hmg := alignPage_ge ps b.stack.length hps
          have hml := stackMap_le ps b.stack.length _ hps hdvd (by omega)
          have hmlt := alignPage_lt ps b.stack.length hps
          have hdg := alignPage_ge ps (b.globals ++ b.memory).length hps
          have hgg := alignPage_ge ps b.globalsSize hps
          have hgl := hb.globals
          have ho : b.stack.length ≤ alignPage ps b.stackSize := by omega
          simp only [Except.ok.injEq, Prod.mk.injEq] at h
          obtain ⟨rfl, rfl⟩ := h
          have hstk := fun k hk => mapped_stack (alignPage ps b.stackSize) b k hk ho
          have hglob := mapped_globals ps hps (alignPage ps b.stackSize) b hb ho
          have hmem := mapped_memory ps (alignPage ps b.stackSize) b hb ho
          have hcopy : ∀ k, b.memory.length ≤ k ∨ alignPage ps b.globalsSize + k < alignPage ps (b.globals ++ b.memory).length →
              copyRange (mapped (alignPage ps b.stackSize) b) (alignPage ps b.stackSize - alignPage ps b.stack.length) blank
                (progGlobalsOffset - alignPage ps b.stack.length) (alignPage ps b.stack.length + alignPage ps (b.globals ++ b.memory).length)
                (progGlobalsOffset + alignPage ps b.globalsSize + k) = b.memory.getD k 0 := by
            intro k hk
            simp only [copyRange]
            split
            · rename_i hin
              rw [← hmem k]
              congr 1; simp only [progGlobalsOffset]; omega
            · rename_i hout
              have : b.memory.length ≤ k := by
                rcases hk with hk | hk
                · exact hk
                · exact absurd (show _ ∧ _ by simp only [progGlobalsOffset] at hout ⊢; omega) hout
              rw [List.getD_eq_getElem?_getD, List.getElem?_eq_none (by omega)]; rfl
          refine ⟨?_, ⟨hb.stack, ?_⟩, ?_⟩
          · simp only [Prog.state, progMan]
            congr 1
            · apply read_eq_list
              intro k hk
              simp only [copyRange]
              rw [if_pos (by simp only [progGlobalsOffset]; omega), ← hstk k hk]
              congr 1; simp only [progGlobalsOffset]; omega
            · refine Eq.trans ?_ hglob
              apply read_ext
              intro k hk
              simp only [copyRange]
              rw [if_pos (by simp only [progGlobalsOffset, List.length_append] at *; omega)]
              congr 1; simp only [progGlobalsOffset]; omega
            · funext k
              by_cases hk : k < b.memory.length
              · exact ite_getD b.memory k _ (hcopy k (.inr (by simp only [List.length_append] at *; omega))) _
              · exact ite_getD b.memory k _ (hcopy k (.inl (by omega))) _
          · intro k hk _
            simp only [progMan] at hk ⊢
            rw [hcopy k (.inl hk), List.getD_eq_getElem?_getD, List.getElem?_eq_none (by omega)]; rfl
          · simp only [Inst.state, hmod]
            congr 1
            · exact read_eq_list _ _ _ hstk
            · funext k; exact hmem k

end Gate.ImageFile
