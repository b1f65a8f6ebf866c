import Verif.LoaderProps
import Verif.ImageFileMore
import Verif.Rt

namespace Gate.Loader
open Gate ImageFile Process Auth

/-! ### C143: the address space of a program -/

theorem onSpace_some (f : Space → Option Space) (s s' : St) (h : onSpace f s = some s') :
    ∃ x, f s.space = some x ∧ s' = { s with space := x } := by
  unfold onSpace at h
  cases hf : f s.space with
  | none => rw [hf] at h; cases h
  | some x => rw [hf] at h; cases h; exact ⟨x, rfl, rfl⟩

theorem mmap_some (ps addr len : Nat) (p : Prot) (off : Nat) (b : Nat → Back) (s t : Space) (h : mmap ps addr len p off b s = some t) (x : Nat) :
    t x = if addr ≤ x ∧ x < addr + alignPage ps len then some (p, b (off + (x - addr))) else s x := by
  unfold mmap at h
  split at h
  · cases h
  · cases h; rfl

theorem mprotect_some (ps addr len : Nat) (p : Prot) (s t : Space) (h : mprotect ps addr len p s = some t) (x : Nat) :
    t x = if addr ≤ x ∧ x < addr + alignPage ps len then (s x).map (fun m => (p, m.2)) else s x := by
  unfold mprotect at h
  split at h
  · cases h
  · cases h; rfl

theorem munmap_some (ps addr len : Nat) (s t : Space) (h : munmap ps addr len s = some t) (x : Nat) :
    t x = if addr ≤ x ∧ x < addr + alignPage ps len then none else s x := by
  unfold munmap at h
  split at h
  · cases h
  · cases h; rfl

/-- The heap's mapping. -/
def heapSteps (e : Env) (i : Info) : List Step :=
  if i.globalsSize + i.growMemorySize > 0 then
    [.sys .mmapHeap 30 (onSpace (mmap e.ps i.heapAddr (i.globalsSize + i.growMemorySize) noAccess i.stackSize .state))] ++
    (if i.globalsSize + i.initMemorySize > 0 then [.sys .protHeap 41 (onSpace (mprotect e.ps i.heapAddr (i.globalsSize + i.initMemorySize) rw))] else [])
  else []

theorem alignPage_0 (ps : Nat) (h : 0 < ps) : alignPage ps 0 = 0 := alignPage_zero ps h

theorem heap_done (e : Env) (i : Info) (hp : 0 < e.ps) (s s' : St) (h : exec e.fail (heapSteps e i) s = (s', none)) :
    ∃ t : Space, s' = { s with space := t } ∧ ∀ x, t x =
      if i.heapAddr ≤ x ∧ x < i.heapAddr + alignPage e.ps (i.globalsSize + i.growMemorySize) then
        if x < i.heapAddr + alignPage e.ps (i.globalsSize + i.initMemorySize) then some (rw, .state (i.stackSize + (x - i.heapAddr)))
        else some (noAccess, .state (i.stackSize + (x - i.heapAddr)))
      else if i.heapAddr ≤ x ∧ x < i.heapAddr + alignPage e.ps (i.globalsSize + i.initMemorySize) ∧ 0 < i.globalsSize + i.growMemorySize then (s.space x).map (fun m => (rw, m.2))
      else s.space x := by
  unfold heapSteps at h
  split at h
  · rename_i hg
    obtain ⟨s1, h1, h2⟩ := exec_append _ _ _ _ _ h
    obtain ⟨_, s2, h3, h4⟩ := exec_sys _ _ _ _ _ _ _ h1
    cases h4
    obtain ⟨t, ht, rfl⟩ := onSpace_some _ _ _ h3
    have ht := mmap_some _ _ _ _ _ _ _ _ ht
    split at h2
    · obtain ⟨_, s2, h5, h6⟩ := exec_sys _ _ _ _ _ _ _ h2
      cases h6
      obtain ⟨u, hu, rfl⟩ := onSpace_some _ _ _ h5
      have hu := mprotect_some _ _ _ _ _ _ hu
      refine ⟨u, rfl, fun x => ?_⟩
      rw [hu x]
      simp only [ht x]
      grind
    · rename_i hz
      have hz : i.globalsSize + i.initMemorySize = 0 := by omega
      cases h2
      refine ⟨t, rfl, fun x => ?_⟩
      rw [ht x, hz, alignPage_0 _ hp]
      grind
  · rename_i hg
    have hz : i.globalsSize + i.growMemorySize = 0 := by omega
    cases h
    refine ⟨s.space, rfl, fun x => ?_⟩
    rw [hz, alignPage_0 _ hp]
    grind

/-- What is there when everything has been set up. -/
structure Done (e : Env) (i : Info) (clock : Nat) (debug : Bool) (s0 s : St) : Prop where
  space : ∃ t1 t2 t3 t4 t5 t6 t7 : Space,
    (∀ x, t1 x = if i.textAddr - i.pageSize ≤ x ∧ x < i.textAddr - i.pageSize + alignPage e.ps i.pageSize then some (rw, .anon) else s0.space x) ∧
    (∀ x, t2 x = if i.textAddr ≤ x ∧ x < i.textAddr + alignPage e.ps i.textSize then some (rx, .text (0 + (x - i.textAddr))) else t1 x) ∧
    (∀ x, t3 x = if i.stackAddr ≤ x ∧ x < i.stackAddr + alignPage e.ps i.stackSize then some (rw, .state (0 + (x - i.stackAddr))) else t2 x) ∧
    (∀ x, t4 x = if i.heapAddr ≤ x ∧ x < i.heapAddr + alignPage e.ps (i.globalsSize + i.growMemorySize) then
        if x < i.heapAddr + alignPage e.ps (i.globalsSize + i.initMemorySize) then some (rw, .state (i.stackSize + (x - i.heapAddr)))
        else some (noAccess, .state (i.stackSize + (x - i.heapAddr)))
      else if i.heapAddr ≤ x ∧ x < i.heapAddr + alignPage e.ps (i.globalsSize + i.initMemorySize) ∧ 0 < i.globalsSize + i.growMemorySize then (t3 x).map (fun m => (rw, m.2))
      else t3 x) ∧
    (∀ x, t5 x = if i.textAddr - i.pageSize ≤ x ∧ x < i.textAddr - i.pageSize + alignPage e.ps i.pageSize then (t4 x).map (fun m => (rx, m.2)) else t4 x) ∧
    (∀ x, t6 x = if alignPage e.ps e.envp - alignPage e.ps loaderStackSize ≤ x ∧
        x < alignPage e.ps e.envp - alignPage e.ps loaderStackSize + alignPage e.ps (alignPage e.ps loaderStackSize) then none else t5 x) ∧
    (∀ x, t7 x = if loaderAddr ≤ x ∧ x < loaderAddr + alignPage e.ps 65536 then none else t6 x) ∧ s.space = t7
  vector : s.vector = vector e i clock debug
  debug : s.debug = debug
  sp : s.sp = (frame i s0).sp
  seccomp : s.seccomp = true
  handlers : s.handlers = s0.handlers ++ [.sigSegv] ++ [.sigXcpu]
  file : s.file = write (frame i { s0 with file := write s0.file 0 (vars i) }).file (scratchAt e.arch s) (e.scratch.take 32)

theorem frame_space (i : Info) (s : St) : (frame i s).space = s.space ∧ (frame i s).handlers = s.handlers := by
  unfold frame; split <;> exact ⟨rfl, rfl⟩

theorem frame_sp (i : Info) (s t : St) : (frame i s).sp = (frame i t).sp := by
  unfold frame; split <;> rfl

theorem frame_file (i : Info) (s t : St) (h : s.file = t.file) : (frame i s).file = (frame i t).file := by
  unfold frame; split <;> simp [h]

theorem exec_do (fail : Sys → Bool) (f : St → St) (k : List Step) (s : St) : exec fail (.do_ f :: k) s = exec fail k (f s) := rfl

theorem map_done (e : Env) (i : Info) (hp : 0 < e.ps) (clock : Nat) (debug : Bool) (s0 s : St) (h : exec e.fail (mapSteps e i clock debug) s0 = (s, none)) :
    Done e i clock debug s0 s := by
  obtain ⟨a1, ha, hb⟩ := exec_append _ _ _ _ _ h
  obtain ⟨a2, ha, hc⟩ := exec_append _ _ _ _ _ ha
  obtain ⟨_, b1, e1, ha⟩ := exec_sys _ _ _ _ _ _ _ ha
  obtain ⟨_, b2, e2, ha⟩ := exec_sys _ _ _ _ _ _ _ ha
  obtain ⟨_, b3, e3, ha⟩ := exec_sys _ _ _ _ _ _ _ ha
  obtain ⟨_, b4, e4, ha⟩ := exec_sys _ _ _ _ _ _ _ ha
  have hfr := congrArg Prod.fst ha
  simp only [exec] at hfr
  clear ha
  obtain ⟨t1, h1, rfl⟩ := onSpace_some _ _ _ e1
  obtain ⟨t2, h2, rfl⟩ := onSpace_some _ _ _ e2
  cases e3
  obtain ⟨t3, h3, rfl⟩ := onSpace_some _ _ _ e4
  obtain ⟨t4, rfl, h4⟩ := heap_done e i hp _ _ hc
  obtain ⟨_, c1, f1, hb⟩ := exec_sys _ _ _ _ _ _ _ hb
  cases f1
  rw [exec_do] at hb
  obtain ⟨_, c2, f2, hb⟩ := exec_sys _ _ _ _ _ _ _ hb
  obtain ⟨t5, h5, rfl⟩ := onSpace_some _ _ _ f2
  obtain ⟨_, c3, f3, hb⟩ := exec_sys _ _ _ _ _ _ _ hb
  cases f3
  obtain ⟨_, c4, f4, hb⟩ := exec_sys _ _ _ _ _ _ _ hb
  cases f4
  obtain ⟨_, c5, f5, hb⟩ := exec_sys _ _ _ _ _ _ _ hb
  obtain ⟨t6, h6, rfl⟩ := onSpace_some _ _ _ f5
  rw [exec_do] at hb
  obtain ⟨_, c6, f6, hb⟩ := exec_sys _ _ _ _ _ _ _ hb
  cases f6
  obtain ⟨_, c7, f7, hb⟩ := exec_sys _ _ _ _ _ _ _ hb
  cases f7
  obtain ⟨_, c8, f8, hb⟩ := exec_sys _ _ _ _ _ _ _ hb
  obtain ⟨t7, h7, rfl⟩ := onSpace_some _ _ _ f8
  obtain ⟨_, c9, f9, hb⟩ := exec_sys _ _ _ _ _ _ _ hb
  cases f9
  cases hb
  have hsp := frame_space i { s0 with space := t3, file := write s0.file 0 (vars i) }
  rw [hfr] at hsp
  refine ⟨⟨t1, t2, t3, t4, t5, t6, t7, mmap_some _ _ _ _ _ _ _ _ h1, mmap_some _ _ _ _ _ _ _ _ h2, mmap_some _ _ _ _ _ _ _ _ h3, ?_, mprotect_some _ _ _ _ _ _ h5,
    munmap_some _ _ _ _ _ h6, munmap_some _ _ _ _ _ h7, rfl⟩, rfl, rfl, ?_, rfl, ?_, ?_⟩
  · rw [hsp.1] at h4; exact h4
  · rw [← hfr]; exact frame_sp _ _ _
  · simp only [hsp.2]
  · simp only
    rw [← hfr]
    have := frame_file i { s0 with space := t3, file := write s0.file 0 (vars i) } { s0 with file := write s0.file 0 (vars i) } rfl
    rw [this]; rfl

/-- A process which runs the program's code. -/
theorem load_enter (e : Env) (s : St) (a : Nat) (h : load e = (s, .enter a)) :
    e.argc = 0 ∧ e.envEmpty = true ∧ e.suspended = false ∧ ∃ base clock r s1, findVdso e.auxv = some base ∧ findClock e.arch base e.vdso = some clock ∧
      receive e.msg = some r ∧ unle (member r.info 0) = magic1 ∧ unle (member r.info 17) = magic2 ∧
      exec e.fail (mapSteps e (decode r.info) clock r.debug) (initial e) = (s1, none) ∧ s = { s1 with file := write s1.file 0 (le 4 4294967295) } ∧
      a = (decode r.info).textAddr + (decode r.info).initRoutine := by
  unfold load at h
  split at h
  · cases h
  · rename_i ha
    have ha : e.argc = 0 ∧ e.envEmpty = true := by
      refine ⟨by omega, ?_⟩
      cases he : e.envEmpty
      · exact absurd (Or.inr he) ha
      · rfl
    split at h
    · cases h
    · rename_i base hv
      split at h
      · cases h
      · split at h
        · cases h
        · rename_i clock hcl
          unfold loadClock at h
          split at h
          · cases h
          · rename_i s0 hpre
            have h0 : s0 = initial e := by
              simp only [preSteps] at hpre
              obtain ⟨_, b1, e1, hpre⟩ := exec_sys _ _ _ _ _ _ _ hpre
              obtain ⟨_, b2, e2, hpre⟩ := exec_sys _ _ _ _ _ _ _ hpre
              obtain ⟨_, b3, e3, hpre⟩ := exec_sys _ _ _ _ _ _ _ hpre
              obtain ⟨_, b4, e4, hpre⟩ := exec_sys _ _ _ _ _ _ _ hpre
              cases e1; cases e2; cases e3; cases e4; cases hpre; rfl
            subst h0
            split at h
            · cases h
            · rename_i r hr
              unfold loadInfo at h
              split at h
              · cases h
              · rename_i m1
                split at h
                · cases h
                · rename_i m2
                  split at h
                  · cases h
                  · split at h
                    · cases h
                    · rename_i s1 hx
                      unfold begin_ at h
                      split at h
                      · cases h
                      · rename_i hsus
                        cases h
                        exact ⟨ha.1, ha.2, by simpa using hsus, base, clock, r, s1, hv, hcl, hr, Classical.not_not.mp m1, Classical.not_not.mp m2, hx, rfl, rfl⟩

theorem sum_aligned (ps a b : Nat) (hps : PageSize ps) (ha : a % ps = 0) (hb : b % 65536 = 0) : (a + b) % ps = 0 := by
  rcases hps.cases with rfl | rfl | rfl | rfl | rfl <;> omega

/-- The address space of a program is as intended, at every address. -/
theorem space_done (e : Env) (i : Info) (clock : Nat) (debug : Bool) (s : St) (hd : Done e i clock debug (initial e) s) (hf : Fits e i) (x : Nat) :
    s.space x = layout e i x := by
  obtain ⟨t1, t2, t3, t4, t5, t6, t7, h1, h2, h3, h4, h5, h6, h7, h8⟩ := hd.space
  have hps := hf.ps
  have hp : 0 < e.ps := by rcases hps.cases with h | h | h | h | h <;> omega
  have hp2 : e.ps ≤ 65536 := by rcases hps.cases with h | h | h | h | h <;> omega
  have a1 : alignPage e.ps e.ps = e.ps := alignPage_of_mod _ _ hp (Nat.mod_self _)
  have a2 : alignPage e.ps i.textSize = i.textSize := alignPage_of_mod _ _ hp hf.textSize.1
  have a3 : alignPage e.ps i.stackSize = i.stackSize := alignPage_of_mod _ _ hp hf.stackSize.1
  have a4 : alignPage e.ps (i.globalsSize + i.initMemorySize) = i.globalsSize + i.initMemorySize :=
    alignPage_of_mod _ _ hp (sum_aligned _ _ _ hps hf.globalsSize.1 hf.initMemorySize.1)
  have a5 := alignPage_bounds e.ps loaderStackSize hp
  have a6 : alignPage e.ps (alignPage e.ps loaderStackSize) = alignPage e.ps loaderStackSize := alignPage_of_mod _ _ hp a5.2.2
  have a7 : alignPage e.ps 65536 = 65536 := alignPage_of_mod _ _ hp (by have := sum_aligned e.ps 0 65536 hps (Nat.zero_mod _) (by omega); simpa using this)
  have a8 := alignPage_bounds e.ps e.envp hp
  have a9 := alignPage_bounds e.ps (i.globalsSize + i.growMemorySize) hp
  have a10 : alignPage e.ps (i.globalsSize + i.initMemorySize) ≤ alignPage e.ps (i.globalsSize + i.growMemorySize) :=
    alignPage_le _ _ _ hp a9.2.2 (by have := hf.initMemorySize.2; omega)
  rw [a4] at a10
  obtain ⟨_, b1, _, _, _, b2, b3, b4, b5, b6, b7, b8, b9, b10, b11, b12, b13, b14⟩ := hf
  rw [h8, h7 x, h6 x, h5 x, h4 x, h3 x, h2 x, h1 x]
  simp only [b1, a1, a2, a3, a4, a6, a7]
  have hl : loaders e x ↔ ((alignPage e.ps e.envp - alignPage e.ps 12288 ≤ x ∧ x < alignPage e.ps e.envp) ∨ (8589934592 ≤ x ∧ x < 8589934592 + 65536)) := Iff.rfl
  unfold layout
  simp only [minText, maxText, minHeap, maxHeap, minStack, maxStack, loaderAddr, loaderStackSize, initial] at *
  clear h1 h2 h3 h4 h5 h6 h7 h8 hd a1 a2 a3 a4 a6 a7 hps b13
  have o1 : i.textAddr - e.ps + e.ps = i.textAddr := by omega
  have o2 : alignPage e.ps e.envp - alignPage e.ps 12288 + alignPage e.ps 12288 = alignPage e.ps e.envp := by omega
  simp only [o1, o2, Nat.zero_add]
  clear o1 o2
  by_cases c1 : i.textAddr - e.ps ≤ x ∧ x < i.textAddr
  · rw [if_pos c1, if_neg (by omega), if_neg (by omega), if_pos c1, if_neg (by omega), if_neg (by omega), if_neg (by omega), if_neg (by omega), if_pos c1]
    rfl
  · rw [if_neg c1]
    simp only [if_neg c1]
    by_cases c2 : i.textAddr ≤ x ∧ x < i.textAddr + i.textSize
    · rw [if_pos c2, if_neg (by omega), if_neg (by omega), if_neg (by omega), if_neg (by omega), if_neg (by omega), if_pos c2]
    · rw [if_neg c2]
      simp only [if_neg c2]
      by_cases c3 : i.stackAddr ≤ x ∧ x < i.stackAddr + i.stackSize
      · rw [if_pos c3, if_neg (by omega), if_neg (by omega), if_neg (by omega), if_neg (by omega), if_pos c3]
      · rw [if_neg c3]
        simp only [if_neg c3]
        by_cases c4 : i.heapAddr ≤ x ∧ x < i.heapAddr + (i.globalsSize + i.initMemorySize)
        · rw [if_pos c4, if_neg (by omega), if_neg (by omega), if_pos (by omega), if_pos c4.2]
        · rw [if_neg c4]
          by_cases c5 : i.heapAddr ≤ x ∧ x < i.heapAddr + alignPage e.ps (i.globalsSize + i.growMemorySize)
          · rw [if_pos c5, if_neg (by omega), if_neg (by omega), if_pos c5, if_neg (by omega)]
          · rw [if_neg c5]
            simp only [if_neg c5]
            rw [if_neg (c := _ ≤ x ∧ x < _ ∧ _) (by omega)]
            by_cases c6 : 8589934592 ≤ x ∧ x < 8589934592 + 65536
            · rw [if_pos c6, if_pos (hl.mpr (Or.inr c6))]
            · rw [if_neg c6]
              by_cases c7 : alignPage e.ps e.envp - alignPage e.ps 12288 ≤ x ∧ x < alignPage e.ps e.envp
              · rw [if_pos c7, if_pos (hl.mpr (Or.inl c7))]
              · rw [if_neg c7, if_neg (fun h => (hl.mp h).elim c7 c6)]

/-- The address space of a process which runs a program's code: at every address it's what is intended. -/
theorem program_space (e : Env) (s : St) (a : Nat) (h : load e = (s, .enter a)) :
    ∃ r, receive e.msg = some r ∧ (Fits e (decode r.info) → ∀ x, s.space x = layout e (decode r.info) x) := by
  obtain ⟨_, _, _, base, clock, r, s1, _, _, hr, _, _, hx, rfl, rfl⟩ := load_enter e s a h
  refine ⟨r, hr, fun hf x => ?_⟩
  have hp : 0 < e.ps := by rcases hf.ps.cases with h | h | h | h | h <;> omega
  exact space_done e _ clock r.debug s1 (map_done e _ hp clock r.debug _ s1 hx) hf x

/-- What the kernel has mapped, other than the loader's stack and image: the vDSO and its data, which can't be written. -/
def KernelMappings (e : Env) : Prop := ∀ x p b, e.space0 x = some (p, b) → ¬ loaders e x → p.w = false ∧ b = .other

/-- Nothing is both writable and executable. What is executable: the runtime, the program's text, and what the kernel maps (vDSO). -/
theorem write_xor_execute (e : Env) (s : St) (a : Nat) (h : load e = (s, .enter a)) (r : Received) (hr : receive e.msg = some r)
    (hf : Fits e (decode r.info)) (hk : KernelMappings e) (x : Nat) (p : Prot) (b : Back) (hx : s.space x = some (p, b)) :
    ¬ (p.w = true ∧ p.x = true) ∧
    (p.x = true → (decode r.info).textAddr - e.ps ≤ x ∧ x < (decode r.info).textAddr + (decode r.info).textSize ∨ b = .other) := by
  obtain ⟨r', hr', hl⟩ := program_space e s a h
  rw [hr] at hr'; cases hr'
  rw [hl hf x] at hx
  clear hl
  have hk := hk x p b
  unfold layout at hx
  repeat' split at hx
  all_goals first
    | (cases hx; done)
    | (cases hx; refine ⟨by decide, fun h => ?_⟩; first | (exact Or.inl (by omega)) | cases h)
    | (have := hk hx (by assumption); exact ⟨fun h => (by rw [this.1] at h; cases h.1), fun _ => Or.inr this.2⟩)

/-- Where a byte of the state file is. -/
def stateAddr (i : Info) (off : Nat) : Nat := if off < i.stackSize then i.stackAddr + off else i.heapAddr + (off - i.stackSize)

/-- Writable memory is exactly the instance's state: every writable byte is one of the state file, before the end of the linear memory; and each one
of those is mapped at just one address. -/
theorem writable_is_state (e : Env) (s : St) (a : Nat) (h : load e = (s, .enter a)) (r : Received) (hr : receive e.msg = some r)
    (hf : Fits e (decode r.info)) (hk : KernelMappings e) (x off : Nat) (p : Prot) (b : Back) :
    (s.space x = some (p, b) → p.w = true → ∃ o, b = .state o ∧ o < (decode r.info).stackSize + (decode r.info).globalsSize + (decode r.info).initMemorySize ∧
      x = stateAddr (decode r.info) o) ∧
    (off < (decode r.info).stackSize + (decode r.info).globalsSize + (decode r.info).initMemorySize →
      s.space (stateAddr (decode r.info) off) = some (rw, .state off)) := by
  obtain ⟨r', hr', hl⟩ := program_space e s a h
  rw [hr] at hr'; cases hr'
  have hl := hl hf
  generalize decode r.info = i at *
  constructor
  · intro hx hw
    rw [hl x] at hx
    have hk := hk x p b
    unfold layout at hx
    unfold stateAddr
    repeat' split at hx
    all_goals first
      | (cases hx; done)
      | (cases hx; cases hw; done)
      | (cases hx; refine ⟨_, rfl, by omega, ?_⟩; split <;> omega)
      | (have := hk hx (by assumption); rw [this.1] at hw; cases hw)
  · intro ho
    rw [hl]
    obtain ⟨_, _, _, _, _, b2, b3, b4, b5, b6, b7, b8, b9, b10, b11, b12, _, _⟩ := hf
    simp only [minText, maxText, minHeap, maxHeap, minStack, maxStack] at *
    clear hl hk h hr
    unfold layout stateAddr
    by_cases c : off < i.stackSize
    · rw [if_pos c, if_neg (by omega), if_neg (by omega), if_pos (by omega)]
      simp
    · rw [if_neg c, if_neg (by omega), if_neg (by omega), if_neg (by omega), if_pos (by omega)]
      simp only [Option.some.injEq, Prod.mk.injEq, true_and, Back.state.injEq]
      omega

/-- Whether an access of the address doesn't fault. -/
def accessible (s : Space) (x : Nat) : Prop := ∃ p b, s x = some (p, b) ∧ (p.r = true ∨ p.w = true ∨ p.x = true)

/-- The range of a memory access: a 32-bit index with a constant offset of 31 bits (x86_64/loader.h:5-7). -/
abbrev accessRange : Nat := 0x180000000

/-- Whatever the index and offset of a memory access of the program's are, it reaches the linear memory or nothing. -/
theorem memory_confined (e : Env) (s : St) (a : Nat) (h : load e = (s, .enter a)) (r : Received) (hr : receive e.msg = some r)
    (hf : Fits e (decode r.info)) (d : Nat) (hd : d < accessRange) :
    ∃ m, s.vector 4 = some m ∧ (accessible s.space (m + d) ↔ d < (decode r.info).initMemorySize) := by
  obtain ⟨r', hr', hl⟩ := program_space e s a h
  rw [hr] at hr'; cases hr'
  have hl := hl hf
  obtain ⟨_, _, _, base, clock, r', s1, _, _, hr', _, _, hx, rfl, rfl⟩ := load_enter e s a h
  rw [hr] at hr'; cases hr'
  have hp : 0 < e.ps := by rcases hf.ps.cases with h | h | h | h | h <;> omega
  have hv := (map_done e _ hp clock r.debug _ s1 hx).vector
  have hps : e.ps ≤ 65536 := by rcases hf.ps.cases with h | h | h | h | h <;> omega
  generalize decode r.info = i at *
  refine ⟨i.heapAddr + i.globalsSize, by simp only [hv]; rfl, ?_⟩
  unfold accessible
  rw [hl]
  obtain ⟨_, _, _, _, _, b2, b3, b4, b5, b6, b7, b8, b9, b10, b11, b12, b13, b14⟩ := hf
  simp only [minText, maxText, minHeap, maxHeap, minStack, maxStack, accessRange] at *
  clear hl h hr hx
  unfold layout
  by_cases c : d < i.initMemorySize
  · rw [if_neg (by omega), if_neg (by omega), if_neg (by omega), if_pos (by omega)]
    exact ⟨fun _ => c, fun _ => ⟨_, _, rfl, Or.inl rfl⟩⟩
  · rw [if_neg (by omega), if_neg (by omega), if_neg (by omega), if_neg (by omega)]
    refine ⟨?_, fun h => absurd h c⟩
    rintro ⟨p, b, hp, h2⟩
    split at hp
    · cases hp
      rcases h2 with h | h | h <;> cases h
    · split at hp
      · cases hp
      · rw [b13 _ (by omega) (by omega)] at hp; cases hp

/-- The runtime's view of the memory (Rt.lean) is what the loader has made. -/
theorem runtime_view (e : Env) (s : St) (a : Nat) (h : load e = (s, .enter a)) (r : Received) (hr : receive e.msg = some r)
    (hf : Fits e (decode r.info)) (space : File) (kern : List Rt.Resp) (d : Nat)
    (hd : d < (decode r.info).globalsSize + (decode r.info).growMemorySize) :
    let i := decode r.info
    let rt := Rt.load ⟨i.heapAddr, i.globalsSize, i.initMemorySize, i.growMemorySize, i.random⟩ space (fun _ => false) kern
    s.vector 4 = some rt.base ∧ s.vector 5 = some rt.limit ∧ (rt.acc (i.heapAddr + d) = true ↔ accessible s.space (i.heapAddr + d)) := by
  obtain ⟨r', hr', hl⟩ := program_space e s a h
  rw [hr] at hr'; cases hr'
  have hl := hl hf
  obtain ⟨_, _, _, base, clock, r', s1, _, _, hr', _, _, hx, rfl, rfl⟩ := load_enter e s a h
  rw [hr] at hr'; cases hr'
  have hp : 0 < e.ps := by rcases hf.ps.cases with h | h | h | h | h <;> omega
  have hv := (map_done e _ hp clock r.debug _ s1 hx).vector
  have hps : e.ps ≤ 65536 := by rcases hf.ps.cases with h | h | h | h | h <;> omega
  have hal := (alignPage_bounds e.ps ((decode r.info).globalsSize + (decode r.info).growMemorySize) hp).1
  generalize decode r.info = i at *
  refine ⟨by simp only [hv]; rfl, by simp only [hv]; rfl, ?_⟩
  unfold accessible
  rw [hl]
  obtain ⟨_, _, _, _, _, b2, b3, b4, b5, b6, b7, b8, b9, b10, b11, b12, b13, b14⟩ := hf
  simp only [minText, maxText, minHeap, maxHeap, minStack, maxStack] at *
  clear hl h hr hx b13
  unfold layout Rt.load
  simp only
  rw [if_pos (by omega), decide_eq_true_iff]
  by_cases c : d < i.globalsSize + i.initMemorySize
  · rw [if_neg (by omega), if_neg (by omega), if_neg (by omega), if_pos (by omega)]
    exact ⟨fun _ => ⟨_, _, rfl, Or.inl rfl⟩, fun _ => by omega⟩
  · rw [if_neg (by omega), if_neg (by omega), if_neg (by omega), if_neg (by omega), if_pos (by omega)]
    refine ⟨fun h => by omega, ?_⟩
    rintro ⟨p, b, hp, h2⟩
    cases hp
    rcases h2 with h | h | h <;> cases h

/-! ### C144: what the runtime sends is what the program gets -/

/-- A program and its state, as they are when a process is started: image/program.go:29-30, image/instance.go:206-211. -/
structure Prog.Ok (ps : Nat) (p : Prog) : Prop where
  textSize : p.textSize % ps = 0 ∧ 0 < p.textSize ∧ p.textSize < 2 ^ 32
  stackSize : p.stackSize % ps = 0 ∧ 0 < p.stackSize ∧ p.stackSize < 2 ^ 32
  stackUsage : p.stackUsage ≤ p.stackSize
  globalsSize : p.globalsSize % ps = 0 ∧ p.globalsSize < 2 ^ 31
  memorySize : p.memorySize % 65536 = 0 ∧ p.memorySize ≤ p.maxMemorySize
  maxMemorySize : p.maxMemorySize < 2 ^ 32
  startAddr : p.startAddr < 2 ^ 32
  entryAddr : p.entryAddr < 2 ^ 32
  time : p.time < 2 ^ 64

theorem u32_of_lt (n : Nat) (h : n < 2 ^ 32) : u32 n = n := Nat.mod_eq_of_lt h

theorem two_pow_le (bits : Nat) (h : bits ≤ 32) : 2 ^ bits ≤ 4294967296 := by
  have := Nat.pow_le_pow_right (n := 2) (by omega) h
  simpa using this

/-- Every field survives the conversions of runtime/process.go:176-204. -/
theorem startInfo_exact (ps t h k : Nat) (hps : PageSize ps) (rnd : Bytes) (bits : Nat) (p : Prog) (hp : p.Ok ps) :
    startInfo ps t h k rnd bits p =
      ⟨ps, t, k, h, rnd, p.textSize, p.stackSize, p.stackSize - p.stackUsage, p.globalsSize, p.memorySize, p.maxMemorySize,
       if p.stackUsage = 0 then textAddrEnter else textAddrResume, p.startAddr, p.entryAddr, 4294967296 - 2 ^ bits, p.time⟩ := by
  have e1 : ps < 2 ^ 32 := by rcases hps.cases with h | h | h | h | h <;> omega
  have e2 := hp.memorySize.2
  have e3 := hp.maxMemorySize
  have e4 := hp.stackSize.2.2
  have e5 := hp.globalsSize.2
  have e6 := hp.stackUsage
  unfold startInfo
  rw [u32_of_lt _ e1, u32_of_lt _ hp.textSize.2.2, u32_of_lt _ e4, u32_of_lt (p.stackSize - p.stackUsage) (by omega), u32_of_lt p.globalsSize (by omega),
    u32_of_lt p.memorySize (by omega), u32_of_lt _ e3]
  congr 1
  by_cases c : p.stackUsage = 0
  · rw [if_pos (by omega), if_pos c]
  · have := hp.stackSize.2.1
    rw [if_neg (by omega), if_neg c]

theorem startInfo_wf (ps t h k : Nat) (hps : PageSize ps) (rnd : Bytes) (hr : rnd.length = 16) (bits : Nat) (p : Prog) (hp : p.Ok ps)
    (ht : t < 2 ^ 47) (hh : h < 2 ^ 47) (hk : k < 2 ^ 47) : (startInfo ps t h k rnd bits p).Wf := by
  have e1 : ps < 2 ^ 32 := by rcases hps.cases with h | h | h | h | h <;> omega
  rw [startInfo_exact ps t h k hps rnd bits p hp]
  have e2 := hp.memorySize.2
  have e3 := hp.maxMemorySize
  have e4 := hp.stackSize.2.2
  have e5 := hp.globalsSize.2
  have e6 := hp.stackUsage
  have e7 := hp.textSize.2.2
  have e8 : 0 < 2 ^ bits := Nat.pow_pos (by omega)
  have e9 := hp.time
  have e10 := hp.startAddr
  have e11 := hp.entryAddr
  exact ⟨e1, by simp only; omega, by simp only; omega, by simp only; omega, hr, e7, e4, by simp only; omega, by simp only; omega, by simp only; omega, e3,
    by simp only [textAddrEnter, textAddrResume]; split <;> omega, e10, e11, by simp only; omega, e9⟩

/-- No system call fails, and the loader is started as it should be. -/
structure Works (e : Env) : Prop where
  fail : ∀ c, e.fail c = false
  argc : e.argc = 0
  env : e.envEmpty = true
  vdso : ∃ base, findVdso e.auxv = some base ∧ ∃ syms v, (true, syms) ∈ e.vdso ∧ (clockName e.arch, v) ∈ syms

theorem exec_ok_sys (fail : Sys → Bool) (c : Sys) (code : Nat) (f : St → Option St) (k : List Step) (s s1 : St) (h : fail c = false) (hs : f s = some s1) :
    exec fail (.sys c code f :: k) s = exec fail k s1 := by
  simp only [exec, h, hs, Bool.false_eq_true, if_false]

theorem exec_ok_plain (fail : Sys → Bool) (c : Sys) (code : Nat) (k : List Step) (s : St) (h : fail c = false) :
    exec fail (.sys c code plain :: k) s = exec fail k s := exec_ok_sys _ _ _ _ _ _ _ h rfl

theorem exec_ok_pure (fail : Sys → Bool) (c : Sys) (code : Nat) (g : St → St) (k : List Step) (s : St) (h : fail c = false) :
    exec fail (.sys c code (fun s => some (g s)) :: k) s = exec fail k (g s) := exec_ok_sys _ _ _ _ _ _ _ h rfl

theorem exec_ok_append (fail : Sys → Bool) : ∀ (l k : List Step) (s s' : St), exec fail l s = (s', none) → exec fail (l ++ k) s = exec fail k s'
  | [], k, s, s', h => by cases h; rfl
  | .do_ f :: l, k, s, s', h => exec_ok_append fail l k (f s) s' h
  | .sys c code f :: l, k, s, s', h => by
    obtain ⟨hf, s1, hs, h⟩ := exec_sys _ _ _ _ _ _ _ h
    rw [List.cons_append, exec_ok_sys _ _ _ _ _ _ _ hf hs]
    exact exec_ok_append fail l k s1 s' h

theorem mmap_ok (ps addr len : Nat) (p : Prot) (off : Nat) (b : Nat → Back) (s : St) (h : len ≠ 0) (ha : addr % ps = 0) (ho : off % ps = 0) :
    ∃ s1, onSpace (mmap ps addr len p off b) s = some s1 := by
  unfold onSpace mmap
  rw [if_neg (by omega)]
  exact ⟨_, rfl⟩

theorem mprotect_ok (ps addr len : Nat) (p : Prot) (s : St) (ha : addr % ps = 0) : ∃ s1, onSpace (mprotect ps addr len p) s = some s1 := by
  unfold onSpace mprotect
  rw [if_neg (by omega)]
  exact ⟨_, rfl⟩

theorem munmap_ok (ps addr len : Nat) (s : St) (h : len ≠ 0) (ha : addr % ps = 0) : ∃ s1, onSpace (munmap ps addr len) s = some s1 := by
  unfold onSpace munmap
  rw [if_neg (by omega)]
  exact ⟨_, rfl⟩

theorem sub_mod (a b n : Nat) (ha : a % n = 0) (hb : b % n = 0) : (a - b) % n = 0 := by
  obtain ⟨x, rfl⟩ := Nat.dvd_of_mod_eq_zero ha
  obtain ⟨y, rfl⟩ := Nat.dvd_of_mod_eq_zero hb
  rw [← Nat.mul_sub]
  exact Nat.mul_mod_right _ _

theorem map_ok (e : Env) (i : Info) (clock : Nat) (debug : Bool) (s0 : St) (hw : ∀ c, e.fail c = false) (hf : Fits e i) :
    ∃ s, exec e.fail (mapSteps e i clock debug) s0 = (s, none) := by
  have hp : 0 < e.ps := by rcases hf.ps.cases with h | h | h | h | h <;> omega
  have hps := hf.pageSize
  have hla : loaderAddr % e.ps = 0 := by rcases hf.ps.cases with h | h | h | h | h <;> (rw [h]; rfl)
  have hl := alignPage_bounds e.ps loaderStackSize hp
  have hv := alignPage_bounds e.ps e.envp hp
  have hta : (i.textAddr - i.pageSize) % e.ps = 0 := by rw [hps]; exact sub_mod _ _ _ hf.textAligned (Nat.mod_self _)
  have h3 : ∃ s3, exec e.fail
    [.sys .mmapRuntime 26 (onSpace (mmap e.ps (i.textAddr - i.pageSize) i.pageSize rw 0 (fun _ => .anon))),
     .sys .mmapText 28 (onSpace (mmap e.ps i.textAddr i.textSize rx 0 .text)),
     .sys .closeText 42 plain,
     .sys .mmapStack 29 (onSpace (mmap e.ps i.stackAddr i.stackSize rw 0 .state)),
     .do_ fun s => { s with file := write s.file 0 (vars i) },
     .do_ (frame i)] s0 = (s3, none) := by
    obtain ⟨s1, h1⟩ := mmap_ok e.ps (i.textAddr - i.pageSize) i.pageSize rw 0 (fun _ => .anon) s0 (by omega) hta (Nat.zero_mod _)
    rw [exec_ok_sys _ _ _ _ _ _ _ (hw _) h1]
    obtain ⟨s2, h2⟩ := mmap_ok e.ps i.textAddr i.textSize rx 0 .text s1 (by have := hf.textSize.2.1; omega) hf.textAligned (Nat.zero_mod _)
    rw [exec_ok_sys _ _ _ _ _ _ _ (hw _) h2, exec_ok_plain _ _ _ _ _ (hw _)]
    obtain ⟨s3, h3⟩ := mmap_ok e.ps i.stackAddr i.stackSize rw 0 .state s2 (by have := hf.stackSize.2.1; omega) hf.stackAligned (Nat.zero_mod _)
    rw [exec_ok_sys _ _ _ _ _ _ _ (hw _) h3]
    exact ⟨_, rfl⟩
  obtain ⟨s3, h3⟩ := h3
  have h4 : ∃ s4, exec e.fail (heapSteps e i) s3 = (s4, none) := by
    unfold heapSteps
    split
    · rename_i c
      obtain ⟨s1, h1⟩ := mmap_ok e.ps i.heapAddr (i.globalsSize + i.growMemorySize) noAccess i.stackSize .state s3 (by omega) hf.heapAligned hf.stackSize.1
      rw [List.singleton_append, exec_ok_sys _ _ _ _ _ _ _ (hw _) h1]
      split
      · obtain ⟨s2, h2⟩ := mprotect_ok e.ps i.heapAddr (i.globalsSize + i.initMemorySize) rw s1 hf.heapAligned
        rw [exec_ok_sys _ _ _ _ _ _ _ (hw _) h2]
        exact ⟨_, rfl⟩
      · exact ⟨_, rfl⟩
    · exact ⟨_, rfl⟩
  obtain ⟨s4, h4⟩ := h4
  have h34 := exec_ok_append e.fail _ (heapSteps e i) s0 s3 h3
  rw [h4] at h34
  refine Exists.imp (fun s h => (exec_ok_append e.fail _ _ s0 s4 h34).trans h) ?_
  rw [exec_ok_plain _ _ _ _ _ (hw _), exec_do]
  obtain ⟨s5, h5⟩ := mprotect_ok e.ps (i.textAddr - i.pageSize) i.pageSize rx { s4 with vector := vector e i clock debug, debug := debug } hta
  rw [exec_ok_sys _ _ _ _ _ _ _ (hw _) h5, exec_ok_plain _ _ _ _ _ (hw _), exec_ok_plain _ _ _ _ _ (hw _)]
  obtain ⟨s6, h6⟩ := munmap_ok e.ps (alignPage e.ps e.envp - alignPage e.ps loaderStackSize) (alignPage e.ps loaderStackSize) s5
    (by have := hl.1; simp only [loaderStackSize] at this; simp only [loaderStackSize]; omega) (sub_mod _ _ _ hv.2.2 hl.2.2)
  rw [exec_ok_sys _ _ _ _ _ _ _ (hw _) h6, exec_do, exec_ok_pure _ _ _ _ _ _ (hw _), exec_ok_pure _ _ _ _ _ _ (hw _)]
  obtain ⟨s7, h7⟩ := munmap_ok e.ps loaderAddr 65536 { s6 with file := write s6.file (scratchAt e.arch s6) (e.scratch.take 32), handlers := s6.handlers ++ [.sigSegv] ++ [.sigXcpu] } (by decide) hla
  rw [exec_ok_sys _ _ _ _ _ _ _ (hw _) h7, exec_ok_pure _ _ _ _ _ _ (hw _)]
  exact ⟨_, rfl⟩

/-- A circumstance which doesn't depend on the process: where nothing is mapped at first, and where the loader's stack is. -/
structure Place (e : Env) : Prop where
  ps : PageSize e.ps
  free : ∀ x, minText - e.ps ≤ x → x < maxStack + 2 ^ 32 → e.space0 x = none
  envp : maxStack + 2 ^ 32 + 65536 + 65536 ≤ e.envp ∧ e.envp < 2 ^ 47

/-- From Start to the program's first instruction: for all randomness, program and state, the process has the program's code at the address which was
drawn, and starts at the routine which the stack calls for; its memory is as intended; its vector has the memory's address and limit, the random data
and the time base; both signals have handlers; and system calls are filtered. -/
theorem start_to_program (ps : Nat) (hps : PageSize ps) (nd : Bool) (rnd : Bytes) (hb : rnd.length = randLen 0 nd) (p : Prog) (hp : p.Ok ps) (bits : Nat)
    (debug : Bool) (e : Env) (hw : Works e) (hpl : Place e) (heq : e.ps = ps) :
    ∃ t h k d, getRand ps 0 nd rnd = .ok (t, h, k, d) ∧
      (e.msg = sent (startInfo ps t h k d bits p) debug → e.suspended = false →
        ∃ s clock, findClock e.arch ((findVdso e.auxv).getD 0) e.vdso = some clock ∧
          load e = (s, .enter (t + if p.stackUsage = 0 then textAddrEnter else textAddrResume)) ∧
          (∀ x, s.space x = layout e ⟨ps, t, k, h, d, p.textSize, p.stackSize, p.stackSize - p.stackUsage, p.globalsSize, p.memorySize, p.maxMemorySize,
            if p.stackUsage = 0 then textAddrEnter else textAddrResume, p.startAddr, p.entryAddr, 4294967296 - 2 ^ bits, p.time⟩ x) ∧
          s.vector 11 = some clock ∧ s.vector 9 = some (4294967296 - 2 ^ bits) ∧
          s.vector 10 = some (e.sec * 1000000000 + (e.nsec &&& (4294967296 - 2 ^ bits))) ∧
          s.vector 8 = some (unle (d.take 8)) ∧ s.vector 7 = some (unle (d.drop 8)) ∧ s.vector 5 = some (p.maxMemorySize / 65536) ∧
          s.vector 4 = some (h + p.globalsSize) ∧ s.vector 16 = some (t - ps + e.func (if debug then .debug else .nop)) ∧
          s.seccomp = true ∧ s.handlers = [.sigSegv, .sigXcpu]) := by
  obtain ⟨t, h, k, d, hg, ht, hh, hk, t1, t2, h1, h2, k1, k2, _, _, _, hd, _⟩ := addresses_valid ps hps nd rnd hb
  refine ⟨t, h, k, d, hg, fun hm hsus => ?_⟩
  have t2' : t < 2 ^ 47 := by simp only [maxText] at t2; omega
  have h2' : h < 2 ^ 47 := by simp only [maxHeap] at h2; omega
  have k2' : k < 2 ^ 47 := by simp only [maxStack] at k2; omega
  have hwf := startInfo_wf ps t h k hps d hd bits p hp t2' h2' k2'
  have hx := startInfo_exact ps t h k hps d bits p hp
  have hrec := receive_sent _ hwf debug
  obtain ⟨hdec, _, m1, m2⟩ := decode_encode _ hwf
  rw [hx] at hdec hrec m1 m2 hm
  generalize hi : (⟨ps, t, k, h, d, p.textSize, p.stackSize, p.stackSize - p.stackUsage, p.globalsSize, p.memorySize, p.maxMemorySize,
            if p.stackUsage = 0 then textAddrEnter else textAddrResume, p.startAddr, p.entryAddr, 4294967296 - 2 ^ bits, p.time⟩ : Info) = i at *
  have hfits : Fits e i := by
    subst heq
    subst hi
    exact ⟨hpl.ps, rfl, ht, hk, hh, t1, t2, h1, h2, k1, k2, hp.textSize, hp.stackSize, hp.globalsSize, hp.memorySize, hp.maxMemorySize, hpl.free, hpl.envp⟩
  obtain ⟨base, hbase, syms, v, hs1, hs2⟩ := hw.vdso
  obtain ⟨clock, hcl⟩ := (findClock_spec e.arch base e.vdso).2 syms v hs1 hs2
  obtain ⟨s1, hs⟩ := map_ok e i clock debug (initial e) hw.fail hfits
  have hp0 : 0 < e.ps := by rcases hfits.ps.cases with h | h | h | h | h <;> omega
  have hdone := map_done e i hp0 clock debug _ s1 hs
  refine ⟨{ s1 with file := write s1.file 0 (le 4 4294967295) }, clock, by rw [hbase]; exact hcl, ?_, space_done e i clock debug s1 hdone hfits, ?_⟩
  · unfold load
    rw [if_neg (by rw [hw.argc, hw.env]; simp)]
    simp only [hbase, hw.fail, hcl, Bool.false_eq_true, if_false]
    unfold loadClock
    have hpre : exec e.fail preSteps (initial e) = (initial e, none) := by
      simp only [preSteps, exec, hw.fail, plain, Bool.false_eq_true, if_false]
    rw [hpre]
    simp only [hm, hrec]
    unfold loadInfo
    simp only [hdec]
    rw [if_neg (by rw [m1]; simp), if_neg (by rw [m2]; simp), hw.fail]
    simp only [Bool.false_eq_true, if_false, hs]
    unfold begin_
    rw [hsus]
    simp only [Bool.false_eq_true, if_false]
    subst hi
    rfl
  · subst hi
    simp only [hdone.vector]
    exact ⟨rfl, rfl, rfl, rfl, rfl, rfl, rfl, rfl, hdone.seccomp, hdone.handlers⟩

end Gate.Loader
