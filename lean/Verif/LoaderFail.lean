import Verif.LoaderThms

namespace Gate.Loader
open Gate ImageFile Process Auth

/-! ### C145: the instance's state when its process ends while it's loaded -/

/-- The stack is large enough for the runtime's own parts (image/instance.go:90-92). -/
structure Info.StackOk (i : Info) : Prop where
  min : stackUsageOffset ≤ i.stackUnused
  max : i.stackUnused ≤ i.stackSize

/-- Nothing of the instance's state is lost: what there was of the stack which was in use, of globals and of memory is there; the variables at the stack's
beginning say that nothing has been run, or they are what they were. -/
structure Kept (i : Info) (f0 f : File) : Prop where
  data : ∀ off, i.stackUnused ≤ off → f off = f0 off
  vars : f = f0 ∨ ImageFile.read f 0 4 = [0, 0, 0, 0]

theorem Kept.refl (i : Info) (f : File) : Kept i f f := ⟨fun _ _ => rfl, Or.inl rfl⟩

theorem write_other (f : File) (off : Nat) (b : Bytes) (x : Nat) (h : x < off ∨ off + b.length ≤ x) : write f off b x = f x := by
  unfold write; rw [if_neg (by omega)]

theorem write_in (f : File) (off : Nat) (b : Bytes) (x : Nat) (h : off ≤ x ∧ x < off + b.length) : write f off b x = b.getD (x - off) 0 := by
  unfold write; rw [if_pos h]

theorem vars_length (i : Info) : (vars i).length = 64 := by
  simp only [vars, List.length_append, length_le]

theorem zeros_of (f g : File) (h : ∀ x, x < 4 → f x = g x) (hg : ImageFile.read g 0 4 = [0, 0, 0, 0]) : ImageFile.read f 0 4 = [0, 0, 0, 0] := by
  rw [← hg]
  exact read_ext f g 0 0 4 (fun k hk => by rw [Nat.zero_add]; exact h k hk)

theorem read_prefix (f : File) (a b : Bytes) : ImageFile.read (write f 0 (a ++ b)) 0 a.length = a := by
  apply List.ext_getElem
  · simp [ImageFile.read]
  · intro k h1 h2
    simp only [ImageFile.read, List.getElem_map, List.getElem_range, Nat.zero_add]
    rw [write_in _ _ _ _ (by simp only [List.length_append]; omega), Nat.sub_zero]
    simp [List.getElem?_append_left, h2]

theorem vars_zero (i : Info) (f : File) : ImageFile.read (write f 0 (vars i)) 0 4 = [0, 0, 0, 0] := by
  have : vars i = le 4 0 ++ (le 4 (i.initMemorySize / 65536) ++ (le 8 i.monotonicTime ++ (le 4 16 ++ (le 4 0 ++ (le 8 i.textAddr ++ (le 8 stackMagic ++ (le 8 stackMagic ++
      (le 8 stackMagic ++ le 8 stackMagic)))))))) := by simp only [vars, List.append_assoc]
  rw [this]
  exact read_prefix f (le 4 0) _

theorem Kept.vars_ (i : Info) (hi : i.StackOk) (f0 f : File) (h : Kept i f0 f) : Kept i f0 (write f 0 (Loader.vars i)) :=
  ⟨fun off ho => by
    have h1 := hi.min
    simp only [stackUsageOffset] at h1
    rw [write_other _ _ _ _ (Or.inr (by rw [vars_length]; omega))]; exact h.data off ho, Or.inr (vars_zero i f)⟩

/-- A write between the variables and what is in use. -/
theorem Kept.between (i : Info) (f0 f : File) (h : Kept i f0 f) (hz : ImageFile.read f 0 4 = [0, 0, 0, 0]) (off : Nat) (b : Bytes) (h1 : 4 ≤ off) (h2 : off + b.length ≤ i.stackUnused) :
    Kept i f0 (write f off b) ∧ ImageFile.read (write f off b) 0 4 = [0, 0, 0, 0] := by
  have : ImageFile.read (write f off b) 0 4 = [0, 0, 0, 0] := zeros_of _ f (fun x hx => write_other _ _ _ _ (Or.inl (by omega))) hz
  exact ⟨⟨fun x hx => by rw [write_other _ _ _ _ (Or.inr (by omega))]; exact h.data x hx, Or.inr this⟩, this⟩

/-- A property which steps maintain. -/
theorem exec_inv (fail : Sys → Bool) (P : St → Prop) : ∀ (l : List Step)
    (_ : ∀ c code f, .sys c code f ∈ l → ∀ s s', P s → f s = some s' → P s') (_ : ∀ f, .do_ f ∈ l → ∀ s, P s → P (f s)) (s : St), P s →
    P (exec fail l s).1
  | [], _, _, s, h => h
  | .do_ f :: l, h1, h2, s, h => exec_inv fail P l (fun c code g hg => h1 c code g (List.mem_cons_of_mem _ hg)) (fun g hg => h2 g (List.mem_cons_of_mem _ hg)) (f s)
      (h2 f List.mem_cons_self s h)
  | .sys c code f :: l, h1, h2, s, h => by
    simp only [exec]
    split
    · exact h
    · cases hf : f s with
      | none => exact h
      | some s' =>
        exact exec_inv fail P l (fun c code g hg => h1 c code g (List.mem_cons_of_mem _ hg)) (fun g hg => h2 g (List.mem_cons_of_mem _ hg)) s'
          (h1 c code f List.mem_cons_self s s' h hf)

theorem exec_append_any (fail : Sys → Bool) : ∀ (l k : List Step) (s : St), exec fail (l ++ k) s =
    match (exec fail l s).2 with | some _ => exec fail l s | none => exec fail k (exec fail l s).1
  | [], k, s => rfl
  | .do_ f :: l, k, s => exec_append_any fail l k (f s)
  | .sys c code f :: l, k, s => by
    simp only [List.cons_append, exec]
    split
    · rfl
    · cases hf : f s with
      | none => rfl
      | some s' => exact exec_append_any fail l k s'

/-- Splitting of an invariant at a point. -/
theorem exec_inv_append (fail : Sys → Bool) (l k : List Step) (s : St) (P : St → Prop) (h1 : P (exec fail l s).1)
    (h2 : (exec fail l s).2 = none → P (exec fail k (exec fail l s).1).1) : P (exec fail (l ++ k) s).1 := by
  rw [exec_append_any]
  cases h : (exec fail l s).2 with
  | some c => exact h1
  | none => exact h2 h

theorem onSpace_file (f : Space → Option Space) (s s' : St) (h : onSpace f s = some s') : s'.file = s.file ∧ s'.sp = s.sp := by
  obtain ⟨x, _, rfl⟩ := onSpace_some f s s' h
  exact ⟨rfl, rfl⟩

/-- The stack pointer and the file, when the frame has been made. -/
structure Framed (i : Info) (f0 : File) (s : St) : Prop where
  kept : Kept i f0 s.file
  zero : ImageFile.read s.file 0 4 = [0, 0, 0, 0]
  sp : 64 + 32 ≤ s.sp ∧ s.sp ≤ i.stackUnused

theorem framed (i : Info) (hi : i.StackOk) (f0 : File) (s : St) (hk : Kept i f0 s.file) (hz : ImageFile.read s.file 0 4 = [0, 0, 0, 0]) : Framed i f0 (frame i s) := by
  have h1 := hi.min
  have h2 := hi.max
  simp only [stackUsageOffset] at h1
  unfold frame
  split
  · rename_i hs
    obtain ⟨k1, z1⟩ := hk.between i f0 s.file hz (i.stackSize - 8) (le 8 i.entryAddr) (by omega) (by rw [length_le]; omega)
    obtain ⟨k2, z2⟩ := k1.between i f0 _ z1 (i.stackSize - 16) (le 8 i.startAddr) (by omega) (by rw [length_le]; omega)
    exact ⟨k2, z2, by simp only; omega⟩
  · exact ⟨hk, hz, by simp only; omega⟩

theorem scratch_framed (e : Env) (i : Info) (hi : i.StackOk) (f0 : File) (s : St) (h : Framed i f0 s) :
    Framed i f0 { s with file := write s.file (scratchAt e.arch s) (e.scratch.take 32) } := by
  have h1 := hi.min
  simp only [stackUsageOffset] at h1
  have hl : (e.scratch.take 32).length ≤ 32 := by simp; omega
  have hsp := h.sp
  have : 4 ≤ scratchAt e.arch s ∧ scratchAt e.arch s + (e.scratch.take 32).length ≤ i.stackUnused := by
    unfold scratchAt
    cases e.arch with
    | x86 => simp only; omega
    | arm => simp only [stackLimitOffset]; omega
  obtain ⟨k, z⟩ := h.kept.between i f0 s.file h.zero _ _ this.1 this.2
  exact ⟨k, z, h.sp⟩

theorem map_kept (e : Env) (i : Info) (hi : i.StackOk) (clock : Nat) (debug : Bool) (s : St) :
    Kept i s.file (exec e.fail (mapSteps e i clock debug) s).1.file ∧
    ((exec e.fail (mapSteps e i clock debug) s).2 = none → Framed i s.file (exec e.fail (mapSteps e i clock debug) s).1) := by
  let A : List Step :=
    [.sys .mmapRuntime 26 (onSpace (mmap e.ps (i.textAddr - i.pageSize) i.pageSize rw 0 (fun _ => .anon))),
     .sys .mmapText 28 (onSpace (mmap e.ps i.textAddr i.textSize rx 0 .text)),
     .sys .closeText 42 plain,
     .sys .mmapStack 29 (onSpace (mmap e.ps i.stackAddr i.stackSize rw 0 .state))]
  let B : List Step := heapSteps e i ++
    [.sys .closeState 31 plain,
     .do_ fun s => { s with vector := vector e i clock debug, debug := debug },
     .sys .protVector 27 (onSpace (mprotect e.ps (i.textAddr - i.pageSize) i.pageSize rx)),
     .sys .fcntlIn 39 plain,
     .sys .fcntlOut 40 plain,
     .sys .munmapStack 32 (onSpace (munmap e.ps (alignPage e.ps e.envp - alignPage e.ps loaderStackSize) (alignPage e.ps loaderStackSize))),
     .do_ fun s => { s with file := write s.file (scratchAt e.arch s) (e.scratch.take 32) },
     .sys .sigSegv 33 fun s => some { s with handlers := s.handlers ++ [.sigSegv] },
     .sys .sigXcpu 33 fun s => some { s with handlers := s.handlers ++ [.sigXcpu] },
     .sys .munmapLoader 34 (onSpace (munmap e.ps loaderAddr 65536)),
     .sys .seccomp 35 fun s => some { s with seccomp := true }]
  have hsplit : mapSteps e i clock debug = A ++ ([.do_ fun s => { s with file := write s.file 0 (vars i) }, .do_ (frame i)] ++ B) := by
    simp only [mapSteps, heapSteps, A, B, List.cons_append, List.nil_append]
  have hA : ∀ t : St, (exec e.fail A t).1.file = t.file := by
    intro t
    refine exec_inv e.fail (fun u => u.file = t.file) A ?_ ?_ t rfl
    · intro c code f hf u u' hu hs
      simp only [A, List.mem_cons, Step.sys.injEq, List.not_mem_nil, or_false] at hf
      rcases hf with ⟨_, _, rfl⟩ | ⟨_, _, rfl⟩ | ⟨_, _, rfl⟩ | ⟨_, _, rfl⟩
      · rw [(onSpace_file _ _ _ hs).1, hu]
      · rw [(onSpace_file _ _ _ hs).1, hu]
      · cases hs; exact hu
      · rw [(onSpace_file _ _ _ hs).1, hu]
    · intro f hf
      simp [A] at hf
  have hB : ∀ t : St, Framed i s.file t → Framed i s.file (exec e.fail B t).1 := by
    intro t ht
    refine exec_inv e.fail (Framed i s.file) B ?_ ?_ t ht
    · intro c code f hf u u' hu hs
      have sp : ∀ g, f = onSpace g → Framed i s.file u' := by
        intro g hg
        subst hg
        obtain ⟨x, _, rfl⟩ := onSpace_some _ _ _ hs
        exact ⟨hu.kept, hu.zero, hu.sp⟩
      simp only [B, heapSteps, List.mem_append, List.mem_cons, Step.sys.injEq, List.not_mem_nil, or_false, reduceCtorEq, false_or] at hf
      rcases hf with hf | hf
      · split at hf
        · simp only [List.mem_append, List.mem_singleton, Step.sys.injEq] at hf
          rcases hf with ⟨_, _, h⟩ | hf
          · exact sp _ h
          · split at hf
            · simp only [List.mem_singleton, Step.sys.injEq] at hf
              exact sp _ hf.2.2
            · cases hf
        · cases hf
      · rcases hf with ⟨_, _, rfl⟩ | ⟨_, _, h⟩ | ⟨_, _, rfl⟩ | ⟨_, _, rfl⟩ | ⟨_, _, h⟩ | ⟨_, _, rfl⟩ | ⟨_, _, rfl⟩ | ⟨_, _, h⟩ | ⟨_, _, rfl⟩
        · cases hs; exact hu
        · exact sp _ h
        · cases hs; exact hu
        · cases hs; exact hu
        · exact sp _ h
        · cases hs; exact ⟨hu.kept, hu.zero, hu.sp⟩
        · cases hs; exact ⟨hu.kept, hu.zero, hu.sp⟩
        · exact sp _ h
        · cases hs; exact ⟨hu.kept, hu.zero, hu.sp⟩
    · intro f hf u hu
      simp only [B, heapSteps, List.mem_append, List.mem_cons, List.not_mem_nil, or_false, reduceCtorEq, false_or, Step.do_.injEq] at hf
      rcases hf with hf | hf
      · split at hf
        · simp only [List.mem_append, List.mem_singleton, reduceCtorEq, false_or] at hf
          split at hf
          · simp at hf
          · cases hf
        · cases hf
      · rcases hf with rfl | rfl
        · exact ⟨hu.kept, hu.zero, hu.sp⟩
        · exact scratch_framed e i hi s.file u hu
  have hmid : ∀ t : St, t.file = s.file → Framed i s.file (frame i { t with file := write t.file 0 (vars i) }) := by
    intro t ht
    refine framed i hi s.file _ ?_ (vars_zero i _)
    have := (Kept.refl i s.file).vars_ i hi s.file s.file
    simp only [ht]
    exact this
  have hall : (exec e.fail A s).2 = none → Framed i s.file (exec e.fail ([.do_ fun s => { s with file := write s.file 0 (vars i) }, .do_ (frame i)] ++ B) (exec e.fail A s).1).1 :=
    fun _ => hB _ (hmid _ (hA s))
  rw [hsplit]
  constructor
  · refine exec_inv_append e.fail A _ s (fun u => Kept i s.file u.file) ?_ (fun h => (hall h).kept)
    rw [hA]; exact Kept.refl i s.file
  · intro hn
    rw [exec_append_any] at hn ⊢
    cases h : (exec e.fail A s).2 with
    | some c => rw [h] at hn; simp only [h] at hn; cases hn
    | none => simp only [h] at hn ⊢; exact hall h

/-- Whatever happens to a process while it's loaded, nothing of its instance's state is lost; and if the program's code is executed, then the state is marked
as not being usable (until the program stops). -/
theorem load_keeps (e : Env) (hs : ∀ r, receive e.msg = some r → (decode r.info).StackOk) :
    (∀ s n, load e = (s, .exit n) → s.file = e.file0 ∨ ∃ r, receive e.msg = some r ∧ Kept (decode r.info) e.file0 s.file) ∧
    (∀ s a, load e = (s, .enter a) → ∃ r, receive e.msg = some r ∧ ImageFile.read s.file 0 4 = [255, 255, 255, 255] ∧
      ∀ off, (decode r.info).stackUnused ≤ off → s.file off = e.file0 off) := by
  constructor
  · intro s n h
    unfold load at h
    split at h
    · cases h; exact Or.inl rfl
    · split at h
      · cases h; exact Or.inl rfl
      · split at h
        · cases h; exact Or.inl rfl
        · split at h
          · cases h; exact Or.inl rfl
          · rename_i clock hcl
            unfold loadClock at h
            have hpre : (exec e.fail preSteps (initial e)).1 = initial e := by
              refine exec_inv e.fail (fun u => u = initial e) preSteps ?_ ?_ _ rfl
              · intro c code f hf u u' hu hu'
                simp only [preSteps, List.mem_cons, Step.sys.injEq, List.not_mem_nil, or_false] at hf
                rcases hf with ⟨_, _, rfl⟩ | ⟨_, _, rfl⟩ | ⟨_, _, rfl⟩ | ⟨_, _, rfl⟩ <;> (cases hu'; exact hu)
              · intro f hf; simp [preSteps] at hf
            split at h
            · rename_i s0 code hx
              rw [hx] at hpre
              cases h; simp only at hpre; subst hpre; exact Or.inl rfl
            · rename_i s0 hx
              rw [hx] at hpre
              simp only at hpre; subst hpre
              split at h
              · cases h; exact Or.inl rfl
              · rename_i r hr
                unfold loadInfo at h
                split at h
                · cases h; exact Or.inl rfl
                · split at h
                  · cases h; exact Or.inl rfl
                  · split at h
                    · cases h; exact Or.inl rfl
                    · have hk := map_kept e (decode r.info) (hs r hr) clock r.debug (initial e)
                      split at h
                      · rename_i s1 code hx1
                        rw [hx1] at hk
                        cases h
                        exact Or.inr ⟨r, hr, hk.1⟩
                      · rename_i s1 hx1
                        rw [hx1] at hk
                        unfold begin_ at h
                        split at h
                        · cases h
                          exact Or.inr ⟨r, hr, hk.1⟩
                        · cases h
  · intro s a h
    obtain ⟨_, _, _, base, clock, r, s1, _, _, hr, _, _, hx, rfl, rfl⟩ := load_enter e s a h
    have hk := map_kept e (decode r.info) (hs r hr) clock r.debug (initial e)
    rw [hx] at hk
    refine ⟨r, hr, read_write s1.file 0 (le 4 4294967295), fun off ho => ?_⟩
    have h1 := (hs r hr).min
    simp only [stackUsageOffset] at h1
    simp only
    rw [write_other _ _ _ _ (Or.inr (by rw [length_le]; omega))]
    exact hk.1.data off ho

/-- Then the instance's file is taken as it was: the manifest doesn't change. -/
theorem failed_load_manifest (i : Inst) (hc : i.coherent = false) (f : File) (hz : ImageFile.read f 0 4 = [0, 0, 0, 0]) :
    checkMutation { i with file := f } = .ok { i with file := f, coherent := true } := by
  have h0 : (readVars f).unused = 0 := by simp only [readVars, hz]; rfl
  unfold checkMutation
  simp only [hc, Bool.false_eq_true, if_false]
  rw [if_neg (by unfold checkStack; rw [if_pos h0]; simp), if_pos h0]

/-- If the file hasn't been touched, then the variables in it are those of the previous execution: the check comes to the same sizes and stack usage as it did then. -/
theorem untouched_manifest (j k k2 : Inst) (hj : j.coherent = false) (h : checkMutation j = .ok k) (h2 : checkMutation { k with coherent := false } = .ok k2) :
    k2.man.stackUsage = k.man.stackUsage ∧ k2.man.memorySize = k.man.memorySize ∧ k2.man.textAddr = k.man.textAddr ∧ k2.man.stackSize = k.man.stackSize ∧
    k2.man.globalsSize = k.man.globalsSize ∧ k2.man.maxMemorySize = k.man.maxMemorySize ∧ k2.man.start = k.man.start ∧ k2.man.entry = k.man.entry ∧ k2.file = j.file := by
  unfold checkMutation at h
  simp only [hj, Bool.false_eq_true, if_false] at h
  split at h
  · cases h
  · split at h
    · rename_i h0
      cases h
      unfold checkMutation at h2
      simp only [Bool.false_eq_true, if_false, h0] at h2
      split at h2
      · cases h2
      · simp only [if_true] at h2
        cases h2
        exact ⟨rfl, rfl, rfl, rfl, rfl, rfl, rfl, rfl, rfl⟩
    · rename_i h0
      by_cases c : (readVars j.file).unused = j.man.stackSize
      all_goals
        first | rw [if_pos c] at h | rw [if_neg c] at h
        cases h
        unfold checkMutation at h2
        simp only [Bool.false_eq_true, if_false, if_neg h0] at h2
        first | rw [if_pos c] at h2 | rw [if_neg c] at h2
        split at h2
        · cases h2
        · cases h2
          exact ⟨rfl, rfl, rfl, rfl, rfl, rfl, rfl, rfl, rfl⟩

/-! ### Examples -/

/-- A program of one page of code, with a page of memory, on a machine where everything works. -/
def exampleProg : Prog := ⟨4096, 65536, 0, 0, 65536, 131072, 0x100, 0x200, 1000⟩

theorem exampleProg_ok : exampleProg.Ok 4096 := ⟨by decide, by decide, by decide, by decide, by decide, by decide, by decide, by decide, by decide⟩

def exampleInfo : Info := startInfo 4096 0x500000000 0x2aa900000000 0x554d00000000 (List.replicate 16 7) 14 exampleProg

/-- The loader's mappings and the vDSO. -/
def exampleEnv (fail : Sys → Bool) (suspended : Bool) : Env where
  arch := .x86
  ps := 4096
  fail := fail
  auxv := [(6, 4096), (33, 0x7ffff7fc1000), (0, 0)]
  vdso := [(false, []), (true, [(str "__vdso_gettimeofday", 0x100), (str "__vdso_clock_gettime", 0x200)])]
  envp := 0x7ffff7ffeff0
  space0 := fun x => if 0x200000000 ≤ x ∧ x < 0x200001000 then some (rx, .other) else if 0x7ffff7fc1000 ≤ x ∧ x < 0x7ffff7fc2000 then some (rx, .other)
    else if 0x7ffff7ffc000 ≤ x ∧ x < 0x7ffff7fff000 then some (rw, .other) else none
  file0 := blank
  msg := sent exampleInfo false
  sec := 5
  nsec := 999999
  func := fun _ => 0x40
  scratch := List.replicate 32 1
  suspended := suspended

theorem exampleEnv_place (fail : Sys → Bool) (b : Bool) : Place (exampleEnv fail b) := by
  refine ⟨⟨12, by decide, by decide, rfl⟩, fun x h1 h2 => ?_, ?_⟩
  rotate_left
  · show maxStack + 2 ^ 32 + 65536 + 65536 ≤ 0x7ffff7ffeff0 ∧ 0x7ffff7ffeff0 < 2 ^ 47; decide
  simp only [exampleEnv, minText, maxStack] at h1 h2 ⊢
  rw [if_neg (by omega), if_neg (by omega), if_neg (by omega)]

theorem exampleEnv_works (b : Bool) : Works (exampleEnv (fun _ => false) b) :=
  ⟨fun _ => rfl, rfl, rfl, 0x7ffff7fc1000, rfl, _, 0x200, List.mem_cons_of_mem _ List.mem_cons_self, List.mem_cons_of_mem _ List.mem_cons_self⟩

theorem exampleInfo_wf : exampleInfo.Wf :=
  startInfo_wf 4096 _ _ _ ⟨12, by decide, by decide, rfl⟩ _ rfl 14 _ exampleProg_ok (by decide) (by decide) (by decide)

theorem exampleEnv_received (fail : Sys → Bool) (b : Bool) : receive (exampleEnv fail b).msg = some ⟨encode exampleInfo, false, 2, 3⟩ :=
  receive_sent _ exampleInfo_wf false

theorem exampleInfo_decode : decode (encode exampleInfo) = exampleInfo := (decode_encode _ exampleInfo_wf).1

theorem exampleFits (fail : Sys → Bool) (b : Bool) : Fits (exampleEnv fail b) exampleInfo := by
  have hp := exampleEnv_place fail b
  have he : (exampleEnv fail b).ps = 4096 := rfl
  refine ⟨hp.ps, rfl, ?_, ?_, ?_, by decide, by decide, by decide, by decide, by decide, by decide, ?_, ?_, ?_, by decide, by decide, hp.free, hp.envp⟩ <;>
    (rw [he]; decide)

theorem exampleKernel (fail : Sys → Bool) (b : Bool) : KernelMappings (exampleEnv fail b) := by
  intro x p q h hl
  have hl' : ¬ ((0x7ffff7ffc000 ≤ x ∧ x < 0x7ffff7fff000) ∨ (0x200000000 ≤ x ∧ x < 0x200000000 + 65536)) := by
    intro h
    refine hl ?_
    have e1 : alignPage 4096 0x7ffff7ffeff0 = 0x7ffff7fff000 := by decide
    have e2 : alignPage 4096 12288 = 12288 := by decide
    show (alignPage 4096 0x7ffff7ffeff0 - alignPage 4096 12288 ≤ x ∧ x < alignPage 4096 0x7ffff7ffeff0) ∨ (0x200000000 ≤ x ∧ x < 0x200000000 + 65536)
    rw [e1, e2]
    omega
  simp only [exampleEnv] at h
  split at h
  · omega
  · split at h
    · cases h; exact ⟨rfl, rfl⟩
    · split at h
      · omega
      · cases h

/-- The program is run at its enter routine. -/
example : ∃ s, load (exampleEnv (fun _ => false) false) = (s, .enter 0x500000020) ∧ s.space 0x2aa900000000 = some (rw, .state 65536) ∧
    s.space 0x2aa900010000 = some (noAccess, .state 131072) ∧ s.space 0x500000000 = some (rx, .text 0) ∧ s.vector 10 = some 5000999424 := by
  obtain ⟨s, hs⟩ := map_ok (exampleEnv (fun _ => false) false) exampleInfo (0x7ffff7fc1000 + 0x200) false (initial (exampleEnv (fun _ => false) false)) (fun _ => rfl) (exampleFits _ _)
  have hd := map_done _ _ (by decide) _ _ _ _ hs
  have hsp := space_done _ _ _ _ _ hd (exampleFits _ _)
  refine ⟨{ s with file := write s.file 0 (le 4 4294967295) }, ?_, ?_, ?_, ?_, ?_⟩
  · have hcl : findClock .x86 0x7ffff7fc1000 (exampleEnv (fun _ => false) false).vdso = some (0x7ffff7fc1000 + 0x200) := by decide
    have : loadClock (exampleEnv (fun _ => false) false) (0x7ffff7fc1000 + 0x200) = ({ s with file := write s.file 0 (le 4 4294967295) }, .enter 0x500000020) := by
      unfold loadClock
      have hpre : exec (exampleEnv (fun _ => false) false).fail preSteps (initial (exampleEnv (fun _ => false) false)) = (initial (exampleEnv (fun _ => false) false), none) := rfl
      rw [hpre]
      simp only [exampleEnv_received]
      unfold loadInfo
      obtain ⟨hdec, _, m1, m2⟩ := decode_encode _ exampleInfo_wf
      simp only [hdec]
      rw [if_neg (by rw [m1]; simp), if_neg (by rw [m2]; simp), if_neg (by simp [exampleEnv])]
      simp only [hs]
      rfl
    rw [← this]
    unfold load
    rw [if_neg (by decide)]
    have hv : findVdso (exampleEnv (fun _ => false) false).auxv = some 0x7ffff7fc1000 := rfl
    rw [hv]
    simp only
    rw [if_neg (by simp [exampleEnv])]
    have ha : (exampleEnv (fun _ => false) false).arch = .x86 := rfl
    rw [ha, hcl]
  · simp only [hsp]; rfl
  · simp only [hsp]; rfl
  · simp only [hsp]; rfl
  · simp only [hd.vector]; rfl

example : exampleInfo.StackOk := ⟨by decide, by decide⟩

/-- The hypotheses of `start_to_program`. -/
example : ∃ t h k d, getRand 4096 0 true (List.replicate 28 3) = .ok (t, h, k, d) :=
  have ⟨t, h, k, d, hg, _⟩ := start_to_program 4096 ⟨12, by decide, by decide, rfl⟩ true (List.replicate 28 3) rfl exampleProg exampleProg_ok 14 false
    (exampleEnv (fun _ => false) false) (exampleEnv_works _) (exampleEnv_place _ _) rfl
  ⟨t, h, k, d, hg⟩

/-- A failure before the message. -/
example : (load (exampleEnv (fun c => c = .rlimitNproc) false)).2 = .exit 20 := by decide

end Gate.Loader
