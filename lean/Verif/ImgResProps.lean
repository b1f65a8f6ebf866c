import Verif.ImgRes
/-
Properties of the resources of images (C157).
-/
namespace Gate.ImgRes

/-! ### Specification -/

/-- Files which will be opened are different from the open ones. -/
structure WF (s : St) : Prop where
  files : ∀ f ∈ s.files, f < s.nextFile
  maps : ∀ m ∈ s.maps, m < s.nextMap

/-- A function which fails leaves the same files open and the same mappings as there were, and one which succeeds leaves what it
returns besides; nothing is closed twice.  `prog` is of no interest. -/
def Owns {α : Type} (m : M α) (own : α → List Nat) : Prop :=
  ∀ ω s, WF s → WF (m ω s).2 ∧ (m ω s).2.maps = s.maps ∧ (m ω s).2.bad = s.bad ∧ s.nextFile ≤ (m ω s).2.nextFile ∧
    (m ω s).2.files = (match (m ω s).1 with | none => [] | some a => own a) ++ s.files

/-! ### Rules -/

theorem bind_eq {α β : Type} (m : M α) (f : α → M β) (ω : Nat → Bool) (s : St) :
    (m >>= f) ω s = match m ω s with | (none, s) => (none, s) | (some a, s) => f a ω s := rfl

theorem pure_eq {α : Type} (a : α) (ω : Nat → Bool) (s : St) : (pure a : M α) ω s = (some a, s) := rfl

theorem owns_pure {α : Type} (a : α) : Owns (pure a) fun _ => [] := fun _ _ h => ⟨h, rfl, rfl, Nat.le_refl _, rfl⟩

theorem owns_sys : Owns sys fun _ => [] := fun ω s h => by
  refine ⟨⟨h.files, h.maps⟩, rfl, rfl, Nat.le_refl _, ?_⟩
  show s.files = _
  cases (sys ω s).1 <;> rfl

theorem owns_open : Owns openFile fun f => [f] := fun ω s h => by
  unfold openFile
  split
  · refine ⟨⟨fun f hf => ?_, h.maps⟩, rfl, rfl, Nat.le_succ _, rfl⟩
    simp only [List.mem_cons] at hf ⊢
    rcases hf with rfl | hf
    · omega
    · have := h.files f hf; omega
  · exact ⟨⟨h.files, h.maps⟩, rfl, rfl, Nat.le_refl _, rfl⟩

/-- Closing the file which was opened last. -/
theorem close_cons (ω : Nat → Bool) (s : St) (f : Nat) (l : List Nat) (h : s.files = f :: l) :
    close f ω s = (some (), { s with files := l }) := by
  unfold close
  rw [h, if_pos (by simp)]
  simp

/-- Something which keeps what there is, followed by something which owns. -/
theorem owns_seq {α β : Type} {m : M α} {k : α → M β} {own : β → List Nat} (hm : Owns m fun _ => []) (hk : ∀ a, Owns (k a) own) :
    Owns (m >>= k) own := fun ω s h => by
  obtain ⟨a1, a2, a3, a4, a5⟩ := hm ω s h
  rw [bind_eq]
  cases hx : m ω s with
  | mk r s1 =>
    rw [hx] at a1 a2 a3 a4 a5
    cases r with
    | none => exact ⟨a1, a2, a3, a4, a5⟩
    | some a =>
      obtain ⟨b1, b2, b3, b4, b5⟩ := hk a ω s1 a1
      refine ⟨b1, b2.trans a2, b3.trans a3, Nat.le_trans a4 b4, ?_⟩
      rw [b5]; simp only [List.nil_append] at a5; rw [a5]

/-- A new file, which is closed if what follows fails; what follows owns nothing. -/
theorem owns_keep {m : M Nat} {k : Nat → M Unit} (hm : Owns m fun f => [f]) (hk : ∀ f, Owns (k f) fun _ => []) :
    Owns (do let f ← m; onErr (close f) (k f); return f) fun f => [f] := fun ω s h => by
  obtain ⟨a1, a2, a3, a4, a5⟩ := hm ω s h
  rw [bind_eq]
  cases hx : m ω s with
  | mk r s1 =>
    rw [hx] at a1 a2 a3 a4 a5
    cases r with
    | none => exact ⟨a1, a2, a3, a4, a5⟩
    | some f =>
      obtain ⟨b1, b2, b3, b4, b5⟩ := hk f ω s1 a1
      simp only [bind_eq, onErr]
      cases hy : k f ω s1 with
      | mk r2 s2 =>
        rw [hy] at b1 b2 b3 b4 b5
        have hf : s2.files = f :: s.files := by
          cases r2 <;> · simp only [List.nil_append] at b5; rw [b5, a5]; rfl
        have hr : s1.nextFile ≤ s2.nextFile := b4
        cases r2 with
        | none =>
          simp only [close_cons ω s2 f _ hf]
          refine ⟨⟨fun x hx => ?_, b1.maps⟩, b2.trans a2, b3.trans a3, Nat.le_trans a4 b4, rfl⟩
          exact b1.files x (by rw [hf]; exact List.mem_cons_of_mem _ hx)
        | some u => exact ⟨b1, b2.trans a2, b3.trans a3, Nat.le_trans a4 b4, hf⟩

/-- A temporary mapping. -/
theorem owns_mapped {α : Type} {k : Nat → M α} {own : α → List Nat} (hk : ∀ m, Owns (k m) own) :
    Owns (do let m ← mmap; always (munmap m) (k m)) own := fun ω s h => by
  rw [bind_eq]
  unfold mmap
  by_cases hω : ω s.t
  · simp only [hω, if_true, always, munmap]
    have hw : WF { s with maps := s.nextMap :: s.maps, nextMap := s.nextMap + 1, t := s.t + 1 } := by
      refine ⟨h.files, fun f hf => ?_⟩
      simp only [List.mem_cons] at hf ⊢
      rcases hf with rfl | hf
      · omega
      · have := h.maps f hf; omega
    obtain ⟨b1, b2, b3, b4, b5⟩ := hk s.nextMap ω _ hw
    cases hy : k s.nextMap ω { s with maps := s.nextMap :: s.maps, nextMap := s.nextMap + 1, t := s.t + 1 } with
    | mk r s2 =>
      rw [hy] at b1 b2 b3 b4 b5
      simp only at b2
      simp only [b2, List.erase_cons_head]
      refine ⟨⟨b1.files, fun m hm => ?_⟩, trivial, b3, b4, b5⟩
      exact b1.maps m (by rw [b2]; exact List.mem_cons_of_mem _ hm)
  · simp only [hω]
    exact ⟨⟨h.files, h.maps⟩, rfl, rfl, Nat.le_refl _, rfl⟩

/-- A temporary file. -/
theorem owns_temp {m : M Nat} {k : Nat → M Unit} (hm : Owns m fun f => [f]) (hk : ∀ f, Owns (k f) fun _ => []) :
    Owns (do let f ← m; always (close f) (k f)) fun _ => [] := fun ω s h => by
  obtain ⟨a1, a2, a3, a4, a5⟩ := hm ω s h
  rw [bind_eq]
  cases hx : m ω s with
  | mk r s1 =>
    rw [hx] at a1 a2 a3 a4 a5
    cases r with
    | none => exact ⟨a1, a2, a3, a4, a5⟩
    | some f =>
      obtain ⟨b1, b2, b3, b4, b5⟩ := hk f ω s1 a1
      simp only [always]
      cases hy : k f ω s1 with
      | mk r2 s2 =>
        rw [hy] at b1 b2 b3 b4 b5
        have hf : s2.files = f :: s.files := by
          cases r2 <;> · simp only [List.nil_append] at b5; rw [b5, a5]; rfl
        simp only [close_cons ω s2 f _ hf]
        refine ⟨⟨fun x hx => ?_, b1.maps⟩, b2.trans a2, b3.trans a3, Nat.le_trans a4 b4, by cases r2 <;> rfl⟩
        exact b1.files x (by rw [hf]; exact List.mem_cons_of_mem _ hx)

/-! ### Loading, storing, instantiating -/

theorem owns_newFile : Owns newFile fun f => [f] := owns_keep owns_open fun _ => owns_sys

/-- C157: NewInstance keeps its file open if and only if it succeeds, whatever fails. -/
theorem newInstance_owns (copy write : Bool) : Owns (newInstance copy write) fun f => [f] := by
  unfold newInstance
  refine owns_seq owns_sys fun _ => ?_
  have : Owns (do
      let f ← newFile
      onErr (close f) (if copy then (if write then sys else do let m ← mmap; always (munmap m) sys) else pure ())
      return f) fun f => [f] := by
    refine owns_keep owns_newFile fun _ => ?_
    cases copy
    · exact owns_pure ()
    · cases write
      · exact owns_mapped fun _ => owns_sys
      · exact owns_sys
  intro ω s h
  have h2 := this ω s h
  have he : (do
      let f ← newFile
      onErr (close f) (if copy then (if write then sys else do let m ← mmap; always (munmap m) sys) else pure ())
      return f) ω s = (do
      let f ← newFile
      onErr (close f) do
        if copy then
          if write then sys
          else do
            let m ← mmap
            always (munmap m) sys
        return f) ω s := by
    simp only [bind_eq]
    cases newFile ω s with
    | mk r s1 =>
      cases r with
      | none => rfl
      | some f =>
        simp only [onErr]
        cases copy
        · rfl
        · cases write
          · simp only [if_true, bind_eq, Bool.false_eq_true, if_false]
            cases mmap ω s1 with
            | mk r2 s2 =>
              cases r2 with
              | none => rfl
              | some m =>
                simp only
                cases always (munmap m) sys ω s2 with
                | mk r3 s3 => cases r3 <;> rfl
          · simp only [if_true, bind_eq]
            cases sys ω s1 with
            | mk r2 s2 => cases r2 <;> rfl
  rw [← he]; exact h2

/-- C157: so does Snapshot, and it unmaps what it maps. -/
theorem snapshot_owns : Owns snapshot fun f => [f] :=
  owns_mapped fun _ => owns_seq owns_sys fun _ => owns_keep owns_newFile fun _ => owns_sys

/-- C157: loading of programs, and of instances from a filesystem. -/
theorem load_owns (e : Bool) : Owns (load e) fun f => f.toList := by
  cases e
  · exact owns_seq owns_sys fun _ => owns_pure none
  · intro ω s h
    have h2 := owns_keep owns_open (fun _ => owns_sys) ω s h
    have he : load true ω s = (((do let f ← openFile; onErr (close f) sys; return f) : M Nat) ω s).map (·.map some) id := by
      simp only [load, if_true, bind_eq]
      cases openFile ω s with
      | mk r s1 =>
        cases r with
        | none => rfl
        | some f =>
          simp only
          cases onErr (close f) sys ω s1 with
          | mk r2 s2 => cases r2 <;> rfl
    rw [he]
    cases hx : ((do let f ← openFile; onErr (close f) sys; return f) : M Nat) ω s with
    | mk r s1 =>
      rw [hx] at h2
      cases r <;> exact h2

/-- C157: storing an instance by copying leaves no file open. -/
theorem storeMem_owns : Owns storeMem fun _ => [] := owns_temp owns_newFile fun _ => owns_sys

/-- C157: opening a storage directory. -/
theorem newFilesystem_owns : Owns newFilesystem fun p => [p.2, p.1] := by
  unfold newFilesystem
  refine owns_seq owns_sys fun _ => ?_
  intro ω s h
  obtain ⟨a1, a2, a3, a4, a5⟩ := owns_open ω s h
  rw [bind_eq]
  cases hx : openFile ω s with
  | mk r s1 =>
    rw [hx] at a1 a2 a3 a4 a5
    cases r with
    | none => exact ⟨a1, a2, a3, a4, a5⟩
    | some f =>
      obtain ⟨b1, b2, b3, b4, b5⟩ := owns_open ω s1 a1
      simp only [onErr, bind_eq]
      cases hy : openFile ω s1 with
      | mk r2 s2 =>
        rw [hy] at b1 b2 b3 b4 b5
        cases r2 with
        | none =>
          have hf : s2.files = f :: s.files := by simp only [List.nil_append] at b5; rw [b5, a5]; rfl
          simp only [close_cons ω s2 f _ hf]
          refine ⟨⟨fun x hx => ?_, b1.maps⟩, b2.trans a2, b3.trans a3, Nat.le_trans a4 b4, rfl⟩
          exact b1.files x (by rw [hf]; exact List.mem_cons_of_mem _ hx)
        | some g =>
          simp only [pure_eq]
          refine ⟨b1, b2.trans a2, b3.trans a3, Nat.le_trans a4 b4, ?_⟩
          simp only at a5 b5
          rw [b5, a5]; rfl

/-- C157: loading an instance into memory: the file it was in is closed in any case. -/
theorem loadMem_owns : Owns loadMem fun f => [f] := by
  intro ω s h
  obtain ⟨a1, a2, a3, a4, a5⟩ := load_owns true ω s h
  unfold loadMem
  rw [bind_eq]
  cases hx : load true ω s with
  | mk r s1 =>
    rw [hx] at a1 a2 a3 a4 a5
    cases r with
    | none => exact ⟨a1, a2, a3, a4, a5⟩
    | some o =>
      cases o with
      | none => exact ⟨a1, a2, a3, a4, a5⟩
      | some f0 =>
        have hf1 : s1.files = f0 :: s.files := a5
        obtain ⟨b1, b2, b3, b4, b5⟩ := owns_newFile ω s1 a1
        simp only [onErr, bind_eq]
        cases hy : newFile ω s1 with
        | mk r2 s2 =>
          rw [hy] at b1 b2 b3 b4 b5
          cases r2 with
          | none =>
            have hf : s2.files = f0 :: s.files := by simp only [List.nil_append] at b5; rw [b5, hf1]
            simp only [close_cons ω s2 f0 _ hf]
            refine ⟨⟨fun x hx => ?_, b1.maps⟩, b2.trans a2, b3.trans a3, Nat.le_trans a4 b4, rfl⟩
            exact b1.files x (by rw [hf]; exact List.mem_cons_of_mem _ hx)
          | some f =>
            have hf2 : s2.files = f :: f0 :: s.files := by simp only at b5; rw [b5, hf1]; rfl
            obtain ⟨c1, c2, c3, c4, c5⟩ := owns_sys ω s2 b1
            cases hz : sys ω s2 with
            | mk r3 s3 =>
              rw [hz] at c1 c2 c3 c4 c5
              have hf3 : s3.files = f :: f0 :: s.files := by
                cases r3 <;> · simp only [List.nil_append] at c5; rw [c5, hf2]
              cases r3 with
              | none =>
                simp only [hz, close_cons ω s3 f _ hf3]
                rw [close_cons ω { s3 with files := f0 :: s.files } f0 s.files rfl]
                refine ⟨⟨fun x hx => ?_, c1.maps⟩, (c2.trans b2).trans a2, (c3.trans b3).trans a3, by
                  have := Nat.le_trans (Nat.le_trans a4 b4) c4; exact this, rfl⟩
                exact c1.files x (by rw [hf3]; exact List.mem_cons_of_mem _ (List.mem_cons_of_mem _ hx))
              | some u =>
                have hne : f0 ≠ f ∨ f0 = f := by omega
                have hc : close f0 ω s3 = (some (), { s3 with files := (f :: f0 :: s.files).erase f0 }) := by
                  unfold close; rw [hf3, if_pos (by simp)]
                have he : (f :: f0 :: s.files).erase f0 = f :: s.files := by
                  by_cases hff : f = f0
                  · subst hff; simp
                  · rw [List.erase_cons_tail (by simp [hff])]; simp
                simp only [hz, hc, he, pure_eq]
                refine ⟨⟨fun x hx => ?_, c1.maps⟩, (c2.trans b2).trans a2, (c3.trans b3).trans a3, by
                  have := Nat.le_trans (Nat.le_trans a4 b4) c4; exact this, rfl⟩
                refine c1.files x ?_
                rw [hf3]
                rcases List.mem_cons.1 hx with rfl | hx
                · exact List.mem_cons_self
                · exact List.mem_cons_of_mem _ (List.mem_cons_of_mem _ hx)

/-! ### Building -/

/-- The state of a build: the open files besides `F` are the program's and the instance's; the mappings besides `Mp` are the build's.
`dangling`: the instance's file of the build has been closed already. -/
structure G (F Mp : List Nat) (bad : Nat) (prog inst cm mm : Option Nat) (held : List Nat) (dangling : Bool) (s : St) : Prop where
  files : s.files = inst.toList ++ (prog.toList ++ (held ++ F))
  ne : ∀ i ∈ inst, ∀ f ∈ prog, i ≠ f
  hprog : s.b.prog = prog
  hinst : if dangling then inst = none ∧ ∃ g, s.b.inst = some g ∧ g ∉ s.files else s.b.inst = inst
  hcm : s.b.compileMem = cm
  hmm : s.b.moduleMem = mm
  maps : s.maps = mm.toList ++ (cm.toList ++ Mp) ∨ s.maps = cm.toList ++ (mm.toList ++ Mp)
  nem : ∀ x ∈ cm, ∀ y ∈ mm, x ≠ y
  hbad : s.bad = bad
  wf : WF s

theorem erase_opt (a : Nat) (o : Option Nat) (l : List Nat) (h : ∀ x ∈ o, x ≠ a) : (o.toList ++ a :: l).erase a = o.toList ++ l := by
  cases o with
  | none => simp
  | some x =>
    have := h x rfl
    show (x :: a :: l).erase a = x :: l
    rw [List.erase_cons_tail (by simp [this])]; simp

theorem munmapAll_ok {F Mp : List Nat} {bad : Nat} {prog inst cm mm : Option Nat} {held : List Nat} {d : Bool} {s : St} (ω : Nat → Bool)
    (g : G F Mp bad prog inst cm mm held d s) :
    (munmapAll ω s).1 = some () ∧ G F Mp bad prog inst none none held d (munmapAll ω s).2 := by
  have e : (munmapAll ω s).1 = some () ∧ (munmapAll ω s).2 =
      { s with maps := mm.elim (cm.elim s.maps s.maps.erase) ((cm.elim s.maps s.maps.erase).erase)
               b := { s.b with compileMem := none, moduleMem := none } } := by
    simp only [munmapAll, munmapCompile, munmapModule, bind_eq, getB, setB, munmap, pure_eq]
    rw [g.hcm]
    cases cm <;> simp only [munmap, pure_eq, g.hmm] <;> cases mm <;> exact ⟨rfl, rfl⟩
  refine ⟨e.1, ?_⟩
  rw [e.2]
  have hm : mm.elim (cm.elim s.maps s.maps.erase) ((cm.elim s.maps s.maps.erase).erase) = Mp := by
    rcases g.maps with h | h <;> rw [h] <;> cases cm <;> cases mm <;> simp [Option.elim]
    · rename_i x y
      have := g.nem x rfl y rfl
      rw [List.erase_cons_tail (by simpa using fun h => this h.symm)]; simp
  refine ⟨g.files, g.ne, g.hprog, g.hinst, rfl, rfl, Or.inl (by simpa using hm), by simp, g.hbad, ⟨g.wf.files, ?_⟩⟩
  intro m hmm
  simp only [hm] at hmm
  exact g.wf.maps m (by rcases g.maps with h | h <;> rw [h] <;> simp [hmm])

theorem munmapCompile_ok {F Mp : List Nat} {bad : Nat} {prog inst cm mm : Option Nat} {held : List Nat} {d : Bool} {s : St} (ω : Nat → Bool)
    (g : G F Mp bad prog inst cm mm held d s) :
    (munmapCompile ω s).1 = some () ∧ G F Mp bad prog inst none mm held d (munmapCompile ω s).2 := by
  have e : (munmapCompile ω s).1 = some () ∧ (munmapCompile ω s).2 =
      { s with maps := cm.elim s.maps s.maps.erase, b := { s.b with compileMem := none } } := by
    simp only [munmapCompile, bind_eq, getB, setB, munmap, pure_eq]
    rw [g.hcm]
    cases cm <;> exact ⟨rfl, rfl⟩
  refine ⟨e.1, ?_⟩
  rw [e.2]
  have hm : cm.elim s.maps s.maps.erase = mm.toList ++ Mp := by
    rcases g.maps with h | h <;> rw [h] <;> cases cm <;> cases mm <;> simp [Option.elim]
    · rename_i x y
      have := g.nem x rfl y rfl
      rw [List.erase_cons_tail (by simpa using fun h => this h.symm)]; simp
  refine ⟨g.files, g.ne, g.hprog, g.hinst, rfl, g.hmm, Or.inl (by simpa using hm), by simp, g.hbad, ⟨g.wf.files, ?_⟩⟩
  intro m hmm
  simp only [hm] at hmm
  refine g.wf.maps m ?_
  rcases g.maps with h | h <;> rw [h] <;> simp only [List.mem_append] at hmm ⊢ <;> rcases hmm with hmm | hmm <;> simp [hmm]

theorem mmapCompile_ok {F Mp : List Nat} {bad : Nat} {prog inst mm : Option Nat} {held : List Nat} {d : Bool} {s : St} (ω : Nat → Bool)
    (nz : Bool) (g : G F Mp bad prog inst none mm held d s) (hmp : s.maps = mm.toList ++ Mp) :
    ((mmapCompile nz ω s).1 = some () ∧ ∃ cm, G F Mp bad prog inst cm mm held d (mmapCompile nz ω s).2) ∨
    ((mmapCompile nz ω s).1 = none ∧ G F Mp bad prog inst none mm held d (mmapCompile nz ω s).2 ∧ (mmapCompile nz ω s).2.files = s.files ∧
      (mmapCompile nz ω s).2.b = s.b) := by
  cases nz
  · exact Or.inl ⟨rfl, none, g⟩
  · simp only [mmapCompile, if_true, bind_eq, mmap, setB]
    by_cases hω : ω s.t
    · refine Or.inl ⟨by simp [hω], some s.nextMap, ?_⟩
      simp only [hω, if_true]
      refine ⟨g.files, g.ne, g.hprog, g.hinst, rfl, g.hmm, Or.inr ?_, ?_, g.hbad, ⟨g.wf.files, ?_⟩⟩
      · simp [hmp]
      · intro x hx y hy
        cases hx
        have := g.wf.maps y (by rw [hmp]; cases hy; simp)
        omega
      · intro m hm
        simp only [List.mem_cons] at hm ⊢
        rcases hm with rfl | hm
        · omega
        · have := g.wf.maps m hm; omega
    · refine Or.inr ⟨by simp [hω], ?_, by simp [hω], by simp [hω]⟩
      simp only [hω]
      exact ⟨g.files, g.ne, g.hprog, g.hinst, g.hcm, g.hmm, g.maps, g.nem, g.hbad, ⟨g.wf.files, g.wf.maps⟩⟩

/-- Opening a file doesn't do anything to the build. -/
theorem newFile_b (ω : Nat → Bool) (s : St) : (newFile ω s).2.b = s.b := by
  simp only [newFile, bind_eq, openFile]
  by_cases h : ω s.t
  · simp only [h, if_true, onErr, sys]
    by_cases h2 : ω (s.t + 1)
    · simp [h2, pure_eq]
    · simp only [h2, Bool.false_eq_true, if_false]
      have : close s.nextFile ω { s with files := s.nextFile :: s.files, nextFile := s.nextFile + 1, t := s.t + 1 + 1 } = _ :=
        close_cons _ _ s.nextFile s.files rfl
      simp only [this]
  · simp [h]

/-- C157: a NewBuild which fails leaves nothing open and nothing mapped. -/
theorem newBuild_ok (c : Cfg) (ω : Nat → Bool) (s : St) (h : WF s) :
    ((newBuild c ω s).1 = none ∧ (newBuild c ω s).2.files = s.files ∧ (newBuild c ω s).2.maps = s.maps ∧ (newBuild c ω s).2.bad = s.bad) ∨
    ((newBuild c ω s).1 = some () ∧ ∃ f cm mm, G s.files s.maps s.bad (some f) none cm mm [] false (newBuild c ω s).2) := by
  have h0 : WF { s with b := (⟨none, none, none, none⟩ : Build) } := ⟨h.files, h.maps⟩
  have hnb := newFile_b ω { s with b := (⟨none, none, none, none⟩ : Build) }
  obtain ⟨a1, a2, a3, a4, a5⟩ := owns_newFile ω _ h0
  simp only [newBuild, bind_eq, setB]
  cases hx : newFile ω { s with b := (⟨none, none, none, none⟩ : Build) } with
  | mk r s1 =>
    rw [hx] at a1 a2 a3 a4 a5 hnb
    cases r with
    | none => exact Or.inl ⟨rfl, a5, a2, a3⟩
    | some f =>
      have g0 : G s.files s.maps s.bad (some f) none none none [] false { s1 with b := { s1.b with prog := some f } } :=
        ⟨a5, by simp, rfl, by simp [show s1.b = _ from hnb], by simp [show s1.b = _ from hnb], by simp [show s1.b = _ from hnb], Or.inl a2, by simp, a3, ⟨a1.files, a1.maps⟩⟩
      simp only [onErr, bind_eq]
      have closing : ∀ (cm mm : Option Nat) (s2 : St), G s.files s.maps s.bad (some f) none cm mm [] false s2 →
          ((do munmapAll; close f : M Unit) ω s2).2.files = s.files ∧ ((do munmapAll; close f : M Unit) ω s2).2.maps = s.maps ∧
            ((do munmapAll; close f : M Unit) ω s2).2.bad = s.bad := by
        intro cm mm s2 g2
        obtain ⟨m1, m2⟩ := munmapAll_ok ω g2
        simp only [bind_eq]
        cases hm : munmapAll ω s2 with
        | mk r3 s3 =>
          rw [hm] at m1 m2
          simp only at m1
          subst m1
          simp only
          rw [close_cons ω s3 f s.files m2.files]
          refine ⟨rfl, ?_, m2.hbad⟩
          rcases m2.maps with hh | hh <;> simpa using hh
      rcases mmapCompile_ok ω c.text g0 a2 with ⟨e1, cm, g1⟩ | ⟨e1, g1, _, _⟩
      · cases hy : mmapCompile c.text ω { s1 with b := { s1.b with prog := some f } } with
        | mk r2 s2 =>
          rw [hy] at e1 g1
          simp only at e1
          subst e1
          simp only
          by_cases hmod : c.module
          · simp only [hmod, if_true, mmapModule, bind_eq, mmap, setB]
            by_cases hω : ω s2.t
            · simp only [hω, if_true]
              refine Or.inr ⟨trivial, f, cm, some s2.nextMap, ?_⟩
              have hmp : s2.maps = cm.toList ++ s.maps := by rcases g1.maps with hh | hh <;> simpa using hh
              refine ⟨g1.files, g1.ne, g1.hprog, g1.hinst, g1.hcm, rfl, Or.inl ?_, ?_, g1.hbad, ⟨g1.wf.files, ?_⟩⟩
              · simp [hmp]
              · intro x hx y hy
                cases hy
                have : x < s2.nextMap := g1.wf.maps x (by rw [hmp]; cases hx; simp)
                omega
              · intro m hm
                simp only [List.mem_cons] at hm ⊢
                rcases hm with rfl | hm
                · omega
                · have : m < s2.nextMap := g1.wf.maps m hm
                  omega
            · simp only [hω]
              have := closing cm none { s2 with t := s2.t + 1 } ⟨g1.files, g1.ne, g1.hprog, g1.hinst, g1.hcm, g1.hmm, g1.maps, g1.nem, g1.hbad, ⟨g1.wf.files, g1.wf.maps⟩⟩
              simp only [bind_eq] at this
              exact Or.inl ⟨rfl, this.1, this.2.1, this.2.2⟩
          · simp only [hmod]
            exact Or.inr ⟨rfl, f, cm, none, g1⟩
      · cases hy : mmapCompile c.text ω { s1 with b := { s1.b with prog := some f } } with
        | mk r2 s2 =>
          rw [hy] at e1 g1
          simp only at e1
          subst e1
          have := closing none none s2 g1
          simp only [bind_eq] at this
          exact Or.inl ⟨rfl, this.1, this.2.1, this.2.2⟩

theorem close_not (ω : Nat → Bool) (s : St) (f : Nat) (h : f ∉ s.files) : close f ω s = (some (), { s with bad := s.bad + 1 }) := by
  unfold close
  rw [if_neg h]

/-- Close, in any state. -/
theorem closeBuild_ok {F Mp : List Nat} {bad : Nat} {prog inst cm mm : Option Nat} {held : List Nat} {d : Bool} {s : St} (ω : Nat → Bool)
    (g : G F Mp bad prog inst cm mm held d s) :
    (closeBuild ω s).2.files = held ++ F ∧ (closeBuild ω s).2.maps = Mp ∧ (closeBuild ω s).2.bad = bad + (if d then 1 else 0) ∧
      (closeBuild ω s).2.b = ⟨none, none, none, none⟩ := by
  simp only [closeBuild, bind_eq, getB]
  -- The program's file.
  have h1 : ∃ s1, closeOpt s.b.prog ω s = (some (), s1) ∧ G F Mp bad prog inst cm mm held d s ∧
      s1 = { s with files := inst.toList ++ (held ++ F) } := by
    rw [g.hprog]
    cases prog with
    | none =>
      refine ⟨s, rfl, g, ?_⟩
      have hf : s.files = inst.toList ++ (held ++ F) := g.files
      cases s; simp only at hf; subst hf; rfl
    | some f =>
      refine ⟨{ s with files := inst.toList ++ (held ++ F) }, ?_, g, rfl⟩
      simp only [closeOpt, close]
      have hf : s.files = inst.toList ++ f :: (held ++ F) := g.files
      rw [hf, if_pos (by simp), erase_opt _ _ _ (fun x hx => g.ne x hx f rfl)]
  obtain ⟨s1, e1, _, rfl⟩ := h1
  rw [e1]
  simp only [setB]
  have hb := g.hinst
  have h2 : ∃ s2, closeOpt s.b.inst ω { s with files := inst.toList ++ (held ++ F), b := { s.b with prog := none } } = (some (), s2) ∧
      s2 = { s with files := held ++ F, b := { s.b with prog := none }, bad := bad + (if d then 1 else 0) } := by
    cases d with
    | false =>
      simp only [Bool.false_eq_true, if_false] at hb
      rw [hb]
      cases inst with
      | none =>
        refine ⟨_, rfl, ?_⟩
        have hb' := g.hbad
        cases s; simp only at hb'; subst hb'; rfl
      | some i =>
        refine ⟨_, close_cons ω _ i (held ++ F) rfl, ?_⟩
        have hb' := g.hbad
        cases s; simp only at hb'; subst hb'; rfl
    | true =>
      simp only [if_true] at hb
      obtain ⟨rfl, x, hx, hn⟩ := hb
      rw [hx]
      have hn' : x ∉ held ++ F := fun hm => hn (by rw [g.files]; simp only [Option.toList, List.nil_append]; exact List.mem_append_right _ hm)
      have hb' := g.hbad
      refine ⟨{ s with files := held ++ F, b := { s.b with prog := none }, bad := bad + 1 }, ?_, rfl⟩
      rw [← hb']
      exact close_not ω _ x hn'
  obtain ⟨s2, e2, rfl⟩ := h2
  rw [e2]
  have g3 : G F Mp (bad + (if d then 1 else 0)) none none cm mm held false
      { s with files := held ++ F, b := { s.b with prog := none, inst := none }, bad := bad + (if d then 1 else 0) } := by
    refine ⟨rfl, by simp, rfl, by simp, g.hcm, g.hmm, g.maps, g.nem, rfl, ⟨fun f hf => g.wf.files f ?_, g.wf.maps⟩⟩
    rw [g.files]
    exact List.mem_append_right _ (List.mem_append_right _ hf)
  obtain ⟨m1, m2⟩ := munmapAll_ok ω g3
  simp only
  refine ⟨m2.files, ?_, m2.hbad, ?_⟩
  · rcases m2.maps with hh | hh <;> simpa using hh
  · have q1 := m2.hprog
    have q2 := m2.hinst
    have q3 := m2.hcm
    have q4 := m2.hmm
    simp only [Bool.false_eq_true, if_false] at q2
    generalize (munmapAll ω _).2.b = bb at *
    cases bb
    simp only at q1 q2 q3 q4
    subst q1 q2 q3 q4
    rfl

theorem G.tick {F Mp : List Nat} {bad : Nat} {prog inst cm mm : Option Nat} {held : List Nat} {d : Bool} {s : St}
    (g : G F Mp bad prog inst cm mm held d s) (n : Nat) : G F Mp bad prog inst cm mm held d { s with t := n } :=
  ⟨g.files, g.ne, g.hprog, g.hinst, g.hcm, g.hmm, g.maps, g.nem, g.hbad, ⟨g.wf.files, g.wf.maps⟩⟩

/-- FinishText: a new file for the instance. -/
theorem finishText_ok (c : Cfg) {F Mp : List Nat} {bad f : Nat} {cm mm : Option Nat} {s : St} (ω : Nat → Bool)
    (g : G F Mp bad (some f) none cm mm [] false s) :
    ((finishText c ω s).1 = none ∧ ∃ cm' d, G F Mp bad (some f) none cm' mm [] d (finishText c ω s).2 ∧ (d = true → c.inst = true)) ∨
    ((finishText c ω s).1 = some () ∧ ∃ i cm', (i.isSome ↔ c.inst) ∧ G F Mp bad (some f) i cm' mm [] false (finishText c ω s).2) := by
  unfold finishText
  cases hs : c.stackFits
  · exact Or.inl ⟨rfl, cm, false, g, by simp⟩
  · simp only [if_true, bind_eq]
    obtain ⟨m1, m2⟩ := munmapCompile_ok ω g
    cases hx : munmapCompile ω s with
    | mk r s1 =>
      rw [hx] at m1 m2
      simp only at m1
      subst m1
      simp only
      have hmp : s1.maps = mm.toList ++ Mp := by rcases m2.maps with hh | hh <;> simpa using hh
      cases hi : c.inst
      · simp only [Bool.false_eq_true, if_false]
        rcases mmapCompile_ok ω c.state m2 hmp with ⟨e1, cm', g1⟩ | ⟨e1, g1, _, _⟩
        · exact Or.inr ⟨e1, none, cm', by simp, g1⟩
        · exact Or.inl ⟨e1, none, false, g1, by simp⟩
      · simp only [if_true, bind_eq]
        have hnb := newFile_b ω s1
        obtain ⟨a1, a2, a3, a4, a5⟩ := owns_newFile ω s1 m2.wf
        have hfr : ∀ r s2, newFile ω s1 = (some r, s2) → r ≥ s1.nextFile := by
          intro r s2 h
          simp only [newFile, bind_eq, openFile] at h
          by_cases hω : ω s1.t
          · simp only [hω, if_true] at h
            cases ho : onErr (close s1.nextFile) sys ω { s1 with files := s1.nextFile :: s1.files, nextFile := s1.nextFile + 1, t := s1.t + 1 } with
            | mk q s3 =>
              rw [ho] at h
              cases q with
              | none => cases h
              | some u =>
                have : s1.nextFile = r := by
                  have := congrArg Prod.fst h
                  exact Option.some.inj this
                omega
          · simp only [hω] at h; cases h
        cases hy : newFile ω s1 with
        | mk r s2 =>
          rw [hy] at a1 a2 a3 a4 a5 hnb
          simp only at a2 a3 a4 hnb
          cases r with
          | none =>
            refine Or.inl ⟨rfl, none, false, ?_, by simp⟩
            exact ⟨by rw [show s2.files = s1.files from a5]; exact m2.files, by simp, by rw [hnb]; exact m2.hprog, by
              simp only [Bool.false_eq_true, if_false, hnb]; exact m2.hinst, by rw [hnb]; exact m2.hcm, by rw [hnb]; exact m2.hmm, by
              simp only [a2]; exact m2.maps, by simp, by rw [a3]; exact m2.hbad, a1⟩
          | some i =>
            have hf2 : s2.files = i :: f :: F := by
              have : s2.files = [i] ++ s1.files := a5
              rw [this, m2.files]; rfl
            have hne : i ≠ f := by
              have h1 := hfr i s2 hy
              have h2 : f < s1.nextFile := m2.wf.files f (by rw [m2.files]; simp)
              omega
            have hnF : i ∉ f :: F := by
              intro hm
              have h1 := hfr i s2 hy
              have h2 : i < s1.nextFile := m2.wf.files i (by rw [m2.files]; exact hm)
              omega
            have g2 : G F Mp bad (some f) (some i) none mm [] false { s2 with b := { s2.b with inst := some i } } :=
              ⟨hf2, by simpa using hne, by simp only [hnb]; exact m2.hprog, by simp, by simp only [hnb]; exact m2.hcm, by
                simp only [hnb]; exact m2.hmm, by simp only [a2]; exact m2.maps, by simp, by simp only [a3]; exact m2.hbad, ⟨a1.files, a1.maps⟩⟩
            simp only [setB, onErr]
            rcases mmapCompile_ok ω c.state g2 (by simp only [a2]; exact hmp) with ⟨e1, cm', g3⟩ | ⟨e1, g3, e3, e4⟩
            · cases hz : mmapCompile c.state ω { s2 with b := { s2.b with inst := some i } } with
              | mk r3 s3 =>
                rw [hz] at e1 g3
                simp only at e1
                subst e1
                exact Or.inr ⟨rfl, some i, cm', by simp, g3⟩
            · cases hz : mmapCompile c.state ω { s2 with b := { s2.b with inst := some i } } with
              | mk r3 s3 =>
                rw [hz] at e1 g3 e3 e4
                simp only at e1 e3 e4
                subst e1
                simp only
                rw [close_cons ω s3 i (f :: F) (by rw [e3]; exact hf2)]
                refine Or.inl ⟨trivial, none, true, ⟨rfl, by simp, g3.hprog, ?_, g3.hcm, g3.hmm, g3.maps, by simp, g3.hbad, ⟨?_, g3.wf.maps⟩⟩, fun _ => trivial⟩
                · simp only [if_true, true_and]
                  exact ⟨i, by rw [e4], hnF⟩
                · intro x hx
                  refine g3.wf.files x ?_
                  rw [g3.files]
                  exact List.mem_append_right _ hx

theorem sys_fst (ω : Nat → Bool) (s : St) : sys ω s = (if ω s.t then some () else none, { s with t := s.t + 1 }) := rfl

/-- FinishProgram: the program gets the file. -/
theorem finishProgram_ok (c : Cfg) {F Mp : List Nat} {bad f : Nat} {i cm mm : Option Nat} {s : St} (ω : Nat → Bool)
    (g : G F Mp bad (some f) i cm mm [] false s) :
    ((finishProgram c ω s).1 = none ∧ ∃ cm' mm', G F Mp bad (some f) i cm' mm' [] false (finishProgram c ω s).2) ∨
    ((finishProgram c ω s).1 = some (some f) ∧ G F Mp bad none i none none [f] false (finishProgram c ω s).2) := by
  have last : ∀ s1, G F Mp bad (some f) i cm mm [] false s1 →
      ((do sys; munmapAll; let b ← getB; setB fun b => { b with prog := none }; return b.prog : M (Option Nat)) ω s1).1 = none ∧
        (∃ cm' mm', G F Mp bad (some f) i cm' mm' [] false
          ((do sys; munmapAll; let b ← getB; setB fun b => { b with prog := none }; return b.prog : M (Option Nat)) ω s1).2) ∨
      ((do sys; munmapAll; let b ← getB; setB fun b => { b with prog := none }; return b.prog : M (Option Nat)) ω s1).1 = some (some f) ∧
        G F Mp bad none i none none [f] false
          ((do sys; munmapAll; let b ← getB; setB fun b => { b with prog := none }; return b.prog : M (Option Nat)) ω s1).2 := by
    intro s1 g1
    simp only [bind_eq, sys_fst]
    by_cases hω : ω s1.t
    · simp only [hω, if_true]
      obtain ⟨m1, m2⟩ := munmapAll_ok ω (g1.tick (s1.t + 1))
      simp only [bind_eq, getB, setB, pure_eq]
      cases hx : munmapAll ω { s1 with t := s1.t + 1 } with
      | mk r s2 =>
        rw [hx] at m1 m2
        simp only at m1
        subst m1
        refine Or.inr ⟨congrArg some m2.hprog, ?_⟩
        refine ⟨m2.files, by simp, rfl, ?_, m2.hcm, m2.hmm, m2.maps, m2.nem, m2.hbad, ⟨m2.wf.files, m2.wf.maps⟩⟩
        have := m2.hinst
        simpa using this
    · simp only [hω]
      exact Or.inl ⟨rfl, cm, mm, g1.tick _⟩
  unfold finishProgram
  cases hs : c.stackRead
  · exact Or.inl ⟨rfl, cm, mm, g⟩
  · simp only [if_true]
    cases hi : c.inst
    · exact last s g
    · simp only [if_true]
      rw [bind_eq, sys_fst]
      by_cases hω : ω s.t
      · simp only [hω, if_true]
        exact last _ (g.tick _)
      · simp only [hω]
        exact Or.inl ⟨rfl, cm, mm, g.tick _⟩

/-- FinishInstance: the instance gets the file. -/
theorem finishInstance_ok {F Mp : List Nat} {bad f : Nat} {i : Option Nat} {s : St} (ω : Nat → Bool)
    (g : G F Mp bad none i none none [f] false s) :
    ((finishInstance ω s).1 = none ∧ G F Mp bad none i none none [f] false (finishInstance ω s).2) ∨
    ((finishInstance ω s).1 = some i ∧ G F Mp bad none none none none (i.toList ++ [f]) false (finishInstance ω s).2) := by
  simp only [finishInstance, bind_eq, sys_fst]
  have hinst : s.b.inst = i := by have := g.hinst; simpa using this
  by_cases hω : ω s.t
  · simp only [hω, if_true, getB, setB, pure_eq]
    refine Or.inr ⟨congrArg some hinst, ?_⟩
    exact ⟨by rw [show s.files = _ from g.files]; simp, by simp, g.hprog, by simp, g.hcm, g.hmm, g.maps, by simp, g.hbad,
      ⟨g.wf.files, g.wf.maps⟩⟩
  · simp only [hω]
    exact Or.inl ⟨rfl, g.tick _⟩

/-- C157: however a build goes — whichever system calls fail, and whenever its user gives up —, once it has been closed
the files which were open before and those which its user got from it are open, and no others; nothing is left mapped. -/
theorem build_released (c : Cfg) (stop : Nat) (ω : Nat → Bool) (s : St) (h : WF s) :
    (build c stop ω s).2.files = (build c stop ω s).1 ++ s.files ∧ (build c stop ω s).2.maps = s.maps ∧
      s.bad ≤ (build c stop ω s).2.bad ∧ (build c stop ω s).2.bad ≤ s.bad + (if c.inst then 1 else 0) := by
  unfold build
  rcases newBuild_ok c ω s h with ⟨e1, e2, e3, e4⟩ | ⟨e1, f, cm, mm, g⟩
  · cases hx : newBuild c ω s with
    | mk r s1 =>
      rw [hx] at e1 e2 e3 e4
      simp only at e1 e2 e3 e4
      subst e1
      exact ⟨e2, e3, by simp only; omega, by simp only; omega⟩
  · cases hx : newBuild c ω s with
    | mk r s1 =>
      rw [hx] at e1 g
      simp only at e1
      subst e1
      simp only
      have fin : ∀ {p i cm mm : Option Nat} {held : List Nat} {d : Bool} {s2 : St}, G s.files s.maps s.bad p i cm mm held d s2 →
          (d = true → c.inst = true) →
          (closeBuild ω s2).2.files = held ++ s.files ∧ (closeBuild ω s2).2.maps = s.maps ∧
            s.bad ≤ (closeBuild ω s2).2.bad ∧ (closeBuild ω s2).2.bad ≤ s.bad + (if c.inst then 1 else 0) := by
        intro p i cm mm held d s2 g2 hd
        obtain ⟨q1, q2, q3, _⟩ := closeBuild_ok ω g2
        refine ⟨q1, q2, by rw [q3]; omega, ?_⟩
        rw [q3]
        cases d
        · simp
        · simp [hd rfl]
      unfold calls
      split
      · exact fin g (by simp)
      · rcases finishText_ok c ω g with ⟨t1, cm', d, t2, t3⟩ | ⟨t1, i, cm', t2, t3⟩
        · cases hy : finishText c ω s1 with
          | mk r s2 =>
            rw [hy] at t1 t2
            simp only at t1
            subst t1
            exact fin t2 t3
        · cases hy : finishText c ω s1 with
          | mk r s2 =>
            rw [hy] at t1 t3
            simp only at t1
            subst t1
            simp only
            split
            · exact fin t3 (by simp)
            · rcases finishProgram_ok c ω t3 with ⟨u1, cm2, mm2, u2⟩ | ⟨u1, u2⟩
              · cases hz : finishProgram c ω s2 with
                | mk r s3 =>
                  rw [hz] at u1 u2
                  simp only at u1
                  subst u1
                  exact fin u2 (by simp)
              · cases hz : finishProgram c ω s2 with
                | mk r s3 =>
                  rw [hz] at u1 u2
                  simp only at u1
                  subst u1
                  simp only
                  split
                  · exact fin u2 (by simp)
                  · rcases finishInstance_ok ω u2 with ⟨v1, v2⟩ | ⟨v1, v2⟩
                    · cases hv : finishInstance ω s3 with
                      | mk r s4 =>
                        rw [hv] at v1 v2
                        simp only at v1
                        subst v1
                        exact fin v2 (by simp)
                    · cases hv : finishInstance ω s3 with
                      | mk r s4 =>
                        rw [hv] at v1 v2
                        simp only at v1
                        subst v1
                        exact fin v2 (by simp)

/-- C157: nothing is closed twice by a build without an instance. -/
theorem build_closed_once (c : Cfg) (hc : c.inst = false) (stop : Nat) (ω : Nat → Bool) (s : St) (h : WF s) :
    (build c stop ω s).2.bad = s.bad := by
  obtain ⟨_, _, h1, h2⟩ := build_released c stop ω s h
  simp only [hc] at h2
  simp at h2
  omega

/-- C157: if no call fails, the user gets the program's file, and the instance's if it was asked for; they're different and open. -/
theorem build_all (c : Cfg) (s : St) (stop : Nat) (h : 3 ≤ stop) (hf : c.stackFits = true) (hr : c.stackRead = true) :
    (build c stop (fun _ => true) s).1.length = if c.inst then 2 else 1 := by
  obtain ⟨stop, rfl⟩ : ∃ k, stop = k + 3 := ⟨stop - 3, by omega⟩
  obtain ⟨a, b, c, d, e, f⟩ := c
  cases a <;> cases b <;> cases c <;> cases d <;> cases e <;> cases f <;> first | rfl | (cases hf; done) | (cases hr; done)

/-! ### Examples -/

def empty : St := ⟨[1], 2, [], 0, 0, 0, ⟨none, none, none, none⟩⟩

theorem empty_wf : WF empty := ⟨by decide, by decide⟩

def full : Cfg := ⟨true, true, true, true, true, true⟩

/-- When all goes well, the user gets the program's and the instance's files. -/
example : (build full 3 (fun _ => true) empty).1 = [3, 2] ∧ (build full 3 (fun _ => true) empty).2.files = [3, 2, 1] := by decide

/-- When copying to the program fails, nothing remains. -/
example : (build full 3 (fun t => t != 7) empty).1 = [] ∧ (build full 3 (fun t => t != 7) empty).2.files = [1] := by decide

/-- When the instance is refused, the program remains. -/
example : (build full 3 (fun t => t != 9) empty).1 = [2] ∧ (build full 3 (fun t => t != 9) empty).2.files = [2, 1] := by decide

/-- C157 isn't unconditional: if mapping the instance's file fails, the file is closed by FinishText and once more by Close (which closes
no other file, but reports an error). -/
theorem closed_twice_refuted : (build full 3 (fun t => t != 6) empty).2.bad = 1 ∧ (build full 3 (fun t => t != 6) empty).2.files = [1] := by decide

end Gate.ImgRes
