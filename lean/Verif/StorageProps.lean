import Verif.Storage
/-
What users rely on: an instance which has been stored survives any crash as it was when it was
stored; whatever is found in the storage after a crash is complete and is the state of an instance
which was not running; storing works again after the instance has been run.
-/
namespace Gate.Storage
open Gate Gate.ImageFile

/-! ### Specification -/

/-- A crash leaves what a crash can leave. With Filesystem, an instance for which Store or Unstore failed is not stored or run again. -/
def Allowed (pmem : Bool) (s : St) : Label → Prop
  | .crash c => Crash s c
  | .store i _ => pmem = false → (s.handles i).failed = false
  | .unstore i true => pmem = false → (s.handles i).failed = false
  | _ => True

/-- The states after any history, including crashes. -/
inductive Reach (pmem : Bool) : St → Prop where
  | init : Reach pmem init
  | step {s s' : St} (l : Label) : Reach pmem s → Allowed pmem s l → step pmem s l = some s' → Reach pmem s'

/-! ### Invariant -/

def Norefs (s : St) (j : Ino) : Prop := ∀ d ∈ s.pastDirs, ∀ m, d m ≠ some j

def PcInv (pmem : Bool) (s : St) (h : Handle) : Prop :=
  match h.pc with
  | .idle => match h.name with
    | some n => ∀ d ∈ s.pastDirs, d n = some h.ino
    | none => pmem = false → h.failed = false → Norefs s h.ino
  | .st1 _ => pmem = false → Norefs s h.ino
  | .st2 n => Norefs s h.ino ∧ (s.inodes h.ino).live ∈ s.saved n
  | .st3 n => Norefs s h.ino ∧ (s.inodes h.ino).live ∈ s.saved n ∧ (s.inodes h.ino).past = [(s.inodes h.ino).live]
  | .st4 n => s.dir n = some h.ino
  | .un1 n mu => s.dir n = some h.ino ∧ (pmem = false → mu = true → h.failed = false)
  | .un2 _ mu => (∀ m, s.dir m ≠ some h.ino) ∧ (pmem = false → mu = true → h.failed = false)
  | .closed => True

def InoOk (s : St) : Ino → Prop
  | .tmp k => k < s.nextIno
  | .found b _ => b < s.boots

/-- What holds of an open instance. -/
structure HInv (pmem : Bool) (s : St) (i : Nat) : Prop where
  lt : i < s.nextHandle
  pc : PcInv pmem s (s.handles i)
  busy : (s.handles i).pc ≠ .idle → (s.handles i).coherent = true ∧ (s.handles i).name = none
  named : (s.handles i).coherent = false → (s.handles i).name = none
  running : pmem = false → (s.handles i).coherent = false → (s.handles i).failed = false
  ino : InoOk s (s.handles i).ino

def Open (s : St) (i : Nat) : Prop := (s.handles i).pc ≠ .closed

structure GInv (s : St) : Prop where
  dirIn : s.dir ∈ s.pastDirs
  frozen : ∀ d ∈ s.pastDirs, ∀ n j, d n = some j → (s.inodes j).past = [(s.inodes j).live] ∧ (s.inodes j).live ∈ s.saved n
  uniq : ∀ d ∈ s.pastDirs, ∀ d' ∈ s.pastDirs, ∀ n n' j, d n = some j → d' n' = some j → n = n'
  ino : ∀ d ∈ s.pastDirs, ∀ n j, d n = some j → InoOk s j

structure Inv (pmem : Bool) (s : St) : Prop where
  g : GInv s
  h : ∀ i, Open s i → HInv pmem s i
  distinct : ∀ i j, Open s i → Open s j → (s.handles i).ino = (s.handles j).ino → i = j

/-! ### Lemmas -/

/-- The change of the directory doesn't concern the file. -/
def Apart (s s' : St) (j : Ino) : Prop :=
  (∀ d' ∈ s'.pastDirs, d' ∈ s.pastDirs ∨ ∀ m, d' m = some j ↔ s.dir m = some j) ∧ ∀ m, s'.dir m = some j ↔ s.dir m = some j

theorem apart_same (s s' : St) (j : Ino) (h1 : s'.pastDirs = s.pastDirs) (h2 : s'.dir = s.dir) : Apart s s' j :=
  ⟨fun d hd => .inl (h1 ▸ hd), fun m => by rw [h2]⟩

theorem apart_sync (s s' : St) (j : Ino) (h1 : s'.pastDirs = [s.dir]) (h2 : s'.dir = s.dir) : Apart s s' j := by
  refine ⟨fun d hd => .inr fun m => ?_, fun m => by rw [h2]⟩
  rw [h1] at hd
  rw [List.mem_singleton.mp hd]

theorem apart_set (s s' : St) (j : Ino) (n : Name) (v : Option Ino) (h1 : s'.pastDirs = Dir.set s.dir n v :: s.pastDirs) (h2 : s'.dir = Dir.set s.dir n v)
    (hv : v ≠ some j) (hn : s.dir n ≠ some j) : Apart s s' j := by
  have he : ∀ m, Dir.set s.dir n v m = some j ↔ s.dir m = some j := by
    intro m
    unfold Dir.set
    split
    · rename_i hm
      subst hm
      exact ⟨fun h => absurd h hv, fun h => absurd h hn⟩
    · exact Iff.rfl
  refine ⟨fun d hd => ?_, fun m => by rw [h2]; exact he m⟩
  rw [h1] at hd
  rcases List.mem_cons.mp hd with rfl | hd
  · exact .inr he
  · exact .inl hd

theorem norefs_apart (s s' : St) (j : Ino) (hd : s.dir ∈ s.pastDirs) (ha : Apart s s' j) (h : Norefs s j) : Norefs s' j := by
  intro d hd' m hm
  rcases ha.1 d hd' with h1 | h1
  · exact h d h1 m hm
  · exact h s.dir hd m ((h1 m).mp hm)

theorem frame (pmem : Bool) (s s' : St) (h : Handle) (hd : s.dir ∈ s.pastDirs) (hp : PcInv pmem s h) (ha : Apart s s' h.ino)
    (hl : (s'.inodes h.ino).live = (s.inodes h.ino).live) (hpa : (s'.inodes h.ino).past = (s.inodes h.ino).past)
    (hs : ∀ n f, f ∈ s.saved n → f ∈ s'.saved n) : PcInv pmem s' h := by
  unfold PcInv at hp ⊢
  have hno := norefs_apart s s' h.ino hd ha
  cases hpc : h.pc <;> rw [hpc] at hp <;> simp only at hp ⊢
  · cases hn : h.name <;> rw [hn] at hp <;> simp only at hp ⊢
    · exact fun h1 h2 => hno (hp h1 h2)
    · intro d hd'
      rcases ha.1 d hd' with h1 | h1
      · exact hp d h1
      · exact (h1 _).mpr (hp s.dir hd)
  · exact fun h1 => hno (hp h1)
  · rw [hl]; exact ⟨hno hp.1, hs _ _ hp.2⟩
  · rw [hl, hpa]; exact ⟨hno hp.1, hs _ _ hp.2.1, hp.2.2⟩
  · exact (ha.2 _).mpr hp
  · exact ⟨(ha.2 _).mpr hp.1, hp.2⟩
  · exact ⟨fun m hm => hp.1 m ((ha.2 m).mp hm), hp.2⟩

theorem inoOk_mono (s s' : St) (h1 : s.nextIno ≤ s'.nextIno) (h2 : s.boots ≤ s'.boots) (j : Ino) (h : InoOk s j) : InoOk s' j := by
  cases j with
  | tmp k => exact Nat.lt_of_lt_of_le h h1
  | found b n => exact Nat.lt_of_lt_of_le h h2

/-- Steps which change one handle and don't create any. -/
theorem inv_step (pmem : Bool) (s s' : St) (i : Nat) (h' : Handle) (hi : Inv pmem s) (ho : Open s i)
    (hh : s'.handles = fun j => if j = i then h' else s.handles j)
    (hn : s'.nextHandle = s.nextHandle) (hni : s.nextIno ≤ s'.nextIno) (hb : s'.boots = s.boots)
    (hg : GInv s')
    (hother : ∀ j, j ≠ i → Open s j → Apart s s' (s.handles j).ino ∧ (s'.inodes (s.handles j).ino).live = (s.inodes (s.handles j).ino).live ∧
      (s'.inodes (s.handles j).ino).past = (s.inodes (s.handles j).ino).past)
    (hs : ∀ n f, f ∈ s.saved n → f ∈ s'.saved n)
    (hino : h'.pc ≠ .closed → (h'.ino = (s.handles i).ino ∨ ∃ k, h'.ino = .tmp k ∧ s.nextIno ≤ k ∧ k < s'.nextIno))
    (hpc : h'.pc ≠ .closed → PcInv pmem s' h')
    (hbusy : h'.pc ≠ .closed → h'.pc ≠ .idle → h'.coherent = true ∧ h'.name = none)
    (hnamed : h'.pc ≠ .closed → h'.coherent = false → h'.name = none)
    (hrun : h'.pc ≠ .closed → pmem = false → h'.coherent = false → h'.failed = false) : Inv pmem s' := by
  have heq : ∀ j, j ≠ i → s'.handles j = s.handles j := by
    intro j hj; rw [hh]; simp only; rw [if_neg hj]
  have hieq : s'.handles i = h' := by rw [hh]; simp
  have hopen : ∀ j, j ≠ i → Open s' j → Open s j := by
    intro j hj h; unfold Open at h ⊢; rw [heq j hj] at h; exact h
  have hiok : h'.pc ≠ .closed → InoOk s' h'.ino := by
    intro hc
    rcases hino hc with h | ⟨k, h, _, h2⟩
    · rw [h]; exact inoOk_mono s s' hni (by omega) _ (hi.h i ho).ino
    · rw [h]; exact h2
  have hne : ∀ j, j ≠ i → Open s j → h'.pc ≠ .closed → h'.ino ≠ (s.handles j).ino := by
    intro j hj hoj hc he
    rcases hino hc with h | ⟨k, h, h1, _⟩
    · rw [h] at he; exact hj (hi.distinct i j ho hoj he).symm
    · have := (hi.h j hoj).ino
      rw [← he, h] at this
      simp only [InoOk] at this
      omega
  refine ⟨hg, ?_, ?_⟩
  · intro j hoj
    by_cases hj : j = i
    · subst hj
      unfold Open at hoj
      rw [hieq] at hoj
      refine ⟨by have := (hi.h j ho).lt; omega, ?_, ?_, ?_, ?_, ?_⟩ <;> rw [hieq]
      · exact hpc hoj
      · exact hbusy hoj
      · exact hnamed hoj
      · exact hrun hoj
      · exact hiok hoj
    · have hoj' := hopen j hj hoj
      have hi' := hi.h j hoj'
      obtain ⟨h1, h2, h3⟩ := hother j hj hoj'
      refine ⟨by have := hi'.lt; omega, ?_, ?_, ?_, ?_, ?_⟩ <;> rw [heq j hj]
      · exact frame pmem s s' _ hi.g.dirIn hi'.pc h1 h2 h3 hs
      · exact hi'.busy
      · exact hi'.named
      · exact hi'.running
      · exact inoOk_mono s s' hni (by omega) _ hi'.ino
  · intro a b hoa hob he
    by_cases ha : a = i
    · by_cases hb' : b = i
      · rw [ha, hb']
      · subst ha
        have hc : h'.pc ≠ .closed := by unfold Open at hoa; rwa [hieq] at hoa
        rw [hieq, heq b hb'] at he
        exact absurd he (hne b hb' (hopen b hb' hob) hc)
    · by_cases hb' : b = i
      · subst hb'
        have hc : h'.pc ≠ .closed := by unfold Open at hob; rwa [hieq] at hob
        rw [hieq, heq a ha] at he
        exact absurd he.symm (hne a ha (hopen a ha hoa) hc)
      · rw [heq a ha, heq b hb'] at he
        exact hi.distinct a b (hopen a ha hoa) (hopen b hb' hob) he

/-- Steps which don't touch the disk. -/
theorem inv_local (pmem : Bool) (s : St) (i : Nat) (h' : Handle) (hi : Inv pmem s) (ho : Open s i) (hino : h'.ino = (s.handles i).ino)
    (hpc : h'.pc ≠ .closed → PcInv pmem s h')
    (hbusy : h'.pc ≠ .closed → h'.pc ≠ .idle → h'.coherent = true ∧ h'.name = none)
    (hnamed : h'.pc ≠ .closed → h'.coherent = false → h'.name = none)
    (hrun : h'.pc ≠ .closed → pmem = false → h'.coherent = false → h'.failed = false) : Inv pmem (setH s i h') := by
  refine inv_step pmem s (setH s i h') i h' hi ho rfl rfl (Nat.le_refl _) rfl ⟨hi.g.dirIn, hi.g.frozen, hi.g.uniq, fun d hd n j hj => inoOk_mono s _ (Nat.le_refl _) (Nat.le_refl _) j (hi.g.ino d hd n j hj)⟩ (fun j _ _ => ⟨apart_same s _ _ rfl rfl, rfl, rfl⟩) (fun _ _ h => h)
    (fun _ => .inl hino) ?_ hbusy hnamed hrun
  intro hc
  exact frame pmem s (setH s i h') h' hi.g.dirIn (hpc hc) (apart_same s _ _ rfl rfl) rfl rfl (fun _ _ h => h)

/-- What a crash leaves under a name has been stored. -/
theorem crash_of_inv (pmem : Bool) (s : St) (hi : Inv pmem s) (c : Name → Option File) (hc : Crash s c) (n : Name) (f : File) (hf : c n = some f) :
    f ∈ s.saved n := by
  obtain ⟨d, hd, h⟩ := hc n
  cases hj : d n with
  | none => rw [hj] at h; simp only at h; rw [h] at hf; cases hf
  | some j =>
    rw [hj] at h
    simp only at h
    obtain ⟨g, hg, hk⟩ := h
    rw [hg] at hf
    have hf : g = f := by simpa using hf
    rw [← hf]
    obtain ⟨h1, h2⟩ := hi.g.frozen d hd n j hj
    have : g = (s.inodes j).live := by
      funext k
      obtain ⟨v, hv, he⟩ := hk k
      rw [h1] at hv
      rw [he, List.mem_singleton.mp hv]
    rw [this]
    exact h2

theorem inv_reboot (pmem : Bool) (s : St) (hi : Inv pmem s) (c : Name → Option File) (hc : Crash s c) : Inv pmem (reboot s c) := by
  have hclosed : ∀ i, ¬ Open (reboot s c) i := by intro i h; exact h rfl
  have hd : ∀ d ∈ (reboot s c).pastDirs, ∀ n j, d n = some j → ∃ f, c n = some f ∧ j = .found s.boots n := by
    intro d hd n j hj
    simp only [reboot, List.mem_singleton] at hd
    subst hd
    simp only at hj
    cases hf : c n with
    | none => rw [hf] at hj; cases hj
    | some f => rw [hf] at hj; cases hj; exact ⟨f, rfl, rfl⟩
  refine ⟨⟨?_, ?_, ?_, ?_⟩, fun i h => absurd h (hclosed i), fun i j h => absurd h (hclosed i)⟩
  · simp [reboot]
  · intro d hd' n j hj
    obtain ⟨f, hf, rfl⟩ := hd d hd' n j hj
    have : (reboot s c).inodes (.found s.boots n) = ⟨f, [f], 1, false⟩ := by
      simp only [reboot, hf, if_true]
    rw [this]
    exact ⟨rfl, crash_of_inv pmem s hi c hc n f hf⟩
  · intro d hd' d'' hd'' n n' j hj hj'
    obtain ⟨_, _, rfl⟩ := hd d hd' n j hj
    obtain ⟨_, _, h⟩ := hd d'' hd'' n' _ hj'
    injection h
  · intro d hd' n j hj
    obtain ⟨_, _, rfl⟩ := hd d hd' n j hj
    simp only [InoOk, reboot]
    omega

theorem inv_init (pmem : Bool) : Inv pmem init := by
  refine ⟨⟨by simp [init], ?_, ?_, ?_⟩, fun i h => absurd rfl h, fun i j h => absurd rfl h⟩
  · intro d hd n j hj; simp only [init, List.mem_singleton] at hd; subst hd; cases hj
  · intro d hd d' hd' n n' j hj; simp only [init, List.mem_singleton] at hd; subst hd; cases hj
  · intro d hd n j hj; simp only [init, List.mem_singleton] at hd; subst hd; cases hj

theorem open_of_pc (s : St) (i : Nat) (p : Pc) (h : (s.handles i).pc = p) (hp : p ≠ .closed) : Open s i := by
  unfold Open; rw [h]; exact hp

/-- The invariant of the disk is not affected by a change of a file which isn't in the directory, nor by more files being asked to be stored. -/
theorem ginv_file (s s' : St) (hg : GInv s) (h1 : s'.pastDirs = s.pastDirs) (h2 : s'.dir = s.dir) (h3 : s.nextIno ≤ s'.nextIno) (h4 : s'.boots = s.boots)
    (hs : ∀ n f, f ∈ s.saved n → f ∈ s'.saved n)
    (hf : ∀ d ∈ s.pastDirs, ∀ n j, d n = some j → (s'.inodes j).live = (s.inodes j).live ∧ ((s'.inodes j).past = (s.inodes j).past ∨ (s'.inodes j).past = [(s.inodes j).live])) :
    GInv s' := by
  refine ⟨?_, ?_, ?_, ?_⟩
  · rw [h1, h2]; exact hg.dirIn
  · intro d hd n j hj
    rw [h1] at hd
    obtain ⟨a, b⟩ := hf d hd n j hj
    obtain ⟨e, f⟩ := hg.frozen d hd n j hj
    rw [a]
    refine ⟨?_, hs _ _ f⟩
    rcases b with b | b
    · rw [b]; exact e
    · exact b
  · rw [h1]; exact hg.uniq
  · rw [h1]; intro d hd n j hj; exact inoOk_mono s s' h3 (by omega) j (hg.ino d hd n j hj)

/-- Nor by the directory being synced. -/
theorem ginv_sync (s s' : St) (hg : GInv s) (h1 : s'.pastDirs = [s.dir]) (h2 : s'.dir = s.dir) (h3 : s'.nextIno = s.nextIno) (h4 : s'.boots = s.boots)
    (h5 : s'.inodes = s.inodes) (h6 : s'.saved = s.saved) : GInv s' := by
  have hm : ∀ d ∈ s'.pastDirs, d ∈ s.pastDirs := by
    intro d hd; rw [h1] at hd; rw [List.mem_singleton.mp hd]; exact hg.dirIn
  refine ⟨?_, ?_, ?_, ?_⟩
  · rw [h1, h2]; simp
  · intro d hd n j hj; rw [h5, h6]; exact hg.frozen d (hm d hd) n j hj
  · intro d hd d' hd' n n' j hj hj'; exact hg.uniq d (hm d hd) d' (hm d' hd') n n' j hj hj'
  · intro d hd n j hj; exact inoOk_mono s s' (by omega) (by omega) j (hg.ino d (hm d hd) n j hj)

theorem inode_other (s : St) (j j' : Ino) (x : Inode) (h : j' ≠ j) : (setI s j x).inodes j' = s.inodes j' := by
  simp only [setI]; rw [if_neg h]

theorem inode_same (s : St) (j : Ino) (x : Inode) : (setI s j x).inodes j = x := by
  simp [setI]

theorem inv_write (pmem : Bool) (s s' : St) (i : Nat) (f : File) (hi : Inv pmem s) (hs : step pmem s (.write i f) = some s') : Inv pmem s' := by
  simp only [step] at hs
  split at hs
  · rename_i hc
    have ho := open_of_pc s i _ hc.1 (by decide)
    have hh := hi.h i ho
    split at hs
    · rename_i hp
      cases hs
      refine inv_local pmem s i _ hi ho rfl (fun _ => ?_) (fun _ => hh.busy) (fun _ => hh.named) (fun _ => hh.running)
      have := hh.pc
      unfold PcInv at this ⊢
      rw [hc.1] at this
      simp only [hc.1] at this ⊢
      exact this
    · rename_i hp
      cases hs
      have hp' : pmem = false := by simpa using hp
      have hno : Norefs s (s.handles i).ino := by
        have := hh.pc
        unfold PcInv at this
        rw [hc.1, hh.named hc.2] at this
        exact this hp' (hh.running hp' hc.2)
      have hne : ∀ d ∈ s.pastDirs, ∀ n j, d n = some j → j ≠ (s.handles i).ino := by
        intro d hd n j hj he; exact hno d hd n (he ▸ hj)
      refine inv_step pmem s _ i (s.handles i) hi ho ?_ rfl (Nat.le_refl _) rfl ?_ ?_ (fun _ _ h => h) (fun _ => .inl rfl) ?_ (fun _ => hh.busy) (fun _ => hh.named) (fun _ => hh.running)
      · funext j; simp only [setI]; split
        · rename_i h; rw [h]
        · rfl
      · refine ginv_file s _ hi.g rfl rfl (Nat.le_refl _) rfl (fun _ _ h => h) ?_
        intro d hd n j hj
        rw [inode_other _ _ _ _ (hne d hd n j hj)]
        exact ⟨rfl, .inl rfl⟩
      · intro j hj hoj
        have : (s.handles j).ino ≠ (s.handles i).ino := fun he => hj (hi.distinct j i hoj ho he)
        rw [inode_other _ _ _ _ this]
        exact ⟨apart_same s _ _ rfl rfl, rfl, rfl⟩
      · intro _
        unfold PcInv
        rw [hc.1, hh.named hc.2]
        exact fun _ _ => hno
  · cases hs

theorem inv_storeManifest (pmem : Bool) (s s' : St) (i : Nat) (hi : Inv pmem s) (hs : step pmem s (.storeManifest i) = some s') : Inv pmem s' := by
  simp only [step] at hs
  split at hs
  · rename_i n hpc
    have ho := open_of_pc s i _ hpc (by simp)
    have hh := hi.h i ho
    have hb := hh.busy (by rw [hpc]; simp)
    split at hs
    · rename_i hp
      cases hs
      have hfresh : ∀ j, InoOk s j → j ≠ .tmp s.nextIno := by
        intro j hj he; rw [he] at hj; simp only [InoOk] at hj; omega
      refine inv_step pmem s _ i _ hi ho rfl rfl ?_ rfl ?_ ?_ ?_ (fun _ => .inr ⟨s.nextIno, ?_, Nat.le_refl _, ?_⟩) ?_ ?_ ?_ ?_
      · simp only [setH, setI]; omega
      · refine ginv_file s _ hi.g rfl rfl ?_ rfl ?_ ?_
        · simp only [setH, setI]; omega
        · intro m f hf; simp only [setH, setI]; split
          · exact List.mem_cons_of_mem _ hf
          · exact hf
        · intro d hd m j hj
          have := hfresh j (hi.g.ino d hd m j hj)
          simp only [setH, setI, Nat.add_sub_cancel]
          rw [if_neg this]
          exact ⟨rfl, .inl rfl⟩
      · intro j hj hoj
        have := hfresh _ (hi.h j hoj).ino
        simp only [setH, setI, Nat.add_sub_cancel]
        rw [if_neg this]
        exact ⟨apart_same s _ _ rfl rfl, rfl, rfl⟩
      · intro m f hf; simp only [setH, setI]; split
        · exact List.mem_cons_of_mem _ hf
        · exact hf
      · simp
      · simp only [setH, setI]; omega
      · intro _
        simp only [PcInv, setH, setI, Nat.add_sub_cancel, if_true]
        refine ⟨?_, by simp [Inode.write]⟩
        intro d hd m hm
        exact hfresh _ (hi.g.ino d hd m _ hm) rfl
      · intro _ _; exact hb
      · intro _ _; exact hb.2
      · intro _ h; rw [h] at hp; cases hp
    · rename_i hp
      cases hs
      have hp' : pmem = false := by simpa using hp
      have hno : Norefs s (s.handles i).ino := by
        have := hh.pc
        unfold PcInv at this
        rw [hpc] at this
        exact this hp'
      have hne : ∀ d ∈ s.pastDirs, ∀ n j, d n = some j → j ≠ (s.handles i).ino := by
        intro d hd n j hj he; exact hno d hd n (he ▸ hj)
      refine inv_step pmem s _ i _ hi ho rfl rfl (Nat.le_refl _) rfl ?_ ?_ ?_ (fun _ => .inl rfl) ?_ ?_ ?_ ?_
      · refine ginv_file s _ hi.g rfl rfl (Nat.le_refl _) rfl ?_ ?_
        · intro m f hf; simp only [setH, setI]; split
          · exact List.mem_cons_of_mem _ hf
          · exact hf
        · intro d hd m j hj
          simp only [setH, setI]
          rw [if_neg (hne d hd m j hj)]
          exact ⟨rfl, .inl rfl⟩
      · intro j hj hoj
        have : (s.handles j).ino ≠ (s.handles i).ino := fun he => hj (hi.distinct j i hoj ho he)
        simp only [setH, setI]
        rw [if_neg this]
        exact ⟨apart_same s _ _ rfl rfl, rfl, rfl⟩
      · intro m f hf; simp only [setH, setI]; split
        · exact List.mem_cons_of_mem _ hf
        · exact hf
      · intro _
        simp only [PcInv, setH, setI, if_true]
        exact ⟨hno, List.mem_cons_self⟩
      · intro _ _; exact hb
      · intro _ _; exact hb.2
      · intro _ _ h; simp only at h; rw [hb.1] at h; cases h
  · cases hs

theorem inv_storeSync (pmem : Bool) (s s' : St) (i : Nat) (ok : Bool) (hi : Inv pmem s) (hs : step pmem s (.storeSync i ok) = some s') : Inv pmem s' := by
  simp only [step] at hs
  split at hs
  · rename_i n hpc
    have ho := open_of_pc s i _ hpc (by simp)
    have hh := hi.h i ho
    have hb := hh.busy (by rw [hpc]; simp)
    have hp := hh.pc
    unfold PcInv at hp
    rw [hpc] at hp
    simp only at hp
    have hne : ∀ d ∈ s.pastDirs, ∀ n j, d n = some j → j ≠ (s.handles i).ino := by
      intro d hd n j hj he; exact hp.1 d hd n (he ▸ hj)
    split at hs
    · cases hs
      refine inv_step pmem s _ i _ hi ho rfl rfl (Nat.le_refl _) rfl ?_ ?_ (fun _ _ h => h) (fun _ => .inl rfl) ?_ ?_ ?_ ?_
      · refine ginv_file s _ hi.g rfl rfl (Nat.le_refl _) rfl (fun _ _ h => h) ?_
        intro d hd m j hj
        simp only [setH, setI]
        rw [if_neg (hne d hd m j hj)]
        exact ⟨rfl, .inl rfl⟩
      · intro j hj hoj
        have : (s.handles j).ino ≠ (s.handles i).ino := fun he => hj (hi.distinct j i hoj ho he)
        simp only [setH, setI]
        rw [if_neg this]
        exact ⟨apart_same s _ _ rfl rfl, rfl, rfl⟩
      · intro _
        simp only [PcInv, setH, setI, if_true]
        exact ⟨hp.1, hp.2, trivial⟩
      · intro _ _; exact hb
      · intro _ _; exact hb.2
      · intro _ _ h; simp only at h; rw [hb.1] at h; cases h
    · cases hs
      refine inv_local pmem s i _ hi ho rfl (fun _ => ?_) (fun _ h => absurd rfl h) (fun _ _ => hb.2) (fun _ _ h => ?_)
      · simp only [PcInv, hb.2]; exact fun _ _ => hp.1
      · simp only at h; rw [hb.1] at h; cases h
  · cases hs

theorem inv_storeLink (pmem : Bool) (s s' : St) (i : Nat) (ok : Bool) (hi : Inv pmem s) (hs : step pmem s (.storeLink i ok) = some s') : Inv pmem s' := by
  simp only [step] at hs
  split at hs
  · rename_i n hpc
    have ho := open_of_pc s i _ hpc (by simp)
    have hh := hi.h i ho
    have hb := hh.busy (by rw [hpc]; simp)
    have hp := hh.pc
    unfold PcInv at hp
    rw [hpc] at hp
    simp only at hp
    split at hs
    · rename_i hl
      cases hs
      have hlive : ∀ j, (if j = (s.handles i).ino then { s.inodes (s.handles i).ino with nlink := (s.inodes (s.handles i).ino).nlink + 1, linkable := false } else s.inodes j).live = (s.inodes j).live := by
        intro j; split
        · rename_i h; rw [h]
        · rfl
      have hpast : ∀ j, (if j = (s.handles i).ino then { s.inodes (s.handles i).ino with nlink := (s.inodes (s.handles i).ino).nlink + 1, linkable := false } else s.inodes j).past = (s.inodes j).past := by
        intro j; split
        · rename_i h; rw [h]
        · rfl
      have hnew : ∀ m j, Dir.set s.dir n (some (s.handles i).ino) m = some j → (m = n ∧ j = (s.handles i).ino) ∨ s.dir m = some j := by
        intro m j h
        unfold Dir.set at h
        split at h
        · rename_i hm; left; exact ⟨hm, by injection h with h; exact h.symm⟩
        · exact .inr h
      have hall : ∀ d ∈ Dir.set s.dir n (some (s.handles i).ino) :: s.pastDirs, ∀ m j, d m = some j →
          (m = n ∧ j = (s.handles i).ino) ∨ ∃ d' ∈ s.pastDirs, d' m = some j := by
        intro d hd m j hj
        rcases List.mem_cons.mp hd with rfl | hd
        · rcases hnew m j hj with h | h
          · exact .inl h
          · exact .inr ⟨s.dir, hi.g.dirIn, h⟩
        · exact .inr ⟨d, hd, hj⟩
      refine inv_step pmem s _ i _ hi ho rfl rfl (Nat.le_refl _) rfl ⟨?_, ?_, ?_, ?_⟩ ?_ (fun _ _ h => h) (fun _ => .inl rfl) ?_ ?_ ?_ ?_
      · simp [setH, setD]
      · intro d hd m j hj
        simp only [setH, setD, setI] at hd ⊢
        rw [hlive, hpast]
        rcases hall d hd m j hj with ⟨rfl, rfl⟩ | ⟨d', hd', h⟩
        · exact ⟨hp.2.2, hp.2.1⟩
        · exact hi.g.frozen d' hd' m j h
      · intro d hd d' hd' m m' j hj hj'
        simp only [setH, setD, setI] at hd hd'
        rcases hall d hd m j hj with ⟨rfl, rfl⟩ | ⟨e, he, h⟩
        · rcases hall d' hd' m' _ hj' with ⟨rfl, _⟩ | ⟨e', he', h'⟩
          · rfl
          · exact absurd h' (hp.1 e' he' m')
        · rcases hall d' hd' m' _ hj' with ⟨rfl, rfl⟩ | ⟨e', he', h'⟩
          · exact absurd h (hp.1 e he m)
          · exact hi.g.uniq e he e' he' m m' j h h'
      · intro d hd m j hj
        simp only [setH, setD, setI] at hd
        rcases hall d hd m j hj with ⟨rfl, rfl⟩ | ⟨d', hd', h⟩
        · exact hh.ino
        · exact hi.g.ino d' hd' m j h
      · intro j hj hoj
        have : (s.handles j).ino ≠ (s.handles i).ino := fun he => hj (hi.distinct j i hoj ho he)
        refine ⟨apart_set s _ _ n _ rfl rfl ?_ ?_, ?_, ?_⟩
        · intro h; injection h with h; exact this h.symm
        · rw [hl.2.1]; simp
        · simp only [setH, setD, setI]; exact hlive _
        · simp only [setH, setD, setI]; exact hpast _
      · intro _
        simp only [PcInv, setH, setD, setI, Dir.set, if_true]
      · intro _ _; exact hb
      · intro _ _; exact hb.2
      · intro _ _ h; simp only at h; rw [hb.1] at h; cases h
    · cases hs
      refine inv_local pmem s i _ hi ho rfl (fun _ => ?_) (fun _ h => absurd rfl h) (fun _ _ => hb.2) (fun _ _ h => ?_)
      · simp only [PcInv, hb.2]; exact fun _ _ => hp.1
      · simp only at h; rw [hb.1] at h; cases h
  · cases hs

theorem inv_storeSyncDir (pmem : Bool) (s s' : St) (i : Nat) (ok : Bool) (hi : Inv pmem s) (hs : step pmem s (.storeSyncDir i ok) = some s') : Inv pmem s' := by
  simp only [step] at hs
  split at hs
  · rename_i n hpc
    have ho := open_of_pc s i _ hpc (by simp)
    have hh := hi.h i ho
    have hb := hh.busy (by rw [hpc]; simp)
    have hp := hh.pc
    unfold PcInv at hp
    rw [hpc] at hp
    simp only at hp
    split at hs
    · cases hs
      refine inv_step pmem s _ i _ hi ho rfl rfl (Nat.le_refl _) rfl (ginv_sync s _ hi.g rfl rfl rfl rfl rfl rfl) ?_ (fun _ _ h => h) (fun _ => .inl rfl) ?_ ?_ ?_ ?_
      · intro j hj hoj; exact ⟨apart_sync s _ _ rfl rfl, rfl, rfl⟩
      · intro _
        simp only [PcInv, setH, List.mem_singleton]
        intro d hd; rw [hd]; exact hp
      · intro _ h; exact absurd rfl h
      · intro _ h; simp only at h; rw [hb.1] at h; cases h
      · intro _ _ h; simp only at h; rw [hb.1] at h; cases h
    · cases hs
      refine inv_local pmem s i _ hi ho rfl (fun _ => ?_) (fun _ h => absurd rfl h) (fun _ _ => hb.2) (fun _ _ h => ?_)
      · simp only [PcInv, hb.2]; intro _ h; cases h
      · simp only at h; rw [hb.1] at h; cases h
  · cases hs

theorem inv_unstore (pmem : Bool) (s s' : St) (i : Nat) (mu : Bool) (hi : Inv pmem s) (ha : Allowed pmem s (.unstore i mu)) (hs : step pmem s (.unstore i mu) = some s') : Inv pmem s' := by
  have ha' : mu = true → pmem = false → (s.handles i).failed = false := by
    intro h; subst h; exact ha
  simp only [step] at hs
  split at hs
  · rename_i hc
    have ho := open_of_pc s i _ hc.1 (by simp)
    have hh := hi.h i ho
    have hp := hh.pc
    unfold PcInv at hp
    rw [hc.1] at hp
    simp only at hp
    split at hs
    · rename_i hn
      cases hs
      rw [hn] at hp
      refine inv_local pmem s i _ hi ho rfl (fun _ => ?_) (fun _ h => absurd hc.1 h) (fun _ _ => hn) (fun _ hm h => ?_)
      · simp only [PcInv, hc.1, hn]; exact hp
      · simp only [Bool.and_eq_false_iff, Bool.not_eq_false'] at h
        rcases h with h | h
        · exact hh.running hm h
        · exact ha' h hm
    · rename_i n hn
      cases hs
      rw [hn] at hp
      have hco : (s.handles i).coherent = true := by
        cases h : (s.handles i).coherent with
        | true => rfl
        | false => have := hh.named h; rw [hn] at this; cases this
      refine inv_local pmem s i _ hi ho rfl (fun _ => ?_) (fun _ _ => ⟨hco, rfl⟩) (fun _ _ => rfl) (fun _ hm h => ?_)
      · simp only [PcInv]; exact ⟨hp s.dir hi.g.dirIn, fun h1 h2 => ha' h2 h1⟩
      · simp only at h; rw [hco] at h; cases h
  · cases hs

theorem inv_unstoreUnlink (pmem : Bool) (s s' : St) (i : Nat) (ok : Bool) (hi : Inv pmem s) (hs : step pmem s (.unstoreUnlink i ok) = some s') : Inv pmem s' := by
  simp only [step] at hs
  split at hs
  · rename_i n mu hpc
    have ho := open_of_pc s i _ hpc (by simp)
    have hh := hi.h i ho
    have hb := hh.busy (by rw [hpc]; simp)
    have hp := hh.pc
    unfold PcInv at hp
    rw [hpc] at hp
    simp only at hp
    split at hs
    · split at hs
      · rename_i hd; rw [hp.1] at hd; cases hd
      · rename_i j hd
        rw [hp.1] at hd
        injection hd with hd
        subst hd
        cases hs
        have hlive : ∀ j, (if j = (s.handles i).ino then { s.inodes (s.handles i).ino with nlink := (s.inodes (s.handles i).ino).nlink - 1 } else s.inodes j).live = (s.inodes j).live := by
          intro j; split
          · rename_i h; rw [h]
          · rfl
        have hpast : ∀ j, (if j = (s.handles i).ino then { s.inodes (s.handles i).ino with nlink := (s.inodes (s.handles i).ino).nlink - 1 } else s.inodes j).past = (s.inodes j).past := by
          intro j; split
          · rename_i h; rw [h]
          · rfl
        have hnew : ∀ m j, Dir.set s.dir n none m = some j → s.dir m = some j ∧ m ≠ n := by
          intro m j h
          unfold Dir.set at h
          split at h
          · cases h
          · rename_i hm; exact ⟨h, hm⟩
        have hall : ∀ d ∈ Dir.set s.dir n none :: s.pastDirs, ∀ m j, d m = some j → ∃ d' ∈ s.pastDirs, d' m = some j := by
          intro d hd m j hj
          rcases List.mem_cons.mp hd with rfl | hd
          · exact ⟨s.dir, hi.g.dirIn, (hnew m j hj).1⟩
          · exact ⟨d, hd, hj⟩
        refine inv_step pmem s _ i _ hi ho rfl rfl (Nat.le_refl _) rfl ⟨?_, ?_, ?_, ?_⟩ ?_ (fun _ _ h => h) (fun _ => .inl rfl) ?_ ?_ ?_ ?_
        · simp [setH, setD]
        · intro d hd m j hj
          simp only [setH, setD, setI] at hd ⊢
          rw [hlive, hpast]
          obtain ⟨d', hd', h⟩ := hall d hd m j hj
          exact hi.g.frozen d' hd' m j h
        · intro d hd d' hd' m m' j hj hj'
          obtain ⟨e, he, h⟩ := hall d hd m j hj
          obtain ⟨e', he', h'⟩ := hall d' hd' m' j hj'
          exact hi.g.uniq e he e' he' m m' j h h'
        · intro d hd m j hj
          obtain ⟨d', hd', h⟩ := hall d hd m j hj
          exact hi.g.ino d' hd' m j h
        · intro j hj hoj
          have : (s.handles j).ino ≠ (s.handles i).ino := fun he => hj (hi.distinct j i hoj ho he)
          refine ⟨apart_set s _ _ n _ rfl rfl ?_ ?_, ?_, ?_⟩
          · simp
          · rw [hp.1]; intro h; injection h with h; exact this h.symm
          · simp only [setH, setD, setI]; exact hlive _
          · simp only [setH, setD, setI]; exact hpast _
        · intro _
          simp only [PcInv, setH, setD, setI]
          refine ⟨?_, hp.2⟩
          intro m hm
          obtain ⟨h1, h2⟩ := hnew m _ hm
          exact h2 (hi.g.uniq s.dir hi.g.dirIn s.dir hi.g.dirIn m n _ h1 hp.1)
        · intro _ _; exact hb
        · intro _ _; exact hb.2
        · intro _ _ h; simp only at h; rw [hb.1] at h; cases h
    · cases hs
      refine inv_local pmem s i _ hi ho rfl (fun _ => ?_) (fun _ h => absurd rfl h) (fun _ _ => hb.2) (fun _ _ h => ?_)
      · simp only [PcInv, hb.2]; intro _ h; cases h
      · simp only at h; rw [hb.1] at h; cases h
  · cases hs

theorem inv_unstoreSyncDir (pmem : Bool) (s s' : St) (i : Nat) (ok : Bool) (hi : Inv pmem s) (hs : step pmem s (.unstoreSyncDir i ok) = some s') : Inv pmem s' := by
  simp only [step] at hs
  split at hs
  · rename_i n mu hpc
    have ho := open_of_pc s i _ hpc (by simp)
    have hh := hi.h i ho
    have hb := hh.busy (by rw [hpc]; simp)
    have hp := hh.pc
    unfold PcInv at hp
    rw [hpc] at hp
    simp only at hp
    split at hs
    · cases hs
      refine inv_step pmem s _ i _ hi ho rfl rfl (Nat.le_refl _) rfl (ginv_sync s _ hi.g rfl rfl rfl rfl rfl rfl) ?_ (fun _ _ h => h) (fun _ => .inl rfl) ?_ ?_ ?_ ?_
      · intro j hj hoj; exact ⟨apart_sync s _ _ rfl rfl, rfl, rfl⟩
      · intro _
        simp only [PcInv, setH, hb.2]
        intro _ _ d hd m
        simp only [List.mem_singleton] at hd
        rw [hd]
        exact hp.1 m
      · intro _ h; exact absurd rfl h
      · intro _ _; exact hb.2
      · intro _ hm h
        simp only [hb.1, Bool.true_and, Bool.not_eq_false'] at h
        exact hp.2 hm h
    · cases hs
      refine inv_local pmem s i _ hi ho rfl (fun _ => ?_) (fun _ h => absurd rfl h) (fun _ _ => hb.2) (fun _ _ h => ?_)
      · simp only [PcInv, hb.2]; intro _ h; cases h
      · simp only at h; rw [hb.1] at h; cases h
  · cases hs

theorem inv_small (pmem : Bool) (s s' : St) (hi : Inv pmem s) (l : Label) (ha : Allowed pmem s l) (hs : step pmem s l = some s') :
    match l with
    | .ready _ _ _ | .set _ _ | .store _ _ | .close _ => Inv pmem s'
    | _ => True := by
  cases l with
  | ready i man dirty =>
    simp only [step] at hs ⊢
    split at hs
    · rename_i hc
      cases hs
      have ho := open_of_pc s i _ hc.1 (by simp)
      have hh := hi.h i ho
      have hp := hh.pc
      unfold PcInv at hp
      rw [hc.1, hh.named hc.2] at hp
      refine inv_local pmem s i _ hi ho rfl (fun _ => ?_) (fun _ h => absurd hc.1 h) (fun _ h => by cases h) (fun _ _ h => by cases h)
      simp only [PcInv, hc.1, hh.named hc.2]
      exact hp
    · cases hs
  | set i man =>
    simp only [step] at hs ⊢
    split at hs
    · rename_i hc
      cases hs
      have ho := open_of_pc s i _ hc (by simp)
      have hh := hi.h i ho
      refine inv_local pmem s i _ hi ho rfl (fun _ => ?_) (fun _ h => absurd hc h) (fun _ => hh.named) (fun _ => hh.running)
      have hp := hh.pc
      unfold PcInv at hp ⊢
      rw [hc] at hp
      simp only [hc] at hp ⊢
      exact hp
    · cases hs
  | store i n =>
    simp only [step] at hs ⊢
    split at hs
    · rename_i hc
      cases hs
      have ho := open_of_pc s i _ hc.1 (by simp)
      have hh := hi.h i ho
      have hp := hh.pc
      unfold PcInv at hp
      rw [hc.1, hc.2.2] at hp
      refine inv_local pmem s i _ hi ho rfl (fun _ => ?_) (fun _ _ => hc.2) (fun _ => hh.named) (fun _ => hh.running)
      simp only [PcInv]
      exact fun h => hp h (ha h)
    · cases hs
  | close i =>
    simp only [step] at hs ⊢
    split at hs
    · rename_i hc
      cases hs
      have ho := open_of_pc s i _ hc (by simp)
      exact inv_local pmem s i _ hi ho rfl (fun h => absurd rfl h) (fun h => absurd rfl h) (fun h => absurd rfl h) (fun h => absurd rfl h)
    · cases hs
  | _ => trivial

/-- A new handle. -/
theorem inv_new (pmem : Bool) (s s' : St) (h' : Handle) (hi : Inv pmem s)
    (hh : s'.handles = fun j => if j = s.nextHandle then h' else s.handles j)
    (hn : s'.nextHandle = s.nextHandle + 1) (hni : s.nextIno ≤ s'.nextIno) (hb : s'.boots = s.boots)
    (hg : GInv s') (hd : s'.dir = s.dir) (hd' : s'.pastDirs = s.pastDirs) (hs : s'.saved = s.saved)
    (hother : ∀ j, Open s j → h'.ino ≠ (s.handles j).ino ∧ s'.inodes (s.handles j).ino = s.inodes (s.handles j).ino)
    (hino : InoOk s' h'.ino)
    (hpc : PcInv pmem s' h') (hidle : h'.pc = .idle)
    (hnamed : h'.coherent = false → h'.name = none)
    (hrun : h'.coherent = false → h'.failed = false) : Inv pmem s' := by
  have hlt : ∀ j, Open s j → j ≠ s.nextHandle := by
    intro j hj; have := (hi.h j hj).lt; omega
  have heq : ∀ j, j ≠ s.nextHandle → s'.handles j = s.handles j := by
    intro j hj; rw [hh]; simp only; rw [if_neg hj]
  have hieq : s'.handles s.nextHandle = h' := by rw [hh]; simp
  have hopen : ∀ j, j ≠ s.nextHandle → Open s' j → Open s j := by
    intro j hj h; unfold Open at h ⊢; rw [heq j hj] at h; exact h
  refine ⟨hg, ?_, ?_⟩
  · intro j hoj
    by_cases hj : j = s.nextHandle
    · subst hj
      refine ⟨by omega, ?_, ?_, ?_, ?_, ?_⟩ <;> rw [hieq]
      · exact hpc
      · intro h; exact absurd hidle h
      · exact hnamed
      · exact fun _ => hrun
      · exact hino
    · have hoj' := hopen j hj hoj
      have hi' := hi.h j hoj'
      refine ⟨by have := hi'.lt; omega, ?_, ?_, ?_, ?_, ?_⟩ <;> rw [heq j hj]
      · exact frame pmem s s' _ hi.g.dirIn hi'.pc (apart_same s s' _ hd' hd) (by rw [(hother j hoj').2]) (by rw [(hother j hoj').2]) (fun _ _ h => hs ▸ h)
      · exact hi'.busy
      · exact hi'.named
      · exact hi'.running
      · exact inoOk_mono s s' hni (by omega) _ hi'.ino
  · intro a b hoa hob he
    by_cases ha : a = s.nextHandle
    · by_cases hb' : b = s.nextHandle
      · rw [ha, hb']
      · rw [ha, hieq, heq b hb'] at he
        exact absurd he (hother b (hopen b hb' hob)).1
    · by_cases hb' : b = s.nextHandle
      · rw [hb', hieq, heq a ha] at he
        exact absurd he.symm (hother a (hopen a ha hoa)).1
      · rw [heq a ha, heq b hb'] at he
        exact hi.distinct a b (hopen a ha hoa) (hopen b hb' hob) he

theorem inv_create (pmem : Bool) (s s' : St) (hi : Inv pmem s) (hs : step pmem s .create = some s') : Inv pmem s' := by
  simp only [step] at hs
  cases hs
  have hfresh : ∀ j, InoOk s j → j ≠ .tmp s.nextIno := by
    intro j hj he; rw [he] at hj; simp only [InoOk] at hj; omega
  refine inv_new pmem s _ _ hi rfl rfl ?_ rfl ?_ rfl rfl rfl ?_ ?_ ?_ rfl (fun _ => rfl) (fun _ => rfl)
  · simp only [setH, setI]; omega
  · refine ginv_file s _ hi.g rfl rfl ?_ rfl (fun _ _ h => h) ?_
    · simp only [setH, setI]; omega
    · intro d hd m j hj
      simp only [setH, setI]
      rw [if_neg (hfresh j (hi.g.ino d hd m j hj))]
      exact ⟨rfl, .inl rfl⟩
  · intro j hoj
    have := hfresh _ (hi.h j hoj).ino
    refine ⟨this.symm, ?_⟩
    simp only [setH, setI]
    rw [if_neg this]
  · simp only [InoOk, setH, setI]; omega
  · simp only [PcInv]
    intro _ _ d hd m hm
    exact hfresh _ (hi.g.ino d hd m _ hm) rfl

theorem inv_load (pmem : Bool) (s s' : St) (n : Name) (man : Bytes) (hi : Inv pmem s) (hs : step pmem s (.load n man) = some s') : Inv pmem s' := by
  simp only [step] at hs
  split at hs
  · cases hs
  · rename_i j hj
    split at hs
    · rename_i hc
      cases hs
      simp only [List.all_eq_true, beq_iff_eq, List.mem_range, Bool.or_eq_true, bne_iff_ne, ne_eq] at hc
      refine inv_new pmem s _ _ hi rfl rfl (Nat.le_refl _) rfl ?_ rfl rfl rfl ?_ ?_ ?_ rfl (fun h => by cases h) (fun h => by cases h)
      · exact ginv_file s _ hi.g rfl rfl (Nat.le_refl _) rfl (fun _ _ h => h) (fun _ _ _ _ _ => ⟨rfl, .inl rfl⟩)
      · intro k hk
        refine ⟨?_, rfl⟩
        rcases hc.2 k (hi.h k hk).lt with h | h
        · exact absurd h hk
        · exact fun he => h he.symm
      · have := hi.g.ino s.dir hi.g.dirIn n j hj
        cases j <;> exact this
      · simp only [PcInv, setH]
        exact hc.1
    · cases hs

theorem inv_step_all (pmem : Bool) (s s' : St) (hi : Inv pmem s) (l : Label) (ha : Allowed pmem s l) (hs : step pmem s l = some s') : Inv pmem s' := by
  cases l with
  | create => exact inv_create pmem s s' hi hs
  | write i f => exact inv_write pmem s s' i f hi hs
  | ready i man dirty => exact inv_small pmem s s' hi _ ha hs
  | set i man => exact inv_small pmem s s' hi _ ha hs
  | store i n => exact inv_small pmem s s' hi _ ha hs
  | storeManifest i => exact inv_storeManifest pmem s s' i hi hs
  | storeSync i ok => exact inv_storeSync pmem s s' i ok hi hs
  | storeLink i ok => exact inv_storeLink pmem s s' i ok hi hs
  | storeSyncDir i ok => exact inv_storeSyncDir pmem s s' i ok hi hs
  | unstore i mu => exact inv_unstore pmem s s' i mu hi ha hs
  | unstoreUnlink i ok => exact inv_unstoreUnlink pmem s s' i ok hi hs
  | unstoreSyncDir i ok => exact inv_unstoreSyncDir pmem s s' i ok hi hs
  | close i => exact inv_small pmem s s' hi _ ha hs
  | load n man => exact inv_load pmem s s' n man hi hs
  | crash c => simp only [step] at hs; cases hs; exact inv_reboot pmem s hi c ha

theorem reach_inv (pmem : Bool) (s : St) (h : Reach pmem s) : Inv pmem s := by
  induction h with
  | init => exact inv_init pmem
  | step l _ ha hs ih => exact inv_step_all pmem _ _ ih l ha hs

end Gate.Storage
