import Verif.StorageProps
import Verif.ManifestProps
/-
The theorems about storing instances, with crashes at any point.
-/
namespace Gate.Storage
open Gate Gate.ImageFile

/-! ### Consistency -/

/-- Whatever is found under a name after a crash, at any point of any history with any number of instances and any failures, is byte for byte
a file which Store was asked to store under that name. With Filesystem, provided that an instance isn't stored or run after Store or Unstore has failed. -/
theorem crash_consistent_partial (pmem : Bool) (s : St) (h : Reach pmem s) (c : Name → Option File) (hc : Crash s c) (n : Name) (f : File) (hf : c n = some f) :
    f ∈ s.saved n :=
  crash_of_inv pmem s (reach_inv pmem s h) c hc n f hf

/-- What Store stores is what the instance's file has before the manifest: nothing else is ever asked to be stored. -/
theorem store_content (pmem : Bool) (s s' : St) (l : Label) (hs : step pmem s l = some s') (n : Name) (f : File) (hf : f ∈ s'.saved n) (hn : f ∉ s.saved n) :
    ∃ i, l = .storeManifest i ∧ (s.handles i).pc = .st1 n ∧
      ∀ k, k < Manifest.instManifestOffset → f k = if pmem then (s.handles i).mem k else (s.inodes (s.handles i).ino).live k := by
  cases l with
  | storeManifest i =>
    refine ⟨i, rfl, ?_⟩
    simp only [step] at hs
    split at hs
    · rename_i n' hpc
      split at hs
      · rename_i hp
        cases hs
        simp only [setH, setI] at hf
        split at hf
        · rename_i hnn
          rw [List.mem_cons] at hf
          rcases hf with hf | hf
          · refine ⟨by rw [hpc, hnn], fun k hk => ?_⟩
            rw [hf, if_pos hp, Manifest.marshal_elsewhere _ _ _ _ _ hk]
          · exact absurd hf hn
        · exact absurd hf hn
      · rename_i hp
        cases hs
        simp only [setH, setI] at hf
        split at hf
        · rename_i hnn
          rw [List.mem_cons] at hf
          rcases hf with hf | hf
          · refine ⟨by rw [hpc, hnn], fun k hk => ?_⟩
            rw [hf, if_neg hp]
            split
            · exact Manifest.marshal_elsewhere _ _ _ _ _ hk
            · rfl
          · exact absurd hf hn
        · exact absurd hf hn
    · cases hs
  | _ =>
    exfalso
    refine hn ?_
    revert hf
    simp only [step] at hs
    repeat' (first | cases hs | split at hs)
    all_goals exact id

/-- The manifest is in the file. -/
def Holds (f : File) (man : Bytes) : Prop :=
  ImageFile.read f Manifest.instManifestOffset (Manifest.header Manifest.instanceTag man).length = Manifest.header Manifest.instanceTag man

/-- The manifest is marked dirty unless it is what is in the file already; a loaded instance has the manifest which is in the file. (It isn't so with
FinishInstance: ImageFile.built_unloadable.) -/
def Honest (s : St) : Label → Prop
  | .ready i man dirty => dirty = true ∨ (s.handles i).dirty = true ∨ (man = (s.handles i).man ∧ Holds (s.inodes (s.handles i).ino).live man)
  | .load n man => ∀ j, s.dir n = some j → Holds (s.inodes j).live man
  | _ => True

inductive HReach (pmem : Bool) : St → Prop where
  | init : HReach pmem init
  | step {s s' : St} (l : Label) : HReach pmem s → Allowed pmem s l → Honest s l → step pmem s l = some s' → HReach pmem s'

theorem HReach.reach {pmem : Bool} {s : St} (h : HReach pmem s) : Reach pmem s := by
  induction h with
  | init => exact .init
  | step l _ ha _ hs ih => exact .step l ih ha hs

theorem holds_marshal (f : File) (man : Bytes) : Holds (Manifest.marshalManifest f man Manifest.instManifestOffset Manifest.instanceTag) man :=
  read_write f Manifest.instManifestOffset _

/-- A process doesn't write over the manifest. -/
theorem holds_write (f g : File) (man : Bytes) (h : Holds f man) : Holds (fun k => if k < Manifest.instManifestOffset then g k else f k) man := by
  unfold Holds at h ⊢
  refine Eq.trans ?_ h
  apply read_ext
  intro k _
  rw [if_neg (by omega)]

/-- The files which Store is asked to store have manifests; so has the file of an open instance, unless it is marked dirty or it hasn't got one yet. -/
structure MInv (pmem : Bool) (s : St) : Prop where
  saved : ∀ n f, f ∈ s.saved n → ∃ man, Holds f man
  handle : pmem = false → ∀ i, Open s i → (s.handles i).coherent = true → (s.handles i).dirty = true ∨ Holds (s.inodes (s.handles i).ino).live (s.handles i).man

/-- Steps which change one handle, and neither the contents of files nor what has been asked to be stored. -/
theorem minv_one (pmem : Bool) (s s' : St) (i : Nat) (h' : Handle) (hm : MInv pmem s)
    (hh : s'.handles = fun j => if j = i then h' else s.handles j) (hl : ∀ j, (s'.inodes j).live = (s.inodes j).live) (hs : s'.saved = s.saved)
    (h : pmem = false → h'.pc ≠ .closed → h'.coherent = true → h'.dirty = true ∨ Holds (s.inodes h'.ino).live h'.man) : MInv pmem s' := by
  refine ⟨fun n f hf => hm.saved n f (hs ▸ hf), fun hp j ho hc => ?_⟩
  rw [hl]
  unfold Open at ho
  rw [hh] at ho hc ⊢
  simp only at ho hc ⊢
  by_cases hj : j = i
  · rw [if_pos hj] at ho hc ⊢
    exact h hp ho hc
  · rw [if_neg hj] at ho hc ⊢
    exact hm.handle hp j ho hc

/-- ... and which don't change the manifest either. -/
theorem minv_keep (pmem : Bool) (s s' : St) (i : Nat) (h' : Handle) (hm : MInv pmem s) (ho : Open s i)
    (hh : s'.handles = fun j => if j = i then h' else s.handles j) (hl : ∀ j, (s'.inodes j).live = (s.inodes j).live) (hs : s'.saved = s.saved)
    (h1 : h'.man = (s.handles i).man) (h2 : h'.dirty = (s.handles i).dirty) (h3 : h'.ino = (s.handles i).ino)
    (h4 : h'.coherent = true → (s.handles i).coherent = true) : MInv pmem s' := by
  refine minv_one pmem s s' i h' hm hh hl hs (fun hp _ hc => ?_)
  rw [h1, h2, h3]
  exact hm.handle hp i ho (h4 hc)

theorem setI_live (s : St) (j : Ino) (x : Inode) (hx : x.live = (s.inodes j).live) (k : Ino) : ((setI s j x).inodes k).live = (s.inodes k).live := by
  simp only [setI]
  split
  · rename_i h; rw [h]; exact hx
  · rfl

theorem minv_step (pmem : Bool) (s s' : St) (hi : Inv pmem s) (hm : MInv pmem s) (l : Label) (hh : Honest s l) (hs : step pmem s l = some s') :
    MInv pmem s' := by
  cases l with
  | create =>
    simp only [step] at hs
    cases hs
    refine ⟨hm.saved, fun hp j ho hc => ?_⟩
    unfold Open at ho
    simp only [setH] at ho hc ⊢
    by_cases hj : j = s.nextHandle
    · rw [if_pos hj] at hc; cases hc
    · rw [if_neg hj] at ho hc ⊢
      have hok := (hi.h j ho).ino
      have : (s.handles j).ino ≠ .tmp s.nextIno := by
        intro he; rw [he] at hok; simp only [InoOk] at hok; omega
      simp only [setI]
      rw [if_neg this]
      exact hm.handle hp j ho hc
  | write i f =>
    simp only [step] at hs
    split at hs
    · rename_i hc
      have ho := open_of_pc s i _ hc.1 (by simp)
      split at hs
      · cases hs
        exact minv_keep pmem s _ i _ hm ho rfl (fun _ => rfl) rfl rfl rfl rfl (fun h => h)
      · cases hs
        refine ⟨hm.saved, fun hp j hoj hcj => ?_⟩
        have hj : j ≠ i := by
          intro he
          subst he
          have h2 := hc.2
          simp only [setI] at hcj
          rw [h2] at hcj; cases hcj
        have : (s.handles j).ino ≠ (s.handles i).ino := fun he => hj (hi.distinct j i hoj ho he)
        simp only [setI] at hcj ⊢
        rw [if_neg this]
        exact hm.handle hp j hoj hcj
    · cases hs
  | ready i man dirty =>
    simp only [step] at hs
    split at hs
    · rename_i hc
      cases hs
      refine minv_one pmem s _ i _ hm rfl (fun _ => rfl) rfl (fun hp _ _ => ?_)
      simp only [Honest] at hh
      simp only [Bool.or_eq_true]
      rcases hh with h | h | h
      · exact .inl (.inl h)
      · exact .inl (.inr h)
      · exact .inr h.2
    · cases hs
  | set i man =>
    simp only [step] at hs
    split at hs
    · cases hs
      exact minv_one pmem s _ i _ hm rfl (fun _ => rfl) rfl (fun _ _ _ => .inl rfl)
    · cases hs
  | store i n =>
    simp only [step] at hs
    split at hs
    · rename_i hc
      cases hs
      exact minv_keep pmem s _ i _ hm (open_of_pc s i _ hc.1 (by simp)) rfl (fun _ => rfl) rfl rfl rfl rfl (fun h => h)
    · cases hs
  | storeManifest i =>
    simp only [step] at hs
    split at hs
    · rename_i n hpc
      have ho := open_of_pc s i _ hpc (by simp)
      split at hs
      · rename_i hp
        cases hs
        refine ⟨fun m f hf => ?_, fun hp' => ?_⟩
        · simp only [setH, setI] at hf
          split at hf
          · rcases List.mem_cons.mp hf with h | h
            · exact ⟨_, h ▸ holds_marshal _ _⟩
            · exact hm.saved m f h
          · exact hm.saved m f hf
        · rw [hp'] at hp; cases hp
      · rename_i hp
        cases hs
        have hp' : pmem = false := by simpa using hp
        have hb := (hi.h i ho).busy (by rw [hpc]; simp)
        have hx : Holds (if (s.handles i).dirty = true then (s.inodes (s.handles i).ino).write (Manifest.marshalManifest (s.inodes (s.handles i).ino).live (s.handles i).man Manifest.instManifestOffset Manifest.instanceTag) else s.inodes (s.handles i).ino).live (s.handles i).man := by
          split
          · exact holds_marshal _ _
          · rename_i hd
            rcases hm.handle hp' i ho hb.1 with h | h
            · exact absurd h hd
            · exact h
        refine ⟨fun m f hf => ?_, fun _ j hoj hcj => ?_⟩
        · simp only [setH, setI] at hf
          split at hf
          · rcases List.mem_cons.mp hf with h | h
            · exact ⟨_, h ▸ hx⟩
            · exact hm.saved m f h
          · exact hm.saved m f hf
        · unfold Open at hoj
          simp only [setH] at hoj hcj ⊢
          by_cases hj : j = i
          · rw [if_pos hj]
            right
            simp only [setI, if_true]
            exact hx
          · rw [if_neg hj] at hoj hcj ⊢
            have : (s.handles j).ino ≠ (s.handles i).ino := fun he => hj (hi.distinct j i hoj ho he)
            simp only [setI]
            rw [if_neg this]
            exact hm.handle hp' j hoj hcj
    · cases hs
  | storeSync i ok =>
    simp only [step] at hs
    split at hs
    · rename_i n hpc
      have ho := open_of_pc s i _ hpc (by simp)
      split at hs
      · cases hs
        exact minv_keep pmem s _ i _ hm ho rfl (setI_live s _ _ rfl) rfl rfl rfl rfl (fun h => h)
      · cases hs
        exact minv_keep pmem s _ i _ hm ho rfl (fun _ => rfl) rfl rfl rfl rfl (fun h => h)
    · cases hs
  | storeLink i ok =>
    simp only [step] at hs
    split at hs
    · rename_i n hpc
      have ho := open_of_pc s i _ hpc (by simp)
      split at hs
      · cases hs
        exact minv_keep pmem s _ i _ hm ho rfl (setI_live s (s.handles i).ino _ rfl) rfl rfl rfl rfl (fun h => h)
      · cases hs
        exact minv_keep pmem s _ i _ hm ho rfl (fun _ => rfl) rfl rfl rfl rfl (fun h => h)
    · cases hs
  | storeSyncDir i ok =>
    simp only [step] at hs
    split at hs
    · rename_i n hpc
      have ho := open_of_pc s i _ hpc (by simp)
      split at hs
      · cases hs
        exact minv_keep pmem s _ i _ hm ho rfl (fun _ => rfl) rfl rfl rfl rfl (fun h => h)
      · cases hs
        exact minv_keep pmem s _ i _ hm ho rfl (fun _ => rfl) rfl rfl rfl rfl (fun h => h)
    · cases hs
  | unstore i mu =>
    simp only [step] at hs
    split at hs
    · rename_i hc
      have ho := open_of_pc s i _ hc.1 (by simp)
      split at hs
      · cases hs
        refine minv_keep pmem s _ i _ hm ho rfl (fun _ => rfl) rfl rfl rfl rfl (fun h => ?_)
        simp only [Bool.and_eq_true] at h
        exact h.1
      · cases hs
        exact minv_keep pmem s _ i _ hm ho rfl (fun _ => rfl) rfl rfl rfl rfl (fun h => h)
    · cases hs
  | unstoreUnlink i ok =>
    simp only [step] at hs
    split at hs
    · rename_i n mu hpc
      have ho := open_of_pc s i _ hpc (by simp)
      split at hs
      · split at hs
        · cases hs
          exact minv_keep pmem s _ i _ hm ho rfl (fun _ => rfl) rfl rfl rfl rfl (fun h => h)
        · rename_i j _
          cases hs
          exact minv_keep pmem s _ i _ hm ho rfl (setI_live s j _ rfl) rfl rfl rfl rfl (fun h => h)
      · cases hs
        exact minv_keep pmem s _ i _ hm ho rfl (fun _ => rfl) rfl rfl rfl rfl (fun h => h)
    · cases hs
  | unstoreSyncDir i ok =>
    simp only [step] at hs
    split at hs
    · rename_i n mu hpc
      have ho := open_of_pc s i _ hpc (by simp)
      split at hs
      · cases hs
        refine minv_keep pmem s _ i _ hm ho rfl (fun _ => rfl) rfl rfl rfl rfl (fun h => ?_)
        simp only [Bool.and_eq_true] at h
        exact h.1
      · cases hs
        exact minv_keep pmem s _ i _ hm ho rfl (fun _ => rfl) rfl rfl rfl rfl (fun h => h)
    · cases hs
  | close i =>
    simp only [step] at hs
    split at hs
    · rename_i hc
      cases hs
      exact minv_keep pmem s _ i _ hm (open_of_pc s i _ hc (by simp)) rfl (fun _ => rfl) rfl rfl rfl rfl (fun h => h)
    · cases hs
  | load n man =>
    simp only [step] at hs
    split at hs
    · cases hs
    · rename_i j hj
      split at hs
      · cases hs
        refine minv_one pmem s _ s.nextHandle _ hm rfl (fun _ => rfl) rfl (fun _ _ _ => .inr ?_)
        exact hh j hj
      · cases hs
  | crash c =>
    simp only [step] at hs
    cases hs
    exact ⟨hm.saved, fun _ i ho => absurd rfl ho⟩

theorem hreach_minv (pmem : Bool) (s : St) (h : HReach pmem s) : MInv pmem s := by
  induction h with
  | init => exact ⟨fun n f hf => by simp [init] at hf, fun _ i ho => absurd rfl ho⟩
  | step l h _ hh hs ih => exact minv_step pmem _ _ (reach_inv pmem _ h.reach) ih l hh hs

/-- Whatever is found after a crash has a complete manifest: an instance can be loaded of it. -/
theorem crash_manifest_partial (pmem : Bool) (s : St) (h : HReach pmem s) (c : Name → Option File) (hc : Crash s c) (n : Name) (f : File) (hf : c n = some f) :
    ∃ man, Holds f man :=
  (hreach_minv pmem s h).saved n f (crash_consistent_partial pmem s h.reach c hc n f hf)

/-- A file which holds a manifest is accepted by unmarshalManifest. -/
theorem holds_loads (f : File) (man : Bytes) (h : Holds f man) (hl : man.length ≤ 4088) :
    Manifest.unmarshalManifest f Manifest.instManifestOffset Manifest.instanceTag = .ok man := by
  have hw : Manifest.marshalManifest f man Manifest.instManifestOffset Manifest.instanceTag = f := by
    unfold Manifest.marshalManifest
    unfold Holds at h
    rw [← h]
    funext k
    unfold ImageFile.write
    split
    · rename_i hk
      simp only [ImageFile.read, List.length_map, List.length_range] at hk
      simp only [ImageFile.read]
      rw [List.getD_eq_getElem?_getD, List.getElem?_map, List.getElem?_range (by omega)]
      simp only [Option.map_some, Option.getD_some]
      exact congrArg f (by omega)
    · rfl
  have h2 := Manifest.header_round_trip f man Manifest.instManifestOffset Manifest.instanceTag (by simp only [Manifest.instanceTag]; omega) hl
  rw [hw] at h2
  exact h2

/-! ### Durability -/

/-- An instance which has been stored is in the storage after a crash, as it is now. -/
theorem durable (pmem : Bool) (s : St) (h : Reach pmem s) (i : Nat) (n : Name) (hp : (s.handles i).pc = .idle) (hn : (s.handles i).name = some n)
    (c : Name → Option File) (hc : Crash s c) : c n = some (s.inodes (s.handles i).ino).live := by
  have hi := reach_inv pmem s h
  have hh := (hi.h i (open_of_pc s i _ hp (by simp))).pc
  unfold PcInv at hh
  rw [hp, hn] at hh
  obtain ⟨d, hd, hx⟩ := hc n
  rw [hh d hd] at hx
  obtain ⟨f, hf, hk⟩ := hx
  rw [hf]
  congr 1
  funext k
  obtain ⟨v, hv, he⟩ := hk k
  rw [(hi.g.frozen d hd n _ (hh d hd)).1] at hv
  rw [he, List.mem_singleton.mp hv]

/-- A label which isn't a call of Unstore, BeginMutation or Close on the instance, nor a crash. -/
def Leaves (i : Nat) : Label → Prop
  | .unstore j _ => j ≠ i
  | .close j => j ≠ i
  | .crash _ => False
  | _ => True

/-- A history from a state to another, of labels of a kind. -/
inductive Run (pmem : Bool) (P : Label → Prop) : St → St → Prop where
  | refl (s : St) : Run pmem P s s
  | step {s s' s'' : St} (l : Label) : Run pmem P s s' → P l → Allowed pmem s' l → step pmem s' l = some s'' → Run pmem P s s''

theorem Run.reach {pmem : Bool} {P : Label → Prop} {s s' : St} (h : Run pmem P s s') (hr : Reach pmem s) : Reach pmem s' := by
  induction h with
  | refl => exact hr
  | step l _ _ ha hs ih => exact .step l ih ha hs

/-- The handle isn't affected by a step of another one. -/
theorem handle_other (s : St) (i j : Nat) (h : Handle) (hj : j ≠ i) : (setH s i h).handles j = s.handles j := by
  simp only [setH]; rw [if_neg hj]

theorem setI_other (s : St) (j k : Ino) (x : Inode) (h : k ≠ j) : (setI s j x).inodes k = s.inodes k := by
  simp only [setI]; rw [if_neg h]

/-- What a step of any handle leaves as it is: the files of the other open handles (except for the count of links of a file which is being unlinked
by its own handle), and those handles. -/
theorem step_other (pmem : Bool) (s s' : St) (hi : Inv pmem s) (l : Label) (hs : step pmem s l = some s') (i : Nat) (ho : Open s i)
    (hl : match l with
      | .write j _ | .ready j _ _ | .set j _ | .store j _ | .storeManifest j | .storeSync j _ | .storeLink j _ | .storeSyncDir j _
      | .unstore j _ | .unstoreUnlink j _ | .unstoreSyncDir j _ | .close j => j ≠ i
      | .crash _ => False
      | _ => True) :
    s'.handles i = s.handles i ∧ s'.inodes (s.handles i).ino = s.inodes (s.handles i).ino := by
  have hne : ∀ j, Open s j → j ≠ i → (s.handles i).ino ≠ (s.handles j).ino := fun j hoj hj he => hj (hi.distinct i j ho hoj he).symm
  have hfresh : (s.handles i).ino ≠ .tmp s.nextIno := by
    have := (hi.h i ho).ino
    intro he; rw [he] at this; simp only [InoOk] at this; omega
  have hlt := (hi.h i ho).lt
  cases l with
  | create =>
    simp only [step] at hs
    cases hs
    exact ⟨handle_other _ _ _ _ (by omega), by simp only [setH]; exact setI_other _ _ _ _ hfresh⟩
  | write j f =>
    simp only [step] at hs
    split at hs
    · rename_i hc
      have hoj := open_of_pc s j _ hc.1 (by simp)
      split at hs
      · cases hs; exact ⟨handle_other _ _ _ _ (Ne.symm hl), rfl⟩
      · cases hs; exact ⟨rfl, setI_other _ _ _ _ (hne j hoj hl)⟩
    · cases hs
  | ready j man dirty =>
    simp only [step] at hs
    split at hs
    · cases hs; exact ⟨handle_other _ _ _ _ (Ne.symm hl), rfl⟩
    · cases hs
  | set j man =>
    simp only [step] at hs
    split at hs
    · cases hs; exact ⟨handle_other _ _ _ _ (Ne.symm hl), rfl⟩
    · cases hs
  | store j n =>
    simp only [step] at hs
    split at hs
    · cases hs; exact ⟨handle_other _ _ _ _ (Ne.symm hl), rfl⟩
    · cases hs
  | storeManifest j =>
    simp only [step] at hs
    split at hs
    · rename_i n hpc
      have hoj := open_of_pc s j _ hpc (by simp)
      split at hs
      · cases hs
        refine ⟨handle_other _ _ _ _ (Ne.symm hl), ?_⟩
        simp only [setH, Nat.add_sub_cancel]
        exact setI_other _ _ _ _ hfresh
      · cases hs
        exact ⟨handle_other _ _ _ _ (Ne.symm hl), setI_other _ _ _ _ (hne j hoj hl)⟩
    · cases hs
  | storeSync j ok =>
    simp only [step] at hs
    split at hs
    · rename_i n hpc
      have hoj := open_of_pc s j _ hpc (by simp)
      split at hs
      · cases hs
        exact ⟨handle_other _ _ _ _ (Ne.symm hl), setI_other _ _ _ _ (hne j hoj hl)⟩
      · cases hs; exact ⟨handle_other _ _ _ _ (Ne.symm hl), rfl⟩
    · cases hs
  | storeLink j ok =>
    simp only [step] at hs
    split at hs
    · rename_i n hpc
      have hoj := open_of_pc s j _ hpc (by simp)
      split at hs
      · cases hs
        exact ⟨handle_other _ _ _ _ (Ne.symm hl), setI_other _ _ _ _ (hne j hoj hl)⟩
      · cases hs; exact ⟨handle_other _ _ _ _ (Ne.symm hl), rfl⟩
    · cases hs
  | storeSyncDir j ok =>
    simp only [step] at hs
    split at hs
    · split at hs
      · cases hs; exact ⟨handle_other _ _ _ _ (Ne.symm hl), rfl⟩
      · cases hs; exact ⟨handle_other _ _ _ _ (Ne.symm hl), rfl⟩
    · cases hs
  | unstore j mu =>
    simp only [step] at hs
    split at hs
    · split at hs
      · cases hs; exact ⟨handle_other _ _ _ _ (Ne.symm hl), rfl⟩
      · cases hs; exact ⟨handle_other _ _ _ _ (Ne.symm hl), rfl⟩
    · cases hs
  | unstoreUnlink j ok =>
    simp only [step] at hs
    split at hs
    · rename_i n mu hpc
      have hoj := open_of_pc s j _ hpc (by simp)
      have hp := (hi.h j hoj).pc
      unfold PcInv at hp
      rw [hpc] at hp
      simp only at hp
      split at hs
      · split at hs
        · cases hs; exact ⟨handle_other _ _ _ _ (Ne.symm hl), rfl⟩
        · rename_i k hk
          rw [hp.1] at hk
          injection hk with hk
          subst hk
          cases hs
          exact ⟨handle_other _ _ _ _ (Ne.symm hl), setI_other _ _ _ _ (hne j hoj hl)⟩
      · cases hs; exact ⟨handle_other _ _ _ _ (Ne.symm hl), rfl⟩
    · cases hs
  | unstoreSyncDir j ok =>
    simp only [step] at hs
    split at hs
    · split at hs
      · cases hs; exact ⟨handle_other _ _ _ _ (Ne.symm hl), rfl⟩
      · cases hs; exact ⟨handle_other _ _ _ _ (Ne.symm hl), rfl⟩
    · cases hs
  | close j =>
    simp only [step] at hs
    split at hs
    · cases hs; exact ⟨handle_other _ _ _ _ (Ne.symm hl), rfl⟩
    · cases hs
  | load n man =>
    simp only [step] at hs
    split at hs
    · cases hs
    · split at hs
      · cases hs; exact ⟨handle_other _ _ _ _ (by omega), rfl⟩
      · cases hs
  | crash c => exact absurd hl id

/-- A stored instance stays stored, and its file isn't touched. -/
theorem stored_stays (pmem : Bool) (s s' : St) (hi : Inv pmem s) (l : Label) (hs : step pmem s l = some s') (i : Nat) (n : Name)
    (hp : (s.handles i).pc = .idle) (hn : (s.handles i).name = some n) (hl : Leaves i l) :
    (s'.handles i).pc = .idle ∧ (s'.handles i).name = some n ∧ (s'.handles i).ino = (s.handles i).ino ∧
    s'.inodes (s.handles i).ino = s.inodes (s.handles i).ino := by
  have ho := open_of_pc s i _ hp (by simp)
  have hco : (s.handles i).coherent = true := by
    cases h : (s.handles i).coherent with
    | true => rfl
    | false => have := (hi.h i ho).named h; rw [hn] at this; cases this
  have done : s'.handles i = s.handles i ∧ s'.inodes (s.handles i).ino = s.inodes (s.handles i).ino →
      (s'.handles i).pc = .idle ∧ (s'.handles i).name = some n ∧ (s'.handles i).ino = (s.handles i).ino ∧
      s'.inodes (s.handles i).ino = s.inodes (s.handles i).ino := by
    intro ⟨h1, h2⟩
    rw [h1, h2]
    exact ⟨hp, hn, rfl, rfl⟩
  have other := step_other pmem s s' hi l hs i ho
  cases l with
  | create => exact done (other trivial)
  | load m man => exact done (other trivial)
  | crash c => exact absurd hl id
  | unstore j mu => exact done (other hl)
  | close j => exact done (other hl)
  | write j f =>
    by_cases hj : j = i
    · subst hj
      simp only [step] at hs
      rw [hco] at hs
      simp at hs
    · exact done (other hj)
  | ready j man dirty =>
    by_cases hj : j = i
    · subst hj
      simp only [step] at hs
      rw [hco] at hs
      simp at hs
    · exact done (other hj)
  | set j man =>
    by_cases hj : j = i
    · subst hj
      simp only [step] at hs
      rw [if_pos hp] at hs
      cases hs
      simp only [setH, if_true]
      exact ⟨hp, hn, trivial, trivial⟩
    · exact done (other hj)
  | store j m =>
    by_cases hj : j = i
    · subst hj
      simp only [step] at hs
      rw [hn] at hs
      simp at hs
    · exact done (other hj)
  | storeManifest j =>
    by_cases hj : j = i
    · subst hj
      simp only [step, hp] at hs
      cases hs
    · exact done (other hj)
  | storeSync j ok =>
    by_cases hj : j = i
    · subst hj
      simp only [step, hp] at hs
      cases hs
    · exact done (other hj)
  | storeLink j ok =>
    by_cases hj : j = i
    · subst hj
      simp only [step, hp] at hs
      cases hs
    · exact done (other hj)
  | storeSyncDir j ok =>
    by_cases hj : j = i
    · subst hj
      simp only [step, hp] at hs
      cases hs
    · exact done (other hj)
  | unstoreUnlink j ok =>
    by_cases hj : j = i
    · subst hj
      simp only [step, hp] at hs
      cases hs
    · exact done (other hj)
  | unstoreSyncDir j ok =>
    by_cases hj : j = i
    · subst hj
      simp only [step, hp] at hs
      cases hs
    · exact done (other hj)

/-- Once Store has returned, the stored file is found after a crash at any later point, whatever is done to other instances, until Unstore, BeginMutation or
Close is called on the instance. -/
theorem stored_survives (pmem : Bool) (s s' : St) (h : Reach pmem s) (i : Nat) (n : Name) (hp : (s.handles i).pc = .idle) (hn : (s.handles i).name = some n)
    (hr : Run pmem (Leaves i) s s') (c : Name → Option File) (hc : Crash s' c) : c n = some (s.inodes (s.handles i).ino).live := by
  have key : (s'.handles i).pc = .idle ∧ (s'.handles i).name = some n ∧ (s'.handles i).ino = (s.handles i).ino ∧
      s'.inodes (s.handles i).ino = s.inodes (s.handles i).ino := by
    clear hc
    induction hr with
    | refl => exact ⟨hp, hn, rfl, rfl⟩
    | step l hr hl ha hs ih =>
      obtain ⟨h1, h2, h3, h4⟩ := ih
      obtain ⟨g1, g2, g3, g4⟩ := stored_stays pmem _ _ (reach_inv pmem _ (hr.reach h)) l hs i n h1 h2 hl
      rw [h3] at g3 g4
      exact ⟨g1, g2, g3, g4.trans h4⟩
  have := durable pmem s' (hr.reach h) i n key.1 key.2.1 c hc
  rw [this, key.2.2.1, key.2.2.2]

/-! ### Running -/

/-- What a running process writes makes no difference to what is found after a crash. -/
theorem running_invisible_partial (pmem : Bool) (s s' : St) (h : Reach pmem s) (i : Nat) (f : File) (hs : step pmem s (.write i f) = some s')
    (c : Name → Option File) : Crash s' c ↔ Crash s c := by
  have hi := reach_inv pmem s h
  simp only [step] at hs
  split at hs
  · rename_i hc
    have ho := open_of_pc s i _ hc.1 (by simp)
    have hh := hi.h i ho
    split at hs
    · cases hs; exact Iff.rfl
    · rename_i hp
      cases hs
      have hp' : pmem = false := by simpa using hp
      have hno : Norefs s (s.handles i).ino := by
        have := hh.pc
        unfold PcInv at this
        rw [hc.1, hh.named hc.2] at this
        exact this hp' (hh.running hp' hc.2)
      have key : ∀ n d, d ∈ s.pastDirs →
          ((match d n with
            | none => c n = none
            | some j => ∃ f', c n = some f' ∧ ∀ k, ∃ v ∈ ((setI s (s.handles i).ino ((s.inodes (s.handles i).ino).write fun k => if k < Manifest.instManifestOffset then f k else (s.inodes (s.handles i).ino).live k)).inodes j).past, f' k = v k) ↔
          match d n with
            | none => c n = none
            | some j => ∃ f', c n = some f' ∧ ∀ k, ∃ v ∈ (s.inodes j).past, f' k = v k) := by
        intro n d hd
        cases hj : d n with
        | none => exact Iff.rfl
        | some j =>
          have hne : j ≠ (s.handles i).ino := by intro he; subst he; exact hno d hd n hj
          simp only [setI_other _ _ _ _ hne]
      constructor
      · intro hcr n
        obtain ⟨d, hd, hx⟩ := hcr n
        exact ⟨d, hd, (key n d hd).mp hx⟩
      · intro hcr n
        obtain ⟨d, hd, hx⟩ := hcr n
        exact ⟨d, hd, (key n d hd).mpr hx⟩
  · cases hs

/-! ### Storing again -/

/-- Steps of a method call. -/
def runs (pmem : Bool) (s : St) : List Label → Option St
  | [] => some s
  | l :: ls => match step pmem s l with
    | none => none
    | some s => runs pmem s ls

/-- A successful call of Store. -/
def storeCall (i : Nat) (n : Name) : List Label := [.store i n, .storeManifest i, .storeSync i true, .storeLink i true, .storeSyncDir i true]

/-- With PersistentMemory, an instance which is not running and not stored can be stored under any name which isn't taken, however many times it
has been stored before. -/
theorem store_again_mem (s : St) (i : Nat) (n : Name) (hp : (s.handles i).pc = .idle) (hc : (s.handles i).coherent = true)
    (hn : (s.handles i).name = none) (hd : s.dir n = none) :
    ∃ s', runs true s (storeCall i n) = some s' ∧ (s'.handles i).name = some n ∧ (s'.handles i).pc = .idle ∧
      (s'.inodes (s'.handles i).ino).live = Manifest.marshalManifest (s.handles i).mem (s.handles i).man Manifest.instManifestOffset Manifest.instanceTag := by
  simp [runs, storeCall, step, hp, hc, hn, setH, setI, setD, hd, blankInode, Inode.write]

/-- With Filesystem, the same holds of a file which can be linked, as that of a new instance can be. -/
theorem store_first_fs (s : St) (i : Nat) (n : Name) (hp : (s.handles i).pc = .idle) (hc : (s.handles i).coherent = true)
    (hn : (s.handles i).name = none) (hd : s.dir n = none) (hl : (s.inodes (s.handles i).ino).linkable = true) :
    ∃ s', runs false s (storeCall i n) = some s' ∧ (s'.handles i).name = some n ∧ (s'.handles i).pc = .idle := by
  cases hdi : (s.handles i).dirty
  · simp [runs, storeCall, step, hp, hc, hn, setH, setI, setD, hd, Inode.write, hdi, hl]
  · simp [runs, storeCall, step, hp, hc, hn, setH, setI, setD, hd, Inode.write, hdi, hl]

/-- The number of links of a file is the number of its names (which is at most one), and a file which has been linked is not linkable. -/
structure NInv (s : St) : Prop where
  linked : ∀ n j, s.dir n = some j → (s.inodes j).nlink = 1 ∧ (s.inodes j).linkable = false
  unlinked : ∀ j, (∀ n, s.dir n ≠ some j) → (s.inodes j).nlink = 0

theorem ninv_same (s s' : St) (h : NInv s) (hd : s'.dir = s.dir) (h1 : ∀ j, (s'.inodes j).nlink = (s.inodes j).nlink)
    (h2 : ∀ j, (s'.inodes j).linkable = (s.inodes j).linkable) : NInv s' := by
  refine ⟨fun n j hj => ?_, fun j hj => ?_⟩
  · rw [h1, h2]; exact h.linked n j (hd ▸ hj)
  · rw [h1]; exact h.unlinked j (hd ▸ hj)

theorem ninv_fresh (s s' : St) (h : NInv s) (hi : GInv s) (hd : s'.dir = s.dir) (x : Inode) (hx : x.nlink = 0)
    (h1 : s'.inodes = fun j => if j = .tmp s.nextIno then x else s.inodes j) : NInv s' := by
  refine ⟨fun n j hj => ?_, fun j hj => ?_⟩
  · rw [hd] at hj
    have hok := hi.ino s.dir hi.dirIn n j hj
    have : j ≠ .tmp s.nextIno := by intro he; rw [he] at hok; simp only [InoOk] at hok; omega
    rw [h1]; simp only; rw [if_neg this]
    exact h.linked n j hj
  · rw [h1]; simp only
    split
    · exact hx
    · exact h.unlinked j (hd ▸ hj)

theorem setI_nlink (s : St) (j : Ino) (x : Inode) (hx : x.nlink = (s.inodes j).nlink) (k : Ino) : ((setI s j x).inodes k).nlink = (s.inodes k).nlink := by
  simp only [setI]
  split
  · rename_i h; rw [h]; exact hx
  · rfl

theorem setI_linkable (s : St) (j : Ino) (x : Inode) (hx : x.linkable = (s.inodes j).linkable) (k : Ino) : ((setI s j x).inodes k).linkable = (s.inodes k).linkable := by
  simp only [setI]
  split
  · rename_i h; rw [h]; exact hx
  · rfl

theorem ninv_step (pmem : Bool) (s s' : St) (hi : Inv pmem s) (h : NInv s) (l : Label) (hs : step pmem s l = some s') : NInv s' := by
  cases l with
  | create =>
    simp only [step] at hs
    cases hs
    exact ninv_fresh s _ h hi.g rfl blankInode rfl rfl
  | write i f =>
    simp only [step] at hs
    split at hs
    · split at hs
      · cases hs; exact ninv_same s _ h rfl (fun _ => rfl) (fun _ => rfl)
      · cases hs; exact ninv_same s _ h rfl (setI_nlink s _ _ rfl) (setI_linkable s _ _ rfl)
    · cases hs
  | ready i man dirty =>
    simp only [step] at hs
    split at hs <;> cases hs
    exact ninv_same s _ h rfl (fun _ => rfl) (fun _ => rfl)
  | set i man =>
    simp only [step] at hs
    split at hs <;> cases hs
    exact ninv_same s _ h rfl (fun _ => rfl) (fun _ => rfl)
  | store i n =>
    simp only [step] at hs
    split at hs <;> cases hs
    exact ninv_same s _ h rfl (fun _ => rfl) (fun _ => rfl)
  | storeManifest i =>
    simp only [step] at hs
    split at hs
    · split at hs
      · cases hs
        refine ninv_fresh s _ h hi.g rfl _ ?_ (by simp only [setH, setI, Nat.add_sub_cancel]; rfl)
        simp [Inode.write, blankInode]
      · cases hs
        have e1 : ∀ x : Inode, ∀ b : Bool, ∀ f : File, (if b = true then x.write f else x).nlink = x.nlink := by
          intro x b f; split <;> rfl
        have e2 : ∀ x : Inode, ∀ b : Bool, ∀ f : File, (if b = true then x.write f else x).linkable = x.linkable := by
          intro x b f; split <;> rfl
        exact ninv_same s _ h rfl (fun j => setI_nlink s _ _ (e1 _ _ _) j) (fun j => setI_linkable s _ _ (e2 _ _ _) j)
    · cases hs
  | storeSync i ok =>
    simp only [step] at hs
    split at hs
    · split at hs
      · cases hs
        refine ninv_same s _ h rfl (fun j => ?_) (fun j => ?_)
        · simp only [setH, setI]
          split
          · rename_i hj; rw [hj]
          · rfl
        · simp only [setH, setI]
          split
          · rename_i hj; rw [hj]
          · rfl
      · cases hs; exact ninv_same s _ h rfl (fun _ => rfl) (fun _ => rfl)
    · cases hs
  | storeLink i ok =>
    simp only [step] at hs
    split at hs
    · rename_i n hpc
      have ho := open_of_pc s i _ hpc (by simp)
      have hp := (hi.h i ho).pc
      unfold PcInv at hp
      rw [hpc] at hp
      simp only at hp
      have h0 := h.unlinked (s.handles i).ino (hp.1 s.dir hi.g.dirIn)
      split at hs
      · rename_i hl
        cases hs
        refine ⟨fun m j hj => ?_, fun j hj => ?_⟩
        · simp only [setH, setD, setI, Dir.set] at hj ⊢
          by_cases hjj : j = (s.handles i).ino
          · rw [if_pos hjj]; exact ⟨by simp [h0], rfl⟩
          · rw [if_neg hjj]
            split at hj
            · injection hj with hj; exact absurd hj.symm hjj
            · exact h.linked m j hj
        · simp only [setH, setD, setI, Dir.set] at hj ⊢
          by_cases hjj : j = (s.handles i).ino
          · have := hj n
            rw [if_pos rfl, hjj] at this
            exact absurd rfl this
          · rw [if_neg hjj]
            apply h.unlinked
            intro m hm
            have := hj m
            by_cases hmn : m = n
            · rw [hmn, hl.2.1] at hm; cases hm
            · rw [if_neg hmn] at this; exact this hm
      · cases hs; exact ninv_same s _ h rfl (fun _ => rfl) (fun _ => rfl)
    · cases hs
  | storeSyncDir i ok =>
    simp only [step] at hs
    split at hs
    · split at hs <;> cases hs <;> exact ninv_same s _ h rfl (fun _ => rfl) (fun _ => rfl)
    · cases hs
  | unstore i mu =>
    simp only [step] at hs
    split at hs
    · split at hs <;> cases hs <;> exact ninv_same s _ h rfl (fun _ => rfl) (fun _ => rfl)
    · cases hs
  | unstoreUnlink i ok =>
    simp only [step] at hs
    split at hs
    · rename_i n mu hpc
      have ho := open_of_pc s i _ hpc (by simp)
      have hp := (hi.h i ho).pc
      unfold PcInv at hp
      rw [hpc] at hp
      simp only at hp
      split at hs
      · split at hs
        · cases hs; exact ninv_same s _ h rfl (fun _ => rfl) (fun _ => rfl)
        · rename_i k hk
          rw [hp.1] at hk
          injection hk with hk
          subst hk
          cases hs
          have h1 := h.linked n _ hp.1
          refine ⟨fun m j hj => ?_, fun j hj => ?_⟩
          · simp only [setH, setD, setI, Dir.set] at hj ⊢
            split at hj
            · cases hj
            · rename_i hmn
              by_cases hjj : j = (s.handles i).ino
              · rw [hjj] at hj
                exact absurd (hi.g.uniq s.dir hi.g.dirIn s.dir hi.g.dirIn m n _ hj hp.1) hmn
              · rw [if_neg hjj]; exact h.linked m j hj
          · simp only [setH, setD, setI, Dir.set] at hj ⊢
            by_cases hjj : j = (s.handles i).ino
            · rw [if_pos hjj]; simp [h1.1]
            · rw [if_neg hjj]
              apply h.unlinked
              intro m hm
              have := hj m
              by_cases hmn : m = n
              · rw [hmn, hp.1] at hm; injection hm with hm; exact hjj hm.symm
              · rw [if_neg hmn] at this; exact this hm
      · cases hs; exact ninv_same s _ h rfl (fun _ => rfl) (fun _ => rfl)
    · cases hs
  | unstoreSyncDir i ok =>
    simp only [step] at hs
    split at hs
    · split at hs <;> cases hs <;> exact ninv_same s _ h rfl (fun _ => rfl) (fun _ => rfl)
    · cases hs
  | close i =>
    simp only [step] at hs
    split at hs <;> cases hs
    exact ninv_same s _ h rfl (fun _ => rfl) (fun _ => rfl)
  | load n man =>
    simp only [step] at hs
    split at hs
    · cases hs
    · split at hs <;> cases hs
      exact ninv_same s _ h rfl (fun _ => rfl) (fun _ => rfl)
  | crash c =>
    simp only [step] at hs
    cases hs
    refine ⟨fun n j hj => ?_, fun j hj => ?_⟩
    · simp only [reboot] at hj ⊢
      cases hf : c n with
      | none => rw [hf] at hj; cases hj
      | some f => rw [hf] at hj; cases hj; simp only [if_true, hf]; exact ⟨trivial, trivial⟩
    · simp only [reboot] at hj ⊢
      cases j with
      | tmp k => rfl
      | found b n =>
        simp only
        split
        · rename_i hb
          cases hf : c n with
          | none => rfl
          | some f => have := hj n; rw [hf, hb] at this; exact absurd rfl this
        · rfl

theorem reach_ninv (pmem : Bool) (s : St) (h : Reach pmem s) : NInv s := by
  induction h with
  | init => exact ⟨fun n j hj => (by cases hj), fun j _ => rfl⟩
  | step l hr _ hs ih => exact ninv_step pmem _ _ (reach_inv pmem _ hr) ih l hs

/-- An instance whose file has been linked and unlinked. -/
structure Dead (s : St) (i : Nat) : Prop where
  pc : (s.handles i).pc = .idle ∨ ∃ n, (s.handles i).pc = .st1 n ∨ (s.handles i).pc = .st2 n ∨ (s.handles i).pc = .st3 n
  name : (s.handles i).name = none
  nlink : (s.inodes (s.handles i).ino).nlink = 0
  linkable : (s.inodes (s.handles i).ino).linkable = false

theorem Dead.op {s : St} {i : Nat} (h : Dead s i) : Open s i := by
  unfold Open
  rcases h.pc with h | ⟨n, h | h | h⟩ <;> rw [h] <;> simp

theorem dead_step (s s' : St) (hi : Inv false s) (i : Nat) (h : Dead s i) (l : Label) (hl : ∀ c, l ≠ .crash c) (hcl : l ≠ .close i)
    (hs : step false s l = some s') : Dead s' i := by
  have ho := h.op
  have done : s'.handles i = s.handles i ∧ s'.inodes (s.handles i).ino = s.inodes (s.handles i).ino → Dead s' i := by
    intro ⟨h1, h2⟩
    refine ⟨?_, ?_, ?_, ?_⟩ <;> rw [h1]
    · exact h.pc
    · exact h.name
    · rw [h2]; exact h.nlink
    · rw [h2]; exact h.linkable
  have other := step_other false s s' hi l hs i ho
  have hn := h.nlink
  have hk := h.linkable
  cases l with
  | create => exact done (other trivial)
  | load m man => exact done (other trivial)
  | crash c => exact absurd rfl (hl c)
  | close j =>
    have : j ≠ i := fun he => hcl (by rw [he])
    exact done (other this)
  | unstore j mu =>
    by_cases hj : j = i
    · subst hj
      simp only [step] at hs
      split at hs
      · rename_i hc
        rw [h.name] at hs
        cases hs
        refine ⟨?_, ?_, ?_, ?_⟩ <;> simp only [setH, if_true]
        · exact .inl hc.1
        · exact hn
        · exact hk
      · cases hs
    · exact done (other hj)
  | write j f =>
    by_cases hj : j = i
    · subst hj
      simp only [step] at hs
      split at hs
      · cases hs
        refine ⟨h.pc, h.name, ?_, ?_⟩ <;> simp only [setI, if_true, Inode.write]
        · exact hn
        · exact hk
      · cases hs
    · exact done (other hj)
  | ready j man dirty =>
    by_cases hj : j = i
    · subst hj
      simp only [step] at hs
      split at hs
      · cases hs
        refine ⟨?_, ?_, ?_, ?_⟩ <;> simp only [setH, if_true]
        · exact h.pc
        · exact h.name
        · exact hn
        · exact hk
      · cases hs
    · exact done (other hj)
  | set j man =>
    by_cases hj : j = i
    · subst hj
      simp only [step] at hs
      split at hs
      · cases hs
        refine ⟨?_, ?_, ?_, ?_⟩ <;> simp only [setH, if_true]
        · exact h.pc
        · exact h.name
        · exact hn
        · exact hk
      · cases hs
    · exact done (other hj)
  | store j m =>
    by_cases hj : j = i
    · subst hj
      simp only [step] at hs
      split at hs
      · cases hs
        refine ⟨?_, ?_, ?_, ?_⟩ <;> simp only [setH, if_true]
        · exact .inr ⟨m, .inl rfl⟩
        · exact h.name
        · exact hn
        · exact hk
      · cases hs
    · exact done (other hj)
  | storeManifest j =>
    by_cases hj : j = i
    · subst hj
      simp only [step] at hs
      split at hs
      · rename_i n _
        simp only [Bool.false_eq_true, if_false] at hs
        cases hs
        refine ⟨?_, ?_, ?_, ?_⟩ <;> simp only [setH, setI, if_true]
        · exact .inr ⟨n, .inr (.inl rfl)⟩
        · exact h.name
        · split <;> exact hn
        · split <;> exact hk
      · cases hs
    · exact done (other hj)
  | storeSync j ok =>
    by_cases hj : j = i
    · subst hj
      simp only [step] at hs
      split at hs
      · rename_i n _
        split at hs
        · cases hs
          refine ⟨?_, ?_, ?_, ?_⟩ <;> simp only [setH, setI, if_true]
          · exact .inr ⟨n, .inr (.inr rfl)⟩
          · exact h.name
          · exact hn
          · exact hk
        · cases hs
          refine ⟨?_, ?_, ?_, ?_⟩ <;> simp only [setH, if_true]
          · exact .inl trivial
          · exact h.name
          · exact hn
          · exact hk
      · cases hs
    · exact done (other hj)
  | storeLink j ok =>
    by_cases hj : j = i
    · subst hj
      simp only [step] at hs
      split at hs
      · rename_i n _
        rw [if_neg (by rw [hn, hk]; simp)] at hs
        cases hs
        refine ⟨?_, ?_, ?_, ?_⟩ <;> simp only [setH, if_true]
        · exact .inl trivial
        · exact h.name
        · exact hn
        · exact hk
      · cases hs
    · exact done (other hj)
  | storeSyncDir j ok =>
    by_cases hj : j = i
    · subst hj
      simp only [step] at hs
      rcases h.pc with hp | ⟨n, hp | hp | hp⟩ <;> rw [hp] at hs <;> cases hs
    · exact done (other hj)
  | unstoreUnlink j ok =>
    by_cases hj : j = i
    · subst hj
      simp only [step] at hs
      rcases h.pc with hp | ⟨n, hp | hp | hp⟩ <;> rw [hp] at hs <;> cases hs
    · exact done (other hj)
  | unstoreSyncDir j ok =>
    by_cases hj : j = i
    · subst hj
      simp only [step] at hs
      rcases h.pc with hp | ⟨n, hp | hp | hp⟩ <;> rw [hp] at hs <;> cases hs
    · exact done (other hj)

/-- A successful call of Unstore or BeginMutation. -/
def unstoreCall (i : Nat) (mu : Bool) : List Label := [.unstore i mu, .unstoreUnlink i true, .unstoreSyncDir i true]

/-- With Filesystem, an instance which has been stored and unstored (as it is when it is run) can never be stored again: in no history does Store succeed. -/
theorem never_stored_again (s s' s'' : St) (h : Reach false s) (i : Nat) (n : Name) (mu : Bool) (hp : (s.handles i).pc = .idle) (hn : (s.handles i).name = some n)
    (ha : Allowed false s (.unstore i mu)) (hu : runs false s (unstoreCall i mu) = some s')
    (hr : Run false (fun l => (∀ c, l ≠ .crash c) ∧ l ≠ .close i) s' s'') : (s''.handles i).name = none := by
  have hi := reach_inv false s h
  have hh := hi.h i (open_of_pc s i _ hp (by simp))
  have hpc := hh.pc
  unfold PcInv at hpc
  rw [hp, hn] at hpc
  simp only at hpc
  have hd := hpc s.dir hi.g.dirIn
  have hl := (reach_ninv false s h).linked n _ hd
  have hco : (s.handles i).coherent = true := by
    cases h : (s.handles i).coherent with
    | true => rfl
    | false => have := hh.named h; rw [hn] at this; cases this
  have hdead : Dead s' i ∧ Reach false s' := by
    unfold unstoreCall runs at hu
    split at hu
    · cases hu
    · rename_i s1 h1
      have r1 := Reach.step _ h ha h1
      unfold runs at hu
      split at hu
      · cases hu
      · rename_i s2 h2
        have r2 := Reach.step (.unstoreUnlink i true) r1 trivial h2
        unfold runs at hu
        split at hu
        · cases hu
        · rename_i s3 h3
          have r3 := Reach.step (.unstoreSyncDir i true) r2 trivial h3
          simp only [runs] at hu
          cases hu
          refine ⟨?_, r3⟩
          simp only [step] at h1
          rw [if_pos ⟨hp, .inr hco⟩, hn] at h1
          cases h1
          simp only [step, setH, if_true, hd] at h2
          cases h2
          simp only [step, setH, if_true] at h3
          cases h3
          refine ⟨?_, ?_, ?_, ?_⟩ <;> simp only [setH, setD, setI, if_true]
          · exact .inl trivial
          · rw [hl.1]
          · exact hl.2
  have key : Dead s'' i := by
    clear hu
    induction hr with
    | refl => exact hdead.1
    | step l hr hl _ hs ih => exact dead_step _ _ (reach_inv false _ (hr.reach hdead.2)) i ih l hl.1 hl.2 hs
  exact key.name


/-! ### Careless use -/

/-- The states after any history, including using an instance after one of its methods has failed. -/
inductive FReach (pmem : Bool) : St → Prop where
  | init : FReach pmem init
  | step {s s' : St} (l : Label) : FReach pmem s → (∀ c, l = .crash c → Crash s c) → step pmem s l = some s' → FReach pmem s'

theorem freach_runs (pmem : Bool) (ls : List Label) (hl : ∀ l ∈ ls, ∀ c, l ≠ .crash c) (s s' : St) (h : FReach pmem s) (hr : runs pmem s ls = some s') : FReach pmem s' := by
  induction ls generalizing s with
  | nil => simp only [runs] at hr; cases hr; exact h
  | cons l ls ih =>
    unfold runs at hr
    split at hr
    · cases hr
    · rename_i s1 h1
      exact ih (fun l hm => hl l (List.mem_cons_of_mem _ hm)) s1 (.step l h (fun c hc => absurd hc (hl l List.mem_cons_self c)) h1) hr

def one : File := fun _ => 1

/-- A new instance is stored as 5, but syncing the directory fails. The instance is then run. -/
def badSync : List Label :=
  [.create, .ready 0 [7] true, .store 0 5, .storeManifest 0, .storeSync 0 true, .storeLink 0 true, .storeSyncDir 0 false, .unstore 0 true, .write 0 one]

/-- A new instance is stored as 5. Removing the link fails in BeginMutation, which is called again, and the instance is then run. -/
def badUnlink : List Label :=
  [.create, .ready 0 [7] true] ++ storeCall 0 5 ++ [.unstore 0 true, .unstoreUnlink 0 false, .unstore 0 true, .write 0 one]

theorem bad_run (ls : List Label) (hls : ls = badSync ∨ ls = badUnlink) :
    ∃ s, FReach false s ∧ ∃ c f, Crash s c ∧ c 5 = some f ∧ f ∉ s.saved 5 := by
  have hfree : ∀ l ∈ ls, ∀ c, l ≠ .crash c := by
    rcases hls with h | h <;> subst h <;> intro l hl c hc <;> subst hc <;> simp [badSync, badUnlink, storeCall] at hl
  have hne : ∀ g : File, g = (fun k => if k < Manifest.instManifestOffset then one k else Manifest.marshalManifest blank [7] Manifest.instManifestOffset Manifest.instanceTag k) →
      g ∉ [Manifest.marshalManifest blank [7] Manifest.instManifestOffset Manifest.instanceTag] := by
    intro g hg hm
    have h0 := congrFun ((List.mem_singleton.mp hm).symm.trans hg) 0
    rw [if_pos (by decide)] at h0
    revert h0
    decide
  obtain ⟨g, hg⟩ : ∃ g : File, g = fun k => if k < Manifest.instManifestOffset then one k else Manifest.marshalManifest blank [7] Manifest.instManifestOffset Manifest.instanceTag k := ⟨_, rfl⟩
  obtain ⟨s, hs, hd, hl, hsv⟩ : ∃ s, runs false init ls = some s ∧ (s.dir ∈ s.pastDirs ∧ s.dir = fun n => if n = 5 then some (.tmp 0) else none) ∧
      g ∈ (s.inodes (.tmp 0)).past ∧ s.saved 5 = [Manifest.marshalManifest blank [7] Manifest.instManifestOffset Manifest.instanceTag] := by
    subst hg
    rcases hls with h | h <;> subst h <;>
      simp [badSync, badUnlink, storeCall, runs, step, init, setH, setI, setD, blankInode, Inode.write, Dir.set, blank]
    all_goals funext m; simp [Dir.set]
  refine ⟨s, freach_runs false ls hfree init s .init hs, fun n => if n = 5 then some g else none, g, ?_, by simp, ?_⟩
  · intro n
    refine ⟨s.dir, hd.1, ?_⟩
    rw [hd.2]
    by_cases h : n = 5
    · simp only [if_pos h]
      exact ⟨g, rfl, fun k => ⟨g, hl, rfl⟩⟩
    · simp only [if_neg h]
  · rw [hsv]; exact hne g hg

/-- Filesystem: when Store fails at syncing the directory, the file has been linked but the instance doesn't know it. Running the instance then changes the file in the
storage, so that what is found after a crash may be something which was never stored. -/
theorem store_failure_refuted : ∃ s, FReach false s ∧ ∃ c f, Crash s c ∧ c 5 = some f ∧ f ∉ s.saved 5 := bad_run badSync (.inl rfl)

/-- Filesystem: when removing the link fails, the instance forgets that it is stored, and the second BeginMutation lets the process change the file in the storage. -/
theorem unstore_failure_refuted : ∃ s, FReach false s ∧ ∃ c f, Crash s c ∧ c 5 = some f ∧ f ∉ s.saved 5 := bad_run badUnlink (.inr rfl)

/-! ### Examples -/

/-- A new instance is stored as 5. -/
def goodRun : List Label := [.create, .ready 0 [7] true] ++ storeCall 0 5

theorem reach_runs (pmem : Bool) (ls : List Label) (hl : ∀ s, ∀ l ∈ ls, Allowed pmem s l) (s s' : St) (h : Reach pmem s) (hr : runs pmem s ls = some s') : Reach pmem s' := by
  induction ls generalizing s with
  | nil => simp only [runs] at hr; cases hr; exact h
  | cons l ls ih =>
    unfold runs at hr
    split at hr
    · cases hr
    · rename_i s1 h1
      exact ih (fun s l hm => hl s l (List.mem_cons_of_mem _ hm)) s1 (.step l h (hl s l List.mem_cons_self) h1) hr

/-- Hypotheses of durable, stored_survives: a reachable state with a stored instance. -/
example (pmem : Bool) : ∃ s, runs pmem init goodRun = some s ∧ (s.handles 0).pc = .idle ∧ (s.handles 0).name = some 5 := by
  cases pmem <;> simp [goodRun, storeCall, runs, step, init, setH, setI, setD, blankInode, Inode.write]

theorem goodRun_reach (pmem : Bool) : ∃ s, Reach pmem s ∧ (s.handles 0).pc = .idle ∧ (s.handles 0).name = some 5 ∧ (s.handles 0).failed = false ∧
    (s.handles 0).coherent = true := by
  obtain ⟨s, hs, hf⟩ : ∃ s, runs pmem init [.create, .ready 0 [7] true] = some s ∧ (s.handles 0).failed = false ∧ (s.handles 0).pc = .idle ∧
      (s.handles 0).coherent = true ∧ (s.handles 0).name = none ∧ s.dir = (fun _ => none) ∧ (s.inodes (s.handles 0).ino).nlink = 0 ∧
      (s.inodes (s.handles 0).ino).linkable = true := by
    cases pmem <;> simp [runs, step, init, setH, setI, blankInode]
  have h0 : Reach pmem s := reach_runs pmem _ (by intro s l hl; simp at hl; rcases hl with h | h <;> subst h <;> trivial) init s .init hs
  obtain ⟨s1, h1, e1⟩ : ∃ s1, step pmem s (.store 0 5) = some s1 ∧ s1 = setH s 0 { s.handles 0 with pc := .st1 5 } := by
    simp [step, hf]
  have r1 : Reach pmem s1 := .step (.store 0 5) h0 (fun _ => hf.1) h1
  obtain ⟨s2, h2, e2⟩ : ∃ s2, runs pmem s1 [.storeManifest 0, .storeSync 0 true, .storeLink 0 true, .storeSyncDir 0 true] = some s2 ∧
      (s2.handles 0).pc = .idle ∧ (s2.handles 0).name = some 5 ∧ (s2.handles 0).failed = false ∧ (s2.handles 0).coherent = true := by
    subst e1
    cases hdd : (s.handles 0).dirty <;> cases pmem <;> simp [runs, step, setH, setI, setD, hf, hdd, blankInode, Inode.write]
  exact ⟨s2, reach_runs pmem _ (by intro s l hl; simp at hl; rcases hl with h | h | h | h <;> subst h <;> trivial) s1 s2 r1 h2, e2⟩

end Gate.Storage
