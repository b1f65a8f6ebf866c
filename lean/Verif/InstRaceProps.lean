import Verif.InstRace
/-
C173, C174: an instance's unlocked fields, its processes and its image, under all interleavings of its clients and its driver.
-/
namespace Gate.InstRace

/-! ## Specification -/

/-- The life of a process which has come to its end. -/
def ended (p : Nat) : List (List Ev) :=
  [[.start p true, .serve p, .served p, .close p], [.start p false, .close p], [.close p]]

/-- The life of a process so far. -/
def lives (p : Nat) : List (List Ev) :=
  ended p ++ [[], [.start p true], [.start p true, .serve p], [.start p true, .serve p, .served p]]

/-! ## Invariant -/

/-- Responsible for the current run of the instance. -/
def Pc.active : Pc → Bool
  | .want .start | .inside .start | .drive | .serving _ | .want .finish | .inside .finish => true
  | _ => false

/-- The run has begun. -/
def Pc.begun : Pc → Bool
  | .drive | .serving _ | .want .finish | .inside .finish => true
  | _ => false

/-- The process which a goroutine has allocated and not yet given to the instance. -/
def Pc.spare : Pc → Option Nat
  | .want (.doResume p) | .inside (.doResume p) | .discard p => some p
  | _ => none

/-- What has happened to the process of the current run. -/
def Pc.life (p : Nat) : Pc → List Ev
  | .drive => [.start p true]
  | .serving _ => [.start p true, .serve p]
  | .want .finish | .inside .finish => [.start p true, .serve p, .served p]
  | _ => []

def Pc.locked : Pc → Bool
  | .inside _ => true
  | _ => false

structure Good (σ : State) : Prop where
  lock : ∀ i, (σ.pc i).locked = true ↔ σ.owner = some i
  one : ∀ i j, (σ.pc i).active = true → (σ.pc j).active = true → i = j
  fresh : σ.status = .fresh → σ.exist = false
  act : ∀ i, (σ.pc i).active = true → σ.image = true ∧ (σ.status = .running ∨ σ.status = .fresh) ∧ closings σ.log σ.chan = 0 ∧ σ.services = σ.process
  run : ∀ i, (σ.pc i).begun = true → σ.status = .running ∧ σ.exist = true ∧ σ.process ≠ none
  serv : ∀ i p, σ.pc i = .serving p → σ.process = some p
  img : σ.exist = true → σ.status ≠ .running → σ.image = true
  proc : ∀ p, σ.process = some p → p < σ.procs
  spare : ∀ i p, (σ.pc i).spare = some p → p < σ.procs ∧ σ.process ≠ some p ∧ history σ.log p = []
  spares : ∀ i j p, (σ.pc i).spare = some p → (σ.pc j).spare = some p → i = j
  unborn : ∀ p, σ.procs ≤ p → history σ.log p = []
  cur : ∀ i p, (σ.pc i).active = true → σ.process = some p → history σ.log p = (σ.pc i).life p
  old : ∀ p, p < σ.procs → (σ.process ≠ some p ∨ ∀ i, (σ.pc i).active = false) → (∃ i, (σ.pc i).spare = some p) ∨ history σ.log p ∈ ended p
  chan : σ.chan < σ.chans
  chans : ∀ n, σ.chans ≤ n → closings σ.log n = 0
  once : ∀ n, closings σ.log n ≤ 1

@[simp] theorem set_same (f : Nat → Pc) (i : Nat) (v : Pc) : set f i v i = v := by simp [set]
theorem set_other (f : Nat → Pc) {i j : Nat} (v : Pc) (h : j ≠ i) : set f i v j = f j := by simp [set, h]

@[simp] theorem history_start (l : List Ev) (q p : Nat) (b : Bool) : history (.start q b :: l) p = history l p ++ (if q = p then [.start q b] else []) := by
  by_cases h : q = p <;> simp [history, h]
@[simp] theorem history_serve (l : List Ev) (q p : Nat) : history (.serve q :: l) p = history l p ++ (if q = p then [.serve q] else []) := by
  by_cases h : q = p <;> simp [history, h]
@[simp] theorem history_served (l : List Ev) (q p : Nat) : history (.served q :: l) p = history l p ++ (if q = p then [.served q] else []) := by
  by_cases h : q = p <;> simp [history, h]
@[simp] theorem history_close (l : List Ev) (q p : Nat) : history (.close q :: l) p = history l p ++ (if q = p then [.close q] else []) := by
  by_cases h : q = p <;> simp [history, h]
@[simp] theorem history_stopped (l : List Ev) (n p : Nat) : history (.stopped n :: l) p = history l p := by simp [history]
@[simp] theorem history_crash (l : List Ev) (p : Nat) : history (.crash :: l) p = history l p := by simp [history]
@[simp] theorem history_image (l : List Ev) (b : Bool) (p : Nat) : history (imageEvents b ++ l) p = history l p := by cases b <;> simp [imageEvents]
@[simp] theorem closings_start (l : List Ev) (q n : Nat) (b : Bool) : closings (.start q b :: l) n = closings l n := by simp [closings]
@[simp] theorem closings_serve (l : List Ev) (q n : Nat) : closings (.serve q :: l) n = closings l n := by simp [closings]
@[simp] theorem closings_served (l : List Ev) (q n : Nat) : closings (.served q :: l) n = closings l n := by simp [closings]
@[simp] theorem closings_close (l : List Ev) (q n : Nat) : closings (.close q :: l) n = closings l n := by simp [closings]
@[simp] theorem closings_crash (l : List Ev) (n : Nat) : closings (.crash :: l) n = closings l n := by simp [closings]
@[simp] theorem closings_stopped (l : List Ev) (m n : Nat) : closings (.stopped m :: l) n = closings l n + (if m = n then 1 else 0) := by
  by_cases h : m = n <;> simp [closings, h]
@[simp] theorem closings_image (l : List Ev) (b : Bool) (n : Nat) : closings (imageEvents b ++ l) n = closings l n := by cases b <;> simp [imageEvents]

theorem good_initial (b : Bool) : Good (initial b) := by
  have hp : ∀ i, (initial b).pc i = if i = 0 then .want .start else .idle := fun _ => rfl
  have hl : (initial b).log = [] := rfl
  constructor
  · intro i; rw [hp]; by_cases h : i = 0 <;> simp [h, Pc.locked, initial]
  · intro i j; rw [hp, hp]; by_cases h : i = 0 <;> by_cases h' : j = 0 <;> simp [h, h', Pc.active]
  · intro _; rfl
  · intro i; rw [hl]; simp [initial, closings]
  · intro i; rw [hp]; by_cases h : i = 0 <;> simp [h, Pc.begun]
  · intro i p; rw [hp]; by_cases h : i = 0 <;> simp [h]
  · intro h; simp [initial] at h
  · intro p; cases b <;> simp [initial]; omega
  · intro i p; rw [hp]; by_cases h : i = 0 <;> simp [h, Pc.spare]
  · intro i j p; rw [hp]; by_cases h : i = 0 <;> simp [h, Pc.spare]
  · intro p _; rw [hl]; rfl
  · intro i p; rw [hp, hl]; by_cases h : i = 0 <;> simp [h, Pc.active, Pc.life, history]
  · intro p hp h
    cases b
    · simp [initial] at hp
    · have : p = 0 := by simp [initial] at hp; omega
      subst this
      rcases h with h | h
      · exact absurd rfl h
      · have := h 0; have e : (initial true).pc 0 = .want .start := rfl; rw [e] at this; simp [Pc.active] at this
  · simp [initial]
  · intro n _; rw [hl]; rfl
  · intro n; rw [hl]; simp [closings]


theorem locked_leave {σ : State} (hl : ∀ i, (σ.pc i).locked = true ↔ σ.owner = some i) {i : Nat} {v : Pc} (hi : (σ.pc i).locked = true) (hv : v.locked = false) :
    ∀ j, (set σ.pc i v j).locked = true ↔ (none : Option Nat) = some j := by
  intro j
  by_cases h : j = i
  · subst h; simp [hv]
  · have h1 := (hl i).1 hi
    have h2 := hl j
    rw [set_other _ _ h]
    constructor
    · intro h3; have := h2.1 h3; rw [h1] at this; exact absurd (Option.some.inj this).symm h
    · intro h3; cases h3

theorem good_quiet {σ σ' : State} {i : Nat} {v : Pc} (hg : Good σ) (hpc : σ'.pc = set σ.pc i v)
    (hi : (σ.pc i).active = false) (hs : (σ.pc i).spare = v.spare) (hv : v.active = false)
    (hlock : ∀ j, (σ'.pc j).locked = true ↔ σ'.owner = some j)
    (h1 : σ'.exist = σ.exist) (h2 : σ'.status = σ.status) (h3 : σ'.image = σ.image) (h4 : σ'.process = σ.process) (h5 : σ'.services = σ.services)
    (h6 : σ'.chan = σ.chan) (h7 : σ'.chans = σ.chans) (h8 : σ'.procs = σ.procs)
    (h9 : ∀ p, history σ'.log p = history σ.log p) (h10 : ∀ n, closings σ'.log n = closings σ.log n) : Good σ' := by
  have hb : v.begun = false := by revert hv; cases v <;> simp [Pc.active, Pc.begun]; rename_i k; cases k <;> simp; rename_i k; cases k <;> simp
  have hsv : ∀ p, v ≠ .serving p := by intro p h; subst h; simp [Pc.active] at hv
  have hact : ∀ j, (σ'.pc j).active = true → j ≠ i ∧ σ'.pc j = σ.pc j ∧ (σ.pc j).active = true := by
    intro j h; rw [hpc] at h ⊢
    by_cases e : j = i
    · subst e; simp [hv] at h
    · rw [set_other _ _ e] at h ⊢; exact ⟨e, rfl, h⟩
  have hact' : ∀ j, (σ'.pc j).active = (σ.pc j).active := by
    intro j; rw [hpc]
    by_cases e : j = i
    · subst e; simp [hv, hi]
    · rw [set_other _ _ e]
  have hsp : ∀ j, (σ'.pc j).spare = (σ.pc j).spare := by
    intro j; rw [hpc]
    by_cases e : j = i
    · subst e; simp [hs]
    · rw [set_other _ _ e]
  have hbe : ∀ j, (σ'.pc j).begun = true → σ'.pc j = σ.pc j := by
    intro j h; rw [hpc] at h ⊢
    by_cases e : j = i
    · subst e; simp [hb] at h
    · rw [set_other _ _ e]
  obtain ⟨g1, g2, g3, g4, g5, g6, g7, g8, g9, g10, g11, g12, g13, g14, g15, g16⟩ := hg
  refine ⟨hlock, ?_, ?_, ?_, ?_, ?_, ?_, ?_, ?_, ?_, ?_, ?_, ?_, ?_, ?_, ?_⟩
  · intro a b ha hb'; exact g2 a b (hact' a ▸ ha) (hact' b ▸ hb')
  · rw [h1, h2]; exact g3
  · intro j h; rw [h2, h3, h4, h5, h6, h10]; exact g4 j (hact' j ▸ h)
  · intro j h; rw [h1, h2, h4]; have := hbe j h; rw [this] at h; exact g5 j h
  · intro j p h; rw [h4]
    have : σ'.pc j = σ.pc j := hbe j (by rw [h]; rfl)
    rw [this] at h; exact g6 j p h
  · rw [h1, h2, h3]; exact g7
  · rw [h4, h8]; exact g8
  · intro j p; rw [hsp, h4, h8, h9]; exact g9 j p
  · intro a b p; rw [hsp, hsp]; exact g10 a b p
  · intro p; rw [h8, h9]; exact g11 p
  · intro j p h; rw [h4, h9]; have := hact j h; rw [this.2.1]; exact g12 j p this.2.2
  · intro p hp h; rw [h9]; simp only [hsp]; rw [h8] at hp; apply g13 p hp; rw [h4] at h
    rcases h with h | h
    · exact .inl h
    · exact .inr fun j => by rw [← hact']; exact h j
  · rw [h6, h7]; exact g14
  · intro n; rw [h7, h10]; exact g15 n
  · intro n; rw [h10]; exact g16 n

/-- Leaving a section which changes nothing. -/
theorem good_leave {σ : State} {i : Nat} {k : Sec} {v : Pc} {l : List Ev} (hg : Good σ) (hi : σ.pc i = .inside k) (hk : k ≠ .start ∧ k ≠ .finish) (hv : v.active = false)
    (hw : v.locked = false) (hs : (Pc.inside k).spare = v.spare)
    (h9 : ∀ p, history l p = history σ.log p) (h10 : ∀ n, closings l n = closings σ.log n) : Good { leave σ i v with log := l } := by
  refine good_quiet (i := i) (v := v) hg rfl ?_ (by rw [hi]; exact hs) hv ?_ rfl rfl rfl rfl rfl rfl rfl rfl h9 h10
  · rw [hi]; revert hk; cases k <;> simp [Pc.active]
  · exact locked_leave hg.lock (by rw [hi]; rfl) hw

theorem locked_same {σ : State} (hl : ∀ i, (σ.pc i).locked = true ↔ σ.owner = some i) {i : Nat} {v : Pc} (hi : (σ.pc i).locked = false) (hv : v.locked = false) :
    ∀ j, (set σ.pc i v j).locked = true ↔ σ.owner = some j := by
  intro j
  rw [← hl j]
  by_cases h : j = i
  · subst h; simp [hv, hi]
  · rw [set_other _ _ h]

theorem begun_active {v : Pc} (h : v.begun = true) : v.active = true := by
  revert h; cases v <;> simp [Pc.active, Pc.begun] <;> (rename_i k; cases k <;> simp)

theorem active_spare {v : Pc} (h : v.active = true) : v.spare = none := by
  revert h; cases v <;> simp [Pc.active, Pc.spare] <;> (rename_i k; cases k <;> simp)

/-- A step of the goroutine which is responsible for the run, or becomes it. -/
theorem good_active {σ σ' : State} {i : Nat} {v : Pc} (hg : Good σ) (hpc : σ'.pc = set σ.pc i v) (hna : ∀ j, j ≠ i → (σ.pc j).active = false)
    (hlock : ∀ j, (σ'.pc j).locked = true ↔ σ'.owner = some j)
    (hv : v.spare = none ∨ v.spare = (σ.pc i).spare) (hproc : σ'.process = σ.process ∨ ∃ q, (σ.pc i).spare = some q ∧ σ'.process = some q ∧ v.spare = none) (hprocs : σ'.procs = σ.procs)
    (hfresh : σ'.status = .fresh → σ'.exist = false)
    (hact : v.active = true → σ'.image = true ∧ (σ'.status = .running ∨ σ'.status = .fresh) ∧ closings σ'.log σ'.chan = 0 ∧ σ'.services = σ'.process)
    (hrun : v.begun = true → σ'.status = .running ∧ σ'.exist = true ∧ σ'.process ≠ none)
    (hserv : ∀ p, v = .serving p → σ'.process = some p)
    (himg : σ'.exist = true → σ'.status ≠ .running → σ'.image = true)
    (hhist : ∀ p, σ'.process ≠ some p → (σ.pc i).spare ≠ some p → history σ'.log p = history σ.log p)
    (hsp : ∀ p, (σ.pc i).spare = some p → v.spare = none → σ'.process ≠ some p → history σ'.log p ∈ ended p)
    (hsp' : ∀ p, v.spare = some p → history σ'.log p = [])
    (hcur : ∀ p, v.active = true → σ'.process = some p → history σ'.log p = v.life p)
    (hcur' : ∀ p, v.active = false → σ'.process = some p → history σ'.log p ∈ ended p)
    (hchan : σ'.chan < σ'.chans) (hchans : ∀ n, σ'.chans ≤ n → closings σ'.log n = 0) (honce : ∀ n, closings σ'.log n ≤ 1) : Good σ' := by
  have hj : ∀ j, j ≠ i → σ'.pc j = σ.pc j := fun j h => by rw [hpc, set_other _ _ h]
  have hi : σ'.pc i = v := by rw [hpc, set_same]
  have hact' : ∀ j, (σ'.pc j).active = true → j = i ∧ v.active = true := by
    intro j h
    by_cases e : j = i
    · subst e; rw [hi] at h; exact ⟨rfl, h⟩
    · rw [hj j e] at h; rw [hna j e] at h; cases h
  obtain ⟨g1, g2, g3, g4, g5, g6, g7, g8, g9, g10, g11, g12, g13, g14, g15, g16⟩ := hg
  refine ⟨hlock, ?_, hfresh, ?_, ?_, ?_, himg, ?_, ?_, ?_, ?_, ?_, ?_, hchan, hchans, honce⟩
  · intro a b ha hb; rw [(hact' a ha).1, (hact' b hb).1]
  · intro j h; exact hact (hact' j h).2
  · intro j h
    have := hact' j (begun_active h)
    rw [this.1, hi] at h; exact hrun h
  · intro j p h
    have := hact' j (by rw [h]; rfl)
    rw [this.1, hi] at h; exact hserv p h
  · intro p h; grind
  · intro j p h
    by_cases e : j = i
    · subst e; rw [hi] at h
      refine ⟨?_, ?_, hsp' p h⟩
      · rcases hv with hv | hv
        · rw [hv] at h; cases h
        · rw [hv] at h; rw [hprocs]; exact (g9 _ _ h).1
      · grind
    · rw [hj j e] at h
      have h1 := g9 j p h
      have h2 : (σ.pc i).spare ≠ some p := fun h' => e (g10 j i p h h')
      have h3 : σ'.process ≠ some p := by grind
      exact ⟨by omega, h3, by rw [hhist p h3 h2]; exact h1.2.2⟩
  · intro a b p ha hb
    by_cases ea : a = i <;> by_cases eb : b = i
    · rw [ea, eb]
    · subst ea; rw [hi] at ha; rw [hj b eb] at hb
      rcases hv with hv | hv
      · rw [hv] at ha; cases ha
      · rw [hv] at ha; exact g10 a b p ha hb
    · subst eb; rw [hi] at hb; rw [hj a ea] at ha
      rcases hv with hv | hv
      · rw [hv] at hb; cases hb
      · rw [hv] at hb; exact g10 a b p ha hb
    · rw [hj a ea] at ha; rw [hj b eb] at hb; exact g10 a b p ha hb
  · intro p h
    rw [hprocs] at h
    have h2 : (σ.pc i).spare ≠ some p := fun h' => by have := (g9 i p h').1; omega
    have h3 : σ'.process ≠ some p := by
      intro h'
      rcases hproc with h4 | h4
      · rw [h4] at h'; have := g8 p h'; omega
      · obtain ⟨q, h5, h6, _⟩ := h4; rw [h6] at h'; cases h'; exact h2 h5
    rw [hhist p h3 h2]; exact g11 p h
  · intro j p h hp
    have := hact' j h
    rw [this.1, hi]; exact hcur p this.2 hp
  · intro p hpp h
    rw [hprocs] at hpp
    by_cases hp : σ'.process = some p
    · rcases h with h | h
      · exact absurd hp h
      · exact .inr (hcur' p (by rw [← hi]; exact h i) hp)
    · by_cases hs : (σ.pc i).spare = some p
      · by_cases hv' : v.spare = none
        · exact .inr (hsp p hs hv' hp)
        · left
          refine ⟨i, ?_⟩
          rw [hi]
          rcases hv with hv | hv
          · exact absurd hv hv'
          · rw [hv]; exact hs
      · rw [hhist p hp hs]
        have : (∃ j, (σ.pc j).spare = some p) ∨ history σ.log p ∈ ended p := by
          apply g13 p hpp
          by_cases ha : (σ.pc i).active = true
          · left
            have := active_spare ha
            grind
          · right; intro j; by_cases e : j = i
            · subst e; simpa using ha
            · exact hna j e
        rcases this with ⟨j, hj'⟩ | h'
        · left
          refine ⟨j, ?_⟩
          rw [hj j (fun e => hs (e ▸ hj'))]; exact hj'
        · exact .inr h'

theorem good_fresh {σ : State} {i : Nat} (hg : Good σ) (h : σ.pc i = .inside .checkResume) :
    Good { leave σ i (.want (.doResume σ.procs)) with procs := σ.procs + 1 } := by
  have hpc : ∀ j, (set σ.pc i (.want (.doResume σ.procs)) j).active = (σ.pc j).active ∧ (set σ.pc i (.want (.doResume σ.procs)) j).begun = (σ.pc j).begun
      ∧ (∀ p, (set σ.pc i (.want (.doResume σ.procs)) j).life p = (σ.pc j).life p) ∧ (∀ p, set σ.pc i (.want (.doResume σ.procs)) j = .serving p ↔ σ.pc j = .serving p)
      ∧ (set σ.pc i (.want (.doResume σ.procs)) j).spare = if j = i then some σ.procs else (σ.pc j).spare := by
    intro j
    by_cases e : j = i
    · subst e; rw [h, set_same]; simp [Pc.active, Pc.begun, Pc.spare, Pc.life]
    · simp [set_other _ _ e, e]
  have hl := locked_leave (v := .want (.doResume σ.procs)) hg.lock (by rw [h]; rfl) rfl
  obtain ⟨g1, g2, g3, g4, g5, g6, g7, g8, g9, g10, g11, g12, g13, g14, g15, g16⟩ := hg
  refine ⟨hl, ?_, g3, ?_, ?_, ?_, g7, ?_, ?_, ?_, ?_, ?_, ?_, g14, g15, g16⟩
  · intro a b; simp only [leave, hpc]; exact g2 a b
  · intro j; simp only [leave, hpc]; exact g4 j
  · intro j; simp only [leave, hpc]; exact g5 j
  · intro j p; simp only [leave, hpc]; exact g6 j p
  · intro p hp; have := g8 p hp; simp only; omega
  · intro j p
    simp only [leave, hpc]
    split
    · intro hp; cases hp
      exact ⟨by omega, fun h' => by have := g8 _ h'; omega, g11 _ (Nat.le_refl _)⟩
    · intro hp; have := g9 j p hp; exact ⟨by omega, this.2⟩
  · intro a b p; simp only [leave, hpc]
    split <;> split
    · intros; omega
    · intro h1 h2; cases h1; have := (g9 b _ h2).1; omega
    · intro h1 h2; cases h2; have := (g9 a _ h1).1; omega
    · exact g10 a b p
  · intro p hp; exact g11 p (by simp only at hp; omega)
  · intro j p; simp only [leave, hpc]; exact g12 j p
  · intro p hp hh
    by_cases e : p = σ.procs
    · subst e; exact .inl ⟨i, by simp [leave, Pc.spare]⟩
    · rcases g13 p (by simp only at hp; omega) (by simpa only [leave, hpc] using hh) with ⟨j, h'⟩ | h'
      · left
        refine ⟨j, ?_⟩
        have : j ≠ i := by intro e'; rw [e', h] at h'; cases h'
        simp only [leave, hpc, if_neg this]; exact h'
      · exact .inr h'

theorem good_discard {σ : State} {i p : Nat} (hg : Good σ) (h : σ.pc i = .discard p) : Good { σ with pc := set σ.pc i .idle, log := .close p :: σ.log } := by
  have hpc : ∀ j, (set σ.pc i .idle j).active = (σ.pc j).active ∧ (set σ.pc i .idle j).begun = (σ.pc j).begun ∧ (set σ.pc i .idle j).locked = (σ.pc j).locked
      ∧ (∀ p, (set σ.pc i .idle j).life p = (σ.pc j).life p) ∧ (∀ p, set σ.pc i .idle j = .serving p ↔ σ.pc j = .serving p)
      ∧ (set σ.pc i .idle j).spare = if j = i then none else (σ.pc j).spare := by
    intro j
    by_cases e : j = i
    · subst e; rw [h, set_same]; simp [Pc.active, Pc.begun, Pc.spare, Pc.life, Pc.locked]
    · simp [set_other _ _ e, e]
  obtain ⟨g1, g2, g3, g4, g5, g6, g7, g8, g9, g10, g11, g12, g13, g14, g15, g16⟩ := hg
  have hp := g9 i p (by rw [h]; rfl)
  refine ⟨?_, ?_, g3, ?_, ?_, ?_, g7, g8, ?_, ?_, ?_, ?_, ?_, g14, ?_, ?_⟩
  · intro j; simp only [hpc]; exact g1 j
  · intro a b; simp only [hpc]; exact g2 a b
  · intro j; simp only [hpc, closings_close]; exact g4 j
  · intro j; simp only [hpc]; exact g5 j
  · intro j p; simp only [hpc]; exact g6 j p
  · intro j q
    simp only [hpc, history_close]
    split
    · intro hq; cases hq
    · rename_i e
      intro hq
      have : p ≠ q := fun e' => e (g10 j i p (e' ▸ hq) (by rw [h]; rfl))
      rw [if_neg this, List.append_nil]; exact g9 j q hq
  · intro a b q; simp only [hpc]
    split
    · intro hq; cases hq
    · split
      · intro _ hq; cases hq
      · exact g10 a b q
  · intro q hq
    rw [history_close, if_neg (by simp only at hq; omega), List.append_nil]; exact g11 q hq
  · intro j q; simp only [hpc, history_close]
    intro ha hq
    rw [if_neg (fun e : p = q => hp.2.1 (e ▸ hq)), List.append_nil]; exact g12 j q ha hq
  · intro q hqq; simp only [hpc, history_close]
    intro hq
    by_cases e : p = q
    · subst e; rw [if_pos rfl, hp.2.2]; simp [ended]
    · rw [if_neg e, List.append_nil]
      rcases g13 q hqq hq with ⟨j, h'⟩ | h'
      · left
        refine ⟨j, ?_⟩
        have : j ≠ i := by intro e'; rw [e', h] at h'; cases h'; exact e rfl
        rw [if_neg this]; exact h'
      · exact .inr h'
  · intro n; rw [closings_close]; exact g15 n
  · intro n; rw [closings_close]; exact g16 n

theorem good_step {σ σ' : State} (hg : Good σ) (hs : Step σ σ') : Good σ' := by
  have hone : ∀ i, (σ.pc i).active = true → ∀ j, j ≠ i → (σ.pc j).active = false := by
    intro i hi j hj
    cases ha : (σ.pc j).active
    · rfl
    · exact absurd (hg.one j i ha hi) hj
  have hstop : ∀ n, σ.chans ≤ n → (if σ.chan = n then 1 else 0) = 0 := by
    intro n hn; have := hg.chan; rw [if_neg (by omega)]
  cases hs with
  | call i k h hk =>
    refine good_quiet (i := i) (v := .want k) hg rfl (by rw [h]; rfl) ?_ ?_ ?_ rfl rfl rfl rfl rfl rfl rfl rfl (fun _ => rfl) (fun _ => rfl)
    · rw [h]; revert hk; cases k <;> simp [Sec.free, Pc.spare]
    · revert hk; cases k <;> simp [Sec.free, Pc.active]
    · intro j
      have := hg.lock j
      by_cases e : j = i
      · subst e; rw [h] at this; simpa [Pc.locked] using this
      · simpa [set_other _ _ e] using this
  | lock i k h ho =>
    have hpc : ∀ j, (set σ.pc i (.inside k) j).active = (σ.pc j).active ∧ (set σ.pc i (.inside k) j).begun = (σ.pc j).begun ∧ (set σ.pc i (.inside k) j).spare = (σ.pc j).spare
        ∧ (∀ p, (set σ.pc i (.inside k) j).life p = (σ.pc j).life p) ∧ (∀ p, set σ.pc i (.inside k) j = .serving p ↔ σ.pc j = .serving p) := by
      intro j
      by_cases e : j = i
      · subst e; rw [h, set_same]; cases k <;> simp [Pc.active, Pc.begun, Pc.spare, Pc.life]
      · simp [set_other _ _ e]
    obtain ⟨g1, g2, g3, g4, g5, g6, g7, g8, g9, g10, g11, g12, g13, g14, g15, g16⟩ := hg
    refine ⟨?_, ?_, g3, ?_, ?_, ?_, g7, g8, ?_, ?_, g11, ?_, ?_, g14, g15, g16⟩
    · intro j
      by_cases e : j = i
      · subst e; simp [Pc.locked]
      · have := g1 j; rw [ho] at this
        simp only [set_other _ _ e]
        constructor
        · intro h'; cases (this.1 h')
        · intro h'; exact absurd (Option.some.inj h').symm e
    · intro a b; simp only [hpc]; exact g2 a b
    · intro j; simp only [hpc]; exact g4 j
    · intro j; simp only [hpc]; exact g5 j
    · intro j p; simp only [hpc]; exact g6 j p
    · intro j p; simp only [hpc]; exact g9 j p
    · intro a b p; simp only [hpc]; exact g10 a b p
    · intro j p; simp only [hpc]; exact g12 j p
    · intro p; simp only [hpc]; exact g13 p
  | startNone i st h hp hst =>
    have ha : (σ.pc i).active = true := by rw [h]; rfl
    have hA := hg.act i ha
    have hC := fun q => hg.cur i q ha
    have hsn : (σ.pc i).spare = none := by rw [h]; rfl
    have hO := hg.once
    have hF := hg.fresh
    have hCh := hg.chan
    have hChs := hg.chans
    have hi := hg.img
    rw [h] at hC
    simp only [Pc.life] at hC
    all_goals refine good_active (i := i) (v := .idle) hg rfl (hone i ha) (locked_leave hg.lock (by rw [h]; rfl) rfl) (.inl rfl) (.inl rfl) rfl ?_ ?_ ?_ ?_ ?_ ?_ ?_ ?_ ?_ ?_ ?_ ?_ ?_ <;>
      simp_all [leave, Pc.active, Pc.begun, Pc.spare, Pc.life, imageEvents, stopEvents, ended] <;> grind

  | startNoneFail i h hp =>
    have ha : (σ.pc i).active = true := by rw [h]; rfl
    have hA := hg.act i ha
    have hC := fun q => hg.cur i q ha
    have hsn : (σ.pc i).spare = none := by rw [h]; rfl
    have hO := hg.once
    have hF := hg.fresh
    have hCh := hg.chan
    have hChs := hg.chans
    have hi := hg.img
    rw [h] at hC
    simp only [Pc.life] at hC
    all_goals refine good_active (i := i) (v := .idle) hg rfl (hone i ha) (locked_leave hg.lock (by rw [h]; rfl) rfl) (.inl rfl) (.inl rfl) rfl ?_ ?_ ?_ ?_ ?_ ?_ ?_ ?_ ?_ ?_ ?_ ?_ ?_ <;>
      simp_all [leave, Pc.active, Pc.begun, Pc.spare, Pc.life, imageEvents, stopEvents, ended] <;> grind

  | startOk i p h hp =>
    have ha : (σ.pc i).active = true := by rw [h]; rfl
    have hA := hg.act i ha
    have hC := fun q => hg.cur i q ha
    have hsn : (σ.pc i).spare = none := by rw [h]; rfl
    have hO := hg.once
    have hF := hg.fresh
    have hCh := hg.chan
    have hChs := hg.chans
    have hi := hg.img
    rw [h] at hC
    simp only [Pc.life] at hC
    all_goals refine good_active (i := i) (v := .drive) hg rfl (hone i ha) (locked_leave hg.lock (by rw [h]; rfl) rfl) (.inl rfl) (.inl rfl) rfl ?_ ?_ ?_ ?_ ?_ ?_ ?_ ?_ ?_ ?_ ?_ ?_ ?_ <;>
      simp_all [leave, Pc.active, Pc.begun, Pc.spare, Pc.life, imageEvents, stopEvents, ended] <;> grind

  | startFail i p h hp =>
    have ha : (σ.pc i).active = true := by rw [h]; rfl
    have hA := hg.act i ha
    have hC := fun q => hg.cur i q ha
    have hsn : (σ.pc i).spare = none := by rw [h]; rfl
    have hO := hg.once
    have hF := hg.fresh
    have hCh := hg.chan
    have hChs := hg.chans
    have hi := hg.img
    rw [h] at hC
    simp only [Pc.life] at hC
    all_goals refine good_active (i := i) (v := .idle) hg rfl (hone i ha) (locked_leave hg.lock (by rw [h]; rfl) rfl) (.inl rfl) (.inl rfl) rfl ?_ ?_ ?_ ?_ ?_ ?_ ?_ ?_ ?_ ?_ ?_ ?_ ?_ <;>
      simp_all [leave, Pc.active, Pc.begun, Pc.spare, Pc.life, imageEvents, stopEvents, ended] <;> grind

  | serve i p h hp =>
    have ha : (σ.pc i).active = true := by rw [h]; rfl
    have hA := hg.act i ha
    have hC := fun q => hg.cur i q ha
    have hsn : (σ.pc i).spare = none := by rw [h]; rfl
    have hO := hg.once
    have hF := hg.fresh
    have hCh := hg.chan
    have hChs := hg.chans
    have hi := hg.img
    rw [h] at hC
    simp only [Pc.life] at hC
    have hR := hg.run i (by rw [h]; rfl)
    all_goals refine good_active (i := i) (v := .serving p) hg rfl (hone i ha) (locked_same hg.lock (by rw [h]; rfl) rfl) (.inl rfl) (.inl rfl) rfl ?_ ?_ ?_ ?_ ?_ ?_ ?_ ?_ ?_ ?_ ?_ ?_ ?_ <;>
      simp_all [leave, Pc.active, Pc.begun, Pc.spare, Pc.life, imageEvents, stopEvents, ended] <;> grind

  | serveNil i h hp => exact absurd hp (hg.run i (by rw [h]; rfl)).2.2
  | served i p h =>
    have ha : (σ.pc i).active = true := by rw [h]; rfl
    have hA := hg.act i ha
    have hC := fun q => hg.cur i q ha
    have hsn : (σ.pc i).spare = none := by rw [h]; rfl
    have hO := hg.once
    have hF := hg.fresh
    have hCh := hg.chan
    have hChs := hg.chans
    have hi := hg.img
    rw [h] at hC
    simp only [Pc.life] at hC
    have hR := hg.run i (by rw [h]; rfl)
    have hV := hg.serv i p h
    all_goals refine good_active (i := i) (v := .want .finish) hg rfl (hone i ha) (locked_same hg.lock (by rw [h]; rfl) rfl) (.inl rfl) (.inl rfl) rfl ?_ ?_ ?_ ?_ ?_ ?_ ?_ ?_ ?_ ?_ ?_ ?_ ?_ <;>
      simp_all [leave, Pc.active, Pc.begun, Pc.spare, Pc.life, imageEvents, stopEvents, ended] <;> grind

  | finish i st tr h hst =>
    have ha : (σ.pc i).active = true := by rw [h]; rfl
    have hA := hg.act i ha
    have hC := fun q => hg.cur i q ha
    have hsn : (σ.pc i).spare = none := by rw [h]; rfl
    have hO := hg.once
    have hF := hg.fresh
    have hCh := hg.chan
    have hChs := hg.chans
    have hi := hg.img
    rw [h] at hC
    simp only [Pc.life] at hC
    have hR := hg.run i (by rw [h]; rfl)
    obtain ⟨p, hP⟩ := Option.ne_none_iff_exists'.1 hR.2.2
    cases tr
    all_goals refine good_active (i := i) (v := .idle) hg rfl (hone i ha) (locked_leave hg.lock (by rw [h]; rfl) rfl) (.inl rfl) (.inl rfl) rfl ?_ ?_ ?_ ?_ ?_ ?_ ?_ ?_ ?_ ?_ ?_ ?_ ?_ <;>
      simp_all [leave, Pc.active, Pc.begun, Pc.spare, Pc.life, imageEvents, stopEvents, ended] <;> grind

  | checkPass i h he hst =>
    exact good_fresh hg h

  | checkFail i h => exact good_leave hg h (by simp) rfl rfl rfl (fun _ => rfl) (fun _ => rfl)
  | resume i p h he hst =>
    have hq : ∀ j, (σ.pc j).active = false := by
      intro j
      cases ha : (σ.pc j).active
      · rfl
      · have h1 := (hg.act j ha).2.1
        have h2 := hg.fresh
        rcases h1 with h1 | h1 <;> simp_all
    have hO := hg.once
    have hCh := hg.chan
    have hChs := hg.chans
    have hi := hg.img
    have hend : ∀ q, σ.process = some q → history σ.log q ∈ ended q := by
      intro q hq'
      rcases hg.old q (hg.proc q hq') (.inr hq) with ⟨j, hj⟩ | h'
      · exact absurd hq' (hg.spare j q hj).2.1
      · exact h'
    have hspare := hg.spare i
    rw [h] at hspare
    have hS := hspare p rfl
    refine good_active (i := i) (v := .want .start) hg rfl (fun j _ => hq j) (locked_leave hg.lock (by rw [h]; rfl) rfl) (.inl rfl) (.inr ⟨p, by rw [h]; rfl, rfl, rfl⟩) rfl ?_ ?_ ?_ ?_ ?_ ?_ ?_ ?_ ?_ ?_ ?_ ?_ ?_ <;>
      simp_all [leave, Pc.active, Pc.begun, Pc.spare, Pc.life] <;> grind

  | resumeFail i p h => exact good_leave hg h (by simp) rfl rfl rfl (fun _ => rfl) (fun _ => rfl)
  | discard i p h =>
    exact good_discard hg h

  | snapshot i h =>
    refine good_leave hg h (by simp) rfl rfl rfl ?_ ?_ <;> intro p <;> split <;> simp
  | annihilate i h he hst =>
    have hq : ∀ j, (σ.pc j).active = false := by
      intro j
      cases ha : (σ.pc j).active
      · rfl
      · have h1 := (hg.act j ha).2.1
        have h2 := hg.fresh
        rcases h1 with h1 | h1 <;> simp_all
    have hO := hg.once
    have hCh := hg.chan
    have hChs := hg.chans
    have hi := hg.img
    have hend : ∀ q, σ.process = some q → history σ.log q ∈ ended q := by
      intro q hq'
      rcases hg.old q (hg.proc q hq') (.inr hq) with ⟨j, hj⟩ | h'
      · exact absurd hq' (hg.spare j q hj).2.1
      · exact h'
    have hspare := hg.spare i
    rw [h] at hspare
    refine good_active (i := i) (v := .idle) hg rfl (fun j _ => hq j) (locked_leave hg.lock (by rw [h]; rfl) rfl) (.inl rfl) (.inl rfl) rfl ?_ ?_ ?_ ?_ ?_ ?_ ?_ ?_ ?_ ?_ ?_ ?_ ?_ <;>
      simp_all [leave, Pc.active, Pc.begun, Pc.spare, Pc.life] <;> grind

  | annihilateFail i h _ => exact good_leave hg h (by simp) rfl rfl rfl (fun _ => rfl) (fun _ => rfl)
  | info i h =>
    refine good_leave hg h (by simp) rfl rfl rfl ?_ ?_ <;> intro p <;> split <;> simp
  | debugFail i h => exact good_leave hg h (by simp) rfl rfl rfl (fun _ => rfl) (fun _ => rfl)
  | debug i rb h =>
    refine good_leave hg h (by simp) ?_ ?_ ?_ ?_ ?_ <;> first | (intro p; simp; done) | (cases rb <;> rfl)
  | apply i h =>
    refine good_leave hg h (by simp) rfl rfl rfl ?_ ?_ <;> intro p <;> simp
  | other i k h hk =>
    refine good_leave hg h ?_ rfl rfl ?_ (fun _ => rfl) (fun _ => rfl) <;> rcases hk with rfl | rfl | rfl | rfl | rfl | rfl <;> simp [Pc.spare]


theorem reach_good {b : Bool} {σ : State} (h : Reach b σ) : Good σ := by
  induction h with
  | init => exact good_initial b
  | step _ hs ih => exact good_step ih hs

/-! ## Properties -/

/-- The driver uses the process, the services and the buffers without the mutex; nobody else writes them (or, as regards the buffers, reads them) meanwhile, and everything
else is done with the mutex. -/
theorem no_race {b : Bool} {σ : State} (h : Reach b σ) {i j : Nat} (hij : i ≠ j) {x : Loc} {w w' : Bool} (hi : (x, w) ∈ accesses σ i) (hj : (x, w') ∈ accesses σ j) :
    w = false ∧ w' = false := by
  have hg := reach_good h
  have key : ∀ i j : Nat, i ≠ j → ∀ (k : Sec) (w w' : Bool), σ.pc i = .inside k → (x, w) ∈ accesses σ i → (x, w') ∈ accesses σ j → w = false ∧ w' = false := by
    intro i j hij k w w' hk hi hj
    have hoi := (hg.lock i).1 (by rw [hk]; rfl)
    cases hp : σ.pc j with
    | inside k' =>
      have := (hg.lock j).1 (by rw [hp]; rfl)
      rw [hoi] at this
      exact absurd (Option.some.inj this) hij
    | drive =>
      have ha : (σ.pc j).active = true := by rw [hp]; rfl
      have hn : (σ.pc i).active = false := by
        cases h' : (σ.pc i).active
        · rfl
        · exact absurd (hg.one i j h' ha) hij
      have hrun := (hg.run j (by rw [hp]; rfl)).1
      simp only [accesses, hk, hp] at hi hj
      cases k <;> simp [Sec.fields, hrun, hk, Pc.active] at hi hj hn <;> grind
    | serving p =>
      have ha : (σ.pc j).active = true := by rw [hp]; rfl
      have hn : (σ.pc i).active = false := by
        cases h' : (σ.pc i).active
        · rfl
        · exact absurd (hg.one i j h' ha) hij
      have hrun := (hg.run j (by rw [hp]; rfl)).1
      simp only [accesses, hk, hp] at hi hj
      cases k <;> simp [Sec.fields, hrun, hk, Pc.active] at hi hj hn <;> grind
    | _ => simp [accesses, hp] at hj
  cases hp : σ.pc i with
  | inside k => exact key i j hij k w w' hp hi hj
  | drive =>
    cases hq : σ.pc j with
    | inside k => have := key j i (Ne.symm hij) k w' w hq hj hi; exact ⟨this.2, this.1⟩
    | serving q => exact absurd (hg.one i j (by rw [hp]; rfl) (by rw [hq]; rfl)) hij
    | drive => exact absurd (hg.one i j (by rw [hp]; rfl) (by rw [hq]; rfl)) hij
    | _ => simp [accesses, hq] at hj
  | serving p =>
    cases hq : σ.pc j with
    | inside k => have := key j i (Ne.symm hij) k w' w hq hj hi; exact ⟨this.2, this.1⟩
    | serving q => exact absurd (hg.one i j (by rw [hp]; rfl) (by rw [hq]; rfl)) hij
    | drive => exact absurd (hg.one i j (by rw [hp]; rfl) (by rw [hq]; rfl)) hij
    | _ => simp [accesses, hq] at hj
  | _ => simp [accesses, hp] at hi

/-- No two goroutines execute Start, Serve or Close of the same process at the same time. -/
theorem process_used_by_one {b : Bool} {σ : State} (h : Reach b σ) {i j p : Nat} (hi : handles σ i = some p) (hj : handles σ j = some p) : i = j := by
  have hg := reach_good h
  have key : ∀ i, handles σ i = some p → ((σ.pc i).active = true ∧ σ.process = some p) ∨ (σ.pc i).spare = some p := by
    intro i hi
    unfold handles at hi
    split at hi
    · rename_i hk; left; rw [hk]; exact ⟨rfl, hi⟩
    · rename_i hk; left; rw [hk]; exact ⟨rfl, hi⟩
    · rename_i hk; cases hi; left; exact ⟨by rw [hk]; rfl, hg.serv i p hk⟩
    · rename_i hk; cases hi; right; rw [hk]; rfl
    · cases hi
  rcases key i hi with ⟨ha, hp⟩ | hs <;> rcases key j hj with ⟨ha', hp'⟩ | hs'
  · exact hg.one i j ha ha'
  · exact absurd hp (hg.spare j p hs').2.1
  · exact absurd hp' (hg.spare i p hs).2.1
  · exact hg.spares i j p hs hs'

/-- Every process is started at most once, serves at most once, only after it has been started successfully, and is closed — together with its services — at most once, after
everything else. -/
theorem process_life {b : Bool} {σ : State} (h : Reach b σ) (p : Nat) : history σ.log p ∈ lives p := by
  have hg := reach_good h
  by_cases hp : σ.process = some p
  · by_cases ha : ∃ i, (σ.pc i).active = true
    · obtain ⟨i, ha⟩ := ha
      have := hg.cur i p ha hp
      rw [this]
      cases hq : σ.pc i with
      | want k => cases k <;> simp_all [Pc.active, Pc.life, lives, ended]
      | inside k => cases k <;> simp_all [Pc.active, Pc.life, lives, ended]
      | _ => simp_all [Pc.active, Pc.life, lives, ended]
    · have := hg.old p (hg.proc p hp) (.inr fun i => by
        cases h' : (σ.pc i).active
        · rfl
        · exact absurd ⟨i, h'⟩ ha)
      rcases this with ⟨i, h'⟩ | h'
      · rw [(hg.spare i p h').2.2]; simp [lives]
      · exact List.mem_append_left _ h'
  · by_cases hn : p < σ.procs
    · rcases hg.old p hn (.inl hp) with ⟨i, h'⟩ | h'
      · rw [(hg.spare i p h').2.2]; simp [lives]
      · exact List.mem_append_left _ h'
    · rw [hg.unborn p (by omega)]; simp [lives]

/-- Goroutine `i` has still something to do with process `p`: it has allocated it, or runs the instance which has it. -/
def responsible (σ : State) (i p : Nat) : Prop :=
  match σ.pc i with
  | .want (.doResume q) | .inside (.doResume q) | .discard q => q = p
  | .want .start | .inside .start | .drive | .serving _ | .want .finish | .inside .finish => σ.process = some p
  | _ => False

/-- Every process which has been allocated is closed by the time that no goroutine has anything to do with it. -/
theorem process_closed {b : Bool} {σ : State} (h : Reach b σ) {p : Nat} (hp : p < σ.procs) (hq : ∀ i, ¬ responsible σ i p) : history σ.log p ∈ ended p := by
  have hg := reach_good h
  have h1 : ∀ i, (σ.pc i).spare ≠ some p := by
    intro i hs
    apply hq i
    unfold responsible
    cases hc : σ.pc i with
    | want k => rw [hc] at hs; cases k <;> simp_all [Pc.spare]
    | inside k => rw [hc] at hs; cases k <;> simp_all [Pc.spare]
    | discard q => rw [hc] at hs; simpa [Pc.spare] using hs
    | _ => rw [hc] at hs; simp [Pc.spare] at hs
  have h2 : σ.process ≠ some p ∨ ∀ i, (σ.pc i).active = false := by
    by_cases hc : σ.process = some p
    · right
      intro i
      cases ha : (σ.pc i).active
      · rfl
      · exfalso
        apply hq i
        unfold responsible
        cases hd : σ.pc i with
        | want k => rw [hd] at ha; cases k <;> simp_all [Pc.active]
        | inside k => rw [hd] at ha; cases k <;> simp_all [Pc.active]
        | discard q => rw [hd] at ha; simp [Pc.active] at ha
        | _ => rw [hd] at ha; simp_all [Pc.active]
    · exact .inl hc
  rcases hg.old p hp h2 with ⟨i, hi⟩ | h'
  · exact absurd hi (h1 i)
  · exact h'

/-- A run's channel is closed at most once: closing it again would be a panic. -/
theorem stopped_once {b : Bool} {σ : State} (h : Reach b σ) (n : Nat) : closings σ.log n ≤ 1 := (reach_good h).once n

/-- The driver finds the process and the services which belong together. -/
theorem drives_its_process {b : Bool} {σ : State} (h : Reach b σ) {i : Nat} (hd : σ.pc i = .drive) :
    ∃ p, σ.process = some p ∧ σ.services = some p ∧ history σ.log p = [.start p true] := by
  have hg := reach_good h
  have h1 := hg.run i (by rw [hd]; rfl)
  have h2 := hg.act i (by rw [hd]; rfl)
  obtain ⟨p, hp⟩ := Option.ne_none_iff_exists'.1 h1.2.2
  exact ⟨p, hp, by rw [h2.2.2.2, hp], by have := hg.cur i p (by rw [hd]; rfl) hp; rw [hd] at this; exact this⟩

/-! ## Between runs -/

/-- Nobody is responsible for a run: the services have been dropped, and those who wait have been woken up, unless the creation failed. -/
structure Rest (σ : State) : Prop where
  none_ : ∀ i, (σ.pc i).active = true → σ.process = none → σ.exist = false ∧ σ.status = .fresh
  rest : (∀ i, (σ.pc i).active = false) → σ.services = none ∧ (closings σ.log σ.chan = 1 ∨ (σ.process = none ∧ σ.exist = false)) ∧
    (σ.status = .running → σ.image = false)

theorem rest_same {σ σ' : State} {i : Nat} {v : Pc} (hr : Rest σ) (hpc : σ'.pc = set σ.pc i v) (ha : (σ.pc i).active = v.active)
    (h1 : σ'.process = σ.process) (h2 : σ'.exist = true → σ.exist = true) (h3 : σ'.services = σ.services) (h4 : σ'.chan = σ.chan)
    (h5 : closings σ'.log σ.chan = closings σ.log σ.chan) (h6 : σ'.status = σ.status) (h7 : σ'.image = true → σ.image = true) : Rest σ' := by
  have hx : ∀ j, (σ'.pc j).active = (σ.pc j).active := by
    intro j; rw [hpc]
    by_cases e : j = i
    · subst e; simp [ha]
    · rw [set_other _ _ e]
  have he : σ.exist = false → σ'.exist = false := by
    intro h; cases h' : σ'.exist
    · rfl
    · rw [h2 h'] at h; cases h
  constructor
  · intro j hj hp; rw [hx] at hj; rw [h1] at hp; rw [h6]; exact ⟨he (hr.none_ j hj hp).1, (hr.none_ j hj hp).2⟩
  · intro h
    have := hr.rest (fun j => by rw [← hx]; exact h j)
    rw [h3, h4, h5, h1, h6]
    refine ⟨this.1, this.2.1.imp id fun h => ⟨h.1, he h.2⟩, fun hr => ?_⟩
    have := this.2.2 hr
    cases h' : σ'.image
    · rfl
    · rw [h7 h'] at this; cases this

theorem rest_ends {σ σ' : State} {i : Nat} {v : Pc} (hg : Good σ) (hi : (σ.pc i).active = true) (hpc : σ'.pc = set σ.pc i v) (ha : v.active = false)
    (h3 : σ'.services = none) (h5 : closings σ'.log σ'.chan = 1 ∨ (σ'.process = none ∧ σ'.exist = false))
    (h6 : σ'.status = .running → σ'.image = false) : Rest σ' := by
  constructor
  · intro j hj _
    exfalso
    rw [hpc] at hj
    by_cases e : j = i
    · subst e; simp [ha] at hj
    · rw [set_other _ _ e] at hj; exact e (hg.one j i hj hi)
  · intro _; exact ⟨h3, h5, h6⟩

theorem rest_step {σ σ' : State} (hg : Good σ) (hr : Rest σ) (hs : Step σ σ') : Rest σ' := by
  cases hs with
  | call i k h1 hk => exact rest_same (i := i) hr rfl (by rw [h1]; cases k <;> simp_all [Pc.active, Sec.free]) rfl id rfl rfl rfl rfl id
  | lock i k h1 ho => exact rest_same (i := i) hr rfl (by rw [h1]; cases k <;> simp [Pc.active]) rfl id rfl rfl rfl rfl id
  | startNone i st h1 hp hst =>
    have ha : (σ.pc i).active = true := by rw [h1]; rfl
    have h2 := hg.act i ha
    exact rest_ends (i := i) hg ha rfl rfl (by show σ.services = none; rw [h2.2.2.2, hp]) (.inl (by simp [leave, h2.2.2.1])) (by rcases hst with h | h <;> simp [leave, h])
  | startNoneFail i h1 hp =>
    have ha : (σ.pc i).active = true := by rw [h1]; rfl
    have h2 := hg.act i ha
    refine rest_ends (i := i) hg ha rfl rfl (by show σ.services = none; rw [h2.2.2.2, hp]) (.inr ⟨hp, (hr.none_ i ha hp).1⟩) ?_
    intro h; have h' : σ.status = .running := h; rw [(hr.none_ i ha hp).2] at h'; cases h'
  | startOk i p h1 hp =>
    have ha : (σ.pc i).active = true := by rw [h1]; rfl
    constructor
    · intro j _ h; simp [leave, hp] at h
    · intro h; have := h i; simp [leave, Pc.active] at this
  | startFail i p h1 hp =>
    have ha : (σ.pc i).active = true := by rw [h1]; rfl
    have h2 := hg.act i ha
    exact rest_ends (i := i) hg ha rfl rfl rfl (.inl (by simp [leave, h2.2.2, hp, stopEvents])) (fun _ => rfl)
  | serve i p h1 hp =>
    refine rest_same (i := i) hr rfl (by rw [h1]; rfl) rfl id rfl rfl ?_ rfl id
    show closings (.serve p :: _ ++ _) _ = _
    split <;> simp
  | serveNil i h1 hp => exact absurd hp (hg.run i (by rw [h1]; rfl)).2.2
  | served i p h1 => exact rest_same (i := i) hr rfl (by rw [h1]; rfl) rfl id rfl rfl (by simp) rfl id
  | finish i st tr h1 hst =>
    have ha : (σ.pc i).active = true := by rw [h1]; rfl
    have h2 := hg.act i ha
    obtain ⟨p, hp⟩ := Option.ne_none_iff_exists'.1 (hg.run i (by rw [h1]; rfl)).2.2
    exact rest_ends (i := i) hg ha rfl rfl rfl (.inl (by simp [leave, h2.2.2, hp, stopEvents])) (by rcases hst with h | h <;> simp [leave, h])
  | checkPass i h1 he hst => exact rest_same (i := i) hr rfl (by rw [h1]; rfl) rfl id rfl rfl rfl rfl id
  | checkFail i h1 => exact rest_same (i := i) hr rfl (by rw [h1]; rfl) rfl id rfl rfl rfl rfl id
  | resume i p h1 he hst =>
    constructor
    · intro j _ h; simp [leave] at h
    · intro h; have := h i; simp [leave, Pc.active] at this
  | resumeFail i p h1 => exact rest_same (i := i) hr rfl (by rw [h1]; rfl) rfl id rfl rfl rfl rfl id
  | discard i p h1 => exact rest_same (i := i) hr rfl (by rw [h1]; rfl) rfl id rfl rfl (by simp) rfl id
  | snapshot i h1 =>
    refine rest_same (i := i) hr rfl (by rw [h1]; rfl) rfl id rfl rfl ?_ rfl id
    show closings (_ ++ _) _ = _
    split <;> simp
  | annihilate i h1 he hst => exact rest_same (i := i) hr rfl (by rw [h1]; rfl) rfl (by simp [leave]) rfl rfl (by simp [leave]) rfl (by simp [leave])
  | annihilateFail i h1 hn => exact rest_same (i := i) hr rfl (by rw [h1]; rfl) rfl id rfl rfl rfl rfl id
  | info i h1 =>
    refine rest_same (i := i) hr rfl (by rw [h1]; rfl) rfl id rfl rfl ?_ rfl id
    show closings (_ ++ _) _ = _
    split <;> simp
  | debugFail i h1 => exact rest_same (i := i) hr rfl (by rw [h1]; rfl) rfl id rfl rfl rfl rfl id
  | debug i rb h1 => exact rest_same (i := i) hr rfl (by rw [h1]; cases rb <;> rfl) rfl id rfl rfl (by simp [leave]) rfl id
  | apply i h1 => exact rest_same (i := i) hr rfl (by rw [h1]; rfl) rfl id rfl rfl (by simp [leave]) rfl id
  | other i k h1 hk => exact rest_same (i := i) hr rfl (by rw [h1]; rcases hk with h | h | h | h | h | h <;> subst h <;> rfl) rfl id rfl rfl rfl rfl id

theorem reach_rest {b : Bool} {σ : State} (h : Reach b σ) : Rest σ := by
  induction h with
  | init =>
    constructor
    · intro _ _ _; exact ⟨rfl, rfl⟩
    · intro h; have := h 0; simp [initial, Pc.active] at this
  | step h hs ih => exact rest_step (reach_good h) ih hs

/-- Goroutine `i` starts, drives or finishes the instance, or is about to. -/
def runs (σ : State) (i : Nat) : Prop :=
  σ.pc i = .want .start ∨ σ.pc i = .inside .start ∨ σ.pc i = .drive ∨ (∃ p, σ.pc i = .serving p) ∨ σ.pc i = .want .finish ∨ σ.pc i = .inside .finish

/-- When no goroutine runs the instance, the channel of its latest run has been closed, exactly once — so those who wait for it don't wait for ever — and there are no services for
a client to connect to; if it still looks as if it were running, it failed to start, and has lost its image. -/
theorem wakes {b : Bool} {σ : State} (h : Reach b σ) (hq : ∀ i, ¬ runs σ i) :
    σ.services = none ∧ (closings σ.log σ.chan = 1 ∨ (σ.process = none ∧ σ.exist = false)) ∧ (σ.status = .running → σ.image = false) := by
  apply (reach_rest h).rest
  intro i
  cases ha : (σ.pc i).active
  · rfl
  · exfalso
    apply hq i
    unfold runs
    cases hd : σ.pc i with
    | want k => rw [hd] at ha; cases k <;> simp_all [Pc.active]
    | inside k => rw [hd] at ha; cases k <;> simp_all [Pc.active]
    | _ => rw [hd] at ha; simp_all [Pc.active]

/-- The exception: an instance which is created without a process, and fails to be stored, leaves those who already wait for it waiting. -/
theorem never_wakes : ∃ σ, Reach false σ ∧ (∀ i, ¬ runs σ i) ∧ closings σ.log σ.chan = 0 := by
  refine ⟨_, .step (.step .init (.lock _ 0 .start rfl rfl)) (.startNoneFail _ 0 rfl rfl), ?_, by decide⟩
  intro i
  by_cases h : i = 0 <;> simp [runs, leave, set, initial, h]

/-! ## Nil pointers -/

def crashes (log : List Ev) : Nat := (log.filter fun e => decide (e = .crash)).length

@[simp] theorem crashes_image (l : List Ev) : crashes (imageEvents true ++ l) = crashes l := by simp [imageEvents]
@[simp] theorem crashes_cons (l : List Ev) (e : Ev) : crashes (e :: l) = crashes l + (if e = .crash then 1 else 0) := by
  by_cases h : e = .crash <;> simp [crashes, h]
@[simp] theorem crashes_false (l : List Ev) : crashes (imageEvents false ++ l) = crashes l + 1 := by simp [imageEvents]

/-- Starting, driving, stopping, resuming, snapshotting and deleting an instance don't use a nil pointer in any circumstances.  Those which may are reading its
information, when it has failed to be resumed, and debugging it, when it doesn't have its image any more. -/
theorem crash_needs {b : Bool} {σ σ' : State} (h : Reach b σ) (hs : Step σ σ') (hc : crashes σ'.log ≠ crashes σ.log) :
    σ.image = false ∧ ((∃ i, σ.pc i = .inside .info ∧ σ.exist = true ∧ σ.status = .running) ∨ (∃ i, σ.pc i = .inside .debug) ∨ ∃ i, σ.pc i = .inside .apply) := by
  have hg := reach_good h
  cases hs with
  | startNone i st h1 => have := hg.act i (by rw [h1]; rfl); simp_all
  | startNoneFail i h1 => have := hg.act i (by rw [h1]; rfl); simp_all
  | startOk i p h1 => have := hg.act i (by rw [h1]; rfl); simp_all
  | startFail i p h1 => have := hg.act i (by rw [h1]; rfl); simp_all [stopEvents]
  | serve i p h1 => have := hg.act i (by rw [h1]; rfl); simp_all
  | serveNil i h1 h2 => exact absurd h2 (hg.run i (by rw [h1]; rfl)).2.2
  | finish i st tr h1 =>
    have := hg.act i (by rw [h1]; rfl)
    have hr := hg.run i (by rw [h1]; rfl)
    obtain ⟨p, hp⟩ := Option.ne_none_iff_exists'.1 hr.2.2
    simp_all [stopEvents]
  | snapshot i h1 =>
    exfalso; apply hc
    show crashes (_ ++ _) = _
    split
    · rename_i hh; rw [hg.img hh.1 hh.2]; simp
    · rfl
  | annihilate i h1 h2 h3 => have := hg.img h2 h3; simp_all
  | info i h1 =>
    by_cases he : σ.exist = true
    · have hf : σ.image = false := by
        cases hh : σ.image
        · rfl
        · simp_all
      refine ⟨hf, .inl ⟨i, h1, he, ?_⟩⟩
      apply Classical.byContradiction
      intro hn
      have := hg.img he hn
      rw [hf] at this; cases this
    · exact absurd (by simp [leave, he]) hc
  | debug i rb h1 =>
    have hf : σ.image = false := by
      cases hh : σ.image
      · rfl
      · simp_all
    exact ⟨hf, .inr (.inl ⟨i, h1⟩)⟩
  | apply i h1 =>
    have hf : σ.image = false := by
      cases hh : σ.image
      · rfl
      · simp_all
    exact ⟨hf, .inr (.inr ⟨i, h1⟩)⟩
  | _ => simp_all [leave]

/-! ## Executions -/

/-- The first run of an instance, until its process has stopped. -/
theorem first_run : ∃ σ, Reach true σ ∧ (∀ i, σ.pc i = .idle) ∧ σ.status = .resumable ∧ σ.exist = true ∧ σ.image = true ∧ σ.owner = none ∧ σ.procs = 1 ∧ σ.process = some 0
    ∧ history σ.log 0 = [.start 0 true, .serve 0, .served 0, .close 0] ∧ closings σ.log 0 = 1 := by
  refine ⟨_, .step (.step (.step (.step (.step (.step .init (.lock _ 0 .start rfl rfl)) (.startOk _ 0 0 rfl rfl)) (.serve _ 0 0 rfl rfl)) (.served _ 0 0 rfl))
    (.lock _ 0 .finish rfl rfl)) (.finish _ 0 .resumable false rfl (.inl rfl)), ?_, rfl, rfl, rfl, rfl, rfl, rfl, by decide, by decide⟩
  intro i
  by_cases h : i = 0 <;> simp [leave, set, initial, h]

/-- While the driver is serving, another goroutine may be inside of a function which looks at the instance. -/
theorem concurrent : ∃ σ, Reach true σ ∧ σ.pc 0 = .serving 0 ∧ σ.pc 1 = .inside .snapshot ∧ (Loc.buffers, true) ∈ accesses σ 0 ∧ accesses σ 1 ≠ [] := by
  refine ⟨_, .step (.step (.step (.step (.step .init (.lock _ 0 .start rfl rfl)) (.startOk _ 0 0 rfl rfl)) (.serve _ 0 0 rfl rfl)) (.call _ 1 .snapshot rfl rfl))
    (.lock _ 1 .snapshot rfl rfl), rfl, rfl, by simp [accesses, leave, set, initial], by simp [accesses, leave, set, initial, Sec.fields]⟩

/-- Two clients resume the same instance, and one of them closes the process which it doesn't get to use. -/
theorem rival_resumes : ∃ σ, Reach true σ ∧ σ.status = .running ∧ σ.pc 1 = .drive ∧ σ.process = some 1 ∧ history σ.log 2 = [.close 2] ∧ handles σ 2 = none := by
  obtain ⟨σ, hr, hp, hs, he, _, ho, hn, _, hh⟩ := first_run
  have hr' := reach_good hr
  have s1 := Reach.step hr (.call σ 1 .checkResume (hp 1) rfl)
  have s2 := Reach.step s1 (.lock _ 1 .checkResume (by simp) ho)
  have s3 := Reach.step s2 (.checkPass _ 1 (by simp) he hs)
  have s4 := Reach.step s3 (.call _ 2 .checkResume (by simp [leave, set, hp]) rfl)
  have s5 := Reach.step s4 (.lock _ 2 .checkResume (by simp) rfl)
  have s6 := Reach.step s5 (.checkPass _ 2 (by simp) he hs)
  have s7 := Reach.step s6 (.lock _ 1 (.doResume σ.procs) (by simp [leave, set]) rfl)
  have s8 := Reach.step s7 (.resume _ 1 σ.procs (by simp) he hs)
  have s9 := Reach.step s8 (.lock _ 2 (.doResume (σ.procs + 1)) (by simp [leave, set]) rfl)
  have s10 := Reach.step s9 (.resumeFail _ 2 (σ.procs + 1) (by simp))
  have s11 := Reach.step s10 (.discard _ 2 (σ.procs + 1) (by simp [leave]))
  have s12 := Reach.step s11 (.lock _ 1 .start (by simp [leave, set]) rfl)
  have s13 := Reach.step s12 (.startOk _ 1 σ.procs (by simp) rfl)
  have hu := hr'.unborn (σ.procs + 1) (by omega)
  refine ⟨_, s13, rfl, by simp [leave], by simp [leave, hn], ?_, by simp [handles, leave, set]⟩
  show history (.start σ.procs true :: imageEvents σ.image ++ .close (σ.procs + 1) :: σ.log) 2 = [.close 2]
  rw [hn] at hu ⊢
  simp [hu]

/-- The image is gone, and another goroutine has already looked the instance up in order to debug it. -/
theorem debug_crashes : ∃ σ σ', Reach true σ ∧ σ.pc 2 = .inside .debug ∧ Step σ σ' ∧ crashes σ'.log = crashes σ.log + 1 := by
  obtain ⟨σ, hr, hp, hs, he, hi, ho, _⟩ := first_run
  have s1 := Reach.step hr (.call σ 1 .annihilate (hp 1) rfl)
  have s2 := Reach.step s1 (.lock _ 1 .annihilate (by simp) ho)
  have s3 := Reach.step s2 (.annihilate _ 1 (by simp) he (by simp [hs]))
  have s4 := Reach.step s3 (.call _ 2 .debug (by simp [leave, set, hp]) rfl)
  have s5 := Reach.step s4 (.lock _ 2 .debug (by simp) rfl)
  exact ⟨_, _, s5, by simp, .debug _ 2 false (by simp), by simp [leave]⟩

/-- The image is replaced after the instance has been deleted. -/
theorem apply_crashes : ∃ σ σ', Reach true σ ∧ σ.pc 2 = .inside .apply ∧ Step σ σ' ∧ crashes σ'.log = crashes σ.log + 1 := by
  obtain ⟨σ, hr, hp, hs, he, hi, ho, _⟩ := first_run
  have s1 := Reach.step hr (.call σ 2 .debug (hp 2) rfl)
  have s2 := Reach.step s1 (.lock _ 2 .debug (by simp) ho)
  have s3 := Reach.step s2 (.debug _ 2 true (by simp))
  have s4 := Reach.step s3 (.call _ 1 .annihilate (by simp [leave, set, hp]) rfl)
  have s5 := Reach.step s4 (.lock _ 1 .annihilate (by simp) rfl)
  have s6 := Reach.step s5 (.annihilate _ 1 (by simp) he (by simp [leave, hs]))
  have s7 := Reach.step s6 (.lock _ 2 .apply (by simp [leave, set]) rfl)
  exact ⟨_, _, s7, by simp, .apply _ 2 (by simp), by simp [leave]⟩

/-- An instance fails to be resumed, and another goroutine which has already found it wants its information. -/
theorem info_crashes : ∃ σ σ', Reach true σ ∧ σ.pc 2 = .inside .info ∧ Step σ σ' ∧ crashes σ'.log = crashes σ.log + 1 := by
  obtain ⟨σ, hr, hp, hs, he, hi, ho, _⟩ := first_run
  have s1 := Reach.step hr (.call σ 1 .checkResume (hp 1) rfl)
  have s2 := Reach.step s1 (.lock _ 1 .checkResume (by simp) ho)
  have s3 := Reach.step s2 (.checkPass _ 1 (by simp) he hs)
  have s4 := Reach.step s3 (.lock _ 1 (.doResume σ.procs) (by simp [leave]) rfl)
  have s5 := Reach.step s4 (.resume _ 1 σ.procs (by simp) he hs)
  have s6 := Reach.step s5 (.lock _ 1 .start (by simp [leave]) rfl)
  have s7 := Reach.step s6 (.startFail _ 1 σ.procs (by simp) rfl)
  have s8 := Reach.step s7 (.call _ 2 .info (by simp [leave, set, hp]) rfl)
  have s9 := Reach.step s8 (.lock _ 2 .info (by simp) rfl)
  exact ⟨_, _, s9, by simp, .info _ 2 (by simp), by simp [leave, he]⟩

end Gate.InstRace
