/-
C172: the server's mutexes: guarded data is touched by one goroutine at a time, and no API call can make another one wait for a mutex forever.
-/
import Verif.Locks

namespace Gate.Locks

/-! ## Specification -/

/-- What a monitor function has to be like: it does its work without calling the server or waiting for others. -/
def Silent (mon : Prog) : Prop := ∀ b t, Run mon b t → b = false ∧ ∀ a ∈ t, a = .ext

/-- A goroutine can perform its next action. -/
def CanStep (g : Nat) (σ : State) : Prop := ∃ σ', Step g σ σ'

/-! ## Proofs -/

/-- The actions are a goroutine's remaining ones, while it holds `h`: sections aren't nested, guarded data is touched inside its section only, and there's no waiting
inside a section. -/
def Good : Option Mu → List Act → Prop
  | none, [] => True
  | some _, [] => False
  | none, .lock m :: t => Good (some m) t
  | some _, .lock _ :: _ => False
  | none, .unlock _ :: _ => False
  | some m, .unlock m' :: t => m = m' ∧ Good none t
  | none, .touch _ :: _ => False
  | some m, .touch m' :: t => m = m' ∧ Good (some m) t
  | h, .ext :: t => Good h t
  | none, .block :: t => Good none t
  | some _, .block :: _ => False

def Safe (h : Option Mu) (p : Prog) : Prop := ∀ b t u, Run p b t → Good h u → Good h (t ++ u)

theorem good_ext (h : Option Mu) (t : List Act) : Good h (.ext :: t) = Good h t := by cases h <;> simp [Good]

theorem safe_skip (h : Option Mu) : Safe h .skip := by
  intro b t u r g; cases r; exact g

theorem safe_throw (h : Option Mu) : Safe h .throw := by
  intro b t u r g; cases r; exact g

theorem safe_ext (h : Option Mu) : Safe h ext := by
  intro b t u r g; cases r; simpa [good_ext] using g

theorem safe_block : Safe none block := by
  intro b t u r g; cases r; simpa [Good] using g

theorem safe_touch (m : Mu) : Safe (some m) (touch m) := by
  intro b t u r g; cases r; simpa [Good] using g

theorem safe_seq {h p q} (hp : Safe h p) (hq : Safe h q) : Safe h (.seq p q) := by
  intro b t u r g
  cases r with
  | seq r1 r2 => rw [List.append_assoc]; exact hp _ _ _ r1 (hq _ _ _ r2 g)
  | seqPanic r1 => exact hp _ _ _ r1 g

theorem safe_alt {h p q} (hp : Safe h p) (hq : Safe h q) : Safe h (.alt p q) := by
  intro b t u r g
  cases r with
  | left r => exact hp _ _ _ r g
  | right r => exact hq _ _ _ r g

theorem safe_any {h f} (hf : ∀ n, Safe h (f n)) : Safe h (.any f) := by
  intro b t u r g
  cases r with
  | any n r => exact hf n _ _ _ r g

theorem safe_star {h p} (hp : Safe h p) : Safe h (.star p) := by
  intro b t u r g
  generalize hq : Prog.star p = q at r
  induction r with
  | stop => exact g
  | again r1 _ _ ih => cases hq; rw [List.append_assoc]; exact hp _ _ _ r1 (ih rfl)
  | againPanic r1 => cases hq; exact hp _ _ _ r1 g
  | _ => cases hq

theorem safe_deferred {h d p} (hd : Safe h d) (hp : Safe h p) : Safe h (.deferred d p) := by
  intro b t u r g
  cases r with
  | deferred r1 r2 => rw [List.append_assoc]; exact hp _ _ _ r1 (hd _ _ _ r2 g)

theorem safe_recovered {h p} (hp : Safe h p) : Safe h (.recovered p) := by
  intro b t u r g
  cases r with
  | recovered r => exact hp _ _ _ r g

theorem safe_guard {m p} (hp : Safe (some m) p) : Safe none (.guard m p) := by
  intro b t u r g
  cases r with
  | guard r =>
    simp only [List.append_assoc, List.cons_append]
    exact hp _ _ _ r (by simpa [Good] using g)

theorem safe_silent {mon} (h : Silent mon) (o : Option Mu) : Safe o mon := by
  intro b t u r g
  have := (h b t r).2
  clear r
  induction t with
  | nil => exact g
  | cons a t ih =>
    have ha := this a (by simp)
    subst ha
    rw [List.cons_append, good_ext]
    exact ih fun a h => this a (by simp [h])

theorem safe_opt {h p} (hp : Safe h p) : Safe h (opt p) := safe_alt hp (safe_skip h)
theorem safe_check (h : Option Mu) : Safe h check := safe_alt (safe_throw h) (safe_skip h)

/-- Proves `Safe` by the shape of the program. -/
macro "safe" : tactic => `(tactic| repeat' first
  | assumption
  | exact safe_touch _ | exact safe_ext _ | exact safe_check _ | exact safe_block | exact safe_throw _ | exact safe_skip _
  | apply safe_guard | apply safe_seq | apply safe_opt | apply safe_deferred | apply safe_recovered | apply safe_star | apply safe_alt
  | (apply safe_any; intro _))

theorem safe_refCount : Safe (some .server) refCount := by unfold refCount; safe
theorem safe_ensureStorage : Safe none ensureStorage := by unfold ensureStorage; safe
theorem safe_start (i : Nat) : Safe none (startOrAnnihilate i) := by unfold startOrAnnihilate; safe
theorem safe_status (i : Nat) : Safe none (status i) := by unfold status; safe
theorem safe_info (i : Nat) : Safe none (info i) := by unfold info; safe
theorem safe_wait (i : Nat) : Safe none (wait i) := by
  have := safe_status i
  unfold wait; safe
theorem safe_kill (i : Nat) : Safe none (kill i) := by unfold kill; safe
theorem safe_suspend (i : Nat) : Safe none (suspend i) := by unfold suspend; safe
theorem safe_checkResume (i : Nat) : Safe none (checkResume i) := by unfold checkResume; safe
theorem safe_doResume (i : Nat) : Safe none (doResume i) := by unfold doResume; safe
theorem safe_connect (i : Nat) : Safe none (connect i) := by unfold connect; safe
theorem safe_instSnapshot (i : Nat) : Safe none (instSnapshot i) := by unfold instSnapshot; safe
theorem safe_annihilate (i : Nat) : Safe none (annihilate i) := by unfold annihilate; safe
theorem safe_instUpdate (i : Nat) : Safe none (instUpdate i) := by unfold instUpdate; safe
theorem safe_instDebug (i : Nat) : Safe none (instDebug i) := by unfold instDebug; safe
theorem safe_rebuildApply (i : Nat) : Safe none (rebuildApply i) := by unfold rebuildApply; safe
theorem safe_unrefProgram : Safe none unrefProgram := by have := safe_refCount; unfold unrefProgram; safe
theorem safe_refProgram : Safe none refProgram := by have := safe_refCount; unfold refProgram; safe
theorem safe_merge : Safe (some .server) mergeProgramRef := by have := safe_refCount; unfold mergeProgramRef; safe
theorem safe_checkAccount : Safe none checkAccountInstanceID := by unfold checkAccountInstanceID; safe
theorem safe_delete : Safe none deleteNonexistent := by have := safe_refCount; unfold deleteNonexistent; safe
theorem safe_runOrDelete (i : Nat) : Safe none (runOrDelete i) := by
  have := safe_unrefProgram; have := safe_start i; have := safe_delete; unfold runOrDelete; safe
theorem safe_getInstance : Safe none getInstance := by unfold getInstance; safe
theorem safe_getInstanceRef : Safe none getInstanceRef := by have := safe_refCount; unfold getInstanceRef; safe
theorem safe_allocate : Safe none allocate := by unfold allocate; safe

section
variable {mon : Prog} (hm : Silent mon)
include hm

theorem safe_drive (i : Nat) : Safe none (drive mon i) := by
  have h1 := safe_silent hm none
  have h2 := safe_silent hm (some (.inst i))
  unfold drive; safe

theorem safe_driveInstance (i : Nat) : Safe none (driveInstance mon i) := by
  have := safe_drive hm i; have := safe_unrefProgram; have := safe_delete; unfold driveInstance; safe

theorem safe_register : Safe none (registerProgramRef mon) := by
  have := safe_ensureStorage; have := safe_merge; have := safe_refCount; have := safe_silent hm (some .server)
  unfold registerProgramRef; safe

theorem safe_registerInstance : Safe none (registerInstance mon) := by
  have := safe_ensureStorage; have := safe_merge; have := safe_refCount; have := safe_silent hm (some .server); have := safe_allocate
  unfold registerInstance; safe

theorem safe_loadKnown : Safe none (loadKnown mon) := by
  have := safe_refProgram; have := safe_unrefProgram; have := safe_register hm; have := safe_silent hm none
  unfold loadKnown; safe

theorem safe_loadUnknown : Safe none (loadUnknown mon) := by
  have := safe_unrefProgram; have := safe_register hm; have := safe_silent hm none
  unfold loadUnknown; safe

omit hm in
theorem safe_run : Safe none (.any runOrDelete) := safe_any safe_runOrDelete

theorem safe_loadKnownInstance : Safe none (loadKnownInstance mon) := by
  have := safe_refProgram; have := safe_unrefProgram; have := safe_registerInstance hm; have := safe_silent hm none; have := safe_run
  unfold loadKnownInstance; safe

theorem safe_loadUnknownInstance : Safe none (loadUnknownInstance mon) := by
  have := safe_unrefProgram; have := safe_registerInstance hm; have := safe_silent hm none; have := safe_run
  unfold loadUnknownInstance; safe

theorem safe_resume : Safe none (resumeInstance mon) := by
  have := safe_unrefProgram; have := safe_silent hm none; have := safe_runOrDelete; have := safe_getInstanceRef; have := safe_allocate
  have := safe_checkResume; have := safe_doResume
  unfold resumeInstance; safe <;> simp_all

theorem safe_snapshot : Safe none (doSnapshot mon) := by
  have := safe_unrefProgram; have := safe_silent hm none; have := safe_getInstanceRef; have := safe_instSnapshot; have := safe_register hm
  unfold doSnapshot; safe <;> simp_all

theorem safe_moduleInfo : Safe none (moduleInfo mon) := by
  have := safe_silent hm (some .server)
  unfold moduleInfo; safe

theorem safe_body (c : Call) : Safe none (body mon c) := by
  have := safe_silent hm none; have := safe_unrefProgram; have := safe_refCount; have := safe_getInstance; have := safe_getInstanceRef
  have := safe_checkAccount; have := safe_run; have := safe_registerInstance hm; have := safe_delete; have := safe_ensureStorage
  have := safe_loadKnown hm; have := safe_loadUnknown hm; have := safe_loadKnownInstance hm; have := safe_loadUnknownInstance hm
  have := safe_resume hm; have := safe_snapshot hm; have := safe_moduleInfo hm
  cases c <;> (unfold body; safe) <;>
    first
      | exact safe_kill _ | exact safe_wait _ | exact safe_info _ | exact safe_connect _ | exact safe_suspend _ | exact safe_annihilate _
      | exact safe_status _ | exact safe_instUpdate _ | exact safe_instDebug _ | exact safe_rebuildApply _

theorem safe_calls (cs : List Call) : Safe none (callsBody mon cs) := by
  induction cs with
  | nil => exact safe_skip _
  | cons c cs ih => exact safe_seq (safe_body hm c) ih

theorem safe_task (k : Task) : Safe none (taskBody mon k) := by
  cases k with
  | driver i => exact safe_driveInstance hm i
  | client cs => exact safe_calls hm cs

end

/-- Every goroutine is disciplined, and holds exactly the mutex which its remaining actions presuppose. -/
def Inv' (σ : State) : Prop :=
  ∃ h : Nat → Option Mu, (∀ g, Good (h g) (σ.rest g)) ∧ ∀ m g, σ.owner m = some g ↔ h g = some m

theorem inv_step {σ σ' : State} {g : Nat} (hi : Inv' σ) (hs : Step g σ σ') : Inv' σ' := by
  obtain ⟨h, hg, ho⟩ := hi
  have gg := hg g
  cases hs with
  | @lock m as _ hr hn =>
    rw [hr] at gg
    cases hh : h g with
    | some m' => rw [hh] at gg; exact gg.elim
    | none =>
      rw [hh] at gg
      refine ⟨upd h g (some m), ?_, ?_⟩
      · intro k; by_cases hk : k = g
        · subst hk; simpa [upd, Good] using gg
        · simpa [upd, hk] using hg k
      · intro m' k
        by_cases hk : k = g
        · subst hk
          by_cases hm : m' = m
          · subst hm; simp [upd]
          · have := ho m' k; rw [hh] at this
            simp [upd, hm]; constructor
            · intro h2; exact absurd (this.1 h2) (by simp)
            · intro h2; exact absurd h2.symm hm
        · by_cases hm : m' = m
          · subst hm
            have := (ho m' k).2
            simp [upd, hk]
            constructor
            · intro h2; exact absurd h2.symm hk
            · intro h2; rw [this h2] at hn; cases hn
          · simpa [upd, hk, hm] using ho m' k
  | @unlock m as _ hr hn =>
    rw [hr] at gg
    cases hh : h g with
    | none => rw [hh] at gg; exact gg.elim
    | some m' =>
      rw [hh] at gg
      obtain ⟨rfl, gg⟩ := gg
      refine ⟨upd h g none, ?_, ?_⟩
      · intro k; by_cases hk : k = g
        · subst hk; simpa [upd] using gg
        · simpa [upd, hk] using hg k
      · intro m2 k
        by_cases hk : k = g
        · subst hk
          by_cases hm : m2 = m'
          · subst hm; simp [upd]
          · have := ho m2 k; rw [hh] at this
            simp [upd, hm]; intro h2; exact absurd (this.1 h2) (by simpa using fun e => hm e.symm)
        · by_cases hm : m2 = m'
          · subst hm
            simp [upd, hk]
            intro h2
            have h3 := (ho m2 k).2 h2
            have h4 := (ho m2 g).2 hh
            rw [h3] at h4; exact hk (by simpa using h4)
          · simpa [upd, hk, hm] using ho m2 k
  | @touch m as _ hr =>
    rw [hr] at gg
    cases hh : h g with
    | none => rw [hh] at gg; exact gg.elim
    | some m' =>
      rw [hh] at gg
      refine ⟨h, ?_, ho⟩
      intro k; by_cases hk : k = g
      · subst hk; simpa [upd, hh] using gg.2
      · simpa [upd, hk] using hg k
  | @ext as _ hr =>
    rw [hr, good_ext] at gg
    refine ⟨h, ?_, ho⟩
    intro k; by_cases hk : k = g
    · subst hk; simpa [upd] using gg
    · simpa [upd, hk] using hg k
  | @block as _ hr =>
    rw [hr] at gg
    cases hh : h g with
    | some m' => rw [hh] at gg; exact gg.elim
    | none =>
      rw [hh] at gg
      refine ⟨h, ?_, ho⟩
      intro k; by_cases hk : k = g
      · subst hk; simpa [upd, hh, Good] using gg
      · simpa [upd, hk] using hg k

theorem reach_inv {mon tasks σ} (hm : Silent mon) (h : Reach mon tasks σ) : Inv' σ := by
  induction h with
  | init rest hr =>
    refine ⟨fun _ => none, ?_, by simp⟩
    intro g
    obtain ⟨b, r⟩ := hr g
    simpa using safe_task hm (tasks g) b (rest g) [] r trivial
  | step _ s ih => exact inv_step ih s

/-! ## C172 -/

/-- Data which a mutex guards is touched only by a goroutine holding that mutex. -/
theorem touched_by_holder {mon tasks σ g m as} (hm : Silent mon) (h : Reach mon tasks σ) (hr : σ.rest g = .touch m :: as) : σ.owner m = some g := by
  obtain ⟨h, hg, ho⟩ := reach_inv hm h
  have gg := hg g
  rw [hr] at gg
  cases hh : h g with
  | none => rw [hh] at gg; exact gg.elim
  | some m' => rw [hh] at gg; exact (ho m g).2 (by rw [hh, gg.1])

/-- So two goroutines are never about to touch the same data at the same time. -/
theorem no_race {mon tasks σ g g' m as as'} (hm : Silent mon) (h : Reach mon tasks σ) (hr : σ.rest g = .touch m :: as) (hr' : σ.rest g' = .touch m :: as') :
    g = g' := by
  have h1 := touched_by_holder hm h hr
  have h2 := touched_by_holder hm h hr'
  rw [h1] at h2; simpa using h2

/-- Only the holder of a mutex unlocks it: `Unlock` never crashes the server, and never opens someone else's section. -/
theorem unlocked_by_holder {mon tasks σ g m as} (hm : Silent mon) (h : Reach mon tasks σ) (hr : σ.rest g = .unlock m :: as) : σ.owner m = some g := by
  obtain ⟨h, hg, ho⟩ := reach_inv hm h
  have gg := hg g
  rw [hr] at gg
  cases hh : h g with
  | none => rw [hh] at gg; exact gg.elim
  | some m' => rw [hh] at gg; exact (ho m g).2 (by rw [hh, gg.1])

/-- Whoever holds a mutex holds no other one, isn't finished, and is neither waiting for another mutex nor for another party. -/
theorem holder_proceeds {mon tasks σ g m} (hm : Silent mon) (h : Reach mon tasks σ) (ho : σ.owner m = some g) :
    CanStep g σ ∧ (∀ m', σ.owner m' = some g → m' = m) ∧ ∃ a as, σ.rest g = a :: as ∧ (∀ m', a ≠ .lock m') ∧ a ≠ .block := by
  obtain ⟨h, hg, hw⟩ := reach_inv hm h
  have gg := hg g
  have hh := (hw m g).1 ho
  rw [hh] at gg
  have h1 : ∀ m', σ.owner m' = some g → m' = m := by
    intro m' h2
    have := (hw m' g).1 h2
    rw [hh] at this
    simpa using this.symm
  cases hr : σ.rest g with
  | nil => rw [hr] at gg; exact gg.elim
  | cons a as =>
    rw [hr] at gg
    cases a with
    | lock m' => exact gg.elim
    | block => exact gg.elim
    | unlock m' =>
      obtain ⟨rfl, _⟩ := gg
      exact ⟨⟨_, .unlock hr (by rw [ho]; simp)⟩, h1, _, _, rfl, by simp, by simp⟩
    | touch m' => exact ⟨⟨_, .touch hr⟩, h1, _, _, rfl, by simp, by simp⟩
    | ext => exact ⟨⟨_, .ext hr⟩, h1, _, _, rfl, by simp, by simp⟩

/-- A goroutine which wants a mutex that another one holds gets it after finitely many steps of the holder alone. -/
theorem mutex_is_freed {mon tasks σ g g' m as} (hm : Silent mon) (h : Reach mon tasks σ) (hr : σ.rest g = .lock m :: as) (ho : σ.owner m = some g') :
    g' ≠ g ∧ ∃ σ', Steps g' σ σ' ∧ σ'.owner m = none ∧ σ'.rest g = .lock m :: as ∧ CanStep g σ' := by
  have hne : g' ≠ g := by
    rintro rfl
    obtain ⟨_, _, a, as', h2, h3, _⟩ := holder_proceeds hm h ho
    rw [hr] at h2
    injection h2 with h2 _
    exact h3 m h2.symm
  refine ⟨hne, ?_⟩
  generalize hn : (σ.rest g').length = n
  induction n generalizing σ with
  | zero =>
    obtain ⟨_, _, a, as', h2, _, _⟩ := holder_proceeds hm h ho
    rw [h2] at hn; simp at hn
  | succ n ih =>
    obtain ⟨⟨σ', s⟩, hu, a, as', h2, h3, h4⟩ := holder_proceeds hm h ho
    have hrest : σ'.rest g = .lock m :: as ∧ (σ'.rest g').length = n := by
      cases s <;> simp_all [upd, Ne.symm hne]
    have hr' := hrest.1
    by_cases hown : σ'.owner m = some g'
    · obtain ⟨σ2, h5, h6, h7, h8⟩ := ih (.step h s) hr' hown hrest.2
      exact ⟨σ2, .step s h5, h6, h7, h8⟩
    · have hnone : σ'.owner m = none := by
        cases s with
        | @lock m' as2 _ hr2 hn2 => rw [h2] at hr2; injection hr2 with e _; exact absurd e (h3 m')
        | @unlock m' as2 _ hr2 hn2 =>
          have : m' = m := hu m' (unlocked_by_holder hm h hr2)
          subst this
          simp [upd]
        | touch => exact absurd ho hown
        | ext => exact absurd ho hown
        | block => exact absurd ho hown
      exact ⟨σ', .step s (.refl _), hnone, hr', ⟨_, .lock hr' hnone⟩⟩

/-- There's no deadlock: as long as a goroutine has something left to do, some goroutine can do its next action. -/
theorem deadlock_free {mon tasks σ g} (hm : Silent mon) (h : Reach mon tasks σ) (hr : σ.rest g ≠ []) : ∃ g', CanStep g' σ := by
  cases hc : σ.rest g with
  | nil => exact absurd hc hr
  | cons a as =>
    cases a with
    | lock m =>
      cases ho : σ.owner m with
      | none => exact ⟨g, _, .lock hc ho⟩
      | some g' => exact ⟨g', (holder_proceeds hm h ho).1⟩
    | unlock m => exact ⟨g, _, .unlock hc (by rw [unlocked_by_holder hm h hc]; simp)⟩
    | touch m => exact ⟨g, _, .touch hc⟩
    | ext => exact ⟨g, _, .ext hc⟩
    | block => exact ⟨g, _, .block hc⟩

/-! ### A monitor which calls the server -/

/-- `MultiMonitor` etc. call a function given by the embedding program; this one looks up the module which an event is about. -/
def curious : Prog := moduleInfo .skip

/-- The actions of `ModuleInfo` until the monitor is called, and the monitor's. -/
def curiousActs : List Act := [.ext, .lock .server, .touch .server, .ext, .lock .server, .touch .server, .unlock .server, .unlock .server]

theorem run_check : Run check false [] := .right .skip

theorem run_info {mon : Prog} {t : List Act} (h : Run mon false t) : Run (moduleInfo mon) false ([.ext, .lock .server, .touch .server] ++ t ++ [.unlock .server]) := by
  have h1 : Run (.seq (touch .server) (.seq check mon)) false ([.touch .server] ++ ([] ++ t)) := .seq (.act _) (.seq run_check h)
  have h2 := Run.recovered (Run.seq (Run.act .ext) (Run.seq run_check (Run.guard (m := .server) h1)))
  simpa [moduleInfo, ext] using h2

theorem curious_runs : Run (taskBody curious (.client [.moduleInfo])) false curiousActs := by
  have h1 : Run curious false _ := run_info .skip
  have h2 := Run.seq (run_info h1) Run.skip
  simpa [curiousActs, taskBody, callsBody, body] using h2

def onlyInfo : Nat → Task := fun g => if g = 0 then .client [.moduleInfo] else .client []

/-- Refutation for monitors which aren't silent: one goroutine, one `ModuleInfo` call, and a monitor which calls `ModuleInfo`: the call never returns, and neither
does any other which needs the server's mutex. -/
theorem curious_monitor_deadlocks : ∃ σ, Reach curious onlyInfo σ ∧ σ.rest 0 ≠ [] ∧ (∀ g, ¬ CanStep g σ) ∧ σ.owner .server = some 0 := by
  let r0 : Nat → List Act := fun g => if g = 0 then curiousActs else []
  have h0 : Reach curious onlyInfo ⟨r0, fun _ => none⟩ := by
    apply Reach.init
    intro g
    by_cases hg : g = 0
    · subst hg; exact ⟨false, by simpa [r0, onlyInfo] using curious_runs⟩
    · exact ⟨false, by simpa [r0, onlyInfo, hg, taskBody, callsBody] using Run.skip⟩
  have h1 := h0.step (Step.ext (g := 0) (as := curiousActs.drop 1) rfl)
  have h2 := h1.step (Step.lock (g := 0) (m := .server) (as := curiousActs.drop 2) rfl rfl)
  have h3 := h2.step (Step.touch (g := 0) (m := .server) (as := curiousActs.drop 3) rfl)
  have h4 := h3.step (Step.ext (g := 0) (as := curiousActs.drop 4) rfl)
  refine ⟨_, h4, by simp [upd, curiousActs], ?_, by simp [upd]⟩
  rintro g ⟨σ', s⟩
  by_cases hg : g = 0
  · subst hg
    cases s with
    | lock hr hn =>
      simp [upd, curiousActs] at hr
      obtain ⟨rfl, _⟩ := hr
      simp [upd] at hn
    | unlock hr _ => simp [upd, curiousActs] at hr
    | touch hr => simp [upd, curiousActs] at hr
    | ext hr => simp [upd, curiousActs] at hr
    | block hr => simp [upd, curiousActs] at hr
  · cases s with
    | lock hr _ => simp [upd, r0, hg] at hr
    | unlock hr _ => simp [upd, r0, hg] at hr
    | touch hr => simp [upd, r0, hg] at hr
    | ext hr => simp [upd, r0, hg] at hr
    | block hr => simp [upd, r0, hg] at hr

/-! ### The hypotheses are met -/

theorem silent_ext : Silent ext := by
  intro b t r; cases r; simp

/-- With a monitor which does some work, one goroutine is in `ModuleInfo`'s section with the monitor's work ahead, and another one's `ModuleInfo` waits for the mutex. -/
example : ∃ σ, Reach ext (fun g => if g ≤ 1 then .client [.moduleInfo] else .client []) σ ∧ σ.owner .server = some 0 ∧ σ.rest 0 = [.ext, .unlock .server] ∧
    σ.rest 1 = [.lock .server, .touch .server, .ext, .unlock .server] := by
  let t : List Act := [.ext, .lock .server, .touch .server, .ext, .unlock .server]
  let r0 : Nat → List Act := fun g => if g ≤ 1 then t else []
  have h0 : Reach ext (fun g => if g ≤ 1 then .client [.moduleInfo] else .client []) ⟨r0, fun _ => none⟩ := by
    apply Reach.init
    intro g
    by_cases hg : g ≤ 1
    · refine ⟨false, ?_⟩
      simp only [r0, hg, if_true]
      have h2 := Run.seq (run_info (Run.act .ext)) Run.skip
      simpa [t, taskBody, callsBody, body, ext] using h2
    · exact ⟨false, by simpa [r0, hg, taskBody, callsBody] using Run.skip⟩
  have h1 := h0.step (Step.ext (g := 0) (as := t.drop 1) rfl)
  have h2 := h1.step (Step.lock (g := 0) (m := .server) (as := t.drop 2) rfl rfl)
  have h3 := h2.step (Step.touch (g := 0) (m := .server) (as := t.drop 3) rfl)
  have h4 := h3.step (Step.ext (g := 1) (as := t.drop 1) rfl)
  exact ⟨_, h4, by simp [upd], by simp [upd, t], by simp [upd, t]⟩

end Gate.Locks
