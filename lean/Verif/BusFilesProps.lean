import Verif.BusFiles
/-
C180: passed descriptors are closed.
-/
namespace Gate.BusFiles

theorem next_step (f : World → World) (b : M) (w : World) : (step f ;; b) w = b (f w) := rfl
theorem next_fail (x : Bool) (b : M) (w : World) : (fail x ;; b) w = if x then (w, true) else b w := by cases x <;> rfl

/-- How many times a descriptor is closed: what holds it closes it once. -/
def closes (w : World) (f : Fd) : Nat := w.closed f + (if w.held f then 1 else 0)

/-- What isn't closed. -/
inductive Leak (e : Env) : Method → Fd → Prop where
  /-- A module file which can't be written to as the module wasn't found. -/
  | download : e.aborted = true ∨ e.fails = true → Leak e .DownloadModule .module_
  /-- Modules read from something else than a regular file. -/
  | pipe (m : Method) : m = .CallFile ∨ m = .LaunchFile → e.regular = false → Leak e m .module_
  /-- Everything, if the daemon's initialization failed. -/
  | aborted (m : Method) (f : Fd) : e.aborted = true → f ∈ params m → Leak e m f

instance (e : Env) (m : Method) (f : Fd) : Decidable (Leak e m f) :=
  decidable_of_iff ((m = .DownloadModule ∧ f = .module_ ∧ (e.aborted = true ∨ e.fails = true)) ∨ ((m = .CallFile ∨ m = .LaunchFile) ∧ f = .module_ ∧ e.regular = false) ∨ (e.aborted = true ∧ f ∈ params m))
    ⟨by
      rintro (⟨rfl, rfl, h⟩ | ⟨h, rfl, h2⟩ | ⟨h, h2⟩)
      · exact .download h
      · exact .pipe _ h h2
      · exact .aborted _ _ h h2,
     by
      intro h
      cases h with
      | download h => exact .inl ⟨rfl, rfl, h⟩
      | pipe _ h h2 => exact .inr (.inl ⟨h, rfl, h2⟩)
      | aborted _ _ h h2 => exact .inr (.inr ⟨h, h2⟩)⟩

/-- What a launch does to the descriptors: the log and a regular module file get closed. -/
theorem doLaunch_closes (e : Env) (file : Bool) (w : World) (hs : w.stream = false) (hl : w.log = false) (hm : w.held .module_ = false) (hd : w.held .debug = false) (f : Fd) :
    closes (doLaunch e file w).1 f = closes w f + (if f = .debug ∨ (f = .module_ ∧ file = true ∧ e.regular = true) then 1 else 0) ∧ (doLaunch e file w).1.suspendVar = w.suspendVar ∧
      ∀ f, f ≠ .module_ → f ≠ .debug → (doLaunch e file w).1.held f = w.held f := by
  obtain ⟨closed, held, fl, sv, st, lg, la, ki, co⟩ := w
  simp only at hs hl hm hd
  subst hs; subst hl
  obtain ⟨a, b, c, d, g, t, i, j, k, l, n⟩ := e
  cases file
  · cases j <;> cases d <;> cases t <;> cases i <;>
      simp [doLaunch, invokeOptions, next, step, deferred, serverLaunch, fail, nop, takeLog, closeInvoke, close, newFile, hold, closes, set] <;> cases f <;> simp_all
  · cases j <;> cases b <;> cases c <;> cases d <;> cases g <;> cases t <;> cases i <;>
      simp [doLaunch, moduleUpload, invokeOptions, next, step, deferred, serverLaunch, fail, nop, takeLog, takeStream, closeUpload, closeInvoke, close, newFile, hold, closes, set] <;> cases f <;> simp_all

theorem closes_close (g f : Fd) (w : World) : closes (close g w) f = closes w f + (if f = g then 1 else 0) := by
  have h : closes (close g w) f = (close g w).closed f + (if w.held f then 1 else 0) := rfl
  rw [h]
  simp only [closes, close, set]
  by_cases e : f = g
  · subst e; simp only [if_pos]; omega
  · simp only [if_neg e]; omega

theorem closes_hold (g f : Fd) (w : World) (h : w.held g = false) : closes (hold g w) f = closes w f + (if f = g then 1 else 0) := by
  simp only [closes, hold, set]
  by_cases e : f = g
  · subst e; simp [h]
  · simp [e]

theorem doCall_closes (e : Env) (file : Bool) (w : World) (hs : w.stream = false) (hl : w.log = false) (hh : ∀ f, w.held f = false) (f : Fd) :
    closes (doCall e file w).1 f = closes w f + (if f = .module_ then (if file = true ∧ e.regular = true then 1 else 0) else 1) := by
  generalize hw : newFile .w (newFile .r (newFile .suspend { w with suspendVar := true })) = w1
  have h1 : w1.stream = false ∧ w1.log = false ∧ w1.suspendVar = true ∧ (∀ f, w1.held f = false) ∧ ∀ f, closes w1 f = closes w f := by
    subst hw; exact ⟨hs, hl, rfl, hh, fun _ => rfl⟩
  obtain ⟨a1, a2, a3, a4, a5⟩ := h1
  obtain ⟨b1, b2, b3⟩ := doLaunch_closes e file w1 a1 a2 (a4 _) (a4 _) f
  have hd : doCall e file w = (closeSuspend (close .r (close .w (if (doLaunch e file w1).2 then (doLaunch e file w1).1 else
      { hold .suspend (doLaunch e file w1).1 with suspendVar := false, connected := (doLaunch e file w1).1.connected + 1, killed := (doLaunch e file w1).1.killed + 1 }))), (doLaunch e file w1).2) := by
    subst hw
    simp only [doCall, next_step, deferred, next]
    cases h : (doLaunch e file (newFile .w (newFile .r (newFile .suspend { w with suspendVar := true })))).2 <;> simp [hold, step, h]
  rw [hd]
  cases h : (doLaunch e file w1).2
  · have hc : ∀ x : World, x.suspendVar = false → closeSuspend x = x := fun x hx => by simp [closeSuspend, hx]
    simp only [Bool.false_eq_true, if_false]
    rw [hc _ rfl, closes_close, closes_close]
    have : ∀ (x : World) (c k : Nat), closes { hold .suspend x with suspendVar := false, connected := c, killed := k } f = closes (hold .suspend x) f := fun _ _ _ => rfl
    rw [this, closes_hold _ _ _ (by rw [b3 _ (by decide) (by decide)]; exact a4 _), b1, a5]
    cases f <;> simp <;> omega
  · have hc : ∀ x : World, x.suspendVar = true → closeSuspend x = close .suspend { x with suspendVar := false } := fun x hx => by simp [closeSuspend, hx]
    simp only [if_true]
    rw [hc _ (by show (doLaunch e file w1).1.suspendVar = true; rw [b2, a3])]
    have : ∀ x : World, closes (close .suspend { x with suspendVar := false }) f = closes (close .suspend x) f := fun _ => rfl
    rw [this, closes_close, closes_close, closes_close, b1, a5]
    cases f <;> simp <;> omega

/-- Every descriptor which is passed with a call is closed exactly once, or in the named cases not at all; nothing else is closed. -/
theorem closed_once (e : Env) (m : Method) (f : Fd) : closes (run e m {}).1 f = if f ∈ params m ∧ ¬ Leak e m f then 1 else 0 := by
  by_cases ha : e.aborted = true
  · rw [if_neg (by rintro ⟨h, h'⟩; exact h' (.aborted m f ha h))]
    cases m <;> simp [run, ha, next, fail, step] <;> rfl
  · have hl : Leak e m f ↔ ((m = .DownloadModule ∧ f = .module_ ∧ e.fails = true) ∨ ((m = .CallFile ∨ m = .LaunchFile) ∧ f = .module_ ∧ e.regular = false)) := by
      constructor
      · intro h
        cases h with
        | download h => exact .inl ⟨rfl, rfl, h.resolve_left ha⟩
        | pipe _ h h2 => exact .inr ⟨h, rfl, h2⟩
        | aborted _ _ h => exact absurd h ha
      · rintro (⟨rfl, rfl, h⟩ | ⟨h, rfl, h2⟩)
        · exact .download (.inr h)
        · exact .pipe _ h h2
    have hn : e.aborted = false := by simpa using ha
    have hz : ∀ g, closes {} g = 0 := fun _ => rfl
    have hz' : ∀ g, closes (newFile .module_ {}) g = 0 := fun _ => rfl
    simp only [hl]
    cases m
    case Call =>
      simp only [run, next_fail, hn, Bool.false_eq_true, if_false]
      rw [doCall_closes e false {} rfl rfl (fun _ => rfl), hz]
      cases f <;> simp [params]
    case CallFile =>
      simp only [run, next_step, next_fail, hn, Bool.false_eq_true, if_false]
      rw [doCall_closes e true (newFile .module_ {}) rfl rfl (fun _ => rfl), hz']
      cases f <;> simp [params]
    case Launch =>
      simp only [run, next_fail, hn, Bool.false_eq_true, if_false]
      rw [(doLaunch_closes e false {} rfl rfl rfl rfl f).1, hz]
      cases f <;> simp [params]
    case LaunchFile =>
      simp only [run, next_step, next_fail, hn, Bool.false_eq_true, if_false]
      rw [(doLaunch_closes e true (newFile .module_ {}) rfl rfl rfl rfl f).1, hz']
      cases f <;> simp [params]
    case ConnectInstance =>
      simp only [run, next_fail, hn, Bool.false_eq_true, if_false, connectInstance, next_step, deferred]
      have hc : ∀ x : World, closes x f = 0 → closes (close .r (close .w x)) f = if f = .r ∨ f = .w then 1 else 0 := by
        intro x hx; rw [closes_close, closes_close, hx]; cases f <;> simp
      rw [hc]
      · cases f <;> simp [params]
      · cases e.nonblock <;> cases e.fails <;> cases e.noConn <;> rfl
    case DownloadModule =>
      simp only [run, next_step, next_fail, hn, Bool.false_eq_true, if_false]
      cases e.fails <;> cases f <;> simp [params, closes, step, hold, set, newFile]
    case ResumeInstance =>
      obtain ⟨a, b, c, d, g, t, i, j, k, l, n⟩ := e
      simp only [run, next_fail, resumeInstance] at *
      subst hn
      cases d <;> cases t <;> cases i <;> cases j <;> cases f <;>
        simp [params, closes, step, hold, set, newFile, invokeOptions, next, deferred, fail, takeLog, closeInvoke, close]
    case UploadModule =>
      obtain ⟨a, b, c, d, g, t, i, j, k, l, n⟩ := e
      simp only [run, next_fail, next_step] at *
      subst hn
      cases d <;> cases g <;> cases i <;> cases f <;>
        simp [params, closes, step, hold, set, newFile, next, deferred, fail, takeStream, closeUpload, close]

/-- What isn't closed gets closed as garbage, except for what had been received when the initialization failed. -/
theorem garbage (e : Env) (m : Method) (f : Fd) (h : Leak e m f) (ha : e.aborted = false) : (run e m {}).1.file f = true := by
  have hset : ∀ (g h : Fd) (w : World), w.file g = true → (newFile h w).file g = true := by
    intro g h w e; simp only [newFile, set]; split <;> simp_all
  cases h with
  | download h => cases hf : e.fails <;> simp [run, next, step, fail, ha, hf, newFile, hold, set]
  | aborted _ _ h => rw [h] at ha; cases ha
  | pipe _ h h2 =>
    obtain ⟨a, b, c, d, g, t, i, j, k, l, n⟩ := e
    simp only at ha h2
    subst ha; subst h2
    rcases ‹m = .CallFile ∨ m = .LaunchFile› with rfl | rfl <;> cases c <;> cases d <;> cases t <;> cases i <;> cases j <;>
      simp [run, doCall, doLaunch, moduleUpload, invokeOptions, next, step, deferred, serverLaunch, fail, takeLog, takeStream, closeUpload, closeInvoke, closeSuspend, close, newFile, hold, set]

/-- An instance which is created by a call is killed when the call ends, and the connection was made only to it. -/
theorem call_kills (e : Env) (m : Method) (h : m = .Call ∨ m = .CallFile) : (run e m {}).1.killed = (run e m {}).1.launched ∧ (run e m {}).1.connected = (run e m {}).1.launched := by
  obtain ⟨a, b, c, d, g, t, i, j, k, l, n⟩ := e
  rcases ‹m = .Call ∨ m = .CallFile› with rfl | rfl
  · cases a <;> cases j <;> cases d <;> cases t <;> cases i <;>
      simp [run, doCall, doLaunch, invokeOptions, next, step, deferred, serverLaunch, fail, nop, takeLog, closeInvoke, closeSuspend, close, newFile, hold, set]
  · cases a <;> cases j <;> cases b <;> cases c <;> cases d <;> cases g <;> cases t <;> cases i <;>
      simp [run, doCall, doLaunch, moduleUpload, invokeOptions, next, step, deferred, serverLaunch, fail, takeLog, takeStream, closeUpload, closeInvoke, closeSuspend, close, newFile, hold, set]

/-! ## Examples -/

/-- Everything goes well, with a regular file. -/
def exEnv : Env := ⟨false, true, false, false, true, true, false, true, false, false, false⟩

theorem ex_callFile : (params .CallFile).map (closes (run exEnv .CallFile {}).1) = [1, 1, 1, 1, 1] ∧ (run exEnv .CallFile {}).1.launched = 1 ∧ (run exEnv .CallFile {}).2 = false ∧
    [Fd.module_, .suspend, .r, .w, .debug].map (run exEnv .CallFile {}).1.held = [true, true, false, false, true] := by decide +kernel

/-- Refuted: every file is closed. A module read from a pipe isn't; nor is the one of a failing download. -/
theorem closed_refuted : closes (run { exEnv with regular := false } .LaunchFile {}).1 .module_ = 0 ∧ (run { exEnv with regular := false } .LaunchFile {}).2 = false ∧
    closes (run { exEnv with fails := true } .DownloadModule {}).1 .module_ = 0 ∧ Leak { exEnv with regular := false } .LaunchFile .module_ := by
  refine ⟨by decide +kernel, by decide +kernel, by decide +kernel, .pipe _ (.inr rfl) rfl⟩

/-- The descriptors are closed also if the server refuses the module. -/
theorem ex_refused : (params .CallFile).map (closes (run { exEnv with refused := true } .CallFile {}).1) = [1, 1, 1, 1, 1] ∧ (run { exEnv with refused := true } .CallFile {}).2 = true := by decide +kernel

end Gate.BusFiles
