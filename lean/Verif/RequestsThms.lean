import Verif.RequestsAll
/-
C138-C141: the theorems about all executions of all requests.
-/

namespace Gate.Requests

theorem tested (o : Nat → Bool) (a : Api) (c : Cfg) : test a c (request o a c) = true :=
  List.all_eq_true.mp (allOk_all a c) _ (run_mem o _ _ _)

theorem any_eff {l : List Log} {p : Log → Bool} {x : Log} (hx : ∀ y, p y = true ↔ y = x) : l.any p = true ↔ x ∈ l := by
  rw [List.any_eq_true]
  constructor
  · rintro ⟨y, hy, hp⟩; rw [← (hx y).mp hp]; exact hy
  · intro h; exact ⟨x, h, (hx x).mpr rfl⟩

theorem isNew_iff (y : Log) : isNew y = true ↔ y = .eff .newInstance := by cases y with | eff e => cases e <;> simp [isNew] | _ => simp [isNew]
theorem isResume_iff (y : Log) : isResume y = true ↔ y = .eff .resume := by cases y with | eff e => cases e <;> simp [isResume] | _ => simp [isResume]
theorem isDelete_iff (y : Log) : isDelete y = true ↔ y = .eff .delete := by cases y with | eff e => cases e <;> simp [isDelete] | _ => simp [isDelete]
theorem isPin_iff (y : Log) : isPin y = true ↔ y = .eff .pin := by cases y with | eff e => cases e <;> simp [isPin] | _ => simp [isPin]
theorem isPinEv_iff (y : Log) : isPinEv y = true ↔ y = .ev .modulePin := by cases y with | ev e => cases e <;> simp [isPinEv] | _ => simp [isPinEv]
theorem isPinMod_iff (y : Log) : isPinMod y = true ↔ y = .passed .pinModified := by cases y with | passed e => cases e <;> simp [isPinMod] | _ => simp [isPinMod]
theorem passedPolicy_iff (y : Log) : passedPolicy y = true ↔ y = .passed .policy := by cases y with | passed e => cases e <;> simp [passedPolicy] | _ => simp [passedPolicy]
theorem failedPolicy_iff (y : Log) : failedPolicy y = true ↔ y = .failed .policy := by cases y with | failed e => cases e <;> simp [failedPolicy] | _ => simp [failedPolicy]
theorem isBad_iff (y : Log) : isBad y = true ↔ y = .failed .start ∨ y = .failed .storeInstance := by cases y with | failed e => cases e <;> simp [isBad] | _ => simp [isBad]
theorem isCrash_iff (x : Out) : isCrash x = true ↔ x = .crash := by cases x <;> simp [isCrash]
theorem isRet_iff (x : Out) : isRet x = true ↔ x = .ret := by cases x <;> simp [isRet]

/-! ### C138: authorization -/

/-- What happened before something: the log is in reverse order. -/
def Before (l : List Log) (x y : Log) : Prop := ∃ l1 l2, l = l1 ++ y :: l2 ∧ x ∈ l2

theorem authFirst_sound (n : Nat) : ∀ l, authFirst n l = true → ∀ l1 y l2, l = l1 ++ y :: l2 → act n y = true → .passed .policy ∈ l2
  | [], _, l1, y, l2, e, _ => by cases l1 <;> cases e
  | x :: l, h, l1, y, l2, e, hy => by
    simp only [authFirst, Bool.and_eq_true] at h
    cases l1 with
    | nil =>
      simp only [List.nil_append, List.cons.injEq] at e
      obtain ⟨rfl, rfl⟩ := e
      rw [if_pos hy] at h
      exact (any_eff passedPolicy_iff).mp h.1
    | cons z l1 =>
      simp only [List.cons_append, List.cons.injEq] at e
      exact authFirst_sound n l h.2 l1 y l2 e.2 hy

/-- How many resources there are when the request comes. -/
def have_ (a : Api) (c : Cfg) : Nat := (callers a c ++ fields a c).length

theorem auth (o : Nat → Bool) (a : Api) (c : Cfg) (h1 : a ≠ .snapshot) (h2 : a ≠ .drive) :
    authFirst (have_ a c) (request o a c).1.log = true ∧
    ¬ ((request o a c).1.log.any failedPolicy = true ∧ ((request o a c).1.log.any passedPolicy = true ∨ isRet (request o a c).2 = true ∨ isCrash (request o a c).2 = true)) := by
  have h := tested o a c
  generalize request o a c = r at h
  simp only [test, Bool.and_eq_true] at h
  have h := h.1.1.1.2
  have : testAuth a c r = (authFirst (have_ a c) r.1.log && !(r.1.log.any failedPolicy && (r.1.log.any passedPolicy || isRet r.2 || isCrash r.2))) := by
    cases a <;> first | rfl | exact absurd rfl h1 | exact absurd rfl h2
  rw [this] at h
  simp only [Bool.and_eq_true, Bool.not_eq_true', ← Bool.not_eq_true, Bool.or_eq_true, or_assoc] at h
  exact h

/-- Every request except Snapshot asks the access policy before it changes, reports, or acquires anything. -/
theorem policy_first_partial (o : Nat → Bool) (a : Api) (c : Cfg) (h1 : a ≠ .snapshot) (h2 : a ≠ .drive)
    (x : Log) (hx : x ∈ (request o a c).1.log) (ha : act (have_ a c) x = true) : Before (request o a c).1.log (.passed .policy) x := by
  obtain ⟨l1, l2, e⟩ := List.append_of_mem hx
  exact ⟨l1, l2, e, authFirst_sound _ _ (auth o a c h1 h2).1 l1 x l2 e ha⟩

/-- If the policy refuses a request other than Snapshot, then the request fails and nothing has been done: no change, no event, and
nothing acquired. -/
theorem refused_no_effect_partial (o : Nat → Bool) (a : Api) (c : Cfg) (h1 : a ≠ .snapshot) (h2 : a ≠ .drive)
    (hr : .failed .policy ∈ (request o a c).1.log) :
    (request o a c).2 = .err ∧ (∀ e, .eff e ∉ (request o a c).1.log) ∧ (∀ e, .ev e ∉ (request o a c).1.log) ∧
    ∀ h, have_ a c ≤ h → .opened h ∉ (request o a c).1.log := by
  have h := (auth o a c h1 h2).2
  rw [any_eff failedPolicy_iff, any_eff passedPolicy_iff, isRet_iff, isCrash_iff] at h
  have hp : .passed .policy ∉ (request o a c).1.log := fun hp => h ⟨hr, .inl hp⟩
  have no : ∀ x, act (have_ a c) x = true → x ∉ (request o a c).1.log := fun x hx hm => by
    obtain ⟨l1, l2, e, hm⟩ := policy_first_partial o a c h1 h2 x hm hx
    apply hp; rw [e]; simp [hm]
  refine ⟨?_, fun e => no _ rfl, fun e => no _ rfl, fun n hn => no _ (by simp only [act]; exact decide_eq_true hn)⟩
  cases ho : (request o a c).2 with
  | ret => exact absurd ⟨hr, .inr (.inl ho)⟩ h
  | err => rfl
  | crash => exact absurd ⟨hr, .inr (.inr ho)⟩ h

/-- The oracle whose checks fail according to a list. -/
def script (l : List Bool) (n : Nat) : Bool := l.getD n false

/-- Snapshot of a running instance suspends it before asking the policy; if it is refused, then so is the resumption, and the instance
stays suspended. -/
theorem snapshot_unauthorized_refuted : ∃ o c, (request o .snapshot c).2 = .err ∧ .eff .suspend ∈ (request o .snapshot c).1.log ∧
    .passed .policy ∉ (request o .snapshot c).1.log ∧ .failed .policy ∈ (request o .snapshot c).1.log ∧ .eff .resume ∉ (request o .snapshot c).1.log :=
  ⟨script [false, true, true], { running := true, pin := true }, by decide +kernel, by decide +kernel, by decide +kernel, by decide +kernel, by decide +kernel⟩

/-- A refused upload; an upload which isn't. -/
example : .failed .policy ∈ (request (script [false, true]) .uploadModuleInstance {}).1.log := by decide +kernel
example : .passed .policy ∈ (request (script []) .uploadModuleInstance {}).1.log ∧ .eff .start ∈ (request (script []) .uploadModuleInstance {}).1.log := by decide +kernel

/-! ### C139: resources -/

/-- What makes a request lose a resource, or release one twice. -/
def Leaky (a : Api) (c : Cfg) (l : List Log) (out : Out) : Prop :=
  .failed .start ∈ l ∨ .failed .storeInstance ∈ l ∨ (out = .crash ∧ .eff .newInstance ∈ l) ∨
  (a = .resumeInstance ∧ c.oldLog = true ∧ .eff .resume ∈ l) ∨
  (a = .deleteInstance ∧ (c.alt = true ∨ c.oldLog = true) ∧ .eff .delete ∈ l) ∨
  (a = .drive ∧ c.alt = true ∧ .eff .delete ∈ l)

theorem any_bad (l : List Log) : l.any isBad = true ↔ .failed .start ∈ l ∨ .failed .storeInstance ∈ l := by
  rw [List.any_eq_true]
  constructor
  · rintro ⟨x, hx, h⟩
    rcases (isBad_iff x).mp h with rfl | rfl
    · exact .inl hx
    · exact .inr hx
  · rintro (h | h)
    · exact ⟨_, h, rfl⟩
    · exact ⟨_, h, rfl⟩

theorem leaky_iff (a : Api) (c : Cfg) (r : St × Out) : leaky a c r = true ↔ Leaky a c r.1.log r.2 := by
  simp only [leaky, Leaky, Bool.or_eq_true, Bool.and_eq_true, any_bad, isCrash_iff, any_eff isNew_iff]
  cases a <;> simp [-List.any_eq_true, any_eff isResume_iff, any_eff isDelete_iff] <;> grind

/-- Exactly when a request doesn't release each of its resources once (or leave it to the server or an instance): if starting an instance fails,
or storing one does, or the handler crashes having created an instance; and when an instance which has a debug log already is resumed or
deleted, or an instance with a rebuilt program image is deleted. -/
theorem resources_partial (o : Nat → Bool) (a : Api) (c : Cfg) :
    Balanced (request o a c).1 ↔ ¬ Leaky a c (request o a c).1.log (request o a c).2 := by
  have h := tested o a c
  generalize request o a c = r at h
  simp only [test, Bool.and_eq_true] at h
  have h := h.1.1.1.1
  simp only [testBalance] at h
  rw [← leaky_iff]
  split at h
  · rename_i hl
    exact ⟨fun hb => absurd hb (unbalanced_sound _ h), fun hn => absurd hl hn⟩
  · rename_i hl
    exact ⟨fun _ => hl, fun _ => balanced_sound _ h⟩

set_option maxRecDepth 100000 in
theorem all1 : ∀ anonymous pin hash known redundant, (outcomes (.call (body .uploadModule {anonymous,pin,hash,known,redundant}) .ret) (callers .uploadModule {anonymous,pin,hash,known,redundant}) (initial .uploadModule {anonymous,pin,hash,known,redundant})).all (fun r => balanced r.1) = true := by decide +kernel
set_option maxRecDepth 100000 in
theorem all2 : ∀ anonymous pin redundant, (outcomes (.call (body .sourceModule {anonymous,pin,redundant}) .ret) (callers .sourceModule {anonymous,pin,redundant}) (initial .sourceModule {anonymous,pin,redundant})).all (fun r => balanced r.1) = true := by decide +kernel
set_option maxRecDepth 100000 in
theorem all3 : ∀ anonymous, (outcomes (.call (body .moduleContent {anonymous}) .ret) (callers .moduleContent {anonymous}) (initial .moduleContent {anonymous})).all (fun r => balanced r.1) = true := by decide +kernel
set_option maxRecDepth 100000 in
theorem all4 : ∀ anonymous running oldLog alt, (outcomes (.call (body .suspendInstance {anonymous,running,oldLog,alt}) .ret) (callers .suspendInstance {anonymous,running,oldLog,alt}) (initial .suspendInstance {anonymous,running,oldLog,alt})).all (fun r => balanced r.1) = true := by decide +kernel
set_option maxRecDepth 100000 in
theorem all5 : ∀ anonymous modified original running oldLog alt, (outcomes (.call (body .debugInstance {anonymous,modified,original,running,oldLog,alt}) .ret) (callers .debugInstance {anonymous,modified,original,running,oldLog,alt}) (initial .debugInstance {anonymous,modified,original,running,oldLog,alt})).all (fun r => balanced r.1) = true := by decide +kernel

/-- In particular: whatever fails of uploading a module, getting one from a source, downloading one, suspending or debugging an instance, each
resource is released or passed on once. -/
theorem resources_exact (o : Nat → Bool) (a : Api) (c : Cfg)
    (ha : a = .uploadModule ∨ a = .sourceModule ∨ a = .moduleContent ∨ a = .suspendInstance ∨ a = .debugInstance) : Balanced (request o a c).1 := by
  refine balanced_sound _ (List.all_eq_true.mp (?_ : List.all _ (fun r => balanced r.1) = true) _ (run_mem o _ _ _))
  rcases ha with rfl | rfl | rfl | rfl | rfl
  · exact all1 c.anonymous c.pin c.hash c.known c.redundant
  · exact all2 c.anonymous c.pin c.redundant
  · exact all3 c.anonymous
  · exact all4 c.anonymous c.running c.oldLog c.alt
  · exact all5 c.anonymous c.modified c.original c.running c.oldLog c.alt

/-- A handler which isn't balanced either has lost something or released something twice. -/
def Lost (s : St) : Prop := ∃ h, .opened h ∈ s.log ∧ uses s h = 0
def Twice (s : St) : Prop := ∃ h, 2 ≤ uses s h

/-- When a process can't be started, the program's reference is dropped twice: _runOrDeleteInstance drops it, and so does its caller. -/
theorem start_failure_refuted : ∃ o, (request o .newInstance {}).2 = .err ∧ .failed .start ∈ (request o .newInstance {}).1.log ∧ Twice (request o .newInstance {}).1 ∧
    ∃ o', .failed .start ∈ (request o' .resumeInstance {}).1.log ∧ Twice (request o' .resumeInstance {}).1 :=
  ⟨script [false, false, false, false, false, false, false, false, false, false, false, false, false, true], by decide +kernel, by decide +kernel, ⟨4, by decide +kernel⟩,
   script [false, false, false, false, false, false, true], by decide +kernel, ⟨1, by decide +kernel⟩⟩

/-- When a suspended instance can't be stored, its image is lost. -/
theorem store_failure_refuted : ∃ o, .failed .storeInstance ∈ (request o .newInstance { suspend := true }).1.log ∧ Lost (request o .newInstance { suspend := true }).1 :=
  ⟨script [false, false, false, false, false, false, false, false, false, false, false, true], by decide +kernel, ⟨1, by decide +kernel⟩⟩

/-- The debug log of an instance which was created suspended is lost when it's resumed or deleted. -/
theorem old_log_refuted : (∃ o, (request o .resumeInstance { oldLog := true, withLog := true }).2 = .ret ∧ Lost (request o .resumeInstance { oldLog := true, withLog := true }).1) ∧
    ∃ o, (request o .deleteInstance { oldLog := true }).2 = .ret ∧ Lost (request o .deleteInstance { oldLog := true }).1 :=
  ⟨⟨script [], by decide +kernel, ⟨2, by decide +kernel⟩⟩, ⟨script [], by decide +kernel, ⟨1, by decide +kernel⟩⟩⟩

/-- The program image which was rebuilt for debugging is lost when the instance is deleted. -/
theorem alt_image_refuted : (∃ o, (request o .deleteInstance { alt := true }).2 = .ret ∧ Lost (request o .deleteInstance { alt := true }).1) ∧
    ∃ o, (request o .drive { alt := true, transient := true }).2 = .ret ∧ Lost (request o .drive { alt := true, transient := true }).1 :=
  ⟨⟨script [], by decide +kernel, ⟨1, by decide +kernel⟩⟩, ⟨script [], by decide +kernel, ⟨4, by decide +kernel⟩⟩⟩

/-- Each request can succeed, with its resources balanced. -/
example (a : Api) : ∃ o c, (request o a c).2 = .ret ∧ Balanced (request o a c).1 := by
  refine ⟨script [], { pin := true }, ?_, ?_⟩
  · cases a <;> decide +kernel
  · apply balanced_sound; cases a <;> decide +kernel

/-- The variables are different: assigning to one doesn't change another. -/
theorem varCode_inj (x y : Var) (h : x.code = y.code) : x = y := by
  cases x <;> cases y <;> first | rfl | (exact absurd h (by decide))

theorem look_remove (env : List (Var × Nat)) (v w : Var) : get.look w (set.remove v env) = if w = v then none else get.look w env := by
  induction env with
  | nil => simp [set.remove, get.look]
  | cons e l ih =>
    by_cases h1 : e.1 = v
    · have hb : e.1.code.beq v.code = true := by rw [Nat.beq_eq, h1]
      simp only [set.remove, hb, if_true, ih]
      by_cases h2 : w = v
      · simp [h2]
      · have hw : e.1.code.beq w.code = false := by
          rw [Bool.eq_false_iff]
          intro hx
          rw [Nat.beq_eq] at hx
          exact h2 (by rw [← varCode_inj _ _ hx, h1])
        simp [h2, get.look, hw]
    · have hb : e.1.code.beq v.code = false := by
        rw [Bool.eq_false_iff]
        intro hx
        rw [Nat.beq_eq] at hx
        exact h1 (varCode_inj _ _ hx)
      simp only [set.remove, hb, Bool.false_eq_true, if_false, get.look, ih]
      by_cases h2 : e.1 = w
      · have hw : e.1.code.beq w.code = true := by rw [Nat.beq_eq, h2]
        simp only [hw, if_true]
        rw [if_neg (fun hx => h1 (by rw [h2, hx]))]
      · have hw : e.1.code.beq w.code = false := by
          rw [Bool.eq_false_iff]
          intro hx
          rw [Nat.beq_eq] at hx
          exact h2 (varCode_inj _ _ hx)
        simp only [hw, Bool.false_eq_true, if_false]

/-- An assignment changes the variable and no other. -/
theorem get_set (env : List (Var × Nat)) (v w : Var) (x : Option Nat) : get (set env v x) w = if w = v then x else get env w := by
  cases x with
  | none => exact look_remove env v w
  | some h =>
    simp only [get, set, get.look]
    by_cases hv : v.code.beq w.code = true
    · rw [if_pos hv]
      rw [Nat.beq_eq] at hv
      rw [if_pos (varCode_inj _ _ hv).symm]
    · rw [if_neg hv, look_remove]
      by_cases h2 : w = v
      · subst h2; exact absurd (by rw [Nat.beq_eq]) hv
      · rw [if_neg h2, if_neg h2]

/-! ### C140: events -/

theorem code_inj (x y : Ev) (h : x.code.beq y.code = true) : x = y := by
  rw [Nat.beq_eq] at h
  cases x <;> cases y <;> first | rfl | (exact absurd h (by decide))

theorem initialPart_true : ∀ l m, initialPart l m = some true → l = m
  | [], [], _ => rfl
  | [], _ :: _, h => by cases h
  | _ :: _, [], h => by cases h
  | x :: l, y :: m, h => by
    simp only [initialPart] at h
    split at h
    · rename_i hc; rw [code_inj x y hc, initialPart_true l m h]
    · cases h

theorem initialPart_false : ∀ l m, initialPart l m = some false → l <+: m ∧ l ≠ m
  | [], [], h => by cases h
  | [], y :: m, _ => ⟨⟨y :: m, rfl⟩, by simp⟩
  | _ :: _, [], h => by cases h
  | x :: l, y :: m, h => by
    simp only [initialPart] at h
    split at h
    · rename_i hc
      obtain ⟨⟨t, ht⟩, hn⟩ := initialPart_false l m h
      rw [code_inj x y hc]
      exact ⟨⟨t, by rw [← ht]; rfl⟩, fun e => hn (List.cons.inj e).2⟩
    · cases h

/-- A request which succeeds has reported what it's to report, in order, and nothing else. -/
theorem success_reports (o : Nat → Bool) (a : Api) (c : Cfg) (h : (request o a c).2 = .ret) : events (request o a c).1 = report a c := by
  have ht := tested o a c
  generalize request o a c = r at h ht
  simp only [test, Bool.and_eq_true] at ht
  have ht := ht.1.1.2
  simp only [testEvents, Bool.and_eq_true] at ht
  have ht := ht.1.1
  rw [(isRet_iff r.2).mpr h] at ht
  have : (initialPart (events r.1) (report a c) == some true) = true := by cases a <;> exact ht
  exact initialPart_true _ _ (by simpa using this)

/-- A request (other than Snapshot, which consists of two) which fails hasn't reported its success: what it has reported is an initial part of
the report, and a proper one if there is something to report. -/
theorem failure_reports (o : Nat → Bool) (a : Api) (c : Cfg) (ha : a ≠ .snapshot) (h : (request o a c).2 ≠ .ret) :
    events (request o a c).1 <+: report a c ∧ (report a c ≠ [] → events (request o a c).1 ≠ report a c) := by
  have ht := tested o a c
  generalize request o a c = r at h ht
  simp only [test, Bool.and_eq_true] at ht
  have ht := ht.1.1.2
  simp only [testEvents, Bool.and_eq_true] at ht
  have ht := ht.1.1
  have hr : isRet r.2 = false := by rw [← Bool.not_eq_true, isRet_iff]; exact h
  rw [hr] at ht
  have ht : (match report a c with
      | [] => initialPart (events r.1) [] == some true
      | _ :: _ => initialPart (events r.1) (report a c) == some false) = true := by
    cases a <;> first | exact absurd rfl ha | exact ht
  cases hm : report a c with
  | nil =>
    rw [hm] at ht
    have := initialPart_true (events r.1) [] (by simpa using ht)
    rw [this]
    exact ⟨⟨[], rfl⟩, fun h => absurd rfl h⟩
  | cons x l =>
    rw [hm] at ht
    have := initialPart_false _ _ (by simpa using ht)
    exact ⟨this.1, fun _ => this.2⟩

/-- A pin is reported once for each time it changes something, after it has been made. -/
theorem pin_reports (o : Nat → Bool) (a : Api) (c : Cfg) :
    (request o a c).1.log.count (.ev .modulePin) = (request o a c).1.log.count (.passed .pinModified) ∧
    (request o a c).1.log.count (.ev .modulePin) ≤ (request o a c).1.log.count (.eff .pin) := by
  have ht := tested o a c
  generalize request o a c = r at ht
  simp only [test, Bool.and_eq_true] at ht
  have ht := ht.1.1.2
  simp only [testEvents, Bool.and_eq_true] at ht
  have e1 : r.1.log.countP isPinEv = r.1.log.count (.ev .modulePin) := List.countP_congr fun x _ => by rw [isPinEv_iff]; simp
  have e2 : r.1.log.countP isPinMod = r.1.log.count (.passed .pinModified) := List.countP_congr fun x _ => by rw [isPinMod_iff]; simp
  have e3 : r.1.log.countP isPin = r.1.log.count (.eff .pin) := List.countP_congr fun x _ => by rw [isPin_iff]; simp
  rw [← e1, ← e2, ← e3]
  exact ⟨Nat.eq_of_beq_eq_true ht.1.2, Nat.le_of_ble_eq_true ht.2⟩

/-- The kind of the events is wrong: modules which come from a source are reported as uploads, and uploads without a hash as modules from a source. -/
theorem event_kind_refuted : (∃ o, (request o .sourceModule {}).2 = .ret ∧ events (request o .sourceModule {}).1 = [.uploadNew]) ∧
    (∃ o, (request o .uploadModuleInstance { hash := false }).2 = .ret ∧ events (request o .uploadModuleInstance { hash := false }).1 = [.sourceNew, .createStream]) ∧
    ∀ o c, (request o .sourceModule c).2 = .ret → .sourceNew ∉ events (request o .sourceModule c).1 ∧ .sourceExist ∉ events (request o .sourceModule c).1 := by
  refine ⟨⟨script [], by decide +kernel⟩, ⟨script [], by decide +kernel⟩, fun o c h => ?_⟩
  rw [success_reports o _ c h]
  simp only [report]
  split <;> simp

example : (request (script [false, false, true]) .uploadModule {}).2 = .err := by decide +kernel
example : events (request (script [false, false, false, false, false, false, false, false, false, false, false, false, false, false, false, false, false, false, true]) .uploadModuleInstance {}).1 = [.uploadNew] ∧
    (request (script [false, false, false, false, false, false, false, false, false, false, false, false, false, false, false, false, false, false, true]) .uploadModuleInstance {}).2 = .err := by decide +kernel
example : (request (script []) .uploadModule { pin := true }).1.log.count (.ev .modulePin) = 1 := by decide +kernel

/-! ### C141: crashes -/

/-- When a request can crash the handler: PinModule and Snapshot are called without the pin option, or an instance is created
anonymously for inspection only. -/
theorem crash_partial (o : Nat → Bool) (a : Api) (c : Cfg) (h : (request o a c).2 = .crash) :
    ((a = .pinModule ∨ a = .snapshot) ∧ c.pin = false) ∨
    ((a = .uploadModuleInstance ∨ a = .sourceModuleInstance) ∧ c.anonymous = true ∧ c.transient = true ∧ c.pin = false ∧ (c.suspend = true ∨ c.final = true)) := by
  have ht := tested o a c
  generalize request o a c = r at ht h
  simp only [test, Bool.and_eq_true] at ht
  have ht := ht.1.2
  simp only [testCrash, (isCrash_iff r.2).mpr h] at ht
  cases a <;> simp at ht <;> simp [ht]

/-- An anonymous call of a module which contains the snapshot of a terminated instance crashes the handler; the instance's image is lost and the
program's reference is dropped twice, by the deferred calls. -/
theorem anonymous_final_refuted (a : Api) (ha : a = .uploadModuleInstance ∨ a = .sourceModuleInstance) :
    ∃ o, let r := request o a { anonymous := true, transient := true, final := true }
      r.2 = .crash ∧ (∀ x, .failed x ∉ r.1.log) ∧ .eff .newInstance ∈ r.1.log ∧ ¬ Balanced r.1 := by
  refine ⟨script [], ?_⟩
  rcases ha with rfl | rfl
  · refine ⟨by decide +kernel, fun x => ?_, by decide +kernel, unbalanced_sound _ (by decide +kernel)⟩
    cases x <;> decide +kernel
  · refine ⟨by decide +kernel, fun x => ?_, by decide +kernel, unbalanced_sound _ (by decide +kernel)⟩
    cases x <;> decide +kernel

/-! ### C142: effects -/

theorem isUpdate_iff (y : Log) : isUpdate y = true ↔ y = .eff .update := by cases y with | eff e => cases e <;> simp [isUpdate] | _ => simp [isUpdate]
theorem isModified_iff (y : Log) : isModified y = true ↔ y = .passed .modified := by cases y with | passed e => cases e <;> simp [isModified] | _ => simp [isModified]

theorem effCode_inj (x y : Eff) (h : x.code.beq y.code = true) : x = y := by
  rw [Nat.beq_eq] at h
  cases x <;> cases y <;> first | rfl | (exact absurd h (by decide))

theorem sameEff_eq : ∀ l m, sameEff l m = true → l = m
  | [], [], _ => rfl
  | [], _ :: _, h => by cases h
  | _ :: _, [], h => by cases h
  | x :: l, y :: m, h => by
    simp only [sameEff, Bool.and_eq_true] at h
    rw [effCode_inj x y h.1, sameEff_eq l m h.2]

theorem partEff_prefix : ∀ l m, partEff l m = true → ∃ p t, l = p ++ t ∧ p <+: m ∧ (t = [] ∨ t = [.delete])
  | [], m, _ => ⟨[], [], rfl, ⟨m, rfl⟩, .inl rfl⟩
  | x :: l, [], h => by
    cases l with
    | nil => cases x <;> first | (exact ⟨[], [.delete], rfl, ⟨[], rfl⟩, .inr rfl⟩) | (exact absurd h (by simp [partEff]))
    | cons z l => exact absurd h (by simp [partEff])
  | x :: l, y :: m, h => by
    by_cases hd : x = .delete ∧ l = []
    · obtain ⟨rfl, rfl⟩ := hd
      exact ⟨[], [.delete], rfl, ⟨y :: m, rfl⟩, .inr rfl⟩
    · have h : (x.code.beq y.code && partEff l m) = true := by
        cases l with
        | nil => cases x <;> first | exact absurd ⟨rfl, rfl⟩ hd | exact h
        | cons z l => cases x <;> exact h
      simp only [Bool.and_eq_true] at h
      obtain ⟨p, t, e, ⟨q, hq⟩, ht⟩ := partEff_prefix l m h.2
      refine ⟨x :: p, t, by rw [e]; rfl, ⟨q, ?_⟩, ht⟩
      rw [effCode_inj x y h.1, ← hq]; rfl

theorem effTest (o : Nat → Bool) (a : Api) (c : Cfg) : testEffects a c (request o a c) = true := by
  have ht := tested o a c
  generalize request o a c = r at ht
  simp only [test, Bool.and_eq_true] at ht
  exact ht.2

/-- A request which succeeds has made the changes of its operation, in order, and no others. -/
theorem success_effects (o : Nat → Bool) (a : Api) (c : Cfg) (h : (request o a c).2 = .ret) : effects (request o a c).1 = changes a c := by
  have ht := effTest o a c
  generalize request o a c = r at h ht
  simp only [testEffects, h, outTest, Bool.and_eq_true] at ht
  exact sameEff_eq _ _ ht.1.1

/-- A request which succeeds has passed on what it's to pass on. -/
theorem success_passes (o : Nat → Bool) (a : Api) (c : Cfg) (h : (request o a c).2 = .ret) :
    ((request o a c).1.log.filter fun x => match x with | .given _ => true | _ => false).length = handed a c := by
  have ht := effTest o a c
  generalize request o a c = r at h ht
  simp only [testEffects, h, outTest, Bool.and_eq_true] at ht
  rw [← Nat.eq_of_beq_eq_true ht.1.2, List.countP_eq_length_filter]
  rfl

/-- A request (other than Snapshot) which doesn't succeed has made an initial part of the changes, after which it may have deleted the instance. -/
theorem failure_effects (o : Nat → Bool) (a : Api) (c : Cfg) (ha : a ≠ .snapshot) (h : (request o a c).2 ≠ .ret) :
    ∃ p t, effects (request o a c).1 = p ++ t ∧ p <+: changes a c ∧ (t = [] ∨ t = [.delete]) := by
  have ht := effTest o a c
  generalize request o a c = r at h ht
  simp only [testEffects, Bool.and_eq_true] at ht
  apply partEff_prefix
  have ht := ht.1
  cases hr : r.2 with
  | ret => exact absurd hr h
  | err =>
    rw [hr] at ht
    simp only [outTest, Bool.and_eq_true] at ht
    have ht := ht.1
    cases a <;> first | exact absurd rfl ha | exact ht
  | crash =>
    rw [hr] at ht
    cases a <;> first | exact absurd rfl ha | exact ht

/-- A request which fails doesn't leave a new instance behind; and no request which fails deletes an instance which it hasn't created, except
for resumption (by itself or after a snapshot). -/
theorem failure_instance_partial (o : Nat → Bool) (a : Api) (c : Cfg) (h : (request o a c).2 = .err) :
    (.eff .newInstance ∈ (request o a c).1.log → .eff .delete ∈ (request o a c).1.log) ∧
    (a ≠ .resumeInstance → a ≠ .snapshot → .eff .delete ∈ (request o a c).1.log → .eff .newInstance ∈ (request o a c).1.log) := by
  have ht := effTest o a c
  generalize request o a c = r at h ht
  simp only [testEffects, h, outTest, Bool.and_eq_true] at ht
  have ht := ht.1.2
  rw [← any_eff isNew_iff, ← any_eff isDelete_iff]
  by_cases hn : r.1.log.any isNew = true
  · rw [if_pos hn] at ht
    exact ⟨fun _ => ht, fun _ _ _ => hn⟩
  · rw [if_neg hn] at ht
    refine ⟨fun h => absurd h hn, fun h1 h2 hd => ?_⟩
    have : (!r.1.log.any isDelete) = true := by cases a <;> first | exact absurd rfl h1 | exact absurd rfl h2 | exact ht
    rw [hd] at this; cases this

/-- An update of an instance is made once if it modifies anything. -/
theorem update_effect (o : Nat → Bool) (a : Api) (c : Cfg) :
    (request o a c).1.log.count (.eff .update) = (request o a c).1.log.count (.passed .modified) := by
  have ht := effTest o a c
  generalize request o a c = r at ht
  simp only [testEffects, Bool.and_eq_true] at ht
  have e1 : r.1.log.countP isUpdate = r.1.log.count (.eff .update) := List.countP_congr fun x _ => by rw [isUpdate_iff]; simp
  have e2 : r.1.log.countP isModified = r.1.log.count (.passed .modified) := List.countP_congr fun x _ => by rw [isModified_iff]; simp
  rw [← e1, ← e2]
  exact Nat.eq_of_beq_eq_true ht.2

/-- A resumption whose process can't be started deletes the suspended instance. -/
theorem resume_failure_refuted : ∃ o, (request o .resumeInstance {}).2 = .err ∧ .eff .delete ∈ (request o .resumeInstance {}).1.log ∧
    .eff .newInstance ∉ (request o .resumeInstance {}).1.log :=
  ⟨script [false, false, false, false, false, false, true], by decide +kernel, by decide +kernel, by decide +kernel⟩

/-- A crashed handler leaves the instance which it has created. -/
theorem crash_instance_refuted : ∃ o c, (request o .uploadModuleInstance c).2 = .crash ∧ .eff .newInstance ∈ (request o .uploadModuleInstance c).1.log ∧
    .eff .delete ∉ (request o .uploadModuleInstance c).1.log :=
  ⟨script [], { anonymous := true, transient := true, final := true }, by decide +kernel, by decide +kernel, by decide +kernel⟩

example : effects (request (script []) .uploadModuleInstance { pin := true }).1 = [.account, .storeProgram, .register, .pin, .newInstance, .start] := by decide +kernel
example : (request (script []) .updateInstance {}).1.log.count (.eff .update) = 1 := by decide +kernel

end Gate.Requests
