import Verif.ProcessProps
/-
Model of how the suspend signal gets noticed: signal_handler and .Ltime (which calls the vDSO's clock_gettime) of runtime/loader/x86_64/runtime.S and runtime/loader/aarch64/runtime.S.
The register which has the stack limit (rbx) or the suspend bits (x28) belongs to the program everywhere except in clock_gettime: as a C function, it may save the register, use it for
something else, and restore it before returning.

C102: a suspend signal isn't lost.
-/
namespace Gate.Suspend

inductive Arch where
  | x86 | arm
deriving DecidableEq, Repr

/-- Where the process is. `code`: in the program, or in a part of the runtime which doesn't touch the register. Otherwise in .Ltime, before an instruction: x86_64/runtime.S:452-453
(orl $0x2), 455 (push %rbx), 458-459 (in clock_gettime, at some instruction), 463 (pop %rbx), 467 (xchg), 468-471 (test, je, or). -/
inductive At where
  | code | orl | push | vdso (k : Nat) | pop | xchg | test
deriving DecidableEq, Repr

structure St where
  at_ : At
  /-- The suspend bits of the program's register (wherever it is). -/
  reg : Bool
  /-- The bits of suspend_bits: 1 (signal) and 2 (calling clock_gettime). -/
  sig : Bool
  busy : Bool
  /-- Bit 1 of eax after xchg. -/
  eax : Bool
  /-- The pushed register. -/
  saved : Bool
  /-- The signal handler has accessed memory at an address which has nothing to do with the stack variables. -/
  stray : Bool
deriving DecidableEq, Repr

/-- loader.c:373-384: stack variables are zero at the beginning. -/
def init : St where
  at_ := .code
  reg := false
  sig := false
  busy := false
  eax := false
  saved := false
  stray := false

/-- clock_gettime of the vDSO: at how many points of it a signal may be delivered, and at which of these the program's value isn't in the register (because it has been saved). -/
structure Vdso where
  len : Nat
  pos : 0 < len
  saves : Nat → Bool

/-- What is in the register is the program's. -/
def holds (v : Vdso) : At → Bool
  | .vdso k => !v.saves k
  | _ => true

/-- signal_handler, x86_64/runtime.S:166-177, aarch64/runtime.S:192-201: on x86-64 the stack variables are found by means of the register. -/
def signal (a : Arch) (v : Vdso) (s : St) : St :=
  match a with
  | .arm => if holds v s.at_ then { s with reg := true } else s
  | .x86 =>
    if holds v s.at_ then (if s.busy then { s with sig := true } else { s with sig := true, reg := true })
    else { s with stray := true }

/-- The next instruction; `enter`: whether the program calls for time. x86_64/runtime.S:446-473. On aarch64 (runtime.S:427-440) there's only the call of clock_gettime. -/
def step (a : Arch) (v : Vdso) (enter : Bool) (s : St) : St :=
  match s.at_ with
  | .code => if enter then { s with at_ := (match a with | .x86 => .orl | .arm => .vdso 0) } else s
  | .orl => { s with busy := true, at_ := .push }
  | .push => { s with saved := s.reg, at_ := .vdso 0 }
  | .vdso k => if k + 1 < v.len then { s with at_ := .vdso (k + 1) } else { s with at_ := (match a with | .x86 => .pop | .arm => .code) }
  | .pop => { s with reg := s.saved, at_ := .xchg }
  | .xchg => { s with eax := s.sig, sig := false, busy := false, at_ := .test }
  | .test => { s with reg := s.reg || s.eax, at_ := .code }

/-- The program goes on by an instruction, or a signal is delivered. -/
inductive Ev where
  | go (enter : Bool)
  | signal
deriving DecidableEq, Repr

def ev (a : Arch) (v : Vdso) (s : St) : Ev → St
  | .go e => step a v e s
  | .signal => signal a v s

def run (a : Arch) (v : Vdso) (h : List Ev) : St := h.foldl (ev a v) init

/-! ### Proofs -/

/-- A signal has been delivered. -/
def Signaled (h : List Ev) : Prop := .signal ∈ h

instance (h : List Ev) : Decidable (Signaled h) := inferInstanceAs (Decidable (.signal ∈ h))

/-- What is so at any time: `seen` tells if there has been a signal. -/
structure Ok (s : St) (seen : Bool) : Prop where
  stray : s.stray = false
  busy : s.busy = true ↔ (s.at_ = .push ∨ (∃ k, s.at_ = .vdso k) ∨ s.at_ = .pop ∨ s.at_ = .xchg)
  /-- The signal is either in the register or pending. -/
  known : seen = true ↔ (s.reg = true ∨ (s.busy = true ∧ s.sig = true) ∨ (s.at_ = .test ∧ s.eax = true))
  sig : s.sig = true → seen = true
  eax : s.at_ = .test → s.eax = true → seen = true
  saved : ((∃ k, s.at_ = .vdso k) ∨ s.at_ = .pop) → s.saved = s.reg

theorem inv_init : Ok init false := by
  refine ⟨rfl, ?_, ?_, ?_, ?_, ?_⟩ <;> simp [init]

theorem inv_ev (v : Vdso) (hv : ∀ k, v.saves k = false) (s : St) (seen : Bool) (h : Ok s seen) (e : Ev) : Ok (ev .x86 v s e) (seen || e == .signal) := by
  obtain ⟨h1, h2, h3, h4, h5, h6⟩ := h
  obtain ⟨at_, reg, sig, busy, eax, saved, stray⟩ := s
  simp only at h1 h2 h3 h4 h5 h6
  subst h1
  cases e with
  | signal =>
    have hh : holds v at_ = true := by cases at_ <;> simp [holds, hv]
    simp only [ev, signal, hh, if_true]
    cases busy with
    | true =>
      simp only [if_true]
      refine ⟨rfl, by simpa using h2, by simp, by simp, by simp, h6⟩
    | false =>
      simp only [Bool.false_eq_true, if_false]
      refine ⟨rfl, by simpa using h2, by simp, by simp, by simp, ?_⟩
      intro hc
      exact absurd (h2.mpr (hc.elim (fun h => .inr (.inl h)) (fun h => .inr (.inr (.inl h))))) (by simp)
  | go en =>
    simp only [ev, step]
    cases at_ with
    | code =>
      have hb : busy = false := by
        cases busy with
        | false => rfl
        | true => simpa using h2.mp rfl
      subst hb
      cases en with
      | true => refine ⟨rfl, ?_, ?_, ?_, ?_, ?_⟩ <;> simp_all
      | false => refine ⟨rfl, ?_, ?_, ?_, ?_, ?_⟩ <;> simp_all
    | orl =>
      have hb : busy = false := by
        cases busy with
        | false => rfl
        | true => simpa using h2.mp rfl
      subst hb
      refine ⟨rfl, ?_, ?_, ?_, ?_, ?_⟩ <;> simp_all
    | push => refine ⟨rfl, ?_, ?_, ?_, ?_, ?_⟩ <;> simp_all
    | vdso k =>
      dsimp only
      split
      · refine ⟨rfl, ?_, ?_, ?_, ?_, ?_⟩ <;> simp_all
      · refine ⟨rfl, ?_, ?_, ?_, ?_, ?_⟩ <;> simp_all
    | pop => refine ⟨rfl, ?_, ?_, ?_, ?_, ?_⟩ <;> simp_all
    | xchg =>
      refine ⟨rfl, ?_, ?_, ?_, ?_, ?_⟩ <;> simp_all
    | test =>
      refine ⟨rfl, ?_, ?_, ?_, ?_, ?_⟩ <;> simp_all

theorem inv_run (v : Vdso) (hv : ∀ k, v.saves k = false) (h : List Ev) (s : St) (seen : Bool) (ok : Ok s seen) :
    Ok (h.foldl (ev .x86 v) s) (seen || decide (.signal ∈ h)) := by
  induction h generalizing s seen with
  | nil => simpa using ok
  | cons e t ih =>
    have := ih _ _ (inv_ev v hv s seen ok e)
    have he : (seen || e == .signal || decide (Ev.signal ∈ t)) = (seen || decide (Ev.signal ∈ e :: t)) := by
      cases seen <;> cases e <;> simp
    rwa [he] at this

/-- C102: provided that the vDSO's clock_gettime keeps the program's value in the register, then whatever the points at which signals are delivered, on x86-64: the handler accesses
only the stack variables, and whenever the program is executing its own code, the register has the suspend bits if and only if a signal has been delivered. -/
theorem x86_suspend_known_partial (v : Vdso) (hv : ∀ k, v.saves k = false) (h : List Ev) :
    (run .x86 v h).stray = false ∧ ((run .x86 v h).at_ = .code → ((run .x86 v h).reg = true ↔ Signaled h)) := by
  have ok := inv_run v hv h init false inv_init
  simp only [Bool.false_or] at ok
  refine ⟨ok.stray, fun hc => ?_⟩
  have hb : (run .x86 v h).busy ≠ true := fun hb => by
    have hx := ok.busy.mp hb
    rw [show h.foldl (ev .x86 v) init = run .x86 v h from rfl, hc] at hx
    simp at hx
  have hk := ok.known
  rw [show h.foldl (ev .x86 v) init = run .x86 v h from rfl] at hk
  rw [hc] at hk
  simp only [hb, false_and, reduceCtorEq, or_false, decide_eq_true_eq] at hk
  exact hk.symm

/-- Where a process on aarch64 may be. -/
def ArmAt (s : St) : Prop := s.at_ = .code ∨ ∃ k, s.at_ = .vdso k

theorem arm_ev (v : Vdso) (hv : ∀ k, v.saves k = false) (s : St) (hs : ArmAt s) (hst : s.stray = false) (e : Ev) :
    ArmAt (ev .arm v s e) ∧ (ev .arm v s e).stray = false ∧ (ev .arm v s e).reg = (s.reg || e == .signal) := by
  obtain ⟨at_, reg, sig, busy, eax, saved, stray⟩ := s
  simp only at hst
  subst hst
  cases e with
  | signal =>
    have hh : holds v at_ = true := by cases at_ <;> simp [holds, hv]
    simp only [ev, signal, hh, if_true]
    refine ⟨hs, ?_, ?_⟩ <;> simp
  | go en =>
    rcases hs with hs | ⟨k, hs⟩
    · simp only at hs
      subst hs
      cases en
      · exact ⟨.inl rfl, rfl, by simp [ev, step]⟩
      · exact ⟨.inr ⟨0, rfl⟩, rfl, by simp [ev, step]⟩
    · simp only at hs
      subst hs
      simp only [ev, step]
      split
      · exact ⟨.inr ⟨k + 1, rfl⟩, rfl, by simp⟩
      · exact ⟨.inl rfl, rfl, by simp⟩

/-- C102 on aarch64: under the same proviso, the register has the suspend bits as soon as a signal has been delivered (even while clock_gettime is being executed). -/
theorem arm_suspend_known_partial (v : Vdso) (hv : ∀ k, v.saves k = false) (h : List Ev) :
    (run .arm v h).stray = false ∧ ((run .arm v h).reg = true ↔ Signaled h) := by
  have gen : ∀ (h : List Ev) (s : St), ArmAt s → s.stray = false →
      (h.foldl (ev .arm v) s).stray = false ∧ ((h.foldl (ev .arm v) s).reg = true ↔ (s.reg = true ∨ Signaled h)) := by
    intro h
    induction h with
    | nil => intro s _ h2; exact ⟨h2, by simp [Signaled]⟩
    | cons e t ih =>
      intro s h1 h2
      obtain ⟨g1, g2, g3⟩ := arm_ev v hv s h1 h2 e
      obtain ⟨i1, i2⟩ := ih _ g1 g2
      refine ⟨i1, ?_⟩
      show ((t.foldl (ev .arm v) (ev .arm v s e)).reg = true) ↔ _
      rw [i2, g3]
      cases e <;> simp [Signaled, Bool.or_eq_true]
  have := gen h init (.inl rfl) rfl
  refine ⟨this.1, this.2.trans ?_⟩
  simp [init]

/-- The instructions from the program's call for time to its continuation, with n signals delivered before instruction k of clock_gettime. -/
def callTime (a : Arch) (v : Vdso) (k n : Nat) : List Ev :=
  .go true :: (match a with | .x86 => [.go false, .go false] | .arm => []) ++ List.replicate k (.go false) ++ List.replicate n .signal ++
    List.replicate (v.len - k) (.go false) ++ (match a with | .x86 => [.go false, .go false, .go false] | .arm => [])

/-- Goes on in clock_gettime. -/
theorem go_vdso (a : Arch) (v : Vdso) (n k : Nat) (s : St) (hk : s.at_ = .vdso k) (hn : k + n < v.len) :
    (List.replicate n (Ev.go false)).foldl (ev a v) s = { s with at_ := .vdso (k + n) } := by
  induction n generalizing k s with
  | zero => obtain ⟨at_, reg, sig, busy, eax, saved, stray⟩ := s; simp only at hk; subst hk; rfl
  | succ n ih =>
    rw [List.replicate_succ, List.foldl_cons]
    have e : ev a v s (.go false) = { s with at_ := .vdso (k + 1) } := by
      simp only [ev, step, hk]
      rw [if_pos (by omega)]
    rw [e, ih (k + 1) _ rfl (by omega)]
    simp only [St.mk.injEq, and_true, At.vdso.injEq]
    omega

/-- Returns from clock_gettime. -/
theorem leave_vdso (a : Arch) (v : Vdso) (k : Nat) (s : St) (hk : s.at_ = .vdso k) (hn : k < v.len) :
    (List.replicate (v.len - k) (Ev.go false)).foldl (ev a v) s = { s with at_ := (match a with | .x86 => .pop | .arm => .code) } := by
  obtain ⟨n, hl⟩ : ∃ n, v.len - k = n + 1 := ⟨v.len - k - 1, by omega⟩
  rw [hl, List.replicate_succ', List.foldl_append, go_vdso a v n k s hk (by omega)]
  simp only [List.foldl_cons, List.foldl_nil, ev, step]
  rw [if_neg (by omega)]

/-- C102 refuted without the proviso, aarch64: if clock_gettime has saved the register at some point k, then any number of signals delivered there get lost: the program goes on without
suspend bits. -/
theorem arm_suspend_lost_refuted (v : Vdso) (k n : Nat) (hk : k < v.len) (hs : v.saves k = true) (hn : 0 < n) :
    Signaled (callTime .arm v k n) ∧ (run .arm v (callTime .arm v k n)).at_ = .code ∧ (run .arm v (callTime .arm v k n)).reg = false := by
  have hsig : ∀ (n : Nat) (s : St), s.at_ = .vdso k → (List.replicate n Ev.signal).foldl (ev .arm v) s = s := by
    intro n
    induction n with
    | zero => intro s _; rfl
    | succ n ih =>
      intro s h
      rw [List.replicate_succ, List.foldl_cons]
      have e : ev .arm v s .signal = s := by simp [ev, signal, holds, h, hs]
      rw [e, ih s h]
  have e : run .arm v (callTime .arm v k n) = init := by
    have h1 : ev .arm v init (.go true) = { init with at_ := .vdso 0 } := rfl
    simp only [run, callTime, List.append_nil, List.foldl_cons, List.foldl_append, List.cons_append, List.nil_append]
    rw [h1, go_vdso .arm v k 0 _ rfl (by omega), hsig n _ (by simp), leave_vdso .arm v k _ (by simp) hk]
    rfl
  refine ⟨?_, by rw [e]; rfl, by rw [e]; rfl⟩
  simp only [Signaled, callTime, List.mem_cons, List.mem_append, List.mem_replicate]
  simp; omega

/-- C102 refuted without the proviso, x86-64: a signal delivered while clock_gettime is using the register for something else makes the handler access unrelated memory. -/
theorem x86_stray_refuted (v : Vdso) (k n : Nat) (hk : k < v.len) (hs : v.saves k = true) (hn : 0 < n) :
    (run .x86 v (callTime .x86 v k n)).at_ = .code ∧ (run .x86 v (callTime .x86 v k n)).stray = true ∧ (run .x86 v (callTime .x86 v k n)).reg = false := by
  have hsig : ∀ (n : Nat) (s : St), s.at_ = .vdso k → (List.replicate (n + 1) Ev.signal).foldl (ev .x86 v) s = { s with stray := true } := by
    intro n
    induction n with
    | zero => intro s h; simp [ev, signal, holds, h, hs]
    | succ n ih =>
      intro s h
      rw [List.replicate_succ, List.foldl_cons]
      have e : ev .x86 v s .signal = { s with stray := true } := by simp [ev, signal, holds, h, hs]
      rw [e]
      exact (ih { s with stray := true } h)
  obtain ⟨n, rfl⟩ : ∃ m, n = m + 1 := ⟨n - 1, by omega⟩
  have e : run .x86 v (callTime .x86 v k (n + 1)) = { init with stray := true } := by
    have h1 : ev .x86 v (ev .x86 v (ev .x86 v init (.go true)) (.go false)) (.go false) = { init with at_ := .vdso 0, busy := true } := rfl
    simp only [run, callTime, List.foldl_cons, List.foldl_append, List.cons_append, List.nil_append, List.foldl_nil]
    rw [h1, go_vdso .x86 v k 0 _ rfl (by omega), hsig n _ (by simp), leave_vdso .x86 v k _ (by simp) hk]
    rfl
  rw [e]
  exact ⟨rfl, rfl, rfl⟩

/-- What becomes of a program which is in its own code when it makes a call which exceeds the stack limit (which having the suspend bits is tantamount to): it gets suspended if a signal
has been delivered, and otherwise it's been killed for using up its stack. -/
theorem suspended_or_exhausted (v : Vdso) (hv : ∀ k, v.saves k = false) (h : List Ev) (r : Nat) (hc : (run .x86 v h).at_ = .code) :
    (Signaled h → Process.trapHandler 4 r (run .x86 v h).reg = 102) ∧ (¬ Signaled h → Process.trapHandler 4 r (run .x86 v h).reg = 104) := by
  have hk := (x86_suspend_known_partial v hv h).2 hc
  constructor
  · intro hs
    rw [hk.mpr hs]; rfl
  · intro hs
    have : (run .x86 v h).reg = false := by
      cases hr : (run .x86 v h).reg with
      | false => rfl
      | true => exact absurd (hk.mp hr) hs
    rw [this]; rfl

/-! ### Examples -/

def exVdso : Vdso := ⟨3, by decide, fun _ => false⟩
def exSaving : Vdso := ⟨3, by decide, fun k => k == 1⟩

/-- The proviso is met by a vDSO; a signal in the midst of it is noticed afterwards, not before. -/
example : (∀ k, exVdso.saves k = false) ∧ Signaled (callTime .x86 exVdso 1 1) ∧ (run .x86 exVdso (callTime .x86 exVdso 1 1)).at_ = .code ∧
    (run .x86 exVdso (callTime .x86 exVdso 1 1)).reg = true ∧ (run .x86 exVdso ((callTime .x86 exVdso 1 1).take 6)).reg = false ∧
    (run .arm exVdso (callTime .arm exVdso 1 1)).at_ = .code ∧ (run .arm exVdso ((callTime .arm exVdso 1 1).take 3)).reg = true :=
  ⟨fun _ => rfl, by decide, by decide, by decide, by decide, by decide, by decide⟩

/-- Without a signal there are no suspend bits. -/
example : ¬ Signaled (callTime .x86 exVdso 1 0) ∧ (run .x86 exVdso (callTime .x86 exVdso 1 0)).at_ = .code ∧ (run .x86 exVdso (callTime .x86 exVdso 1 0)).reg = false :=
  ⟨by decide, by decide, by decide⟩

example : exSaving.saves 1 = true ∧ 1 < exSaving.len := ⟨rfl, by decide⟩

end Gate.Suspend
