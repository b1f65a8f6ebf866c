import Verif.RtProps
import Verif.ManifestProps
import Verif.SeccompProps
/-
C91-C95: theorems about every history of a process.
-/
namespace Gate.Rt
open Gate Gate.ImageFile

/-- The image information is as Process.Start sends it: heap address from RandAddr, sizes which are 32-bit, memory sizes in whole pages. -/
structure Info.Valid (i : Info) : Prop where
  heapLo : Process.minHeap ≤ i.heapAddr
  heapHi : i.heapAddr < Process.maxHeap
  page : i.heapAddr % 4096 = 0 ∧ i.globalsSize % 4096 = 0
  globals : i.globalsSize < w32
  init : i.initMemorySize % 65536 = 0 ∧ i.initMemorySize ≤ i.growMemorySize
  grow : i.growMemorySize < w32
  random : i.random.length = 16

/-- The states of a process: it is loaded, its program changes its memory, and makes calls. -/
inductive Reach (a : Arch) (i : Info) : St → Prop where
  | load (space : File) (acc0 : Nat → Bool) (k : List Resp) : Reach a i (load i space acc0 k)
  | mem {s : St} (f : File) : Reach a i s → (∀ x, ¬ InMemory s x → f x = s.space x) → Reach a i { s with space := f }
  | call {s s' : St} (c : Call) (r : Nat) : Reach a i s → c.Valid → call a c s = .ok r s' → Reach a i s'

theorem load_inv (i : Info) (h : i.Valid) (space : File) (acc0 : Nat → Bool) (k : List Resp) : Inv (load i space acc0 k) := by
  have h1 := h.heapHi
  have h2 := h.globals
  have h3 := h.init
  have h4 := h.grow
  simp only [Process.maxHeap, w32] at *
  refine ⟨?_, ?_, ?_, fun x hx1 hx2 => ?_, Nat.le_refl _⟩
  · simp only [load, half64]; omega
  · simp only [load]; omega
  · simp only [load]; omega
  · simp only [load] at *
    have : i.growMemorySize / 65536 * 65536 ≤ i.growMemorySize := Nat.div_mul_le_self _ _
    have e : i.initMemorySize / 65536 * 65536 = i.initMemorySize := by omega
    rw [if_pos (by omega), e, decide_eq_true_eq]

structure Fixed (i : Info) (s : St) : Prop where
  base : s.base = i.heapAddr + i.globalsSize
  limit : s.limit = i.growMemorySize / 65536
  random : s.random = i.random

theorem reach_inv (a : Arch) (i : Info) (hv : i.Valid) (s : St) (h : Reach a i s) : Inv s ∧ Fixed i s := by
  induction h with
  | load space acc0 k => exact ⟨load_inv i hv space acc0 k, ⟨rfl, rfl, rfl⟩⟩
  | mem f _ _ ih => exact ⟨⟨ih.1.base, ih.1.limit, ih.1.pages, ih.1.acc, ih.1.avail⟩, ⟨ih.2.base, ih.2.limit, ih.2.random⟩⟩
  | @call s s' c r _ hc hs ih =>
    obtain ⟨h1, h2, _⟩ := call_inv a s ih.1 c hc
    rw [hs] at h1 h2
    exact ⟨h1, ⟨h2.base.trans ih.2.base, h2.limit.trans ih.2.limit, h2.random.trans ih.2.random⟩⟩

/-! ### Confinement -/

/-- No call changes memory which isn't the program's, however it ends. -/
theorem call_confined (a : Arch) (i : Info) (hv : i.Valid) (s : St) (h : Reach a i s) (c : Call) (hc : c.Valid) (x : Nat) (hx : ¬ InMemory s x) :
    (call a c s).st.space x = s.space x :=
  (call_inv a s (reach_inv a i hv s h).1 c hc).2.2 x hx

/-- The program's memory is accessible, and the rest of what it could grow to isn't. -/
theorem memory_accessible (a : Arch) (i : Info) (hv : i.Valid) (s : St) (h : Reach a i s) (x : Nat) (h1 : s.base ≤ x) (h2 : x < s.base + s.limit * 65536) :
    s.acc x = true ↔ InMemory s x := by
  rw [(reach_inv a i hv s h).1.acc x h1 h2]
  unfold InMemory
  simp only [h1, true_and]

/-- The bytes which a call adds to the outputs. -/
def Out.added {α : Type} (s : St) (o : Out α) : Bytes × Bytes := (o.st.out.drop s.out.length, o.st.dbg.drop s.dbg.length)

/-- Two outcomes which can't be told apart by the program or by whoever is at the other end. -/
def Alike : Out Nat → Out Nat → Prop
  | .ok r s, .ok r' s' => r = r' ∧ s.out = s'.out ∧ s.dbg = s'.dbg ∧ s.inp = s'.inp ∧ s.pages = s'.pages ∧ s.randomAvail = s'.randomAvail ∧ s.kern = s'.kern
  | .exit n s, .exit n' s' => n = n' ∧ s.out = s'.out ∧ s.dbg = s'.dbg ∧ s.inp = s'.inp
  | .wait s, .wait s' => s.out = s'.out ∧ s.dbg = s'.dbg ∧ s.inp = s'.inp
  | _, _ => False

theorem prologue_space (a : Arch) (s : St) (f : File) (addr len : Nat) : prologue a { s with space := f } addr len = prologue a s addr len := rfl

theorem debug_alike (a : Arch) (k : List Resp) (s : St) (h : Inv s) (f : File) (hf : ∀ x, InMemory s x → f x = s.space x) (addr len : Nat) (ha : addr < w32) (hl : len < w32) :
    match debugLoop a s addr len k, debugLoop a { s with space := f } addr len k with
    | .ok _ s1, .ok _ s2 => s2 = { s1 with space := f }
    | .exit n s1, .exit n' s2 => n = n' ∧ s2 = { s1 with space := f }
    | .wait s1, .wait s2 => s2 = { s1 with space := f }
    | _, _ => False := by
  induction k generalizing s addr len with
  | nil =>
    unfold debugLoop
    rw [prologue_space a s f addr len]
    cases prologue a s addr len <;> simp
  | cons r k ih =>
    unfold debugLoop
    rw [prologue_space a s f addr len, prologue_exact a s h addr len ha hl]
    by_cases h0 : len = 0
    · simp only [if_pos h0]
    · simp only [if_neg h0]
      by_cases h1 : addr + len ≤ s.pages * 65536
      · simp only [if_pos h1]
        cases r with
        | wrote m =>
          simp only
          by_cases h2 : m ≤ len
          · have e : read f (s.base + addr) m = read s.space (s.base + addr) m :=
              read_ext _ _ _ _ _ fun k hk => hf _ ⟨by omega, by omega⟩
            simp only [if_pos h2, e]
            by_cases h3 : m = 0
            · simp only [if_pos h3]
            · simp only [if_neg h3]
              by_cases h4 : len = m
              · simp only [if_pos h4]
              · simp only [if_neg h4]
                have := ih { s with dbg := s.dbg ++ read s.space (s.base + addr) m } ⟨h.base, h.limit, h.pages, h.acc, h.avail⟩ hf
                cases a with
                | x86 => exact this ((addr + m) % w32) (len - m) (Nat.mod_lt _ (by decide)) (by omega)
                | arm => exact this ((s.base + addr + m) % w32) (len - m) (Nat.mod_lt _ (by decide)) (by omega)
          · simp only [if_neg h2]
        | err e =>
          simp only
          by_cases h2 : e = EINTR
          · simp only [if_pos h2]; exact ih s h hf addr len ha hl
          · simp only [if_neg h2]; exact ⟨trivial, trivial⟩
        | got b => simp only
        | poll i o => simp only
        | done => simp only
      · simp only [if_neg h1]; exact ⟨trivial, trivial⟩

theorem grow_eq (a : Arch) (s : St) (h : Inv s) (inc : Nat) (hc : inc < w32) :
    growMemory a inc s =
      if s.limit < inc + s.pages then .ok 4294967295 s
      else if inc = 0 then .ok s.pages s
      else match s.kern with
        | .done :: k => .ok s.pages { s with pages := s.pages + inc, kern := k, acc := fun x => if s.base + s.pages * 65536 ≤ x ∧ x < s.base + s.pages * 65536 + inc * 65536 then true else s.acc x }
        | .err _ :: k => match a with
          | .x86 => exit ((s.base + s.pages * 65536) % w32) { s with kern := k }
          | .arm => exit errMprotect { s with kern := k }
        | _ => .wait s := by
  have hp := h.pages
  have hm := h.limit
  have hb := h.base
  simp only [w32, half64] at *
  have e1 : (inc + s.pages) % w64 = inc + s.pages := Nat.mod_eq_of_lt (by simp only [w64]; omega)
  have e2 : (s.pages * 65536 + s.base) % w64 = s.base + s.pages * 65536 := by rw [Nat.mod_eq_of_lt (by simp only [w64]; omega)]; omega
  have e3 : inc * 65536 % w64 = inc * 65536 := Nat.mod_eq_of_lt (by simp only [w64]; omega)
  simp only [growMemory, e1, e2, e3]
  rw [slt_small _ _ (by simp only [half64]; omega) (by simp only [half64]; omega)]
  simp only [decide_eq_true_eq]
  by_cases h1 : s.limit < inc + s.pages
  · rw [if_pos h1, if_pos h1]
  · rw [if_neg h1, if_neg h1]
    have e4 : (inc + s.pages) % w32 = s.pages + inc := by rw [Nat.mod_eq_of_lt (by simp only [w32]; omega)]; omega
    rw [e4]
    by_cases h2 : inc = 0
    · rw [if_pos (by omega), if_pos h2, h2]
      rfl
    · rw [if_neg (by omega), if_neg h2]
      cases s.kern with
      | nil => rfl
      | cons r k => cases r <;> first | rfl | (cases a <;> rfl)

/-- What a call does, and what it outputs, depends on no memory other than the program's: nothing else leaks. -/
theorem call_independent (a : Arch) (i : Info) (hv : i.Valid) (s : St) (h : Reach a i s) (c : Call) (hc : c.Valid) (f : File)
    (hf : ∀ x, InMemory s x → f x = s.space x) : Alike (call a c s) (call a c { s with space := f }) := by
  have hi := (reach_inv a i hv s h).1
  cases c with
  | read addr len =>
    simp only [call, rtRead, prologue_space, prologue_exact a s hi addr len hc.1 hc.2]
    by_cases h0 : len = 0
    · simp [h0, Alike]
    · simp only [if_neg h0]
      by_cases h1 : addr + len ≤ s.pages * 65536
      · simp only [if_pos h1]
        cases s.kern with
        | nil => simp [Alike]
        | cons r k =>
          cases r with
          | got b => simp only; split <;> simp [Alike]
          | err e => simp only; split <;> simp [Alike, exit]
          | wrote m => simp [Alike]
          | poll i o => simp [Alike]
          | done => simp [Alike]
      · simp [if_neg h1, Alike, exit]
  | write addr len =>
    simp only [call, rtWrite, prologue_space, prologue_exact a s hi addr len hc.1 hc.2]
    by_cases h0 : len = 0
    · simp [h0, Alike]
    · simp only [if_neg h0]
      by_cases h1 : addr + len ≤ s.pages * 65536
      · simp only [if_pos h1]
        cases s.kern with
        | nil => simp [Alike]
        | cons r k =>
          cases r with
          | wrote m =>
            simp only
            by_cases h2 : m ≤ len
            · have e : read f (s.base + addr) m = read s.space (s.base + addr) m :=
                read_ext _ _ _ _ _ fun k hk => hf _ ⟨by omega, by omega⟩
              simp only [if_pos h2, e]
              split <;> simp [Alike, exit]
            · simp [if_neg h2, Alike]
          | err e => simp only; split <;> simp [Alike, exit]
          | got b => simp [Alike]
          | poll i o => simp [Alike]
          | done => simp [Alike]
      · simp [if_neg h1, Alike, exit]
  | debug addr len =>
    have := debug_alike a s.kern s hi f hf addr len hc.1 hc.2
    simp only [call, rtDebug]
    revert this
    generalize debugLoop a s addr len s.kern = x
    generalize debugLoop a { s with space := f } addr len s.kern = y
    intro this
    cases x <;> cases y <;> simp only at this <;> simp [Alike, this]
  | poll i o =>
    simp only [call, rtPoll]
    cases s.kern with
    | nil => simp [Alike]
    | cons r k =>
      cases r with
      | poll i o => simp only; repeat' split
                    all_goals simp [Alike, exit]
      | err e => simp only; split <;> simp [Alike, exit]
      | wrote m => simp [Alike]
      | got b => simp [Alike]
      | done => simp [Alike]
  | random => simp only [call, rtRandom]; split <;> simp [Alike]
  | stop n => simp [call, rtStop, exit, Alike]
  | currentMemory => simp [call, currentMemory, Alike]
  | growMemory inc =>
    have hc : inc < w32 := hc
    simp only [call]
    rw [grow_eq a s hi inc hc, grow_eq a { s with space := f } ⟨hi.base, hi.limit, hi.pages, hi.acc, hi.avail⟩ inc hc]
    simp only
    by_cases hz : s.limit < inc + s.pages
    · simp [hz, Alike]
    · simp only [if_neg hz]
      by_cases h0 : inc = 0
      · simp [h0, Alike]
      · simp only [if_neg h0]
        cases s.kern with
        | nil => simp [Alike]
        | cons r k =>
          cases r with
          | done => simp [Alike]
          | err e => cases a <;> simp [Alike, exit]
          | wrote m => simp [Alike]
          | got b => simp [Alike]
          | poll i o => simp [Alike]

/-- A buffer which isn't in the memory: the program is stopped, and the trap is MemoryAccessOutOfBounds (5). No system call is made. -/
theorem out_of_bounds (a : Arch) (i : Info) (hv : i.Valid) (s : St) (h : Reach a i s) (addr len : Nat) (ha : addr < w32) (hl : len < w32)
    (h0 : len ≠ 0) (hb : s.pages * 65536 < addr + len) (c : Call) (hc : c = .read addr len ∨ c = .write addr len ∨ c = .debug addr len) :
    call a c s = .exit 105 s ∧ Process.serve .ok (some (Process.exitWait 105)) false = ⟨0, 5, none⟩ := by
  refine ⟨?_, by decide⟩
  have hp : prologue a s addr len = .oob := by
    rw [prologue_exact a s (reach_inv a i hv s h).1 addr len ha hl, if_neg h0, if_neg (by omega)]
  rcases hc with hc | hc | hc <;> subst hc
  · simp only [call, rtRead, hp]; rfl
  · simp only [call, rtWrite, hp]; rfl
  · simp only [call, rtDebug]
    cases hk : s.kern with
    | nil => simp only [debugLoop, hp]; rw [← hk]
    | cons r k => simp only [debugLoop, hp]; rw [← hk]

/-! ### Growing -/

/-- Growing beyond the limit is refused: the result is -1 and nothing changes. -/
theorem grow_refused (a : Arch) (i : Info) (hv : i.Valid) (s : St) (h : Reach a i s) (inc : Nat) (hc : inc < w32) (hl : i.growMemorySize / 65536 < s.pages + inc) :
    growMemory a inc s = .ok 4294967295 s := by
  obtain ⟨h1, h2⟩ := reach_inv a i hv s h
  rw [grow_eq a s h1 inc hc, if_pos (by rw [h2.limit]; omega)]

/-- Growing within the limit: the system call is allowed by the filter; if it succeeds the result is the previous size and there is that much more memory. -/
theorem grow_works (a : Arch) (i : Info) (hv : i.Valid) (s : St) (h : Reach a i s) (inc : Nat) (hc : inc < w32) (hl : s.pages + inc ≤ i.growMemorySize / 65536)
    (h0 : inc ≠ 0) :
    (∀ d : Seccomp.Data, (match a with | .x86 => d.nr = Seccomp.x86.mprotect | .arm => d.nr = Seccomp.arm.mprotect) → d.args 0 = s.base + s.pages * 65536 → d.args 1 = inc * 65536 → d.args 2 = 3 →
      (match a with | .x86 => Seccomp.run (Seccomp.filter Seccomp.x86) d | .arm => Seccomp.run (Seccomp.filter Seccomp.arm) d) = some Seccomp.retAllow) ∧
    ∀ k, s.kern = .done :: k → ∃ s', growMemory a inc s = .ok s.pages s' ∧ s'.pages = s.pages + inc ∧
      (∀ x, InMemory s' x → s'.acc x = true) ∧ s'.space = s.space := by
  obtain ⟨h1, h2⟩ := reach_inv a i hv s h
  have hb := hv.heapLo
  have hg := hv.grow
  have hbase := h2.base
  constructor
  · intro d hd g0 g1 g2
    simp only [w32, Process.minHeap] at *
    cases a
    · exact Seccomp.grow_passes _ d hd (by rw [g0, hbase]; simp only [Process.minHeap]; omega) (by rw [g1]; omega) g2 (.inl rfl)
    · exact Seccomp.grow_passes _ d hd (by rw [g0, hbase]; simp only [Process.minHeap]; omega) (by rw [g1]; omega) g2 (.inr rfl)
  · intro k hk
    have e := grow_eq a s h1 inc hc
    rw [if_neg (by rw [h2.limit]; omega), if_neg h0, hk] at e
    refine ⟨_, e, rfl, fun x hx => ?_, rfl⟩
    have := (call_inv a s h1 (.growMemory inc) hc).1
    simp only [call] at this
    rw [e] at this
    refine (this.acc x hx.1 ?_).mpr hx.2
    have h3 := hx.2
    have h4 := this.pages
    simp only [Out.st] at *
    have : (s.pages + inc) * 65536 ≤ s.limit * 65536 := Nat.mul_le_mul_right _ h4
    exact Nat.lt_of_lt_of_le h3 (Nat.add_le_add_left this _)

/-- The memory never shrinks, and never exceeds the limit. -/
theorem memory_limit (a : Arch) (i : Info) (hv : i.Valid) (s : St) (h : Reach a i s) : s.pages * 65536 ≤ i.growMemorySize ∧ i.initMemorySize ≤ s.pages * 65536 := by
  obtain ⟨h1, h2⟩ := reach_inv a i hv s h
  have h3 := h1.pages
  rw [h2.limit] at h3
  refine ⟨?_, ?_⟩
  · have := Nat.mul_le_mul_right 65536 h3
    exact Nat.le_trans this (Nat.div_mul_le_self i.growMemorySize 65536)
  · clear h1 h2 h3
    induction h with
    | load space acc0 k => simp only [load]; have := hv.init; omega
    | mem f _ _ ih => exact ih
    | @call s s' c r hr hc hs ih =>
      have h1 := (reach_inv a i hv s hr).1
      suffices hle : s.pages ≤ s'.pages from Nat.le_trans ih (Nat.mul_le_mul_right _ hle)
      cases c with
      | growMemory inc =>
        simp only [call] at hs
        rw [grow_eq a s h1 inc hc] at hs
        repeat' split at hs
        all_goals first | (cases hs; done) | (cases hs; simp) | (simp [exit] at hs)
      | debug addr len =>
        obtain ⟨d, q, hd⟩ := debug_frame a s.kern s addr len
        simp only [call, rtDebug] at hs
        split at hs
        · rename_i heq; rw [heq] at hd; cases hs; simp only [Out.st] at hd; rw [hd]; simp
        · cases hs
        · cases hs
      | read addr len =>
        simp only [call, rtRead] at hs
        repeat' split at hs
        all_goals first | (cases hs; done) | (cases hs; simp) | (simp [exit] at hs)
      | write addr len =>
        simp only [call, rtWrite] at hs
        repeat' split at hs
        all_goals first | (cases hs; done) | (cases hs; simp) | (simp [exit] at hs)
      | poll i o =>
        simp only [call, rtPoll] at hs
        repeat' split at hs
        all_goals first | (cases hs; done) | (cases hs; simp) | (simp [exit] at hs)
      | random =>
        simp only [call, rtRandom] at hs
        split at hs <;> cases hs <;> simp
      | stop n => simp [call, rtStop, exit] at hs
      | currentMemory => simp only [call, currentMemory] at hs; cases hs; simp

/-- aarch64: if the kernel refuses, the process ends with an internal error. -/
theorem grow_failed_arm (i : Info) (hv : i.Valid) (s : St) (h : Reach .arm i s) (inc : Nat) (hc : inc < w32) (hl : s.pages + inc ≤ i.growMemorySize / 65536)
    (h0 : inc ≠ 0) (e : Nat) (k : List Resp) (hk : s.kern = .err e :: k) :
    ∃ s', growMemory .arm inc s = .exit 7 s' ∧ Process.serve .ok (some (Process.exitWait 7)) false = ⟨0, Process.trapInternalError, some (.process 7)⟩ := by
  obtain ⟨h1, h2⟩ := reach_inv .arm i hv s h
  have g := grow_eq .arm s h1 inc hc
  rw [if_neg (by rw [h2.limit]; omega), if_neg h0, hk] at g
  exact ⟨_, g, by decide⟩

/-- x86-64: if the kernel refuses, the process always ends with status 0, which is reported as a successful exit of the program: the error code was put in another
register than the one which is used as the exit status, which has the (page aligned) address. -/
theorem grow_failed_x86_refuted (i : Info) (hv : i.Valid) (s : St) (h : Reach .x86 i s) (inc : Nat) (hc : inc < w32) (hl : s.pages + inc ≤ i.growMemorySize / 65536)
    (h0 : inc ≠ 0) (e : Nat) (k : List Resp) (hk : s.kern = .err e :: k) :
    ∃ s', growMemory .x86 inc s = .exit 0 s' ∧ Process.serve .ok (some (Process.exitWait 0)) false = ⟨0, Process.trapExit, none⟩ := by
  obtain ⟨h1, h2⟩ := reach_inv .x86 i hv s h
  have g := grow_eq .x86 s h1 inc hc
  rw [if_neg (by rw [h2.limit]; omega), if_neg h0, hk] at g
  refine ⟨{ s with kern := k }, ?_, by decide⟩
  rw [g]
  have hp := hv.page
  have hb := h2.base
  show Out.exit ((s.base + s.pages * 65536) % w32 % 256) _ = _
  have : (s.base + s.pages * 65536) % w32 % 256 = 0 := by
    rw [hb]; simp only [w32]; omega
  rw [this]

end Gate.Rt
