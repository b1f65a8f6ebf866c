import Verif.Process
/-
C24 (process results), C30 (addresses), C59 (time resolution), C60 (monotonic clock).
-/
namespace Gate.Process
open Gate

/-! ### C24 -/

/-- What the wait status of a process means, stated in terms of the manual page of `wait(2)`. -/
def Exited (w n : Nat) : Prop := w % 128 = 0 ∧ w / 256 % 256 = n
def Signaled (w s : Nat) : Prop := w % 128 = s ∧ s ≠ 0 ∧ s ≠ 127

/-- C24: exit codes 0-3 are a normal exit with that result, unless a kill was requested. -/
theorem normal_exit (w n : Nat) (h : Exited w n) (hn : n ≤ 3) (k : Bool) :
    serve .ok (some w) k = ⟨n, if k then trapKilled else trapExit, none⟩ := by
  obtain ⟨h1, h2⟩ := h
  simp [serve, exited, exitStatus, h1, h2, hn]

/-- C24: exit codes 100-127 are the corresponding trap; a kill request masks only exit,
suspension, breakpoint and ABI deficiency, never a fault of the program. -/
theorem trap_exit (w n : Nat) (h : Exited w n) (h1 : 100 ≤ n) (h2 : n ≤ 127) (k : Bool) :
    (serve .ok (some w) k).err = none ∧
    (k = false → (serve .ok (some w) k).trap = n - 100) ∧
    (n ≠ 100 ∧ n ≠ 102 ∧ n ≠ 110 ∧ n ≠ 127 → (serve .ok (some w) k).trap = n - 100) ∧
    (k = true → (n = 100 ∨ n = 102 ∨ n = 110 ∨ n = 127) → (serve .ok (some w) k).trap = trapKilled) := by
  obtain ⟨h3, h4⟩ := h
  have e : serve .ok (some w) k = ⟨0, if k ∧ (n - 100 = trapExit ∨ n - 100 = trapSuspended ∨ n - 100 = trapBreakpoint ∨ n - 100 = trapABIDeficiency)
              then trapKilled else n - 100, none⟩ := by
    simp only [serve, exited, exitStatus, h3, h4, beq_self_eq_true, if_true]
    rw [if_neg (by omega), if_pos ⟨h1, h2⟩]
  rw [e]
  refine ⟨rfl, ?_, ?_, ?_⟩
  · intro hk; simp [hk]
  · intro hn
    simp only [trapExit, trapSuspended, trapBreakpoint, trapABIDeficiency]
    rw [if_neg (by omega)]
  · intro hk hn
    simp only [trapExit, trapSuspended, trapBreakpoint, trapABIDeficiency]
    rw [if_pos ⟨hk, by omega⟩]

/-- C24: every other exit code is an error. -/
theorem other_exit (w n : Nat) (h : Exited w n) (hn : 3 < n) (hn' : n < 100 ∨ 127 < n) (k : Bool) :
    serve .ok (some w) k = ⟨0, trapInternalError, some (.process n)⟩ := by
  obtain ⟨h3, h4⟩ := h
  simp only [serve, exited, exitStatus, h3, h4, beq_self_eq_true, if_true]
  rw [if_neg (by omega), if_neg (by omega)]

/-- C24: a signal.  Being killed is expected if it was requested, the CPU time limit signal means
suspension, and every other signal is an error. -/
theorem signal_exit (w s : Nat) (h : Signaled w s) (k : Bool) :
    serve .ok (some w) k =
      if s = 9 ∧ k = true then ⟨0, trapKilled, none⟩
      else if s = 24 then ⟨0, trapSuspended, none⟩
      else ⟨0, trapInternalError, some (.signal s)⟩ := by
  obtain ⟨h1, h2, h3⟩ := h
  subst h1
  have e : exited w = false := by simpa [exited] using h2
  have e2 : signaled w = true := by simp [signaled, h2, h3]
  simp only [serve, e, e2, Bool.false_eq_true, if_false, if_true, termSignal]
  rfl

/-- C24: every status is covered: a process has exited, been terminated by a signal, or the status
is unknown, which is an error. -/
theorem status_cases (w : Nat) : (∃ n, n < 256 ∧ Exited w n) ∨ (∃ s, Signaled w s) ∨
    (w % 128 = 127 ∧ ∀ k, serve .ok (some w) k = ⟨0, trapInternalError, some (.unknown w)⟩) := by
  by_cases h0 : w % 128 = 0
  · exact Or.inl ⟨w / 256 % 256, Nat.mod_lt _ (by omega), h0, rfl⟩
  · by_cases h1 : w % 128 = 127
    · right; right
      refine ⟨h1, fun k => ?_⟩
      simp [serve, exited, signaled, h1]
    · exact Or.inr (Or.inl ⟨w % 128, rfl, h0, h1⟩)

/-- C24: a process is reported as killed only if that was requested; an error is returned
exactly if the trap is an internal error or an ABI violation; and an ABI violation
only if the I/O loop found one. -/
theorem report_sound (io : IoEnd) (st : Option Nat) (k : Bool) :
    ((serve io st k).trap = trapKilled → k = true) ∧
    ((serve io st k).err ≠ none ↔ (serve io st k).trap = trapInternalError ∨ (serve io st k).trap = trapABIViolation) ∧
    ((serve io st k).trap = trapABIViolation ↔ io = .badProgram) := by
  cases io with
  | badProgram => simp [serve, trapKilled, trapABIViolation, trapInternalError]
  | failed => simp [serve, trapKilled, trapABIViolation, trapInternalError]
  | ok =>
    cases st with
    | none => simp [serve, trapKilled, trapABIViolation, trapInternalError]
    | some w =>
      rcases status_cases w with ⟨n, hn, h⟩ | ⟨s, h⟩ | ⟨_, h⟩
      · by_cases h3 : n ≤ 3
        · rw [normal_exit w n h h3 k]
          cases k <;> simp [trapKilled, trapABIViolation, trapInternalError, trapExit]
        · by_cases hr : 100 ≤ n ∧ n ≤ 127
          · obtain ⟨a, b, c, d⟩ := trap_exit w n h hr.1 hr.2 k
            have ht : (serve .ok (some w) k).trap = n - 100 ∨ ((serve .ok (some w) k).trap = 30 ∧ k = true) := by
              cases k with
              | false => exact Or.inl (b rfl)
              | true =>
                by_cases hm : n = 100 ∨ n = 102 ∨ n = 110 ∨ n = 127
                · exact Or.inr ⟨d rfl hm, rfl⟩
                · exact Or.inl (c (by omega))
            simp only [trapKilled, trapABIViolation, trapInternalError, a]
            rcases ht with ht | ⟨ht, hk⟩
            · rw [ht]
              refine ⟨by omega, ?_, ?_⟩
              · constructor
                · intro h; exact absurd rfl h
                · omega
              · constructor
                · omega
                · intro h; cases h
            · rw [ht, hk]; simp
          · rw [other_exit w n h (by omega) (by omega) k]
            simp [trapKilled, trapABIViolation, trapInternalError]
      · rw [signal_exit w s h k]
        split
        · rename_i hc; simp [trapKilled, trapABIViolation, trapInternalError, hc.2]
        · split <;> simp [trapKilled, trapABIViolation, trapInternalError, trapSuspended]
      · rw [h k]; simp [trapKilled, trapABIViolation, trapInternalError]

/-- C24, end to end: however the program ends by itself, that is what is reported: its function
returned (result 0 or not), it called `proc_exit` (0 or not), or it trapped. -/
theorem program_end_reported (t r : Nat) (sb : Bool) :
    (let v := serve .ok (some (exitWait (trapHandler 0 r sb))) false
     v.trap = trapExit ∧ v.err = none ∧ terminated v.result = false ∧ (value v.result = 0 ↔ r = 0)) ∧
    (let v := serve .ok (some (exitWait (procExit r))) false
     v.trap = trapExit ∧ v.err = none ∧ terminated v.result = true ∧ (value v.result = 0 ↔ r = 0)) ∧
    (1 ≤ t → t ≤ 27 → t ≠ 4 ∨ sb = false →
      serve .ok (some (exitWait (trapHandler t r sb))) false = ⟨0, t, none⟩) ∧
    (serve .ok (some (exitWait (trapHandler 4 r true))) false = ⟨0, trapSuspended, none⟩) := by
  refine ⟨?_, ?_, ?_, ?_⟩
  · by_cases hr : r = 0
    · subst hr; simp only [trapHandler, if_true]; exact (by decide)
    · simp only [trapHandler, if_true, hr, if_false]
      exact (by decide)
  · by_cases hr : r = 0
    · subst hr; exact (by decide)
    · simp only [procExit, ne_eq, hr, not_false_eq_true, if_true]
      exact (by decide)
  · intro h1 h2 h3
    have e : trapHandler t r sb = 100 + t := by
      unfold trapHandler
      rw [if_neg (by omega)]
      split
      · rename_i h4
        rcases h3 with h3 | h3
        · exact absurd h4 h3
        · rw [h3, h4]; rfl
      · rfl
    have hx : Exited (exitWait (100 + t)) (100 + t) := by
      unfold Exited exitWait
      constructor <;> omega
    rw [e]
    simp only [serve, exited, exitStatus, hx.1, hx.2, beq_self_eq_true, if_true]
    rw [if_neg (by omega), if_pos (by omega)]
    simp
  · have e : trapHandler 4 r true = 102 := rfl
    rw [e]
    decide

/-- Finding: exit code 100, which the runtime never uses, is reported as a successful normal
exit rather than as an error. -/
theorem exit_100_is_success : serve .ok (some (exitWait 100)) false = ⟨0, trapExit, none⟩ := by decide

/-- Finding: the x86-64 `grow_memory` puts its error code into the wrong register when memory protection
cannot be changed, so the exit code is the lowest byte of a page-aligned
address: the program is reported to have finished successfully. -/
theorem grow_failure_reported_as_success (addr : Nat) (h : addr % 4096 = 0) :
    serve .ok (some (exitWait addr)) false = ⟨0, trapExit, none⟩ := by
  have : addr % 256 = 0 := by omega
  unfold exitWait
  rw [this]
  decide

example : Exited (exitWait 105) 105 ∧ Signaled 9 9 ∧ serve .ok (some (exitWait 105)) true = ⟨0, 5, none⟩ ∧
    serve .ok (some 9) true = ⟨0, 30, none⟩ ∧ serve .ok (some 9) false = ⟨0, 29, some (.signal 9)⟩ := by
  exact ⟨⟨by decide, by decide⟩, ⟨by decide, by decide, by decide⟩, by decide, by decide, by decide⟩

/-! ### C30 -/

/-- Page sizes: 4 KiB to 64 KiB, powers of two. -/
def PageSize (ps : Nat) : Prop := ∃ k, 12 ≤ k ∧ k ≤ 16 ∧ ps = 2 ^ k

theorem PageSize.cases {ps : Nat} (h : PageSize ps) : ps = 4096 ∨ ps = 8192 ∨ ps = 16384 ∨ ps = 32768 ∨ ps = 65536 := by
  obtain ⟨k, h1, h2, rfl⟩ := h
  have : k = 12 ∨ k = 13 ∨ k = 14 ∨ k = 15 ∨ k = 16 := by omega
  rcases this with rfl | rfl | rfl | rfl | rfl <;> decide

theorem page_bound (ps a b u : Nat) (ha : a % ps = 0) (hb : b % ps = 0) (hab : a < b) :
    (a / ps + u % (b / ps - a / ps)) * ps % ps = 0 ∧
    a ≤ (a / ps + u % (b / ps - a / ps)) * ps ∧
    (a / ps + u % (b / ps - a / ps)) * ps + ps ≤ b := by
  have ea : a / ps * ps = a := by rw [Nat.mul_comm]; exact Nat.mul_div_cancel' (Nat.dvd_of_mod_eq_zero ha)
  have eb : b / ps * ps = b := by rw [Nat.mul_comm]; exact Nat.mul_div_cancel' (Nat.dvd_of_mod_eq_zero hb)
  have hlt : a / ps < b / ps := by
    rcases Nat.lt_or_ge (a / ps) (b / ps) with h | h
    · exact h
    · have := Nat.mul_le_mul_right ps h; omega
  have hu := Nat.mod_lt u (show b / ps - a / ps > 0 by omega)
  refine ⟨Nat.mul_mod_left _ _, ?_, ?_⟩
  · calc a = a / ps * ps := ea.symm
      _ ≤ _ := Nat.mul_le_mul_right _ (by omega)
  · calc (a / ps + u % (b / ps - a / ps)) * ps + ps = (a / ps + u % (b / ps - a / ps) + 1) * ps := by rw [Nat.add_mul _ 1, Nat.one_mul]
      _ ≤ b / ps * ps := Nat.mul_le_mul_right _ (by omega)
      _ = b := eb

/-- C30: randomized addresses are page aligned and within their ranges, there are always
enough random bytes, and regions of up to 8 GiB at the text and heap addresses cannot
overlap the following regions. -/
theorem addresses_valid (ps : Nat) (hps : PageSize ps) (nd : Bool) (b : Bytes) (hb : b.length = randLen 0 nd) :
    ∃ t h s d, getRand ps 0 nd b = .ok (t, h, s, d) ∧
      t % ps = 0 ∧ h % ps = 0 ∧ s % ps = 0 ∧
      minText ≤ t ∧ t < maxText ∧ minHeap ≤ h ∧ h < maxHeap ∧ minStack ≤ s ∧ s < maxStack ∧
      t + 2 ^ 33 ≤ h ∧ h + 2 ^ 33 ≤ s ∧ s + 2 ^ 33 ≤ 2 ^ 47 ∧
      d.length = 16 ∧ (nd = true → d = b.drop 12) := by
  have hl : 12 ≤ b.length ∧ (nd = true → b.length = 28) := by
    rw [hb]; unfold randLen; cases nd <;> simp
  have e : getRand ps 0 nd b = .ok (
      (minText / ps + unle ((b.drop 8).take 4) % (maxText / ps - minText / ps)) * ps,
      (minHeap / ps + unle (b.take 4) % (maxHeap / ps - minHeap / ps)) * ps,
      (minStack / ps + unle ((b.drop 4).take 4) % (maxStack / ps - minStack / ps)) * ps,
      if nd then (b.drop 12).take 16 else List.replicate 16 0) := by
    unfold getRand randAddr
    rw [if_neg (by omega)]
    simp only [Res.bind_ok, List.length_drop, List.drop_drop]
    rw [if_neg (by omega)]
    simp only [Res.bind_ok, ne_eq, not_true_eq_false, if_false]
    rw [if_neg (by omega)]
    simp only [Res.bind_ok]
  refine ⟨_, _, _, _, e, ?_⟩
  have al : minText % ps = 0 ∧ maxText % ps = 0 ∧ minHeap % ps = 0 ∧ maxHeap % ps = 0 ∧ minStack % ps = 0 ∧ maxStack % ps = 0 := by
    rcases hps.cases with rfl | rfl | rfl | rfl | rfl <;> decide
  have hp0 : 0 < ps := by rcases hps.cases with rfl | rfl | rfl | rfl | rfl <;> decide
  have t1 := page_bound ps minText maxText (unle ((b.drop 8).take 4)) al.1 al.2.1 (by decide)
  have t2 := page_bound ps minHeap maxHeap (unle (b.take 4)) al.2.2.1 al.2.2.2.1 (by decide)
  have t3 := page_bound ps minStack maxStack (unle ((b.drop 4).take 4)) al.2.2.2.2.1 al.2.2.2.2.2 (by decide)
  generalize (minText / ps + unle ((b.drop 8).take 4) % (maxText / ps - minText / ps)) * ps = t at t1
  generalize (minHeap / ps + unle (b.take 4) % (maxHeap / ps - minHeap / ps)) * ps = h at t2
  generalize (minStack / ps + unle ((b.drop 4).take 4) % (maxStack / ps - minStack / ps)) * ps = s at t3
  simp only [minText, maxText, minHeap, maxHeap, minStack, maxStack] at t1 t2 t3 ⊢
  refine ⟨t1.1, t2.1, t3.1, t1.2.1, by omega, t2.2.1, by omega, t3.2.1, by omega, by omega, by omega, by omega, ?_, ?_⟩
  · cases nd with
    | false => simp
    | true => simp [hl.2 rfl]
  · intro hn
    rw [hn, if_pos rfl]
    exact List.take_of_length_le (by simp [hl.2 hn])

/-- C30: a fixed text address is kept and the other addresses do not depend on it. -/
theorem fixed_text (ps f : Nat) (hf : f ≠ 0) (nd : Bool) (b : Bytes) (hb : b.length = randLen f nd) :
    ∃ h s d, getRand ps f nd b = .ok (f, h, s, d) := by
  have hl : 8 ≤ b.length := by rw [hb]; unfold randLen; omega
  unfold getRand randAddr
  rw [if_neg (by omega)]
  simp only [Res.bind_ok, List.length_drop]
  rw [if_neg (by omega)]
  simp only [Res.bind_ok, hf, ne_eq, not_false_eq_true, if_true]
  exact ⟨_, _, _, rfl⟩

/-- C30: with 4 KiB pages different random inputs give different text and heap
addresses: all 32 bits of the input are used. -/
theorem addresses_injective (b b' : Bytes) (hb : b.length = 4) (hb' : b'.length = 4) (lo hi : Nat)
    (hr : (lo, hi) = (minText, maxText) ∨ (lo, hi) = (minHeap, maxHeap) ∨ (lo, hi) = (minStack, maxStack))
    (h : randAddr 4096 lo hi b = randAddr 4096 lo hi b') : b = b' := by
  unfold randAddr at h
  rw [if_neg (by omega), if_neg (by omega)] at h
  rw [List.take_of_length_le (by omega), List.take_of_length_le (by omega)] at h
  have u1 := unle_lt b
  have u2 := unle_lt b'
  rw [hb] at u1
  rw [hb'] at u2
  have hm : unle b = unle b' := by
    have hh := Res.ok.inj h
    have : 256 ^ 4 ≤ hi / 4096 - lo / 4096 := by
      rcases hr with hr | hr | hr <;> (cases hr; decide)
    rw [Nat.mod_eq_of_lt (by omega), Nat.mod_eq_of_lt (by omega)] at hh
    have := Nat.eq_of_mul_eq_mul_right (by decide) hh
    omega
  have e1 := le_unle b
  have e2 := le_unle b'
  rw [hb] at e1
  rw [hb'] at e2
  rw [← e1, ← e2, hm]


/-! ### C59 -/

/-- The effective resolution, runtime/process.go:176-178. -/
def effective (res : Int) : Nat := if res ≤ 0 ∨ res > 1000000000 then 1000000000 else res.toNat

theorem effective_range (res : Int) : 1 ≤ effective res ∧ effective res ≤ 1000000000 := by
  unfold effective
  split <;> omega

/-- The granularity of the nanoseconds is more than the resolution, and at most twice the
resolution. -/
theorem granularity (res : Int) : effective res < 2 ^ maskBits res ∧ 2 ^ maskBits res ≤ 2 * effective res := by
  have h := effective_range res
  have e : maskBits res = len32 (effective res) := rfl
  rw [e]
  generalize effective res = n at h
  unfold len32
  rw [if_neg (by omega)]
  constructor
  · exact Nat.lt_log2_self
  · rw [Nat.pow_succ]
    have := Nat.log2_self_le (n := n) (by omega)
    omega

theorem maskNsec_le (b n : Nat) : maskNsec b n ≤ n := Nat.div_mul_le_self n (2 ^ b)

theorem maskNsec_gt (b n : Nat) : n < maskNsec b n + 2 ^ b := by
  unfold maskNsec
  have h1 := Nat.div_add_mod n (2 ^ b)
  have h2 := Nat.mod_lt n (Nat.two_pow_pos b)
  rw [Nat.mul_comm] at h1
  generalize n / 2 ^ b * 2 ^ b = q at *
  generalize 2 ^ b = g at *
  omega

theorem maskNsec_mono (b n m : Nat) (h : n ≤ m) : maskNsec b n ≤ maskNsec b m :=
  Nat.mul_le_mul_right _ (Nat.div_le_div_right h)

theorem maskNsec_spacing (b n m : Nat) (h : maskNsec b n < maskNsec b m) : maskNsec b n + 2 ^ b ≤ maskNsec b m := by
  unfold maskNsec at *
  have h1 : n / 2 ^ b < m / 2 ^ b := Nat.lt_of_mul_lt_mul_right h
  calc n / 2 ^ b * 2 ^ b + 2 ^ b = (n / 2 ^ b + 1) * 2 ^ b := by rw [Nat.add_mul, Nat.one_mul]
    _ ≤ _ := Nat.mul_le_mul_right _ h1

/-- C59: times seen by a program never go backwards when the clock does not, they are
never in the future, and are late by less than twice the resolution (x86-64). -/
theorem time_accurate (res : Int) (s n s' n' : Nat) (hn : n < 1000000000) (hle : s < s' ∨ (s = s' ∧ n ≤ n')) :
    timeX86 (maskBits res) s n ≤ timeX86 (maskBits res) s' n' ∧
    timeX86 (maskBits res) s n ≤ s * 1000000000 + n ∧
    s * 1000000000 + n < timeX86 (maskBits res) s n + 2 * effective res := by
  have h1 := maskNsec_le (maskBits res) n
  have h2 := maskNsec_gt (maskBits res) n
  have h3 := (granularity res).2
  unfold timeX86
  refine ⟨?_, by omega, by omega⟩
  rcases hle with h | ⟨rfl, h⟩
  · have : (s + 1) * 1000000000 ≤ s' * 1000000000 := Nat.mul_le_mul_right _ h
    omega
  · have := maskNsec_mono (maskBits res) n n' h
    omega

/-- C59, the part which holds: two different times seen within the same second, or with a resolution of
2^29 ns or more, differ by at least the resolution. -/
theorem time_resolution_partial (res : Int) (s n s' n' : Nat) (hn : n < 1000000000) (hn' : n' < 1000000000)
    (hc : s = s' ∨ 2 ^ 29 ≤ effective res)
    (hlt : timeX86 (maskBits res) s n < timeX86 (maskBits res) s' n') :
    timeX86 (maskBits res) s n + effective res ≤ timeX86 (maskBits res) s' n' := by
  have hg := (granularity res).1
  have he := effective_range res
  unfold timeX86 at *
  rcases hc with rfl | hc
  · have := maskNsec_spacing (maskBits res) n n' (by omega)
    omega
  · have big : 30 ≤ maskBits res := by
      rcases Nat.lt_or_ge (maskBits res) 30 with h | h
      · have : 2 ^ maskBits res ≤ 2 ^ 29 := Nat.pow_le_pow_right (by omega) (by omega)
        omega
      · exact h
    have z : ∀ m, m < 1000000000 → maskNsec (maskBits res) m = 0 := by
      intro m hm
      have : (2 : Nat) ^ 30 ≤ 2 ^ maskBits res := Nat.pow_le_pow_right (by omega) big
      unfold maskNsec
      rw [Nat.div_eq_of_lt (by omega), Nat.zero_mul]
    rw [z n hn, z n' hn'] at hlt
    rw [z n hn, z n' hn']
    clear z hg big hc
    generalize effective res = e at *
    omega

/-- C59 fails in general: with a resolution of half a second a program sees times 463 ms apart,
because the mask is applied to the nanoseconds within a second. -/
theorem finer_than_resolution :
    timeX86 (maskBits 500000000) 0 999999999 < timeX86 (maskBits 500000000) 1 0 ∧
    timeX86 (maskBits 500000000) 1 0 - timeX86 (maskBits 500000000) 0 999999999 = 463129088 := by decide +kernel

/-- On aarch64 the seconds are multiplied with the wrong constant: after one second
almost 3.4 seconds seem to have elapsed. -/
theorem arm_time_wrong (s : Nat) : timeArm 30 (s + 1) 0 - timeArm 30 s 0 = 3389012890 := by
  have e : armFactor = 3389012890 := by decide
  have z : maskNsec 30 0 = 0 := by decide
  unfold timeArm
  rw [e, z]
  omega

example : (maskBits 1000000 = 20) ∧ timeX86 20 5 123456789 = 5122683392 ∧ effective (-3) = 1000000000 := by decide +kernel

/-! ### C60 -/

/-- Sorted lists. -/
def Nondecreasing : List Nat → Prop
  | [] => True
  | [_] => True
  | a :: b :: r => a ≤ b ∧ Nondecreasing (b :: r)

/-- The host's clock within one process: starts from the base and does not go back. -/
def HostOk (seg : Nat × List Nat) : Prop := Nondecreasing (seg.1 :: seg.2)

/-- Total elapsed time of the processes. -/
def elapsed : List (Nat × List Nat) → Nat
  | [] => 0
  | (b, ns) :: r => (ns.getLastD b - b) + elapsed r

theorem nondec_base : ∀ (ns : List Nat) (b : Nat), Nondecreasing (b :: ns) → (∀ x ∈ ns, b ≤ x) ∧ b ≤ ns.getLastD b ∧ ∀ x ∈ ns, x ≤ ns.getLastD b := by
  intro ns
  induction ns with
  | nil => intro b _; simp
  | cons a ns ih =>
    intro b h
    obtain ⟨h1, h2⟩ := h
    obtain ⟨a1, a2, a3⟩ := ih a h2
    have hg : (a :: ns).getLastD b = ns.getLastD a := by
      cases ns <;> simp [List.getLastD]
    rw [hg]
    refine ⟨?_, by omega, ?_⟩
    · intro x hx
      rcases List.mem_cons.mp hx with rfl | hx
      · exact h1
      · have := a1 x hx; omega
    · intro x hx
      rcases List.mem_cons.mp hx with rfl | hx
      · exact a2
      · exact a3 x hx

theorem nondec_map : ∀ (ns : List Nat) (b c : Nat) (f : Nat → Nat), Nondecreasing (b :: ns) → f b = c →
    (∀ x y, x ∈ b :: ns → y ∈ b :: ns → x ≤ y → f x ≤ f y) → Nondecreasing (c :: ns.map f) := by
  intro ns
  induction ns with
  | nil => intro b c f _ _ _; trivial
  | cons a ns ih =>
    intro b c f h hc hm
    obtain ⟨h1, h2⟩ := h
    refine ⟨?_, ih a (f a) f h2 rfl (fun x y hx hy => hm x y (List.mem_cons_of_mem _ hx) (List.mem_cons_of_mem _ hy))⟩
    rw [← hc]
    exact hm b a (by simp) (by simp) h1

theorem nondec_append : ∀ (xs ys : List Nat) (a : Nat), Nondecreasing (a :: xs) → Nondecreasing (xs.getLastD a :: ys) →
    Nondecreasing (a :: (xs ++ ys)) := by
  intro xs
  induction xs with
  | nil => intro ys a _ h; exact h
  | cons x xs ih =>
    intro ys a h1 h2
    refine ⟨h1.1, ih ys x h1.2 ?_⟩
    have hg : (x :: xs).getLastD a = xs.getLastD x := by
      cases xs <;> simp [List.getLastD]
    rw [hg] at h2
    exact h2

theorem monotonic_mod (M snap : Nat) (segs : List (Nat × List Nat)) (hok : ∀ g ∈ segs, HostOk g)
    (hb : snap + elapsed segs < M) : Nondecreasing (snap :: readings (monoMod M) snap segs) := by
  induction segs generalizing snap with
  | nil => trivial
  | cons g rest ih =>
    obtain ⟨b, ns⟩ := g
    have h1 : Nondecreasing (b :: ns) := hok (b, ns) List.mem_cons_self
    obtain ⟨k1, k2, k3⟩ := nondec_base ns b h1
    simp only [elapsed] at hb
    have val : ∀ x, b ≤ x → x ≤ ns.getLastD b → monoMod M snap b x = snap + (x - b) := by
      intro x hx hx'
      have hbig : ns.getLastD b - b < M := by omega
      unfold monoMod
      generalize ns.getLastD b = g at *
      have e : (x + M - b) % M = x - b := by
        rw [show x + M - b = (x - b) + M by omega, Nat.add_mod_right]
        exact Nat.mod_eq_of_lt (by omega)
      rw [e, Nat.mod_eq_of_lt (by omega)]
      omega
    have hbase : monoMod M snap b b = snap := by rw [val b (Nat.le_refl _) k2]; omega
    simp only [readings]
    have hlast : (ns.map (monoMod M snap b)).getLastD snap = snap + (ns.getLastD b - b) := by
      cases ns with
      | nil => simp [List.getLastD]
      | cons a ns =>
        have e1 : (List.map (monoMod M snap b) (a :: ns)).getLastD snap = monoMod M snap b ((a :: ns).getLastD b) := by
          simp only [List.map_cons, List.getLastD_cons]
          clear hb k1 k2 k3 val h1 hbase hok
          induction ns generalizing a with
          | nil => rfl
          | cons c ns ih => simp only [List.map_cons, List.getLastD_cons]; exact ih c
        rw [e1]
        exact val _ k2 (Nat.le_refl _)
    apply nondec_append
    · refine nondec_map ns b snap _ h1 hbase ?_
      intro x y hx hy hxy
      have bx : b ≤ x ∧ x ≤ ns.getLastD b := by
        rcases List.mem_cons.mp hx with rfl | hx
        · exact ⟨Nat.le_refl _, k2⟩
        · exact ⟨k1 x hx, k3 x hx⟩
      have hy' : b ≤ y ∧ y ≤ ns.getLastD b := by
        rcases List.mem_cons.mp hy with rfl | hy
        · exact ⟨Nat.le_refl _, k2⟩
        · exact ⟨k1 y hy, k3 y hy⟩
      rw [val x bx.1 bx.2, val y hy'.1 hy'.2]
      omega
    · rw [hlast]
      exact ih _ (fun g hg => hok g (List.mem_cons_of_mem _ hg)) (by omega)

/-- C60 (x86-64): the monotonic clock of an instance never goes backwards, not even when
the instance is suspended and resumed on another machine whose clock shows an
earlier time; it starts from the time stored in the image. -/
theorem monotonic_clock (snap : Nat) (segs : List (Nat × List Nat)) (hok : ∀ g ∈ segs, HostOk g)
    (hb : snap + elapsed segs < 2 ^ 64) : Nondecreasing (snap :: readings monoX86 snap segs) :=
  monotonic_mod (2 ^ 64) snap segs hok hb

/-- C60 fails on aarch64: the clock goes back when the instance is resumed on a machine whose
clock shows an earlier time. -/
theorem arm_clock_goes_back : readings monoArm 0 [(1000, [2000, 3000]), (10, [20])] = [2000, 3000, 20] ∧
    ¬ Nondecreasing (readings monoArm 0 [(1000, [2000, 3000]), (10, [20])]) := by
  refine ⟨by decide, ?_⟩
  rw [show readings monoArm 0 [(1000, [2000, 3000]), (10, [20])] = [2000, 3000, 20] by decide]
  simp [Nondecreasing]

example : readings monoX86 7 [(1000, [2000, 3000]), (10, [20, 30])] = [1007, 2007, 2017, 2027] ∧
    HostOk (1000, [2000, 3000]) ∧ HostOk (10, [20, 30]) := by
  refine ⟨by decide +kernel, ?_, ?_⟩ <;> simp [HostOk, Nondecreasing]

end Gate.Process
