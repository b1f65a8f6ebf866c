import Verif.RtMore
/-
C93: debug output. C94: random bytes. C95: polling. And cases which show that the hypotheses of RtMore.lean can be met.
-/
namespace Gate.Rt
open Gate Gate.ImageFile

/-! ### Debug output -/

theorem read_append (f : File) (a m n : Nat) : ImageFile.read f a m ++ ImageFile.read f (a + m) n = ImageFile.read f a (m + n) := by
  unfold ImageFile.read
  apply List.ext_getElem
  · simp
  · intro i h1 h2
    simp only [List.length_append, List.length_map, List.length_range] at h1
    by_cases hi : i < m
    · rw [List.getElem_append_left (by simpa using hi)]; simp
    · rw [List.getElem_append_right (by simpa using hi)]
      simp only [List.length_map, List.length_range, List.getElem_map, List.getElem_range]
      congr 1; omega

theorem debug_x86_loop (k : List Resp) (s : St) (h : Inv s) (addr len : Nat) (ha : addr < w32) (hl : len < w32) :
    ∃ n, n ≤ len ∧ (debugLoop .x86 s addr len k).st.dbg = s.dbg ++ ImageFile.read s.space (s.base + addr) n ∧
      ∀ u s', debugLoop .x86 s addr len k = .ok u s' → n = len ∨ .wrote 0 ∈ k := by
  induction k generalizing s addr len with
  | nil =>
    unfold debugLoop
    rw [prologue_exact .x86 s h addr len ha hl]
    by_cases h0 : len = 0
    · simp only [if_pos h0]; exact ⟨0, by omega, by simp [Out.st, ImageFile.read], fun _ _ _ => .inl h0.symm⟩
    · simp only [if_neg h0]
      refine ⟨0, by omega, ?_, ?_⟩
      · split <;> simp_all [Out.st, ImageFile.read]
      · intro u s' hs
        split at hs <;> cases hs
        rename_i hx
        split at hx <;> cases hx
  | cons r k ih =>
    unfold debugLoop
    rw [prologue_exact .x86 s h addr len ha hl]
    by_cases h0 : len = 0
    · simp only [if_pos h0]; exact ⟨0, by omega, by simp [Out.st, ImageFile.read], fun _ _ _ => .inl h0.symm⟩
    · simp only [if_neg h0]
      by_cases h1 : addr + len ≤ s.pages * 65536
      · simp only [if_pos h1]
        cases r with
        | wrote m =>
          simp only
          by_cases h2 : m ≤ len
          · simp only [if_pos h2]
            by_cases h3 : m = 0
            · simp only [if_pos h3]
              exact ⟨0, by omega, by simp [h3, Out.st, ImageFile.read], fun _ _ _ => .inr (by simp [h3])⟩
            · simp only [if_neg h3]
              by_cases h4 : len = m
              · simp only [if_pos h4]
                exact ⟨m, by omega, by simp [Out.st], fun _ _ _ => .inl h4.symm⟩
              · simp only [if_neg h4]
                have hp := h.pages
                have hm := h.limit
                have hw : (addr + m) % w32 = addr + m := Nat.mod_eq_of_lt (by simp only [w32]; omega)
                rw [hw]
                obtain ⟨n, g1, g2, g3⟩ := ih { s with dbg := s.dbg ++ ImageFile.read s.space (s.base + addr) m } ⟨h.base, h.limit, h.pages, h.acc, h.avail⟩
                  (addr + m) (len - m) (by simp only [w32]; omega) (by simp only [w32] at *; omega)
                refine ⟨m + n, by omega, ?_, fun u s' hs => ?_⟩
                · rw [g2]
                  simp only [List.append_assoc]
                  rw [← Nat.add_assoc, read_append]
                · rcases g3 u s' hs with g | g
                  · left; omega
                  · right; simp [g]
          · simp only [if_neg h2]
            exact ⟨0, by omega, by simp [Out.st, ImageFile.read], fun _ _ hs => by cases hs⟩
        | err e =>
          simp only
          by_cases h2 : e = EINTR
          · simp only [if_pos h2]
            obtain ⟨n, g1, g2, g3⟩ := ih s h addr len ha hl
            exact ⟨n, g1, g2, fun u s' hs => (g3 u s' hs).imp id (by simp)⟩
          · simp only [if_neg h2]
            exact ⟨0, by omega, by simp [Out.st, ImageFile.read], fun _ _ hs => by cases hs⟩
        | got b => exact ⟨0, by omega, by simp [Out.st, ImageFile.read], fun _ _ hs => by cases hs⟩
        | poll i o => exact ⟨0, by omega, by simp [Out.st, ImageFile.read], fun _ _ hs => by cases hs⟩
        | done => exact ⟨0, by omega, by simp [Out.st, ImageFile.read], fun _ _ hs => by cases hs⟩
      · simp only [if_neg h1]
        exact ⟨0, by omega, by simp [Out.st, ImageFile.read], fun _ _ hs => by cases hs⟩

/-- x86-64: whatever the kernel writes at a time, and however the call is interrupted, what is added to the debug output is a prefix of the program's buffer;
if the call returns, it is the whole buffer, unless the debug output was closed (a write of nothing). Nothing else is output. -/
theorem debug_x86 (i : Info) (hv : i.Valid) (s : St) (h : Reach .x86 i s) (addr len : Nat) (ha : addr < w32) (hl : len < w32) :
    ∃ n, n ≤ len ∧ (call .x86 (.debug addr len) s).st.dbg = s.dbg ++ ImageFile.read s.space (s.base + addr) n ∧
      (call .x86 (.debug addr len) s).st.out = s.out ∧
      ∀ r s', call .x86 (.debug addr len) s = .ok r s' → n = len ∨ .wrote 0 ∈ s.kern := by
  obtain ⟨n, h1, h2, h3⟩ := debug_x86_loop s.kern s (reach_inv .x86 i hv s h).1 addr len ha hl
  obtain ⟨d, q, hd⟩ := debug_frame .x86 s.kern s addr len
  have e : (call .x86 (.debug addr len) s).st = (debugLoop .x86 s addr len s.kern).st := by
    simp only [call, rtDebug]
    cases debugLoop .x86 s addr len s.kern <;> rfl
  refine ⟨n, h1, by rw [e, h2], by rw [e, hd], fun r s' hs => ?_⟩
  simp only [call, rtDebug] at hs
  cases hx : debugLoop .x86 s addr len s.kern with
  | ok u s1 => exact h3 u s1 hx
  | exit n s1 => rw [hx] at hs; cases hs
  | wait s1 => rw [hx] at hs; cases hs

/-- aarch64: it is so if the kernel writes everything at once. -/
theorem debug_arm_partial (i : Info) (hv : i.Valid) (s : St) (h : Reach .arm i s) (addr len : Nat) (ha : addr < w32) (hl : len < w32) (hb : addr + len ≤ s.pages * 65536)
    (h0 : len ≠ 0) (k : List Resp) (hk : s.kern = .wrote len :: k) :
    call .arm (.debug addr len) s = .ok 0 { s with dbg := s.dbg ++ ImageFile.read s.space (s.base + addr) len, kern := k } := by
  simp only [call, rtDebug, hk, debugLoop]
  rw [prologue_exact .arm s (reach_inv .arm i hv s h).1 addr len ha hl, if_neg h0, if_pos hb]
  simp [h0]

/-- aarch64: after a write of a part of the buffer, the low half of the address where the rest of the buffer is in the process is used as if it were an address
in the program's memory. Usually that is out of bounds and the program is stopped because of an access which it didn't make. -/
theorem debug_arm_refuted (i : Info) (hv : i.Valid) (s : St) (h : Reach .arm i s) (addr len m : Nat) (ha : addr < w32) (hl : len < w32) (hb : addr + len ≤ s.pages * 65536)
    (h0 : m ≠ 0) (hm : m < len) (k : List Resp) (hk : s.kern = .wrote m :: k) :
    (s.pages * 65536 < (s.base + addr + m) % w32 + (len - m) → ∃ s', call .arm (.debug addr len) s = .exit 105 s') ∧
    ((s.base + addr + m) % w32 + (len - m) ≤ s.pages * 65536 → ∀ k', k = .wrote (len - m) :: k' →
      call .arm (.debug addr len) s = .ok 0 { s with
        dbg := s.dbg ++ ImageFile.read s.space (s.base + addr) m ++ ImageFile.read s.space (s.base + (s.base + addr + m) % w32) (len - m), kern := k' }) := by
  have hi := (reach_inv .arm i hv s h).1
  have hlen : len ≠ 0 := by omega
  have hw : (s.base + addr + m) % w32 < w32 := Nat.mod_lt _ (by decide)
  have hl' : len - m < w32 := Nat.lt_of_le_of_lt (Nat.sub_le _ _) hl
  have step : debugLoop .arm s addr len (.wrote m :: k) =
      debugLoop .arm { s with dbg := s.dbg ++ ImageFile.read s.space (s.base + addr) m } ((s.base + addr + m) % w32) (len - m) k := by
    rw [debugLoop, prologue_exact .arm s hi addr len ha hl, if_neg hlen, if_pos hb]
    simp only
    rw [if_pos (by omega), if_neg h0, if_neg (by omega)]
  have hi' : Inv { s with dbg := s.dbg ++ ImageFile.read s.space (s.base + addr) m } := ⟨hi.base, hi.limit, hi.pages, hi.acc, hi.avail⟩
  generalize hz : (s.base + addr + m) % w32 = z at *
  have hpe := prologue_exact .arm _ hi' z (len - m) hw hl'
  rw [if_neg (by omega)] at hpe
  simp only at hpe
  have hcall : call .arm (.debug addr len) s = (match debugLoop .arm s addr len (.wrote m :: k) with | .ok _ s => .ok 0 s | .exit n s => .exit n s | .wait s => .wait s) := by
    rw [← hk]; rfl
  rw [hcall, step]
  constructor
  · intro hgt
    rw [if_neg (by omega)] at hpe
    cases k with
    | nil => simp only [debugLoop, hpe]; exact ⟨_, rfl⟩
    | cons r k => simp only [debugLoop, hpe]; exact ⟨_, rfl⟩
  · intro hle k' hk'
    rw [if_pos hle] at hpe
    have hne : len - m ≠ 0 := by omega
    simp only [hk', debugLoop, hpe]
    simp [hne]

/-! ### Random bytes -/

/-- A sequence of calls and changes of memory, with the results of the calls of rt_random. -/
inductive Run (a : Arch) : St → List Nat → St → Prop where
  | nil (s : St) : Run a s [] s
  | mem {s s' : St} {l : List Nat} (f : File) : (∀ x, ¬ InMemory s x → f x = s.space x) → Run a { s with space := f } l s' → Run a s l s'
  | call {s s1 s' : St} {l : List Nat} (c : Call) (r : Nat) : c.Valid → c ≠ .random → call a c s = .ok r s1 → Run a s1 l s' → Run a s l s'
  | random {s s1 s' : St} {l : List Nat} (r : Nat) : call a .random s = .ok r s1 → Run a s1 l s' → Run a s (r :: l) s'

theorem other_random (a : Arch) (c : Call) (hr : c ≠ .random) (s s' : St) (r : Nat) (hs : call a c s = .ok r s') :
    s'.randomAvail = s.randomAvail ∧ s'.random = s.random := by
  cases c with
  | random => exact absurd rfl hr
  | read addr len =>
    simp only [call, rtRead] at hs
    repeat' split at hs
    all_goals first | (cases hs; done) | (cases hs; exact ⟨rfl, rfl⟩) | (simp [exit] at hs)
  | write addr len =>
    simp only [call, rtWrite] at hs
    repeat' split at hs
    all_goals first | (cases hs; done) | (cases hs; exact ⟨rfl, rfl⟩) | (simp [exit] at hs)
  | debug addr len =>
    obtain ⟨d, q, hd⟩ := debug_frame a s.kern s addr len
    simp only [call, rtDebug] at hs
    split at hs
    · rename_i heq; rw [heq] at hd; cases hs; simp only [Out.st] at hd; rw [hd]; exact ⟨rfl, rfl⟩
    · cases hs
    · cases hs
  | poll i o =>
    simp only [call, rtPoll] at hs
    repeat' split at hs
    all_goals first | (cases hs; done) | (cases hs; exact ⟨rfl, rfl⟩) | (simp [exit] at hs)
  | stop n => simp [call, rtStop, exit] at hs
  | currentMemory => simp only [call, currentMemory] at hs; cases hs; exact ⟨rfl, rfl⟩
  | growMemory inc =>
    simp only [call, growMemory] at hs
    repeat' split at hs
    all_goals first | (cases hs; done) | (cases hs; exact ⟨rfl, rfl⟩) | (simp [exit] at hs)

/-- What calls of rt_random give: the unused random bytes, the last one first, and -1 after that. -/
def randomSpec (avail : Bytes) (n : Nat) : List Nat :=
  (List.range n).map fun j => if j < avail.length then (avail.reverse.getD j 0).toNat else 4294967295

theorem random_run (a : Arch) (s s' : St) (l : List Nat) (h : Run a s l s') (hl : s.randomAvail ≤ s.random.length) :
    l = randomSpec (s.random.take s.randomAvail) l.length := by
  induction h with
  | nil s => rfl
  | mem f _ _ ih => exact ih hl
  | @call s s1 s' l c r hc hne hs _ ih =>
    obtain ⟨e1, e2⟩ := other_random a c hne s s1 r hs
    rw [e1, e2] at ih
    exact ih hl
  | @random s s1 s' l r hs _ ih =>
    simp only [call, rtRandom] at hs
    split at hs
    · rename_i h0
      cases hs
      have := ih hl
      rw [h0] at this ⊢
      simp only [randomSpec, List.take_zero, List.length_nil, Nat.not_lt_zero, if_false, List.length_cons] at this ⊢
      rw [List.range_succ_eq_map, List.map_cons, List.map_map]
      exact congrArg _ this
    · rename_i h0
      cases hs
      have hl' : s.randomAvail - 1 ≤ s.random.length := by omega
      have := ih hl'
      simp only at this
      have hr : (s.random.take s.randomAvail).reverse = s.random.getD (s.randomAvail - 1) 0 :: (s.random.take (s.randomAvail - 1)).reverse := by
        have e : s.randomAvail = s.randomAvail - 1 + 1 := by omega
        have hlt : s.randomAvail - 1 < s.random.length := by omega
        conv => lhs; rw [e, List.take_succ_eq_append_getElem hlt, List.reverse_append]
        simp [List.getD_eq_getElem?_getD, hlt]
      unfold randomSpec
      rw [List.length_cons, List.range_succ_eq_map, List.map_cons, List.map_map, hr]
      congr 1
      · rw [if_pos (by simp; omega)]; simp
      · conv => lhs; rw [this]
        unfold randomSpec
        apply List.map_congr_left
        intro j _
        simp only [Function.comp, List.length_take, List.getD_cons_succ]
        rw [Nat.min_eq_left hl', Nat.min_eq_left hl]
        by_cases hj : j < s.randomAvail - 1
        · rw [if_pos hj, if_pos (by omega)]
        · rw [if_neg hj, if_neg (by omega)]

/-- Every history of a process: the results of its calls of rt_random are the 16 random bytes it was given, each at most once, the last one first; after that -1. -/
theorem random_once (a : Arch) (i : Info) (hv : i.Valid) (space : File) (acc0 : Nat → Bool) (k : List Resp) (s' : St) (l : List Nat)
    (h : Run a (load i space acc0 k) l s') : l = randomSpec i.random l.length := by
  have := random_run a _ _ l h (by simp [load, hv.random])
  simp only [load] at this
  rw [List.take_of_length_le (by rw [hv.random]; exact Nat.le_refl _)] at this
  exact this

/-- Seventeen calls: the 16 bytes, and -1. -/
example : randomSpec [1, 2, 3] 5 = [3, 2, 1, 4294967295, 4294967295] := by decide

/-! ### Polling -/

theorem sub_or (i e : Nat) (h : i ||| e = e) (b : Nat) (hb : i.testBit b = true) : e.testBit b = true := by
  rw [← h, Nat.testBit_or, hb, Bool.true_or]

/-- If input (1) and/or output (4) is polled for: the call returns nothing but what was polled for. If nothing is returned, either the input has been hung up, or the
call was interrupted; other than that, there is some event. -/
theorem poll_result (a : Arch) (s s' : St) (i o r : Nat) (hi : i = 0 ∨ i = POLLIN) (ho : o = 0 ∨ o = POLLOUT)
    (hs : call a (.poll i o) s = .ok r s') :
    (r = 0 ∨ (r = POLLIN ∧ i = POLLIN) ∨ (r = POLLOUT ∧ o = POLLOUT) ∨ (r = POLLIN + POLLOUT ∧ i = POLLIN ∧ o = POLLOUT)) ∧
    (r = 0 → (∃ e, (e = EAGAIN ∨ e = EINTR) ∧ s.kern = .err e :: s'.kern) ∨ ∃ x y, x.testBit 4 = true ∧ s.kern = .poll x y :: s'.kern) ∧
    (r ≠ 0 → ∃ x y, s.kern = .poll x y :: s'.kern ∧ r = x + y) := by
  simp only [call, rtPoll] at hs
  cases hk : s.kern with
  | nil => rw [hk] at hs; cases hs
  | cons q k =>
    rw [hk] at hs
    cases q with
    | err e =>
      simp only at hs
      split at hs
      · rename_i he; cases hs; exact ⟨.inl rfl, fun _ => .inl ⟨e, he, rfl⟩, fun h => absurd rfl h⟩
      · simp [exit] at hs
    | poll x y =>
      simp only at hs
      split at hs
      · cases hs
      · rename_i hv
        obtain ⟨v1, v2, v3⟩ := Decidable.not_not.mp hv
        split at hs
        · rename_i hh
          cases hs
          refine ⟨.inl rfl, fun _ => .inr ⟨x, y, ?_, rfl⟩, fun h => absurd rfl h⟩
          -- POLLRDHUP isn't reported unless it was asked for.
          obtain ⟨b, hb⟩ := Nat.exists_testBit_of_ne_zero hh
          rw [Nat.testBit_and, Bool.and_eq_true] at hb
          have h1 := sub_or _ _ v1 b hb.1
          have h2 : b < 14 := by
            apply Decidable.byContradiction
            intro hc
            have : pollHup < 2 ^ b := Nat.lt_of_lt_of_le (by decide) (Nat.pow_le_pow_right (by decide) (Nat.le_of_not_lt hc))
            rw [Nat.testBit_lt_two_pow this] at hb
            exact absurd hb.2 (by decide)
          have h3 : b = 4 := by
            have h4 := hb.2
            clear hb v1 v2 v3 hv hh hk
            rcases hi with hi | hi <;> subst hi
            · revert h1 h4; revert b; decide
            · revert h1 h4; revert b; decide
          rw [← h3]
          exact hb.1
        · split at hs
          · simp [exit] at hs
          · split at hs
            · simp [exit] at hs
            · rename_i nh n1 n2
              cases hs
              have n1 : x ||| POLLIN = POLLIN := Decidable.not_not.mp n1
              have n2 : y ||| POLLOUT = POLLOUT := Decidable.not_not.mp n2
              have hx : x ≤ 1 := by have := Nat.left_le_or (n := x) (m := POLLIN); rw [n1] at this; exact this
              have hy : y ≤ 4 := by have := Nat.left_le_or (n := y) (m := POLLOUT); rw [n2] at this; exact this
              have hx' : x = 0 ∨ x = 1 := by omega
              have hy' : y = 0 ∨ y = 1 ∨ y = 2 ∨ y = 3 ∨ y = 4 := by omega
              clear hk hv nh
              rcases hx' with rfl | rfl <;> rcases hy' with rfl | rfl | rfl | rfl | rfl <;> rcases hi with rfl | rfl <;> rcases ho with rfl | rfl <;>
                simp_all [PollResp, POLLIN, POLLOUT] <;> exact ⟨_, _, ⟨rfl, rfl⟩, rfl⟩
    | got b => cases hs
    | wrote m => cases hs
    | done => cases hs

/-- If the other end of the output is gone, polling for anything ends the process, and that is reported as an internal error. -/
theorem poll_output_closed (a : Arch) (s : St) (i o x y : Nat) (k : List Resp) (hk : s.kern = .poll x y :: k) (h1 : PollResp i x) (h2 : PollResp o y) (hx : x = 0 ∨ x = 1)
    (hy : y.testBit 3 = true) :
    call a (.poll i o) s = .exit 10 { s with kern := k } ∧ Process.serve .ok (some (Process.exitWait 10)) false = ⟨0, Process.trapInternalError, some (.process 10)⟩ := by
  refine ⟨?_, by decide⟩
  have hne : y ≠ 0 := by intro h; subst h; simp at hy
  have h4 : y ||| POLLOUT ≠ POLLOUT := by
    intro h
    have := sub_or _ _ h 3 hy
    revert this; decide
  simp only [call, rtPoll, hk]
  rw [if_neg (by simp [h1, h2, hne]), if_neg (by rcases hx with rfl | rfl <;> decide), if_neg (by rcases hx with rfl | rfl <;> decide), if_pos h4]
  rfl

/-! ### The hypotheses can be met -/

/-- A process with one page of memory, which can grow to three. -/
def exInfo : Info where
  heapAddr := Process.minHeap + 0x123456000
  globalsSize := 4096
  initMemorySize := 65536
  growMemorySize := 196608
  random := List.replicate 16 7

theorem exInfo_valid : exInfo.Valid :=
  ⟨by decide, by decide, by decide, by decide, by decide, by decide, by decide⟩

/-- It grows, and a partial debug write is then possible. -/
example (a : Arch) : ∃ s, Reach a exInfo s ∧ s.pages = 2 ∧ s.kern = [.wrote 2, .wrote 3] ∧ 65530 + 5 ≤ s.pages * 65536 := by
  obtain ⟨s', h1, h2, _⟩ := (grow_works a exInfo exInfo_valid _ (.load (fun _ => 0) (fun _ => false) [.done, .wrote 2, .wrote 3]) 1 (by decide)
    (by decide) (by decide)).2 _ rfl
  have hr : Reach a exInfo s' := .call (.growMemory 1) _ (.load (fun _ => 0) (fun _ => false) [.done, .wrote 2, .wrote 3]) (by show 1 < w32; decide) h1
  refine ⟨s', hr, h2, ?_, by rw [h2]; decide⟩
  have e := grow_eq a _ (load_inv exInfo exInfo_valid (fun _ => 0) (fun _ => false) [.done, .wrote 2, .wrote 3]) 1 (by decide)
  rw [if_neg (by decide), if_neg (by decide)] at e
  rw [e] at h1
  simp only [load] at h1
  cases h1
  rfl

/-- On aarch64 this ordinary history of a process ends with a trap: five bytes are written to the debug output, which takes two of them first. -/
theorem debug_arm_trap_refuted : ∃ s, Reach .arm exInfo s ∧ (∃ s', call .arm (.debug 100 5) s = .exit 105 s') ∧
    ∃ s0, Reach .x86 exInfo s0 ∧ s0 = s ∧ ∃ s', call .x86 (.debug 100 5) s = .ok 0 s' ∧ s'.dbg = [9, 9, 9, 9, 9] := by
  refine ⟨load exInfo (fun _ => 9) (fun _ => false) [.wrote 2, .wrote 3], .load _ _ _, ?_, _, .load _ _ _, rfl, ?_⟩
  · exact (debug_arm_refuted exInfo exInfo_valid _ (.load _ _ _) 100 5 2 (by decide) (by decide) (by decide) (by decide) (by decide) _ rfl).1 (by decide)
  · exact ⟨_, rfl, by decide⟩

end Gate.Rt
