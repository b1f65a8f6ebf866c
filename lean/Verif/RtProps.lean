import Verif.Rt
/-
C91: the runtime accesses only the program's memory for the program.
C92: growing the memory.
C93: the debug output is what the program wrote.
C94: random bytes.
C95: polling.
-/
namespace Gate.Rt
open Gate Gate.ImageFile

/-- What is true of the state of a process. -/
structure Inv (s : St) : Prop where
  base : s.base + 8589934592 ≤ half64
  limit : s.limit ≤ 65535
  pages : s.pages ≤ s.limit
  acc : ∀ x, s.base ≤ x → x < s.base + s.limit * 65536 → (s.acc x = true ↔ x < s.base + s.pages * 65536)
  avail : s.randomAvail ≤ 16

theorem slt_small (a b : Nat) (ha : a < half64) (hb : b < half64) : slt a b = decide (a < b) := by
  unfold slt
  rw [Nat.mod_eq_of_lt (by simp only [half64, w64] at *; omega), Nat.mod_eq_of_lt (by simp only [half64, w64] at *; omega)]
  simp only [decide_eq_decide]
  omega

/-- The check is exact: for every address and length, the system call is made for exactly the buffer if it is in the memory, and not made otherwise. -/
theorem prologue_exact (a : Arch) (s : St) (h : Inv s) (addr len : Nat) (ha : addr < w32) (hl : len < w32) :
    prologue a s addr len = if len = 0 then .nop else if addr + len ≤ s.pages * 65536 then .io (s.base + addr) len else .oob := by
  have hb := h.base
  have hp := h.pages
  have hm := h.limit
  simp only [w32, half64] at *
  have e1 : (addr + s.base) % w64 = s.base + addr := by rw [Nat.mod_eq_of_lt (by simp only [w64]; omega)]; omega
  have e2 : (s.base + addr + len) % w64 = s.base + addr + len := by rw [Nat.mod_eq_of_lt (by simp only [w64]; omega)]
  have e3 : (match a with | .x86 => s.pages * 65536 % w32 | .arm => s.pages * 65536 % w64) = s.pages * 65536 := by
    cases a
    · show _ % w32 = _; rw [Nat.mod_eq_of_lt (by simp only [w32]; omega)]
    · show _ % w64 = _; rw [Nat.mod_eq_of_lt (by simp only [w64]; omega)]
  have e4 : (s.pages * 65536 + s.base) % w64 = s.base + s.pages * 65536 := by rw [Nat.mod_eq_of_lt (by simp only [w64]; omega)]; omega
  have key : prologue a s addr len = if len = 0 then .nop else if slt (s.base + s.pages * 65536) (s.base + addr + len) then .oob
      else if slt (s.base + addr + len) (s.base + addr) then .oob else .io (s.base + addr) len := by
    cases a <;> simp only [prologue] <;> simp only at e3 <;> rw [e3, e4, e1, e2]
  rw [key, slt_small _ _ (by simp only [half64]; omega) (by simp only [half64]; omega), slt_small _ _ (by simp only [half64]; omega) (by simp only [half64]; omega)]
  by_cases h0 : len = 0
  · rw [if_pos h0, if_pos h0]
  · rw [if_neg h0, if_neg h0]
    by_cases h1 : addr + len ≤ s.pages * 65536
    · rw [if_pos h1, if_neg (by simp only [decide_eq_true_eq]; omega), if_neg (by simp only [decide_eq_true_eq]; omega)]
    · rw [if_neg h1, if_pos (by simp only [decide_eq_true_eq]; omega)]

/-- The address is in the program's memory. -/
def InMemory (s : St) (x : Nat) : Prop := s.base ≤ x ∧ x < s.base + s.pages * 65536

/-- The state after a call, however it ended. -/
def Out.st {α : Type} : Out α → St
  | .ok _ s => s
  | .exit _ s => s
  | .wait s => s

/-- What is fixed during a process. -/
structure Same (s s' : St) : Prop where
  base : s'.base = s.base
  limit : s'.limit = s.limit
  random : s'.random = s.random

theorem Same.refl (s : St) : Same s s := ⟨rfl, rfl, rfl⟩

theorem debug_frame (a : Arch) (k : List Resp) (s : St) (addr len : Nat) :
    ∃ d r, (debugLoop a s addr len k).st = { s with dbg := s.dbg ++ d, kern := r } := by
  induction k generalizing s addr len with
  | nil =>
    unfold debugLoop
    split <;> exact ⟨[], [], by simp [Out.st]⟩
  | cons r k ih =>
    unfold debugLoop
    split
    · exact ⟨[], r :: k, by simp [Out.st]⟩
    · exact ⟨[], r :: k, by simp [Out.st]⟩
    · rename_i start n _
      split
      · rename_i m
        split
        · simp only
          split
          · exact ⟨read s.space start m, k, by simp [Out.st]⟩
          · split
            · exact ⟨read s.space start m, k, by simp [Out.st]⟩
            · have step : ∀ x, ∃ d r, (debugLoop a { s with dbg := s.dbg ++ read s.space start m } x (len - m) k).st = { s with dbg := s.dbg ++ d, kern := r } := by
                intro x
                obtain ⟨d, q, hd⟩ := ih { s with dbg := s.dbg ++ read s.space start m } x (len - m)
                exact ⟨read s.space start m ++ d, q, by rw [hd]; simp⟩
              exact step _
        · exact ⟨[], .wrote m :: k, by simp [Out.st]⟩
      · split
        · exact ih s addr len
        · exact ⟨[], k, by simp [Out.st]⟩
      · exact ⟨[], r :: k, by simp [Out.st]⟩

/-- Every call keeps what is true of the state, and changes no memory other than the program's. -/
theorem call_inv (a : Arch) (s : St) (h : Inv s) (c : Call) (hc : c.Valid) :
    Inv (call a c s).st ∧ Same s (call a c s).st ∧ ∀ x, ¬ InMemory s x → (call a c s).st.space x = s.space x := by
  have triv : ∀ s' : St, s'.base = s.base → s'.limit = s.limit → s'.random = s.random → s'.pages = s.pages → s'.acc = s.acc → s'.randomAvail = s.randomAvail → s'.space = s.space →
      Inv s' ∧ Same s s' ∧ ∀ x, ¬ InMemory s x → s'.space x = s.space x := by
    intro s' h1 h2 h3 h4 h5 h6 h7
    exact ⟨⟨by rw [h1]; exact h.base, by rw [h2]; exact h.limit, by rw [h4, h2]; exact h.pages, by rw [h1, h2, h4, h5]; exact h.acc, by rw [h6]; exact h.avail⟩,
      ⟨h1, h2, h3⟩, fun x _ => by rw [h7]⟩
  have hp := h.pages
  have hm := h.limit
  have hb := h.base
  cases c with
  | read addr len =>
    simp only [call, rtRead, prologue_exact a s h addr len hc.1 hc.2]
    by_cases h0 : len = 0
    · simp only [if_pos h0]; exact triv _ rfl rfl rfl rfl rfl rfl rfl
    · simp only [if_neg h0]
      by_cases h1 : addr + len ≤ s.pages * 65536
      · simp only [if_pos h1]
        split
        · split
          · rename_i b k _ hbl
            refine ⟨⟨h.base, h.limit, h.pages, h.acc, h.avail⟩, ⟨rfl, rfl, rfl⟩, fun x hx => ?_⟩
            simp only [Out.st, ImageFile.write]
            rw [if_neg]
            unfold InMemory at hx
            omega
          · exact triv _ rfl rfl rfl rfl rfl rfl rfl
        · split <;> exact triv _ rfl rfl rfl rfl rfl rfl rfl
        · exact triv _ rfl rfl rfl rfl rfl rfl rfl
      · simp only [if_neg h1]; exact triv _ rfl rfl rfl rfl rfl rfl rfl
  | write addr len =>
    simp only [call, rtWrite, prologue_exact a s h addr len hc.1 hc.2]
    by_cases h0 : len = 0
    · simp only [if_pos h0]; exact triv _ rfl rfl rfl rfl rfl rfl rfl
    · simp only [if_neg h0]
      by_cases h1 : addr + len ≤ s.pages * 65536
      · simp only [if_pos h1]
        split
        · split
          · split <;> exact triv _ rfl rfl rfl rfl rfl rfl rfl
          · exact triv _ rfl rfl rfl rfl rfl rfl rfl
        · split <;> exact triv _ rfl rfl rfl rfl rfl rfl rfl
        · exact triv _ rfl rfl rfl rfl rfl rfl rfl
      · simp only [if_neg h1]; exact triv _ rfl rfl rfl rfl rfl rfl rfl
  | debug addr len =>
    obtain ⟨d, r, hd⟩ := debug_frame a s.kern s addr len
    have : (call a (.debug addr len) s).st = { s with dbg := s.dbg ++ d, kern := r } := by
      rw [← hd]
      simp only [call, rtDebug]
      cases debugLoop a s addr len s.kern <;> rfl
    rw [this]
    exact triv _ rfl rfl rfl rfl rfl rfl rfl
  | poll i o =>
    simp only [call, rtPoll]
    repeat' split
    all_goals exact triv _ rfl rfl rfl rfl rfl rfl rfl
  | random =>
    simp only [call, rtRandom]
    split
    · exact triv _ rfl rfl rfl rfl rfl rfl rfl
    · exact ⟨⟨h.base, h.limit, h.pages, h.acc, by have := h.avail; simp only [Out.st]; omega⟩, ⟨rfl, rfl, rfl⟩, fun x _ => rfl⟩
  | stop n => exact triv _ rfl rfl rfl rfl rfl rfl rfl
  | currentMemory => exact triv _ rfl rfl rfl rfl rfl rfl rfl
  | growMemory inc =>
    have hc : inc < w32 := hc
    simp only [w32, half64] at *
    have e1 : (inc + s.pages) % w64 = inc + s.pages := Nat.mod_eq_of_lt (by simp only [w64]; omega)
    have e2 : (s.pages * 65536 + s.base) % w64 = s.base + s.pages * 65536 := by rw [Nat.mod_eq_of_lt (by simp only [w64]; omega)]; omega
    have e3 : inc * 65536 % w64 = inc * 65536 := Nat.mod_eq_of_lt (by simp only [w64]; omega)
    simp only [call, growMemory, e1, e2, e3]
    rw [slt_small _ _ (by simp only [half64]; omega) (by simp only [half64]; omega)]
    simp only [decide_eq_true_eq]
    split
    · exact triv _ rfl rfl rfl rfl rfl rfl rfl
    · rename_i hle
      have e4 : (inc + s.pages) % w32 = inc + s.pages := Nat.mod_eq_of_lt (by simp only [w32]; omega)
      split
      · rename_i hz
        refine triv _ rfl rfl rfl ?_ rfl rfl rfl
        show (inc + s.pages) % w32 = _
        rw [e4]
        omega
      · split
        · refine ⟨⟨h.base, h.limit, ?_, fun x h1 h2 => ?_, h.avail⟩, ⟨rfl, rfl, rfl⟩, fun x _ => rfl⟩
          · show (inc + s.pages) % w32 ≤ s.limit
            rw [e4]; omega
          · have := h.acc x h1 h2
            simp only [Out.st] at *
            rw [e4]
            by_cases hx : s.base + s.pages * 65536 ≤ x ∧ x < s.base + s.pages * 65536 + inc * 65536
            · rw [if_pos hx]
              refine ⟨fun _ => ?_, fun _ => rfl⟩
              have h3 := hx.2
              clear e1 e2 e3 e4 this hb h2 hx
              omega
            · rw [if_neg hx, this]
              clear e1 e2 e3 e4 this hb
              omega
        · cases a
          · exact triv _ rfl rfl rfl rfl rfl rfl rfl
          · exact triv _ rfl rfl rfl rfl rfl rfl rfl
        · exact triv _ rfl rfl rfl rfl rfl rfl rfl

end Gate.Rt
