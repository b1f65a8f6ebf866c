import Verif.AbiLibMisc
/-
C132: descriptors' rights, and the rest of the functions which only look at a descriptor.
-/
namespace Gate.AbiLib
open Gate Gate.ImageFile Gate.Rt

/-- Specification: the rights of the four descriptors: fd_read is 2, fd_write is 64.  Nothing can be done with
standard input, standard output and error can be written, and the gate descriptor can be read and
written. -/
def rightsOf (fd : Nat) : Nat := if fd = 0 then 0 else if fd = 4 then 2 + 64 else 64

theorem good_cases {fd : Nat} (h : badFd fd = false) : fd = 0 ∨ fd = 1 ∨ fd = 2 ∨ fd = 4 := by
  unfold badFd at h
  simp only [Bool.or_eq_false_iff, beq_eq_false_iff_ne, decide_eq_false_iff_not] at h
  omega

/-- No bits but those of 2 and 64. -/
theorem subset_66 (b : Nat) (hb : b < 2 ^ 64) : b &&& 0xffffffffffffffbd = 0 ↔ b = 0 ∨ b = 2 ∨ b = 64 ∨ b = 66 := by
  constructor
  · intro h
    have hbit : ∀ i, b.testBit i = true → i = 1 ∨ i = 6 := by
      intro i hi
      have h1 : (b &&& 0xffffffffffffffbd).testBit i = false := by rw [h]; simp
      rw [Nat.testBit_and, hi, Bool.true_and] at h1
      have hi64 : i < 64 := by
        by_cases hc : i < 64
        · exact hc
        · rw [Nat.testBit_lt_two_pow (Nat.lt_of_lt_of_le hb (Nat.pow_le_pow_right (by omega) (by omega)))] at hi
          cases hi
      have : ∀ i : Fin 64, Nat.testBit 0xffffffffffffffbd i = false → i.1 = 1 ∨ i.1 = 6 := by decide
      exact this ⟨i, hi64⟩ h1
    have e : b = (if b.testBit 1 then 2 else 0) + (if b.testBit 6 then 64 else 0) := by
      apply Nat.eq_of_testBit_eq
      intro i
      by_cases c1 : i = 1
      · subst c1
        cases g1 : b.testBit 1 <;> cases g6 : b.testBit 6 <;> decide
      by_cases c6 : i = 6
      · subst c6
        cases g1 : b.testBit 1 <;> cases g6 : b.testBit 6 <;> decide
      · have hf : b.testBit i = false := by
          cases g : b.testBit i
          · rfl
          · rcases hbit i g with h | h <;> omega
        rw [hf]
        symm
        have hs : ∀ n, n = 0 ∨ n = 2 ∨ n = 64 ∨ n = 66 → Nat.testBit n i = false := by
          intro n hn
          have small : ∀ i : Fin 7, i.1 ≠ 1 → i.1 ≠ 6 → Nat.testBit 0 i = false ∧ Nat.testBit 2 i = false ∧ Nat.testBit 64 i = false ∧ Nat.testBit 66 i = false := by decide
          by_cases hi : i < 7
          · obtain ⟨s0, s2, s64, s66⟩ := small ⟨i, hi⟩ c1 c6
            rcases hn with rfl | rfl | rfl | rfl <;> assumption
          · have h7 : 2 ^ 7 ≤ 2 ^ i := Nat.pow_le_pow_right (by omega) (by omega)
            exact Nat.testBit_lt_two_pow (by omega)
        apply hs
        cases b.testBit 1 <;> cases b.testBit 6 <;> simp
    rw [e]
    cases b.testBit 1 <;> cases b.testBit 6 <;> simp
  · rintro (rfl | rfl | rfl | rfl) <;> decide

/-- fd_fdstat_set_rights: the rights can be set to what they are; nothing can be added (ENOTCAPABLE);
and taking something away isn't supported: the program is stopped with the code of a deficiency.
It changes nothing. -/
theorem set_rights (a : Arch) (rtTime : Nat → M Nat) (s : St) (fd base inh : Nat) (hf : badFd fd = false) (hb : base < 2 ^ 64) :
    (inh = 0 ∧ base = rightsOf fd ∧ libCall a rtTime (.fdFdstatSetRights fd base inh) s = .ok 0 s) ∨
    ((inh ≠ 0 ∨ base ||| rightsOf fd ≠ rightsOf fd) ∧ libCall a rtTime (.fdFdstatSetRights fd base inh) s = .ok 76 s) ∨
    (inh = 0 ∧ base ≠ rightsOf fd ∧ base ||| rightsOf fd = rightsOf fd ∧ libCall a rtTime (.fdFdstatSetRights fd base inh) s = .exit 127 s) := by
  have e : libCall a rtTime (.fdFdstatSetRights fd base inh) s = fdFdstatSetRights fd base inh s := rfl
  rw [e]
  unfold fdFdstatSetRights
  rw [hf, if_neg (by decide)]
  by_cases hi : inh = 0
  case neg => exact .inr (.inl ⟨.inl hi, by rw [if_pos hi]; rfl⟩)
  rw [if_neg (by omega)]
  have or40 : base ||| 64 = 64 ↔ base = 0 ∨ base = 64 := by
    constructor
    · intro h
      have : base ≤ 64 := by rw [← h]; exact Nat.left_le_or
      have f : ∀ b : Fin 65, b.1 ||| 64 = 64 → b.1 = 0 ∨ b.1 = 64 := by decide
      exact f ⟨base, by omega⟩ h
    · rintro (rfl | rfl) <;> decide
  have or42 : base ||| 66 = 66 ↔ base = 0 ∨ base = 2 ∨ base = 64 ∨ base = 66 := by
    constructor
    · intro h
      have : base ≤ 66 := by rw [← h]; exact Nat.left_le_or
      have f : ∀ b : Fin 67, b.1 ||| 66 = 66 → b.1 = 0 ∨ b.1 = 2 ∨ b.1 = 64 ∨ b.1 = 66 := by decide
      exact f ⟨base, by omega⟩ h
    · rintro (rfl | rfl | rfl | rfl) <;> decide
  rcases good_cases hf with rfl | rfl | rfl | rfl
  · by_cases h0 : base = 0
    · exact .inl ⟨hi, h0, by rw [if_pos rfl, if_pos h0]; rfl⟩
    · exact .inr (.inl ⟨.inr (by simpa [rightsOf] using h0), by rw [if_pos rfl, if_neg h0]; rfl⟩)
  all_goals rw [if_neg (by decide)]
  · by_cases h1 : base = 64
    · exact .inl ⟨hi, h1, by rw [if_pos ⟨by decide, h1⟩]; rfl⟩
    rw [if_neg (by omega)]
    by_cases h0 : base = 0
    · exact .inr (.inr ⟨hi, h1, or40.2 (.inl h0), by rw [if_neg (by omega), if_neg (by omega), if_neg (by omega)]; rfl⟩)
    · exact .inr (.inl ⟨.inr (fun h => by have := or40.1 h; omega), by rw [if_pos ⟨by decide, h0⟩]; rfl⟩)
  · by_cases h1 : base = 64
    · exact .inl ⟨hi, h1, by rw [if_pos ⟨by decide, h1⟩]; rfl⟩
    rw [if_neg (by omega)]
    by_cases h0 : base = 0
    · exact .inr (.inr ⟨hi, h1, or40.2 (.inl h0), by rw [if_neg (by omega), if_neg (by omega), if_neg (by omega)]; rfl⟩)
    · exact .inr (.inl ⟨.inr (fun h => by have := or40.1 h; omega), by rw [if_pos ⟨by decide, h0⟩]; rfl⟩)
  · rw [if_neg (by omega), if_neg (by omega)]
    by_cases h1 : base = 66
    · exact .inl ⟨hi, h1, by rw [if_pos ⟨rfl, h1⟩]; rfl⟩
    rw [if_neg (by omega)]
    by_cases h0 : base &&& 0xffffffffffffffbd = 0
    · exact .inr (.inr ⟨hi, h1, or42.2 ((subset_66 _ hb).1 h0), by rw [if_neg (fun h => h.2 h0)]; rfl⟩)
    · exact .inr (.inl ⟨.inr (fun h => h0 ((subset_66 _ hb).2 (or42.1 h))), by rw [if_pos ⟨rfl, h0⟩]; rfl⟩)

/-- fd_fdstat_get reports those rights: the file type is unknown (0), the flags say nonblocking (4)
for the gate descriptor and nothing for the others, and nothing is inherited.  Offset 1 and those
from 4 to 7 are left as they were (they are padding); nothing outside of the 24 bytes changes. -/
theorem fdstat_get (a : Arch) (rtTime : Nat → M Nat) (s s' : St) (fd buf r : Nat) (hf : badFd fd = false)
    (h : libCall a rtTime (.fdFdstatGet fd buf) s = .ok r s') :
    r = 0 ∧ peek s' 1 buf = 0 ∧ peek s' 2 (buf + 2) = (if fd = 4 then 4 else 0) ∧ peek s' 8 (buf + 8) = rightsOf fd ∧
    peek s' 8 (buf + 16) = 0 ∧ Changed s s' buf (buf + 24) := by
  simp only [libCall, fdFdstatGet, hf] at h
  rw [if_neg (by decide)] at h
  obtain ⟨_, s1, g1, h⟩ := bind_ok _ _ _ _ _ h
  obtain ⟨_, s2, g2, h⟩ := bind_ok _ _ _ _ _ h
  obtain ⟨_, s3, g3, h⟩ := bind_ok _ _ _ _ _ h
  obtain ⟨_, s4, g4, h⟩ := bind_ok _ _ _ _ _ h
  obtain ⟨e1, e2⟩ := pure_ok _ _ _ _ h
  subst e2
  have c1 := (changed_st _ _ _ _ _ _ g1).1
  have c2 := (changed_st _ _ _ _ _ _ g2).1
  have c3 := (changed_st _ _ _ _ _ _ g3).1
  have c4 := (changed_st _ _ _ _ _ _ g4).1
  refine ⟨e1, ?_, ?_, ?_, ?_, ?_⟩
  · rw [c4.peek _ _ (by omega), c3.peek _ _ (by omega), c2.peek _ _ (by omega)]; exact peek_st _ _ _ _ _ _ g1
  · rw [c4.peek _ _ (by omega), c3.peek _ _ (by omega), peek_st _ _ _ _ _ _ g2]
    rcases good_cases hf with rfl | rfl | rfl | rfl <;> decide
  · rw [c4.peek _ _ (by omega), peek_st _ _ _ _ _ _ g3]
    rcases good_cases hf with rfl | rfl | rfl | rfl <;> decide
  · exact peek_st _ _ _ _ _ _ g4
  · have b1 := c1.base
    have b2 := c2.base
    have b3 := c3.base
    refine ⟨by rw [c4.eq, c3.eq, c2.eq, c1.eq], fun x hx => ?_⟩
    rw [← c1.same x (by omega), ← b1, ← c2.same x (by omega), ← b2, ← c3.same x (by omega), ← b3]
    exact c4.same x (by omega)

/-- The rest of the functions which only look at a good descriptor: flags can't be changed (EPERM),
descriptors can't be closed, and they can be renumbered only to themselves: otherwise the program
is stopped.  They aren't seekable files (ESPIPE) or sockets (ENOTSOCK). -/
theorem fixed_descriptors (a : Arch) (rtTime : Nat → M Nat) (s : St) (fd x : Nat) (hf : badFd fd = false) :
    libCall a rtTime (.fdClose fd) s = .exit 127 s ∧
    libCall a rtTime (.fdFdstatSetFlags fd x) s = .ok 63 s ∧
    libCall a rtTime (.fdStub fd) s = .ok 70 s ∧
    libCall a rtTime (.sockStub fd) s = .ok 57 s ∧
    (badFd x = false → libCall a rtTime (.fdRenumber fd x) s = if fd = x then .ok 0 s else .exit 127 s) := by
  refine ⟨?_, ?_, ?_, ?_, ?_⟩
  · simp only [libCall, fdClose, hf]; rfl
  · simp only [libCall, fdFdstatSetFlags, hf]; rfl
  · simp only [libCall, fdStub, hf]; rfl
  · simp only [libCall, sockStub, hf]; rfl
  · intro hx
    simp only [libCall, fdRenumber, hf, hx]
    by_cases e : fd = x
    · rw [if_pos e]; simp only [e]; rfl
    · rw [if_neg e]; simp only [if_neg e]; rfl

/-- Reading from standard input isn't permitted, and from standard output or error isn't possible;
writing to standard input isn't possible. -/
theorem wrong_direction (a : Arch) (rtTime : Nat → M Nat) (s : St) (x y z : Nat) :
    libCall a rtTime (.fdRead 0 x y z) s = .ok 63 s ∧ libCall a rtTime (.fdRead 1 x y z) s = .ok 28 s ∧
    libCall a rtTime (.fdRead 2 x y z) s = .ok 28 s ∧ libCall a rtTime (.fdWrite 0 x y z) s = .ok 28 s :=
  ⟨rfl, rfl, rfl, rfl⟩

example (a : Arch) : ∃ s, LReach a exTime exInfo s ∧ libCall a exTime (.fdFdstatSetRights 4 66 0) s = .ok 0 s ∧
    libCall a exTime (.fdFdstatSetRights 4 64 0) s = .exit 127 s ∧ libCall a exTime (.fdFdstatSetRights 1 2 0) s = .ok 76 s :=
  ⟨exSt exVec [], exSt_reach _ _ _, rfl, rfl, rfl⟩

example (a : Arch) : ∃ s, LReach a exTime exInfo s ∧ ∃ s', libCall a exTime (.fdFdstatGet 4 100) s = .ok 0 s' ∧ (decide (peek s' 8 108 = 66)) = true :=
  ⟨exSt exVec [], exSt_reach _ _ _, of_returns _ _ _ (by cases a <;> decide +kernel)⟩

end Gate.AbiLib
