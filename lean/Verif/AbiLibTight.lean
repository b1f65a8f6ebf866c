import Verif.AbiLibMisc
/-
Exact statements about the library which automatically generated wrong programs asked for (seeded/LOG.jsonl).
-/

namespace Gate.AbiLib
open Gate.Rt

/-- C132: the descriptor for communication is 4, and asking for it has no effect. -/
theorem fd_is_4 (a : Arch) (rtTime : Nat → M Nat) (s : St) : libCall a rtTime .fd s = .ok 4 s := rfl

/-- C132: what fd_filestat_get stores for a valid descriptor: everything which it stores is zero. -/
theorem fd_filestat_exact (a : Arch) (rtTime : Nat → M Nat) (s s' : St) (fd buf : Nat) (hf : badFd fd = false)
    (h : libCall a rtTime (.fdFilestatGet fd buf) s = .ok 0 s') :
    peek s' 8 (buf + 0) = 0 ∧ peek s' 8 (buf + 8) = 0 ∧ peek s' 1 (buf + 16) = 0 ∧ peek s' 4 (buf + 20) = 0 ∧ peek s' 4 (buf + 24) = 0 ∧
    peek s' 8 (buf + 32) = 0 ∧ peek s' 8 (buf + 40) = 0 ∧ peek s' 8 (buf + 48) = 0 := by
  simp only [libCall, fdFilestatGet, hf] at h
  rw [if_neg (by decide)] at h
  obtain ⟨_, s1, g1, h⟩ := bind_ok _ _ _ _ _ h
  obtain ⟨_, s2, g2, h⟩ := bind_ok _ _ _ _ _ h
  obtain ⟨_, s3, g3, h⟩ := bind_ok _ _ _ _ _ h
  obtain ⟨_, s4, g4, h⟩ := bind_ok _ _ _ _ _ h
  obtain ⟨_, s5, g5, h⟩ := bind_ok _ _ _ _ _ h
  obtain ⟨_, s6, g6, h⟩ := bind_ok _ _ _ _ _ h
  obtain ⟨_, s7, g7, h⟩ := bind_ok _ _ _ _ _ h
  obtain ⟨_, s8, g8, h⟩ := bind_ok _ _ _ _ _ h
  rw [(pure_ok _ _ _ _ h).2]
  have c2 := (changed_st _ _ _ _ _ _ g2).1
  have c3 := (changed_st _ _ _ _ _ _ g3).1
  have c4 := (changed_st _ _ _ _ _ _ g4).1
  have c5 := (changed_st _ _ _ _ _ _ g5).1
  have c6 := (changed_st _ _ _ _ _ _ g6).1
  have c7 := (changed_st _ _ _ _ _ _ g7).1
  have c8 := (changed_st _ _ _ _ _ _ g8).1
  refine ⟨?_, ?_, ?_, ?_, ?_, ?_, ?_, ?_⟩
  · rw [c8.peek 8 _ (by omega), c7.peek 8 _ (by omega), c6.peek 8 _ (by omega), c5.peek 8 _ (by omega), c4.peek 8 _ (by omega), c3.peek 8 _ (by omega), c2.peek 8 _ (by omega), peek_st _ _ _ _ _ _ g1]
  · rw [c8.peek 8 _ (by omega), c7.peek 8 _ (by omega), c6.peek 8 _ (by omega), c5.peek 8 _ (by omega), c4.peek 8 _ (by omega), c3.peek 8 _ (by omega), peek_st _ _ _ _ _ _ g2]
  · rw [c8.peek 1 _ (by omega), c7.peek 1 _ (by omega), c6.peek 1 _ (by omega), c5.peek 1 _ (by omega), c4.peek 1 _ (by omega), peek_st _ _ _ _ _ _ g3]
  · rw [c8.peek 4 _ (by omega), c7.peek 4 _ (by omega), c6.peek 4 _ (by omega), c5.peek 4 _ (by omega), peek_st _ _ _ _ _ _ g4]
  · rw [c8.peek 4 _ (by omega), c7.peek 4 _ (by omega), c6.peek 4 _ (by omega), peek_st _ _ _ _ _ _ g5]
  · rw [c8.peek 8 _ (by omega), c7.peek 8 _ (by omega), peek_st _ _ _ _ _ _ g6]
  · rw [c8.peek 8 _ (by omega), peek_st _ _ _ _ _ _ g7]
  · rw [peek_st _ _ _ _ _ _ g8]

end Gate.AbiLib
