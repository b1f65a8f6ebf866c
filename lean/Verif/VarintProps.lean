import Verif.Varint
/-
C04: varint encoding is exact and self-delimiting.
-/
namespace Gate.Varint
open Gate

/-- C04 (round trip).  Putting any non-negative 31-bit integer at the head of a
sufficiently long buffer stores some bytes such that scanning them, followed by
arbitrary further bytes, returns that integer and exactly the further bytes. -/
theorem scan_put (v : Nat) (hv : v ≤ 2 ^ 31 - 1) (dest tail : Bytes) (hd : 5 ≤ dest.length) :
    ∃ written rest, put dest (v : Int) = .ok (written, rest) ∧
      written.length + rest.length = dest.length ∧
      rest = dest.drop written.length ∧
      scan (written ++ tail) = .ok (v, tail) := by
  have hu : toUnsigned 64 (v : Int) = v := toUnsigned_ofNat (by omega)
  have hl : (uvarintBytes v).length ≤ 5 := uvarintBytes_length_le 4 v (by omega)
  refine ⟨uvarintBytes v, dest.drop (uvarintBytes v).length, ?_, ?_, rfl, ?_⟩
  · simp only [put, hu]; rw [if_pos (by omega)]
  · simp; omega
  · have h := uvarintLoop_bytes v 0 0 tail (by omega) (by omega)
    simp only [Nat.pow_zero, Nat.mul_one, Nat.zero_add] at h
    unfold scan
    rw [h]
    have hm : ¬ v > maxInt32 := by unfold maxInt32; omega
    simp [hm]

/-- C04 (announced length).  The announced length of a non-negative 31-bit
integer is the number of bytes `put` stores, between one and five, for every
destination long enough; a shorter destination panics. -/
theorem len_put (v : Nat) (hv : v ≤ 2 ^ 31 - 1) :
    ∃ n, len (v : Int) = .ok n ∧ 1 ≤ n ∧ n ≤ 5 ∧
      (∀ dest : Bytes, n ≤ dest.length →
        ∃ written, put dest (v : Int) = .ok (written, dest.drop n) ∧ written.length = n) ∧
      (∀ dest : Bytes, dest.length < n → put dest (v : Int) = .panic) := by
  have hu : toUnsigned 64 (v : Int) = v := toUnsigned_ofNat (by omega)
  have hl : (uvarintBytes v).length ≤ 5 := uvarintBytes_length_le 4 v (by omega)
  refine ⟨(uvarintBytes v).length, ?_, uvarintBytes_length_pos v, hl, ?_, ?_⟩
  · simp [len, hu, hl]
  · intro dest hd
    exact ⟨uvarintBytes v, by simp [put, hu, hd], rfl⟩
  · intro dest hd
    simp [put, hu, Nat.not_le.mpr hd]

/-- C04 (hostile input).  Scanning any byte string returns an error, or a
non-negative 31-bit integer with a strictly shorter suffix of the input; it
never panics and consumes at most ten bytes. -/
theorem scan_total (src : Bytes) :
    (∃ m, scan src = .err m) ∨
    (∃ v tail pre, scan src = .ok (v, tail) ∧ v ≤ 2 ^ 31 - 1 ∧
      src = pre ++ tail ∧ 1 ≤ pre.length ∧ pre.length ≤ 10) := by
  unfold scan
  cases h : uvarintLoop 0 0 src with
  | none => left; exact ⟨_, rfl⟩
  | some r =>
    obtain ⟨x, tail⟩ := r
    by_cases hx : x > maxInt32
    · left; exact ⟨_, if_pos hx⟩
    · right
      obtain ⟨pre, hne, hl, hs⟩ := uvarintLoop_suffix _ _ _ _ _ (by omega) h
      have := List.length_pos_iff.mpr hne
      refine ⟨x, tail, pre, if_neg hx, ?_, hs, by omega, by omega⟩
      unfold maxInt32 at hx; omega

/-- C04 (what is decoded is what the bytes denote): for an accepted input the
value is the little-endian base-128 number formed by the low seven bits of the
consumed bytes, all of which but the last have the top bit set. -/
def base128 : Bytes → Nat
  | [] => 0
  | b :: bs => b.toNat % 128 + 128 * base128 bs

theorem uvarintLoop_base128 : ∀ (src : Bytes) (i x v : Nat) (tail : Bytes),
    uvarintLoop i x src = some (v, tail) →
    ∃ pre last, src = pre ++ last :: tail ∧ (∀ b ∈ pre, 128 ≤ b.toNat) ∧ last.toNat < 128 ∧
      v = x + 128 ^ i * base128 (pre ++ [last]) := by
  intro src
  induction src with
  | nil => intro i x v tail h; simp [uvarintLoop] at h
  | cons b bs ih =>
    intro i x v tail h
    have hp : 2 ^ (7 * i) = 128 ^ i := by rw [Nat.pow_mul]
    unfold uvarintLoop at h
    rw [hp] at h
    split at h
    · simp at h
    · split at h
      · rename_i hb
        split at h
        · simp at h
        · simp only [Option.some.injEq, Prod.mk.injEq] at h
          refine ⟨[], b, by simp [h.2], by simp, hb, ?_⟩
          simp [base128, Nat.mod_eq_of_lt hb, Nat.mul_comm, ← h.1]
      · rename_i hb
        obtain ⟨pre, last, hs, hpre, hlast, hv⟩ := ih _ _ _ _ h
        refine ⟨b :: pre, last, by simp [hs], ?_, hlast, ?_⟩
        · intro c hc
          rcases List.mem_cons.mp hc with rfl | hc
          · omega
          · exact hpre c hc
        · simp only [List.cons_append, base128]
          rw [hv, Nat.mul_add, Nat.pow_succ, Nat.mul_assoc, Nat.mul_comm (b.toNat % 128), Nat.add_assoc]

theorem scan_value (src : Bytes) (v : Nat) (tail : Bytes) (h : scan src = .ok (v, tail)) :
    ∃ pre last, src = pre ++ last :: tail ∧ (∀ b ∈ pre, 128 ≤ b.toNat) ∧ last.toNat < 128 ∧
      v = base128 (pre ++ [last]) := by
  unfold scan at h
  split at h
  · simp at h
  · rename_i x t hl
    split at h
    · simp at h
    · simp only [Res.ok.injEq, Prod.mk.injEq] at h
      obtain ⟨rfl, rfl⟩ := h
      obtain ⟨pre, last, h1, h2, h3, h4⟩ := uvarintLoop_base128 _ _ _ _ _ hl
      exact ⟨pre, last, h1, h2, h3, by simpa using h4⟩

/-! Concrete instances. -/
example : put [9, 9, 9, 9, 9, 9] 300 = .ok ([172, 2], [9, 9, 9, 9]) := by
  simp [put, toUnsigned, uvarintBytes]
example : scan [172, 2, 7, 8] = .ok (300, [7, 8]) := by decide
example : scan [255, 255, 255, 255, 8] = .err "varint value out of range" := by decide
example : scan [255, 255, 255, 255, 7] = .ok (2147483647, []) := by decide
/-- A non-canonical (overlong) encoding is accepted. -/
example : scan [128, 0] = .ok (0, []) := by decide
/-- `Len` of a negative number panics: only non-negative values are supported. -/
example : len (-1) = .panic := by
  have : (uvarintBytes 18446744073709551615).length = 10 := by simp [uvarintBytes]
  simp [len, toUnsigned, this]

/-- Encoded length lower bound. -/
theorem uvarintBytes_length_gt (k x : Nat) (h : 128 ^ k ≤ x) : k < (uvarintBytes x).length := by
  induction k generalizing x with
  | zero => exact uvarintBytes_length_pos x
  | succ k ih =>
    have h1 : 128 ^ (k + 1) = 128 * 128 ^ k := by rw [Nat.pow_succ, Nat.mul_comm]
    have h2 : 0 < 128 ^ k := Nat.pow_pos (by omega)
    unfold uvarintBytes
    rw [if_neg (by omega)]
    have := ih (x / 128) (by omega)
    simp; omega

/-- `Len` of a negative number panics. -/
theorem len_negative (v : Int) (hlo : -2 ^ 31 ≤ v) (hv : v < 0) : len v = .panic := by
  have hu : toUnsigned 64 v = (v + 2 ^ 64).toNat := by
    unfold toUnsigned
    have h1 : v % ((2 ^ 64 : Nat) : Int) = v + 2 ^ 64 := by omega
    rw [h1]
  have h5 : 128 ^ 5 ≤ toUnsigned 64 v := by rw [hu]; omega
  have := uvarintBytes_length_gt 5 _ h5
  unfold len
  simp only
  rw [if_neg (by omega)]

end Gate.Varint
