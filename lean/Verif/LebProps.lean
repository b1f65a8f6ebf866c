import Verif.Leb
/-
C31: the integers written into snapshots are the WebAssembly encodings of the values.
-/
namespace Gate.Leb
open Gate

theorem wasmS_bytes : ∀ (k : Nat) (x : Int) (N : Nat) (tail : Bytes), x.natAbs = k → 0 < N →
    -(2 ^ (N - 1) : Nat) ≤ x → x < (2 ^ (N - 1) : Nat) →
    wasmS N (svarintBytes x ++ tail) = some (x, tail) := by
  intro k
  induction k using Nat.strongRecOn with
  | _ k ih =>
    intro x N tail hk hN hlo hhi
    have h1 : 0 ≤ x % 128 := Int.emod_nonneg _ (by omega)
    have h2 : x % 128 < 128 := Int.emod_lt_of_pos _ (by omega)
    have hdm := Int.emod_add_mul_ediv x 128
    rw [svarintBytes]
    generalize hp : (2 : Nat) ^ (N - 1) = P at hlo hhi
    split
    · rename_i hc
      simp only [List.cons_append, List.nil_append, wasmS, UInt8.toNat_ofNat', hp]
      have hm : (x % 128).toNat % 2 ^ 8 = (x % 128).toNat := by omega
      rw [hm]
      rcases hc with ⟨ha, hb⟩ | ⟨ha, hb⟩
      · rw [if_pos hb, if_pos (by omega)]
        congr 2
        omega
      · rw [if_neg (by omega), if_pos (by omega), if_pos (by omega)]
        congr 2
        omega
    · rename_i hc
      have hN7 : 7 < N := by
        by_cases h : 7 < N
        · exact h
        · exfalso
          have : P ≤ 2 ^ 6 := hp ▸ Nat.pow_le_pow_right (by omega) (by omega)
          omega
      have hP : P = 128 * 2 ^ (N - 7 - 1) := by
        rw [← hp, show N - 1 = 7 + (N - 7 - 1) from by omega, Nat.pow_add]
      have hrec := ih (x / 128).natAbs (by omega) (x / 128) (N - 7) tail rfl (by omega) (by omega) (by omega)
      simp only [List.cons_append, wasmS, UInt8.toNat_ofNat']
      have hm : ((x % 128).toNat + 128) % 2 ^ 8 = (x % 128).toNat + 128 := by omega
      rw [hm, if_neg (by omega), if_neg (by omega), if_pos hN7, hrec]
      simp only [Option.some.injEq, Prod.mk.injEq, and_true]
      omega

theorem svarint_length : ∀ (k : Nat) (x : Int), -(64 * 128 ^ k : Nat) ≤ x → x < (64 * 128 ^ k : Nat) →
    (svarintBytes x).length ≤ k + 1 := by
  intro k
  induction k with
  | zero =>
    intro x hlo hhi
    rw [svarintBytes]
    rw [if_pos (by omega)]
    simp
  | succ k ih =>
    intro x hlo hhi
    rw [svarintBytes]
    split
    · simp
    · have hp : (64 * 128 ^ (k + 1) : Nat) = 128 * (64 * 128 ^ k) := by rw [Nat.pow_succ]; omega
      rw [hp] at hlo hhi
      generalize (64 * 128 ^ k : Nat) = P at *
      have := ih (x / 128) (by omega) (by omega)
      simp only [List.length_cons]
      omega

/-- C31: a 64-bit constant in a snapshot decodes by the WebAssembly format to the same value,
whatever follows, and takes at most ten bytes. -/
theorem i64_const (x : Int) (hlo : -2 ^ 63 ≤ x) (hhi : x < 2 ^ 63) (tail : Bytes) :
    wasmS 64 (svarintBytes x ++ tail) = some (x, tail) ∧ (svarintBytes x).length ≤ 10 := by
  refine ⟨wasmS_bytes _ x 64 tail rfl (by omega) ?_ ?_, svarint_length 9 x ?_ ?_⟩
  all_goals omega

/-- C31: a 32-bit constant decodes to the same value and takes at most five bytes. -/
theorem i32_const (x : Int) (hlo : -2 ^ 31 ≤ x) (hhi : x < 2 ^ 31) (tail : Bytes) :
    wasmS 32 (svarintBytes x ++ tail) = some (x, tail) ∧ (svarintBytes x).length ≤ 5 := by
  refine ⟨wasmS_bytes _ x 32 tail rfl (by omega) ?_ ?_, svarint_length 4 x ?_ ?_⟩
  all_goals omega

/-- C31: storing it into a buffer with ten bytes left does not fail, and changes nothing but
the bytes of the encoding at the beginning. -/
theorem put_undisturbed (dest : Bytes) (x : Int) (hlo : -2 ^ 63 ≤ x) (hhi : x < 2 ^ 63) (hd : 10 ≤ dest.length) :
    ∃ n, n ≤ 10 ∧ putVarint dest x = .ok (svarintBytes x ++ dest.drop n, n) ∧ n = (svarintBytes x).length := by
  have hl := (i64_const x hlo hhi []).2
  refine ⟨_, hl, ?_, rfl⟩
  unfold putVarint
  simp only
  rw [if_pos (by omega)]
  simp [putAt]

/-- Unsigned values: `binary.PutUvarint` is the WebAssembly format for them. -/
theorem wasmU_bytes : ∀ (x N : Nat) (tail : Bytes), x < 2 ^ N →
    wasmU N (Varint.uvarintBytes x ++ tail) = some (x, tail) := by
  intro x
  induction x using Nat.strongRecOn with
  | _ x ih =>
    intro N tail h
    rw [Varint.uvarintBytes]
    split
    · rename_i hx
      simp only [List.cons_append, List.nil_append, wasmU, UInt8.toNat_ofNat']
      rw [show x % 2 ^ 8 = x from by omega, if_pos hx, if_pos h]
    · rename_i hx
      have hN7 : 7 < N := by
        by_cases h7 : 7 < N
        · exact h7
        · exfalso
          have : 2 ^ N ≤ 2 ^ 7 := Nat.pow_le_pow_right (by omega) (by omega)
          omega
      have hP : 2 ^ N = 128 * 2 ^ (N - 7) := by
        rw [show N = 7 + (N - 7) from by omega, Nat.pow_add]
        simp
      have hrec := ih (x / 128) (by omega) (N - 7) tail (by omega)
      simp only [List.cons_append, wasmU, UInt8.toNat_ofNat']
      rw [show (x % 128 + 128) % 2 ^ 8 = x % 128 + 128 from by omega, if_neg (by omega), if_pos hN7, hrec]
      simp only [Option.some.injEq, Prod.mk.injEq, and_true]
      omega

/-- The signed format never gives a value outside its width (so the theorems above are not
met by a decoder that accepts anything). -/
theorem wasmS_range : ∀ (src : Bytes) (N : Nat) (x : Int) (tail : Bytes), 0 < N → wasmS N src = some (x, tail) →
    -(2 ^ (N - 1) : Nat) ≤ x ∧ x < (2 ^ (N - 1) : Nat) := by
  intro src
  induction src with
  | nil => intro N x tail _ h; simp [wasmS] at h
  | cons b bs ih =>
    intro N x tail hN h
    have hb := b.toNat_lt
    simp only [wasmS] at h
    split at h
    · split at h
      · simp only [Option.some.injEq, Prod.mk.injEq] at h
        omega
      · cases h
    · split at h
      · split at h
        · simp only [Option.some.injEq, Prod.mk.injEq] at h
          have := Nat.two_pow_pos (N - 1)
          omega
        · cases h
      · split at h
        · rename_i hN7
          split at h
          · cases h
          · rename_i m t hm
            simp only [Option.some.injEq, Prod.mk.injEq] at h
            have hr := ih (N - 7) m t (by omega) hm
            have hP : 2 ^ (N - 1) = 128 * 2 ^ (N - 7 - 1) := by
              rw [show N - 1 = 7 + (N - 7 - 1) from by omega, Nat.pow_add]
            rw [hP]
            generalize 2 ^ (N - 7 - 1) = P at hr
            omega
        · cases h

/-- An unsigned integer is in range and takes one to `(N + 6) / 7` bytes. -/
theorem wasmU_suffix : ∀ (src : Bytes) (N x : Nat) (tail : Bytes), wasmU N src = some (x, tail) →
    x < 2 ^ N ∧ ∃ pre, pre ≠ [] ∧ (0 < N → pre.length ≤ (N + 6) / 7) ∧ src = pre ++ tail := by
  intro src
  induction src with
  | nil => intro N x tail h; simp [wasmU] at h
  | cons b bs ih =>
    intro N x tail h
    have hb := b.toNat_lt
    simp only [wasmU] at h
    split at h
    · split at h
      · rename_i hlt
        simp only [Option.some.injEq, Prod.mk.injEq] at h
        exact ⟨by omega, [b], by simp, by simp; omega, by simp [h.2]⟩
      · cases h
    · split at h
      · rename_i hN7
        split at h
        · cases h
        · rename_i m t hm
          simp only [Option.some.injEq, Prod.mk.injEq] at h
          obtain ⟨hr, pre, h1, h2, h3⟩ := ih (N - 7) m t hm
          have hP : 2 ^ N = 128 * 2 ^ (N - 7) := by
            have hN : N = 7 + (N - 7) := by omega
            generalize N - 7 = M at hN
            subst hN
            rw [Nat.pow_add]
          refine ⟨by rw [hP]; generalize 2 ^ (N - 7) = P at *; omega, b :: pre, by simp, ?_, by simp [h3, h.2]⟩
          intro _
          have := h2 (by omega)
          simp only [List.length_cons]
          omega
      · cases h

/-- More bytes after a complete integer do not matter. -/
theorem wasmU_append : ∀ (src : Bytes) (N x : Nat) (tail more : Bytes), wasmU N src = some (x, tail) →
    wasmU N (src ++ more) = some (x, tail ++ more) := by
  intro src
  induction src with
  | nil => intro N x tail more h; simp [wasmU] at h
  | cons b bs ih =>
    intro N x tail more h
    simp only [wasmU, List.cons_append] at h ⊢
    split at h
    · rename_i h1
      rw [if_pos h1]
      split at h
      · rename_i h2
        cases h
        rw [if_pos h2]
      · cases h
    · rename_i h1
      rw [if_neg h1]
      split at h
      · rename_i h2
        rw [if_pos h2]
        split at h
        · cases h
        · rename_i m t hm
          simp only [Option.some.injEq, Prod.mk.injEq] at h
          rw [ih _ _ _ more hm]
          simp only [Option.some.injEq, Prod.mk.injEq]
          exact ⟨h.1, by rw [h.2]⟩
      · cases h

example : svarintBytes (-123456) = [0xc0, 0xbb, 0x78] ∧ svarintBytes 64 = [0xc0, 0x00] := by decide +kernel
example : (svarintBytes (-9223372036854775808)).length = 10 := by decide +kernel

/-- C31: an unsigned number put before an offset of a buffer ends right at the offset, reads as the number,
and leaves the other bytes as they were; if there is no room for it, the program crashes. -/
theorem before_offset (dest : Bytes) (offset x : Nat) (hx : x < 2 ^ 32) (ho : offset ≤ dest.length) (h5 : 5 ≤ offset) :
    ∃ b n, putVaruint32Before dest offset x = .ok (b, n) ∧ n ≤ 5 ∧ b.length = dest.length ∧
      b.take (offset - n) = dest.take (offset - n) ∧ b.drop offset = dest.drop offset ∧
      wasmU 32 (b.drop (offset - n)) = some (x, dest.drop offset) := by
  have hl : (Varint.uvarintBytes x).length ≤ 5 := Varint.uvarintBytes_length_le 4 x (by omega)
  have hm : x % 2 ^ 32 = x := Nat.mod_eq_of_lt hx
  obtain ⟨e, he⟩ : ∃ e, e = Varint.uvarintBytes x := ⟨_, rfl⟩
  rw [← he] at hl
  have hb : (putAt dest (offset - e.length) e).drop offset = dest.drop offset := by
    unfold putAt
    rw [List.drop_append]
    have h1 : offset - (List.take (offset - e.length) dest ++ e).length = 0 := by simp; omega
    rw [h1, List.drop_eq_nil_of_le (by simp; omega), show offset - e.length + e.length = offset by omega]
    rfl
  have hb2 : (putAt dest (offset - e.length) e).drop (offset - e.length) = e ++ dest.drop offset := by
    unfold putAt
    rw [List.append_assoc, List.drop_append, List.drop_eq_nil_of_le (by simp; omega)]
    have h1 : offset - e.length - (List.take (offset - e.length) dest).length = 0 := by simp; omega
    rw [h1, show offset - e.length + e.length = offset by omega]
    rfl
  refine ⟨putAt dest (offset - e.length) e, e.length, ?_, hl, length_putAt (by omega), ?_, hb, ?_⟩
  · unfold putVaruint32Before
    simp only [hm, ← he]
    exact if_pos ⟨by omega, ho⟩
  · unfold putAt
    rw [List.append_assoc, List.take_append_of_le_length (by simp; omega), List.take_take]
    simp
  · rw [hb2, he]
    exact wasmU_bytes _ _ _ hx

example : putVaruint32Before [9, 9, 9, 9, 9, 9, 9, 9] 6 300 = .ok ([9, 9, 9, 9, 0xac, 0x02, 9, 9], 2) := by decide +kernel

end Gate.Leb
