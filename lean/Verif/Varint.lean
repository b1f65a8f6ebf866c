import Verif.Base
/-
Model of internal/varint/varint.go, including the semantics of the standard
library functions encoding/binary.PutUvarint and encoding/binary.Uvarint.
-/
namespace Gate.Varint
open Gate

/-- `math.MaxInt32`. -/
def maxInt32 : Nat := 2 ^ 31 - 1

/-- Bytes produced by `binary.PutUvarint(_, x)` (Go standard library):
seven bits per byte, low group first, top bit set on all bytes but the last. -/
def uvarintBytes (x : Nat) : Bytes :=
  if x < 128 then [UInt8.ofNat x]
  else UInt8.ofNat (x % 128 + 128) :: uvarintBytes (x / 128)
termination_by x
decreasing_by omega

/-- Loop of `binary.Uvarint` (Go standard library) at byte index `i` with
accumulator `x`.  `none` stands for a non-positive second return value (end of
buffer or 64-bit overflow).  Simplification: `x | b<<s` is written `x + b*2^s`,
which is the same because `x < 2^s`. -/
def uvarintLoop (i x : Nat) : Bytes → Option (Nat × Bytes)
  | [] => none
  | b :: bs =>
    if i = 10 then none
    else if b.toNat < 128 then
      if i = 9 ∧ 1 < b.toNat then none
      else some (x + b.toNat * 2 ^ (7 * i), bs)
    else uvarintLoop (i + 1) (x + b.toNat % 128 * 2 ^ (7 * i)) bs

/-- `varint.Scan`, internal/varint/varint.go:17-33.  Returns the value and the
tail. -/
def scan (src : Bytes) : Res (Nat × Bytes) :=
  match uvarintLoop 0 0 src with
  | none => .err "end of data while decoding varint"
  | some (x, tail) =>
    if x > maxInt32 then .err "varint value out of range"
    else .ok (x, tail)

/-- `varint.Len`, internal/varint/varint.go:36-39.  The argument is an int32; the
conversion `uint64(value)` sign-extends, and writing past the five-byte
temporary array panics. -/
def len (value : Int) : Res Nat :=
  let e := uvarintBytes (toUnsigned 64 value)
  if e.length ≤ 5 then .ok e.length else .panic

/-- `varint.Put`, internal/varint/varint.go:42-45.  Returns the bytes stored at
the head of `dest` and the unused tail of `dest`; panics if `dest` is too
short. -/
def put (dest : Bytes) (value : Int) : Res (Bytes × Bytes) :=
  let e := uvarintBytes (toUnsigned 64 value)
  if e.length ≤ dest.length then .ok (e, dest.drop e.length) else .panic

/-! ### Lemmas -/

theorem uvarintBytes_ne_nil (x : Nat) : uvarintBytes x ≠ [] := by
  unfold uvarintBytes; split <;> simp

theorem uvarintBytes_length_pos (x : Nat) : 0 < (uvarintBytes x).length :=
  List.length_pos_iff.mpr (uvarintBytes_ne_nil x)

/-- Encoded length bound: `k+1` groups of seven bits suffice below `128^(k+1)`. -/
theorem uvarintBytes_length_le (k x : Nat) (h : x < 128 ^ (k + 1)) :
    (uvarintBytes x).length ≤ k + 1 := by
  induction k generalizing x with
  | zero =>
    unfold uvarintBytes
    rw [if_pos (by simpa using h)]; simp
  | succ k ih =>
    unfold uvarintBytes
    split
    · simp
    · have : x / 128 < 128 ^ (k + 1) := by
        rw [Nat.pow_succ] at h; omega
      have := ih _ this
      simp; omega

/-- The loop decodes an encoding placed at byte index `i`. -/
theorem uvarintLoop_bytes (v : Nat) : ∀ (i x : Nat) (tail : Bytes),
    v * 128 ^ i < 2 ^ 64 → i ≤ 9 →
    uvarintLoop i x (uvarintBytes v ++ tail) = some (x + v * 128 ^ i, tail) := by
  induction v using Nat.strongRecOn with
  | _ v ih =>
    intro i x tail hlt hi
    have hp : 2 ^ (7 * i) = 128 ^ i := by rw [Nat.pow_mul]
    unfold uvarintBytes
    split
    · rename_i hv
      have hm : v % 256 = v := by omega
      have h9 : ¬ (i = 9 ∧ 1 < v) := by
        rintro ⟨rfl, h1⟩
        have : 2 * 128 ^ 9 ≤ v * 128 ^ 9 := Nat.mul_le_mul_right _ h1
        omega
      simp [uvarintLoop, hm, hv, hp, h9]
      omega
    · rename_i hv
      have hi9 : i ≠ 9 := by
        rintro rfl
        have : 128 * 128 ^ 9 ≤ v * 128 ^ 9 := Nat.mul_le_mul_right _ (by omega)
        omega
      have hm : (v % 128 + 128) % 256 = v % 128 + 128 := by omega
      have hmm : (v % 128 + 128) % 128 = v % 128 := by omega
      have hsum : v % 128 * 128 ^ i + v / 128 * 128 ^ (i + 1) = v * 128 ^ i := by
        rw [Nat.pow_succ, Nat.mul_comm (128 ^ i) 128, ← Nat.mul_assoc, ← Nat.add_mul]
        congr 1; omega
      have hlt' : v / 128 * 128 ^ (i + 1) < 2 ^ 64 := by omega
      have := ih (v / 128) (by omega) (i + 1) (x + v % 128 * 128 ^ i) tail hlt' (by omega)
      have h10 : i ≠ 10 := by omega
      simp only [List.cons_append, uvarintLoop, UInt8.toNat_ofNat']
      rw [show (2:Nat)^8 = 256 from rfl, hm, hmm, if_neg h10, if_neg (by omega), hp, this]
      congr 2; omega

/-- Whatever the loop accepts consumes between one and ten bytes and leaves a
suffix. -/
theorem uvarintLoop_suffix : ∀ (src : Bytes) (i x v : Nat) (tail : Bytes), i ≤ 10 →
    uvarintLoop i x src = some (v, tail) →
    ∃ pre, pre ≠ [] ∧ pre.length + i ≤ 10 ∧ src = pre ++ tail := by
  intro src
  induction src with
  | nil => intro i x v tail _ h; simp [uvarintLoop] at h
  | cons b bs ih =>
    intro i x v tail hi h
    unfold uvarintLoop at h
    split at h
    · simp at h
    · split at h
      · split at h
        · simp at h
        · simp only [Option.some.injEq, Prod.mk.injEq] at h
          exact ⟨[b], by simp, by simp; omega, by simp [h.2]⟩
      · obtain ⟨pre, hne, hl, hs⟩ := ih _ _ _ _ (by omega) h
        exact ⟨b :: pre, by simp, by simp; omega, by simp [hs]⟩

theorem toUnsigned_ofNat {w n : Nat} (h : n < 2 ^ w) : toUnsigned w (n : Int) = n := by
  unfold toUnsigned
  rw [Int.emod_eq_of_lt (by omega) (by omega)]
  omega

end Gate.Varint
