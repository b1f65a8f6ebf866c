/-
Shared vocabulary of the model: bytes, little-endian integers, fixed-size
integer conversions, slices and outcomes of Go calls.
-/
namespace Gate

/-- A Go `[]byte` value (contents only). -/
abbrev Bytes := List UInt8

/-- Outcome of a Go call: normal result, returned error, or panic
(index or slice out of range, nil dereference, explicit `panic`). -/
inductive Res (α : Type) where
  | ok (a : α)
  | err (msg : String)
  | panic
deriving Repr, DecidableEq

namespace Res
def bind {α β : Type} : Res α → (α → Res β) → Res β
  | ok a, f => f a
  | err m, _ => err m
  | panic, _ => panic

instance : Monad Res where
  pure := ok
  bind := bind

@[simp] theorem bind_ok {α β} (a : α) (f : α → Res β) : (Res.ok a >>= f) = f a := rfl
@[simp] theorem bind_err {α β} (m) (f : α → Res β) : ((Res.err m : Res α) >>= f) = Res.err m := rfl
@[simp] theorem bind_panic {α β} (f : α → Res β) : ((Res.panic : Res α) >>= f) = Res.panic := rfl
@[simp] theorem pure_eq {α} (a : α) : (pure a : Res α) = Res.ok a := rfl
end Res

/-- Go's `encoding/binary.LittleEndian.PutUintN`: `k` little-endian bytes of `n`
(higher bits of `n` are dropped). -/
def le : Nat → Nat → Bytes
  | 0, _ => []
  | k + 1, n => UInt8.ofNat n :: le k (n / 256)

/-- Go's `encoding/binary.LittleEndian.UintN` of a slice of N/8 bytes. -/
def unle : Bytes → Nat
  | [] => 0
  | b :: bs => b.toNat + 256 * unle bs

@[simp] theorem length_le (k n : Nat) : (le k n).length = k := by
  induction k generalizing n with
  | zero => rfl
  | succ k ih => simp [le, ih]

theorem unle_lt (bs : Bytes) : unle bs < 256 ^ bs.length := by
  induction bs with
  | nil => simp [unle]
  | cons b bs ih =>
    have hb := b.toNat_lt
    simp only [unle, List.length_cons, Nat.pow_succ]
    omega

theorem unle_le (k n : Nat) : unle (le k n) = n % 256 ^ k := by
  induction k generalizing n with
  | zero => simp [le, unle, Nat.mod_one]
  | succ k ih =>
    have hp : 256 ^ (k + 1) = 256 * 256 ^ k := by rw [Nat.pow_succ, Nat.mul_comm]
    rw [hp, Nat.mod_mul]
    simp [le, unle, ih]

theorem unle_le_of_lt {k n : Nat} (h : n < 256 ^ k) : unle (le k n) = n := by
  rw [unle_le, Nat.mod_eq_of_lt h]

theorem le_unle (bs : Bytes) : le bs.length (unle bs) = bs := by
  induction bs with
  | nil => rfl
  | cons b bs ih =>
    have hb := b.toNat_lt
    simp only [List.length_cons, le, unle]
    have h1 : (b.toNat + 256 * unle bs) / 256 = unle bs := by omega
    rw [h1, ih]
    congr 1
    apply UInt8.toNat_inj.mp
    simp only [UInt8.toNat_ofNat']
    omega

/-- Two's complement reading of an unsigned `w`-bit number (Go `intN(x)`). -/
def toSigned (w n : Nat) : Int :=
  if n < 2 ^ (w - 1) then (n : Int) else (n : Int) - (2 ^ w : Nat)

/-- Unsigned `w`-bit representation of an integer (Go `uintN(x)`). -/
def toUnsigned (w : Nat) (i : Int) : Nat := (i % ((2 ^ w : Nat) : Int)).toNat

theorem toUnsigned_lt (w : Nat) (i : Int) : toUnsigned w i < 2 ^ w := by
  have h : (0 : Int) < ((2 ^ w : Nat) : Int) := by exact_mod_cast Nat.two_pow_pos w
  have h1 := Int.emod_lt_of_pos i h
  have h2 := Int.emod_nonneg i (by omega : ((2 ^ w : Nat) : Int) ≠ 0)
  unfold toUnsigned
  omega

theorem toSigned_toUnsigned {w : Nat} (hw : 0 < w) {i : Int}
    (hlo : -((2 ^ (w - 1) : Nat) : Int) ≤ i) (hhi : i < ((2 ^ (w - 1) : Nat) : Int)) :
    toSigned w (toUnsigned w i) = i := by
  obtain ⟨v, rfl⟩ : ∃ v, w = v + 1 := ⟨w - 1, by omega⟩
  have hp : (2 ^ (v + 1) : Nat) = 2 * 2 ^ v := by rw [Nat.pow_succ]; omega
  have hpos := Nat.two_pow_pos v
  simp only [Nat.add_sub_cancel] at hlo hhi
  unfold toSigned toUnsigned
  simp only [Nat.add_sub_cancel, hp]
  by_cases h : 0 ≤ i
  · rw [Int.emod_eq_of_lt h (by omega)]
    rw [if_pos (by omega)]
    omega
  · have : i % ((2 * 2 ^ v : Nat) : Int) = i + ((2 * 2 ^ v : Nat) : Int) := by
      rw [← Int.add_emod_right, Int.emod_eq_of_lt (by omega) (by omega)]
    rw [this, if_neg (by omega)]
    omega

theorem toUnsigned_toSigned {w n : Nat} (hn : n < 2 ^ w) : toUnsigned w (toSigned w n) = n := by
  unfold toSigned toUnsigned
  have hpos := Nat.two_pow_pos w
  split
  · rw [Int.emod_eq_of_lt (by omega) (by omega)]; omega
  · rw [← Int.add_emod_right, Int.emod_eq_of_lt (by omega) (by omega)]; omega

/-- Overwrite `src.length` bytes of `b` at offset `off` (Go `copy(b[off:], src)`
when the destination is long enough). -/
def putAt (b : Bytes) (off : Nat) (src : Bytes) : Bytes :=
  b.take off ++ src ++ b.drop (off + src.length)

/-- `n` bytes of `b` at offset `off` (Go `b[off:off+n]` when in range). -/
def slice (b : Bytes) (off n : Nat) : Bytes := (b.drop off).take n

@[simp] theorem length_putAt {b src : Bytes} {off : Nat} (h : off + src.length ≤ b.length) :
    (putAt b off src).length = b.length := by
  simp [putAt]; omega

theorem slice_putAt_same {b src : Bytes} {off : Nat} (h : off + src.length ≤ b.length) :
    slice (putAt b off src) off src.length = src := by
  have h1 : (b.take off).length = off := by simp; omega
  unfold slice putAt
  rw [List.append_assoc, List.drop_append, h1]
  simp

theorem slice_putAt_disjoint {b src : Bytes} {off o n : Nat}
    (h : off + src.length ≤ b.length) (hd : o + n ≤ off ∨ off + src.length ≤ o) :
    slice (putAt b off src) o n = slice b o n := by
  apply List.ext_getElem?
  intro i
  unfold slice putAt
  simp only [List.getElem?_take, List.getElem?_drop]
  split
  · rename_i hi
    rcases hd with hd | hd
    · rw [List.append_assoc, List.getElem?_append_left (by simp; omega)]
      rw [List.getElem?_take, if_pos (by omega)]
    · rw [List.getElem?_append_right (by simp; omega)]
      simp only [List.length_append, List.length_take, List.getElem?_drop]
      congr 1
      omega
  · rfl

theorem slice_length {b : Bytes} {off n : Nat} (h : off + n ≤ b.length) :
    (slice b off n).length = n := by
  simp [slice]; omega

/-- A concrete run that succeeds and ends in a state with property `P`
(used for counterexamples and for examples of non-vacuity). -/
theorem exists_of_run {α : Type} {o : Option α} {P : α → Prop} [DecidablePred P]
    (h : (match o with | some a => decide (P a) | none => false) = true) : ∃ a, o = some a ∧ P a := by
  cases o with
  | none => simp at h
  | some a => exact ⟨a, rfl, by simpa using h⟩

end Gate
