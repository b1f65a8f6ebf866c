import Verif.Varint
/-
Model of the integer encodings of image/snapshot.go (`putVarint`, `putVaruint32Before`), and
the integer formats of the WebAssembly binary format as a specification.
-/
namespace Gate.Leb
open Gate

/-- `putVarint`, image/snapshot.go:690-703: the bytes it stores. `x & 0x7f` of a two's
complement number is the remainder, `x >> 7` the floor of the division. -/
def svarintBytes (x : Int) : Bytes :=
  let b := (x % 128).toNat
  let x' := x / 128
  if (x' = 0 ∧ b < 64) ∨ (x' = -1 ∧ 64 ≤ b) then [UInt8.ofNat b]
  else UInt8.ofNat (b + 128) :: svarintBytes x'
termination_by x.natAbs
decreasing_by omega

/-- `putVarint` into `dest`: it panics when `dest` is too short. Returns the new contents. -/
def putVarint (dest : Bytes) (x : Int) : Res (Bytes × Nat) :=
  let e := svarintBytes x
  if e.length ≤ dest.length then .ok (putAt dest 0 e, e.length) else .panic

/-- `putVaruint32Before`, image/snapshot.go:662-667: stores the encoding of a uint32 so that
it ends at `offset`. Panics (slice out of range) if it does not fit before the offset. -/
def putVaruint32Before (dest : Bytes) (offset x : Nat) : Res (Bytes × Nat) :=
  let e := Varint.uvarintBytes (x % 2 ^ 32)
  if e.length ≤ offset ∧ offset ≤ dest.length then .ok (putAt dest (offset - e.length) e, e.length) else .panic

/-! ### Specification: WebAssembly core specification, 5.2.2 Integers -/

/-- Signed integer of `N` bits: `none` if the bytes are not in the format. -/
def wasmS (N : Nat) : Bytes → Option (Int × Bytes)
  | [] => none
  | b :: bs =>
    let n := b.toNat
    if n < 64 then (if n < 2 ^ (N - 1) then some ((n : Int), bs) else none)
    else if n < 128 then (if 128 - 2 ^ (N - 1) ≤ n then some ((n : Int) - 128, bs) else none)
    else if 7 < N then
      match wasmS (N - 7) bs with
      | none => none
      | some (m, tail) => some (128 * m + ((n : Int) - 128), tail)
    else none

/-- Unsigned integer of `N` bits. -/
def wasmU (N : Nat) : Bytes → Option (Nat × Bytes)
  | [] => none
  | b :: bs =>
    let n := b.toNat
    if n < 128 then (if n < 2 ^ N then some (n, bs) else none)
    else if 7 < N then
      match wasmU (N - 7) bs with
      | none => none
      | some (m, tail) => some (128 * m + (n - 128), tail)
    else none

end Gate.Leb
