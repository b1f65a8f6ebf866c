import Verif.AbiLib
import Verif.Resolver
/-
The binary format and the meaning of the part of WebAssembly 1.0 which the embedded library (runtime/abi/library.go) uses, for interpreting the bytes
which programs are linked with (runtime/abi/abi.go:43-69, internal/cmd/abi-library/generate.go:17-52) instead of a transcription of the text format.

Values are numbers below 2^32 or 2^64. The semantics is that of the WebAssembly specification (sections 4.4 and 5); blocks and loops have neither parameters nor results, as
in the library. A module which isn't valid can get stuck, which is distinguished from every outcome of valid code.

Simplifications: implicit call sites (where a program can be suspended) aren't modelled; see AbiLib.lean. Package wag's compiler isn't modelled.
-/
namespace Gate.Wasm
open Gate Gate.Rt Gate.AbiLib

mutual
/-- Instructions (specification, section 2.4). -/
inductive Instr where
  | block (body : Code)
  | loop (body : Code)
  /-- With or without a result. -/
  | ite (result : Bool) (then_ else_ : Code)
  | br (label : Nat)
  | brIf (label : Nat)
  | ret
  | call (func : Nat)
  | drop
  | get (x : Nat)
  | set (x : Nat)
  | load (size offset : Nat)
  | store (size offset : Nat)
  | const (v : Nat)
  | i32Eqz | i32Eq | i32Ne | i32LtU | i32GeS | i32GeU | i32Add | i32Sub | i32And | i32Or
  | i64Eq | i64Ne | i64And
  | i32Wrap
/-- Sequences of instructions. -/
inductive Code where
  | nil
  | cons (i : Instr) (c : Code)
end

deriving instance DecidableEq for Instr, Code

/-- A function of the module: the number of local variables (besides parameters), and the code. -/
structure Func where
  type : Nat
  locals : Nat
  code : Code
deriving DecidableEq

/-- Type: the types of parameters and results. 0x7f is i32, 0x7e is i64. -/
structure FuncType where
  params : List Nat
  results : List Nat
deriving DecidableEq

structure Import where
  module : List Nat
  field : List Nat
  type : Nat
deriving DecidableEq

structure Module where
  types : List FuncType := []
  imports : List Import := []
  /-- Type indexes of the functions. -/
  funcs : List Nat := []
  /-- Minimum number of memory pages. -/
  memory : Option Nat := none
  /-- Names and function indexes. -/
  exports : List (List Nat × Nat) := []
  /-- Numbers of locals, and code. -/
  codes : List (Nat × Code) := []
deriving DecidableEq

/-! ### The binary format (specification, section 5) -/

/-- A parser consumes some bytes. -/
abbrev P (α : Type) := List Nat → Option (α × List Nat)

def P.pure {α : Type} (a : α) : P α := fun b => some (a, b)

def P.bind {α β : Type} (p : P α) (f : α → P β) : P β := fun b =>
  match p b with
  | none => none
  | some (a, r) => f a r

instance : Monad P where
  pure := P.pure
  bind := P.bind

def byte : P Nat
  | [] => none
  | x :: r => some (x, r)

def fail {α : Type} : P α := fun _ => none

/-- The next byte is this. -/
def expect (v : Nat) : P Unit
  | [] => none
  | x :: r => if x = v then some ((), r) else none

/-- Unsigned LEB128 with at most n bytes. -/
def leb : Nat → P Nat
  | 0, _ => none
  | _ + 1, [] => none
  | n + 1, x :: r => if x < 128 then some (x, r) else
    match leb n r with
    | none => none
    | some (v, r) => some ((x - 128) + 128 * v, r)

/-- u32. -/
def u32 : P Nat := do
  let v ← leb 5
  if v < w32 then Pure.pure v else fail

/-- Signed LEB128 with at most n bytes, as a number modulo 2^64; `bits`: the number of bits of the bytes which were before. -/
def sleb (bits : Nat) : Nat → P Nat
  | 0, _ => none
  | _ + 1, [] => none
  | n + 1, x :: r => if x < 64 then some (x * 2 ^ bits, r)
    else if x < 128 then some ((w64 + x * 2 ^ bits - 2 ^ (bits + 7)) % w64, r)
    else match sleb (bits + 7) n r with
      | none => none
      | some (v, r) => some (((x - 128) * 2 ^ bits + v) % w64, r)

/-- n things. -/
def rep {α : Type} (p : P α) : Nat → P (List α)
  | 0 => Pure.pure []
  | n + 1 => do
    let a ← p
    let r ← rep p n
    Pure.pure (a :: r)

/-- Vectors. -/
def vec {α : Type} (p : P α) : P (List α) := do
  let n ← u32
  rep p n

/-- The size of an access, by opcode. -/
def loadSize (op : Nat) : Option Nat := if op = 0x28 then some 4 else if op = 0x29 then some 8 else if op = 0x2d then some 1 else none
def storeSize (op : Nat) : Option Nat := if op = 0x36 then some 4 else if op = 0x37 then some 8 else if op = 0x3a then some 1 else if op = 0x3b then some 2 else none

/-- Numeric instructions, by opcode. -/
def numeric (op : Nat) : Option Instr :=
  if op = 0x45 then some .i32Eqz else if op = 0x46 then some .i32Eq else if op = 0x47 then some .i32Ne else if op = 0x49 then some .i32LtU
  else if op = 0x4e then some .i32GeS else if op = 0x4f then some .i32GeU else if op = 0x51 then some .i64Eq else if op = 0x52 then some .i64Ne
  else if op = 0x6a then some .i32Add else if op = 0x6b then some .i32Sub else if op = 0x71 then some .i32And else if op = 0x72 then some .i32Or
  else if op = 0x83 then some .i64And else if op = 0xa7 then some .i32Wrap else none

/-- Instructions other than the structured ones and the ends. -/
def plain (op : Nat) : P Instr :=
  if op = 0x0c then do let l ← u32; Pure.pure (.br l)
  else if op = 0x0d then do let l ← u32; Pure.pure (.brIf l)
  else if op = 0x0f then Pure.pure .ret
  else if op = 0x10 then do let f ← u32; Pure.pure (.call f)
  else if op = 0x1a then Pure.pure .drop
  else if op = 0x20 then do let x ← u32; Pure.pure (.get x)
  else if op = 0x21 then do let x ← u32; Pure.pure (.set x)
  else if op = 0x41 then do let v ← sleb 0 5; Pure.pure (.const (v % w32))
  else if op = 0x42 then do let v ← sleb 0 10; Pure.pure (.const v)
  else match loadSize op, storeSize op, numeric op with
  | some n, _, _ => do let _align ← u32; let off ← u32; Pure.pure (.load n off)
  | _, some n, _ => do let _align ← u32; let off ← u32; Pure.pure (.store n off)
  | _, _, some i => Pure.pure i
  | _, _, _ => fail

/-- A sequence of instructions up to and including its end, with which it has ended: 0x0b or 0x05 (else). -/
def code : Nat → P (Code × Nat)
  | 0 => fail
  | n + 1 => do
    let op ← byte
    if op = 0x0b ∨ op = 0x05 then Pure.pure (.nil, op)
    else if op = 0x02 ∨ op = 0x03 then do
      expect 0x40
      let b ← code n
      if b.2 ≠ 0x0b then fail
      else do
        let r ← code n
        Pure.pure (.cons (if op = 0x02 then .block b.1 else .loop b.1) r.1, r.2)
    else if op = 0x04 then do
      let ty ← byte
      if ty ≠ 0x40 ∧ ty ≠ 0x7f then fail
      else do
        let t ← code n
        if t.2 = 0x05 then do
          let e ← code n
          if e.2 ≠ 0x0b then fail
          else do
            let r ← code n
            Pure.pure (.cons (.ite (ty != 0x40) t.1 e.1) r.1, r.2)
        else do
          let r ← code n
          Pure.pure (.cons (.ite (ty != 0x40) t.1 .nil) r.1, r.2)
    else do
      let i ← plain op
      let r ← code n
      Pure.pure (.cons i r.1, r.2)

def funcType : P FuncType := do
  expect 0x60
  let ps ← vec byte
  let rs ← vec byte
  Pure.pure ⟨ps, rs⟩

/-- An imported function. -/
def import_ : P Import := do
  let m ← vec byte
  let f ← vec byte
  expect 0x00
  let t ← u32
  Pure.pure ⟨m, f, t⟩

/-- The memory's limits, without a maximum. -/
def limits : P Nat := do
  expect 0x00
  u32

/-- An exported function. -/
def export_ : P (List Nat × Nat) := do
  let n ← vec byte
  expect 0x00
  let i ← u32
  Pure.pure (n, i)

/-- Declarations of local variables: number and type. -/
def localDecl : P Nat := do
  let n ← u32
  let _ty ← byte
  Pure.pure n

/-- A parser which is to consume exactly that many bytes. -/
def sized {α : Type} (n : Nat) (p : P α) : P α := fun b =>
  if b.length < n then none
  else match p (b.take n) with
    | some (a, []) => some (a, b.drop n)
    | _ => none

def funcBody : P (Nat × Code) := do
  let size ← u32
  sized size do
    let ls ← vec localDecl
    let c ← code size
    if c.2 = 0x0b then Pure.pure (ls.sum, c.1) else fail

/-- A section's contents. -/
def section_ (id size : Nat) (m : Module) : P Module :=
  if id = 1 then do let x ← sized size (vec funcType); Pure.pure { m with types := x }
  else if id = 2 then do let x ← sized size (vec import_); Pure.pure { m with imports := x }
  else if id = 3 then do let x ← sized size (vec u32); Pure.pure { m with funcs := x }
  else if id = 5 then do let x ← sized size (vec limits); Pure.pure { m with memory := x.head? }
  else if id = 7 then do let x ← sized size (vec export_); Pure.pure { m with exports := x }
  else if id = 10 then do let x ← sized size (vec funcBody); Pure.pure { m with codes := x }
  else fail

/-- Sections in ascending order, up to the end. -/
def sections : Nat → Nat → Module → List Nat → Option Module
  | 0, _, _, _ => none
  | _ + 1, _, m, [] => some m
  | n + 1, last, m, id :: b =>
    if id ≤ last then none
    else match (u32 >>= fun size => section_ id size m) b with
      | none => none
      | some (m, b) => sections n id m b

/-- The magic number and the version. -/
def decode (b : List Nat) : Option Module :=
  if b.take 8 = [0x00, 0x61, 0x73, 0x6d, 0x01, 0x00, 0x00, 0x00] then sections 16 0 {} (b.drop 8) else none

/-! ### Execution (specification, section 4.4) -/

/-- How a sequence of instructions ends. -/
inductive End where
  | next
  | br (label : Nat)
  | ret
deriving DecidableEq

/-- The ending, the local variables, and the operand stack. `none`: stuck, or too many iterations. -/
abbrev R := Option (End × List Nat × List Nat)

/-- The meaning of imported functions: arguments (the last one first), to results. -/
abbrev Host := Nat → List Nat → Option (M (List Nat))

/-- A conditional's value. -/
def b2n (c : Prop) [Decidable c] : Nat := if c then 1 else 0

/-- Signed comparison: at least. -/
def ges32 (x y : Nat) : Prop := (y + 2147483648) % w32 ≤ (x + 2147483648) % w32
instance (x y : Nat) : Decidable (ges32 x y) := by unfold ges32; infer_instance

/-- Leaving a block or the branch of an if: its label is 0. -/
def leaveBlock (below : List Nat) (k : List Nat → List Nat → M R) : R → M R
  | none => pure none
  | some (.next, l, st) => k l (st ++ below)
  | some (.br 0, l, _) => k l below
  | some (.br (n + 1), l, st) => pure (some (.br n, l, st))
  | some (.ret, l, st) => pure (some (.ret, l, st))

/-- The end of an iteration of a loop: branching to its label starts another. -/
def leaveLoop (below : List Nat) (again : List Nat → M R) (k : List Nat → List Nat → M R) : R → M R
  | none => pure none
  | some (.next, l, st) => k l (st ++ below)
  | some (.br 0, l, _) => again l
  | some (.br (n + 1), l, st) => pure (some (.br n, l, st))
  | some (.ret, l, st) => pure (some (.ret, l, st))

/-- At most that many iterations. -/
def iterate (body : List Nat → M R) (below : List Nat) (k : List Nat → List Nat → M R) : Nat → List Nat → M R
  | 0, _ => pure none
  | n + 1, l => body l >>= leaveLoop below (iterate body below k n) k

/-- What follows a call. -/
def callHost (host : Host) (f : Nat) (st : List Nat) (k : List Nat → M R) : M R :=
  match host f st with
  | none => pure none
  | some m => m >>= k

mutual
/-- Execution of a sequence, with at most F iterations of each loop. `l`: local variables; `st`: operand stack. -/
def Code.exec (host : Host) (F : Nat) : Code → List Nat → List Nat → M R
  | .nil, l, st => pure (some (.next, l, st))
  | .cons i c, l, st => i.exec host F l st fun l st => c.exec host F l st

/-- Execution of an instruction. `k`: the rest of the sequence. -/
def Instr.exec (host : Host) (F : Nat) : Instr → List Nat → List Nat → (List Nat → List Nat → M R) → M R
  | .block b, l, st, k => b.exec host F l [] >>= leaveBlock st k
  | .loop b, l, st, k => iterate (fun l => b.exec host F l []) st k F l
  | .ite _ t e, l, x :: st, k => (if x ≠ 0 then t.exec host F l [] else e.exec host F l []) >>= leaveBlock st k
  | .br n, l, st, _ => pure (some (.br n, l, st))
  | .brIf n, l, x :: st, k => if x ≠ 0 then pure (some (.br n, l, st)) else k l st
  | .ret, l, st, _ => pure (some (.ret, l, st))
  | .call f, l, st, k => callHost host f st fun st => k l st
  | .drop, l, _ :: st, k => k l st
  | .get x, l, st, k => match l[x]? with
    | none => pure none
    | some v => k l (v :: st)
  | .set x, l, v :: st, k => k (l.set x v) st
  | .load n off, l, ea :: st, k => ld n (ea + off) >>= fun v => k l (v :: st)
  | .store n off, l, v :: ea :: st, k => AbiLib.st n (ea + off) v >>= fun _ => k l st
  | .const v, l, st, k => k l (v :: st)
  | .i32Eqz, l, x :: st, k => k l (b2n (x = 0) :: st)
  | .i32Eq, l, y :: x :: st, k => k l (b2n (x = y) :: st)
  | .i32Ne, l, y :: x :: st, k => k l (b2n (x ≠ y) :: st)
  | .i32LtU, l, y :: x :: st, k => k l (b2n (x < y) :: st)
  | .i32GeS, l, y :: x :: st, k => k l (b2n (ges32 x y) :: st)
  | .i32GeU, l, y :: x :: st, k => k l (b2n (y ≤ x) :: st)
  | .i32Add, l, y :: x :: st, k => k l ((x + y) % w32 :: st)
  | .i32Sub, l, y :: x :: st, k => k l ((x + w32 - y) % w32 :: st)
  | .i32And, l, y :: x :: st, k => k l ((x &&& y) :: st)
  | .i32Or, l, y :: x :: st, k => k l ((x ||| y) :: st)
  | .i64Eq, l, y :: x :: st, k => k l (b2n (x = y) :: st)
  | .i64Ne, l, y :: x :: st, k => k l (b2n (x ≠ y) :: st)
  | .i64And, l, y :: x :: st, k => k l ((x &&& y) :: st)
  | .i32Wrap, l, x :: st, k => k l (x % w32 :: st)
  | _, _, _, _ => pure none
end

/-- The outcome of a function's code: the results are on the stack, when it is over or at `return`. -/
def finish : R → Option (List Nat)
  | some (.next, _, st) => some st
  | some (.ret, _, st) => some st
  | some (.br 0, _, st) => some st
  | _ => none

/-- A call of an exported function. The local variables are the arguments, and zeros. -/
def invoke (m : Module) (host : Host) (F : Nat) (name : List Nat) (args : List Nat) : M (Option (List Nat)) :=
  match (m.exports.find? fun e => e.1 = name).bind fun e => m.codes[e.2 - m.imports.length]? with
  | none => pure none
  | some (n, c) => c.exec host F (args ++ List.replicate n 0) [] >>= fun r => pure (finish r)

open Gate.Auth (str)

/-- What the library's imported function is: a function of the runtime, if the vector's slot (abi.go:24-35, 56-63; loader.c:441-460) has one. -/
def imported (i : Import) : Option Bytes :=
  if i.module ≠ [114, 116] then none -- "rt"
  else match Resolver.rtFunctions.find? fun e => e.1.map UInt8.toNat = i.field with
    | none => none
    | some (_, index) => match Resolver.slot index with
      | some (.rt name) => some name
      | _ => none

/-- A call of a function of the runtime, with the arguments on the stack. -/
def rtCall (a : Arch) (rtTime : Nat → M Nat) (name : Bytes) (st : List Nat) : Option (M (List Nat)) :=
  if name = str "debug" then match st with
    | y :: x :: st => some (rtDebug a x y >>= fun _ => pure st)
    | _ => none
  else if name = str "poll" then match st with
    | y :: x :: st => some (rtPoll x y >>= fun v => pure (v :: st))
    | _ => none
  else if name = str "random" then some (rtRandom >>= fun v => pure (v :: st))
  else if name = str "read" then match st with
    | y :: x :: st => some (rtRead a x y >>= fun v => pure (v :: st))
    | _ => none
  else if name = str "stop" then match st with
    | x :: st => some (rtStop x >>= fun v => pure (v :: st))
    | _ => none
  else if name = str "time" then match st with
    | x :: st => some (rtTime x >>= fun v => pure (v :: st))
    | _ => none
  else if name = str "write" then match st with
    | y :: x :: st => some (rtWrite a x y >>= fun v => pure (v :: st))
    | _ => none
  else none

/-- The imported functions. A call of something else is none. -/
def rtHost (a : Arch) (rtTime : Nat → M Nat) (imports : List Import) : Host := fun f st =>
  match imports[f]?.bind imported with
  | none => none
  | some name => rtCall a rtTime name st

end Gate.Wasm
