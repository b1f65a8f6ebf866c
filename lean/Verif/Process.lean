import Verif.Base
/-
Model of runtime/process.go (Process.Serve's interpretation of how a process ended, Start's time
mask, getRand), internal/executable/addr.go (RandAddr) and of the exit paths of
runtime/loader/x86_64/runtime.S and runtime/loader/aarch64/runtime.S.
-/
namespace Gate.Process
open Gate

/-! ### Trap identifiers, trap/trap.go:14-30

The first eleven come from the wag compiler; the same numbers appear in
server/api/server.proto:38-56 and in comments of runtime.S. -/

abbrev trapExit : Nat := 0
abbrev trapSuspended : Nat := 2
abbrev trapCallStackExhausted : Nat := 4
abbrev trapBreakpoint : Nat := 10
abbrev trapABIDeficiency : Nat := 27
abbrev trapABIViolation : Nat := 28
abbrev trapInternalError : Nat := 29
abbrev trapKilled : Nat := 30

/-! ### Wait statuses: Go's `syscall.WaitStatus` on Linux (a 32-bit unsigned integer) -/

def exited (w : Nat) : Bool := w % 128 == 0
def signaled (w : Nat) : Bool := w % 128 != 127 && w % 128 != 0
def exitStatus (w : Nat) : Nat := w / 256 % 256
def termSignal (w : Nat) : Nat := w % 128

/-- Status of a process which called `exit_group(n)`: the kernel keeps 8 bits. -/
def exitWait (n : Nat) : Nat := n % 256 * 256
/-- Status of a process terminated by a signal. -/
def signalWait (s : Nat) : Nat := s

abbrev sigKill : Nat := 9
abbrev sigXCPU : Nat := 24

/-- How `ioLoop` ended, runtime/process.go:263-269. -/
inductive IoEnd where
  | ok
  | badProgram
  | failed
deriving DecidableEq, Repr

inductive Err where
  | ioLoop
  | executorDead
  | process (n : Nat)   -- internal.ProcessError
  | signal (s : Nat)
  | unknown (w : Nat)
deriving DecidableEq, Repr

structure Served where
  result : Nat
  trap : Nat
  err : Option Err
deriving DecidableEq, Repr

/-- `Process.Serve`, runtime/process.go:258-333: the outcome of the I/O loop, the outcome of
`finalize` (`none` if the executor died) and whether a kill request won. -/
def serve (io : IoEnd) (status : Option Nat) (killRequested : Bool) : Served :=
  match io with
  | .badProgram => ⟨0, trapABIViolation, some .ioLoop⟩
  | .failed => ⟨0, trapInternalError, some .ioLoop⟩
  | .ok =>
    match status with
    | none => ⟨0, trapInternalError, some .executorDead⟩
    | some w =>
      if exited w then
        let n := exitStatus w
        if n ≤ 3 then ⟨n, if killRequested then trapKilled else trapExit, none⟩
        else if 100 ≤ n ∧ n ≤ 127 then
          let t := n - 100
          ⟨0, if killRequested ∧ (t = trapExit ∨ t = trapSuspended ∨ t = trapBreakpoint ∨ t = trapABIDeficiency)
              then trapKilled else t, none⟩
        else ⟨0, trapInternalError, some (.process n)⟩
      else if signaled w then
        let s := termSignal w
        if s = sigKill ∧ killRequested then ⟨0, trapKilled, none⟩
        else if s = sigXCPU then ⟨0, trapSuspended, none⟩
        else ⟨0, trapInternalError, some (.signal s)⟩
      else ⟨0, trapInternalError, some (.unknown w)⟩

/-- `Result.Terminated` and `Result.Value`, runtime/process.go:90-91. -/
def terminated (code : Nat) : Bool := code / 2 % 2 == 1
def value (code : Nat) : Nat := code % 2

/-! ### How a program ends -/

/-- `trap_handler`, runtime/loader/x86_64/runtime.S:211-235 and aarch64/runtime.S:227-247: the
argument to `exit_group`, for the trap and the program's result. -/
def trapHandler (trap result : Nat) (suspendBit : Bool) : Nat :=
  if trap = 0 then (if result = 0 then 0 else 1)
  else if trap = 4 then (if suspendBit then 100 + 2 else 100 + 4)
  else 100 + trap

/-- `proc_exit`, runtime/abi/library.wat: the argument to `rt_stop`, which is the argument
to `exit_group`. -/
def procExit (status : Nat) : Nat := (if status ≠ 0 then 1 else 0) ||| 2

/-! ### Addresses -/

abbrev minText : Nat := 0x000400000000
abbrev maxText : Nat := 0x2aa700000000
abbrev minHeap : Nat := 0x2aa900000000
abbrev maxHeap : Nat := 0x554b00000000
abbrev minStack : Nat := 0x554d00000000
abbrev maxStack : Nat := 0x7ff000000000

/-- `RandAddr`, internal/executable/addr.go:23-28: panics if there are less than four bytes.
Nothing wraps: the addresses are below 2^47. -/
def randAddr (ps minA maxA : Nat) (b : Bytes) : Res Nat :=
  if b.length < 4 then .panic
  else .ok ((minA / ps + unle (b.take 4) % (maxA / ps - minA / ps)) * ps)

/-- `getRand` after `rand.Read`, runtime/process.go:413-448: heap, stack and text address and
the random data.  `b` is the random bytes. -/
def getRand (ps : Nat) (fixed : Nat) (needData : Bool) (b : Bytes) : Res (Nat × Nat × Nat × Bytes) := do
  let heap ← randAddr ps minHeap maxHeap b
  let b := b.drop 4
  let stack ← randAddr ps minStack maxStack b
  let b := b.drop 4
  if fixed ≠ 0 then
    .ok (fixed, heap, stack, if needData then b.take 16 else List.replicate 16 0)
  else do
    let text ← randAddr ps minText maxText b
    let b := b.drop 4
    .ok (text, heap, stack, if needData then b.take 16 else List.replicate 16 0)

/-- The number of random bytes read, runtime/process.go:415-421. -/
def randLen (fixed : Nat) (needData : Bool) : Nat :=
  4 + 4 + (if fixed = 0 then 4 else 0) + (if needData then 16 else 0)

/-! ### Time -/

/-- `bits.Len32`. -/
def len32 (n : Nat) : Nat := if n = 0 then 0 else n.log2 + 1

/-- Number of low bits cleared by the time mask, runtime/process.go:176-179: resolution in
nanoseconds. -/
def maskBits (res : Int) : Nat :=
  len32 (if res ≤ 0 ∨ res > 1000000000 then 1000000000 else res.toNat)

/-- `tv_nsec & mask`. -/
def maskNsec (bits nsec : Nat) : Nat := nsec / 2 ^ bits * 2 ^ bits

/-- A time as the program sees it, for the realtime clock: runtime/loader/x86_64/runtime.S:482-486.
The seconds are assumed not to overflow. -/
def timeX86 (bits sec nsec : Nat) : Nat := sec * 1000000000 + maskNsec bits nsec

/-- The same for runtime/loader/aarch64/runtime.S:446-451: `movz x3, #0xca00, lsl #16` and
`movk x3, #0x3b9a, lsl #0`. -/
def armFactor : Nat := 0xca00 * 65536 + 0x3b9a
def timeArm (bits sec nsec : Nat) : Nat := sec * armFactor + maskNsec bits nsec

/-- The monotonic clock of a process on x86-64: `local_monotonic_time_base` is taken when the process is
loaded (runtime/loader/loader.c:333-340), a reading is `snapshot + (now - base)`
(x86_64/runtime.S:490-495), and on exit a last reading becomes the snapshot stored with the
image (`.Lexit`, x86_64/runtime.S:531-548), with which the next process starts.  All in 64-bit
arithmetic; `now` is the host's masked monotonic time. -/
def monoMod (M snapshot base now : Nat) : Nat := ((now + M - base) % M + snapshot) % M
def monoX86 : Nat → Nat → Nat → Nat := monoMod (2 ^ 64)

/-- On aarch64 (aarch64/runtime.S:442-461) the register holding the clock identifier is overwritten
with -1 before it is compared with 6, so the host's time is returned as is. -/
def monoArm (_snapshot _base now : Nat) : Nat := now

/-- Readings of the monotonic clock during the execution of an instance by successive
processes.  Each process is given by its host's time at loading and at each reading; the last
one is the reading at exit.  -/
def readings (mono : Nat → Nat → Nat → Nat) : Nat → List (Nat × List Nat) → List Nat
  | _, [] => []
  | snap, (base, nows) :: rest =>
    let vs := nows.map (mono snap base)
    vs ++ readings mono (vs.getLastD snap) rest

end Gate.Process
