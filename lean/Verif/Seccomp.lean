import Verif.Process
/-
Model of the system call filter of program processes: runtime/loader/seccomp.S, interpreted as by
the kernel's classic BPF (Documentation/userspace-api/seccomp_filter.rst): a 32-bit accumulator,
loads from `struct seccomp_data`, conditional forward jumps.
The ANDROID variant is not modelled.
-/
namespace Gate.Seccomp
open Gate Gate.Process

/-- `struct seccomp_data`: the system call number, the calling convention (AUDIT_ARCH_*), and the arguments. -/
structure Data where
  nr : Nat
  arch : Nat
  ip : Nat
  args : Nat → Nat

/-- The fields are of their C types. -/
structure Data.Valid (d : Data) : Prop where
  nr : d.nr < 4294967296
  args : ∀ i, d.args i < 18446744073709551616

/-- The 32-bit little-endian word at an offset of `struct seccomp_data`. -/
def Data.word (d : Data) (off : Nat) : Nat :=
  if off = 0 then d.nr
  else if off = 4 then d.arch
  else if off = 8 then d.ip % 4294967296
  else if off = 12 then d.ip / 4294967296
  else if off % 8 = 0 then d.args ((off - 16) / 8) % 4294967296
  else d.args ((off - 16) / 8) / 4294967296

/-- The instructions which are used: BPF_LD|BPF_W|BPF_ABS, BPF_JMP|BPF_JEQ|BPF_K, BPF_JMP|BPF_JGE|BPF_K, BPF_RET|BPF_K. -/
inductive Insn where
  | ld (k : Nat)
  | jeq (k jt jf : Nat)
  | jge (k jt jf : Nat)
  | ret (k : Nat)

/-- seccomp.S:7-8. -/
abbrev retKill : Nat := 0x80000000
abbrev retAllow : Nat := 0x7fff0000

/-- The kernel's interpreter. Jumps are forward, so an execution takes at most as many steps as there are instructions. `none`: it ran off the end
(the kernel refuses such filters). -/
def exec (d : Data) (prog : List Insn) : Nat → Nat → Nat → Option Nat
  | 0, _, _ => none
  | fuel + 1, a, pc =>
    match prog[pc]? with
    | none => none
    | some (.ld k) => exec d prog fuel (d.word k) (pc + 1)
    | some (.jeq k jt jf) => exec d prog fuel a (if a = k then pc + 1 + jt else pc + 1 + jf)
    | some (.jge k jt jf) => exec d prog fuel a (if k ≤ a then pc + 1 + jt else pc + 1 + jf)
    | some (.ret k) => some k

def run (prog : List Insn) (d : Data) : Option Nat := exec d prog prog.length 0 0

/-- System call numbers. -/
structure Nrs where
  read : Nat
  write : Nat
  ppoll : Nat
  mprotect : Nat
  rtSigreturn : Nat
  close : Nat
  exitGroup : Nat

/-- sys/syscall.h of x86-64. -/
def x86 : Nrs := ⟨0, 1, 271, 10, 15, 3, 231⟩
/-- aarch64/runtime.S:16-26 and sys/syscall.h of aarch64. -/
def arm : Nrs := ⟨63, 64, 73, 226, 139, 57, 94⟩

/-- runtime/include/runtime.h:32. -/
abbrev minHeapHigh32 : Nat := 0x2aa9

/-- seccomp.S:28-57, the filter. PROT_READ|PROT_WRITE is 3. -/
def filter (n : Nrs) : List Insn := [
  .ld 0,
  .jeq n.read 12 0,
  .jeq n.write 11 0,
  .jeq n.ppoll 10 0,
  .jeq n.mprotect 3 0,
  .jeq n.rtSigreturn 8 0,
  .jeq n.close 7 0,
  .jeq n.exitGroup 6 5,
  .ld (16 + 8 * 0 + 4),
  .jge minHeapHigh32 0 5,
  .ld (16 + 8 * 1 + 4),
  .jeq 0 0 3,
  .ld (16 + 8 * 2),
  .jeq 3 0 1,
  .ret retAllow,
  .ret retKill]

/-- The system calls which the filter is to allow, per the comments in seccomp.S. -/
def Intended (n : Nrs) (d : Data) : Prop :=
  d.nr = n.read ∨ d.nr = n.write ∨ d.nr = n.ppoll ∨ d.nr = n.rtSigreturn ∨ d.nr = n.close ∨ d.nr = n.exitGroup ∨
  (d.nr = n.mprotect ∧ minHeap ≤ d.args 0 ∧ d.args 1 < 4294967296 ∧ d.args 2 % 4294967296 = 3)

end Gate.Seccomp
