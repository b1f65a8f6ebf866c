import Verif.Loader
/-
C168: the loader's entry routines, instruction by instruction, for both architectures: what the kernel has put on the stack is looked at, and main is called with the vDSO's address, or the process exits.

Not modelled: pushing of the return address by the x86-64 call instruction (below the stack pointer, where nothing is read); exceptions other than those of memory accesses.
-/
namespace Gate.Start
open Gate Gate.Loader

/-- The registers which the routines use. x86_64/start.S, aarch64/start.S. -/
inductive Reg where
  | rsp | rdx | rdi | rbx | rsi | rax
  | sp | x0 | x1 | x2 | x8
deriving DecidableEq, Repr

inductive Label where
  | vdsoLoop | vdsoFound | vectorNotEmpty | exit
deriving DecidableEq, Repr

/-- The instructions which the routines use. -/
inductive Ins where
  /-- mov, of 64 bits. -/
  | mov (d s : Reg)
  /-- mov %eax, %edi: of 32 bits, zero-extended. -/
  | mov32 (d s : Reg)
  | movi (d : Reg) (n : Nat)
  /-- mov (%a), %d; ldr d, [a] -/
  | load (d a : Reg)
  | addi (d : Reg) (n : Nat)
  /-- Comparison with a number (or test of the register with itself: with zero): the zero flag. -/
  | cmp (r : Reg) (n : Nat)
  /-- cmpq $n, (%a) -/
  | cmpm (a : Reg) (n : Nat)
  | je (l : Label)
  | jne (l : Label)
  | jmp (l : Label)
  | callMain
  | syscall
  /-- int3, brk -/
  | trap
deriving DecidableEq, Repr

/-- A line of the source text. -/
inductive Line where
  | lab (l : Label)
  | ins (i : Ins)
deriving DecidableEq, Repr

/-- x86_64/start.S:18-60. AT_SYSINFO_EHDR is 33, SYS_exit_group is 231, and the errors are from errors.h:81-82. -/
def x86 : List Line := [
  .ins (.mov .rdx .rsp),
  .ins (.load .rdi .rdx),
  .ins (.cmp .rdi 0),
  .ins (.jne .vectorNotEmpty),
  .ins (.addi .rdx 8),
  .ins (.addi .rdx 8),
  .ins (.cmpm .rdx 0),
  .ins (.jne .vectorNotEmpty),
  .lab .vdsoLoop,
  .ins (.addi .rdx 8),
  .ins (.load .rbx .rdx),
  .ins (.addi .rdx 8),
  .ins (.cmp .rbx 33),
  .ins (.je .vdsoFound),
  .ins (.cmp .rbx 0),
  .ins (.jne .vdsoLoop),
  .ins (.movi .rdi 37),
  .ins (.jmp .exit),
  .lab .vdsoFound,
  .ins (.load .rsi .rdx),
  .ins (.addi .rdx 8),
  .ins .callMain,
  .ins (.mov32 .rdi .rax),
  .ins (.jmp .exit),
  .lab .vectorNotEmpty,
  .ins (.movi .rdi 36),
  .lab .exit,
  .ins (.movi .rax 231),
  .ins .syscall,
  .ins .trap]

/-- aarch64/start.S:19-62. SYS_exit_group is 94. -/
def arm : List Line := [
  .ins (.mov .x2 .sp),
  .ins (.load .x1 .x2),
  .ins (.cmp .x1 0),
  .ins (.jne .vectorNotEmpty),
  .ins (.addi .x2 8),
  .ins (.addi .x2 8),
  .ins (.load .x1 .x2),
  .ins (.cmp .x1 0),
  .ins (.jne .vectorNotEmpty),
  .lab .vdsoLoop,
  .ins (.addi .x2 8),
  .ins (.load .x1 .x2),
  .ins (.addi .x2 8),
  .ins (.cmp .x1 33),
  .ins (.je .vdsoFound),
  .ins (.cmp .x1 0),
  .ins (.jne .vdsoLoop),
  .ins (.movi .x0 37),
  .ins (.jmp .exit),
  .lab .vdsoFound,
  .ins (.load .x1 .x2),
  .ins (.addi .x2 8),
  .ins .callMain,
  .ins (.jmp .exit),
  .lab .vectorNotEmpty,
  .ins (.movi .x0 36),
  .lab .exit,
  .ins (.movi .x8 94),
  .ins .syscall,
  .ins .trap]

def text : Arch → List Line
  | .x86 => x86
  | .arm => arm

/-- The calling conventions: the registers of the C function's arguments and result, of the system call's number and first argument, and the stack pointer. -/
def args : Arch → Reg × Reg × Reg
  | .x86 => (.rdi, .rsi, .rdx)
  | .arm => (.x0, .x1, .x2)

def result : Arch → Reg
  | .x86 => .rax
  | .arm => .x0

def sysNum : Arch → Reg
  | .x86 => .rax
  | .arm => .x8

def sysArg : Arch → Reg
  | .x86 => .rdi
  | .arm => .x0

def stackPtr : Arch → Reg
  | .x86 => .rsp
  | .arm => .sp

def exitGroup : Arch → Nat
  | .x86 => 231
  | .arm => 94

/-- A call of main, loader.c:266: argv is the vDSO's address. -/
structure Call where
  argc : Nat
  argv : Nat
  envp : Nat
deriving DecidableEq, Repr

inductive Outcome where
  /-- exit_group with a status, after main has returned, or without it having been called. -/
  | exit (status : Nat) (called : Option Call)
  /-- main doesn't return. -/
  | entered (c : Call)
  /-- Unreadable memory. -/
  | fault
  /-- A breakpoint instruction, another system call, or the end of the text. -/
  | astray
deriving DecidableEq, Repr

structure State where
  code : List Line
  regs : Reg → Nat
  zero : Bool
  called : Option Call

/-- The world: the memory, what main returns, if it does, and what is in the registers then. -/
structure World where
  arch : Arch
  mem : Nat → Option Nat
  main : Option Nat
  junk : Reg → Nat

def put (f : Reg → Nat) (r : Reg) (v : Nat) : Reg → Nat := fun x => if x = r then v else f x

/-- The text after a label. -/
def after (l : Label) : List Line → List Line
  | [] => []
  | .lab k :: rest => if k = l then rest else after l rest
  | .ins _ :: rest => after l rest

def State.jump (w : World) (s : State) (l : Label) : State := { s with code := after l (text w.arch) }

/-- An instruction, `s` being at the next one. -/
def exec (w : World) (s : State) : Ins → State ⊕ Outcome
  | .mov d r => .inl { s with regs := put s.regs d (s.regs r) }
  | .mov32 d r => .inl { s with regs := put s.regs d (s.regs r % 2 ^ 32) }
  | .movi d n => .inl { s with regs := put s.regs d n }
  | .load d a => match w.mem (s.regs a) with
    | none => .inr .fault
    | some v => .inl { s with regs := put s.regs d v }
  | .addi d n => .inl { s with regs := put s.regs d ((s.regs d + n) % 2 ^ 64) }
  | .cmp r n => .inl { s with zero := s.regs r == n }
  | .cmpm a n => match w.mem (s.regs a) with
    | none => .inr .fault
    | some v => .inl { s with zero := v == n }
  | .je l => .inl (if s.zero then s.jump w l else s)
  | .jne l => .inl (if s.zero then s else s.jump w l)
  | .jmp l => .inl (s.jump w l)
  | .callMain =>
    let c : Call := ⟨s.regs (args w.arch).1, s.regs (args w.arch).2.1, s.regs (args w.arch).2.2⟩
    match w.main with
    | none => .inr (.entered c)
    | some v => .inl { s with regs := put (put w.junk (stackPtr w.arch) (s.regs (stackPtr w.arch))) (result w.arch) v, called := some c }
  | .syscall => .inr (if s.regs (sysNum w.arch) = exitGroup w.arch then .exit (s.regs (sysArg w.arch) % 2 ^ 32) s.called else .astray)
  | .trap => .inr .astray

def step (w : World) (s : State) : State ⊕ Outcome :=
  match s.code with
  | [] => .inr .astray
  | .lab _ :: rest => .inl { s with code := rest }
  | .ins i :: rest => exec w { s with code := rest } i

/-- The execution from a state ends. -/
inductive Ends (w : World) : State → Outcome → Prop
  | now {s : State} {o : Outcome} : step w s = .inr o → Ends w s o
  | next {s t : State} {o : Outcome} : step w s = .inl t → Ends w t o → Ends w s o

/-- What the kernel starts the process with: the stack pointer; the other registers are arbitrary. -/
def start (w : World) (sp : Nat) (regs : Reg → Nat) : State := ⟨text w.arch, put regs (stackPtr w.arch) sp, false, none⟩

/-! ### Specification -/

/-- The words which the kernel puts on the stack of a new process: the number of arguments, pointers to arguments and environment variables, both ended by zero, and the auxiliary vector (ended by a zero type). -/
def words (argv env : List Nat) (auxv : List (Nat × Nat)) : List Nat := argv.length :: (argv ++ 0 :: (env ++ 0 :: auxv.flatMap fun p => [p.1, p.2]))

/-- They are in memory, beginning at the stack pointer. -/
def OnStack (w : World) (sp : Nat) (ws : List Nat) : Prop := sp + 8 * ws.length < 2 ^ 64 ∧ ∀ i v, ws[i]? = some v → w.mem (sp + 8 * i) = some v

/-- A proper auxiliary vector. -/
def Proper (auxv : List (Nat × Nat)) : Prop := ∃ l z, auxv = l ++ [(0, z)] ∧ ∀ p ∈ l, p.1 ≠ 0

/-- How many entries there are before the vDSO's. -/
def before : List (Nat × Nat) → Nat
  | [] => 0
  | (t, _) :: rest => if t = 33 then 0 else before rest + 1

/-- main's part: it's called with the vDSO's address, and the address of the entry following in the auxiliary vector. -/
def mainEnd (w : World) (argc base envp : Nat) : Outcome :=
  match w.main with
  | none => .entered ⟨argc, base, envp⟩
  | some v => .exit (v % 2 ^ 32) (some ⟨argc, base, envp⟩)

/-- argc: the x86-64 routine passes it, the other one what the kernel put in x0. -/
def argcOf (w : World) (regs : Reg → Nat) : Nat :=
  match w.arch with
  | .x86 => 0
  | .arm => regs .x0

end Gate.Start
