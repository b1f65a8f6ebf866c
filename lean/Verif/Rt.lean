import Verif.ImageFile
import Verif.Seccomp
/-
Model of the runtime which is in every program process, and makes system calls for the program:
runtime/loader/x86_64/runtime.S and runtime/loader/aarch64/runtime.S (io_prologue, rt_read,
rt_write, rt_debug, rt_poll, rt_random, rt_stop, current_memory, grow_memory), and what
runtime/loader/loader.c:373-441 sets up for it. Registers are modelled with their widths.

The kernel's responses to the system calls are an input: a list which is consumed in order. A response
which the kernel can't give (e.g. more bytes than asked for) isn't followed by anything (`wait`), as
is the end of the list.

Not modelled: rt_time (see Process.lean), signals (see Suspend.lean), the ANDROID variants, the
stack accounting at exit.
-/
namespace Gate.Rt
open Gate Gate.ImageFile

inductive Arch where
  | x86 | arm
deriving DecidableEq, Repr

abbrev w32 : Nat := 4294967296
abbrev w64 : Nat := 18446744073709551616
abbrev half64 : Nat := 9223372036854775808

/-- Signed comparison of 64-bit registers (jl, b.lt). -/
def slt (a b : Nat) : Bool := (a + half64) % w64 < (b + half64) % w64

/-- Responses of the kernel. -/
inductive Resp where
  | got (b : Bytes)
  | wrote (n : Nat)
  | poll (inRevents outRevents : Nat)
  | done
  | err (e : Nat)
deriving DecidableEq, Repr

structure St where
  /-- The vector at the end of the runtime page, loader.c:439-441: memory address, grow limit in pages. -/
  base : Nat
  limit : Nat
  /-- Random data of the vector, as bytes. -/
  random : Bytes
  /-- The stack variables, loader.c:373-377: current_memory_pages and random_avail. -/
  pages : Nat
  randomAvail : Nat
  /-- The memory of the process, by address. -/
  space : File
  /-- Which addresses are readable and writable. -/
  acc : Nat → Bool
  /-- What has been written to GATE_OUTPUT_FD and GATE_DEBUG_FD, and read from GATE_INPUT_FD. -/
  out : Bytes
  dbg : Bytes
  inp : Bytes
  kern : List Resp

/-- The outcome of a call: it returns to the program, the process exits, or the system call hasn't returned. -/
inductive Out (α : Type) where
  | ok (a : α) (s : St)
  | exit (status : Nat) (s : St)
  | wait (s : St)

def M (α : Type) := St → Out α

def M.bind {α β : Type} (m : M α) (f : α → M β) : M β := fun s =>
  match m s with
  | .ok a s' => f a s'
  | .exit n s' => .exit n s'
  | .wait s' => .wait s'

instance : Monad M where
  pure a := fun s => .ok a s
  bind := M.bind

/-- What io_prologue comes to. -/
inductive Prologue where
  | nop
  | oob
  /-- The buffer: its address and its length. -/
  | io (start len : Nat)
deriving DecidableEq, Repr

/-- io_prologue, x86_64/runtime.S:46-65, aarch64/runtime.S:57-73. `addr`, `len`: the 32-bit arguments of the call. -/
def prologue (a : Arch) (s : St) (addr len : Nat) : Prologue :=
  -- mov 4(%rcx), %r13d; shl $16, %r13d; add %r14, %r13 (64-bit shift on aarch64)
  let size := match a with
    | .x86 => s.pages * 65536 % w32
    | .arm => s.pages * 65536 % w64
  let end_ := (size + s.base) % w64
  if len = 0 then .nop
  else
    let rsi := (addr + s.base) % w64
    let r11 := (rsi + len) % w64
    if slt end_ r11 then .oob
    else if slt r11 rsi then .oob
    else .io rsi len

/-- MemoryAccessOutOfBounds. -/
abbrev exitOob : Nat := 105

abbrev EINTR : Nat := 4
abbrev EAGAIN : Nat := 11

/-- runtime/include/errors.h:51-57. -/
abbrev errRead : Nat := 4
abbrev errWrite : Nat := 5
abbrev errDebug : Nat := 6
abbrev errMprotect : Nat := 7
abbrev errPoll : Nat := 10

/-- exit_group: the status which wait reports. -/
def exit {α : Type} (n : Nat) : M α := fun s => .exit (n % 256) s

/-- rt_read, x86_64/runtime.S:382-398, aarch64/runtime.S:374-390. -/
def rtRead (a : Arch) (addr len : Nat) : M Nat := fun s =>
  match prologue a s addr len with
  | .nop => .ok 0 s
  | .oob => exit exitOob s
  | .io start n =>
    match s.kern with
    | .got b :: k =>
      if b.length ≤ n then .ok b.length { s with space := write s.space start b, inp := s.inp ++ b, kern := k } else .wait s
    | .err e :: k =>
      let s := { s with kern := k }
      if e = EAGAIN ∨ e = EINTR then .ok 0 s else exit errRead s
    | _ => .wait s

/-- rt_write, x86_64/runtime.S:404-420, aarch64/runtime.S:395-411. -/
def rtWrite (a : Arch) (addr len : Nat) : M Nat := fun s =>
  match prologue a s addr len with
  | .nop => .ok 0 s
  | .oob => exit exitOob s
  | .io start n =>
    match s.kern with
    | .wrote m :: k =>
      if m ≤ n then
        let s := { s with out := s.out ++ read s.space start m, kern := k }
        if 0 < m then .ok m s else exit errWrite s
      else .wait s
    | .err e :: k =>
      let s := { s with kern := k }
      if e = EAGAIN ∨ e = EINTR then .ok 0 s else exit errWrite s
    | _ => .wait s

/-- rt_debug, x86_64/runtime.S:561-584, aarch64/runtime.S:524-548: it is restarted until everything has been written. On x86-64 the
relative address on the stack is advanced; on aarch64 it is replaced by the low half of the advanced absolute address. `k`: the responses. -/
def debugLoop (a : Arch) (s : St) (addr len : Nat) : List Resp → Out Unit
  | [] => match prologue a s addr len with
    | .nop => .ok () { s with kern := [] }
    | .oob => .exit exitOob { s with kern := [] }
    | .io _ _ => .wait { s with kern := [] }
  | r :: k => match prologue a s addr len with
    | .nop => .ok () { s with kern := r :: k }
    | .oob => .exit exitOob { s with kern := r :: k }
    | .io start n =>
      match r with
      | .wrote m =>
        if m ≤ n then
          let s := { s with dbg := s.dbg ++ read s.space start m }
          if m = 0 then .ok () { s with kern := k }
          else if len = m then .ok () { s with kern := k }
          else
            let addr := match a with
              | .x86 => (addr + m) % w32
              | .arm => (start + m) % w32
            debugLoop a s addr (len - m) k
        else .wait { s with kern := r :: k }
      | .err e => if e = EINTR then debugLoop a s addr len k else .exit errDebug { s with kern := k }
      | _ => .wait { s with kern := r :: k }

def rtDebug (a : Arch) (addr len : Nat) : M Unit := fun s => debugLoop a s addr len s.kern

abbrev POLLIN : Nat := 1
abbrev POLLOUT : Nat := 4
/-- POLLHUP|POLLRDHUP. -/
abbrev pollHup : Nat := 0x2010

/-- poll(2): besides the requested events, POLLERR (8), POLLHUP (0x10) and POLLNVAL (0x20) may be reported. -/
def PollResp (events revents : Nat) : Prop := revents ||| (events ||| 0x38) = events ||| 0x38
instance (e r : Nat) : Decidable (PollResp e r) := by unfold PollResp; infer_instance

/-- rt_poll, x86_64/runtime.S:324-377, aarch64/runtime.S:327-368. ppoll without a timeout returns when there is some event. -/
def rtPoll (inEvents outEvents : Nat) : M Nat := fun s =>
  match s.kern with
  | .poll i o :: k =>
    if ¬ (PollResp inEvents i ∧ PollResp outEvents o ∧ (i ≠ 0 ∨ o ≠ 0)) then .wait s
    else
    let s := { s with kern := k }
    if i &&& pollHup ≠ 0 then .ok 0 s
    else if i ||| POLLIN ≠ POLLIN then exit errPoll s
    else if o ||| POLLOUT ≠ POLLOUT then exit errPoll s
    else .ok (i ||| o) s
  | .err e :: k =>
    let s := { s with kern := k }
    if e = EAGAIN ∨ e = EINTR then .ok 0 s else exit errPoll s
  | _ => .wait s

/-- rt_random, x86_64/runtime.S:497-511, aarch64/runtime.S:466-482: -1 if there is no more. random_avail is never negative. -/
def rtRandom : M Nat := fun s =>
  if s.randomAvail = 0 then .ok 4294967295 s
  else .ok ((s.random.getD (s.randomAvail - 1) 0).toNat) { s with randomAvail := s.randomAvail - 1 }

/-- rt_stop, x86_64/runtime.S:517-520, aarch64/runtime.S:486-491. (When the instance is resumed later, the call returns 0.) -/
def rtStop {α : Type} (status : Nat) : M α := exit status

/-- current_memory, x86_64/runtime.S:241-243. -/
def currentMemory : M Nat := fun s => .ok s.pages s

/-- grow_memory, x86_64/runtime.S:249-300, aarch64/runtime.S:262-310. On x86-64 the exit status when mprotect fails is what is in
edi: the address which was given to it. -/
def growMemory (a : Arch) (inc : Nat) : M Nat := fun s =>
  let r12 := (inc + s.pages) % w64
  if slt s.limit r12 then .ok 4294967295 s
  else
    let addr := (s.pages * 65536 + s.base) % w64
    let len := inc * 65536 % w64
    if len = 0 then .ok s.pages { s with pages := r12 % w32 }
    else
      match s.kern with
      | .done :: k => .ok s.pages { s with pages := r12 % w32, kern := k, acc := fun x => if addr ≤ x ∧ x < addr + len then true else s.acc x }
      | .err _ :: k => match a with
        | .x86 => exit (addr % w32) { s with kern := k }
        | .arm => exit errMprotect { s with kern := k }
      | _ => .wait s

/-- The image information which matters here, loader.c:151-171. -/
structure Info where
  heapAddr : Nat
  globalsSize : Nat
  initMemorySize : Nat
  growMemorySize : Nat
  random : Bytes

/-- loader.c:373-441: the heap mapping has globals and memory; what is in use of it is made accessible. `space`: what is in the process's memory otherwise.
`acc0`: what else is accessible (the stack etc.). -/
def load (i : Info) (space : File) (acc0 : Nat → Bool) (kern : List Resp) : St where
  base := i.heapAddr + i.globalsSize
  limit := i.growMemorySize / 65536
  random := i.random
  pages := i.initMemorySize / 65536
  randomAvail := 16
  space := space
  acc := fun x => if i.heapAddr ≤ x ∧ x < i.heapAddr + i.globalsSize + i.growMemorySize then x < i.heapAddr + i.globalsSize + i.initMemorySize else acc0 x
  out := []
  dbg := []
  inp := []
  kern := kern

/-- A call which the program makes of the runtime. Arguments are 32-bit. -/
inductive Call where
  | read (addr len : Nat) | write (addr len : Nat) | debug (addr len : Nat) | poll (i o : Nat) | random | stop (status : Nat)
  | currentMemory | growMemory (inc : Nat)
deriving DecidableEq, Repr

def Call.Valid : Call → Prop
  | .read addr len | .write addr len | .debug addr len | .poll addr len => addr < w32 ∧ len < w32
  | .stop n | .growMemory n => n < w32
  | .random | .currentMemory => True

/-- The result, for functions with no result zero (rt_nop). -/
def call (a : Arch) : Call → M Nat
  | .read addr len => rtRead a addr len
  | .write addr len => rtWrite a addr len
  | .debug addr len => fun s => match rtDebug a addr len s with
    | .ok _ s => .ok 0 s
    | .exit n s => .exit n s
    | .wait s => .wait s
  | .poll i o => rtPoll i o
  | .random => rtRandom
  | .stop n => rtStop n
  | .currentMemory => currentMemory
  | .growMemory inc => growMemory a inc

end Gate.Rt
