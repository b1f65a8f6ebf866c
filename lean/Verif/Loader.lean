import Verif.ImageFile
import Verif.Process
/-
C143-C145: how a program's process is set up: Process.Start of runtime/process.go:163-260 (the image information and its sending), and the
loader, runtime/loader/loader.c, runtime/loader/{x86_64,aarch64}/{start.S,loader.h} and runtime_init of runtime.S.

Modelled: every system call of the loader, in order, each of which may fail; the process's address space (each address's protection and
what it is backed by); the contents of the state file.  Not modelled: the contents of the runtime page (but the vector is), Android's variants,
debug builds, the registers which are cleared in the end.
-/

namespace Gate.Loader
open Gate ImageFile

inductive Arch where
  | x86 | arm
deriving DecidableEq, Repr

/-! ### Image information -/

/-- runtime/process.go:31-51, and struct image_info, loader.c:151-171: the fields except for the magic numbers. -/
structure Info where
  pageSize : Nat
  textAddr : Nat
  stackAddr : Nat
  heapAddr : Nat
  random : Bytes
  textSize : Nat
  stackSize : Nat
  stackUnused : Nat
  globalsSize : Nat
  initMemorySize : Nat
  growMemorySize : Nat
  initRoutine : Nat
  startAddr : Nat
  entryAddr : Nat
  timeMask : Nat
  monotonicTime : Nat
deriving DecidableEq, Repr

/-- runtime/process.go:24-27, runtime/include/runtime.h:59-61. -/
abbrev magic1 : Nat := 0x19328f3a
abbrev magic2 : Nat := 0x975834d75125276c

/-- binary.Write of imageInfo, runtime/process.go:31-51,206-210: the fields in the order of their declaration. -/
def encode (i : Info) : Bytes :=
  le 4 magic1 ++ le 4 i.pageSize ++ le 8 i.textAddr ++ le 8 i.stackAddr ++ le 8 i.heapAddr ++ i.random ++ le 4 i.textSize ++ le 4 i.stackSize ++
  le 4 i.stackUnused ++ le 4 i.globalsSize ++ le 4 i.initMemorySize ++ le 4 i.growMemorySize ++ le 4 i.initRoutine ++ le 4 i.startAddr ++
  le 4 i.entryAddr ++ le 4 i.timeMask ++ le 8 i.monotonicTime ++ le 8 magic2

/-- The sizes of the members of struct image_info, loader.c:151-171, which is packed. (`random` is an array of two 8-byte members.) -/
def members : List Nat := [4, 4, 8, 8, 8, 16, 4, 4, 4, 4, 4, 4, 4, 4, 4, 4, 8, 8]

/-- sizeof (struct image_info). -/
def infoSize : Nat := members.foldr (· + ·) 0

/-- The bytes of a member. -/
def member (b : Bytes) (k : Nat) : Bytes := (b.drop ((members.take k).foldr (· + ·) 0)).take (members.getD k 0)

/-- The members' values. -/
def decode (b : Bytes) : Info where
  pageSize := unle (member b 1)
  textAddr := unle (member b 2)
  stackAddr := unle (member b 3)
  heapAddr := unle (member b 4)
  random := member b 5
  textSize := unle (member b 6)
  stackSize := unle (member b 7)
  stackUnused := unle (member b 8)
  globalsSize := unle (member b 9)
  initMemorySize := unle (member b 10)
  growMemorySize := unle (member b 11)
  initRoutine := unle (member b 12)
  startAddr := unle (member b 13)
  entryAddr := unle (member b 14)
  timeMask := unle (member b 15)
  monotonicTime := unle (member b 16)

/-- What Start knows of the program and its state (ProgramCode and ProgramState, runtime/process.go:53-71). -/
structure Prog where
  textSize : Nat
  stackSize : Nat
  stackUsage : Nat
  globalsSize : Nat
  memorySize : Nat
  maxMemorySize : Nat
  startAddr : Nat
  entryAddr : Nat
  time : Nat
deriving DecidableEq, Repr

abbrev u32 (n : Nat) : Nat := n % 4294967296

/-- wag's object ABI: the enter and resume routines (abi.TextAddrEnter, abi.TextAddrResume). -/
abbrev textAddrResume : Nat := 0x10
abbrev textAddrEnter : Nat := 0x20

/-- runtime/process.go:176-204: addresses and random data are those of getRand; `bits`: the number of zero bits of the time mask (Process.maskBits). -/
def startInfo (ps : Nat) (textAddr heapAddr stackAddr : Nat) (random : Bytes) (bits : Nat) (p : Prog) : Info where
  pageSize := u32 ps
  textAddr := textAddr
  stackAddr := stackAddr
  heapAddr := heapAddr
  random := random
  textSize := u32 p.textSize
  stackSize := u32 p.stackSize
  stackUnused := u32 (p.stackSize - p.stackUsage)
  globalsSize := u32 p.globalsSize
  initMemorySize := u32 p.memorySize
  growMemorySize := u32 p.maxMemorySize
  initRoutine := if u32 (p.stackSize - p.stackUsage) = u32 p.stackSize then textAddrEnter else textAddrResume
  startAddr := p.startAddr
  entryAddr := p.entryAddr
  timeMask := 4294967296 - 2 ^ bits
  monotonicTime := p.time

/-! ### Receiving -/

/-- A control message: whether it's SCM_RIGHTS of the socket level, and the descriptors. -/
structure Cmsg where
  level : Bool := true
  rights : Bool := true
  fds : List Nat
deriving DecidableEq, Repr

/-- What recvmsg gives. -/
structure Msg where
  data : Bytes
  ctrunc : Bool := false
  ctl : List Cmsg
deriving DecidableEq, Repr

/-- The message of runtime/process.go:239-246. The receiving kernel installs the descriptors at the numbers which are free: the lowest is
the debug descriptor's. -/
def sent (i : Info) (debug : Bool) : Msg where
  data := encode i
  ctl := [{ fds := if debug then [2, 3, 4] else [2, 3] }]

structure Received where
  info : Bytes
  debug : Bool
  textFd : Nat
  stateFd : Nat
deriving DecidableEq, Repr

/-- receive_info, loader.c:187-247. -/
def receive (m : Msg) : Option Received :=
  if m.data.length ≠ infoSize then none
  else if m.ctrunc then none
  else match m.ctl with
    | [] => none
    | c :: rest =>
      if !c.level then none
      else if !c.rights then none
      else match c.fds with
        | [t, s] => if rest = [] then some ⟨m.data, false, t, s⟩ else none
        | [d, t, s] => if d ≠ 2 then none else if rest = [] then some ⟨m.data, true, t, s⟩ else none
        | _ => none

/-! ### vDSO -/

/-- strcmp_clock_gettime, x86_64/loader.h:9-25 and aarch64/loader.h:9-28. -/
def isClockGettime : Arch → Bytes → Bool
  | .x86, name =>
    name.length == 20 && unle (name.take 8) == 0x635f6f7364765f5f && unle ((name.drop 8).take 8) == 0x7465675f6b636f6c &&
    unle ((name.drop 16).take 4) == 0x656d6974
  | .arm, name =>
    name.length == 22 && unle (name.take 8) == 0x6c656e72656b5f5f && unle ((name.drop 8).take 8) == 0x675f6b636f6c635f &&
    unle ((name.drop 16).take 4) == 0x69747465 && unle ((name.drop 20).take 2) == 0x656d

/-- A section of the vDSO: whether it's of dynamic symbols, and their names and values. -/
abbrev Section := Bool × List (Bytes × Nat)

/-- loader.c:268-286. -/
def findClock (a : Arch) (base : Nat) : List Section → Option Nat
  | [] => none
  | (false, _) :: rest => findClock a base rest
  | (true, syms) :: rest =>
    match syms.find? (fun s => isClockGettime a s.1) with
    | some s => some (base + s.2)
    | none => findClock a base rest

/-- start.S, both: the search of the vDSO's address in the auxiliary vector, which ends with a zero. -/
def findVdso : List (Nat × Nat) → Option Nat
  | [] => none
  | (t, v) :: rest => if t = 33 then some v else if t = 0 then none else findVdso rest

/-! ### Address space -/

structure Prot where
  r : Bool
  w : Bool
  x : Bool
deriving DecidableEq, Repr

def rw : Prot := ⟨true, true, false⟩
def rx : Prot := ⟨true, false, true⟩
def noAccess : Prot := ⟨false, false, false⟩

/-- What's mapped. -/
inductive Back where
  | anon
  | text (off : Nat)
  | state (off : Nat)
  /-- The loader's own mappings, and the kernel's. -/
  | other
deriving DecidableEq, Repr

abbrev Space := Nat → Option (Prot × Back)

/-- mmap with MAP_FIXED: replaces what there is, up to a page's end. -/
def mmap (ps addr len : Nat) (p : Prot) (off : Nat) (b : Nat → Back) (s : Space) : Option Space :=
  if len = 0 ∨ addr % ps ≠ 0 ∨ off % ps ≠ 0 then none
  else some fun x => if addr ≤ x ∧ x < addr + alignPage ps len then some (p, b (off + (x - addr))) else s x

/-- mprotect, of something which is mapped. -/
def mprotect (ps addr len : Nat) (p : Prot) (s : Space) : Option Space :=
  if addr % ps ≠ 0 then none
  else some fun x => if addr ≤ x ∧ x < addr + alignPage ps len then (s x).map fun m => (p, m.2) else s x

def munmap (ps addr len : Nat) (s : Space) : Option Space :=
  if len = 0 ∨ addr % ps ≠ 0 then none
  else some fun x => if addr ≤ x ∧ x < addr + alignPage ps len then none else s x

/-! ### Loading -/

/-- The system calls. -/
inductive Sys where
  | pdeathsig | rlimitNofile | rlimitNproc | dumpable | recv | gettime | mmapRuntime | mmapText | closeText | mmapStack | mmapHeap | protHeap
  | closeState | protVector | fcntlIn | fcntlOut | munmapStack | sigSegv | sigXcpu | munmapLoader | seccomp
deriving DecidableEq, Repr

/-- runtime functions (the vector's). -/
inductive Func where
  | nop | stop | debug | write | read | poll | time | random | currentMemory | growMemory | trapHandler
deriving DecidableEq, Repr

/-- The circumstances. -/
structure Env where
  arch : Arch
  /-- The page size. -/
  ps : Nat
  /-- Which system calls fail. -/
  fail : Sys → Bool
  argc : Nat := 0
  envEmpty : Bool := true
  auxv : List (Nat × Nat)
  /-- The vDSO's sections. -/
  vdso : List Section
  /-- The address in the loader's stack after the vDSO's in the auxiliary vector. -/
  envp : Nat
  /-- The address space when the loader starts. -/
  space0 : Space
  /-- The state file's contents. -/
  file0 : File
  msg : Msg
  /-- The monotonic clock: seconds and nanoseconds. -/
  sec : Nat
  nsec : Nat
  /-- Offsets of runtime functions. -/
  func : Func → Nat
  /-- What is written to the stack as arguments of system calls. -/
  scratch : Bytes
  /-- A suspend signal has been received when the program would start. -/
  suspended : Bool

structure St where
  space : Space
  file : File
  /-- The vector: what is at `textAddr - 8 * k`. -/
  vector : Nat → Option Nat
  debug : Bool
  /-- Stack pointer, as an offset of the stack. -/
  sp : Nat
  seccomp : Bool
  handlers : List Sys

inductive Step where
  | sys (c : Sys) (code : Nat) (f : St → Option St)
  | do_ (f : St → St)

inductive End where
  /-- exit_group. -/
  | exit (code : Nat)
  /-- The program's code is executed, at the address. -/
  | enter (addr : Nat)
deriving DecidableEq, Repr

/-- The execution of steps: what is left of it when one fails. -/
def exec (fail : Sys → Bool) : List Step → St → St × Option Nat
  | [], s => (s, none)
  | .do_ f :: k, s => exec fail k (f s)
  | .sys c code f :: k, s =>
    if fail c then (s, some code)
    else match f s with
      | none => (s, some code)
      | some s' => exec fail k s'

/-- An operation on the address space. -/
def onSpace (f : Space → Option Space) (s : St) : Option St := (f s.space).map fun x => { s with space := x }
/-- A system call which has no effect on what is modelled. -/
def plain (s : St) : Option St := some s

/-- runtime/include/runtime.h:33-43, 59-61; loader/Makefile:11. -/
abbrev loaderStackSize : Nat := 12288
abbrev stackLimitOffset : Nat := 64 + 4832 * 2 + 240 + 8 + 8
abbrev loaderAddr : Nat := 0x200000000

/-- loader.c:375-384: the stack variables. -/
def vars (i : Info) : Bytes :=
  le 4 0 ++ le 4 (i.initMemorySize / 65536) ++ le 8 i.monotonicTime ++ le 4 16 ++ le 4 0 ++ le 8 i.textAddr ++ le 8 stackMagic ++ le 8 stackMagic ++
  le 8 stackMagic ++ le 8 stackMagic

/-- loader.c:387-394: the initial stack frame. -/
def frame (i : Info) (s : St) : St :=
  if i.stackUnused = i.stackSize then
    { s with file := write (write s.file (i.stackSize - 8) (le 8 i.entryAddr)) (i.stackSize - 16) (le 8 i.startAddr), sp := i.stackSize - 16 }
  else { s with sp := i.stackUnused }

/-- loader.c:439-459: the vector. `memory`: the address of the linear memory. -/
def vector (e : Env) (i : Info) (clock : Nat) (debug : Bool) (k : Nat) : Option Nat :=
  let f (x : Func) := some (i.textAddr - i.pageSize + e.func x)
  match k with
  | 18 => f .nop
  | 17 => f .stop
  | 16 => f (if debug then .debug else .nop)
  | 15 => f .write
  | 14 => f .read
  | 13 => f .poll
  | 12 => f .time
  | 11 => some clock
  | 10 => some (e.sec * 1000000000 + (e.nsec &&& i.timeMask))
  | 9 => some i.timeMask
  | 8 => some (unle (i.random.take 8))
  | 7 => some (unle (i.random.drop 8))
  | 6 => f .random
  | 5 => some (i.growMemorySize / 65536)
  | 4 => some (i.heapAddr + i.globalsSize)
  | 3 => f .currentMemory
  | 2 => f .growMemory
  | 1 => f .trapHandler
  | _ => none

/-- Where the arguments of rt_sigaction and seccomp are: x86_64/loader.h:70-71, aarch64/loader.h:60,74. -/
def scratchAt (a : Arch) (s : St) : Nat :=
  match a with
  | .x86 => s.sp - 32
  | .arm => stackLimitOffset - 256

/-- loader.c:342-480 and `enter` of x86_64/loader.h and aarch64/loader.h. -/
def mapSteps (e : Env) (i : Info) (clock : Nat) (debug : Bool) : List Step :=
  let heapSize := i.globalsSize + i.growMemorySize
  let heapAllocated := i.globalsSize + i.initMemorySize
  [.sys .mmapRuntime 26 (onSpace (mmap e.ps (i.textAddr - i.pageSize) i.pageSize rw 0 (fun _ => .anon))),
   .sys .mmapText 28 (onSpace (mmap e.ps i.textAddr i.textSize rx 0 .text)),
   .sys .closeText 42 plain,
   .sys .mmapStack 29 (onSpace (mmap e.ps i.stackAddr i.stackSize rw 0 .state)),
   .do_ fun s => { s with file := write s.file 0 (vars i) },
   .do_ (frame i)] ++
  (if heapSize > 0 then
    [.sys .mmapHeap 30 (onSpace (mmap e.ps i.heapAddr heapSize noAccess i.stackSize .state))] ++
    (if heapAllocated > 0 then [.sys .protHeap 41 (onSpace (mprotect e.ps i.heapAddr heapAllocated rw))] else [])
   else []) ++
  [.sys .closeState 31 plain,
   .do_ fun s => { s with vector := vector e i clock debug, debug := debug },
   .sys .protVector 27 (onSpace (mprotect e.ps (i.textAddr - i.pageSize) i.pageSize rx)),
   .sys .fcntlIn 39 plain,
   .sys .fcntlOut 40 plain,
   .sys .munmapStack 32 (onSpace (munmap e.ps (alignPage e.ps e.envp - alignPage e.ps loaderStackSize) (alignPage e.ps loaderStackSize))),
   .do_ fun s => { s with file := write s.file (scratchAt e.arch s) (e.scratch.take 32) },
   .sys .sigSegv 33 fun s => some { s with handlers := s.handlers ++ [.sigSegv] },
   .sys .sigXcpu 33 fun s => some { s with handlers := s.handlers ++ [.sigXcpu] },
   .sys .munmapLoader 34 (onSpace (munmap e.ps loaderAddr 65536)),
   .sys .seccomp 35 fun s => some { s with seccomp := true }]

/-- Before the image information, loader.c:257-318. -/
def preSteps : List Step :=
  [.sys .rlimitNofile 19 plain, .sys .rlimitNproc 20 plain, .sys .dumpable 21 plain, .sys .recv 23 plain]

/-- When the loader starts. -/
def initial (e : Env) : St := ⟨e.space0, e.file0, fun _ => none, false, 0, false, []⟩

/-- runtime_init_no_sandbox, x86_64/runtime.S:121-140, aarch64/runtime.S:133-147: the stack is marked as dirty just before the program starts. -/
def begin_ (e : Env) (i : Info) (s : St) : St × End :=
  if e.suspended then (s, .exit 102)
  else ({ s with file := write s.file 0 (le 4 4294967295) }, .enter (i.textAddr + i.initRoutine))

/-- Mapping and the rest, when the image information has been received. -/
def loadInfo (e : Env) (r : Received) (clock : Nat) (s : St) : St × End :=
  if unle (member r.info 0) ≠ magic1 then (s, .exit 24)
  else if unle (member r.info 17) ≠ magic2 then (s, .exit 25)
  else if e.fail .gettime then (s, .exit 45)
  else match exec e.fail (mapSteps e (decode r.info) clock r.debug) s with
    | (s, some code) => (s, .exit code)
    | (s, none) => begin_ e (decode r.info) s

/-- main, with the clock function's address. -/
def loadClock (e : Env) (clock : Nat) : St × End :=
  match exec e.fail preSteps (initial e) with
  | (s, some code) => (s, .exit code)
  | (s, none) =>
    match receive e.msg with
    | none => (s, .exit 23)
    | some r => loadInfo e r clock s

/-- The loader: _start and main. -/
def load (e : Env) : St × End :=
  if e.argc ≠ 0 ∨ e.envEmpty = false then (initial e, .exit 36)
  else match findVdso e.auxv with
    | none => (initial e, .exit 37)
    | some base =>
      if e.fail .pdeathsig then (initial e, .exit 18)
      else match findClock e.arch base e.vdso with
        | none => (initial e, .exit 44)
        | some clock => loadClock e clock

end Gate.Loader
