import Verif.Base
/-
Model of the program and instance files of package image: image/build.go (FinishText,
FinishProgram, FinishInstance), image/instance.go (NewInstance, CheckMutation, Globals,
readStack, maxInstanceMemory), image/snapshot.go (the part of Snapshot which fills the stack,
globals and memory of the new program file, and its manifest), image/memory.go
(storeInstance, copyInstance), image/filesystem.go (storeInstance, LoadInstance),
build/build.go (SetMaxMemorySize) and runtime/loader/loader.c (the stack variables).

Not modelled here: the module and text parts of a program file (see SnapLayout), failures of
the file operations.  The manifest of a file is a separate field of the file; its bytes are in
Manifest.lean.
-/
namespace Gate.ImageFile
open Gate

/-- The contents of a (sparse) file: what has not been written is zero. -/
abbrev File := Nat → UInt8

def blank : File := fun _ => 0

/-- image/copyfilerange.go:15-39 (see CopyRange.lean for its loop), and io.Copy of a section of a file. -/
def copyRange (src : File) (srcOff : Nat) (dst : File) (dstOff len : Nat) : File :=
  fun i => if dstOff ≤ i ∧ i < dstOff + len then src (srcOff + (i - dstOff)) else dst i

/-- Writing bytes, by WriteAt or through a shared mapping. -/
def write (f : File) (off : Nat) (b : Bytes) : File :=
  fun i => if off ≤ i ∧ i < off + b.length then b.getD (i - off) 0 else f i

/-- ReadAt. -/
def read (f : File) (off len : Nat) : Bytes := (List.range len).map (fun k => f (off + k))

/-- image/build.go:33: the offset of the globals in a program file. The stack is before it. -/
abbrev progGlobalsOffset : Nat := 0x100000000

/-- internal/executable/runtime.go:10-14. -/
abbrev stackVarsSize : Nat := 64
abbrev stackUsageOffset : Nat := 64 + 4832 * 2 + 240

/-- image/stack.go:21. -/
abbrev initStackSize : Nat := 24

abbrev two32 : Nat := 4294967296

/-- image/instance.go:450-456 alignPageSize: `(n + pageMask) &^ pageMask`, for a page size which is a power of two. -/
def alignPage (ps n : Nat) : Nat := (n + (ps - 1)) / ps * ps

/-- manifest.Function. -/
structure Fn where
  index : Nat
  addr : Nat
deriving DecidableEq, Repr

/-- manifest.Snapshot. -/
structure Snap where
  flags : Nat
  trap : Nat
  result : Nat
  time : Nat
  breakpoints : List Nat
deriving DecidableEq, Repr

/-- The parts of manifest.Program which have to do with the state of instances. -/
structure ProgMan where
  textAddr : Nat
  stackUsage : Nat
  globalsSize : Nat
  memorySize : Nat
  memorySizeLimit : Int
  memoryDataSize : Nat
  start : Option Fn
  /-- EntryAddrs. -/
  entries : List Fn
  snap : Option Snap
deriving Repr

structure Prog where
  man : ProgMan
  file : File

/-- manifest.Instance. -/
structure InstMan where
  textAddr : Nat
  stackSize : Nat
  stackUsage : Nat
  globalsSize : Nat
  memorySize : Nat
  maxMemorySize : Nat
  start : Option Fn
  entry : Option Fn
  snap : Option Snap
deriving DecidableEq, Repr

/-- image.Instance (image/instance.go:57-65), without its name.  `written`: the manifest which is in the file. -/
structure Inst where
  man : InstMan
  dirty : Bool
  coherent : Bool
  file : File
  written : Option InstMan

inductive Err | memory | stack | suspended | invalid
deriving DecidableEq, Repr

/-- image/instance.go:439-447. -/
def maxInstanceMemory (limit : Int) (size : Nat) (n : Int) : Except Err Int :=
  let n := if limit ≥ 0 ∧ n > limit then limit else n
  if n ≥ 0 ∧ n < size then .error .memory else .ok n

/-- internal/manifest/manifest.go:33-47: panics for a function which is not an entry function, which the callers' name
resolution excludes (Entry.lean). Here such a function has address 0. -/
def entryFunc (entries : List Fn) : Option Nat → Option Fn
  | none => none
  | some i => some ((entries.find? (·.index = i)).getD ⟨i, 0⟩)

/-- image/instance.go:67-150 `NewInstance`. -/
def newInstance (ps : Nat) (p : Prog) (maxMemory : Int) (maxStack : Nat) (entry : Option Nat) : Except Err Inst :=
  match maxInstanceMemory p.man.memorySizeLimit p.man.memorySize maxMemory with
  | .error e => .error e
  | .ok maxMemory =>
    let stackSize := alignPage ps maxStack
    if p.man.stackUsage ≠ 0 ∧ entry.isSome then .error .suspended
    else
      let usage := p.man.stackUsage
      let textAddr := if p.man.stackUsage ≠ 0 then p.man.textAddr else 0
      if (usage : Int) > (stackSize : Int) - stackUsageOffset then .error .stack
      else
        let stackMap := alignPage ps usage
        let copyLen := stackMap + alignPage ps p.man.globalsSize + alignPage ps p.man.memoryDataSize
        .ok {
          man := {
            textAddr := textAddr, stackSize := stackSize % two32, stackUsage := usage,
            globalsSize := p.man.globalsSize, memorySize := p.man.memorySize,
            maxMemorySize := toUnsigned 32 maxMemory,
            start := p.man.start, entry := entryFunc p.man.entries entry, snap := p.man.snap },
          dirty := true, coherent := true,
          file := copyRange p.file (progGlobalsOffset - stackMap) blank (stackSize - stackMap) copyLen,
          written := none }

/-! ### Building -/

/-- What is put into a build: the call stack (already imported, image/build.go:203-224), the globals (the whole pages
before the memory) and the initial contents of the memory, both in the data buffer; and what ends up in the manifest. -/
structure Build where
  textAddr : Nat
  stackSize : Nat
  stack : Bytes
  globalsSize : Nat
  globals : Bytes
  memory : Bytes
  memorySize : Nat
  memorySizeLimit : Int
  start : Option Fn
  entries : List Fn
  /-- The snapshot section. -/
  snap : Option Snap

/-- image/build.go:311-316: the metadata which is taken from a snapshot section. manifest.SortDedupUint64 is in Debugger.lean;
the breakpoints are supposed to be sorted here. -/
def keepSnap (s : Option Snap) : Option Snap :=
  s.map fun s => { flags := 0, trap := 0, result := 0, time := s.time, breakpoints := s.breakpoints }

/-- image/build.go:139-189 `FinishText`: refused if the stack is too small. -/
def finishText (b : Build) : Except Err Unit :=
  if b.stackSize < stackUsageOffset + b.stack.length then .error .stack else .ok ()

/-- image/build.go:271-296, the manifest. -/
def progMan (b : Build) : ProgMan :=
  { textAddr := b.textAddr, stackUsage := b.stack.length, globalsSize := b.globalsSize, memorySize := b.memorySize,
    memorySizeLimit := b.memorySizeLimit, memoryDataSize := b.memory.length, start := b.start, entries := b.entries,
    snap := keepSnap b.snap }

/-- The mapping of the build: the stack is at the end of its pages, the data follows (image/build.go:149-175). `off`: the offset of
the data in the file. -/
def mapped (off : Nat) (b : Build) : File :=
  write (write blank (off - b.stack.length) b.stack) off (b.globals ++ b.memory)

/-- image/build.go:155-160: a program without an instance. -/
def buildProgram (b : Build) : Except Err Prog :=
  match finishText b with
  | .error e => .error e
  | .ok () => .ok ⟨progMan b, mapped progGlobalsOffset b⟩

/-- build/build.go:124-137 `SetMaxMemorySize`: alignMemorySize (400-403) rounds up to whole WebAssembly pages. -/
def setMaxMemory (b : Build) (maxMemory : Nat) : Except Err Int :=
  let n : Int := if b.memorySizeLimit ≥ 0 ∧ (maxMemory : Int) > b.memorySizeLimit then b.memorySizeLimit else maxMemory
  let n : Int := (n + 65535) / 65536 * 65536
  if (b.memorySize : Int) > n then .error .memory else .ok n

/-- image/build.go:161-178, 243-257 and 336-364: a program with an instance: the instance's file is filled first, and
copied to the program. -/
def buildBoth (ps : Nat) (b : Build) (maxMemory : Nat) (entry : Option Nat) : Except Err (Prog × Inst) :=
  match setMaxMemory b maxMemory with
  | .error e => .error e
  | .ok n =>
    match finishText b with
    | .error e => .error e
    | .ok () =>
      let stackSize := alignPage ps b.stackSize
      let file := mapped stackSize b
      let stackMap := alignPage ps b.stack.length
      let p : Prog := ⟨progMan b, copyRange file (stackSize - stackMap) blank (progGlobalsOffset - stackMap)
        (stackMap + alignPage ps (b.globals ++ b.memory).length)⟩
      match maxInstanceMemory b.memorySizeLimit b.memorySize n with
      | .error e => .error e
      | .ok n =>
        if entry.isSome ∧ b.stack.length ≠ 0 then .error .suspended
        else
          .ok (p, {
            man := {
              textAddr := b.textAddr, stackSize := stackSize % two32, stackUsage := b.stack.length,
              globalsSize := b.globalsSize, memorySize := b.memorySize, maxMemorySize := toUnsigned 32 n,
              start := b.start, entry := entryFunc b.entries entry, snap := keepSnap b.snap },
            dirty := false, coherent := true, file := file, written := none })

/-! ### Running -/

/-- image/instance.go:36-45, stackVars, and runtime/loader/loader.c, stack_vars. -/
structure Vars where
  unused : Nat
  pages : Nat
  time : Nat
  random : Int
  textAddr : Nat
  magic : List Nat
deriving DecidableEq, Repr

/-- binary.Read in image/instance.go:404. -/
def readVars (f : File) : Vars :=
  { unused := unle (read f 0 4), pages := unle (read f 4 4), time := unle (read f 8 8),
    random := toSigned 32 (unle (read f 16 4)), textAddr := unle (read f 24 8),
    magic := [unle (read f 32 8), unle (read f 40 8), unle (read f 48 8), unle (read f 56 8)] }

/-- image/instance.go:34. -/
abbrev stackMagic : Nat := 0x7b53c485c17322fe

/-- image/instance.go:403-428 `checkStack`. -/
def checkStack (v : Vars) (stackSize : Nat) : Bool :=
  if v.unused = 0 then true
  else if v.unused = two32 - 1 then false
  else if v.unused < stackUsageOffset ∨ v.unused > stackSize ∨ v.unused % 8 ≠ 0 then false
  else if v.pages > 2147483647 / 65536 then false
  else if v.random > 16 then false
  else v.magic.all (· == stackMagic)

/-- internal/manifest/manifest.go:49-54. -/
def inflate (s : Option Snap) : Snap := s.getD ⟨0, 0, 0, 0, []⟩

/-- image/instance.go:280-297 `BeginMutation`, without `Unstore`. -/
def beginMutation (i : Inst) : Except Err Inst :=
  if i.coherent = false then .error .invalid else .ok { i with coherent := false }

/-- image/instance.go:300-338 `CheckMutation`. -/
def checkMutation (i : Inst) : Except Err Inst :=
  if i.coherent then .ok i
  else
    let v := readVars i.file
    if checkStack v i.man.stackSize = false then .error .invalid
    else if v.unused = 0 then .ok { i with coherent := true }
    else
      let m := if v.unused = i.man.stackSize then { i.man with textAddr := 0, stackUsage := 0 }
        else { i.man with textAddr := v.textAddr, stackUsage := i.man.stackSize - v.unused }
      .ok { i with coherent := true, dirty := true, man := { m with
        memorySize := v.pages * 65536, start := none, entry := none, snap := some { inflate i.man.snap with time := v.time } } }

/-- image/instance.go:365-381 `readStack`: slicing panics if the usage exceeds the size. -/
def readStack (i : Inst) : Res Bytes :=
  if i.man.stackUsage = 0 then .ok []
  else if i.man.stackSize < i.man.stackUsage then .panic
  else .ok (read i.file (i.man.stackSize - i.man.stackUsage) i.man.stackUsage)

/-- image/instance.go:340-363 `Globals`; `n`: the number of the program's globals. Slicing may panic. -/
def globals (ps : Nat) (i : Inst) (n : Nat) : Res (List Nat) :=
  let b := read i.file (i.man.stackSize + alignPage ps i.man.globalsSize - i.man.globalsSize) i.man.globalsSize
  if b.length < n * 8 then .panic
  else .ok ((List.range n).map fun k => unle ((b.drop (b.length - (k + 1) * 8)).take 8))

/-! ### Snapshots -/

/-- snapshot.FlagFinal (snapshot/snapshot.go). -/
def final (s : Option Snap) : Bool := (inflate s).flags % 2 == 1

/-- image/snapshot.go:31-50 and 313-374: the state of the new program. -/
def snapshot (ps : Nat) (old : Prog) (i : Inst) (suspended : Bool) : Prog :=
  let keep := suspended || final i.man.snap
  let usage := if keep then (if i.man.stackUsage ≠ 0 then i.man.stackUsage else if suspended then initStackSize else 0) else 0
  let textAddr := if keep ∧ i.man.stackUsage ≠ 0 then i.man.textAddr else 0
  let gsize := alignPage ps i.man.globalsSize
  let f := if keep ∧ i.man.stackUsage ≠ 0 then
      copyRange i.file (i.man.stackSize - alignPage ps usage) blank (progGlobalsOffset - alignPage ps usage) (alignPage ps usage)
    else blank
  { man := { textAddr := textAddr, stackUsage := usage, globalsSize := old.man.globalsSize, memorySize := i.man.memorySize,
             memorySizeLimit := old.man.memorySizeLimit, memoryDataSize := i.man.memorySize, start := old.man.start,
             entries := old.man.entries, snap := old.man.snap }
    file := copyRange i.file i.man.stackSize f progGlobalsOffset (gsize + i.man.memorySize) }

/-! ### Storing -/

/-- image/memory.go:157-173 `copyInstance`, and the same in 73-91. -/
def copyInstance (ps : Nat) (man : InstMan) (src dst : File) : File :=
  let o := man.stackSize + alignPage ps man.globalsSize - man.globalsSize
  copyRange src o
    (copyRange src (man.stackSize - man.stackUsage) dst (man.stackSize - man.stackUsage) man.stackUsage)
    o ((man.globalsSize + man.memorySize) % two32)

/-- A file in the instance directory. -/
structure Stored where
  data : File
  man : Option InstMan

/-- image/filesystem.go:185-196: the instance's own file is linked; its manifest is written if it is dirty. -/
def storeFs (i : Inst) : Inst × Stored :=
  let w := if i.dirty then some i.man else i.written
  ({ i with dirty := false, written := w }, ⟨i.file, w⟩)

/-- image/memory.go:73-115: a new file. -/
def storeMem (ps : Nat) (i : Inst) : Inst × Stored :=
  ({ i with dirty := false }, ⟨copyInstance ps i.man i.file blank, some i.man⟩)

/-- image/filesystem.go:218-242: fails if there is no manifest. -/
def loadFs (s : Stored) : Except Err Inst :=
  match s.man with
  | none => .error .invalid
  | some m => .ok ⟨m, false, true, s.data, some m⟩

/-- image/memory.go:126-155. -/
def loadMem (ps : Nat) (s : Stored) : Except Err Inst :=
  match s.man with
  | none => .error .invalid
  | some m => .ok ⟨m, false, true, copyInstance ps m s.data blank, none⟩

end Gate.ImageFile
