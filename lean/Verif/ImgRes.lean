/-
Model of how package image opens, maps and releases: image/build.go, image/instance.go NewInstance, image/snapshot.go Snapshot,
image/filesystem.go, image/memory.go and internal/file/file.go.

Simplified: of system calls which allocate nothing only success or failure is modelled (`sys`); several consecutive ones are one if
a failure of any of them has the same consequences.  Finalizers (internal/file/file.go:22-33) are not modelled: they would close
what has leaked.
-/
namespace Gate.ImgRes

/-- image.Build (image/build.go:55-68): its files and mappings. -/
structure Build where
  prog : Option Nat
  inst : Option Nat
  compileMem : Option Nat
  moduleMem : Option Nat
deriving DecidableEq, Repr

/-- The resources of the server process. -/
structure St where
  /-- Open files. -/
  files : List Nat
  nextFile : Nat
  maps : List Nat
  nextMap : Nat
  /-- Close calls of a file which isn't open: internal/file/file.go:35-42 closes descriptor -1, and returns an error. -/
  bad : Nat
  /-- Number of system calls so far. -/
  t : Nat
  b : Build
deriving DecidableEq, Repr

/-- A function which may fail. `ω`: which system calls succeed. -/
def M (α : Type) := (ω : Nat → Bool) → St → Option α × St

instance : Monad M where
  pure a := fun _ s => (some a, s)
  bind m f := fun ω s =>
    match m ω s with
    | (none, s) => (none, s)
    | (some a, s) => f a ω s

/-- Returns an error. -/
def fail {α : Type} : M α := fun _ s => (none, s)

def sys : M Unit := fun ω s => (if ω s.t then some () else none, { s with t := s.t + 1 })

/-- image/openat.go, memfd_create (image/memory_memfd.go:21-25). -/
def openFile : M Nat := fun ω s =>
  if ω s.t then (some s.nextFile, { s with files := s.nextFile :: s.files, nextFile := s.nextFile + 1, t := s.t + 1 })
  else (none, { s with t := s.t + 1 })

/-- internal/file/file.go:35-42. -/
def close (f : Nat) : M Unit := fun _ s =>
  if f ∈ s.files then (some (), { s with files := s.files.erase f }) else (some (), { s with bad := s.bad + 1 })

/-- image/mmap.go:12-19. -/
def mmap : M Nat := fun ω s =>
  if ω s.t then (some s.nextMap, { s with maps := s.nextMap :: s.maps, nextMap := s.nextMap + 1, t := s.t + 1 })
  else (none, { s with t := s.t + 1 })

/-- image/mmap.go:21-25 mustMunmap. -/
def munmap (m : Nat) : M Unit := fun _ s => (some (), { s with maps := s.maps.erase m })

/-- `defer func() { if err != nil { cleanup } }()` around the rest of a function. -/
def onErr {α : Type} (cleanup : M Unit) (m : M α) : M α := fun ω s =>
  match m ω s with
  | (none, s) => (none, (cleanup ω s).2)
  | r => r

/-- `defer cleanup`. -/
def always {α : Type} (cleanup : M Unit) (m : M α) : M α := fun ω s =>
  match m ω s with
  | (r, s) => (r, (cleanup ω s).2)

/-- image/filesystem.go:75-88, 167-180; image/memory.go:40-53 and image/memory_memfd.go:21-39: the new file is sized. -/
def newFile : M Nat := do
  let f ← openFile
  onErr (close f) sys
  return f

/-! ### Loading, storing, instantiating -/

/-- image/filesystem.go:35-64: both directories are made, then opened. -/
def newFilesystem : M (Nat × Nat) := do
  sys
  let p ← openFile
  onErr (close p) do
    let i ← openFile
    return (p, i)

/-- image/filesystem.go:123-165 loadProgram; 218-242 LoadInstance. A missing file is no failure there, but then there's no file either:
`none`. -/
def load (exists_ : Bool) : M (Option Nat) :=
  if exists_ then do
    let f ← openFile
    onErr (close f) sys
    return some f
  else do
    sys
    return none

/-- image/memory.go:126-155 LoadInstance of a file which exists. -/
def loadMem : M Nat := do
  let o ← load true
  match o with
  | none => fail
  | some f0 =>
    onErr (close f0) do
      let f ← newFile
      onErr (close f) sys
      close f0
      return f

/-- image/memory.go:72-120 storeInstance: the temporary file is linked, and closed in any case. -/
def storeMem : M Unit := do
  let f ← newFile
  always (close f) sys

/-- image/instance.go:67-152 NewInstance. `copy`: there's something to copy; `write`: instanceFileWriteSupported. -/
def newInstance (copy write : Bool) : M Nat := do
  sys
  let f ← newFile
  onErr (close f) do
    if copy then
      if write then sys
      else do
        let m ← mmap
        always (munmap m) sys
    return f

/-- image/snapshot.go:24-374 Snapshot. -/
def snapshot : M Nat := do
  let m ← mmap
  always (munmap m) do
    sys
    let f ← newFile
    onErr (close f) sys
    return f

/-! ### Building -/

def getB : M Build := fun _ s => (some s.b, s)
def setB (f : Build → Build) : M Unit := fun _ s => (some (), { s with b := f s.b })

/-- image/build.go:416-423 munmapp of compileMem and of moduleMem. -/
def munmapCompile : M Unit := do
  let b ← getB
  setB fun b => { b with compileMem := none }
  match b.compileMem with
  | none => return ()
  | some m => munmap m

def munmapModule : M Unit := do
  let b ← getB
  setB fun b => { b with moduleMem := none }
  match b.moduleMem with
  | none => return ()
  | some m => munmap m

/-- image/build.go:392-395. -/
def munmapAll : M Unit := do
  munmapCompile
  munmapModule

/-- image/build.go:398-412 mmapp to compileMem; nothing is mapped for a length of zero. -/
def mmapCompile (nonzero : Bool) : M Unit :=
  if nonzero then do
    let m ← mmap
    setB fun b => { b with compileMem := some m }
  else return ()

def mmapModule : M Unit := do
  let m ← mmap
  setB fun b => { b with moduleMem := some m }

/-- What depends on the module. -/
structure Cfg where
  /-- The maximum text size isn't zero. -/
  text : Bool
  /-- The module's size isn't zero. -/
  module : Bool
  /-- An instance is built. -/
  inst : Bool
  /-- The stack usage is within the stack size. -/
  stackFits : Bool
  /-- There are a stack, globals or memory. -/
  state : Bool
  /-- ReadStack has been called if it has to. -/
  stackRead : Bool

/-- image/build.go:71-113 NewBuild. -/
def newBuild (c : Cfg) : M Unit := do
  setB fun _ => ⟨none, none, none, none⟩
  let f ← newFile
  setB fun b => { b with prog := some f }
  onErr (do munmapAll; close f) do
    mmapCompile c.text
    if c.module then mmapModule

/-- image/build.go:144-205 FinishText. -/
def finishText (c : Cfg) : M Unit :=
  if c.stackFits then do
    munmapCompile
    if c.inst then do
      let f ← newFile
      setB fun b => { b with inst := some f }
      onErr (close f) (mmapCompile c.state)
    else mmapCompile c.state
  else fail

/-- image/build.go:248-332 FinishProgram: the program gets the file. -/
def finishProgram (c : Cfg) : M (Option Nat) :=
  if c.stackRead then do
    if c.inst then sys
    sys
    munmapAll
    let b ← getB
    setB fun b => { b with prog := none }
    return b.prog
  else fail

/-- image/build.go:336-365 FinishInstance: the instance gets the file. -/
def finishInstance : M (Option Nat) := do
  sys
  let b ← getB
  setB fun b => { b with inst := none }
  return b.inst

def closeOpt : Option Nat → M Unit
  | none => return ()
  | some f => close f

/-- image/build.go:367-390 Close. -/
def closeBuild : M Unit := do
  let b ← getB
  closeOpt b.prog
  setB fun b => { b with prog := none }
  closeOpt b.inst
  setB fun b => { b with inst := none }
  munmapAll

/-- A user of a build calls FinishText, FinishProgram and FinishInstance in this order, for as long as they succeed and until it gives
up for some other reason (before call number `stop`), and then Close (server/program.go:90-215, build/build.go:314-380).  The files
which it got. -/
def calls (c : Cfg) (stop : Nat) (ω : Nat → Bool) (s : St) : List Nat × St :=
  if stop = 0 then ([], s) else
  match finishText c ω s with
  | (none, s) => ([], s)
  | (some _, s) =>
    if stop = 1 then ([], s) else
    match finishProgram c ω s with
    | (none, s) => ([], s)
    | (some p, s) =>
      if stop = 2 ∨ c.inst = false then (p.toList, s) else
      match finishInstance ω s with
      | (none, s) => (p.toList, s)
      | (some i, s) => (i.toList ++ p.toList, s)

/-- From NewBuild to Close.  If NewBuild fails, there's nothing to close. -/
def build (c : Cfg) (stop : Nat) (ω : Nat → Bool) (s : St) : List Nat × St :=
  match newBuild c ω s with
  | (none, s) => ([], s)
  | (some _, s) =>
    match calls c stop ω s with
    | (got, s) => (got, (closeBuild ω s).2)

end Gate.ImgRes
