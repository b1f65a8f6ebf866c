import Verif.ImageFileProps
import Verif.FilesProps
/-
Model of the layout of program files: image/build.go (NewBuild, ModuleWriter, TextBuffer, FinishText, FinishProgram),
image/objectmap.go, the parts of image/filesystem.go (storeProgram, loadProgram), image/program.go (NewModuleReader) and
image/snapshot.go which have to do with the text, the module, the object map and the state (stack, globals, memory) sharing
one file.

Simplified: system calls other than the vectored write of the object map succeed (the others' errors are returned to the
caller, and there is no program then); the contents of sections made by Snapshot are arbitrary bytes here (they are in
SnapLayout.lean); the manifest is a record, and its encoding is arbitrary bytes (Manifest.lean).
-/
namespace Gate.ProgFile
open Gate Gate.ImageFile

/-- image/build.go:31-37. -/
abbrev textOffset : Nat := 0
def globalsOffset : Nat := 0x100000000
def moduleOffset : Nat := 0x200000000
def manifestOffset : Nat := 0x400000000

/-- wag's object.CallMap: call sites are pairs of 32-bit words (callSiteSize = 8, image/objectmap.go:15), function addresses are
32-bit words. -/
structure CallMap where
  sites : List (Nat × Nat)
  funcs : List Nat
deriving DecidableEq, Repr

/-- image/objectmap.go:21-33: the memory of the slice, on a little-endian machine. -/
def sitesBytes (m : CallMap) : Bytes := m.sites.flatMap fun s => le 4 s.1 ++ le 4 s.2

/-- image/objectmap.go:39-51. -/
def funcsBytes (m : CallMap) : Bytes := m.funcs.flatMap (le 4)

/-- image/objectmap.go:17-19. -/
def sitesSize (m : CallMap) : Nat := m.sites.length * 8

/-- image/objectmap.go:35-37. -/
def funcsSize (m : CallMap) : Nat := m.funcs.length * 4

/-- image/instance.go:451. -/
def align8 (n : Nat) : Nat := (n + 7) / 8 * 8

/-- Go's copy to a slice of `room` bytes, which is a shared mapping of the file at `off`. -/
def copyTo (f : File) (off room : Nat) (b : Bytes) : File := write f off (b.take room)

/-- image/objectmap.go:53-56; `none`: slicing panics. -/
def copyObjectMapTo (f : File) (off room : Nat) (m : CallMap) : Option File :=
  let f := copyTo f off room (sitesBytes m)
  if sitesSize m > room then none
  else some (copyTo f (off + sitesSize m) (room - sitesSize m) (funcsBytes m))

/-- The bytes which reached the file. -/
def applyLog (f : File) (log : Files.Log) : File := log.foldl (fun f e => fun i => if i = e.1 then e.2 else f i) f

/-- What's given to NewBuild (image/build.go:71), and the page size. -/
structure Cfg where
  ps : Nat
  moduleSize : Nat
  maxText : Nat
  map : CallMap
  inst : Bool

/-- What FinishText sets up (image/build.go:155-189): the mapping of the stack, the globals and the memory. -/
structure Fin where
  /-- Aligned stack size of the instance. -/
  stackSize : Nat
  usage : Nat
  globals : Nat
  memory : Nat
  /-- Length of the data buffer. -/
  dataLen : Nat

structure B where
  prog : File
  inst : File
  textLen : Nat
  modLen : Nat
  fin : Option Fin

/-- image/build.go:71-113 NewBuild. -/
def new : B := ⟨blank, blank, 0, 0, none⟩

def stackMap (c : Cfg) (n : Fin) : Nat := alignPage c.ps n.usage

def dataCap (c : Cfg) (n : Fin) : Nat := alignPage c.ps n.globals + alignPage c.ps n.memory

/-- image/build.go:191-196. -/
def sitesOffset (modSize : Nat) : Nat := moduleOffset + align8 modSize

/-- image/objectmap.go:58-60, called at image/build.go:203: the error isn't looked at. -/
def writeObjectMapAt (f : File) (off : Nat) (m : CallMap) (rs : List Files.Resp) : Option File :=
  match Files.writeVecAt (sitesBytes m) (funcsBytes m) off 0 rs with
  | .done log => some (applyLog f log)
  | .eof log => some (applyLog f log)
  | .error _ log => some (applyLog f log)
  | .waiting _ => none
  | .panic => none

/-- image/build.go:200-204 for an object map which starts at offset `off` of the file and `rel` of the module's mapping, which is
`memLen` bytes long, and ends (in whole pages) at `fin` of the mapping. -/
def putMapAt (f : File) (off rel fin memLen : Nat) (m : CallMap) (rs : List Files.Resp) : Option File :=
  if fin ≤ memLen then copyObjectMapTo f off (memLen - rel) m else writeObjectMapAt f off m rs

/-- image/build.go:102-108: mmapp rounds the length of the module's mapping up to whole pages (398-412). -/
def memLen (c : Cfg) : Nat := if c.moduleSize > 0 then alignPage c.ps c.moduleSize else 0

/-- image/build.go:191-204. -/
def putMap (c : Cfg) (f : File) (rs : List Files.Resp) : Option File :=
  putMapAt f (sitesOffset c.moduleSize) (sitesOffset c.moduleSize - moduleOffset)
    (alignPage c.ps (sitesOffset c.moduleSize + sitesSize c.map + funcsSize c.map) - moduleOffset)
    (memLen c) c.map rs

inductive Label
  /-- Writing to TextBuffer. -/
  | text (b : Bytes)
  /-- Writing to ModuleWriter. -/
  | mod (b : Bytes)
  /-- FinishText; `rs`: the kernel's answers to the vectored write. -/
  | finish (stackSize usage globals memory : Nat) (rs : List Files.Resp)
  /-- ResizeBytes of GlobalsMemoryBuffer. -/
  | resize (n : Nat)
  /-- ReadStack, or writing to GlobalsMemoryBuffer: at an offset of the mapping. -/
  | poke (off : Nat) (b : Bytes)

/-- Offset of the mapping in the file which it's of (image/build.go:166, 184). -/
def mapOffset (c : Cfg) (n : Fin) : Nat := (if c.inst then n.stackSize else globalsOffset) - stackMap c n

/-- One call; `none`: it isn't allowed then, or it fails, or it has not finished.  wag's static buffers don't grow over their
capacities (image/build.go:99, 110, 186). -/
def step (c : Cfg) (s : B) : Label → Option B
  | .text b =>
    if s.fin.isNone ∧ s.textLen + b.length ≤ c.maxText then
      some { s with prog := write s.prog (textOffset + s.textLen) b, textLen := s.textLen + b.length }
    else none
  | .mod b =>
    if s.modLen + b.length ≤ c.moduleSize then
      some { s with prog := write s.prog (moduleOffset + s.modLen) b, modLen := s.modLen + b.length }
    else none
  | .finish stackSize usage globals memory rs =>
    if s.fin.isSome ∨ stackSize < stackUsageOffset + usage then none
    else
      (putMap c s.prog rs).map fun f =>
        { s with prog := f, fin := some ⟨alignPage c.ps stackSize, usage, globals, memory, 0⟩ }
  | .resize n =>
    match s.fin with
    | none => none
    | some fin => if n ≤ dataCap c fin then some { s with fin := some { fin with dataLen := n } } else none
  | .poke off b =>
    match s.fin with
    | none => none
    | some fin =>
      if off + b.length ≤ stackMap c fin + fin.dataLen then
        if c.inst then some { s with inst := write s.inst (mapOffset c fin + off) b }
        else some { s with prog := write s.prog (mapOffset c fin + off) b }
      else none

def run (c : Cfg) (s : B) : List Label → Option B
  | [] => some s
  | l :: ls => (step c s l).bind fun s => run c s ls

/-- image.Program: the parts of its manifest which have to do with its file, and the object map in memory. -/
structure Program where
  file : File
  textSize : Nat
  moduleSize : Nat
  sitesSize : Nat
  funcsSize : Nat
  map : CallMap

/-- image/build.go:248-332 FinishProgram: what was built in the instance's file is copied to the program's (261-272); sizes in the
manifest are 32-bit. -/
def finishProgram (c : Cfg) (s : B) : Option Program :=
  match s.fin with
  | none => none
  | some n =>
    some {
      file := if c.inst then
          copyRange s.inst (mapOffset c n) s.prog (globalsOffset - stackMap c n) (stackMap c n + alignPage c.ps n.dataLen)
        else s.prog
      textSize := s.textLen % two32
      moduleSize := c.moduleSize
      sitesSize := sitesSize c.map % two32
      funcsSize := funcsSize c.map % two32
      map := c.map }

/-- What Snapshot gets from the instance (image/snapshot.go:24-300): the bytes of the new module; the pages of the stack, or 0; the
size of the globals' pages and the memory; the instance's file, and the offset of the globals there. -/
structure Snapped where
  module : Bytes
  stackMap : Nat
  dataLen : Nat
  inst : File
  instGlobals : Nat

/-- image/snapshot.go:164-374: the module, then the object map (301-306), the text (308-314), the stack (316-325), the globals and
the memory (327-333). -/
def snapshot (ps : Nat) (p : Program) (x : Snapped) : Program :=
  let f := write blank moduleOffset x.module
  let f := copyRange p.file (align8 (moduleOffset + p.moduleSize)) f (align8 (moduleOffset + x.module.length)) (p.sitesSize + p.funcsSize)
  let f := copyRange p.file textOffset f textOffset (alignPage ps p.textSize)
  let f := copyRange x.inst (x.instGlobals - x.stackMap) f (globalsOffset - x.stackMap) x.stackMap
  let f := copyRange x.inst x.instGlobals f globalsOffset x.dataLen
  { p with file := f, moduleSize := x.module.length }

/-- image/filesystem.go:92-96 storeProgram; `man`: the bytes of the manifest. The file is linked as it is. -/
def store (p : Program) (man : Bytes) : File := write p.file manifestOffset man

/-- Little-endian words. -/
def words : Bytes → List Nat
  | a :: b :: c :: d :: r => unle [a, b, c, d] :: words r
  | _ => []

def pairs : List Nat → List (Nat × Nat)
  | a :: b :: r => (a, b) :: pairs r
  | _ => []

/-- image/filesystem.go:123-165 loadProgram, when the manifest has been read. -/
def load (f : File) (textSize moduleSize sitesSize funcsSize : Nat) : Program :=
  let off := sitesOffset moduleSize
  { file := f, textSize := textSize, moduleSize := moduleSize, sitesSize := sitesSize, funcsSize := funcsSize
    map := ⟨pairs (words (read f off (sitesSize / 8 * 8))), words (read f (off + sitesSize) (funcsSize / 4 * 4))⟩ }

/-- image/program.go:79-81 NewModuleReader. -/
def moduleOf (p : Program) : Bytes := read p.file moduleOffset p.moduleSize

/-- image/program.go:74-77 Text, as it's mapped by the loader. -/
def textOf (p : Program) : Bytes := read p.file textOffset p.textSize

end Gate.ProgFile
