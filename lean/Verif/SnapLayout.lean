import Verif.Sections
/-
Model of `image.Snapshot`, image/snapshot.go:24-376: how a new module is put together from the
old program's module and newly made sections, and the manifest which describes it.

Not modelled: the rest of the program file (object map, text, stack, globals and memory
copies), and failures of the file operations.
-/
namespace Gate.SnapLayout
open Gate

/-- A `*manifest.ByteRange`: nil, or offset and length. -/
abbrev Range := Option (Nat × Nat)

/-- The parts of `manifest.Program` which describe the module. `secs` has the standard
sections' ranges by section identifier (0 to 11). -/
@[ext] structure Man where
  moduleSize : Int
  secs : List Range
  snap : Nat × Nat
  wrap : Range
  buffer : Nat × Nat
  stack : Nat × Nat
deriving DecidableEq, Repr

/-- Field access through a pointer which may be nil. -/
def deref : Range → Res (Nat × Nat)
  | none => .panic
  | some r => .ok r

/-- `oldRanges[i].Length`. -/
def lenOf (secs : List Range) (i : Nat) : Res Nat :=
  match secs[i]? with
  | none => .panic
  | some r => do let x ← deref r; .ok x.2

/-- `GetLength` of a possibly nil range. -/
def getLength : Range → Nat
  | none => 0
  | some r => r.2

/-- `mapOldSection`, snapshot.go:669-678: the range and the next offset. -/
def mapOld (off len : Nat) : Range × Nat := if len ≠ 0 then (some (off, len), off + len) else (none, off)

/-- `mapNewSection`, snapshot.go:680-688. -/
def mapNew (off len : Nat) : Range × Nat := (if len ≠ 0 then some (off, len) else none, off + len)

/-- The new sections (whole: frame, header and contents). -/
structure New where
  mem : Bytes
  glob : Bytes
  snap : Bytes
  buffer : Bytes
  stack : Bytes
  data : Bytes

/-- The frame which hides an export section, see `Sections.makeExportSectionWrapFrame`. -/
abbrev frame := Sections.makeExportSectionWrapFrame

/-- The loop over the sections up to the table section, snapshot.go:176-182, from the last one
down: the end of the last one which is there. Its condition dereferences the range. -/
def copyEnd : List Range → Res Nat
  | [] => .ok 8
  | r :: rs => do
    let x ← deref r
    if x.2 ≠ 0 then .ok (x.1 + x.2) else copyEnd rs

/-- `image.Snapshot`: `old` is the contents of the old module file, `hide` says that the
instance is suspended or final (snapshot.go:36 and 91). Copying a range of a file is `slice`. -/
def snapshot (old : Bytes) (man : Man) (new : New) (hide : Bool) : Res (Bytes × Man) := do
  -- snapshot.go:70-74
  let l1 ← lenOf man.secs 1
  let l2 ← lenOf man.secs 2
  let l3 ← lenOf man.secs 3
  let l4 ← lenOf man.secs 4
  let (r1, off) := mapOld 8 l1
  let (r2, off) := mapOld off l2
  let (r3, off) := mapOld off l3
  let (r4, off) := mapOld off l4
  -- snapshot.go:76-85
  let (r5, off) := mapNew off new.mem.length
  let (r6, off) := mapNew off new.glob.length
  let snapOff := off
  let off := off + new.snap.length
  -- snapshot.go:87-114
  let l7 ← lenOf man.secs 7
  let (wrap, r7, off) :=
    (if hide then
      if l7 ≠ 0 then
        let wl := if getLength man.wrap ≠ 0 then getLength man.wrap else (frame l7).length + l7
        (some (off, wl), some (off + wl - l7, l7), off + wl)
      else (none, none, off)
    else
      (none, (mapOld off l7).1, (mapOld off l7).2) : Range × Range × Nat)
  -- snapshot.go:116-117
  let l9 ← lenOf man.secs 9
  let (r9, off) := mapOld off l9
  let l10 ← lenOf man.secs 10
  let (r10, off) := mapOld off l10
  -- snapshot.go:119-136
  let bufOff := off
  let off := off + new.buffer.length
  let stackOff := if new.stack.length ≠ 0 then off else 0
  let off := off + new.stack.length
  let (r11, _) := mapNew off new.data.length
  -- snapshot.go:139-163
  let l5 ← lenOf man.secs 5
  let l6 ← lenOf man.secs 6
  let l8 ← lenOf man.secs 8
  let l11 ← lenOf man.secs 11
  let size : Int := man.moduleSize - l5 - l6 - man.snap.2 - getLength man.wrap
  let size : Int := if getLength man.wrap = 0 then size - l7 else size
  let size : Int := size - l8 - man.buffer.2 - man.stack.2 - l11
  let size : Int := size + new.mem.length + new.glob.length + new.snap.length + getLength wrap
  let x7 ← (if getLength wrap = 0 then (do let x ← deref r7; .ok x.2) else .ok 0 : Res Nat)
  let size : Int := size + x7 + new.buffer.length + new.stack.length + new.data.length
  -- snapshot.go:175-189: header and sections up to table
  let copyLen ← copyEnd [r4, r3, r2, r1]
  let part1 := slice old 0 copyLen
  let oldOff := copyLen
  -- snapshot.go:191-205
  let oldOff := oldOff + l5 + l6 + man.snap.2
  -- snapshot.go:207-227: exports
  let (copyLen, pre, oldOff) :=
    (if getLength wrap ≠ 0 then
      if getLength man.wrap ≠ 0 then (getLength man.wrap, [], oldOff)
      else (l7, frame l7, oldOff)
    else (l7, [], if getLength man.wrap ≠ 0 then oldOff + (getLength man.wrap - l7) else oldOff) : Nat × Bytes × Nat)
  let part2 := pre ++ slice old oldOff copyLen
  let oldOff := oldOff + copyLen
  -- snapshot.go:229-237: start section is skipped, element and code copied
  let oldOff := oldOff + l8
  let part3 := slice old oldOff (l9 + l10)
  let oldOff := oldOff + (l9 + l10)
  -- snapshot.go:239-298: new buffer, stack and data sections; then the rest
  let oldOff := oldOff + man.buffer.2 + man.stack.2 + l11
  let part4 := slice old oldOff (man.moduleSize - oldOff).toNat
  .ok (part1 ++ new.mem ++ new.glob ++ new.snap ++ part2 ++ part3 ++ new.buffer ++ new.stack ++ new.data ++ part4,
    { moduleSize := size
      secs := [none, r1, r2, r3, r4, r5, r6, r7, none, r9, r10, r11]
      snap := (snapOff, new.snap.length)
      wrap := wrap
      buffer := (bufOff, new.buffer.length)
      stack := (stackOff, new.stack.length) })

end Gate.SnapLayout
