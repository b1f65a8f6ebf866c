import Verif.Manifest
/-
Model of storing, unstoring, mutating and loading instances, as a sequence of system calls which
may fail, with crashes at any point: image/filesystem.go:171-242 (newInstanceFile,
storeInstance, LoadInstance), image/memory.go:66-155 (the same of PersistentMemory),
image/instance.go:152-201 (Store, Unstore, Close) and 278-298 (BeginMutation), image/linkat.go.
Any number of instances are handled concurrently; each system call is a step.

Assumed of the operating system: fdatasync of a file makes its contents durable, and of a
directory its entries; what has been changed since then may or may not be on the disk after a
crash, independently for each byte of a file and each entry of a directory. A file made with
O_TMPFILE can be linked once; when its last link has been removed it can't be linked again
(vfs_link in Linux: ENOENT, for an inode which has no links and isn't linkable; after the first
link it isn't linkable).

Simplifications: one directory. PersistentMemory copies the whole file (what it really copies is in
ImageFile.lean). Reading files doesn't fail. Loading an instance is modelled for files which aren't
already open as instances, as in the server's startup.
-/
namespace Gate.Storage
open Gate Gate.ImageFile

abbrev Name := Nat

/-- Inode numbers: of a file which was made since the computer was started, or of a file which was found at start. -/
inductive Ino where
  | tmp (k : Nat)
  | found (boot : Nat) (n : Name)
deriving DecidableEq, Repr

structure Inode where
  /-- What reading the file gives. -/
  live : File
  /-- The contents since the last successful sync, latest first: the disk has some of each. -/
  past : List File
  nlink : Nat
  linkable : Bool

abbrev Dir := Name → Option Ino

/-- Where in a method the instance is. -/
inductive Pc where
  | idle
  /-- Store: before writing the manifest, before syncing the file, before linking it, before syncing the directory. -/
  | st1 (n : Name) | st2 (n : Name) | st3 (n : Name) | st4 (n : Name)
  /-- Unstore, which may be called by BeginMutation: before removing the link, before syncing the directory. -/
  | un1 (n : Name) (mutate : Bool) | un2 (n : Name) (mutate : Bool)
  | closed
deriving DecidableEq, Repr

/-- image.Instance. -/
structure Handle where
  /-- The file. With PersistentMemory, the stored copy. -/
  ino : Ino
  /-- The file of PersistentMemory. -/
  mem : File
  man : Bytes
  dirty : Bool
  coherent : Bool
  name : Option Name
  pc : Pc
  /-- An error was returned by Store after linking or by Unstore. (Not in the program.) -/
  failed : Bool

structure St where
  inodes : Ino → Inode
  nextIno : Nat
  dir : Dir
  /-- The directory's contents since its last successful sync. -/
  pastDirs : List Dir
  boots : Nat
  handles : Nat → Handle
  nextHandle : Nat
  /-- What Store has been asked to store, by name. (Not in the program.) -/
  saved : Name → List File

def blankInode : Inode := ⟨blank, [blank], 0, true⟩

/-- An empty directory. -/
def init : St :=
  ⟨fun _ => blankInode, 0, fun _ => none, [fun _ => none], 0,
    fun _ => ⟨.tmp 0, blank, [], false, false, none, .closed, false⟩, 0, fun _ => []⟩

/-- What the directory may contain after a crash. -/
def Crash (s : St) (c : Name → Option File) : Prop :=
  ∀ n, ∃ d ∈ s.pastDirs, match d n with
    | none => c n = none
    | some i => ∃ f, c n = some f ∧ ∀ k, ∃ v ∈ (s.inodes i).past, f k = v k

def setH (s : St) (i : Nat) (h : Handle) : St := { s with handles := fun j => if j = i then h else s.handles j }
def setI (s : St) (i : Ino) (x : Inode) : St := { s with inodes := fun j => if j = i then x else s.inodes j }
/-- A change of the directory. -/
def setD (s : St) (d : Dir) : St := { s with dir := d, pastDirs := d :: s.pastDirs }
def Dir.set (d : Dir) (n : Name) (v : Option Ino) : Dir := fun m => if m = n then v else d m
def Inode.write (x : Inode) (f : File) : Inode := { x with live := f, past := f :: x.past }

inductive Label where
  /-- newInstanceFile. -/
  | create
  /-- The file gets new contents from a build or from the instance's process. -/
  | write (i : Nat) (f : File)
  /-- NewInstance or FinishInstance returns, or CheckMutation does: the manifest, and whether it is marked dirty. -/
  | ready (i : Nat) (man : Bytes) (dirty : Bool)
  /-- SetFinal, SetResult etc. -/
  | set (i : Nat) (man : Bytes)
  | store (i : Nat) (n : Name)
  | storeManifest (i : Nat)
  | storeSync (i : Nat) (ok : Bool)
  | storeLink (i : Nat) (ok : Bool)
  | storeSyncDir (i : Nat) (ok : Bool)
  | unstore (i : Nat) (mutate : Bool)
  | unstoreUnlink (i : Nat) (ok : Bool)
  | unstoreSyncDir (i : Nat) (ok : Bool)
  | close (i : Nat)
  | load (n : Name) (man : Bytes)
  | crash (c : Name → Option File)

/-- After a crash: the files which are found. -/
def reboot (s : St) (c : Name → Option File) : St :=
  { s with
    inodes := fun i => match i with
      | .tmp _ => blankInode
      | .found b n => if b = s.boots then (match c n with | some f => ⟨f, [f], 1, false⟩ | none => blankInode) else blankInode
    nextIno := 0
    dir := fun n => (c n).map fun _ => .found s.boots n
    pastDirs := [fun n => (c n).map fun _ => .found s.boots n]
    boots := s.boots + 1
    handles := init.handles
    nextHandle := 0 }

/-- One step. `none`: not possible, or the method returns an error without having done anything. `pmem`: PersistentMemory instead of
Filesystem. -/
def step (pmem : Bool) (s : St) : Label → Option St
  -- image/filesystem.go:163-179, image/memory.go:40-52
  | .create =>
    let s' := { s with nextIno := s.nextIno + 1, nextHandle := s.nextHandle + 1 }
    some (setH (setI s' (.tmp s.nextIno) blankInode) s.nextHandle ⟨.tmp s.nextIno, blank, [], false, false, none, .idle, false⟩)
  -- the process may write while the state is not coherent, anywhere before the manifest
  | .write i f =>
    let h := s.handles i
    if h.pc = .idle ∧ h.coherent = false then
      if pmem then some (setH s i { h with mem := f })
      else some (setI s h.ino ((s.inodes h.ino).write fun k => if k < Manifest.instManifestOffset then f k else (s.inodes h.ino).live k))
    else none
  | .ready i man dirty =>
    let h := s.handles i
    if h.pc = .idle ∧ h.coherent = false then some (setH s i { h with man := man, dirty := dirty || h.dirty, coherent := true }) else none
  -- image/instance.go:222-276
  | .set i man =>
    let h := s.handles i
    if h.pc = .idle then some (setH s i { h with man := man, dirty := true }) else none
  -- image/instance.go:153-170
  | .store i n =>
    let h := s.handles i
    if h.pc = .idle ∧ h.coherent = true ∧ h.name = none then some (setH s i { h with pc := .st1 n }) else none
  -- image/filesystem.go:186-192; image/memory.go:73-101
  | .storeManifest i =>
    let h := s.handles i
    match h.pc with
    | .st1 n =>
      if pmem then
        let f := Manifest.marshalManifest h.mem h.man Manifest.instManifestOffset Manifest.instanceTag
        let s := { s with nextIno := s.nextIno + 1, saved := fun m => if m = n then f :: s.saved m else s.saved m }
        some (setH (setI s (.tmp (s.nextIno - 1)) (blankInode.write f)) i { h with ino := .tmp (s.nextIno - 1), dirty := false, pc := .st2 n })
      else
        let x := s.inodes h.ino
        let x := if h.dirty then x.write (Manifest.marshalManifest x.live h.man Manifest.instManifestOffset Manifest.instanceTag) else x
        let s := { s with saved := fun m => if m = n then x.live :: s.saved m else s.saved m }
        some (setH (setI s h.ino x) i { h with dirty := false, pc := .st2 n })
    | _ => none
  -- image/filesystem.go:194-197; image/memory.go:103-106
  | .storeSync i ok =>
    let h := s.handles i
    match h.pc with
    | .st2 n =>
      if ok then
        let x := s.inodes h.ino
        some (setH (setI s h.ino { x with past := [x.live] }) i { h with pc := .st3 n })
      else some (setH s i { h with pc := .idle })
    | _ => none
  -- image/filesystem.go:199-202; image/memory.go:108-111
  | .storeLink i ok =>
    let h := s.handles i
    match h.pc with
    | .st3 n =>
      let x := s.inodes h.ino
      if ok ∧ s.dir n = none ∧ (x.nlink ≠ 0 ∨ x.linkable) then
        some (setH (setD (setI s h.ino { x with nlink := x.nlink + 1, linkable := false }) (Dir.set s.dir n (some h.ino))) i { h with pc := .st4 n })
      else some (setH s i { h with pc := .idle })
    | _ => none
  -- image/filesystem.go:204-211; image/memory.go:113-120
  | .storeSyncDir i ok =>
    let h := s.handles i
    match h.pc with
    | .st4 n =>
      if ok then some (setH { s with pastDirs := [s.dir] } i { h with name := some n, pc := .idle })
      else some (setH s i { h with pc := .idle, failed := true })
    | _ => none
  -- image/instance.go:172-181 and 280-297
  | .unstore i mutate =>
    let h := s.handles i
    if h.pc = .idle ∧ (mutate = false ∨ h.coherent = true) then
      match h.name with
      | none => some (setH s i { h with coherent := h.coherent && !mutate })
      | some n => some (setH s i { h with name := none, pc := .un1 n mutate })
    else none
  -- image/instance.go:187-194
  | .unstoreUnlink i ok =>
    let h := s.handles i
    match h.pc with
    | .un1 n mutate =>
      if ok then
        match s.dir n with
        | none => some (setH s i { h with pc := .un2 n mutate })
        | some j =>
          let x := s.inodes j
          some (setH (setD (setI s j { x with nlink := x.nlink - 1 }) (Dir.set s.dir n none)) i { h with pc := .un2 n mutate })
      else some (setH s i { h with pc := .idle, failed := true })
    | _ => none
  -- image/instance.go:196
  | .unstoreSyncDir i ok =>
    let h := s.handles i
    match h.pc with
    | .un2 _ mutate =>
      if ok then some (setH { s with pastDirs := [s.dir] } i { h with pc := .idle, coherent := h.coherent && !mutate })
      else some (setH s i { h with pc := .idle, failed := true })
    | _ => none
  -- image/instance.go:198-202
  | .close i =>
    let h := s.handles i
    if h.pc = .idle then some (setH s i { h with pc := .closed }) else none
  -- image/filesystem.go:218-242; image/memory.go:126-155
  | .load n man =>
    match s.dir n with
    | none => none
    | some j =>
      if s.pastDirs.all (fun d => d n == some j) ∧ (List.range s.nextHandle).all (fun k => (s.handles k).pc == .closed || (s.handles k).ino != j) then
        some (setH { s with nextHandle := s.nextHandle + 1 } s.nextHandle ⟨j, (s.inodes j).live, man, false, true, some n, .idle, false⟩)
      else none
  | .crash c => some (reboot s c)

end Gate.Storage
