import Verif.Auth
/-
Model of cmd/gate/main/load.go 15-64 `download` (the `export` command of the gate program).

The processes's effects on files are listed step by step: the program may die at any of them.  The
directory is that of the destination; other files in it, and what a failure of the operating system loses,
aren't modelled (nothing is synchronized to the disk).
-/
namespace Gate.Download
open Gate.Auth

/-- A file: its content and mode bits. -/
structure File where
  content : Bytes
  mode : Nat
deriving DecidableEq

/-- What is at the destination's path. -/
inductive Node where
  | absent
  | regular (f : File)
  /-- A symbolic link to a regular file: opening follows it, renaming replaces it. -/
  | link (f : File)
  /-- A device, pipe, etc., and what has been written to it. -/
  | special (written : Bytes)
deriving DecidableEq

structure World where
  dest : Node
  /-- The file with a random name, ".*.wasm". -/
  temp : Option File
  stdout : Bytes
deriving DecidableEq

/-- What the environment does. -/
structure Env where
  /-- The filename argument is empty. -/
  noName : Bool
  /-- Opening for writing fails though the file exists. -/
  openFails : Bool
  statFails : Bool
  /-- `get()`: the announced length (-1: unknown); `none`: the program ended in it. -/
  get : Option Int
  /-- What is copied, read by read; `copyFails`: a read or a write fails after them. -/
  chunks : List Bytes
  copyFails : Bool
  tempFails : Bool
  closeFails : Bool
  renameFails : Bool

/-- How the program ends: `fatal` is log.Fatal, which exits at once: deferred functions aren't called. -/
inductive Exit where
  | ok
  | fatal
deriving DecidableEq

/-- Where the data goes. -/
inductive Out where
  | stdout
  | opened
  | temp
deriving DecidableEq

/-- load.go:22-42: `none` is fatal. -/
def choose (e : Env) (w : World) : Option Out :=
  if e.noName then some .stdout
  else match w.dest with
    | .absent => some .temp
    | .regular _ => if e.openFails then none else if e.statFails then none else some .temp
    | .link _ => if e.openFails then none else if e.statFails then none else some .temp
    | .special _ => if e.openFails then none else if e.statFails then none else some .opened

/-- A write of `io.Copy`. -/
def write (w : World) (o : Out) (b : Bytes) : World :=
  match o with
  | .stdout => { w with stdout := w.stdout ++ b }
  | .opened => match w.dest with
    | .special s => { w with dest := .special (s ++ b) }
    | _ => w
  | .temp => match w.temp with
    | some f => { w with temp := some { f with content := f.content ++ b } }
    | none => w

/-- `checkCopy(out, in)`: the states it goes through (the last one is the one after it). -/
def copy (w : World) (o : Out) : List Bytes → List World
  | [] => [w]
  | b :: bs => w :: copy (write w o b) o bs

/-- load.go:59-62: `os.Rename(out.Name(), filename)`. -/
def rename (w : World) : World :=
  match w.temp with
  | some f => { w with dest := .regular f, temp := none }
  | none => w

def size (cs : List Bytes) : Nat := (cs.map List.length).sum

/-- load.go:55-63: after the output has been made. `w` is the state at the end of the copying. -/
def finish (e : Env) (o : Out) (length : Int) (w : World) : List World × Exit :=
  if e.copyFails then ([], .fatal)
  else if (size e.chunks : Int) ≠ length then ([], .fatal)
  else if e.closeFails then ([], .fatal)
  else if o = .temp then
    if e.renameFails then ([], .fatal) else ([rename w], .ok)
  else ([], .ok)

/-- load.go:15-64 `download`: the states it goes through, and how it ends.  The file made by `ioutil.TempFile`
is empty and has mode 0600. -/
def download (e : Env) (w : World) : List World × Exit :=
  match choose e w with
  | none => ([w], .fatal)
  | some o =>
    match e.get with
    | none => ([w], .fatal)
    | some length =>
      if o = .temp ∧ e.tempFails then ([w], .fatal)
      else
        let w1 := if o = .temp then { w with temp := some ⟨[], 0o600⟩ } else w
        let ws := copy w1 o e.chunks
        let f := finish e o length (ws.getLast (by cases h : e.chunks <;> simp [ws, copy, h]))
        (w :: ws ++ f.1, f.2)

end Gate.Download
