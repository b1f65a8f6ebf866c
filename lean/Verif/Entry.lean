import Verif.Base

/-! # Entry functions and the order of snapshot sections

internal/build/resolve.go, image/program.go, internal/manifest/manifest.go, build/build.go,
image/instance.go. -/

namespace Gate.Entry

/-- An exported function: its name, its index, and whether its type is one an entry function may have
(wag's binding.IsEntryFuncType). -/
structure Export where
  name : String
  index : Nat
  entryType : Bool
deriving DecidableEq, Repr

/-- compile.Module.ExportFunc: the wasm validator guarantees that names are unique. -/
def exportFunc (exports : List Export) (name : String) : Option Export := exports.find? (·.name == name)

/-- internal/error/notfound: ErrStart, ErrFunction, ErrSuspended. -/
inductive Err | start | function | suspended
deriving DecidableEq, Repr

/-- `none` is index -1: no function is called. -/
abbrev Resolved := Except Err (Option Nat)

instance : DecidableEq Resolved := fun a b => match a, b with
  | .ok x, .ok y => if h : x = y then .isTrue (h ▸ rfl) else .isFalse (fun e => h (Except.ok.inj e))
  | .error x, .error y => if h : x = y then .isTrue (h ▸ rfl) else .isFalse (fun e => h (Except.error.inj e))
  | .ok _, .error _ => .isFalse nofun
  | .error _, .ok _ => .isFalse nofun

/-- internal/build/resolve.go:17-52. -/
def buildResolve (exports : List Export) (name : String) (started : Bool) : Resolved :=
  let start := if !started then exportFunc exports "_start" else none
  if name = "" then
    match start with
    | some e => if e.entryType then .ok (some e.index) else .ok none
    | none => .ok none
  else if start.isSome then .error .start
  else if name = "_start" then .ok none
  else
    match exportFunc exports name with
    | none => .error .function
    | some e => if !e.entryType then .error .function else .ok (some e.index)

/-- internal/manifest/manifest.go:15-31: the names and indexes of the entry functions.  (A Go map filled by
iterating the map of exports, whose names are unique.) -/
def entryIndexes (exports : List Export) : List (String × Nat) :=
  (exports.filter (·.entryType)).map (fun e => (e.name, e.index))

/-- internal/manifest/manifest.go:28: the function indexes with a known address. -/
def entryAddrs (exports : List Export) : List Nat := (exports.filter (·.entryType)).map (·.index)

/-- A Go map lookup. -/
def lookup (m : List (String × Nat)) (name : String) : Option Nat := (m.find? (·.1 == name)).map (·.2)

/-- image/program.go:39-72.  `snapshotSection`: the manifest has a snapshot section of nonzero length. -/
def programResolve (indexes : List (String × Nat)) (snapshotSection : Bool) (name : String) (started : Bool) : Resolved :=
  let start := if !snapshotSection && !started then lookup indexes "_start" else none
  if name = "" then
    match start with
    | some i => .ok (some i)
    | none => .ok none
  else if start.isSome then .error .start
  else if name = "_start" then .ok none
  else
    match lookup indexes name with
    | none => .error .function
    | some i => .ok (some i)

/-- internal/manifest/manifest.go:33-46. -/
def entryFunc (addrs : List Nat) : Option Nat → Res (Option Nat)
  | none => .ok none
  | some i => if i ∈ addrs then .ok (some i) else .panic

/-! ## The build -/

/-- What of a module concerns its entry: the exports, whether they are hidden in a gate.export section,
whether a snapshot section came before the code section, whether there is one at all, and the amount of
stack in it. -/
structure Module where
  exports : List Export
  hidden : Bool
  snapshotEarly : Bool
  snapshotSection : Bool
  stackUsage : Nat
deriving DecidableEq, Repr

/-- build/build.go:173-189 (the end of BindFunctions) with the initial entryIndex -1 (57). -/
def bind (m : Module) (name : String) : Resolved :=
  if m.hidden then
    if name ≠ "" then .error .suspended else .ok none
  else buildResolve m.exports name m.snapshotEarly

/-- The entry function of an instance made while the module is built: BindFunctions, the test of the stack
section loader (build.go:294-297) and FinishInstance (image/build.go:342-345).  The other work of the
build is assumed to succeed. -/
def startBuilt (m : Module) (name : String) : Resolved :=
  match bind m name with
  | .error e => .error e
  | .ok i => if i.isSome ∧ m.stackUsage ≠ 0 then .error .suspended else .ok i

/-- The entry function of an instance of a stored program: server.go:325 and NewInstance
(image/instance.go:79-84). -/
def startStored (m : Module) (name : String) : Resolved :=
  match programResolve (entryIndexes m.exports) m.snapshotSection name false with
  | .error e => .error e
  | .ok i => if i.isSome ∧ m.stackUsage ≠ 0 then .error .suspended else .ok i

/-! ## Section loaders -/

/-- The custom sections which have a loader: gate.snapshot, gate.export, gate.buffer, gate.stack. -/
inductive Name | snapshot | wrap | buffer | stack
deriving DecidableEq, Repr

/-- build/build.go:27-40, the parts which the loaders read and write: whether the present loaders of
gate.snapshot, gate.buffer and gate.stack load the section (the others refuse it with an error), whether
b.Snapshot is non-nil, and whether there is an entry function. -/
structure St where
  canSnapshot : Bool
  canBuffer : Bool
  canStack : Bool
  has : Bool
  entry : Bool
deriving DecidableEq, Repr

/-- build/build.go:61-118: InstallEarlySnapshotLoaders. -/
def early : St := ⟨true, false, false, false, false⟩

/-- One custom section; `none` is an error.  Its content is assumed to be well-formed and within limits.
build/build.go:62-77 (snapshot), 79-106 (export), 240-263 (buffer), 265-299 (stack). -/
def custom (s : St) : Name → Option St
  | .snapshot => if s.canSnapshot then some { s with canSnapshot := false, has := true } else none
  | .wrap => if s.has then some s else none
  | .buffer =>
    if s.canBuffer ∧ s.has then some { s with canSnapshot := false, canBuffer := false } else none
  | .stack =>
    if s.canStack ∧ s.has ∧ s.entry = false then
      some { s with canSnapshot := false, canBuffer := false, canStack := false }
    else none

/-- A module as the order of its sections: custom ones, the code section and the data section.  At the
code section BindFunctions decides the entry function (`entry`: one is called) and
InstallSnapshotDataLoaders (239-300) replaces two loaders; at the data section InstallLateSnapshotLoaders
(329-333) replaces three.  server/program.go:74-103. -/
inductive Section
  | custom (n : Name)
  | code (entry : Bool)
  | data
deriving DecidableEq, Repr

def section_ (s : St) : Section → Option St
  | .custom n => custom s n
  | .code e => some { s with canBuffer := true, canStack := true, entry := e }
  | .data => some { s with canSnapshot := false, canBuffer := false, canStack := false }

def load : St → List Section → Option St
  | s, [] => some s
  | s, x :: xs => (section_ s x).bind (load · xs)

/-- A module: custom sections before the code section, between it and the data section, and after it. -/
def sections (a b c : List Name) (entry : Bool) : List Section :=
  a.map .custom ++ [.code entry] ++ b.map .custom ++ [.data] ++ c.map .custom

def accepted (a b c : List Name) (entry : Bool) : Bool := (load early (sections a b c entry)).isSome

end Gate.Entry
