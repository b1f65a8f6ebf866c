import Verif.Base

/-! # Breakpoints and debug configuration

internal/manifest/sort.go, server/search.go, server/instance.go (_debug, apply),
image/instance.go (SetDebugInfo, SetBreakpoints). -/

namespace Gate.Dbg

/-! Breakpoint offsets are uint64 values, which are only compared: natural numbers here. -/

def insert (x : Nat) : List Nat → List Nat
  | [] => [x]
  | y :: ys => if x ≤ y then x :: y :: ys else y :: insert x ys

/-- Go's sort.Sort (sort.go:18): the standard library is trusted to yield the sorted permutation, which is
unique for a list of numbers, so that it does not matter which algorithm is written here. -/
def sort (a : List Nat) : List Nat := a.foldr insert []

/-- internal/manifest/sort.go:20-26, the loop from index `k + 1`. -/
def dedupLoop (a : List Nat) (k : Nat) : List Nat :=
  if h : k + 1 < a.length then
    if a[k]? = a[k + 1]? then dedupLoop (a.take k ++ a.drop (k + 1)) k else dedupLoop a (k + 1)
  else a
termination_by a.length - k
decreasing_by
  · simp only [List.length_append, List.length_take, List.length_drop]; omega
  · omega

/-- internal/manifest/sort.go:17-29. -/
def sortDedup (a : List Nat) : List Nat := dedupLoop (sort a) 0

/-- Go's sort.Search, the binary search between `i` and `j` for the first index at which `f` holds. -/
def searchLoop (f : Nat → Bool) (i j : Nat) : Nat :=
  if h : i < j then
    if !f ((i + j) / 2) then searchLoop f ((i + j) / 2 + 1) j else searchLoop f i ((i + j) / 2)
  else i
termination_by j - i
decreasing_by all_goals omega

/-- server/search.go:11-15. -/
def searchUint64 (a : List Nat) (x : Nat) : Nat := searchLoop (fun i => decide (a.getD i 0 ≥ x)) 0 a.length

/-- server/instance.go:584-588, one round: with the breakpoints, whether there has been a modification. -/
def unionStep (s : List Nat × Bool) (x : Nat) : List Nat × Bool :=
  if searchUint64 s.1 x = s.1.length ∨ s.1[searchUint64 s.1 x]? ≠ some x then
    (s.1.take (searchUint64 s.1 x) ++ x :: s.1.drop (searchUint64 s.1 x), true)
  else s

/-- server/instance.go:601-606, one round. -/
def complementStep (s : List Nat × Bool) (x : Nat) : List Nat × Bool :=
  if searchUint64 s.1 x < s.1.length ∧ s.1[searchUint64 s.1 x]? = some x then
    (s.1.take (searchUint64 s.1 x) ++ s.1.drop (searchUint64 s.1 x + 1), true)
  else s

/-- A Go slice of breakpoints: nil (`none`) and empty are different to reflect.DeepEqual. -/
abbrev Slice := Option (List Nat)

def Slice.list (s : Slice) : List Nat := s.getD []

/-- Debug information flag and breakpoints: api.DebugConfig, and the like parts of manifest.Snapshot. -/
structure Config where
  info : Bool
  breaks : Slice
deriving DecidableEq, Repr

/-- internal/manifest/manifest.go:13. -/
abbrev maxBreakpoints : Nat := 100

/-- api.DebugRequest: the configuration is a pointer, which is nil if the client left it out. -/
inductive Op
  | get
  | set (c : Option Config)
  | union (c : Option Config)
  | complement (c : Option Config)
  | readGlobals
  | readMemory
  | readStack
  | other
deriving DecidableEq, Repr

/-- server/instance.go: the parts of an Instance which _debug uses.  `image` is nil after the instance has been
annihilated; its configuration is read with nil-tolerant getters (image/instance.go:213-223). -/
structure Inst where
  running : Bool
  image : Option Config
  alt : Bool
deriving DecidableEq, Repr

/-- image/program.go:32-35: the program's configuration, which is dereferenced without a test: `none` is
the program which is not a snapshot, whose manifest has none. -/
abbrev Prog := Option Config

inductive Out
  /-- An error for the client. -/
  | refused (msg : String)
  /-- A panic which is not an error value, or is a runtime error: asError passes it on
  (server.go:1423-1437). -/
  | crash
  /-- The new state of the instance, and the configuration for which the program must be rebuilt. -/
  | ok (i : Inst) (rebuild : Option Config)
deriving DecidableEq, Repr

/-- image/instance.go:261-276: SetBreakpoints. -/
def setBreakpoints (old a : Slice) : Slice := if old.list.length = a.list.length ∧ old.list = a.list then old else a

/-- server/instance.go:629-657, after the operation has determined `info`, `breaks` and `modified`. -/
def finish (p : Prog) (i : Inst) (img : Config) (new : Config) (modified : Bool) : Out :=
  if modified then
    match p with
    | none => .crash
    | some pc =>
      if new.info = pc.info ∧ new.breaks = pc.breaks then
        .ok { i with alt := false, image := some ⟨new.info, setBreakpoints img.breaks pc.breaks⟩ } none
      else .ok i (some new)
  else .ok i none

/-- server/instance.go:537-671.  The stack export of ReadStack is left out (C35). -/
def debug (p : Prog) (i : Inst) (op : Op) : Out :=
  if op = .other then .refused "unsupported debug op"
  else if op ≠ .get ∧ i.running then .refused "instance must be stopped"
  else
    match i.image with
    | none => .crash
    | some img =>
      match op with
      | .get | .readStack => finish p i img img false
      | .readGlobals | .readMemory | .other => .crash
      | .set none | .union none | .complement none => .crash
      | .set (some c) =>
        if c.breaks.list.length > maxBreakpoints then .refused "too many breakpoints"
        else
          let breaks : Slice := c.breaks.map sortDedup
          finish p i img ⟨c.info, breaks⟩ (decide (c.info ≠ img.info ∨ breaks ≠ img.breaks))
      | .union (some c) =>
        if img.breaks.list.length + c.breaks.list.length > maxBreakpoints then .refused "too many breakpoints"
        else
          let r := c.breaks.list.foldl unionStep (img.breaks.list, c.info && !img.info)
          finish p i img ⟨img.info || c.info, some r.1⟩ r.2
      | .complement (some c) =>
        let r := c.breaks.list.foldl complementStep (img.breaks.list, c.info && img.info)
        finish p i img ⟨img.info && !c.info, some r.1⟩ r.2

/-- server/instance.go:679-708: the rebuilt program is taken into use if the configuration is still what
it was when _debug read it. -/
def apply (i : Inst) (old new : Config) : Out :=
  match i.image with
  | none => .crash
  | some img =>
    if img.info = old.info ∧ img.breaks = old.breaks then
      .ok { i with alt := true, image := some ⟨new.info, setBreakpoints img.breaks new.breaks⟩ } none
    else .refused "conflict"

end Gate.Dbg
