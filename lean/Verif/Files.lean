import Verif.Base

/-! # Shared file references and complete writes

internal/file/fileref.go and internal/file/file.go. -/

namespace Gate.Files

/-! ## Reference counting

A `Ref` value is a pointer to a counted file, or nil.  A value got from Own, MustRef or Ref stands for one
count: it is `owned`.  Go lets a Ref be copied as a plain struct too, and File lends the pointer: such a
value is `lent`, it stands for no count, and it is not unreferenced (that is the callers' obligation).
Any number of goroutines may operate on the values; each atomic operation is one step. -/

/-- fileref.go:24-26.  The struct holds a pointer (counted or not), or nil. -/
inductive Ref | nil | owned | lent
deriving DecidableEq, Repr

/-- fileref.go:13-16 with the state of the program around it: the reference values in existence, the
number of Unref calls between clearing the reference (fileref.go:60) and the atomic decrement (62), and
the number between the decrement and Close (64).  `leaked` counts MustRef calls which panicked after having
incremented the count (41-42).  The count is an int32: fewer than 2^31 references are assumed. -/
structure St where
  count : Int
  refs : List Ref
  decs : Nat
  closing : Nat
  closed : Nat
  leaked : Nat
  panics : Nat
deriving DecidableEq, Repr

/-- fileref.go:28-35. -/
def own : St := ⟨1, [.owned], 0, 0, 0, 0, 0⟩

inductive Label
  | mustRef (i : Nat)
  | ref (i : Nat)
  | lend (i : Nat)
  | unref (i : Nat)
  | dec
  | close
deriving DecidableEq, Repr

/-- fileref.go:38-43 for a non-nil reference: the atomic increment, the test of its result, and the new
reference. -/
def addRef (s : St) : St :=
  if s.count + 1 ≤ 1 then
    { s with count := s.count + 1, leaked := s.leaked + 1, panics := s.panics + 1 }
  else
    { s with count := s.count + 1, refs := s.refs ++ [.owned] }

/-- fileref.go:38-68.  A nil dereference in MustRef is a panic. -/
def step (s : St) : Label → Option St
  | .mustRef i =>
    match s.refs[i]? with
    | none => none
    | some .nil => some { s with panics := s.panics + 1 }
    | some _ => some (addRef s)
  | .ref i =>
    match s.refs[i]? with
    | none => none
    | some .nil => some { s with refs := s.refs ++ [.nil] }
    | some _ => some (addRef s)
  | .lend i =>
    match s.refs[i]? with
    | none => none
    | some .nil => some { s with refs := s.refs ++ [.nil] }
    | some _ => some { s with refs := s.refs ++ [.lent] }
  | .unref i =>
    match s.refs[i]? with
    | none => none
    | some .nil => some s
    | some .owned => some { s with refs := s.refs.set i .nil, decs := s.decs + 1 }
    | some .lent => none
  | .dec =>
    if s.decs = 0 then none
    else if s.count - 1 = 0 then
      some { s with count := s.count - 1, decs := s.decs - 1, closing := s.closing + 1 }
    else if s.count - 1 < 0 then
      some { s with count := s.count - 1, decs := s.decs - 1, panics := s.panics + 1 }
    else
      some { s with count := s.count - 1, decs := s.decs - 1 }
  | .close =>
    if s.closing = 0 then none
    else some { s with closing := s.closing - 1, closed := s.closed + 1 }

def run : St → List Label → Option St
  | s, [] => some s
  | s, l :: ls => (step s l).bind (run · ls)

/-- The number of reference values which stand for a count. -/
def holders (s : St) : Nat := s.refs.countP (· == .owned)

/-! ## Writing

The kernel answers each write system call with one of these.  `wrote k`: it takes `k` bytes, or all it
was offered if that is less.  EAGAIN and EINTR are `again`. -/
inductive Resp
  | wrote (k : Nat)
  | again
  | fail (errno : Nat)
deriving DecidableEq, Repr

/-- The bytes which have reached the file, in the order in which the kernel took them, with their
positions. -/
abbrev Log := List (Nat × UInt8)

/-- `bytes` at consecutive positions from `pos`. -/
def placed : Nat → Bytes → Log
  | _, [] => []
  | pos, b :: bs => (pos, b) :: placed (pos + 1) bs

inductive Result
  | done (log : Log)
  | eof (log : Log)
  | error (errno : Nat) (log : Log)
  /-- The system call is in progress: the kernel has given no more answers. -/
  | waiting (log : Log)
  | panic
deriving DecidableEq, Repr

/-- The state of the inner loop of WriteVecAt (file.go:163-174) after it ends. -/
inductive Consumed
  | finished
  | again (bs : List Bytes)
  | panic
deriving DecidableEq, Repr

/-- file.go:163-174.  Indexing an empty slice panics. -/
def consume : List Bytes → Nat → Consumed
  | [], _ => .panic
  | b :: bs, n =>
    if n ≥ b.length then
      if n - b.length = 0 ∧ bs.length = 0 then .finished else consume bs (n - b.length)
    else .again (b.drop n :: bs)

/-- The position at which the kernel writes: the given offset, or the file position if it is negative
(pwritev2 with offset -1). -/
def position (offset : Int) (filePos : Nat) : Nat := if offset ≥ 0 then offset.toNat else filePos

/-- file.go:131-138: the buffers which are given to the kernel. -/
def vector (bs : List Bytes) : List Bytes := bs.filter (fun b => b.length > 0)

/-- The loop of WriteVecAt, file.go:130-175, with the list of the kernel's answers.  `filePos` is the
kernel's file position, which only writes at offset -1 use and advance. Offsets are
unbounded integers here, int64 in the code. -/
def writeVecLoop (bs : List Bytes) (offset : Int) (filePos : Nat) (log : Log) : List Resp → Result
  | [] => if (vector bs).length = 0 then .done log else .waiting log
  | .again :: rs => if (vector bs).length = 0 then .done log else writeVecLoop bs offset filePos log rs
  | .fail e :: _ => if (vector bs).length = 0 then .done log else .error e log
  | .wrote k :: rs =>
    if (vector bs).length = 0 then .done log
    else
      let data := (vector bs).flatten
      let n := min k data.length
      let log := log ++ placed (position offset filePos) (data.take n)
      if n = 0 then .eof log
      else
        let filePos := if offset ≥ 0 then filePos else filePos + n
        let offset := if offset ≥ 0 then offset + n else offset
        match consume bs n with
        | .finished => .done log
        | .panic => .panic
        | .again bs => writeVecLoop bs offset filePos log rs

/-- file.go:126-128. -/
def writeVecAt (b0 b1 : Bytes) (offset : Int) (filePos : Nat) (rs : List Resp) : Result :=
  writeVecLoop [b0, b1] offset filePos [] rs

/-- file.go:122-124. -/
def writeVec (b0 b1 : Bytes) (filePos : Nat) (rs : List Resp) : Result := writeVecAt b0 b1 (-1) filePos rs

/-- WriteAt's results, file.go:97-120: the number of bytes reported is beside the outcome. -/
def writeAt (b : Bytes) (offset : Nat) (n : Nat) (log : Log) : List Resp → Nat × Result
  | [] => if b.length > 0 then (n, .waiting log) else (n, .done log)
  | .again :: rs => if b.length > 0 then writeAt b offset n log rs else (n, .done log)
  | .fail e :: _ => if b.length > 0 then (n, .error e log) else (n, .done log)
  | .wrote k :: rs =>
    if b.length > 0 then
      let count := min k b.length
      let log := log ++ placed offset (b.take count)
      if count = 0 then (n, .eof log)
      else writeAt (b.drop count) (offset + count) (n + count) log rs
    else (n, .done log)

end Gate.Files
