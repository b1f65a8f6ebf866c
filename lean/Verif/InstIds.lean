import Verif.LifecycleProps
/-
C171: instance ids. Instances of an account which come and go under the same ids, with their common storage; each instance as in Verif.Lifecycle.

  server/server.go 1137-1153 `_checkAccountInstanceID` (only a preliminary check), 1244-1304 `_registerProgramRefInstance`, 1307-1320 `deleteNonexistentInstance`,
  1212-1224 `_getInstanceBorrowProgram`, server/account.go `_checkUniqueInstanceID`.

Simplified: one account; the file names of instances of different ids are different (C105). A client which has got hold of an instance goes on with it, whatever happens to its id.
-/
namespace Gate.InstIds
open Gate.Life Gate.Process

/-- Instances, in the order of their creation; the storage's content by id. -/
structure World where
  objs : List (String × St) := []
  files : String → Option Meta := fun _ => none

/-- server/account.go `_checkUniqueInstanceID`, server.go:1212-1224: the account's map has an instance by the id. -/
def taken (w : World) (id : String) : Bool := w.objs.any fun p => p.1 == id && p.2.registered

inductive Label where
  /-- server.go:1268-1304: the critical section. -/
  | launch (id : String) (transient suspend : Bool) (md : Meta) (entry : Nat)
  /-- A critical section of the instance with the number. `remove`, server.go:1307-1320, is that of the server: `x.inst == inst`. -/
  | op (k : Nat) (l : Life.Label)

inductive Resp where
  | launched (k : Nat)
  | exists_
  | inst (r : Life.Resp)
deriving DecidableEq, Repr

/-- A critical section; none: it can't be the next one. The instance's storage is what is found under its name. -/
def step (w : World) : Label → Option (World × Resp)
  | .launch id t su md e =>
    if taken w id then some (w, .exists_)
    else some ({ w with objs := w.objs ++ [(id, Life.launch t su md e)] }, .launched w.objs.length)
  | .op k l =>
    match w.objs[k]? with
    | none => none
    | some (id, s) =>
      match Life.step { s with file := w.files id } l with
      | none => none
      | some (s', r) => some ({ objs := w.objs.set k (id, s'), files := fun i => if i = id then s'.file else w.files i }, .inst r)

inductive Reach : World → Prop
  | init : Reach {}
  | step {w l w' r} : Reach w → step w l = some (w', r) → Reach w'

/-- A history. -/
def run (w : World) : List Label → Option (World × List Resp)
  | [] => some (w, [])
  | l :: ls =>
    match step w l with
    | none => none
    | some (w', r) =>
      match run w' ls with
      | none => none
      | some (w'', rs) => some (w'', r :: rs)

end Gate.InstIds
