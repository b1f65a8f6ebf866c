import Verif.Auth
/-
C115: request details in contexts and events. server/context.go (all of it), internal/principal/principalid.go:76-87.
Contexts are immutable values; the detail.Context objects which they refer to are on a heap, and may be shared.
-/
namespace Gate.ReqContext

/-- detail.Context, server/detail/detail.proto:43-49. -/
structure Detail where
  iface : Nat := 0
  req : Nat := 0
  addr : Bytes := []
  op : Nat := 0
  principal : Bytes := []
  deriving DecidableEq, Repr

/-- The objects which have been allocated; references are indices. -/
abbrev Heap := List Detail

/-- What a context.Context carries of interest here: the principal id (principalid.go:76-87) and the reference under contextKey (context.go:15), if any. -/
structure Ctx where
  pri : Option Bytes := none
  ref : Option Nat := none
  deriving DecidableEq, Repr

/-- The object behind a reference. -/
def get (h : Heap) (r : Nat) : Detail := h[r]?.getD {}

/-- ContextDetail, context.go:42-63: the heap afterwards and the reference returned. -/
def detail (h : Heap) (c : Ctx) : Heap × Nat :=
  match c.ref with
  | some r =>
    match c.pri with
    | some p => if (get h r).principal ≠ p then (h ++ [{ get h r with principal := p }], h.length) else (h, r)
    | none => (h, r)
  | none =>
    match c.pri with
    | some p => (h ++ [{ principal := p }], h.length)
    | none => (h ++ [{}], h.length)

/-- ContextWithIface, ContextWithRequestAddr, ContextWithOp and detachedContext have this form, context.go:17-40: the object given by ContextDetail is modified in place. -/
def derive (f : Detail → Detail) (h : Heap) (c : Ctx) : Heap × Ctx :=
  let (h', r) := detail h c
  (h'.modify r f, { c with ref := some r })

/-- context.go:17-21. -/
def withIface (iface : Nat) := derive fun d => { d with iface := iface }
/-- context.go:23-28. -/
def withRequestAddr (req : Nat) (addr : Bytes) := derive fun d => { d with req := req, addr := addr }
/-- context.go:30-34. -/
def withOp (op : Nat) := derive fun d => { d with op := op }
/-- context.go:36-40. -/
def detached := derive fun d => { d with addr := [] }

/-- ContextWithID, principalid.go:78-80. -/
def withID (p : Bytes) (c : Ctx) : Ctx := { c with pri := some p }

/-- ContextOp, context.go:66-71. -/
def op (h : Heap) (c : Ctx) : Nat :=
  match c.ref with
  | some r => (get h r).op
  | none => 0

end Gate.ReqContext
