import Verif.ScopeAlias
/-
C121: the scope of a program which is started through the daemon. C122: calls made while the daemon is being initialized. cmd/gate-daemon/main/daemoncmd.go:168-196, 234, 262-500, 749-754.
C123: instances which are left running when the request which started them has ended. server/context.go:36-40, server/server.go:1152-1168, server/instance.go:260-270, 460, runtime/io.go:67, 225-228, server/web/handler.go:149-150, 902-976, 1119-1190, 1275-1286.
-/
namespace Gate.Daemon
open Gate.ScopeAlias (Pkg context)

/-! ### C121 -/

/-- The variable `ctx` of methods, daemoncmd.go:262, which all of the closures share: the scope in it, and how many contexts have been derived one from another. `used`: the scope of the context given to the server by each call that has started a program. -/
structure Scopes where
  ctx : Option (List Bytes) := none
  depth : Nat := 0
  used : Nat → Option (Option (List Bytes)) := fun _ => none

/-- Calls (Call, CallFile, Launch, LaunchFile, ResumeInstance) are numbered; the bus library runs each in its own goroutine. -/
inductive SLabel where
  | assign (c : Nat) (scope : List Bytes)
  | use (c : Nat)
  deriving DecidableEq, Repr

def sstep (p : Pkg) (s : Scopes) : SLabel → Scopes
  /- daemoncmd.go:296, 322, 390, 415, 448 (`=`, not `:=`); scope.go:76-90. -/
  | .assign _ scope => { s with ctx := context p s.ctx scope, depth := if scope = [] ∧ s.ctx = none then s.depth else s.depth + 1 }
  /- daemoncmd.go:297, 323, 391, 416, 449: the variable is read again. -/
  | .use c => { s with used := fun c' => if c' = c then some s.ctx else s.used c' }

def srun (p : Pkg) (s : Scopes) : List SLabel → Scopes
  | [] => s
  | l :: ls => srun p (sstep p s l) ls

/-! ### C122 -/

/-- Where a call is in the function `s`, daemoncmd.go:264-276. -/
inductive Caller where
  | absent   -- 264: hasn't been made yet
  | start    -- 265
  | second   -- 268
  | receive  -- 269
  | last     -- 272
  | got      -- returned the server
  | aborted  -- 275: panicked
  deriving DecidableEq, Repr

/-- `server`: initedServer. `chanVar`: whether `inited` isn't nil. `buf`, `closed`: the channel. `sent`: the daemon has been initialized. -/
structure InitSt where
  server : Bool := false
  chanVar : Bool := true
  buf : Bool := false
  sent : Bool := false
  closed : Bool := false
  caller : Nat → Caller := fun _ => .absent

inductive ILabel where
  | enter (c : Nat)
  | move (c : Nat)
  | init
  | terminate
  deriving DecidableEq, Repr

def setCaller (f : Nat → Caller) (c : Nat) (v : Caller) : Nat → Caller := fun c' => if c' = c then v else f c'

/-- Accesses of the shared variables are taken to be atomic (they are data races). -/
def istep (s : InitSt) : ILabel → Option InitSt
  | .enter c => if s.caller c = .absent then some { s with caller := setCaller s.caller c .start } else none
  | .move c =>
    match s.caller c with
    | .start => some { s with caller := setCaller s.caller c (if s.server then .got else .second) }
    | .second => some { s with caller := setCaller s.caller c (if s.chanVar then .receive else .last) }
    | .receive =>
      if s.buf then some { s with buf := false, server := true, chanVar := false, caller := setCaller s.caller c .last }
      else if s.closed then some { s with server := false, chanVar := false, caller := setCaller s.caller c .last }
      else none
    | .last => some { s with caller := setCaller s.caller c (if s.server then .got else .aborted) }
    | _ => none
  /- daemoncmd.go:234. -/
  | .init => if s.sent = false ∧ s.closed = false then some { s with sent := true, buf := true } else none
  /- daemoncmd.go:176 (deferred). -/
  | .terminate => if s.closed = false then some { s with closed := true } else none

def irun (s : InitSt) : List ILabel → Option InitSt
  | [] => some s
  | l :: ls => (istep s l).bind fun u => irun u ls

/-! ### C123 -/

/-- context.Context: Background; WithCancel; WithValue. -/
inductive Ctx where
  | background
  | cancelable (id : Nat) (parent : Ctx)
  | value (parent : Ctx)
  deriving DecidableEq, Repr

/-- Whether the Done channel is closed, given which cancel functions have been called: it's that of the closest cancelable ancestor, which is canceled with its own parent. -/
def Ctx.done (canceled : Nat → Bool) : Ctx → Bool
  | .background => false
  | .cancelable id p => canceled id || p.done canceled
  | .value p => p.done canceled

/-- What net/http gives to a handler: the request's context within the connection's; both are canceled by the library: the former when the handler returns, both when the client goes away. -/
def requestContext (r : Nat) : Ctx := .cancelable (2 * r) (.cancelable (2 * r + 1) (.value .background))

/-- What the web handlers and the server do with it: handler.go:149 (address), 902, 1119, 1161, 1276 (operation), 918 etc. (principal and scope), and the access policy's: values, any number of them. -/
def withValues : Nat → Ctx → Ctx
  | 0, c => c
  | n + 1, c => .value (withValues n c)

/-- detachedContext, context.go:36-40. -/
def detached (c : Ctx) : Ctx := .value c

/-- contextWithInstanceID, instance.go:460. -/
def withInstanceID (c : Ctx) : Ctx := .value c

inductive Phase where
  | none | running | suspending | suspended | ended
  deriving DecidableEq, Repr

/-- `Call`: handleCall, which waits for the instance; `launch`: also resume. -/
inductive Kind where
  | call | launch
  deriving DecidableEq, Repr

structure Sys where
  canceled : Nat → Bool := fun _ => false
  /-- Handlers which have returned. -/
  returned : Nat → Bool := fun _ => false
  phase : Nat → Phase := fun _ => .none
  ctx : Nat → Ctx := fun _ => .background
  /-- The request by which an instance was started last, and how; none: through the bus. -/
  by_ : Nat → Option (Nat × Kind) := fun _ => none
  /-- Somebody has asked for the suspension of the instance since it was started. -/
  asked : Nat → Bool := fun _ => false
  /-- The client of the request has gone away. -/
  gone : Nat → Bool := fun _ => false

inductive Label where
  | start (i r : Nat) (k : Kind) (n : Nat) -- the handler of a request starts (or resumes) the instance
  | startBus (i n : Nat)                   -- the daemon does
  | return_ (r : Nat)                      -- the handler returns
  | drop (r : Nat)                         -- the client goes away
  | ask (i : Nat)                          -- SuspendInstance
  | notice (i : Nat)                       -- the I/O loop notices that the context is done
  | suspended (i : Nat)
  | end_ (i : Nat)                         -- the program exits, or is killed
  deriving DecidableEq, Repr

def set {α : Type} (f : Nat → α) (k : Nat) (v : α) : Nat → α := fun k' => if k' = k then v else f k'

/-- An instance can be started if it hasn't been, or has been suspended. -/
def idle : Phase → Bool
  | .none => true
  | .suspended => true
  | _ => false

inductive Step : Sys → Label → Sys → Prop where
  /-- server.go:1165, instance.go:460. -/
  | start (s : Sys) (i r : Nat) (k : Kind) (n : Nat) : idle (s.phase i) = true → s.returned r = false → s.gone r = false →
    Step s (.start i r k n) { s with phase := set s.phase i .running, ctx := set s.ctx i (withInstanceID (detached (withValues n (requestContext r)))), by_ := set s.by_ i (some (r, k)), asked := set s.asked i false }
  /-- daemoncmd.go:168-173: the bus connection's context is canceled only when the connection is closed, at exit; that isn't modelled. -/
  | startBus (s : Sys) (i n : Nat) : idle (s.phase i) = true →
    Step s (.startBus i n) { s with phase := set s.phase i .running, ctx := set s.ctx i (withInstanceID (detached (withValues n .background))), by_ := set s.by_ i none, asked := set s.asked i false }
  /-- handler.go:969-976, 1110: the handler of a call returns after the instance has stopped (Wait), or its context is done. -/
  | return_ (s : Sys) (r : Nat) : s.returned r = false → (∀ i, s.by_ i = some (r, .call) → s.phase i = .running ∨ s.phase i = .suspending → s.gone r = true) →
    Step s (.return_ r) { s with returned := set s.returned r true, canceled := set s.canceled (2 * r) true }
  | drop (s : Sys) (r : Nat) : s.returned r = false → Step s (.drop r) { s with gone := set s.gone r true, canceled := set (set s.canceled (2 * r) true) (2 * r + 1) true }
  /-- io.go:221-223. -/
  | ask (s : Sys) (i : Nat) : s.phase i = .running → Step s (.ask i) { s with asked := set s.asked i true, phase := set s.phase i .suspending }
  /-- io.go:225-228. -/
  | notice (s : Sys) (i : Nat) : s.phase i = .running → (s.ctx i).done s.canceled = true → Step s (.notice i) { s with phase := set s.phase i .suspending }
  | suspended (s : Sys) (i : Nat) : s.phase i = .suspending → Step s (.suspended i) { s with phase := set s.phase i .suspended }
  | end_ (s : Sys) (i : Nat) : s.phase i = .running ∨ s.phase i = .suspending → Step s (.end_ i) { s with phase := set s.phase i .ended }

inductive Steps : Sys → List Label → Sys → Prop where
  | nil (s : Sys) : Steps s [] s
  | cons {s t u : Sys} {l : Label} {ls : List Label} : Step s l t → Steps t ls u → Steps s (l :: ls) u

def Reachable (s : Sys) : Prop := ∃ ls, Steps {} ls s

end Gate.Daemon
