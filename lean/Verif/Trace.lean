import Verif.CallStackProps
/-
C147: the stack traces of the debugger (cmd/gate/main/debug.go): traceStack, applied to the stack which a debug request has read.
-/
namespace Gate.Trace
open Gate CallStack

/-- wag's stack.Frame. -/
structure TFrame where
  funcIndex : Nat
  retOff : Nat
  locals : List Nat
deriving DecidableEq, Repr

/-- A frame's parameters, debug.go:432-434: `locals[i] = buf[(numLocals-i+1)*8:]`. `buf` includes the link. Reading outside of the buffer panics. -/
def params (buf : List Nat) (numLocals : Nat) : Nat → Nat → Option (List Nat)
  | _, 0 => some []
  | i, k + 1 => (buf[numLocals - i + 1]?).bind fun w => (params buf numLocals (i + 1) k).map (w :: ·)

/-- A frame's other values, debug.go:436-438: `locals[numParams+i] = buf[(numOthers-i)*8:]`. -/
def others (buf : List Nat) (numOthers : Nat) : Nat → Nat → Option (List Nat)
  | _, 0 => some []
  | i, k + 1 => (buf[numOthers - i]?).bind fun w => (others buf numOthers (i + 1) k).map (w :: ·)

/-- debug.go:427-438. `none` is a panic. Stack offsets below 8 make the allocation or an index of the locals array panic. -/
def locals (buf : List Nat) (numParams : Nat) (stackOffset : Int) : Option (List Nat) :=
  if stackOffset < 8 then none
  else
    let numOthers := (stackOffset / 8 - 1).toNat
    (params buf (numParams + numOthers) 0 numParams).bind fun a => (others buf numOthers 0 numOthers).map (a ++ ·)

/-- debug.go:394-452: traceStack. Its errors are panics, which are `err` here if the code raises them itself, and `panic` if they are those of the language.
The stack is given in words (see CallStack.lean). -/
def traceLoop (m : Map) (g : Sigs) (retOff : Nat → Nat) (buf : List Nat) : Res (List TFrame) :=
  match buf with
  | [] => .err "ran out of stack before initial call"
  | pair :: rest =>
    match m.sites[pair % two32]? with
    | none => .err "function call site index is unknown"
    | some call =>
      if linkOffset pair ≠ call.stackOffset then .err "encoded stack offset does not match offset in map"
      else if m.isInit call.retAddr then .ok []
      else if call.stackOffset % 8 ≠ 0 then .err "invalid stack offset"
      else if call.stackOffset = 0 then .err "inconsistent call stack"
      else
        match m.findCall call.retAddr with
        | none => .err "call instruction not found for return address"
        | some c =>
          if c.init ∨ c.callIndex ≠ pair % two32 ∨ c.stackOffset ≠ call.stackOffset then .err "call instruction not found for return address"
          else
            match g.params c.funcIndex with
            | none => .panic
            | some n =>
              match locals (pair :: rest) n c.stackOffset with
              | none => .panic
              | some l =>
                if (c.stackOffset / 8).toNat > rest.length + 1 then .panic
                else
                  match traceLoop m g retOff (rest.drop ((c.stackOffset / 8).toNat - 1)) with
                  | .ok fs => .ok (⟨c.funcIndex, retOff call.retAddr, l⟩ :: fs)
                  | .err e => .err e
                  | .panic => .panic
termination_by buf.length
decreasing_by simp only [List.length_cons, List.length_drop]; omega

/-- debug.go:394-399. -/
def traceStack (m : Map) (g : Sigs) (retOff : Nat → Nat) (buf : List Nat) : Res (List TFrame) :=
  if buf.length = 0 then .err "invalid stack size" else traceLoop m g retOff buf

end Gate.Trace
