import Verif.Base

/-! # Portable and native call stacks

image/stack.go.  The buffers are handled in little-endian 8-byte words: the functions refuse buffers whose
length is not a multiple of 8, and all offsets they use are multiples of 8, so that a buffer is a list of
words (numbers below 2^64) here.  The image package's file names are given without the directory. -/

namespace Gate.CallStack

/-- wag's object.CallSite. -/
structure Site where
  retAddr : Nat
  stackOffset : Int
deriving DecidableEq, Repr

/-- wag's object.CallMap: the call sites and the addresses of the functions.  `funcOf` is the function in which
an address is (part of FindCall). -/
structure Map where
  sites : List Site
  funcAddrs : List Nat
  funcOf : Nat → Nat

/-- The call site precedes the functions: it is in the program's enter routine (stack.go:194). -/
def Map.isInit (m : Map) (retAddr : Nat) : Bool :=
  match m.funcAddrs with
  | [] => true
  | a :: _ => decide (retAddr < a)

structure Call where
  init : Bool
  funcIndex : Nat
  callIndex : Nat
  stackOffset : Int
deriving DecidableEq, Repr

/-- wag's TextMap.FindCall, which is external and trusted: the call site with the return address.  `none` is a
negative index. -/
def Map.findCall (m : Map) (retAddr : Nat) : Option Call :=
  match m.sites.findIdx? (fun s => s.retAddr == retAddr) with
  | none => none
  | some i => (m.sites[i]?).map (fun s => ⟨m.isInit retAddr, m.funcOf retAddr, i, s.stackOffset⟩)

/-- wag's TextMap.FindFunc, external and trusted: the function with the address. -/
def Map.findFunc (m : Map) (addr : Nat) : Option Nat := m.funcAddrs.findIdx? (fun a => a == addr)

/-- Function types as far as they matter: the number of parameters, and whether the type is one an entry
function may have.  `none` is an index out of range of funcTypeIndexes or types. -/
structure Sigs where
  params : Nat → Option Nat
  entry : Nat → Option Bool

abbrev max32 : Nat := 4294967295
abbrev two32 : Nat := 4294967296
abbrev two64 : Nat := 18446744073709551616

/-- `uint64(stackOffset)<<32 | uint64(callIndex)` (stack.go:89). -/
def link (stackOffset : Int) (callIndex : Nat) : Nat := (stackOffset % two32).toNat * two32 + callIndex

/-- `int32(pair >> 32)` (stack.go:181). -/
def linkOffset (w : Nat) : Int := if w / two32 < 2147483648 then w / two32 else (w / two32 : Nat) - (two32 : Int)

/-- stack.go:23-45. -/
def putInitStack (start entry : Option Nat) : List Nat :=
  [link 16 0, start.getD (two64 - 1), entry.getD (two64 - 1)]

/-- What the loop of exportStack yields: the portable words, the rest of the native stack and
initStackOffset.  stack.go:62-110.  Slicing out of range panics.  Simplification: `stackOffset-8` does not wrap
(the smallest 32-bit stack offset is not in a map). -/
def exportFrames (m : Map) (textAddr : Nat) (native : List Nat) : Res (List Nat × List Nat × Int) :=
  match native with
  | [] => .err "ran out of stack before initial call"
  | w :: native =>
    let retAddr := (w + two64 - textAddr) % two64
    if retAddr > max32 then .err "return address is not in text section"
    else
      match m.findCall retAddr with
      | none => .err "call instruction not found for return address"
      | some c =>
        if c.init then .ok ([link c.stackOffset c.callIndex], native, c.stackOffset)
        else if c.stackOffset = 0 ∨ c.stackOffset % 8 ≠ 0 then .err "invalid stack offset"
        else if c.stackOffset - 8 < 0 ∨ ((c.stackOffset - 8) / 8).toNat > native.length then .panic
        else
          match exportFrames m textAddr (native.drop ((c.stackOffset - 8) / 8).toNat) with
          | .ok (p, rest, o) => .ok (link c.stackOffset c.callIndex :: native.take ((c.stackOffset - 8) / 8).toNat ++ p, rest, o)
          | .err e => .err e
          | .panic => .panic
termination_by native.length
decreasing_by simp only [List.length_cons, List.length_drop]; omega

/-- The entry function's index for its address, stack.go:123-129. -/
def exportEntry (m : Map) (funcAddr : Nat) : Nat :=
  if funcAddr ≠ 0 then (m.findFunc (funcAddr % two32)).getD max32 else max32

/-- stack.go:48-151: exportStack.  The portable buffer has the length of the native one. -/
def exportStack (m : Map) (textAddr : Nat) (native : List Nat) : Res (List Nat) :=
  if native.length = 0 then .err "invalid stack size"
  else
    match exportFrames m textAddr native with
    | .err e => .err e
    | .panic => .panic
    | .ok (p, rest, o) =>
      if o = 8 then
        match rest with
        | [] => .panic
        | a :: rest => if rest.length ≠ 0 then .err "excess data at start of stack" else .ok (p ++ [exportEntry m a])
      else if o = 0 then
        if rest.length ≠ 0 then .err "excess data at start of stack" else .ok p
      else .err "initial function call site has inconsistent stack offset"

/-- The loop of importStack: the native words, the rest of the portable stack, the last call's stack offset
and minVars.  stack.go:163-218. -/
def importFrames (m : Map) (g : Sigs) (textAddr : Nat) (minVars : Nat) (buf : List Nat) : Res (List Nat × List Nat × Int × Nat) :=
  match buf with
  | [] => .err "ran out of stack before initial call"
  | pair :: buf =>
    match m.sites[pair % two32]? with
    | none => .err "function call site index is unknown"
    | some call =>
      if linkOffset pair ≠ call.stackOffset then .err "encoded stack offset does not match offset in map"
      else
        let w := (textAddr + call.retAddr) % two64
        if m.isInit call.retAddr then .ok ([w], buf, call.stackOffset, minVars)
        else if call.stackOffset % 8 ≠ 0 then .err "invalid stack offset"
        else if call.stackOffset - 8 < minVars * 8 then .err "inconsistent call stack"
        else if ((call.stackOffset - 8) / 8).toNat > buf.length then .panic
        else
          match m.findCall call.retAddr with
          | none => .err "call instruction not found for return address"
          | some c =>
            if c.init ∨ c.callIndex ≠ pair % two32 ∨ c.stackOffset ≠ call.stackOffset then .err "call instruction not found for return address"
            else
              match g.params c.funcIndex with
              | none => .panic
              | some n =>
                match importFrames m g textAddr n (buf.drop ((call.stackOffset - 8) / 8).toNat) with
                | .ok (p, rest, o, v) => .ok (w :: buf.take ((call.stackOffset - 8) / 8).toNat ++ p, rest, o, v)
                | .err e => .err e
                | .panic => .panic
termination_by buf.length
decreasing_by simp only [List.length_cons, List.length_drop]; omega

/-- The entry function's address for its index, stack.go:228-243. -/
def importEntry (m : Map) (g : Sigs) (w : Nat) : Res Nat :=
  if w % two32 ≠ max32 then
    match m.funcAddrs[w % two32]? with
    | none => .err "entry function index is unknown"
    | some a =>
      match g.entry (w % two32) with
      | none => .panic
      | some false => .err "entry function has invalid signature"
      | some true => .ok a
  else .ok 0

/-- stack.go:154-261: importStack. -/
def importStack (m : Map) (g : Sigs) (textAddr : Nat) (buf : List Nat) : Res (List Nat) :=
  if buf.length = 0 then .err "invalid stack size"
  else
    match importFrames m g textAddr 0 buf with
    | .err e => .err e
    | .panic => .panic
    | .ok (p, rest, o, v) =>
      if v > 0 then .err "inconsistent call stack"
      else if o = 8 then
        match rest with
        | [] => .panic
        | w :: rest =>
          match importEntry m g w with
          | .err e => .err e
          | .panic => .panic
          | .ok a => if rest.length ≠ 0 then .err "excess data at start of stack" else .ok (p ++ [a])
      else if o = 0 then
        if rest.length ≠ 0 then .err "excess data at start of stack" else .ok p
      else .err "initial function call site has inconsistent stack offset"

end Gate.CallStack
