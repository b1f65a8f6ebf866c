import Verif.DaemonWeb
/-
C178: the offsets which `gate debug INSTANCE break|delete EXPRESSION...` sets or removes. cmd/gate/main/debug.go:37-58, 127-279 (`parseBreakpoints`), 453-460.

The standard library's parts are modelled from its source: strings.SplitN, strconv.ParseUint with base 0, strconv.Atoi, path.Join with the root, sort.Search.
Sorting is insertion sort.  The iteration order of the map of files is an argument of the model, as it isn't specified.  What unicode.IsNumber says of characters which aren't ASCII is an argument, too.
The debug information of the module (`dwarf.Data`) is the list of line table entries and subprograms which its readers give; errors of reading it are fatal and aren't modelled.
-/
namespace Gate.Breakpoints
open Gate.DaemonWeb (slash walk elems isSlash)

/-- strings.SplitN(s, ":", 2) -/
def split : Bytes → Bytes × Option Bytes
  | [] => ([], none)
  | c :: s => if c = 58 then ([], some s) else ((c :: (split s).1), (split s).2)

def lower (c : UInt8) : UInt8 := c ||| 32

/-- strconv: a digit's value. -/
def digit (c : UInt8) : Option Nat :=
  if 48 ≤ c ∧ c ≤ 57 then some (c.toNat - 48)
  else if 97 ≤ lower c ∧ lower c ≤ 122 then some ((lower c).toNat - 97 + 10)
  else none

def maxUint64 : Nat := 18446744073709551615

/-- The loop of strconv.ParseUint; underscores are skipped as the base is 0. -/
def digits (base : Nat) : Nat → Bytes → Option Nat
  | n, [] => some n
  | n, c :: s =>
    if c = 95 then digits base n s
    else match digit c with
      | none => none
      | some d =>
        if base ≤ d then none
        else if maxUint64 / base + 1 ≤ n then none
        else if maxUint64 < n * base + d then none
        else digits base (n * base + d) s

/-- What strconv's underscoreOK has seen. -/
inductive Saw where | begin | digit | underscore | other
  deriving DecidableEq, Repr

/-- The loop of strconv's underscoreOK. -/
def underscores (hex : Bool) : Saw → Bytes → Bool
  | saw, [] => saw ≠ .underscore
  | saw, c :: s =>
    if (48 ≤ c ∧ c ≤ 57) ∨ (hex = true ∧ 97 ≤ lower c ∧ lower c ≤ 102) then underscores hex .digit s
    else if c = 95 then (if saw = .digit then underscores hex .underscore s else false)
    else if saw = .underscore then false
    else underscores hex .other s

/-- The base of a prefix. -/
def base? (c : UInt8) : Option Nat := if lower c = 98 then some 2 else if lower c = 111 then some 8 else if lower c = 120 then some 16 else none

/-- strconv: the base, and the rest. -/
def prefixed : Bytes → Nat × Bytes
  | 48 :: c :: d :: s => match base? c with | some b => (b, d :: s) | none => (8, c :: d :: s)
  | 48 :: s => (8, s)
  | s => (10, s)

/-- strconv's underscoreOK (signs aren't digits, and have been refused by the loop). -/
def underscoreOK (s : Bytes) : Bool :=
  match s with
  | 48 :: c :: t => match base? c with | some b => underscores (b == 16) .digit t | none => underscores false .begin s
  | _ => underscores false .begin s

/-- strconv.ParseUint(s, 0, 64) -/
def parseUint (s : Bytes) : Option Nat :=
  if s = [] then none
  else match digits (prefixed s).1 0 (prefixed s).2 with
    | none => none
    | some n => if (prefixed s).2.contains 95 && !underscoreOK s then none else some n

/-- A decimal number. -/
def decimal : Nat → Bytes → Option Nat
  | n, [] => some n
  | n, c :: s => if 48 ≤ c ∧ c ≤ 57 then decimal (n * 10 + (c.toNat - 48)) s else none

/-- strconv.Atoi, with 64-bit integers. -/
def atoi (s : Bytes) : Option Int :=
  match s with
  | 45 :: t => if t = [] then none else match decimal 0 t with | some n => if n ≤ 9223372036854775808 then some (-(n : Int)) else none | none => none
  | 43 :: t => if t = [] then none else match decimal 0 t with | some n => if n < 9223372036854775808 then some (n : Int) else none | none => none
  | _ => if s = [] then none else match decimal 0 s with | some n => if n < 9223372036854775808 then some (n : Int) else none | none => none

/-- unicode.IsNumber of the first character. -/
def startsWithNumber (uni : Bytes → Bool) : Bytes → Bool
  | [] => false
  | c :: s => if c < 128 then (decide (48 ≤ c) && decide (c ≤ 57)) else uni (c :: s)

/-- What an argument says. -/
inductive Expr where
  | offset (n : Nat)
  | loc (file : Bytes) (line : Int)
  | func (name : Bytes)
  deriving DecidableEq, Repr

/-- debug.go:133-164; `none` is fatal. -/
def expr (uni : Bytes → Bool) (s : Bytes) : Option Expr :=
  match split s with
  | (_, none) => if s = [] then none else if startsWithNumber uni s then (parseUint s).map .offset else some (.func s)
  | (file, some line) => (atoi line).map fun n => .loc file n

/-- debug.go:133-164; `none` is fatal. -/
def exprs (uni : Bytes → Bool) : List Bytes → Option (List Expr)
  | [] => some []
  | s :: rest =>
    match expr uni s with
    | none => none
    | some e => match exprs uni rest with | none => none | some es => some (e :: es)

/-- An entry of a line table. -/
structure Entry where
  file : Bytes
  line : Nat
  addr : Nat
  deriving DecidableEq, Repr

/-- The debug information, and the source offsets of the machine code instructions in order (debug.go:255-261; instructions without one have 0). -/
structure Info where
  entries : List Entry
  /-- The names and low program counters of subprograms. -/
  subprograms : List (Option Bytes × Option Nat)
  insns : List Nat

/-- debug.go:48-56 -/
def less (a b : Entry) : Bool := if a.line = b.line then decide (a.addr < b.addr) else decide (a.line < b.line)

def insert (e : Entry) : List Entry → List Entry
  | [] => [e]
  | x :: xs => if less x e then x :: insert e xs else e :: x :: xs

/-- sort.Sort, debug.go:210-212 -/
def sort : List Entry → List Entry
  | [] => []
  | e :: es => insert e (sort es)

/-- path.Join("/", file) -/
def rooted (file : Bytes) : Bytes :=
  if walk [] (elems isSlash file) = [] then [slash] else (walk [] (elems isSlash file)).flatMap fun e => slash :: e

/-- strings.HasSuffix(path.Join("/", name), path.Join("/", file)), debug.go:236 -/
def fits (name file : Bytes) : Bool := (rooted file).isSuffixOf (rooted name)

/-- debug.go:235-245, for the files in the order of the map's iteration. -/
def locate (info : Info) (file : Bytes) (line : Int) : List Bytes → List Nat
  | [] => []
  | name :: rest =>
    match (if fits name file then (sort (info.entries.filter (·.file == name))).find? (fun e => (e.line : Int) == line) else none) with
    | some e => e.addr :: locate info file line rest
    | none => locate info file line rest

/-- debug.go:214-231 -/
def lows (info : Info) (name : Bytes) : List Nat :=
  info.subprograms.filterMap fun s => match s with | (some n, some low) => if n = name ∧ n ≠ [] ∧ low ≠ 0 then some low else none | _ => none

/-- sort.Search: `fuel` is at least j - i. -/
def search (f : Nat → Bool) : Nat → Nat → Nat → Nat
  | 0, i, _ => i
  | fuel + 1, i, j => if i < j then (if f ((i + j) / 2) then search f fuel i ((i + j) / 2) else search f fuel ((i + j) / 2 + 1) j) else i

/-- debug.go:255-261 -/
def insnOffs (info : Info) : List Nat := info.insns.filter (· != 0)

/-- debug.go:267-270 -/
def atOrAfter (offs : List Nat) (low : Nat) : Option Nat :=
  offs[search (fun i => decide (low ≤ offs.getD i 0)) offs.length 0 offs.length]?

/-- The offsets of a location or a function, debug.go:233-251, 263-279. -/
def resolve (info : Info) (order : List Bytes) : Expr → List Nat
  | .offset _ => []
  | .loc file line => locate info file line order
  | .func name => (lows info name).filterMap (atOrAfter (insnOffs info))

inductive Out where
  | fatal
  | offsets (l : List Nat)
  deriving DecidableEq, Repr

def isLoc : Expr → Bool | .loc _ _ => true | _ => false
def isFunc : Expr → Bool | .func _ => true | _ => false
def numbers (es : List Expr) : List Nat := es.filterMap fun e => match e with | .offset n => some n | _ => none

/-- debug.go:127-279: the module isn't inspected if there are only offsets; `none` is a module without debug information. -/
def parseBreakpoints (uni : Bytes → Bool) (info : Option Info) (order : List Bytes) (args : List Bytes) : Out :=
  match exprs uni args with
  | none => .fatal
  | some es =>
    if es.any isLoc || es.any isFunc then
      match info with
      | none => .fatal
      | some info =>
        if (es.filter fun e => isLoc e || isFunc e).any fun e => (resolve info order e).isEmpty then .fatal
        else .offsets (numbers es ++ ((es.filter isLoc).flatMap (resolve info order)) ++ ((es.filter isFunc).flatMap (resolve info order)))
    else .offsets (numbers es)

end Gate.Breakpoints
