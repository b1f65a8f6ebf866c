import Verif.Auth
/-
C116: scope names and aliases. scope/scope.go (all of it).
-/
namespace Gate.ScopeAlias

/-- The word characters of `\b` in Go regular expressions (ASCII). Strings are byte strings: bytes which aren't ASCII are never word characters. -/
def isWord (c : UInt8) : Bool := (48 ≤ c && c ≤ 57) || (65 ≤ c && c ≤ 90) || (97 ≤ c && c ≤ 122) || c = 95

/-- The character class `[a-z0-9-._]` of scope.go:14. -/
def inClass (c : UInt8) : Bool := (97 ≤ c && c ≤ 122) || (48 ≤ c && c ≤ 57) || c = 45 || c = 46 || c = 95

/-- Matching of `.*\b([a-z0-9-._]+)$`, scope.go:14: the leading part is greedy, so the last possible position is tried first. `prev`: whether the preceding character is a word character.
(A line break can't be matched by the leading part; then the match starts after it. That makes no difference to what the group matches.) -/
def matchFrom (prev : Bool) : Bytes → Option Bytes
  | [] => none
  | c :: r =>
    match matchFrom (isWord c) r with
    | some a => some a
    | none => if prev ≠ isWord c ∧ (c :: r).all inClass then some (c :: r) else none

/-- MatchAlias, scope.go:16-21: empty when there is no match. -/
def matchAlias (s : Bytes) : Bytes := (matchFrom false s).getD []

/-- The first loop of ComputeAliases, scope.go:27-35: the map and the names to be removed. -/
def collect : List Bytes → (Bytes → Option Bytes) × List Bytes → (Bytes → Option Bytes) × List Bytes
  | [], x => x
  | s :: r, (m, u) =>
    let a := matchAlias s
    if a ≠ [] then
      match m a with
      | some _ => collect r (m, a :: u)
      | none => collect r ((fun k => if k = a then some s else m k), u)
    else collect r (m, u)

/-- The second loop, scope.go:37-42. -/
def remove (u : List Bytes) : List Bytes → (Bytes → Option Bytes) → (Bytes → Option Bytes)
  | [], m => m
  | s :: r, m => remove u r (if matchAlias s ∈ u then (fun k => if k = matchAlias s then none else m k) else m)

/-- ComputeAliases, scope.go:23-45. -/
def computeAliases (scope : List Bytes) : Bytes → Option Bytes :=
  let (m, u) := collect scope (fun _ => none, [])
  remove u scope m

/-- Byte-wise comparison of strings. -/
def le : Bytes → Bytes → Bool
  | [], _ => true
  | _ :: _, [] => false
  | a :: r, b :: q => a < b || (a = b && le r q)

/-- sort.Strings: some sorting of the strings (equal ones can't be told apart, so they are all the same); here by insertion. -/
def insert (x : Bytes) : List Bytes → List Bytes
  | [] => [x]
  | y :: l => if le x y then x :: y :: l else y :: insert x l

def sortStrings : List Bytes → List Bytes
  | [] => []
  | x :: l => insert x (sortStrings l)

/-- The package's variables, scope.go:47-50. -/
structure Pkg where
  names : List Bytes := []
  aliases : Bytes → Option Bytes := fun _ => none

/-- Register, scope.go:52-61: `none` is the panic. -/
def register (p : Pkg) (name : Bytes) : Option Pkg :=
  if name ∈ p.names then none
  else
    let names := sortStrings (p.names ++ [name])
    some { names := names, aliases := computeAliases names }

/-- A program which registers these names, one after the other. -/
def registerAll : Pkg → List Bytes → Option Pkg
  | p, [] => some p
  | p, n :: r => (register p n).bind (registerAll · r)

/-- Resolve, scope.go:67-72. -/
def resolve (p : Pkg) (s : Bytes) : Bytes :=
  match p.aliases s with
  | some n => n
  | none => s

/-- Context, scope.go:76-90: the list under the context's key afterwards. -/
def context (p : Pkg) (ctx : Option (List Bytes)) (scope : List Bytes) : Option (List Bytes) :=
  if scope = [] ∧ ctx = none then ctx
  else some (scope.map fun s => match p.aliases s with | some n => n | none => s)

/-- ContextContains, scope.go:92-105. -/
def contains (ctx : Option (List Bytes)) (s : Bytes) : Bool :=
  match ctx with
  | none => false
  | some l => l.any (· = s)

end Gate.ScopeAlias
