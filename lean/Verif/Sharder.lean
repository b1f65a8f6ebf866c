import Verif.Base
/-
Model of the process distribution of runtime/shard.go: taking a process from one of
several channels of prepared processes.
-/
namespace Gate.Sharder
open Gate

/-- What a non-blocking receive from a channel finds, shard.go:80-93. -/
inductive Offer (α : Type) where
  | item (x : α)
  | closed
  | empty
deriving DecidableEq, Repr

/-- How `NewProcess` continues after the loop: it returns a received item, reports a
closed channel (or the context's error, shard.go:83-89), blocks on the channel it chose
first (shard.go:115), or panics. -/
inductive Out (α : Type) where
  | item (x : α)
  | closed
  | block (c : Nat)
  | panic
deriving DecidableEq, Repr

/-- The initial `unseen` list, shard.go:97-107: the loop with its running `value`. -/
def fill (choice : Nat) : Nat → Nat → List Nat
  | _, 0 => []
  | value, k + 1 =>
    let v := if value = choice then value + 1 else value
    v :: fill choice (v + 1) k

/-- The iterations after the first, shard.go:70-113, with a non-nil `unseen`. The `i`-th
attempt uses the random number `draw i` (`rand.Intn(k)` is `draw i % k`) and finds
`poll i c` on channel `c`. `unseen[choice+1:]` panics if it is out of range; `unseen[:choice]`
is then in range too. `attempts` collects the channels tried. -/
def loop {α : Type} (first : Nat) (draw : Nat → Nat) (poll : Nat → Nat → Offer α) (i : Nat)
    (unseen : List Nat) : Out α × List Nat :=
  if h : unseen.length = 0 then (.block first, [])
  else
    let choice := unseen[draw i % unseen.length]'(Nat.mod_lt _ (by omega))
    match poll i choice with
    | .item x => (.item x, [choice])
    | .closed => (.closed, [choice])
    | .empty =>
      if hc : choice + 1 ≤ unseen.length then
        let r := loop first draw poll (i + 1) (unseen.take choice ++ unseen.drop (choice + 1))
        (r.1, choice :: r.2)
      else (.panic, [choice])
termination_by unseen.length
decreasing_by simp; omega

/-- `chanSharder.NewProcess` with `n` channels, shard.go:66-116: the first iteration and
then the loop. -/
def newProcess {α : Type} (n : Nat) (draw : Nat → Nat) (poll : Nat → Nat → Offer α) : Out α × List Nat :=
  if n = 0 then (.panic, [])   -- rand.Intn(0)
  else
    let first := draw 0 % n
    match poll 0 first with
    | .item x => (.item x, [first])
    | .closed => (.closed, [first])
    | .empty =>
      let r := loop first draw poll 1 (fill first 0 (n - 1))
      (r.1, first :: r.2)

end Gate.Sharder
