import Verif.Auth
/-
Nonce checking (C40): server/web/jwt.go 71-81 (expiry, then signature, then nonce),
server/web/verify.go 75-89, server/database/sql/sql.go 90-118, as a transition system of
concurrent requests, one database table and the clock.
-/
namespace Gate.Nonce
open Gate.Auth

/-- A request's token: signing key, nonce and expiry. -/
structure Token where
  key : Bytes
  nonce : Bytes
  exp : Int
deriving DecidableEq, Repr

/-- How far the request has got:
`checked`: mustVerifyExpiration has passed (jwt.go:73);
`timed t`: CheckNonce has evaluated `time.Now().Unix()` (sql.go:98);
`deleted t`: the DELETE statement has been executed. -/
inductive Phase where
  | checked
  | timed (t : Int)
  | deleted (t : Int)
deriving DecidableEq, Repr

structure Req where
  tok : Token
  phase : Phase
deriving DecidableEq, Repr

/-- An accepted request: the token and the time. -/
structure Accept where
  tok : Token
  time : Int
deriving DecidableEq, Repr

/-- `table`: rows of (scope, nonce, expire), sql.go:37-44. `log`: accepted requests, latest first. -/
structure St where
  srv : Server
  clock : Int
  table : List Token
  reqs : List Req
  log : List Accept

inductive Label where
  | tick
  /-- A request with a correctly signed token arrives and its expiry is checked. -/
  | arrive (t : Token)
  | readClock (r : Req)
  | delete (r : Req)
  | insert (r : Req)
  /-- The request ends otherwise (signature, database or other error). -/
  | abort (r : Req)
deriving DecidableEq, Repr

/-- sql.go:98: `DELETE FROM nonce WHERE expire < $1`. -/
def purge (table : List Token) (t : Int) : List Token := table.filter fun row => !(row.exp < t)

/-- The primary key conflict of sql.go:103: (scope, nonce). -/
def conflict (table : List Token) (x : Token) : Bool := table.any fun row => row.key == x.key && row.nonce == x.nonce

def step (s : St) : Label → Option St
  | .tick => some { s with clock := s.clock + 1 }
  | .arrive t =>
    -- verify.go:21-35 and 76-78
    if verifyExpiration s.srv t.exp s.clock = .ok () ∧ t.nonce ≠ [] then some { s with reqs := ⟨t, .checked⟩ :: s.reqs } else none
  | .readClock r =>
    if r ∈ s.reqs ∧ r.phase = .checked then some { s with reqs := ⟨r.tok, .timed s.clock⟩ :: s.reqs.erase r } else none
  | .delete r =>
    match r.phase with
    | .timed t =>
      if r ∈ s.reqs then some { s with table := purge s.table t, reqs := ⟨r.tok, .deleted t⟩ :: s.reqs.erase r } else none
    | _ => none
  | .insert r =>
    match r.phase with
    | .deleted _ =>
      if r ∈ s.reqs then
        if conflict s.table r.tok then some { s with reqs := s.reqs.erase r }
        else some { s with table := r.tok :: s.table, reqs := s.reqs.erase r, log := ⟨r.tok, s.clock⟩ :: s.log }
      else none
    | _ => none
  | .abort r => if r ∈ s.reqs then some { s with reqs := s.reqs.erase r } else none

def run (s : St) : List Label → Option St
  | [] => some s
  | l :: ls =>
    match step s l with
    | some t => run t ls
    | none => none

def init (srv : Server) (clock : Int) : St := ⟨srv, clock, [], [], []⟩

/-! ### Proof -/

structure Inv (s : St) : Prop where
  /-- The row of an accepted token is deleted only after the token has expired. -/
  row : ∀ a ∈ s.log, (∃ r ∈ s.table, r = a.tok) ∨ a.tok.exp < s.clock
  timed : ∀ r ∈ s.reqs, match r.phase with | .checked => True | .timed t => t ≤ s.clock | .deleted t => t ≤ s.clock
  once : s.log.Pairwise fun b a => b.tok.key = a.tok.key → b.tok.nonce = a.tok.nonce → a.tok.exp < b.time

theorem inv_init (srv : Server) (c : Int) : Inv (init srv c) := by constructor <;> simp [init]

theorem step_inv {s t : St} {l : Label} (h : Inv s) (hs : step s l = some t) : Inv t := by
  obtain ⟨h1, h2, h3⟩ := h
  have er : ∀ {r x : Req}, x ∈ s.reqs.erase r → x ∈ s.reqs := fun hx => List.mem_of_mem_erase hx
  cases l with
  | tick =>
    simp only [step, Option.some.injEq] at hs; subst hs
    refine ⟨?_, ?_, h3⟩
    · intro a ha
      rcases h1 a ha with h | h
      · exact .inl h
      · right; show a.tok.exp < s.clock + 1; omega
    · intro r hr
      have := h2 r hr
      split <;> simp_all <;> omega
  | arrive t =>
    simp only [step] at hs
    split at hs
    · simp only [Option.some.injEq] at hs; subst hs
      refine ⟨h1, ?_, h3⟩
      intro r hr
      rcases List.mem_cons.mp hr with rfl | hr
      · trivial
      · exact h2 r hr
    · cases hs
  | readClock r =>
    simp only [step] at hs
    split at hs
    · simp only [Option.some.injEq] at hs; subst hs
      refine ⟨h1, ?_, h3⟩
      intro x hx
      rcases List.mem_cons.mp hx with rfl | hx
      · exact Int.le_refl _
      · exact h2 x (er hx)
    · cases hs
  | delete r =>
    simp only [step] at hs
    split at hs
    · rename_i t hp
      split at hs
      · rename_i hr
        simp only [Option.some.injEq] at hs; subst hs
        have ht : t ≤ s.clock := by have := h2 r hr; rw [hp] at this; exact this
        refine ⟨?_, ?_, h3⟩
        · intro a ha
          rcases h1 a ha with ⟨row, hm, he⟩ | h
          · by_cases hx : row.exp < t
            · right; rw [← he]; show row.exp < s.clock; omega
            · left; exact ⟨row, by simp [purge, hm, hx], he⟩
          · exact .inr h
        · intro x hx
          rcases List.mem_cons.mp hx with rfl | hx
          · exact ht
          · exact h2 x (er hx)
      · cases hs
    · cases hs
  | insert r =>
    simp only [step] at hs
    split at hs
    · rename_i t hp
      split at hs
      · rename_i hr
        split at hs
        · simp only [Option.some.injEq] at hs; subst hs
          exact ⟨h1, fun x hx => h2 x (er hx), h3⟩
        · rename_i hc
          simp only [Option.some.injEq] at hs; subst hs
          refine ⟨?_, fun x hx => h2 x (er hx), ?_⟩
          · intro a ha
            rcases List.mem_cons.mp ha with rfl | ha
            · left; exact ⟨r.tok, by simp, rfl⟩
            · rcases h1 a ha with ⟨row, hm, he⟩ | h
              · left; exact ⟨row, by simp [hm], he⟩
              · exact .inr h
          · refine List.pairwise_cons.mpr ⟨?_, h3⟩
            intro a ha k1 k2
            rcases h1 a ha with ⟨row, hm, he⟩ | h
            · exfalso
              apply hc
              simp only [conflict, List.any_eq_true, Bool.and_eq_true, beq_iff_eq]
              exact ⟨row, hm, by rw [he]; exact k1.symm, by rw [he]; exact k2.symm⟩
            · exact h
      · cases hs
    · cases hs
  | abort r =>
    simp only [step] at hs
    split at hs
    · simp only [Option.some.injEq] at hs; subst hs
      exact ⟨h1, fun x hx => h2 x (er hx), h3⟩
    · cases hs

theorem run_inv : ∀ (ls : List Label) {s t : St}, Inv s → run s ls = some t → Inv t := by
  intro ls
  induction ls with
  | nil => intro s t h hr; simp only [run, Option.some.injEq] at hr; subst hr; exact h
  | cons l ls ih =>
    intro s t h hr
    simp only [run] at hr
    split at hr
    · rename_i u hu; exact ih (step_inv h hu) hr
    · cases hr

/-- C40, what holds: in every history of any number of concurrent requests and clock ticks, when two
requests with the same key and nonce have been accepted, the token of the earlier one had expired
before the later one was accepted. (`log` is the list of accepted requests, latest first.) -/
theorem nonce_once_partial (srv : Server) (c : Int) (ls : List Label) (s : St) (h : run (init srv c) ls = some s) :
    s.log.Pairwise fun later earlier =>
      later.tok.key = earlier.tok.key → later.tok.nonce = earlier.tok.nonce → earlier.tok.exp < later.time :=
  (run_inv ls (inv_init srv c) h).once

/-- A token is accepted only once within its validity: of all requests with the token, at most one is
accepted at a time not later than its expiry. -/
theorem once_while_valid (srv : Server) (c : Int) (ls : List Label) (s : St) (h : run (init srv c) ls = some s) (t : Token) :
    (s.log.filter fun a => a.tok == t && a.time ≤ t.exp).length ≤ 1 := by
  have hp := nonce_once_partial srv c ls s h
  revert hp
  induction s.log with
  | nil => simp
  | cons b l ih =>
    intro hp
    obtain ⟨h1, h2⟩ := List.pairwise_cons.mp hp
    have ih := ih h2
    rw [List.filter_cons]
    split
    · rename_i hb
      simp only [Bool.and_eq_true, beq_iff_eq, decide_eq_true_eq] at hb
      have : l.filter (fun a => a.tok == t && a.time ≤ t.exp) = [] := by
        rw [List.filter_eq_nil_iff]
        intro a ha hc
        simp only [Bool.and_eq_true, beq_iff_eq, decide_eq_true_eq] at hc
        have := h1 a ha (by rw [hb.1, hc.1]) (by rw [hb.1, hc.1])
        rw [hc.1] at this
        omega
      simp [this]
    · exact ih

def tok : Token := ⟨[1], [2], 105⟩
/-- The token is accepted at its expiry time; a replay is checked for expiry in the same second, but the
nonce table is purged in the next one. -/
def race : List Label :=
  [.arrive tok, .readClock ⟨tok, .checked⟩, .delete ⟨tok, .timed 105⟩, .insert ⟨tok, .deleted 105⟩,
   .arrive tok, .tick, .readClock ⟨tok, .checked⟩, .delete ⟨tok, .timed 106⟩, .insert ⟨tok, .deleted 106⟩]

/-- Refutes C40's title: the same token is accepted twice. -/
theorem replay_race : ∃ s, run (init ⟨false, [], true, []⟩ 105) race = some s ∧ s.log = [⟨tok, 106⟩, ⟨tok, 105⟩] :=
  ⟨_, rfl, by decide⟩

/-- On a server with local authorization, a signed token without expiry can be replayed at any time. -/
theorem replay_without_expiry (c : Int) (hc : 0 < c) (n : Nat) : ∃ ls s, run (init ⟨true, [], true, []⟩ c) ls = some s ∧
    s.log = List.replicate n ⟨⟨[1], [2], 0⟩, c⟩ := by
  suffices h : ∃ ls s, run (init ⟨true, [], true, []⟩ c) ls = some s ∧ s.log = List.replicate n ⟨⟨[1], [2], 0⟩, c⟩ ∧
      s.reqs = [] ∧ (∀ r ∈ s.table, r.exp = 0) ∧ s.srv.loc = true ∧ s.clock = c by
    obtain ⟨ls, s, h1, h2, _⟩ := h; exact ⟨ls, s, h1, h2⟩
  induction n with
  | zero => exact ⟨[], _, rfl, rfl, rfl, by simp [init], rfl, rfl⟩
  | succ n ih =>
    obtain ⟨ls, s, h1, h2, h3, h4, h5, h6⟩ := ih
    have happ : ∀ (l : List Label) {a b : St} {m : List Label}, run a l = some b → run a (l ++ m) = run b m := by
      intro l
      induction l with
      | nil => intro a b m h; simp only [run, Option.some.injEq] at h; subst h; rfl
      | cons x xs ih =>
        intro a b m h
        simp only [run, List.cons_append] at h ⊢
        split at h
        · rename_i hu; exact ih h
        · cases h
    let k : Token := ⟨[1], [2], 0⟩
    have hv : verifyExpiration s.srv 0 s.clock = .ok () := by unfold verifyExpiration; rw [if_pos ⟨rfl, h5⟩]
    rw [h6] at hv
    have hpurge : purge s.table c = [] := by
      unfold purge; rw [List.filter_eq_nil_iff]
      intro r hr; simp [h4 r hr, hc]
    refine ⟨ls ++ [.arrive k, .readClock ⟨k, .checked⟩, .delete ⟨k, .timed c⟩, .insert ⟨k, .deleted c⟩],
      { srv := s.srv, clock := s.clock, table := [k], reqs := [], log := ⟨k, s.clock⟩ :: s.log }, ?_, ?_⟩
    · rw [happ ls h1]
      simp [run, step, k, hv, h3, h6, hpurge, conflict]
    · refine ⟨by rw [h2, h6]; rfl, rfl, by simp [k], h5, h6⟩

example : ∃ s, run (init ⟨false, [], true, []⟩ 100) (race.take 5) = none ∧
    run (init ⟨false, [], true, []⟩ 105) (race.take 5 ++ [.readClock ⟨tok, .checked⟩, .delete ⟨tok, .timed 105⟩, .insert ⟨tok, .deleted 105⟩]) = some s ∧
    s.log.length = 1 := ⟨_, by decide, rfl, by decide⟩

end Gate.Nonce
