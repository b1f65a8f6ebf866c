/-
C161: the socket of the runtime daemon, cmd/gate-runtime/main/runtimecmd.go:78-128.
-/
namespace Gate.RtDaemon

/-! ### Model -/

/-- What there is under a name. -/
inductive Node where
  | none
  /-- A socket; some process listens to it, or doesn't any more. -/
  | socket (owner : Option Nat)
  /-- A file, a directory, a symbolic link or the like. -/
  | other (id : Nat)
deriving DecidableEq, Repr

/-- The file system. -/
abbrev FS := List UInt8 → Node

def FS.put (fs : FS) (p : List UInt8) (n : Node) : FS := fun q => if q = p then n else fs q

/-- The environment: the listeners which systemd has passed (`true`: a Unix socket), the runtime.daemonsocket setting, and whether removing
and binding are permitted. -/
structure Env where
  listeners : List Bool
  path : List UInt8
  mayRemove : Bool
  mayBind : Bool
deriving DecidableEq, Repr

inductive Listening where
  | activated
  | bound (path : List UInt8)
  /-- log.Fatal. -/
  | fatal
  | panic
deriving DecidableEq, Repr

/-- os.Lstat and os.Remove, runtimecmd.go:91-95; an error is ignored. -/
def removeStale (e : Env) (fs : FS) : FS :=
  match fs e.path with
  | .socket _ => if e.mayRemove then fs.put e.path .none else fs
  | _ => fs

/-- net.ListenUnix, runtimecmd.go:97-100: bind(2) fails if there's something. -/
def bind (e : Env) (self : Nat) (fs : FS) : Listening × FS :=
  match fs e.path with
  | .none => if e.mayBind then (.bound e.path, fs.put e.path (.socket (some self))) else (.fatal, fs)
  | _ => (.fatal, fs)

/-- runtimecmd.go:84-110. -/
def listen (e : Env) (self : Nat) (fs : FS) : Listening × FS :=
  if e.listeners.length = 0 ∧ e.path ≠ [] then bind e self (removeStale e fs)
  else if e.listeners.length = 1 ∧ e.path = [] then
    match e.listeners with
    | true :: _ => (.activated, fs)
    | _ => (.panic, fs)
  else (.fatal, fs)

/-- runtimecmd.go:116-128: the loop's effect for a sequence of results of AcceptUnix: handlers which have been started, with the numbers
of the clients, and how many errors have been logged. -/
def accepts : Nat → List (Option Nat) → List (Nat × Nat) × Nat
  | _, [] => ([], 0)
  | client, r :: rs =>
    let k := accepts (client + 1) rs
    match r with
    | some conn => ((client + 1, conn) :: k.1, k.2)
    | none => (k.1, k.2 + 1)

/-! ### Properties -/

/-- C161: the daemon listens to the socket which it's been passed, if there's one and no setting; to the one which the setting names, if
it's been passed none; and otherwise to nothing. -/
theorem listens_iff (e : Env) (self : Nat) (fs : FS) :
    ((listen e self fs).1 = .activated ↔ e.listeners = [true] ∧ e.path = []) ∧
    (∀ p, (listen e self fs).1 = .bound p ↔ e.listeners = [] ∧ p = e.path ∧ p ≠ [] ∧ e.mayBind = true ∧
      (fs p = .none ∨ (∃ o, fs p = .socket o) ∧ e.mayRemove = true)) := by
  obtain ⟨ls, path, mr, mb⟩ := e
  have bindA : ∀ g, (bind ⟨ls, path, mr, mb⟩ self g).1 ≠ .activated := by
    intro g; unfold bind; split <;> (try split) <;> simp
  have hb : ∀ p, (bind ⟨ls, path, mr, mb⟩ self (removeStale ⟨ls, path, mr, mb⟩ fs)).1 = .bound p ↔ p = path ∧ mb = true ∧
      (fs path = .none ∨ (∃ o, fs path = .socket o) ∧ mr = true) := by
    intro p
    unfold removeStale
    cases hn : fs path <;> cases mr <;> cases mb <;> simp [bind, hn, FS.put, eq_comm]
  match ls with
  | [] =>
    constructor
    · unfold listen
      split
      · simp [bindA]
      · rw [if_neg (by simp)]; simp
    · intro p
      by_cases hp : path = []
      · simp [listen, hp]; rintro rfl h; exact absurd rfl h
      · simp only [listen, List.length_nil, ne_eq, hp, not_false_eq_true, and_self, if_true, hb, true_and]
        constructor
        · rintro ⟨rfl, h⟩; exact ⟨rfl, hp, h⟩
        · rintro ⟨rfl, -, h⟩; exact ⟨rfl, h⟩
  | [true] => by_cases hp : path = [] <;> simp [listen, hp]
  | [false] => by_cases hp : path = [] <;> simp [listen, hp]
  | a :: b :: r => simp [listen]

/-- C161: nothing is removed or replaced except the setting's own name, and that only if it's a socket. -/
theorem only_socket (e : Env) (self : Nat) (fs : FS) (p : List UInt8) (h : (listen e self fs).2 p ≠ fs p) :
    p = e.path ∧ e.listeners = [] ∧ ∀ id, fs p ≠ .other id := by
  unfold listen at h
  split at h
  · next hc =>
    have hl : e.listeners = [] := List.length_eq_zero_iff.1 hc.1
    by_cases hp : p = e.path
    · subst hp
      refine ⟨rfl, hl, fun id hid => h ?_⟩
      unfold removeStale bind
      simp [hid]
    · exfalso
      apply h
      have hr : removeStale e fs p = fs p := by
        unfold removeStale
        cases fs e.path <;> cases e.mayRemove <;> simp [FS.put, hp]
      unfold bind
      split
      · split
        · simp [FS.put, hp, hr]
        · exact hr
      · exact hr
  · split at h
    · split at h <;> exact absurd rfl h
    · exact absurd rfl h

/-- If the daemon listens to a name then it's the name's owner. -/
theorem bound_owner (e : Env) (self : Nat) (fs : FS) (p : List UInt8) (h : (listen e self fs).1 = .bound p) :
    (listen e self fs).2 p = .socket (some self) := by
  have hx := ((listens_iff e self fs).2 p).1 h
  obtain ⟨h1, rfl, h2, h3, h4⟩ := hx
  unfold listen
  rw [if_pos ⟨by simp [h1], h2⟩]
  have hn : removeStale e fs e.path = .none := by
    unfold removeStale
    rcases h4 with h4 | ⟨⟨o, h4⟩, hm⟩
    · simp [h4]
    · simp [h4, hm, FS.put]
  unfold bind
  simp [hn, h3, FS.put]

/-- It panics just if it's been passed a socket which isn't a Unix socket. -/
theorem panic_iff (e : Env) (self : Nat) (fs : FS) : (listen e self fs).1 = .panic ↔ e.listeners = [false] ∧ e.path = [] := by
  obtain ⟨ls, path, mr, mb⟩ := e
  have bindP : ∀ g, (bind ⟨ls, path, mr, mb⟩ self g).1 ≠ .panic := by
    intro g; unfold bind; split <;> (try split) <;> simp
  match ls with
  | [] => by_cases hp : path = [] <;> simp [listen, hp, bindP]
  | [true] => by_cases hp : path = [] <;> simp [listen, hp]
  | [false] => by_cases hp : path = [] <;> simp [listen, hp]
  | a :: b :: r => simp [listen]

/-- C161 refuted: a second daemon takes the name over from a first one which is listening: clients don't reach that any more. -/
theorem takeover_refuted (p : List UInt8) (hp : p ≠ []) (fs : FS) (h : fs p = .socket (some 1)) :
    (listen ⟨[], p, true, true⟩ 2 fs).1 = .bound p ∧ (listen ⟨[], p, true, true⟩ 2 fs).2 p = .socket (some 2) := by
  have hl : (listen ⟨[], p, true, true⟩ 2 fs).1 = .bound p :=
    ((listens_iff _ _ _).2 p).2 ⟨rfl, rfl, hp, rfl, .inr ⟨⟨_, h⟩, rfl⟩⟩
  exact ⟨hl, bound_owner _ _ _ _ hl⟩

/-- C161 refuted: a start which fails may have removed the socket. -/
theorem removed_refuted (p : List UInt8) (hp : p ≠ []) (fs : FS) (h : fs p = .socket (some 1)) :
    (listen ⟨[], p, true, false⟩ 2 fs).1 = .fatal ∧ (listen ⟨[], p, true, false⟩ 2 fs).2 p = .none := by
  simp [listen, hp, removeStale, h, bind, FS.put]

/-- C161: each accepted connection is handled, in order; errors don't end the loop, and each is logged. -/
theorem all_handled (client : Nat) (rs : List (Option Nat)) :
    (accepts client rs).1.map Prod.snd = rs.filterMap id ∧ (accepts client rs).2 = (rs.filter Option.isNone).length := by
  induction rs generalizing client with
  | nil => simp [accepts]
  | cons r rs ih =>
    obtain ⟨h1, h2⟩ := ih (client + 1)
    cases r <;> simp [accepts, h1, h2]

theorem numbers_above (client : Nat) (rs : List (Option Nat)) : ∀ x ∈ (accepts client rs).1, client < x.1 := by
  induction rs generalizing client with
  | nil => simp [accepts]
  | cons r rs ih =>
    intro x hx
    have h := ih (client + 1) x
    cases r with
    | none => simp only [accepts] at hx; have := h hx; omega
    | some c =>
      simp only [accepts, List.mem_cons] at hx
      rcases hx with rfl | hx
      · simp
      · have := h hx; omega

/-- C161: clients have different numbers, growing in the order of the connections. -/
theorem numbers_grow (client : Nat) (rs : List (Option Nat)) : ((accepts client rs).1.map Prod.fst).Pairwise (· < ·) := by
  induction rs generalizing client with
  | nil => simp [accepts]
  | cons r rs ih =>
    cases r with
    | none => exact ih (client + 1)
    | some c =>
      simp only [accepts, List.map_cons, List.pairwise_cons]
      refine ⟨fun n hn => ?_, ih (client + 1)⟩
      obtain ⟨x, hx, rfl⟩ := List.mem_map.1 hn
      exact numbers_above (client + 1) rs x hx

example : accepts 0 [some 5, none, some 6] = ([(1, 5), (3, 6)], 1) := rfl

end Gate.RtDaemon
