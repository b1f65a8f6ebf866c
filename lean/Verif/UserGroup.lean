import Verif.ExecStat
import Verif.ResolverProps
import Verif.RespondProps
/-
C163: users' processes go to their own slices: runtime/system/usergroup.go, runtime/group.go, internal/container/cgroup.go:75-84,
runtime/executor.go:112-165, 385-402 and internal/file/fileref.go.
-/
namespace Gate.UserGroup
open Gate.Auth (str)
open Gate.ExecStat (Dec placeValue)

/-! ### The names -/

/-- The loop of strconv.ParseUint(s, 10, 31) (standard library): it stops at the first character which isn't a digit, or which makes the
value larger than 2^31-1 (so that the 64-bit value can't overflow). -/
def parseLoop (n : Nat) : Bytes → Option Nat
  | [] => some n
  | c :: cs =>
    match Resolver.digit c with
    | none => none
    | some d => if 2 ^ 31 ≤ n * 10 + d then none else parseLoop (n * 10 + d) cs

/-- strconv.ParseUint(s, 10, 31), usergroup.go:33. -/
def parseUint (s : Bytes) : Option Nat := if s = [] then none else parseLoop 0 s

/-- usergroup.go:38. -/
def sliceName (id : Nat) : Bytes := str "user.slice/user-" ++ Respond.digits (id + 1) id ++ str ".slice"

/-- The components of a path. -/
def split : Bytes → List Bytes
  | [] => [[]]
  | c :: cs =>
    if c = 47 then [] :: split cs else
      match split cs with
      | [] => [[c]]
      | t :: ts => (c :: t) :: ts

/-- path.Clean of a rooted path (standard library), by components; the innermost first. -/
def cleanStep (acc : List Bytes) (x : Bytes) : List Bytes :=
  if x = [] ∨ x = str "." then acc else if x = str ".." then acc.drop 1 else x :: acc

def clean (cs : List Bytes) : List Bytes := (cs.foldl cleanStep []).reverse

/-- cgroup.go:76: path.Join with a name which isn't empty, as the components of the rooted path. -/
def cgroupPath (name : Bytes) : List Bytes := clean (split (str "/sys/fs/cgroup/unified") ++ split name)

/-! ### A process in a slice -/

/-- What NewProcess calls, and with what. -/
inductive Target where
  /-- The other factory. -/
  | other
  /-- The users' factory, with an open directory. -/
  | users (dir : List Bytes)
  | parseError
  | openError (dir : List Bytes)
deriving DecidableEq, Repr

/-- usergroup.go:27-45 and scope/program/system/system.go:29-32 (no user id is the empty one); `isDir`: the directories which can be
opened. -/
def target (isDir : List Bytes → Bool) (userID : Option Bytes) : Target :=
  if userID.getD [] = [] then .other else
  match parseUint (userID.getD []) with
  | none => .parseError
  | some id => if isDir (cgroupPath (sliceName id)) then .users (cgroupPath (sliceName id)) else .openError (cgroupPath (sliceName id))

/-! ### The directory's descriptor -/

/-- Where the call of NewProcess is. -/
inductive Caller where
  /-- The directory has been opened (group.go:22-29). -/
  | opened
  /-- execute has its own reference (executor.go:145). -/
  | referenced
  /-- execute returns with an error: the deferred function releases the reference (executor.go:148-153). -/
  | failing
  /-- execute has returned or hasn't been called, or newProcess has failed before it. -/
  | returning
  /-- slice.Close has been called (usergroup.go:42). -/
  | returned
deriving DecidableEq, Repr

/-- The request in the executor's channel or hands. -/
inductive Req where
  | none_ | queued
  /-- Its descriptors have been passed to the executor container (executor.go:232-245). -/
  | sent
  | dropped
deriving DecidableEq, Repr

structure St where
  caller : Caller
  req : Req
  count : Int
  /-- Calls of syscall.Close. -/
  closes : Nat
  /-- Uses of the descriptor after it was closed. -/
  badUses : Nat
  panics : Nat
deriving DecidableEq, Repr

/-- group.go:28: file.Own. -/
def new : St := ⟨.opened, .none_, 1, 0, 0, 0⟩

/-- fileref.go:43-48. -/
def mustRef (s : St) : St := if s.count + 1 ≤ 1 then { s with count := s.count + 1, panics := s.panics + 1 } else { s with count := s.count + 1 }

/-- fileref.go:60-74. -/
def unref (s : St) : St :=
  if s.count - 1 = 0 then { s with count := s.count - 1, closes := s.closes + 1 }
  else if s.count - 1 < 0 then { s with count := s.count - 1, panics := s.panics + 1 }
  else { s with count := s.count - 1 }

inductive Ev where
  /-- newProcess or the choice of an id fails before the reference is taken (process.go:131-156, executor.go:131-140). -/
  | giveUp
  /-- executor.go:145. -/
  | ref
  /-- executor.go:156-158. -/
  | send
  /-- executor.go:160-167. -/
  | fail
  /-- executor.go:149-152. -/
  | release
  /-- usergroup.go:42. -/
  | close
  /-- The sender passes the descriptors. -/
  | pass
  /-- executor.go:394-402: when they have been passed, or the executor is dead. -/
  | drop
deriving DecidableEq, Repr

def step (s : St) : Ev → Option St
  | .giveUp => if s.caller = .opened then some { s with caller := .returning } else none
  | .ref => if s.caller = .opened then some { mustRef s with caller := .referenced } else none
  | .send => if s.caller = .referenced then some { s with caller := .returning, req := .queued } else none
  | .fail => if s.caller = .referenced then some { s with caller := .failing } else none
  | .release => if s.caller = .failing then some { unref s with caller := .returning } else none
  | .close => if s.caller = .returning then some { unref s with caller := .returned } else none
  | .pass => if s.req = .queued then some { s with req := .sent, badUses := s.badUses + if s.closes = 0 then 0 else 1 } else none
  | .drop => if s.req = .queued ∨ s.req = .sent then some { unref s with req := .dropped } else none

def run (s : St) : List Ev → Option St
  | [] => some s
  | e :: es => (step s e).bind fun s => run s es

/-! ### Specification -/

/-- A user's slice directory, in words: /sys/fs/cgroup/unified/user.slice/user-N.slice with N in decimal without leading zeros. -/
def IsSlice (dir : List Bytes) (n : Nat) : Prop :=
  ∃ d, Dec d n ∧ (d.head? = some 48 → n = 0 ∧ d = [48]) ∧
    dir = [str "sys", str "fs", str "cgroup", str "unified", str "user.slice", str "user-" ++ d ++ str ".slice"]

/-! ### Proofs: numbers -/

theorem parseLoop_iff (s : Bytes) (n m : Nat) (hn : n < 2 ^ 31) :
    parseLoop n s = some m ↔ (∀ c ∈ s, 48 ≤ c.toNat ∧ c.toNat ≤ 57) ∧ n * 10 ^ s.length + placeValue s = m ∧ m < 2 ^ 31 := by
  induction s generalizing n with
  | nil => simp [parseLoop, placeValue]; omega
  | cons c cs ih =>
    simp only [parseLoop]
    cases hd : Resolver.digit c with
    | none =>
      simp only [reduceCtorEq, false_iff, not_and]
      intro hc
      have := (Resolver.digit_isSome c).mpr (hc c (by simp))
      rw [hd] at this; cases this
    | some d =>
      have h1 := (Resolver.digit_some c d).mp hd
      simp only
      have e : n * 10 ^ (c :: cs).length + placeValue (c :: cs) = (n * 10 + d) * 10 ^ cs.length + placeValue cs := by
        rw [placeValue, List.length_cons, Nat.pow_succ, Nat.add_mul, Nat.mul_assoc, Nat.mul_comm 10, h1.2.2, Nat.add_assoc]
      rw [e]
      split
      · next hb =>
        simp only [reduceCtorEq, false_iff, not_and]
        intro _ he
        have : 1 ≤ 10 ^ cs.length := Nat.one_le_pow _ _ (by omega)
        have := Nat.le_mul_of_pos_right (n * 10 + d) this
        omega
      · next hb =>
        rw [ih _ (by omega)]
        constructor
        · rintro ⟨a, b, c'⟩
          refine ⟨?_, b, c'⟩
          intro x hx
          rcases List.mem_cons.mp hx with rfl | hx
          · exact ⟨h1.1, h1.2.1⟩
          · exact a x hx
        · rintro ⟨a, b, c'⟩
          exact ⟨fun x hx => a x (by simp [hx]), b, c'⟩

theorem parseUint_iff (s : Bytes) (n : Nat) : parseUint s = some n ↔ Dec s n ∧ n < 2 ^ 31 := by
  unfold parseUint
  split
  · next h => simp [h, Dec]
  · next h =>
    rw [parseLoop_iff s 0 n (by decide)]
    simp [Dec, h, and_assoc]

theorem digit_byte (n : Nat) (h : n < 10) : (UInt8.ofNat (48 + n)).toNat = 48 + n := by
  simp [UInt8.toNat_ofNat']; omega

theorem placeValue_snoc (b : Bytes) (c : UInt8) : placeValue (b ++ [c]) = placeValue b * 10 + (c.toNat - 48) := by
  induction b with
  | nil => simp [placeValue]
  | cons x b ih =>
    rw [List.cons_append, placeValue, ih, placeValue, List.length_append, List.length_singleton, Nat.pow_succ, Nat.add_mul, Nat.mul_assoc, Nat.add_assoc]

theorem digits_dec (f n : Nat) (h : n < f) :
    Dec (Respond.digits f n) n ∧ ((Respond.digits f n).head? = some 48 → n = 0 ∧ Respond.digits f n = [48]) := by
  induction f generalizing n with
  | zero => omega
  | succ f ih =>
    unfold Respond.digits
    split
    · next h10 =>
      have hb := digit_byte n h10
      refine ⟨⟨by simp, ?_, ?_⟩, ?_⟩
      · intro c hc
        rw [List.mem_singleton.mp hc, hb]; omega
      · simp only [placeValue, hb]; simp
      · intro hh
        simp only [List.head?_cons, Option.some.injEq] at hh
        have : (UInt8.ofNat (48 + n)).toNat = 48 := by rw [hh]; rfl
        refine ⟨by omega, by rw [hh]⟩
    · next h10 =>
      obtain ⟨⟨a, b, c⟩, d⟩ := ih (n / 10) (by omega)
      have hb := digit_byte (n % 10) (by omega)
      refine ⟨⟨by simp, ?_, ?_⟩, ?_⟩
      · intro x hx
        rcases List.mem_append.mp hx with hx | hx
        · exact b x hx
        · rw [List.mem_singleton.mp hx, hb]; omega
      · rw [placeValue_snoc, c, hb]; omega
      · intro hh
        cases hd : Respond.digits f (n / 10) with
        | nil => exact absurd hd a
        | cons x r =>
          rw [hd] at hh d
          have := (d (by simpa using hh)).1
          omega

/-! ### Proofs: paths -/

theorem split_plain (a b : Bytes) (h : ∀ c ∈ a, c ≠ 47) : split (a ++ 47 :: b) = a :: split b := by
  induction a with
  | nil => simp [split]
  | cons x a ih =>
    have hx := h x (by simp)
    rw [List.cons_append, split, if_neg hx, ih fun c hc => h c (by simp [hc])]

theorem split_last (a : Bytes) (h : ∀ c ∈ a, c ≠ 47) : split a = [a] := by
  induction a with
  | nil => simp [split]
  | cons x a ih =>
    have hx := h x (by simp)
    rw [split, if_neg hx, ih fun c hc => h c (by simp [hc])]

theorem slice_component (d : Bytes) (h : ∀ c ∈ d, 48 ≤ c.toNat ∧ c.toNat ≤ 57) : ∀ c ∈ str "user-" ++ d ++ str ".slice", c ≠ 47 := by
  intro c hc
  rcases List.mem_append.mp hc with hc | hc
  · rcases List.mem_append.mp hc with hc | hc
    · exact (show ∀ c ∈ str "user-", c ≠ 47 by decide +kernel) c hc
    · have := h c hc
      rintro rfl
      exact absurd this.1 (by decide)
  · exact (show ∀ c ∈ str ".slice", c ≠ 47 by decide +kernel) c hc

theorem str_root : split (str "/sys/fs/cgroup/unified") = [[], str "sys", str "fs", str "cgroup", str "unified"] := by decide +kernel

theorem slice_path (d : Bytes) (h : ∀ c ∈ d, 48 ≤ c.toNat ∧ c.toNat ≤ 57) :
    cgroupPath (str "user.slice/user-" ++ d ++ str ".slice") =
      [str "sys", str "fs", str "cgroup", str "unified", str "user.slice", str "user-" ++ d ++ str ".slice"] := by
  have e : str "user.slice/user-" ++ d ++ str ".slice" = str "user.slice" ++ 47 :: (str "user-" ++ d ++ str ".slice") := by
    have : str "user.slice/user-" = str "user.slice" ++ 47 :: str "user-" := by decide +kernel
    rw [this]; simp
  unfold cgroupPath
  rw [e, split_plain _ _ (by decide +kernel), split_last _ (slice_component d h), str_root]
  have hc : ∀ acc, cleanStep acc (str "user-" ++ d ++ str ".slice") = (str "user-" ++ d ++ str ".slice") :: acc := by
    intro acc
    have hu : str "user-" ++ d ++ str ".slice" = 117 :: (str "ser-" ++ d ++ str ".slice") := by
      have : str "user-" = 117 :: str "ser-" := by decide +kernel
      rw [this]; rfl
    have h1 : str "." = [46] := by decide +kernel
    have h2 : str ".." = [46, 46] := by decide +kernel
    unfold cleanStep
    rw [hu, h1, h2]
    simp
  have h1 : cleanStep (cleanStep (cleanStep (cleanStep (cleanStep (cleanStep [] []) (str "sys")) (str "fs")) (str "cgroup")) (str "unified")) (str "user.slice") =
      [str "user.slice", str "unified", str "cgroup", str "fs", str "sys"] := by decide +kernel
  simp only [clean, List.foldl_append, List.foldl_cons, List.foldl_nil, h1, hc]
  rfl

theorem slice_is (id : Nat) : IsSlice (cgroupPath (sliceName id)) id := by
  have h := digits_dec (id + 1) id (by omega)
  exact ⟨_, h.1, h.2, slice_path _ h.1.2.1⟩

/-! ### C163 -/

/-- C163: without a user id (the scope wasn't requested, or the client is anonymous) the default factory makes the process; and not
otherwise. -/
theorem other_iff (isDir : List Bytes → Bool) (u : Option Bytes) : target isDir u = .other ↔ u = none ∨ u = some [] := by
  unfold target
  cases u with
  | none => simp
  | some b =>
    cases b with
    | nil => simp
    | cons x b =>
      simp only [Option.getD_some, reduceCtorEq, if_false, Option.some.injEq, or_self, iff_false]
      split
      · simp
      · split <;> simp

/-- C163: with a user id, the process is made in the directory of the user's slice just if the user id is a decimal number below 2^31 and
there's such a directory. -/
theorem users_iff (isDir : List Bytes → Bool) (u : Bytes) (dir : List Bytes) :
    target isDir (some u) = .users dir ↔ ∃ n, Dec u n ∧ n < 2 ^ 31 ∧ dir = cgroupPath (sliceName n) ∧ isDir dir = true := by
  unfold target
  cases u with
  | nil => simp [Dec]
  | cons x b =>
    simp only [Option.getD_some, reduceCtorEq, if_false]
    cases hp : parseUint (x :: b) with
    | none =>
      simp only [reduceCtorEq, false_iff]
      rintro ⟨n, h1, h2, -⟩
      rw [(parseUint_iff _ n).mpr ⟨h1, h2⟩] at hp; cases hp
    | some id =>
      have hid := (parseUint_iff _ id).mp hp
      simp only
      constructor
      · intro h
        split at h
        · next hd => cases h; exact ⟨id, hid.1, hid.2, rfl, hd⟩
        · cases h
      · rintro ⟨n, h1, -, rfl, hd⟩
        have : n = id := h1.2.2.symm.trans hid.1.2.2
        subst this
        rw [if_pos hd]

/-- C163: that's the user's own slice: nothing but digits of the user id gets to the path. -/
theorem own_slice (isDir : List Bytes → Bool) (u : Bytes) (dir : List Bytes) (h : target isDir (some u) = .users dir) :
    ∃ n, Dec u n ∧ IsSlice dir n := by
  obtain ⟨n, h1, -, rfl, -⟩ := (users_iff isDir u dir).mp h
  exact ⟨n, h1, slice_is n⟩

/-- C163: users with different numbers have different slices. -/
theorem distinct (isDir : List Bytes → Bool) (u v : Bytes) (n m : Nat) (dir : List Bytes) (hu : Dec u n) (hv : Dec v m)
    (h1 : target isDir (some u) = .users dir) (h2 : target isDir (some v) = .users dir) : n = m := by
  obtain ⟨n', a1, d1, b1, -, c1⟩ := own_slice isDir u dir h1
  obtain ⟨m', a2, d2, b2, -, c2⟩ := own_slice isDir v dir h2
  rw [c1] at c2
  have e : d1 = d2 := by
    simp only [List.cons.injEq, true_and, and_true] at c2
    exact List.append_cancel_left (List.append_cancel_right c2)
  have := b1.2.2.symm.trans ((congrArg placeValue e).trans b2.2.2)
  rw [← hu.2.2, a1.2.2, this, ← a2.2.2, hv.2.2]

/-- C163: no directory is opened for a user id which isn't a number. -/
theorem parseError_iff (isDir : List Bytes → Bool) (u : Bytes) : target isDir (some u) = .parseError ↔ u ≠ [] ∧ ¬ ∃ n, Dec u n ∧ n < 2 ^ 31 := by
  unfold target
  cases u with
  | nil => simp
  | cons x b =>
    simp only [Option.getD_some, reduceCtorEq, if_false, ne_eq, not_false_eq_true, true_and]
    cases hp : parseUint (x :: b) with
    | none =>
      simp only [true_iff]
      rintro ⟨n, h⟩
      rw [(parseUint_iff _ n).mpr h] at hp; cases hp
    | some id =>
      simp only
      constructor
      · intro h; split at h <;> cases h
      · intro h; exact absurd ⟨id, (parseUint_iff _ id).mp hp⟩ h

/-! ### A configured name -/

theorem clean_inside (r acc cs : List Bytes) (h : str ".." ∉ cs) : ∃ x, (cs.foldl cleanStep (acc ++ r)) = x ++ r := by
  induction cs generalizing acc with
  | nil => exact ⟨acc, rfl⟩
  | cons c cs ih =>
    have h1 : c ≠ str ".." := fun e => h (by simp [e])
    have h2 : str ".." ∉ cs := fun hx => h (by simp [hx])
    rw [List.foldl_cons]
    by_cases hc : c = [] ∨ c = str "."
    · rw [show cleanStep (acc ++ r) c = acc ++ r from if_pos hc]
      exact ih acc h2
    · rw [show cleanStep (acc ++ r) c = (c :: acc) ++ r by rw [cleanStep, if_neg hc, if_neg h1]; rfl]
      exact ih (c :: acc) h2

/-- C163: a cgroup's directory is under the hierarchy's root if its name has no ".." component. -/
theorem inside (name : Bytes) (h : str ".." ∉ split name) : [str "sys", str "fs", str "cgroup", str "unified"] <+: cgroupPath name := by
  unfold cgroupPath clean
  rw [List.foldl_append, str_root]
  have h1 : [[], str "sys", str "fs", str "cgroup", str "unified"].foldl cleanStep [] = [] ++ [str "unified", str "cgroup", str "fs", str "sys"] := by decide +kernel
  rw [h1]
  obtain ⟨x, hx⟩ := clean_inside [str "unified", str "cgroup", str "fs", str "sys"] [] (split name) h
  rw [hx, List.reverse_append]
  exact ⟨_, rfl⟩

/-- Which isn't checked of configured names. -/
theorem outside_refuted : cgroupPath (str "../../../../etc") = [str "etc"] := by decide +kernel

/-! ### The descriptor -/

def heldBy (c : Caller) (r : Req) : Int :=
  (match c with | .opened => 1 | .referenced => 2 | .failing => 2 | .returning => 1 | .returned => 0) +
  (match r with | .queued => 1 | .sent => 1 | _ => 0)

def held (s : St) : Int := heldBy s.caller s.req

structure Good (s : St) : Prop where
  count : s.count = held s
  closed : s.closes = if held s = 0 then 1 else 0
  uses : s.badUses = 0
  panics : s.panics = 0
  early : s.req ≠ .none_ → s.caller = .returning ∨ s.caller = .returned

theorem good_step (s s' : St) (e : Ev) (g : Good s) (h : step s e = some s') : Good s' := by
  obtain ⟨ca, rq, co, cl, bu, pa⟩ := s
  obtain ⟨g1, g2, g3, g4, g5⟩ := g
  simp only [held] at g1 g2 g3 g4 g5
  replace g2 : cl = if heldBy ca rq = 0 then 1 else 0 := g2
  subst g1 g2 g3 g4
  revert h g5
  cases e <;> cases ca <;> cases rq <;> simp only [step] <;> intro g5 h <;>
    first
    | (exact absurd (g5 (by decide)) (by decide))
    | (simp at h; done)
    | (cases h; exact ⟨by decide, by decide, by decide, by decide, by decide⟩)

theorem good_run (es : List Ev) (s s' : St) (g : Good s) (h : run s es = some s') : Good s' := by
  induction es generalizing s with
  | nil => cases h; exact g
  | cons e es ih =>
    simp only [run] at h
    cases hs : step s e with
    | none => rw [hs] at h; cases h
    | some s1 => rw [hs] at h; exact ih s1 (good_step s s1 e g hs) h

theorem good_new : Good new := ⟨by decide, by decide, rfl, rfl, by decide⟩

/-- C163: however the call and the executor's sender interleave, the slice's directory is open while it's passed to the executor, no
reference counting panics, and it has been closed once exactly if the call has returned and the request, if one was made, has been dropped. -/
theorem slice_closed (es : List Ev) (s : St) (h : run new es = some s) :
    s.badUses = 0 ∧ s.panics = 0 ∧ s.closes ≤ 1 ∧ (s.closes = 1 ↔ s.caller = .returned ∧ (s.req = .none_ ∨ s.req = .dropped)) := by
  have g := good_run es new s good_new h
  obtain ⟨g1, g2, g3, g4, g5⟩ := g
  refine ⟨g3, g4, ?_, ?_⟩
  · rw [g2]; split <;> omega
  · rw [g2]
    unfold held heldBy
    cases s.caller <;> cases s.req <;> decide

/-! ### Examples -/

example : target (fun _ => true) (some (str "1000")) =
    .users [str "sys", str "fs", str "cgroup", str "unified", str "user.slice", str "user-1000.slice"] := by decide +kernel
example : target (fun _ => true) (some (str "../0")) = .parseError := by decide +kernel
example : target (fun _ => true) (some (str "2147483648")) = .parseError := by decide +kernel
example : target (fun _ => true) (some (str "007")) = target (fun _ => true) (some (str "7")) := by decide +kernel
example : target (fun _ => true) none = .other := by decide +kernel

/-- The call returns before the request is passed; and the other way round. -/
example : run new [.ref, .send, .close, .pass, .drop] = some ⟨.returned, .dropped, 0, 1, 0, 0⟩ := by decide
example : run new [.ref, .send, .pass, .drop, .close] = some ⟨.returned, .dropped, 0, 1, 0, 0⟩ := by decide
example : run new [.ref, .fail, .release, .close] = some ⟨.returned, .none_, 0, 1, 0, 0⟩ := by decide

end Gate.UserGroup
