import Verif.Access
/-
C113: access policies. Model: Access.lean.
-/
namespace Gate.Access
open Gate.Auth (str)
open Gate.Respond (Err)

/-! ### Specification -/

/-- The ed25519 keys in a file. -/
def keysOf : List Line → List Bytes
  | [] => []
  | .key _ (some k) :: r => k :: keysOf r
  | _ :: r => keysOf r

/-- A file which ends in a line with a key (or is empty). -/
def EndsInKey (l : List Line) : Prop := l.getLast? ≠ some .noKey

theorem nextKey_none (l : List Line) : nextKey l = none ↔ ∀ x ∈ l, x = .noKey := by
  induction l with
  | nil => simp [nextKey]
  | cons a r ih => cases a <;> simp [nextKey, ih]

theorem nextKey_some (l : List Line) (o : List Bytes) (k : Option Bytes) (r : List Line) (h : nextKey l = some (o, k, r)) :
    keysOf l = k.toList ++ keysOf r ∧ r.length < l.length ∧ (r ≠ [] → l.getLast? = r.getLast?) ∧ (r = [] → l.getLast? = some (.key o k)) := by
  induction l with
  | nil => simp [nextKey] at h
  | cons a t ih =>
    cases a with
    | noKey =>
      obtain ⟨h1, h2, h3, h4⟩ := ih (by simpa [nextKey] using h)
      have hne : t ≠ [] := by intro e; subst e; simp at h2
      have hl : (Line.noKey :: t).getLast? = t.getLast? := by
        cases t with
        | nil => exact absurd rfl hne
        | cons b t => rfl
      exact ⟨by simpa [keysOf] using h1, by simp; omega, fun hr => hl.trans (h3 hr), fun hr => hl.trans (h4 hr)⟩
    | key o' k' =>
      simp only [nextKey, Option.some.injEq, Prod.mk.injEq] at h
      obtain ⟨rfl, rfl, rfl⟩ := h
      refine ⟨?_, by simp, ?_, ?_⟩
      · cases k' <;> simp [keysOf]
      · intro hr
        cases t with
        | nil => exact absurd rfl hr
        | cons b t => rfl
      · intro hr; subst hr; rfl

/-- The table grows, and a key's uid never changes. -/
theorem parseLoop_mono (uid f : Nat) (t : Table) (l : List Line) (k : Bytes) (x : Nat) (h : t k = some x) : (parseLoop uid f t l).1 k = some x := by
  induction f generalizing t l with
  | zero => cases l <;> exact h
  | succ f ih =>
    cases l with
    | nil => exact h
    | cons a r =>
      simp only [parseLoop]
      split
      · exact h
      · exact ih _ _ h
      · split
        · split
          · exact h
          · exact ih _ _ h
        · rename_i hn
          refine ih _ _ ?_
          split
          · rename_i e; subst e; rw [hn] at h; cases h
          · exact h

/-- New entries are keys of the file, with the uid of the file. -/
theorem parseLoop_sound (uid f : Nat) (t : Table) (l : List Line) (k : Bytes) (x : Nat) (h : (parseLoop uid f t l).1 k = some x) : t k = some x ∨ (x = uid ∧ k ∈ keysOf l) := by
  induction f generalizing t l with
  | zero => cases l <;> exact .inl h
  | succ f ih =>
    cases l with
    | nil => exact .inl h
    | cons a r =>
      simp only [parseLoop] at h
      split at h
      · exact .inl h
      · rename_i o r' he
        have hk := (nextKey_some _ _ _ _ he).1
        rcases ih _ _ h with h | ⟨h1, h2⟩
        · exact .inl h
        · exact .inr ⟨h1, by rw [hk]; simpa using h2⟩
      · rename_i o k' r' he
        have hk := (nextKey_some _ _ _ _ he).1
        split at h
        · split at h
          · exact .inl h
          · rcases ih _ _ h with h | ⟨h1, h2⟩
            · exact .inl h
            · exact .inr ⟨h1, by rw [hk]; simp [h2]⟩
        · rcases ih _ _ h with h | ⟨h1, h2⟩
          · split at h
            · rename_i e; exact .inr ⟨(Option.some.inj h).symm, by rw [hk, e]; simp⟩
            · exact .inl h
          · exact .inr ⟨h1, by rw [hk]; simp [h2]⟩

theorem parseLoop_ok (uid f : Nat) (t : Table) (l : List Line) (hf : l.length ≤ f) :
    (parseLoop uid f t l).2 = true ↔ EndsInKey l ∧ ∀ k ∈ keysOf l, t k = none ∨ t k = some uid := by
  induction f generalizing t l with
  | zero =>
    have : l = [] := List.length_eq_zero_iff.mp (by omega)
    subst this; simp [parseLoop, EndsInKey, keysOf]
  | succ f ih =>
    cases l with
    | nil => simp [parseLoop, EndsInKey, keysOf]
    | cons a r =>
      simp only [parseLoop]
      split
      · rename_i he
        simp only [Bool.false_eq_true, false_iff]
        rintro ⟨h1, _⟩
        rw [nextKey_none] at he
        apply h1
        rw [List.getLast?_eq_some_getLast (by simp)]
        rw [he _ (List.getLast_mem _)]
      · rename_i o r' he
        obtain ⟨h1, h2, h3, h4⟩ := nextKey_some _ _ _ _ he
        rw [ih t r' (by simp only [List.length_cons] at h2 hf; omega), h1]
        have : EndsInKey (a :: r) ↔ EndsInKey r' := by
          unfold EndsInKey
          by_cases hr : r' = []
          · rw [h4 hr, hr]; simp
          · rw [h3 hr]
        rw [this]; simp
      · rename_i o k r' he
        obtain ⟨h1, h2, h3, h4⟩ := nextKey_some _ _ _ _ he
        have hlen : r'.length ≤ f := by simp only [List.length_cons] at h2 hf; omega
        have hend : EndsInKey (a :: r) ↔ EndsInKey r' := by
          unfold EndsInKey
          by_cases hr : r' = []
          · rw [h4 hr, hr]; simp
          · rw [h3 hr]
        rw [hend, h1]
        split
        · rename_i x hx
          split
          · rename_i hne
            simp only [Bool.false_eq_true, false_iff]
            rintro ⟨_, h⟩
            rcases h k (by simp) with h | h
            · rw [hx] at h; cases h
            · rw [hx] at h; exact hne (Option.some.inj h)
          · rename_i heq
            rw [ih t r' hlen]
            have : x = uid := by omega
            subst this
            constructor
            · rintro ⟨a, b⟩; refine ⟨a, fun j hj => ?_⟩
              simp only [Option.toList_some, List.singleton_append, List.mem_cons] at hj
              rcases hj with rfl | hj
              · exact .inr hx
              · exact b j hj
            · rintro ⟨a, b⟩; exact ⟨a, fun j hj => b j (by simp [hj])⟩
        · rename_i hx
          rw [ih _ r' hlen]
          constructor
          · rintro ⟨a, b⟩; refine ⟨a, fun j hj => ?_⟩
            simp only [Option.toList_some, List.singleton_append, List.mem_cons] at hj
            rcases hj with rfl | hj
            · exact .inl hx
            · have := b j hj
              split at this
              · rename_i e; subst e; exact .inl hx
              · exact this
          · rintro ⟨a, b⟩; refine ⟨a, fun j hj => ?_⟩
            split
            · exact .inr rfl
            · exact b j (by simp [hj])

/-- On success every key of the file is in the table. -/
theorem parseLoop_complete (uid f : Nat) (t : Table) (l : List Line) (h : (parseLoop uid f t l).2 = true) (k : Bytes) (hk : k ∈ keysOf l) : (parseLoop uid f t l).1 k = some uid := by
  induction f generalizing t l with
  | zero =>
    cases l with
    | nil => simp [keysOf] at hk
    | cons a r => simp [parseLoop] at h
  | succ f ih =>
    cases l with
    | nil => simp [keysOf] at hk
    | cons a r =>
      simp only [parseLoop] at h ⊢
      split
      · rename_i he; rw [he] at h; cases h
      · rename_i o r' he
        rw [he] at h
        rw [(nextKey_some _ _ _ _ he).1] at hk
        exact ih _ _ h (by simpa using hk)
      · rename_i o k' r' he
        rw [he] at h
        rw [(nextKey_some _ _ _ _ he).1] at hk
        simp only [Option.toList_some, List.singleton_append, List.mem_cons] at hk
        simp only at h
        cases hx : t k' with
        | some x =>
          simp only [hx] at h ⊢
          by_cases hu : x = uid
          · rw [if_neg (by simpa using hu)] at h ⊢
            rcases hk with rfl | hk
            · exact parseLoop_mono _ _ _ _ _ _ (hu ▸ hx)
            · exact ih _ _ h hk
          · rw [if_pos hu] at h; cases h
        | none =>
          simp only [hx] at h ⊢
          rcases hk with rfl | hk
          · exact parseLoop_mono _ _ _ _ _ _ (if_pos rfl)
          · exact ih _ _ h hk

/-! ### Properties -/

/-- C113: after parsing one file successfully, access is granted to a principal if and only if its key is in the file; the uid is that of the file, and is given only within the system scope. -/
theorem authorize_iff (uid : Nat) (l : List Line) (h : (parse (fun _ => none) uid l).2 = true) (pri : Option Bytes) (sys : Bool) (r : Option Nat) :
    authorize (parse (fun _ => none) uid l).1 pri sys = .ok r ↔ (∃ k, pri = some k ∧ k ∈ keysOf l) ∧ r = if sys then some uid else none := by
  unfold authorize
  cases pri with
  | none => simp
  | some k =>
    simp only [Option.some.injEq, exists_eq_left']
    cases ht : (parse (fun _ => none) uid l).1 k with
    | none =>
      simp only [reduceCtorEq, false_iff]
      rintro ⟨hk, _⟩
      rw [show (parse (fun _ => none) uid l).1 k = some uid from parseLoop_complete _ _ _ _ h k hk] at ht
      cases ht
    | some x =>
      rcases parseLoop_sound _ _ _ _ _ _ ht with h1 | ⟨rfl, h2⟩
      · cases h1
      · simp only [Except.ok.injEq, h2, true_and]
        exact eq_comm

/-- C113: whatever files are parsed, successfully or not, and in which order: access is granted only to keys which are in one of them, with the uid of that file. -/
theorem authorize_sound (files : List (Nat × List Line)) (k : Bytes) (sys : Bool) (r : Option Nat) (h : authorize (parseAll (fun _ => none) files) (some k) sys = .ok r) :
    ∃ uid l, (uid, l) ∈ files ∧ k ∈ keysOf l ∧ r = if sys then some uid else none := by
  have key : ∀ (files : List (Nat × List Line)) (t : Table) (x : Nat), parseAll t files k = some x → t k = some x ∨ ∃ l, (x, l) ∈ files ∧ k ∈ keysOf l := by
    intro files
    induction files with
    | nil => intro t x h; exact .inl h
    | cons f fs ih =>
      intro t x h
      rcases ih _ _ h with h | ⟨l, h1, h2⟩
      · rcases parseLoop_sound _ _ _ _ _ _ h with h | ⟨rfl, hk⟩
        · exact .inl h
        · exact .inr ⟨f.2, List.mem_cons_self, hk⟩
      · exact .inr ⟨l, List.mem_cons_of_mem _ h1, h2⟩
  unfold authorize at h
  simp only at h
  split at h
  · cases h
  · rename_i x hx
    rcases key _ _ _ hx with h' | ⟨l, h1, h2⟩
    · cases h'
    · exact ⟨x, l, h1, h2, by cases h; rfl⟩

/-- C113: the uid of a key never changes, whatever is parsed later. -/
theorem owner_stable (t : Table) (files : List (Nat × List Line)) (k : Bytes) (x : Nat) (h : t k = some x) : parseAll t files k = some x := by
  induction files generalizing t with
  | nil => exact h
  | cons f fs ih => exact ih _ (parseLoop_mono _ _ _ _ _ _ h)

/-- C113: parsing succeeds if and only if the file is empty or its last line has a key, and none of its ed25519 keys belongs to another uid. -/
theorem parse_ok_iff (t : Table) (uid : Nat) (l : List Line) : (parse t uid l).2 = true ↔ EndsInKey l ∧ ∀ k ∈ keysOf l, t k = none ∨ t k = some uid :=
  parseLoop_ok uid l.length t l (Nat.le_refl _)

/-- C113, refuted: a comment or an empty line at the end of the file is an error (the server program doesn't start), whatever keys the file has; the same file without that line is fine. -/
theorem trailing_comment_refuted (uid : Nat) (l : List Line) (h : EndsInKey l) :
    (parse (fun _ => none) uid l).2 = true ∧ (parse (fun _ => none) uid (l ++ [.noKey])).2 = false := by
  refine ⟨(parse_ok_iff _ _ _).mpr ⟨h, fun _ _ => .inl rfl⟩, ?_⟩
  cases hp : (parse (fun _ => none) uid (l ++ [.noKey])).2 with
  | false => rfl
  | true =>
    have := ((parse_ok_iff _ _ _).mp hp).1
    simp [EndsInKey] at this

example : EndsInKey [.noKey, .key [] (some (str "k1")), .noKey, .key [] none] := by simp [EndsInKey]

/-- C113, refuted: options of a key (an expiry time, a forced command, a restriction of addresses, or a mark of a certificate authority's key) don't restrict its access. -/
theorem options_ignored_refuted (uid : Nat) (k : Bytes) (options : List Bytes) (sys : Bool) :
    authorize (parse (fun _ => none) uid [.key options (some k)]).1 (some k) sys = .ok (if sys then some uid else none) :=
  (authorize_iff uid _ ((parse_ok_iff _ _ _).mpr ⟨by simp [EndsInKey], fun _ _ => .inl rfl⟩) (some k) sys _).mpr ⟨⟨k, rfl, by simp [keysOf]⟩, rfl⟩

/-- C113: NoAccess denies everything, PublicAccess grants everything (to anonymous clients, too), AuthorizedKeys denies anonymous clients with a challenge and others without telling why. -/
theorem decisions (c : Config) (t : Table) (kind : Kind) (k : Bytes) (pri : Option Bytes) (sys : Bool) (identity : Bytes) (hk : t k = none) :
    (∃ e, grant .noAccess kind pri sys = .error e ∧ (Respond.respond identity e).status = 403 ∧ (Respond.respond identity e).text = str "access denied") ∧
    (∃ g, grant (.«public» c) kind pri sys = .ok g ∧ g.uid = none) ∧
    (∃ e, grant (.keys c t) kind none sys = .error e ∧ (Respond.respond identity e).status = 401) ∧
    (∃ e, grant (.keys c t) kind (some k) sys = .error e ∧ (Respond.respond identity e).status = 403 ∧ (Respond.respond identity e).text = str "access denied") := by
  refine ⟨⟨_, rfl, rfl, rfl⟩, ⟨_, rfl, rfl⟩, ⟨_, rfl, rfl⟩, ⟨.forbidden (str "key not authorized"), ?_, rfl, rfl⟩⟩
  simp only [grant, authorize, hk]

/-- C113: a policy which is configured as zero is replaced by its default, in every kind of authorization; so no limit is ever zero. Other values are kept. -/
theorem limits_nonzero (p : Policy) (kind : Kind) (pri : Option Bytes) (sys : Bool) (g : Granted) (h : grant p kind pri sys = .ok g) :
    (∀ r, g.res = some r → r.maxModules ≠ 0 ∧ r.maxProcs ≠ 0 ∧ r.totalStorageSize ≠ 0 ∧ r.totalResidentSize ≠ 0) ∧
    (∀ r, g.prog = some r → r.maxModuleSize ≠ 0 ∧ r.maxTextSize ≠ 0 ∧ r.maxStackSize ≠ 0) ∧
    (∀ r, g.inst = some r → r.maxMemorySize ≠ 0 ∧ r.stackSize ≠ 0 ∧ r.timeResolution ≠ 0) := by
  have od : ∀ x d : Int, d ≠ 0 → orDefault x d ≠ 0 := by intro x d hd; unfold orDefault; split <;> assumption
  have key : ∀ (c : Config) (uid : Option Nat), g = { uid := uid, res := if kind = .plain then none else some (configureResource c), prog := if kind = .program ∨ kind = .programInstance then some (configureProgram c) else none, inst := if kind = .instance_ ∨ kind = .programInstance then some (configureInstance c) else none } →
      (∀ r, g.res = some r → r.maxModules ≠ 0 ∧ r.maxProcs ≠ 0 ∧ r.totalStorageSize ≠ 0 ∧ r.totalResidentSize ≠ 0) ∧
      (∀ r, g.prog = some r → r.maxModuleSize ≠ 0 ∧ r.maxTextSize ≠ 0 ∧ r.maxStackSize ≠ 0) ∧
      (∀ r, g.inst = some r → r.maxMemorySize ≠ 0 ∧ r.stackSize ≠ 0 ∧ r.timeResolution ≠ 0) := by
    rintro c uid rfl
    refine ⟨?_, ?_, ?_⟩
    · intro r hr
      simp only at hr
      split at hr
      · cases hr
      · cases hr; exact ⟨od _ _ (by decide), od _ _ (by decide), od _ _ (by decide), od _ _ (by decide)⟩
    · intro r hr
      simp only at hr
      split at hr
      · cases hr; exact ⟨od _ _ (by decide), od _ _ (by decide), od _ _ (by decide)⟩
      · cases hr
    · intro r hr
      simp only at hr
      split at hr
      · cases hr; exact ⟨od _ _ (by decide), od _ _ (by decide), od _ _ (by decide)⟩
      · cases hr
  cases p with
  | noAccess => cases h
  | «public» c =>
    simp only [grant, Except.ok.injEq] at h
    exact key c none h.symm
  | keys c t =>
    simp only [grant] at h
    split at h
    · cases h
    · rename_i uid hu
      simp only [Except.ok.injEq] at h
      exact key c uid h.symm

/-- C113: configured values which aren't zero are what is granted, and everything a request needs is configured. -/
theorem limits_exact (c : Config) (h1 : c.res.maxModules ≠ 0 ∧ c.res.maxProcs ≠ 0 ∧ c.res.totalStorageSize ≠ 0 ∧ c.res.totalResidentSize ≠ 0)
    (h2 : c.prog.maxModuleSize ≠ 0 ∧ c.prog.maxTextSize ≠ 0 ∧ c.prog.maxStackSize ≠ 0) (h3 : c.inst.maxMemorySize ≠ 0 ∧ c.inst.stackSize ≠ 0 ∧ c.inst.timeResolution ≠ 0)
    (pri : Option Bytes) (sys : Bool) : grant (.«public» c) .programInstance pri sys = .ok ⟨none, some c.res, some c.prog, some c.inst⟩ := by
  have od : ∀ x d : Int, x ≠ 0 → orDefault x d = x := fun x d hx => if_neg hx
  have e1 : configureResource c = c.res := by simp only [configureResource, od _ _ h1.1, od _ _ h1.2.1, od _ _ h1.2.2.1, od _ _ h1.2.2.2]
  have e2 : configureProgram c = c.prog := by simp only [configureProgram, od _ _ h2.1, od _ _ h2.2.1, od _ _ h2.2.2]
  have e3 : configureInstance c = c.inst := by simp only [configureInstance, od _ _ h3.1, od _ _ h3.2.1, od _ _ h3.2.2]
  simp only [grant, e1, e2, e3]
  rfl

/-- C113, refuted: access can't be denied by configuring a limit as zero, for example no processes or no modules at all: then there's the default. -/
theorem zero_limit_refuted (c : Config) (h : c.res.maxProcs = 0) (pri : Option Bytes) (sys : Bool) :
    ∃ g r, grant (.«public» c) .programInstance pri sys = .ok g ∧ g.res = some r ∧ r.maxProcs = 4 := by
  refine ⟨_, _, rfl, rfl, ?_⟩
  simp only [configureResource, orDefault, h, if_true]; rfl

example : authorize (parse (fun _ => none) 1000 [.noKey, .key [] (some (str "a")), .key [] none, .noKey, .key [str "restrict"] (some (str "b"))]).1 (some (str "b")) true = .ok (some 1000) := by
  exact (authorize_iff 1000 _ (by decide +kernel) _ true _).mpr ⟨⟨_, rfl, by decide +kernel⟩, rfl⟩

/-- C113: the defaults: 64 modules, 4 processes, 256 MiB of storage, 64 MiB of memory; modules of 32 MiB with
16 MiB of text and 64 KiB of stack; instances with 32 MiB of memory, 64 KiB of stack, clock resolution of 10 ms and no
services. -/
theorem default_limits (pri : Option Bytes) (sys : Bool) :
    grant (.«public» ⟨⟨0, 0, 0, 0⟩, ⟨0, 0, 0⟩, ⟨0, 0, 0, false⟩⟩) .programInstance pri sys =
      .ok ⟨none, some ⟨64, 4, 268435456, 67108864⟩, some ⟨33554432, 16777216, 65536⟩, some ⟨33554432, 65536, 10000000, false⟩⟩ := rfl

end Gate.Access
