import Verif.Entry

/-! # Properties of entry functions and of the order of snapshot sections (C50, C69) -/

namespace Gate.Entry

theorem lookup_entryIndexes (exports : List Export) (name : String) (hu : (exports.map (·.name)).Nodup) :
    lookup (entryIndexes exports) name =
      match exportFunc exports name with
      | some e => if e.entryType then some e.index else none
      | none => none := by
  induction exports with
  | nil => rfl
  | cons e es ih =>
    simp only [List.map_cons, List.nodup_cons] at hu
    have ih := ih hu.2
    unfold lookup entryIndexes exportFunc at *
    rw [List.find?_cons]
    by_cases hn : e.name = name
    · subst hn
      simp only [beq_self_eq_true]
      by_cases ht : e.entryType = true
      · simp [List.filter_cons, ht]
      · simp only [List.filter_cons, ht, Bool.false_eq_true, if_false, List.find?_map, Option.map_eq_none_iff]
        rw [List.find?_eq_none]
        intro x hx
        simp only [List.mem_filter] at hx
        simp only [Function.comp, beq_iff_eq]
        intro hxe
        exact hu.1 (hxe ▸ List.mem_map_of_mem hx.1)
    · have : (e.name == name) = false := by simp [hn]
      simp only [this]
      rw [← ih]
      by_cases ht : e.entryType = true
      · simp [List.filter_cons, ht, List.find?_cons, this]
      · simp [List.filter_cons, ht]

/-- The functions which may be called, in the words of the property: the exported function of the name,
if its type allows. -/
def Callable (exports : List Export) (name : String) (i : Nat) : Prop :=
  ∃ e ∈ exports, e.name = name ∧ e.index = i ∧ e.entryType = true

theorem exportFunc_some {exports : List Export} {name : String} {e : Export} (h : exportFunc exports name = some e) :
    e ∈ exports ∧ e.name = name := by
  unfold exportFunc at h
  exact ⟨List.mem_of_find?_eq_some h, by simpa using List.find?_some h⟩

theorem exportFunc_unique {exports : List Export} {name : String} {i : Nat} (hu : (exports.map (·.name)).Nodup)
    (h : Callable exports name i) : ∃ e, exportFunc exports name = some e ∧ e.index = i ∧ e.entryType = true := by
  obtain ⟨e, he, h1, h2, h3⟩ := h
  refine ⟨e, ?_, h2, h3⟩
  unfold exportFunc
  induction exports with
  | nil => cases he
  | cons x xs ih =>
    simp only [List.map_cons, List.nodup_cons] at hu
    rw [List.find?_cons]
    rcases List.mem_cons.mp he with rfl | he
    · simp [h1]
    · have : (x.name == name) = false := by
        simp only [beq_eq_false_iff_ne]
        intro hx
        exact hu.1 (by rw [hx, ← h1]; exact List.mem_map_of_mem he)
      simp only [this]
      exact ih hu.2 he

/-- C50: what resolution on a stored program gives.  Nothing is asked: the _start function of a program
which is not a snapshot, or nothing.  A function is asked for: refused if there is a _start function still
to be called; the _start function itself counts as having been called; otherwise the exported function of
that name. -/
theorem program_resolution (exports : List Export) (hu : (exports.map (·.name)).Nodup) (snap : Bool) (name : String) (started : Bool)
    (r : Resolved) : programResolve (entryIndexes exports) snap name started = r ↔
      match r with
      | .ok (some i) =>
        (name = "" ∧ snap = false ∧ started = false ∧ Callable exports "_start" i) ∨
        (name ≠ "" ∧ name ≠ "_start" ∧ (snap = true ∨ started = true ∨ ∀ j, ¬ Callable exports "_start" j) ∧ Callable exports name i)
      | .ok none => (name = "" ∨ name = "_start") ∧ (snap = true ∨ started = true ∨ ∀ j, ¬ Callable exports "_start" j)
      | .error .start => name ≠ "" ∧ snap = false ∧ started = false ∧ ∃ j, Callable exports "_start" j
      | .error .function => name ≠ "" ∧ name ≠ "_start" ∧ (snap = true ∨ started = true ∨ ∀ j, ¬ Callable exports "_start" j) ∧
          ∀ i, ¬ Callable exports name i
      | .error .suspended => False := by
  have key : ∀ n, (∀ i, lookup (entryIndexes exports) n = some i ↔ Callable exports n i) := by
    intro n i
    rw [lookup_entryIndexes exports n hu]
    constructor
    · intro h
      split at h
      · rename_i e he
        split at h
        · rename_i ht
          simp only [Option.some.injEq] at h
          obtain ⟨h1, h2⟩ := exportFunc_some he
          exact ⟨e, h1, h2, h, ht⟩
        · cases h
      · cases h
    · intro h
      obtain ⟨e, h1, h2, h3⟩ := exportFunc_unique hu h
      simp [h1, h2, h3]
  have hs := key "_start"
  have hn := key name
  unfold programResolve
  rcases h1 : lookup (entryIndexes exports) "_start" with _ | i1
  all_goals rcases h2 : lookup (entryIndexes exports) name with _ | i2
  all_goals
    rw [h1] at hs
    rw [h2] at hn
    have hs' : ∀ i, Callable exports "_start" i ↔ _ := fun i => (hs i).symm
    have hn' : ∀ i, Callable exports name i ↔ _ := fun i => (hn i).symm
    by_cases he : name = ""
    · subst he
      cases snap <;> cases started <;> rcases r with ((_ | _ | _) | (_ | i)) <;> simp [hs']
    · by_cases hst : name = "_start"
      · subst hst
        cases snap <;> cases started <;> rcases r with ((_ | _ | _) | (_ | i)) <;> simp [hs'] <;> simp_all
      · cases snap <;> cases started <;> rcases r with ((_ | _ | _) | (_ | i)) <;> simp [hs', hn', he, hst]

/-- C50: the two implementations agree on every module whose _start export, if there is such, has the
type of an entry function. -/
theorem resolutions_agree_partial (exports : List Export) (hu : (exports.map (·.name)).Nodup)
    (ht : ∀ e ∈ exports, e.name = "_start" → e.entryType = true) (snap : Bool) (name : String) (started : Bool) :
    buildResolve exports name (started || snap) = programResolve (entryIndexes exports) snap name started := by
  unfold buildResolve programResolve
  rw [lookup_entryIndexes exports "_start" hu, lookup_entryIndexes exports name hu]
  rcases h1 : exportFunc exports "_start" with _ | e1
  · cases snap <;> cases started <;> simp only [Bool.not_true, Bool.not_false, Bool.or_true, Bool.or_false, Bool.and_true, Bool.and_false, Bool.false_eq_true, if_true, if_false, Option.isSome_none]
    all_goals
      rcases h2 : exportFunc exports name with _ | e2
      · rfl
      · cases h3 : e2.entryType <;> simp [h3]
  · have := exportFunc_some h1
    have ht1 := ht e1 this.1 this.2
    cases snap <;> cases started <;> simp only [Bool.not_true, Bool.not_false, Bool.or_true, Bool.or_false, Bool.and_true, Bool.and_false, Bool.false_eq_true, if_true, if_false, Option.isSome_none, ht1, Option.isSome_some]
    all_goals
      rcases h2 : exportFunc exports name with _ | e2
      · rfl
      · cases h3 : e2.entryType <;> simp [h3]

/-- The exact extent of the disagreement: a function is asked for, and the module exports a function
named _start, not yet called, whose type is not that of an entry function. -/
theorem resolutions_disagree_iff (exports : List Export) (hu : (exports.map (·.name)).Nodup) (snap : Bool) (name : String) (started : Bool) :
    buildResolve exports name (started || snap) ≠ programResolve (entryIndexes exports) snap name started ↔
      name ≠ "" ∧ started = false ∧ snap = false ∧ ∃ e ∈ exports, e.name = "_start" ∧ e.entryType = false := by
  constructor
  · intro h
    by_cases hx : ∃ e ∈ exports, e.name = "_start" ∧ e.entryType = false
    · refine ⟨?_, ?_, ?_, hx⟩
      all_goals
        obtain ⟨e, h1, h2, h3⟩ := hx
        by_cases hh : name ≠ "" ∧ started = false ∧ snap = false
        · first | exact hh.1 | exact hh.2.1 | exact hh.2.2
        · exfalso; apply h
          unfold buildResolve programResolve
          rw [lookup_entryIndexes exports "_start" hu, lookup_entryIndexes exports name hu]
          by_cases hn : name = ""
          · cases snap <;> cases started <;> simp [hn] <;>
              (rcases exportFunc exports "_start" with _ | e1 <;> simp; try (cases h3 : e1.entryType <;> simp [h3]))
          · cases snap <;> cases started <;> simp [hn] at hh ⊢ <;>
              (rcases h2 : exportFunc exports name with _ | e2 <;> simp; try (cases h3 : e2.entryType <;> simp [h3]))
    · exfalso; apply h
      apply resolutions_agree_partial exports hu
      intro e he hne
      cases h3 : e.entryType
      · exact absurd ⟨e, he, hne, h3⟩ hx
      · rfl
  · rintro ⟨hn, rfl, rfl, e, he, h2, h3⟩
    have hf : exportFunc exports "_start" = some e := by
      have h' : ∀ (es : List Export), (es.map (·.name)).Nodup → e ∈ es → es.find? (·.name == "_start") = some e := by
        intro es
        induction es with
        | nil => intro _ h; cases h
        | cons x xs ih =>
          intro hu he
          simp only [List.map_cons, List.nodup_cons] at hu
          rw [List.find?_cons]
          rcases List.mem_cons.mp he with rfl | he
          · simp [h2]
          · have : (x.name == "_start") = false := by
              simp only [beq_eq_false_iff_ne]
              intro hx
              exact hu.1 (by rw [hx, ← h2]; exact List.mem_map_of_mem he)
            simp only [this]
            exact ih hu.2 he
      exact h' exports hu he
    unfold buildResolve programResolve
    rw [lookup_entryIndexes exports "_start" hu, lookup_entryIndexes exports name hu, hf]
    simp only [h3, hn, Bool.not_false, Bool.or_false, Bool.and_self, if_true, if_false, Option.isSome_some, Option.isSome_none, Bool.false_eq_true]
    intro h
    split at h
    · cases h
    · split at h <;> cases h

/-- Refutes C50 where _start takes arguments: one implementation refuses the function which the other
calls. -/
theorem resolutions_disagree :
    buildResolve [⟨"_start", 1, false⟩, ⟨"main", 2, true⟩] "main" false = .error .start ∧
    programResolve (entryIndexes [⟨"_start", 1, false⟩, ⟨"main", 2, true⟩]) false "main" false = .ok (some 2) := by
  decide

example : programResolve (entryIndexes [⟨"_start", 1, true⟩, ⟨"main", 2, true⟩]) false "" false = .ok (some 1) := by decide
example : programResolve (entryIndexes [⟨"_start", 1, true⟩, ⟨"main", 2, true⟩]) false "main" false = .error .start := by decide
example : programResolve (entryIndexes [⟨"_start", 1, true⟩, ⟨"main", 2, true⟩]) true "main" false = .ok (some 2) := by decide

theorem lookup_mem {m : List (String × Nat)} {n : String} {i : Nat} (h : lookup m n = some i) : ∃ k, (k, i) ∈ m := by
  unfold lookup at h
  rw [Option.map_eq_some_iff] at h
  obtain ⟨a, h1, h2⟩ := h
  exact ⟨a.1, h2 ▸ List.mem_of_find?_eq_some h1⟩

/-- C50: a resolved function always has a known address: making the instance does not panic. -/
theorem resolved_has_address (exports : List Export) (snap : Bool) (name : String) (started : Bool) (i : Option Nat)
    (h : programResolve (entryIndexes exports) snap name started = .ok i) : entryFunc (entryAddrs exports) i = .ok i := by
  rcases i with _ | i
  · rfl
  · have : ∃ n, lookup (entryIndexes exports) n = some i := by
      unfold programResolve at h
      have hne : ¬ ("_start" = "") := by decide
      rcases h1 : lookup (entryIndexes exports) "_start" with _ | i1 <;>
        rcases h2 : lookup (entryIndexes exports) name with _ | i2 <;>
        cases snap <;> cases started <;> by_cases he : name = "" <;> by_cases hst : name = "_start" <;>
        simp only [h1, h2, he, hst, hne, Bool.not_true, Bool.not_false, Bool.and_true, Bool.and_false, Bool.false_eq_true, if_true, if_false,
          Option.isSome_none, Option.isSome_some, Except.ok.injEq, Option.some.injEq, reduceCtorEq] at h <;>
        first | exact ⟨_, h ▸ h1⟩ | exact ⟨_, h ▸ h2⟩
    obtain ⟨n, hn⟩ := this
    obtain ⟨k, hk⟩ := lookup_mem hn
    have : i ∈ entryAddrs exports := by
      unfold entryIndexes at hk
      unfold entryAddrs
      rw [List.mem_map] at hk ⊢
      obtain ⟨e, h1, h2⟩ := hk
      exact ⟨e, h1, (Prod.mk.inj h2).2⟩
    simp [entryFunc, this]

/-- C50 on whole modules: building an instance directly and making one of the stored program call the same
function or give the same error, if the exports are not hidden, a snapshot section comes before the code
and _start has the type of an entry function. -/
theorem built_and_stored_agree_partial (m : Module) (hu : (m.exports.map (·.name)).Nodup)
    (ht : ∀ e ∈ m.exports, e.name = "_start" → e.entryType = true) (hh : m.hidden = false) (hs : m.snapshotEarly = m.snapshotSection)
    (name : String) : startBuilt m name = startStored m name := by
  unfold startBuilt startStored bind
  rw [hh]
  simp only [Bool.false_eq_true, if_false]
  have := resolutions_agree_partial m.exports hu ht m.snapshotSection name false
  rw [Bool.false_or] at this
  rw [hs, this]

/-- Without a function name there is agreement for hidden exports too (which only a snapshot has). -/
theorem built_and_stored_agree_unnamed (m : Module) (hu : (m.exports.map (·.name)).Nodup) (hh : m.hidden = true → m.snapshotSection = true)
    (hs : m.snapshotEarly = m.snapshotSection) : startBuilt m "" = startStored m "" := by
  by_cases h : m.hidden = true
  · unfold startBuilt startStored bind
    simp [h, programResolve, hh h]
  · have hd := resolutions_disagree_iff m.exports hu m.snapshotSection "" false
    have : buildResolve m.exports "" m.snapshotSection = programResolve (entryIndexes m.exports) m.snapshotSection "" false := by
      by_cases hc : buildResolve m.exports "" m.snapshotSection = programResolve (entryIndexes m.exports) m.snapshotSection "" false
      · exact hc
      · exact absurd rfl (hd.mp (by rw [Bool.false_or]; exact hc)).1
    unfold startBuilt startStored bind
    simp only [h, Bool.false_eq_true, if_false, hs, this]

/-- Refutes C50 for hidden exports without a suspended stack: direct building refuses the function, the
stored program calls it. -/
theorem hidden_exports_disagree :
    let m : Module := ⟨[⟨"main", 2, true⟩], true, true, true, 0⟩
    startBuilt m "main" = .error .suspended ∧ startStored m "main" = .ok (some 2) := by decide

/-- Refutes C50 for a snapshot section which comes after the code: direct building calls _start, the
stored program does not. -/
theorem late_snapshot_disagrees :
    let m : Module := ⟨[⟨"_start", 1, true⟩], false, false, true, 0⟩
    startBuilt m "" = .ok (some 1) ∧ startStored m "" = .ok none ∧
    accepted [] [.snapshot] [] true = true := by decide

/-! ## The order of sections -/

/-- Every occurrence of `n` in `l` has what precedes it and what follows it in `P`. -/
def At (l : List Name) (n : Name) (P : List Name → List Name → Prop) : Prop := ∀ p q, l = p ++ n :: q → P p q

theorem at_cons (x : Name) (l : List Name) (n : Name) (P : List Name → List Name → Prop) :
    At (x :: l) n P ↔ (x = n → P [] l) ∧ At l n (fun p q => P (x :: p) q) := by
  unfold At
  constructor
  · intro h
    refine ⟨?_, ?_⟩
    · rintro rfl; exact h [] l rfl
    · rintro p q rfl; exact h (x :: p) q rfl
  · rintro ⟨h1, h2⟩ p q h
    cases p with
    | nil => simp at h; rw [← h.2]; exact h1 h.1
    | cons y p => simp at h; rw [← h.1]; exact h2 p q h.2

/-- C69: the documented order (snapshot/wasm/wasm.go:27-30).  `a`, `b`, `c` are the custom sections before the
code section, between it and the data section, and after the data section. -/
structure WellOrdered (a b c : List Name) (entry : Bool) : Prop where
  snapshotOnce : (a ++ b).count .snapshot ≤ 1
  bufferOnce : b.count .buffer ≤ 1
  stackOnce : b.count .stack ≤ 1
  /-- The other sections come after the snapshot section. -/
  snapshotFirst : ∀ n, n ≠ .snapshot → At (a ++ b ++ c) n (fun p _ => .snapshot ∈ p)
  bufferBeforeStack : At b .stack (fun _ q => .buffer ∉ q)
  /-- Buffer and stack are between code and data. -/
  betweenBefore : .buffer ∉ a ∧ .stack ∉ a
  betweenAfter : .buffer ∉ c ∧ .stack ∉ c ∧ .snapshot ∉ c
  /-- A module with a stack is suspended: no function is called. -/
  suspended : .stack ∈ b → entry = false

/-- What the loaders in state `s` accept. -/
structure Accepts (s : St) (l : List Name) : Prop where
  c1 : l.count .snapshot ≤ (if s.canSnapshot then 1 else 0)
  c2 : l.count .buffer ≤ (if s.canBuffer then 1 else 0)
  c3 : l.count .stack ≤ (if s.canStack then 1 else 0)
  c4 : ∀ n, n ≠ .snapshot → At l n (fun p _ => s.has = true ∨ .snapshot ∈ p)
  c5 : At l .stack (fun _ q => .buffer ∉ q ∧ .snapshot ∉ q)
  c6 : At l .buffer (fun _ q => .snapshot ∉ q)
  c7 : .stack ∈ l → s.entry = false

def loadNames (s : St) (l : List Name) : Option St := load s (l.map .custom)

/-- The state after `l`. -/
def after (s : St) (l : List Name) : St :=
  { canSnapshot := s.canSnapshot && !decide (.snapshot ∈ l) && !decide (.buffer ∈ l) && !decide (.stack ∈ l)
    canBuffer := s.canBuffer && !decide (.buffer ∈ l) && !decide (.stack ∈ l)
    canStack := s.canStack && !decide (.stack ∈ l)
    has := s.has || decide (.snapshot ∈ l)
    entry := s.entry }

theorem at_mono {l : List Name} {n : Name} {P Q : List Name → List Name → Prop} (h : ∀ p q, P p q ↔ Q p q) : At l n P ↔ At l n Q := by
  unfold At; simp [h]

theorem loadNames_cons (s : St) (n : Name) (l : List Name) : loadNames s (n :: l) = (custom s n).bind (loadNames · l) := rfl

theorem accepts_nil (s : St) : Accepts s [] := by
  constructor <;> simp [At]

theorem accepts_cons (s : St) (n : Name) (l : List Name) :
    Accepts s (n :: l) ↔ ∃ t, custom s n = some t ∧ Accepts t l := by
  have hc : ∀ m, l.count m = 0 ↔ m ∉ l := fun m => List.count_eq_zero
  constructor
  · rintro ⟨c1, c2, c3, c4, c5, c6, c7⟩
    have d4 : ∀ m, m ≠ .snapshot → (n = m → s.has = true) ∧ At l m (fun p _ => s.has = true ∨ .snapshot = n ∨ .snapshot ∈ p) := by
      intro m hm
      have := c4 m hm
      rw [at_cons] at this
      simp only [List.not_mem_nil, or_false, List.mem_cons] at this
      exact this
    rw [at_cons] at c5 c6
    cases n with
    | snapshot =>
      have h1 : s.canSnapshot = true := by
        by_cases h : s.canSnapshot = true
        · exact h
        · simp [h] at c1
      refine ⟨_, by simp only [custom, h1, if_true]; rfl, ?_⟩
      constructor
      · simp [h1] at c1 ⊢; exact c1
      · simpa using c2
      · simpa using c3
      · intro m hm p q _; left; rfl
      · exact c5.2
      · exact c6.2
      · intro h; exact c7 (List.mem_cons_of_mem _ h)
    | wrap =>
      have h1 := (d4 .wrap (by decide)).1 rfl
      refine ⟨_, by simp only [custom, h1, if_true]; rfl, ?_⟩
      constructor
      · simpa using c1
      · simpa using c2
      · simpa using c3
      · intro m hm p q _; left; exact h1
      · exact c5.2
      · exact c6.2
      · intro h; exact c7 (List.mem_cons_of_mem _ h)
    | buffer =>
      have h1 := (d4 .buffer (by decide)).1 rfl
      have h2 : s.canBuffer = true := by
        by_cases h : s.canBuffer = true
        · exact h
        · simp [h] at c2
      refine ⟨_, by simp only [custom]; exact if_pos ⟨h2, h1⟩, ?_⟩
      constructor
      · have := (hc .snapshot).mpr (c6.1 rfl); simp [this]
      · simp [h2] at c2 ⊢; exact c2
      · simpa using c3
      · intro m hm p q _; left; exact h1
      · exact c5.2
      · exact c6.2
      · intro h; exact c7 (List.mem_cons_of_mem _ h)
    | stack =>
      have h1 := (d4 .stack (by decide)).1 rfl
      have h2 : s.canStack = true := by
        by_cases h : s.canStack = true
        · exact h
        · simp [h] at c3
      have h3 := c7 (by simp)
      refine ⟨_, by simp only [custom]; exact if_pos ⟨h2, h1, h3⟩, ?_⟩
      constructor
      · have := (hc .snapshot).mpr (c5.1 rfl).2; simp [this]
      · have := (hc .buffer).mpr (c5.1 rfl).1; simp [this]
      · simp [h2] at c3 ⊢; exact c3
      · intro m hm p q _; left; exact h1
      · exact c5.2
      · exact c6.2
      · intro h; exact h3
  · rintro ⟨t, ht, c1, c2, c3, c4, c5, c6, c7⟩
    cases n with
    | snapshot =>
      simp only [custom] at ht
      split at ht
      · rename_i h1
        simp only [Option.some.injEq] at ht; subst ht
        simp at c1
        constructor
        · simp [h1, c1]
        · simpa using c2
        · simpa using c3
        · intro m hm; rw [at_cons]; exact ⟨fun h => absurd h.symm hm, fun p q _ => .inr (by simp)⟩
        · rw [at_cons]; exact ⟨nofun, c5⟩
        · rw [at_cons]; exact ⟨nofun, c6⟩
        · intro h; simp at h; exact c7 h
      · cases ht
    | wrap =>
      simp only [custom] at ht
      split at ht
      · rename_i h1
        simp only [Option.some.injEq] at ht; subst ht
        constructor
        · simpa using c1
        · simpa using c2
        · simpa using c3
        · intro m hm; rw [at_cons]; exact ⟨fun _ => .inl h1, fun p q _ => .inl h1⟩
        · rw [at_cons]; exact ⟨nofun, c5⟩
        · rw [at_cons]; exact ⟨nofun, c6⟩
        · intro h; simp at h; exact c7 h
      · cases ht
    | buffer =>
      simp only [custom] at ht
      split at ht
      · rename_i h1
        simp only [Option.some.injEq] at ht; subst ht
        simp at c1 c2
        constructor
        · simp [c1]
        · simp [h1.1, c2]
        · simpa using c3
        · intro m hm; rw [at_cons]; exact ⟨fun _ => .inl h1.2, fun p q _ => .inl h1.2⟩
        · rw [at_cons]; exact ⟨nofun, c5⟩
        · rw [at_cons]; exact ⟨fun _ => (hc _).mp c1, c6⟩
        · intro h; simp at h; exact c7 h
      · cases ht
    | stack =>
      simp only [custom] at ht
      split at ht
      · rename_i h1
        simp only [Option.some.injEq] at ht; subst ht
        simp at c1 c2 c3
        constructor
        · simp [c1]
        · simp [c2]
        · simp [h1.1, c3]
        · intro m hm; rw [at_cons]; exact ⟨fun _ => .inl h1.2.1, fun p q _ => .inl h1.2.1⟩
        · rw [at_cons]; exact ⟨fun _ => ⟨(hc _).mp c2, (hc _).mp c1⟩, c5⟩
        · rw [at_cons]; exact ⟨nofun, c6⟩
        · intro h; exact h1.2.2
      · cases ht

theorem after_cons {s t : St} {n : Name} (l : List Name) (h : custom s n = some t) : after t l = after s (n :: l) := by
  cases n <;> simp only [custom] at h <;> split at h <;> first | cases h; done | skip
  all_goals
    rename_i hc
    simp only [Option.some.injEq] at h
    subst h
    unfold after
    simp [hc]

open Classical in
theorem loadNames_iff (l : List Name) (s : St) : loadNames s l = (if Accepts s l then some (after s l) else none) := by
  induction l generalizing s with
  | nil => rw [if_pos (accepts_nil s)]; simp [loadNames, load, after]
  | cons n l ih =>
    rw [loadNames_cons]
    rcases ht : custom s n with _ | t
    · rw [if_neg]; · rfl
      rw [accepts_cons]; rintro ⟨t, h, _⟩; rw [ht] at h; cases h
    · simp only [Option.bind_some]
      rw [ih t, after_cons l ht]
      congr 1
      rw [accepts_cons]
      apply propext
      constructor
      · intro h; exact ⟨t, ht, h⟩
      · rintro ⟨t', h, h'⟩; rw [ht] at h; cases h; exact h'

theorem load_append (s : St) (xs ys : List Section) : load s (xs ++ ys) = (load s xs).bind (load · ys) := by
  induction xs generalizing s with
  | nil => rfl
  | cons x xs ih =>
    simp only [List.cons_append, load]
    cases section_ s x <;> simp [ih]

theorem load_sections (a b c : List Name) (e : Bool) : load early (sections a b c e) =
    (loadNames early a).bind (fun s => (loadNames { s with canBuffer := true, canStack := true, entry := e } b).bind
      (fun s => loadNames { s with canSnapshot := false, canBuffer := false, canStack := false } c)) := by
  unfold sections
  simp only [load_append, load, section_, loadNames]
  cases load early (a.map .custom) with
  | none => rfl
  | some s =>
    simp only [Option.bind_some]
    cases load { s with canBuffer := true, canStack := true, entry := e } (b.map .custom) <;> rfl

theorem at_append (l1 l2 : List Name) (n : Name) (P : List Name → List Name → Prop) :
    At (l1 ++ l2) n P ↔ At l1 n (fun p q => P p (q ++ l2)) ∧ At l2 n (fun p q => P (l1 ++ p) q) := by
  induction l1 generalizing P with
  | nil => simp only [List.nil_append, At]; constructor
           · intro h; exact ⟨by intro p q h; simp at h, h⟩
           · exact fun h => h.2
  | cons x l1 ih =>
    rw [List.cons_append, at_cons, at_cons, ih]
    simp only [List.cons_append]
    constructor
    · rintro ⟨h1, h2, h3⟩; exact ⟨⟨h1, h2⟩, h3⟩
    · rintro ⟨⟨h1, h2⟩, h3⟩; exact ⟨h1, h2, h3⟩

theorem at_of_not_mem {l : List Name} {n : Name} {P : List Name → List Name → Prop} (h : n ∉ l) : At l n P := by
  rintro p q rfl; exact absurd (by simp) h

theorem at_exists {l : List Name} {n : Name} {P : List Name → List Name → Prop} (h : At l n P) (hn : n ∈ l) : ∃ p q, l = p ++ n :: q ∧ P p q := by
  obtain ⟨p, q, rfl⟩ := List.append_of_mem hn
  exact ⟨p, q, rfl, h p q rfl⟩

/-- C69: a module's snapshot sections are accepted if and only if they are in the documented order, each at
most once. -/
theorem accepted_iff (a b c : List Name) (entry : Bool) : accepted a b c entry = true ↔ WellOrdered a b c entry := by
  classical
  unfold accepted
  rw [load_sections]
  simp only [loadNames_iff]
  have h : ((if Accepts early a then some (after early a) else none).bind (fun s =>
      ((if Accepts { s with canBuffer := true, canStack := true, entry := entry } b then
          some (after { s with canBuffer := true, canStack := true, entry := entry } b) else none).bind
        (fun s => if Accepts { s with canSnapshot := false, canBuffer := false, canStack := false } c then
            some (after { s with canSnapshot := false, canBuffer := false, canStack := false } c) else none)))).isSome = true ↔
      Accepts early a ∧ Accepts { after early a with canBuffer := true, canStack := true, entry := entry } b ∧
        Accepts { after { after early a with canBuffer := true, canStack := true, entry := entry } b with
          canSnapshot := false, canBuffer := false, canStack := false } c := by
    by_cases h1 : Accepts early a
    · rw [if_pos h1, Option.bind_some]
      by_cases h2 : Accepts { after early a with canBuffer := true, canStack := true, entry := entry } b
      · rw [if_pos h2, Option.bind_some]
        by_cases h3 : Accepts { after { after early a with canBuffer := true, canStack := true, entry := entry } b with
          canSnapshot := false, canBuffer := false, canStack := false } c
        · rw [if_pos h3]; simp [h1, h2, h3]
        · rw [if_neg h3]; simp [h3]
      · rw [if_neg h2]; simp [h2]
    · rw [if_neg h1]; simp [h1]
  rw [h]
  constructor
  · rintro ⟨A, B, C⟩
    have A2 : .buffer ∉ a := by have := A.c2; exact List.count_eq_zero.mp (by simpa [early] using this)
    have A3 : .stack ∉ a := by have := A.c3; exact List.count_eq_zero.mp (by simpa [early] using this)
    have C1 : .snapshot ∉ c := by have := C.c1; exact List.count_eq_zero.mp (by simpa using this)
    have C2 : .buffer ∉ c := by have := C.c2; exact List.count_eq_zero.mp (by simpa using this)
    have C3 : .stack ∉ c := by have := C.c3; exact List.count_eq_zero.mp (by simpa using this)
    constructor
    · rw [List.count_append]
      have h1 := A.c1; have h2 := B.c1
      simp only [early, if_true, after, Bool.true_and, A2, A3, decide_false, Bool.not_false, Bool.and_true] at h1 h2
      by_cases hm : .snapshot ∈ a
      · simp [hm] at h2; rw [h2]; exact h1
      · rw [List.count_eq_zero.mpr hm]; simp [hm] at h2; omega
    · have := B.c2; simpa using this
    · have := B.c3; simpa using this
    · intro n hn
      rw [at_append, at_append]
      refine ⟨⟨?_, ?_⟩, ?_⟩
      · have := A.c4 n hn; intro p q h; simpa [early] using this p q h
      · intro p q h; have := B.c4 n hn p q h; simpa [after, early] using this
      · intro p q h; have := C.c4 n hn p q h
        simp only [after, early, Bool.false_or, Bool.or_eq_true, decide_eq_true_eq] at this
        simp only [List.mem_append]; exact this
    · intro p q h; exact (B.c5 p q h).1
    · exact ⟨A2, A3⟩
    · exact ⟨C2, C3, C1⟩
    · intro h; exact B.c7 h
  · rintro ⟨w1, w2, w3, w4, w5, w6, w7, w8⟩
    rw [List.count_append] at w1
    have w4' : ∀ n, n ≠ .snapshot → (At a n (fun p _ => .snapshot ∈ p)) ∧ At b n (fun p _ => .snapshot ∈ a ++ p) ∧ At c n (fun p _ => .snapshot ∈ (a ++ b) ++ p) := by
      intro n hn
      have := w4 n hn
      rw [at_append, at_append] at this
      exact ⟨this.1.1, this.1.2, this.2⟩
    have nosnap : ∀ n, n ≠ .snapshot → At b n (fun _ q => .snapshot ∉ q) := by
      intro n hn p q h hq
      have h1 := (w4' n hn).2.1 p q h
      rw [h] at w1
      simp only [List.count_append, List.count_cons] at w1
      have h2 : 0 < q.count .snapshot := List.count_pos_iff.mpr hq
      rw [List.mem_append] at h1
      rcases h1 with h1 | h1
      · have := List.count_pos_iff.mpr h1; omega
      · have := List.count_pos_iff.mpr h1; omega
    refine ⟨?_, ?_, ?_⟩
    · constructor
      · simp [early]; omega
      · rw [List.count_eq_zero.mpr w6.1]; omega
      · rw [List.count_eq_zero.mpr w6.2]; omega
      · intro n hn p q h; exact .inr ((w4' n hn).1 p q h)
      · exact at_of_not_mem w6.2
      · exact at_of_not_mem w6.1
      · intro h; exact absurd h w6.2
    · constructor
      · simp only [after, early, Bool.true_and, w6.1, w6.2, decide_false, Bool.not_false, Bool.and_true]
        by_cases hm : .snapshot ∈ a
        · have := List.count_pos_iff.mpr hm; simp [hm]; omega
        · simp [hm]; omega
      · simpa using w2
      · simpa using w3
      · intro n hn p q h; have := (w4' n hn).2.1 p q h
        simpa [after, early] using this
      · intro p q h; exact ⟨w5 p q h, nosnap .stack (by decide) p q h⟩
      · exact nosnap .buffer (by decide)
      · exact w8
    · constructor
      · rw [List.count_eq_zero.mpr w7.2.2]; omega
      · rw [List.count_eq_zero.mpr w7.1]; omega
      · rw [List.count_eq_zero.mpr w7.2.1]; omega
      · intro n hn p q h; have := (w4' n hn).2.2 p q h
        simp only [after, early, Bool.false_or, Bool.or_eq_true, decide_eq_true_eq]
        simp only [List.mem_append] at this; exact this
      · exact at_of_not_mem w7.2.1
      · exact at_of_not_mem w7.1
      · intro h; exact absurd h w7.2.1

example : accepted [.snapshot, .wrap] [.buffer, .stack] [] false = true := by decide
example : accepted [.snapshot] [.stack, .buffer] [] false = false := by decide
example : accepted [.snapshot] [.stack] [] true = false := by decide
example : accepted [] [.buffer] [] false = false := by decide

end Gate.Entry
