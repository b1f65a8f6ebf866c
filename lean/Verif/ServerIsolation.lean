import Verif.ServerProps
/-
C44: isolation of accounts, for every history of server operations.
-/
namespace Gate.Server
open Gate

/-- The modules and instances which a principal sees (ModuleInfo, Modules, Instances). -/
def modules (s : St) (b : Nat) : List (Nat × Nat) := s.pins.filter fun x => x.1 == b
def instances (s : St) (b : Nat) : List Entry := s.insts.filter fun e => e.owner == b

/-- On whose behalf an operation is done. -/
def actor : Label → Option Nat
  | .build who _ => who
  | .load owner _ => owner
  | .refHash who _ => who
  | .validate x => x.who
  | .refPinned w _ => some w
  | .refInst w _ => some w
  | .register x _ => x.who
  | .registerInst x _ _ => x.who
  | .resume x => x.who
  | .startRun x => x.who
  | .startStored x => x.who
  | .startFail x => x.who
  | .release x => x.who
  | .driven x _ => x.who
  | .pin w _ => some w
  | .unpin w _ => some w
  | .delete w _ => some w
  | .shutdown => none

@[simp] theorem merge_pins (s : St) (p) : (merge s p).1.pins = s.pins := by
  unfold merge
  split
  · rfl
  · split
    · split
      · rfl
      · simp
    · simp

@[simp] theorem merge_insts (s : St) (p) : (merge s p).1.insts = s.insts := by
  unfold merge
  split
  · rfl
  · split
    · split
      · rfl
      · simp
    · simp

@[simp] theorem merge_holds (s : St) (p) : (merge s p).1.holds = s.holds := by
  unfold merge
  split
  · rfl
  · split
    · split
      · rfl
      · simp
    · simp

@[simp] theorem merge_hashOf (s : St) (p) : (merge s p).1.hashOf = s.hashOf := by
  unfold merge
  split
  · rfl
  · split
    · split
      · rfl
      · simp
    · simp

@[simp] theorem merge_known (s : St) (p) : (merge s p).1.known = s.known := by
  unfold merge
  split
  · rfl
  · split
    · split
      · rfl
      · simp
    · simp

@[simp] theorem merge_next (s : St) (p) : (merge s p).1.next = s.next := by
  unfold merge
  split
  · rfl
  · split
    · split
      · rfl
      · simp
    · simp

@[simp] theorem merge_instOf (s : St) (p) : (merge s p).1.instOf = s.instOf := by
  unfold merge
  split
  · rfl
  · split
    · split
      · rfl
      · simp
    · simp

@[simp] theorem merge_nextInst (s : St) (p) : (merge s p).1.nextInst = s.nextInst := by
  unfold merge
  split
  · rfl
  · split
    · split
      · rfl
      · simp
    · simp

@[simp] theorem ensurePin_insts (s : St) (w p) : (ensurePin s w p).insts = s.insts := by unfold ensurePin; split <;> simp
@[simp] theorem ensurePin_holds (s : St) (w p) : (ensurePin s w p).holds = s.holds := by unfold ensurePin; split <;> simp
@[simp] theorem ensurePin_hashOf (s : St) (w p) : (ensurePin s w p).hashOf = s.hashOf := by unfold ensurePin; split <;> simp
@[simp] theorem ensurePin_known (s : St) (w p) : (ensurePin s w p).known = s.known := by unfold ensurePin; split <;> simp
@[simp] theorem ensurePin_next (s : St) (w p) : (ensurePin s w p).next = s.next := by unfold ensurePin; split <;> simp
@[simp] theorem ensurePin_map (s : St) (w p) : (ensurePin s w p).map = s.map := by unfold ensurePin; split <;> simp
@[simp] theorem ensurePin_instOf (s : St) (w p) : (ensurePin s w p).instOf = s.instOf := by unfold ensurePin; split <;> simp
@[simp] theorem ensurePin_nextInst (s : St) (w p) : (ensurePin s w p).nextInst = s.nextInst := by unfold ensurePin; split <;> simp

theorem ensurePin_modules (s : St) (w p b) (h : w ≠ b) : modules (ensurePin s w p) b = modules s b := by
  unfold ensurePin
  split
  · rfl
  · simp [modules, h]

theorem deleteInst_same (s : St) (i : Nat) : (deleteInst s i).pins = s.pins ∧ (deleteInst s i).hashOf = s.hashOf ∧
    (deleteInst s i).known = s.known ∧ (deleteInst s i).map = s.map ∧ (deleteInst s i).instOf = s.instOf ∧
    (deleteInst s i).nextInst = s.nextInst ∧ (deleteInst s i).insts ⊆ s.insts := by
  unfold deleteInst
  split
  · simp
  · split
    · simp
    · split
      · simp only [unref_pins, unref_hashOf, unref_known, unref_map, unref_instOf, unref_nextInst, unref_insts, true_and]
        exact List.erase_subset
      · simp

theorem filter_erase {α} [BEq α] [LawfulBEq α] (q : α → Bool) (a : α) (h : q a = false) : ∀ l : List α,
    (l.erase a).filter q = l.filter q := by
  intro l
  induction l with
  | nil => rfl
  | cons x l ih =>
    rw [List.erase_cons]
    split
    · rename_i he
      have : x = a := by simpa using he
      subst this
      rw [List.filter_cons, h]
      simp
    · rw [List.filter_cons, List.filter_cons, ih]

theorem deleteInst_instances (s : St) (i b : Nat) (h : ∀ w n, s.instOf i = some (w, n) → w ≠ b) :
    instances (deleteInst s i) b = instances s b := by
  unfold deleteInst
  split
  · rfl
  · rename_i w n hi
    split
    · rfl
    · rename_i e he
      split
      · obtain ⟨_, ho, _⟩ := findEntry_mem he
        simp only [instances, unref_insts]
        refine filter_erase _ _ ?_ _
        have := h w n hi
        rw [ho]
        simpa using this
      · rfl

/-- Holds know their instances' owners, and entries are under their owners' names. -/
structure Owned (s : St) : Prop where
  entry : ∀ e ∈ s.insts, s.instOf e.inst = some (e.owner, e.name) ∧ e.inst < s.nextInst
  hold : ∀ x ∈ s.holds, ∀ i, x.inst = some i → i < s.nextInst ∧ ∀ w n, s.instOf i = some (w, n) → x.who = some w

theorem Owned.mono {s t : St} (h : Owned s) (h1 : t.instOf = s.instOf) (h2 : t.nextInst = s.nextInst)
    (h3 : ∀ e ∈ t.insts, e ∈ s.insts)
    (h4 : ∀ x ∈ t.holds, ∃ y, (y ∈ s.holds ∧ x.who = y.who ∧ (x.inst = none ∨ x.inst = y.inst)) ∨ x.inst = none) : Owned t := by
  refine ⟨?_, ?_⟩
  · intro e he
    rw [h1, h2]
    exact h.entry e (h3 e he)
  · intro x hx i hi
    rw [h1, h2]
    obtain ⟨y, hy⟩ := h4 x hx
    rcases hy with ⟨hm, hw, hor⟩ | hn
    · rcases hor with hn | he
      · rw [hn] at hi; cases hi
      · rw [he] at hi
        rw [hw]
        exact h.hold y hm i hi
    · rw [hn] at hi; cases hi

theorem owned_refl {s : St} {x : Hold} (h : x ∈ s.holds) :
    ∃ y, (y ∈ s.holds ∧ x.who = y.who ∧ (x.inst = none ∨ x.inst = y.inst)) ∨ x.inst = none := ⟨x, .inl ⟨h, rfl, .inr rfl⟩⟩

@[simp] theorem unrefs_same (ps : List Nat) : ∀ s : St, (unrefs s ps).instOf = s.instOf ∧ (unrefs s ps).nextInst = s.nextInst ∧
    (unrefs s ps).insts = s.insts ∧ (unrefs s ps).holds = s.holds ∧ (unrefs s ps).pins = s.pins ∧ (unrefs s ps).map = s.map ∧
    (unrefs s ps).known = s.known ∧ (unrefs s ps).hashOf = s.hashOf ∧ (unrefs s ps).next = s.next := by
  induction ps with
  | nil => intro s; simp [unrefs]
  | cons p ps ih => intro s; simp [unrefs, ih]

theorem swap_owned {s : St} (h : Owned s) {x : Hold} (hx : x ∈ s.holds) (ys : List Hold)
    (hy : ∀ y ∈ ys, y.who = x.who ∧ (y.inst = none ∨ y.inst = x.inst)) : Owned (s.swap x ys) := by
  refine h.mono rfl rfl (fun _ h => h) ?_
  intro z hz
  simp only [St.swap, List.mem_append] at hz
  rcases hz with hz | hz
  · exact ⟨x, .inl ⟨hx, (hy z hz).1, (hy z hz).2⟩⟩
  · exact owned_refl (List.mem_of_mem_erase hz)

theorem unref_owned {s : St} (h : Owned s) (p) : Owned (unref s p) :=
  h.mono (by simp) (by simp) (by simp) (fun x hx => owned_refl (by simpa using hx))

theorem merge_owned {s : St} (h : Owned s) (p) : Owned (merge s p).1 :=
  h.mono (by simp) (by simp) (by simp) (fun x hx => owned_refl (by simpa using hx))

theorem ensurePin_owned {s : St} (h : Owned s) (w p) : Owned (ensurePin s w p) :=
  h.mono (by simp) (by simp) (by simp) (fun x hx => owned_refl (by simpa using hx))

theorem deleteInst_owned {s : St} (h : Owned s) (i) : Owned (deleteInst s i) := by
  obtain ⟨_, _, _, _, h1, h2, h3⟩ := deleteInst_same s i
  exact h.mono h1 h2 (fun e he => h3 he) (fun x hx => owned_refl (by rw [(deleteInst_holds s i).1] at hx; exact hx))

/-- A new hold without an instance. -/
theorem cons_owned {s t : St} (h : Owned s) (x : Hold) (hx : x.inst = none) (h1 : t.instOf = s.instOf)
    (h2 : t.nextInst = s.nextInst) (h3 : ∀ e ∈ t.insts, e ∈ s.insts) (h4 : ∀ y ∈ t.holds, y = x ∨ y ∈ s.holds) : Owned t := by
  refine h.mono h1 h2 h3 ?_
  intro y hy
  rcases h4 y hy with hy | hy
  · subst hy; exact ⟨y, .inr hx⟩
  · exact owned_refl hy

theorem step_owned {s t : St} {l : Label} (h : Owned s) (hs : step s l = some t) : Owned t := by
  cases l with
  | build who hsh =>
    simp only [step, Option.some.injEq] at hs
    subst hs
    exact cons_owned h ⟨s.next, who, .op, none⟩ rfl rfl rfl (fun _ h => h) (by intro y hy; simpa using hy)
  | load owner hsh =>
    simp only [step] at hs
    split at hs
    · cases hs
    · split at hs
      · cases hs
      · cases owner with
        | none =>
          simp only [Option.some.injEq] at hs
          subst hs
          exact h.mono rfl rfl (fun _ h => h) (fun _ h => owned_refl h)
        | some w =>
          simp only [Option.some.injEq] at hs
          subst hs
          exact h.mono (by simp) (by simp) (by simp) (fun x hx => owned_refl (by simpa using hx))
  | refHash who hsh =>
    simp only [step] at hs
    split at hs
    · cases hs
    · rename_i p _
      split at hs
      · simp only [Option.some.injEq] at hs
        subst hs
        exact h.mono rfl rfl (fun _ h => h) (fun _ h => owned_refl h)
      · simp only [Option.some.injEq] at hs
        subst hs
        exact cons_owned h ⟨p, who, .unchecked, none⟩ rfl (by simp) (by simp) (by simp) (by intro y hy; simpa using hy)
  | validate x =>
    simp only [step] at hs
    split at hs
    · rename_i hx
      simp only [Option.some.injEq] at hs
      subst hs
      have := swap_owned h hx.1 [{ x with phase := .op }] (by intro y hy; simp only [List.mem_singleton] at hy; subst hy; exact ⟨rfl, .inr rfl⟩)
      exact this.mono rfl rfl (fun _ h => h) (fun _ h => owned_refl h)
    · cases hs
  | refPinned w hsh =>
    simp only [step] at hs
    split at hs
    · cases hs
    · rename_i p _
      split at hs
      · simp only [Option.some.injEq] at hs
        subst hs
        exact cons_owned h ⟨p, some w, .op, none⟩ rfl (by simp) (by simp) (by simp) (by intro y hy; simpa using hy)
      · cases hs
  | refInst w n =>
    simp only [step] at hs
    split at hs
    · cases hs
    · rename_i e he
      simp only [Option.some.injEq] at hs
      subst hs
      obtain ⟨hm, ho, hn⟩ := findEntry_mem he
      obtain ⟨h1, h2⟩ := h.entry e hm
      refine ⟨by simpa using h.entry, ?_⟩
      intro x hx i hi
      simp only [List.mem_cons, ref_holds] at hx
      simp only [ref_instOf, ref_nextInst]
      rcases hx with hx | hx
      · subst hx
        simp only [Option.some.injEq] at hi
        subst hi
        refine ⟨h2, ?_⟩
        intro w' n' hw
        rw [h1] at hw
        simp only [Option.some.injEq, Prod.mk.injEq] at hw
        rw [← hw.1, ho]
      · exact h.hold x hx i hi
  | register x pin =>
    simp only [step] at hs
    split at hs
    · rename_i hx
      have h1 := merge_owned (swap_owned h hx.1 [] (by simp)) x.prog
      split at hs
      · simp only [Option.some.injEq] at hs; subst hs; exact h1
      · cases hs
      · simp only [Option.some.injEq] at hs; subst hs; exact ensurePin_owned h1 _ _
    · cases hs
  | registerInst x n pin =>
    simp only [step] at hs
    split at hs
    · rename_i hx
      have h1 := merge_owned (swap_owned h hx.1 [] (by simp)) x.prog
      have e1 : (merge (s.swap x []) x.prog).1.instOf = s.instOf := by simp [St.swap]
      have e2 : (merge (s.swap x []) x.prog).1.nextInst = s.nextInst := by simp [St.swap]
      generalize merge (s.swap x []) x.prog = r at hs h1 e1 e2
      obtain ⟨u, p⟩ := r
      simp only at hs h1 e1 e2
      split at hs
      · split at hs
        · cases hs
        · simp only [Option.some.injEq] at hs
          subst hs
          refine ⟨?_, ?_⟩
          · intro e he
            simp only [ref_insts] at he
            obtain ⟨a1, a2⟩ := h1.entry e he
            rw [e1] at a1
            rw [e2] at a2
            simp only [upd]
            rw [if_neg (by omega)]
            exact ⟨a1, by omega⟩
          · intro y hy i hi
            simp only [List.mem_cons] at hy
            simp only [upd]
            rcases hy with hy | hy
            · subst hy
              simp only [Option.some.injEq] at hi
              subst hi
              exact ⟨by omega, by intro w n hw; simp at hw⟩
            · obtain ⟨a1, a2⟩ := h1.hold y hy i hi
              rw [e2] at a1
              rw [e1] at a2
              rw [if_neg (by omega)]
              exact ⟨by omega, a2⟩
      · rename_i w hw
        split at hs
        · cases hs
        · simp only [Option.some.injEq] at hs
          generalize hv : (if pin then ensurePin u w p else u) = v at hs
          have hv1 : Owned v ∧ v.instOf = s.instOf ∧ v.nextInst = s.nextInst := by
            subst hv
            split
            · exact ⟨ensurePin_owned h1 _ _, by simpa using e1, by simpa using e2⟩
            · exact ⟨h1, e1, e2⟩
          obtain ⟨h3, e3, e4⟩ := hv1
          subst hs
          refine ⟨?_, ?_⟩
          · intro e he
            simp only [ref_insts, List.mem_cons] at he
            simp only [upd]
            rcases he with he | he
            · subst he
              simp
            · obtain ⟨a1, a2⟩ := h3.entry e he
              rw [e3] at a1
              rw [e4] at a2
              rw [if_neg (by omega)]
              exact ⟨a1, by omega⟩
          · intro y hy i hi
            simp only [List.mem_cons, ref_holds] at hy
            simp only [upd]
            rcases hy with hy | hy
            · subst hy
              simp only [Option.some.injEq] at hi
              subst hi
              refine ⟨by omega, ?_⟩
              intro w' n' hw'
              simp only [if_true, Option.some.injEq, Prod.mk.injEq] at hw'
              rw [hw'.1]
            · obtain ⟨a1, a2⟩ := h3.hold y hy i hi
              rw [e4] at a1
              rw [e3] at a2
              rw [if_neg (by omega)]
              exact ⟨by omega, a2⟩
    · cases hs
  | resume x =>
    simp only [step] at hs
    split at hs
    · rename_i hx
      simp only [Option.some.injEq] at hs
      subst hs
      exact swap_owned h hx.1 _ (by intro y hy; simp only [List.mem_singleton] at hy; subst hy; exact ⟨rfl, .inr rfl⟩)
    · cases hs
  | startRun x =>
    simp only [step] at hs
    split at hs
    · rename_i hx
      simp only [Option.some.injEq] at hs
      subst hs
      exact swap_owned h hx.1 _ (by intro y hy; simp only [List.mem_singleton] at hy; subst hy; exact ⟨rfl, .inr rfl⟩)
    · cases hs
  | startStored x =>
    simp only [step] at hs
    split at hs
    · rename_i hx
      simp only [Option.some.injEq] at hs
      subst hs
      exact unref_owned (swap_owned h hx.1 [] (by simp)) _
    · cases hs
  | startFail x =>
    simp only [step] at hs
    split at hs
    · rename_i hx
      split at hs
      · cases hs
      · rename_i i _
        simp only [Option.some.injEq] at hs
        subst hs
        have h1 := swap_owned (deleteInst_owned h i) (x := x) (by rw [(deleteInst_holds s i).1]; exact hx.1)
          [({ x with phase := .op, inst := none } : Hold), { x with phase := .op, inst := none }] (by
            intro y hy
            simp only [List.mem_cons, List.not_mem_nil, or_false, or_self] at hy
            subst hy
            exact ⟨rfl, .inl rfl⟩)
        exact h1.mono rfl rfl (fun _ h => h) (fun _ h => owned_refl h)
    · cases hs
  | release x =>
    simp only [step] at hs
    split at hs
    · rename_i hx
      simp only [Option.some.injEq] at hs
      subst hs
      exact unref_owned (swap_owned h hx.1 [] (by simp)) _
    · cases hs
  | driven x ne =>
    simp only [step] at hs
    split at hs
    · rename_i hx
      split at hs
      · cases hs
      · rename_i i _
        simp only [Option.some.injEq] at hs
        subst hs
        refine unref_owned (swap_owned (x := x) ?_ ?_ [] (by simp)) _
        · split
          · exact deleteInst_owned h i
          · exact h
        · split
          · rw [(deleteInst_holds s i).1]; exact hx.1
          · exact hx.1
    · cases hs
  | pin w hsh =>
    simp only [step] at hs
    split at hs
    · cases hs
    · split at hs
      · simp only [Option.some.injEq] at hs; subst hs; exact ensurePin_owned h _ _
      · cases hs
  | unpin w hsh =>
    simp only [step] at hs
    split at hs
    · cases hs
    · split at hs
      · simp only [Option.some.injEq] at hs
        subst hs
        exact h.mono (by simp) (by simp) (by simp) (fun x hx => owned_refl (by simpa using hx))
      · cases hs
  | delete w i =>
    simp only [step] at hs
    split at hs
    · cases hs
    · split at hs
      · simp only [Option.some.injEq] at hs; subst hs; exact deleteInst_owned h i
      · cases hs
  | shutdown =>
    simp only [step] at hs
    split at hs
    · cases hs
    · simp only [Option.some.injEq] at hs
      subst hs
      exact h.mono (by simp) (by simp) (by simp) (fun x hx => owned_refl (by simpa using hx))

theorem init_owned : Owned init := by constructor <;> simp [init]

theorem run_owned : ∀ (ls : List Label) {s t : St}, Owned s → run s ls = some t → Owned t := by
  intro ls
  induction ls with
  | nil => intro s t h hr; cases hr; exact h
  | cons l ls ih =>
    intro s t h hr
    simp only [run] at hr
    split at hr
    · cases hr
    · cases hs : step s l with
      | none => rw [hs] at hr; cases hr
      | some u =>
        rw [hs] at hr
        exact ih (step_owned h hs) hr

/-- C44: whatever a principal does (launching, stopping, deleting, pinning, unpinning, failing),
the modules and instances of every other principal stay the same. Only the server's shutdown
changes them. -/
theorem isolation (s t : St) (l : Label) (hr : Reachable s) (hs : step s l = some t) (b : Nat) (hb : actor l ≠ some b)
    (hl : l ≠ .shutdown) : modules t b = modules s b ∧ instances t b = instances s b := by
  obtain ⟨ls, hr⟩ := hr
  have ho := run_owned ls init_owned hr
  cases l with
  | build who hsh => simp only [step, Option.some.injEq] at hs; subst hs; exact ⟨rfl, rfl⟩
  | load owner hsh =>
    simp only [step] at hs
    split at hs
    · cases hs
    · split at hs
      · cases hs
      · cases owner with
        | none => simp only [Option.some.injEq] at hs; subst hs; exact ⟨rfl, rfl⟩
        | some w =>
          simp only [Option.some.injEq] at hs
          subst hs
          have hw : w ≠ b := by intro h; subst h; exact hb rfl
          rw [ensurePin_modules _ _ _ _ hw]
          exact ⟨rfl, by simp [instances]⟩
  | refHash who hsh =>
    simp only [step] at hs
    split at hs
    · cases hs
    · split at hs
      · simp only [Option.some.injEq] at hs; subst hs; exact ⟨rfl, rfl⟩
      · simp only [Option.some.injEq] at hs; subst hs; simp [modules, instances]
  | validate x =>
    simp only [step] at hs
    split at hs
    · simp only [Option.some.injEq] at hs; subst hs; exact ⟨rfl, rfl⟩
    · cases hs
  | refPinned w hsh =>
    simp only [step] at hs
    split at hs
    · cases hs
    · split at hs
      · simp only [Option.some.injEq] at hs; subst hs; simp [modules, instances]
      · cases hs
  | refInst w n =>
    simp only [step] at hs
    split at hs
    · cases hs
    · simp only [Option.some.injEq] at hs; subst hs; simp [modules, instances]
  | register x pin =>
    simp only [step] at hs
    split at hs
    · split at hs
      · simp only [Option.some.injEq] at hs; subst hs; simp [modules, instances, St.swap]
      · cases hs
      · rename_i w hw
        simp only [Option.some.injEq] at hs
        subst hs
        have hwb : w ≠ b := by intro h; subst h; exact hb hw
        rw [ensurePin_modules _ _ _ _ hwb]
        simp [modules, instances, St.swap]
    · cases hs
  | registerInst x n pin =>
    simp only [step] at hs
    split at hs
    · split at hs
      · split at hs
        · cases hs
        · simp only [Option.some.injEq] at hs; subst hs; simp [modules, instances, St.swap]
      · rename_i w hw
        have hwb : w ≠ b := by intro h; subst h; exact hb hw
        split at hs
        · cases hs
        · simp only [Option.some.injEq] at hs
          subst hs
          cases pin with
          | false => simp [modules, instances, St.swap, hwb]
          | true =>
            have := ensurePin_modules (merge (s.swap x []) x.prog).1 w (merge (s.swap x []) x.prog).2 b hwb
            simp only [modules] at this
            simp [modules, instances, St.swap, hwb] at this ⊢
            exact this
    · cases hs
  | resume x =>
    simp only [step] at hs
    split at hs
    · simp only [Option.some.injEq] at hs; subst hs; exact ⟨rfl, rfl⟩
    · cases hs
  | startRun x =>
    simp only [step] at hs
    split at hs
    · simp only [Option.some.injEq] at hs; subst hs; exact ⟨rfl, rfl⟩
    · cases hs
  | startStored x =>
    simp only [step] at hs
    split at hs
    · simp only [Option.some.injEq] at hs; subst hs; simp [modules, instances, St.swap]
    · cases hs
  | startFail x =>
    simp only [step] at hs
    split at hs
    · rename_i hx
      split at hs
      · cases hs
      · rename_i i hi
        simp only [Option.some.injEq] at hs
        subst hs
        have h1 := deleteInst_instances s i b (by
          intro w n hw hwb
          subst hwb
          exact hb ((ho.hold x hx.1 i hi).2 w n hw))
        refine ⟨?_, h1⟩
        simp [modules, St.swap, (deleteInst_same s i).1]
    · cases hs
  | release x =>
    simp only [step] at hs
    split at hs
    · simp only [Option.some.injEq] at hs; subst hs; simp [modules, instances, St.swap]
    · cases hs
  | driven x ne =>
    simp only [step] at hs
    split at hs
    · rename_i hx
      split at hs
      · cases hs
      · rename_i i hi
        simp only [Option.some.injEq] at hs
        subst hs
        have h1 := deleteInst_instances s i b (by
          intro w n hw hwb
          subst hwb
          exact hb ((ho.hold x hx.1 i hi).2 w n hw))
        cases ne with
        | false => simp [modules, instances, St.swap]
        | true =>
          simp only [instances] at h1
          simp [modules, instances, St.swap, (deleteInst_same s i).1, h1]
    · cases hs
  | pin w hsh =>
    simp only [step] at hs
    have hwb : w ≠ b := by intro h; subst h; exact hb rfl
    split at hs
    · cases hs
    · split at hs
      · simp only [Option.some.injEq] at hs
        subst hs
        exact ⟨ensurePin_modules _ _ _ _ hwb, by simp [instances]⟩
      · cases hs
  | unpin w hsh =>
    simp only [step] at hs
    have hwb : w ≠ b := by intro h; subst h; exact hb rfl
    split at hs
    · cases hs
    · split at hs
      · simp only [Option.some.injEq] at hs
        subst hs
        simp only [modules, instances, unref_pins, unref_insts, and_true]
        exact filter_erase _ _ (by simpa using hwb) _
      · cases hs
  | delete w i =>
    simp only [step] at hs
    have hwb : w ≠ b := by intro h; subst h; exact hb rfl
    split at hs
    · cases hs
    · rename_i w' n' hi
      split at hs
      · rename_i hw
        simp only [Option.some.injEq] at hs
        subst hs
        refine ⟨by simp [modules, (deleteInst_same s i).1], deleteInst_instances s i b ?_⟩
        intro w1 n1 h1
        rw [hi] at h1
        simp only [Option.some.injEq, Prod.mk.injEq] at h1
        omega
      · cases hs
  | shutdown => exact absurd rfl hl

/-! ### Access only to known contents -/

/-- Everybody knows the contents of what they have. -/
structure Known (s : St) : Prop where
  map : ∀ x ∈ s.map.getD [], s.hashOf x.2 = x.1
  pins : ∀ x ∈ s.pins, (some x.1, s.hashOf x.2) ∈ s.known
  insts : ∀ e ∈ s.insts, (some e.owner, s.hashOf e.prog) ∈ s.known
  holds : ∀ x ∈ s.holds, x.phase ≠ .unchecked → (x.who, s.hashOf x.prog) ∈ s.known

theorem Known.mono {s t : St} (h : Known s) (h1 : t.hashOf = s.hashOf) (h2 : ∀ k ∈ s.known, k ∈ t.known)
    (h3 : ∀ x ∈ t.map.getD [], s.hashOf x.2 = x.1)
    (h4 : ∀ x ∈ t.pins, x ∈ s.pins ∨ (some x.1, s.hashOf x.2) ∈ t.known)
    (h5 : ∀ e ∈ t.insts, e ∈ s.insts ∨ (some e.owner, s.hashOf e.prog) ∈ t.known)
    (h6 : ∀ x ∈ t.holds, x.phase ≠ .unchecked → x ∈ s.holds ∨ (x.who, s.hashOf x.prog) ∈ t.known) : Known t := by
  refine ⟨?_, ?_, ?_, ?_⟩
  · rw [h1]; exact h3
  · intro x hx
    rw [h1]
    rcases h4 x hx with h' | h'
    · exact h2 _ (h.pins x h')
    · exact h'
  · intro x hx
    rw [h1]
    rcases h5 x hx with h' | h'
    · exact h2 _ (h.insts x h')
    · exact h'
  · intro x hx hp
    rw [h1]
    rcases h6 x hx hp with h' | h'
    · exact h2 _ (h.holds x h' hp)
    · exact h'

theorem unref_known' {s : St} (h : Known s) (p) : Known (unref s p) :=
  h.mono (by simp) (by simp) (by simpa using h.map) (fun x hx => .inl (by simpa using hx)) (fun x hx => .inl (by simpa using hx))
    (fun x hx _ => .inl (by simpa using hx))

theorem swap_known {s : St} (h : Known s) {x : Hold} (hx : x ∈ s.holds) (hp : x.phase ≠ .unchecked) (ys : List Hold)
    (hy : ∀ y ∈ ys, y.who = x.who ∧ y.prog = x.prog) : Known (s.swap x ys) := by
  refine h.mono rfl (fun _ h => h) h.map (fun _ h => .inl h) (fun _ h => .inl h) ?_
  intro z hz _
  simp only [St.swap, List.mem_append] at hz
  rcases hz with hz | hz
  · right
    obtain ⟨a, b⟩ := hy z hz
    rw [a, b]
    exact h.holds x hx hp
  · exact .inl (List.mem_of_mem_erase hz)

theorem swap_nil_known {s : St} (h : Known s) (x : Hold) : Known (s.swap x []) := by
  refine h.mono rfl (fun _ h => h) h.map (fun _ h => .inl h) (fun _ h => .inl h) ?_
  intro z hz _
  simp only [St.swap, List.nil_append] at hz
  exact .inl (List.mem_of_mem_erase hz)

theorem merge_known' {s : St} (h : Known s) (p) : Known (merge s p).1 ∧ s.hashOf (merge s p).2 = s.hashOf p := by
  unfold merge
  cases hl : lookup s (s.hashOf p) with
  | none =>
    simp only
    refine ⟨h.mono rfl (fun _ h => h) ?_ (fun _ h => .inl h) (fun _ h => .inl h) (fun _ h _ => .inl h), trivial⟩
    intro x hx
    simp only [Option.getD_some, List.mem_cons] at hx
    rcases hx with hx | hx
    · rw [hx]
    · exact h.map x hx
  | some q =>
    have := h.map _ (lookup_mem hl)
    simp only at this ⊢
    split
    · split
      · exact ⟨h.mono rfl (fun _ h => h) h.map (fun _ h => .inl h) (fun _ h => .inl h) (fun _ h _ => .inl h), rfl⟩
      · exact ⟨unref_known' h p, rfl⟩
    · exact ⟨unref_known' h p, this⟩

theorem ensurePin_known' {s : St} (h : Known s) (w p) (hk : (some w, s.hashOf p) ∈ s.known) : Known (ensurePin s w p) := by
  refine h.mono (by simp) (by simp) (by simpa using h.map) ?_ (fun x hx => .inl (by simpa using hx))
    (fun x hx _ => .inl (by simpa using hx))
  intro x hx
  unfold ensurePin at hx
  split at hx
  · exact .inl hx
  · simp only [List.mem_cons] at hx
    rcases hx with hx | hx
    · right; rw [hx]; simpa using hk
    · exact .inl hx

theorem deleteInst_known' {s : St} (h : Known s) (i) : Known (deleteInst s i) := by
  obtain ⟨h1, h2, h3, h4, _, _, h7⟩ := deleteInst_same s i
  refine h.mono h2 (by rw [h3]; exact fun _ h => h) (by rw [h4]; exact h.map) (by rw [h1]; exact fun _ h => .inl h)
    (fun e he => .inl (h7 he)) (by rw [(deleteInst_holds s i).1]; exact fun _ h _ => .inl h)

/-- A new program: the old ones keep their hashes. -/
theorem alloc_known {s t : St} (h : Known s) (hb : Below s) (who : Option Nat) (hsh : Nat)
    (h1 : t.hashOf = upd s.hashOf s.next hsh) (h2 : t.known = (who, hsh) :: s.known)
    (h3 : ∀ x ∈ t.map.getD [], x ∈ s.map.getD [] ∨ x = (hsh, s.next)) (h4 : t.pins = s.pins) (h5 : t.insts = s.insts)
    (h6 : ∀ x ∈ t.holds, x ∈ s.holds ∨ x.who = who ∧ x.prog = s.next) : Known t := by
  have hold : ∀ p, p < s.next → t.hashOf p = s.hashOf p := by
    intro p hp
    rw [h1]
    simp only [upd]
    rw [if_neg (by omega)]
  have hnew : t.hashOf s.next = hsh := by rw [h1]; simp [upd]
  refine ⟨?_, ?_, ?_, ?_⟩
  · intro x hx
    rcases h3 x hx with hx | hx
    · rw [hold _ (hb.map x hx)]; exact h.map x hx
    · rw [hx]; exact hnew
  · intro x hx
    rw [h4] at hx
    rw [hold _ (hb.pins x hx), h2]
    exact List.mem_cons_of_mem _ (h.pins x hx)
  · intro x hx
    rw [h5] at hx
    rw [hold _ (hb.insts x hx), h2]
    exact List.mem_cons_of_mem _ (h.insts x hx)
  · intro x hx hp
    rw [h2]
    rcases h6 x hx with hx | ⟨ha, hb'⟩
    · rw [hold _ (hb.holds x hx)]
      exact List.mem_cons_of_mem _ (h.holds x hx hp)
    · rw [ha, hb', hnew]
      exact List.mem_cons_self

theorem step_known {s t : St} {l : Label} (h : Known s) (hb : Below s) (hs : step s l = some t) : Known t := by
  cases l with
  | build who hsh =>
    simp only [step, Option.some.injEq] at hs
    subst hs
    refine alloc_known h hb who hsh rfl rfl (fun _ h => .inl h) rfl rfl ?_
    intro x hx
    simp only [List.mem_cons] at hx
    rcases hx with hx | hx
    · right; rw [hx]; exact ⟨rfl, rfl⟩
    · exact .inl hx
  | load owner hsh =>
    simp only [step] at hs
    split at hs
    · cases hs
    · rename_i m hm
      split at hs
      · cases hs
      · have h1 : Known ({ s with
            next := s.next + 1, hashOf := upd s.hashOf s.next hsh, refs := upd s.refs s.next 1
            closed := upd s.closed s.next false, map := some ((hsh, s.next) :: m), known := (owner, hsh) :: s.known } : St) := by
          refine alloc_known h hb owner hsh rfl rfl ?_ rfl rfl (fun _ h => .inl h)
          intro x hx
          simp only [Option.getD_some, List.mem_cons] at hx
          rcases hx with hx | hx
          · exact .inr hx
          · left; rw [hm]; exact hx
        cases owner with
        | none => simp only [Option.some.injEq] at hs; subst hs; exact h1
        | some w =>
          simp only [Option.some.injEq] at hs
          subst hs
          exact ensurePin_known' h1 w s.next (by simp [upd])
  | refHash who hsh =>
    simp only [step] at hs
    split at hs
    · cases hs
    · split at hs
      · simp only [Option.some.injEq] at hs; subst hs
        exact h.mono rfl (fun _ h => h) h.map (fun _ h => .inl h) (fun _ h => .inl h) (fun _ h _ => .inl h)
      · simp only [Option.some.injEq] at hs; subst hs
        refine h.mono (by simp) (by simp) (by simpa using h.map) (fun x hx => .inl (by simpa using hx))
          (fun x hx => .inl (by simpa using hx)) ?_
        intro x hx hp
        simp only [List.mem_cons] at hx
        rcases hx with hx | hx
        · rw [hx] at hp; exact absurd rfl hp
        · exact .inl hx
  | validate x =>
    simp only [step] at hs
    split at hs
    · rename_i hx
      simp only [Option.some.injEq] at hs
      subst hs
      refine h.mono rfl (fun _ h => List.mem_cons_of_mem _ h) h.map (fun _ h => .inl h) (fun _ h => .inl h) ?_
      intro y hy _
      simp only [St.swap, List.mem_append, List.mem_singleton] at hy
      rcases hy with hy | hy
      · right; rw [hy]; exact List.mem_cons_self
      · exact .inl (List.mem_of_mem_erase hy)
    · cases hs
  | refPinned w hsh =>
    simp only [step] at hs
    split at hs
    · cases hs
    · rename_i p _
      split at hs
      · rename_i hpin
        simp only [Option.some.injEq] at hs; subst hs
        refine h.mono (by simp) (by simp) (by simpa using h.map) (fun x hx => .inl (by simpa using hx))
          (fun x hx => .inl (by simpa using hx)) ?_
        intro x hx hp
        simp only [List.mem_cons] at hx
        rcases hx with hx | hx
        · right; rw [hx]; simpa using h.pins _ hpin
        · exact .inl hx
      · cases hs
  | refInst w n =>
    simp only [step] at hs
    split at hs
    · cases hs
    · rename_i e he
      obtain ⟨hm, ho, _⟩ := findEntry_mem he
      simp only [Option.some.injEq] at hs; subst hs
      refine h.mono (by simp) (by simp) (by simpa using h.map) (fun x hx => .inl (by simpa using hx))
        (fun x hx => .inl (by simpa using hx)) ?_
      intro x hx hp
      simp only [List.mem_cons] at hx
      rcases hx with hx | hx
      · right; rw [hx]; have := h.insts _ hm; rw [ho] at this; simpa using this
      · exact .inl hx
  | register x pin =>
    simp only [step] at hs
    split at hs
    · rename_i hx
      have hk := h.holds x hx.1 (by rw [hx.2.1]; exact Phase.noConfusion)
      obtain ⟨h1, h2⟩ := merge_known' (swap_nil_known h x) x.prog
      split at hs
      · simp only [Option.some.injEq] at hs; subst hs; exact h1
      · cases hs
      · rename_i w hw
        simp only [Option.some.injEq] at hs; subst hs
        refine ensurePin_known' h1 w _ ?_
        rw [merge_hashOf, h2, merge_known, ← hw]
        exact hk
    · cases hs
  | registerInst x n pin =>
    simp only [step] at hs
    split at hs
    · rename_i hx
      have hk := h.holds x hx.1 (by rw [hx.2.1]; exact Phase.noConfusion)
      obtain ⟨h1, h2⟩ := merge_known' (swap_nil_known h x) x.prog
      have e1 : (merge (s.swap x []) x.prog).1.hashOf = s.hashOf := by simp [St.swap]
      have e2 : (merge (s.swap x []) x.prog).1.known = s.known := by simp [St.swap]
      rw [show (s.swap x []).hashOf = s.hashOf from rfl] at h2
      generalize merge (s.swap x []) x.prog = r at hs h1 h2 e1 e2
      obtain ⟨u, p⟩ := r
      simp only at hs h1 h2 e1 e2
      split at hs
      · rename_i hw
        split at hs
        · cases hs
        · simp only [Option.some.injEq] at hs
          subst hs
          refine h1.mono (by simp) (by simp) (by simpa using h1.map) (fun x hx => .inl (by simpa using hx))
            (fun x hx => .inl (by simpa using hx)) ?_
          intro y hy _
          simp only [List.mem_cons] at hy
          rcases hy with hy | hy
          · right; rw [hy]; simp only [ref_known, e1, e2, h2]; rw [← hw]; exact hk
          · exact .inl hy
      · rename_i w hw
        split at hs
        · cases hs
        · simp only [Option.some.injEq] at hs
          generalize hv : (if pin then ensurePin u w p else u) = v at hs
          have hv1 : Known v ∧ v.hashOf = s.hashOf ∧ v.known = s.known := by
            subst hv
            split
            · refine ⟨ensurePin_known' h1 _ _ ?_, by simpa using e1, by simpa using e2⟩
              rw [e1, e2, h2, ← hw]; exact hk
            · exact ⟨h1, e1, e2⟩
          obtain ⟨h3, e3, e4⟩ := hv1
          subst hs
          refine h3.mono (by simp) (by simp) (by simpa using h3.map) (fun x hx => .inl (by simpa using hx)) ?_ ?_
          · intro e he
            simp only [ref_insts, List.mem_cons] at he
            rcases he with he | he
            · right; rw [he]; simp only [ref_known, e3, e4, h2]; rw [← hw]; exact hk
            · exact .inl he
          · intro y hy _
            simp only [List.mem_cons, ref_holds] at hy
            rcases hy with hy | hy
            · right; rw [hy]; simp only [ref_known, e3, e4, h2]; rw [← hw]; exact hk
            · exact .inl hy
    · cases hs
  | resume x =>
    simp only [step] at hs
    split at hs
    · rename_i hx
      simp only [Option.some.injEq] at hs; subst hs
      exact swap_known h hx.1 (by rw [hx.2.1]; exact Phase.noConfusion) _
        (by intro y hy; simp only [List.mem_singleton] at hy; subst hy; exact ⟨rfl, rfl⟩)
    · cases hs
  | startRun x =>
    simp only [step] at hs
    split at hs
    · rename_i hx
      simp only [Option.some.injEq] at hs; subst hs
      exact swap_known h hx.1 (by rw [hx.2]; exact Phase.noConfusion) _
        (by intro y hy; simp only [List.mem_singleton] at hy; subst hy; exact ⟨rfl, rfl⟩)
    · cases hs
  | startStored x =>
    simp only [step] at hs
    split at hs
    · simp only [Option.some.injEq] at hs; subst hs
      exact unref_known' (swap_nil_known h x) _
    · cases hs
  | startFail x =>
    simp only [step] at hs
    split at hs
    · rename_i hx
      split at hs
      · cases hs
      · rename_i i _
        simp only [Option.some.injEq] at hs; subst hs
        have h1 := swap_known (deleteInst_known' h i) (x := x) (by rw [(deleteInst_holds s i).1]; exact hx.1)
          (by rw [hx.2]; exact Phase.noConfusion)
          [({ x with phase := .op, inst := none } : Hold), { x with phase := .op, inst := none }] (by
            intro y hy
            simp only [List.mem_cons, List.not_mem_nil, or_false, or_self] at hy
            subst hy
            exact ⟨rfl, rfl⟩)
        exact h1.mono rfl (fun _ h => h) h1.map (fun _ h => .inl h) (fun _ h => .inl h) (fun _ h _ => .inl h)
    · cases hs
  | release x =>
    simp only [step] at hs
    split at hs
    · simp only [Option.some.injEq] at hs; subst hs
      exact unref_known' (swap_nil_known h x) _
    · cases hs
  | driven x ne =>
    simp only [step] at hs
    split at hs
    · split at hs
      · cases hs
      · rename_i i _
        simp only [Option.some.injEq] at hs; subst hs
        refine unref_known' (swap_nil_known ?_ x) _
        split
        · exact deleteInst_known' h i
        · exact h
    · cases hs
  | pin w hsh =>
    simp only [step] at hs
    split at hs
    · cases hs
    · rename_i p _
      split at hs
      · rename_i hc
        simp only [Option.some.injEq] at hs; subst hs
        refine ensurePin_known' h _ _ ?_
        rcases hc with hc | ⟨e, he, ho, hp⟩
        · exact h.pins _ hc
        · have := h.insts e he
          rw [ho, hp] at this
          exact this
      · cases hs
  | unpin w hsh =>
    simp only [step] at hs
    split at hs
    · cases hs
    · split at hs
      · simp only [Option.some.injEq] at hs; subst hs
        exact h.mono (by simp) (by simp) (by simpa using h.map)
          (fun x hx => .inl (List.mem_of_mem_erase (by simpa using hx)))
          (fun x hx => .inl (by simpa using hx)) (fun x hx _ => .inl (by simpa using hx))
      · cases hs
  | delete w i =>
    simp only [step] at hs
    split at hs
    · cases hs
    · split at hs
      · simp only [Option.some.injEq] at hs; subst hs; exact deleteInst_known' h i
      · cases hs
  | shutdown =>
    simp only [step] at hs
    split at hs
    · cases hs
    · simp only [Option.some.injEq] at hs; subst hs
      exact h.mono (by simp) (by simp) (by simp) (by simp) (by simp) (fun x hx _ => .inl (by simpa using hx))

theorem run_known : ∀ (ls : List Label) {s t : St}, Inv s → Known s → run s ls = some t → Known t := by
  intro ls
  induction ls with
  | nil => intro s t _ h hr; cases hr; exact h
  | cons l ls ih =>
    intro s t hi h hr
    simp only [run] at hr
    split at hr
    · cases hr
    · rename_i hf
      cases hs : step s l with
      | none => rw [hs] at hr; cases hr
      | some u =>
        rw [hs] at hr
        exact ih (step_inv hi (by simpa using hf) hs) (step_known h hi.below hs) hr

/-- Who presents contents, and of which hash: an upload or snapshot which is built, or an upload
which is found to be known and validated; or the owner, of what is loaded at the start. -/
def presents (s : St) : Label → Option (Option Nat × Nat)
  | .build who h => some (who, h)
  | .load owner h => some (owner, h)
  | .validate x => if x ∈ s.holds ∧ x.phase = .unchecked then some (x.who, s.hashOf x.prog) else none
  | _ => none

/-- What has been presented during a history. -/
def presented (s : St) : List Label → List (Option Nat × Nat)
  | [] => []
  | l :: ls => (presents s l).toList ++ (match step s l with | some t => presented t ls | none => [])

theorem step_presents {s t : St} {l : Label} (hs : step s l = some t) : ∀ k ∈ t.known, k ∈ s.known ∨ presents s l = some k := by
  intro k hk
  cases l with
  | build who hsh =>
    simp only [step, Option.some.injEq] at hs; subst hs
    simp only [List.mem_cons] at hk
    rcases hk with hk | hk
    · right; rw [hk]; rfl
    · exact .inl hk
  | load owner hsh =>
    simp only [step] at hs
    split at hs
    · cases hs
    · split at hs
      · cases hs
      · have : k ∈ (owner, hsh) :: s.known := by
          cases owner with
          | none => simp only [Option.some.injEq] at hs; subst hs; exact hk
          | some w => simp only [Option.some.injEq] at hs; subst hs; simpa using hk
        simp only [List.mem_cons] at this
        rcases this with hk | hk
        · right; rw [hk]; rfl
        · exact .inl hk
  | validate x =>
    simp only [step] at hs
    split at hs
    · rename_i hx
      simp only [Option.some.injEq] at hs; subst hs
      simp only [List.mem_cons] at hk
      rcases hk with hk | hk
      · right; rw [hk]; simp only [presents]; rw [if_pos hx]
      · exact .inl hk
    · cases hs
  | shutdown =>
    left
    simp only [step] at hs
    split at hs
    · cases hs
    · simp only [Option.some.injEq] at hs; subst hs; simpa using hk
  | driven x ne =>
    left
    simp only [step] at hs
    split at hs
    · split at hs
      · cases hs
      · rename_i i _
        simp only [Option.some.injEq] at hs; subst hs
        cases ne with
        | true => simpa [St.swap, (deleteInst_same s i).2.2.1] using hk
        | false => simpa [St.swap] using hk
    · cases hs
  | startFail x =>
    left
    simp only [step] at hs
    split at hs
    · split at hs
      · cases hs
      · rename_i i _
        simp only [Option.some.injEq] at hs; subst hs
        simpa [St.swap, (deleteInst_same s i).2.2.1] using hk
    · cases hs
  | delete w i =>
    left
    simp only [step] at hs
    split at hs
    · cases hs
    · split at hs
      · simp only [Option.some.injEq] at hs; subst hs; simpa [(deleteInst_same s i).2.2.1] using hk
      · cases hs
  | registerInst x n pin =>
    left
    simp only [step] at hs
    split at hs
    · split at hs
      · split at hs
        · cases hs
        · simp only [Option.some.injEq] at hs; subst hs; simpa [St.swap] using hk
      · split at hs
        · cases hs
        · simp only [Option.some.injEq] at hs; subst hs
          cases pin <;> simpa [St.swap] using hk
    · cases hs
  | _ =>
    left
    simp only [step] at hs
    repeat' split at hs
    all_goals first
      | (cases hs; done)
      | (simp only [Option.some.injEq] at hs; subst hs; simpa [St.swap] using hk)

theorem run_presented : ∀ (ls : List Label) {s t : St}, run s ls = some t → ∀ k ∈ t.known, k ∈ s.known ∨ k ∈ presented s ls := by
  intro ls
  induction ls with
  | nil => intro s t hr k hk; cases hr; exact .inl hk
  | cons l ls ih =>
    intro s t hr k hk
    simp only [run] at hr
    split at hr
    · cases hr
    · cases hs : step s l with
      | none => rw [hs] at hr; cases hr
      | some u =>
        rw [hs] at hr
        simp only [presented, hs, List.mem_append]
        rcases ih hr k hk with h | h
        · rcases step_presents hs k h with h | h
          · exact .inl h
          · right; left; rw [h]; simp
        · exact .inr (.inr h)

/-- C44: in every history, whatever module a principal sees, has an instance of, or has an
operation in progress with, its contents have been presented by that principal: by uploading
it, by taking a snapshot, or as the owner of the server's storage. (An operation which has
only named a hash does not count: it has got nothing but a reference.) -/
theorem only_known (ls : List Label) (s : St) (h : run init ls = some s) :
    (∀ w p, (w, p) ∈ modules s w → (some w, s.hashOf p) ∈ presented init ls) ∧
    (∀ w e, e ∈ instances s w → (some w, s.hashOf e.prog) ∈ presented init ls) ∧
    (∀ x ∈ s.holds, x.phase ≠ .unchecked → (x.who, s.hashOf x.prog) ∈ presented init ls) := by
  have hk := run_known ls init_inv (by constructor <;> simp [init]) h
  have hp := run_presented ls h
  have conv : ∀ k, k ∈ s.known → k ∈ presented init ls := by
    intro k h
    rcases hp k h with h | h
    · simp [init] at h
    · exact h
  refine ⟨?_, ?_, ?_⟩
  · intro w p hm
    simp only [modules, List.mem_filter] at hm
    exact conv _ (hk.pins _ hm.1)
  · intro w e hm
    simp only [instances, List.mem_filter, beq_iff_eq] at hm
    have := hk.insts e hm.1
    rw [hm.2] at this
    exact conv _ this
  · intro x hx hph
    exact conv _ (hk.holds x hx hph)

/-- Two principals; the second one knows the contents of the first one's module. -/
def twoPrincipals : List Label :=
  [.build (some 1) 7, .registerInst ⟨0, some 1, .op, none⟩ 5 true, .startRun ⟨0, some 1, .launch, some 0⟩, .refHash (some 2) 7,
    .validate ⟨0, some 2, .unchecked, none⟩, .registerInst ⟨0, some 2, .op, none⟩ 5 true]

example : ∃ s, run init twoPrincipals = some s ∧ modules s 2 = [(2, 0)] ∧ (instances s 2).length = 1 ∧
    presented init twoPrincipals = [(some 1, 7), (some 2, 7)] :=
  ⟨_, rfl, by decide, by decide, by decide⟩

/-- Without validation nothing can be done with the reference. -/
example : ∀ s, run init (twoPrincipals.take 4) = some s → step s (.register ⟨0, some 2, .unchecked, none⟩ true) = none := by
  intro s hs; cases hs; rfl

/-- The registry keeps every program: a module which has once been uploaded stays in memory
until the server is shut down, also when nobody has pinned it and no instance uses it. -/
theorem registry_keeps (s t : St) (l : Label) (hs : step s l = some t) (hl : l ≠ .shutdown) (x : Nat × Nat)
    (hx : x ∈ s.map.getD []) : x ∈ t.map.getD [] := by
  have hmerge : ∀ (u : St) p, u.map = s.map → x ∈ (merge u p).1.map.getD [] := by
    intro u p hu
    unfold merge
    split
    · simp only [Option.getD_some, List.mem_cons]; right; rw [hu]; exact hx
    · split
      · split
        · simp only; rw [hu]; exact hx
        · rw [unref_map, hu]; exact hx
      · rw [unref_map, hu]; exact hx
  cases l with
  | shutdown => exact absurd rfl hl
  | load owner hsh =>
    simp only [step] at hs
    split at hs
    · cases hs
    · rename_i m hm
      rw [hm] at hx
      split at hs
      · cases hs
      · cases owner <;> (simp only [Option.some.injEq] at hs; subst hs) <;> simp <;> exact .inr (by simpa using hx)
  | register y pin =>
    simp only [step] at hs
    split at hs
    · split at hs
      · simp only [Option.some.injEq] at hs; subst hs; exact hmerge _ _ rfl
      · cases hs
      · simp only [Option.some.injEq] at hs; subst hs; rw [ensurePin_map]; exact hmerge _ _ rfl
    · cases hs
  | registerInst y n pin =>
    simp only [step] at hs
    split at hs
    · have hm := hmerge (s.swap y []) y.prog rfl
      split at hs
      · split at hs
        · cases hs
        · simp only [Option.some.injEq] at hs; subst hs; simpa using hm
      · split at hs
        · cases hs
        · simp only [Option.some.injEq] at hs; subst hs
          cases pin <;> simpa using hm
    · cases hs
  | driven y ne =>
    simp only [step] at hs
    split at hs
    · split at hs
      · cases hs
      · rename_i i _
        simp only [Option.some.injEq] at hs; subst hs
        cases ne with
        | true => simpa [St.swap, (deleteInst_same s i).2.2.2.1] using hx
        | false => simpa [St.swap] using hx
    · cases hs
  | startFail y =>
    simp only [step] at hs
    split at hs
    · split at hs
      · cases hs
      · rename_i i _
        simp only [Option.some.injEq] at hs; subst hs
        simpa [St.swap, (deleteInst_same s i).2.2.2.1] using hx
    · cases hs
  | delete w i =>
    simp only [step] at hs
    split at hs
    · cases hs
    · split at hs
      · simp only [Option.some.injEq] at hs; subst hs; simpa [(deleteInst_same s i).2.2.2.1] using hx
      · cases hs
  | _ =>
    simp only [step] at hs
    repeat' split at hs
    all_goals first
      | (cases hs; done)
      | (simp only [Option.some.injEq] at hs; subst hs; simpa [St.swap] using hx)

/-- The claim that unused modules are released is false for every registered program, as long
as no start fails: its image stays open. -/
theorem never_released (ls : List Label) (s : St) (h : run init ls = some s) (hn : ∀ p, ls.countP (failOf p) = 0)
    (x : Nat × Nat) (hx : x ∈ s.map.getD []) : s.closed x.2 = false := by
  have hi := run_inv ls init_inv h
  obtain ⟨_, h2⟩ := references_partial ls s h hn
  obtain ⟨_, h3⟩ := h2 x.2
  have hpos : 0 < count s x.2 := count_map_pos (h := x.1) hx
  have := h3 (hi.below.map x hx)
  cases hc : s.closed x.2 with
  | false => rfl
  | true => have := this.mp hc; omega

end Gate.Server
