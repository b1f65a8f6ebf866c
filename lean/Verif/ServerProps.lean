import Verif.Server
/-
C43: program references are counted, and C44: isolation of accounts, for every history of
server operations.
-/
namespace Gate.Server
open Gate

/-! ### Effects of the primitives -/

def delta (p q : Nat) : Nat := if q = p then 1 else 0

@[simp] theorem ref_map (s : St) (p) : (ref s p).map = s.map := by unfold ref; split <;> rfl
@[simp] theorem ref_pins (s : St) (p) : (ref s p).pins = s.pins := by unfold ref; split <;> rfl
@[simp] theorem ref_insts (s : St) (p) : (ref s p).insts = s.insts := by unfold ref; split <;> rfl
@[simp] theorem ref_holds (s : St) (p) : (ref s p).holds = s.holds := by unfold ref; split <;> rfl
@[simp] theorem ref_next (s : St) (p) : (ref s p).next = s.next := by unfold ref; split <;> rfl
@[simp] theorem ref_fails (s : St) (p) : (ref s p).fails = s.fails := by unfold ref; split <;> rfl
@[simp] theorem ref_hashOf (s : St) (p) : (ref s p).hashOf = s.hashOf := by unfold ref; split <;> rfl
@[simp] theorem ref_known (s : St) (p) : (ref s p).known = s.known := by unfold ref; split <;> rfl
@[simp] theorem ref_instOf (s : St) (p) : (ref s p).instOf = s.instOf := by unfold ref; split <;> rfl
@[simp] theorem ref_nextInst (s : St) (p) : (ref s p).nextInst = s.nextInst := by unfold ref; split <;> rfl
@[simp] theorem unref_map (s : St) (p) : (unref s p).map = s.map := by unfold unref; split <;> rfl
@[simp] theorem unref_pins (s : St) (p) : (unref s p).pins = s.pins := by unfold unref; split <;> rfl
@[simp] theorem unref_insts (s : St) (p) : (unref s p).insts = s.insts := by unfold unref; split <;> rfl
@[simp] theorem unref_holds (s : St) (p) : (unref s p).holds = s.holds := by unfold unref; split <;> rfl
@[simp] theorem unref_next (s : St) (p) : (unref s p).next = s.next := by unfold unref; split <;> rfl
@[simp] theorem unref_fails (s : St) (p) : (unref s p).fails = s.fails := by unfold unref; split <;> rfl
@[simp] theorem unref_hashOf (s : St) (p) : (unref s p).hashOf = s.hashOf := by unfold unref; split <;> rfl
@[simp] theorem unref_known (s : St) (p) : (unref s p).known = s.known := by unfold unref; split <;> rfl
@[simp] theorem unref_instOf (s : St) (p) : (unref s p).instOf = s.instOf := by unfold unref; split <;> rfl
@[simp] theorem unref_nextInst (s : St) (p) : (unref s p).nextInst = s.nextInst := by unfold unref; split <;> rfl

theorem countP_erase {α} [BEq α] [LawfulBEq α] {l : List α} {a : α} (q : α → Bool) (h : a ∈ l) :
    (l.erase a).countP q + (if q a then 1 else 0) = l.countP q := by
  rw [(List.perm_cons_erase h).countP_eq q, List.countP_cons]

/-- The references are balanced: `f` are those which a critical section has in its hands. -/
def Bal (s : St) (f : Nat → Nat) : Prop := ∀ p, s.refs p + s.fails p = count s p + f p

/-- Balanced unless there was a fault; no fault unless a start has failed. -/
def Good (s : St) (f : Nat → Nat) : Prop := (s.fault = false → Bal s f) ∧ ((∀ p, s.fails p = 0) → s.fault = false)

theorem Good.congr {s t : St} {f g : Nat → Nat} (h : Good s f) (h1 : t.refs = s.refs) (h2 : t.fails = s.fails)
    (h3 : t.fault = s.fault) (h4 : ∀ p, count t p + g p = count s p + f p) : Good t g := by
  refine ⟨?_, ?_⟩
  · intro hf p
    have := h.1 (by rw [← h3]; exact hf) p
    rw [h1, h2, h4]
    exact this
  · intro hz
    rw [h3]
    exact h.2 (by rw [← h2]; exact hz)

theorem count_ref (s : St) (p q) : count (ref s p) q = count s q := by simp [count]
theorem count_unref (s : St) (p q) : count (unref s p) q = count s q := by simp [count]

theorem ref_good {s : St} {f : Nat → Nat} {p : Nat} (h : Good s f) (hp : 0 < count s p + f p) :
    Good (ref s p) (fun q => f q + delta p q) := by
  by_cases h0 : s.refs p = 0
  · have hfl : (ref s p).fault = true := by simp [ref, h0]
    refine ⟨fun hf => (by rw [hfl] at hf; cases hf), fun hz => ?_⟩
    rw [ref_fails] at hz
    have := h.1 (h.2 hz) p
    rw [h0, hz p] at this
    omega
  · have hfl : (ref s p).fault = s.fault := by simp [ref, h0]
    refine ⟨?_, ?_⟩
    · intro hf q
      rw [hfl] at hf
      have := h.1 hf q
      rw [count_ref, ref_fails]
      simp only [ref, h0, if_false, upd, delta]
      split
      · rename_i he; subst he; omega
      · omega
    · intro hz
      rw [hfl]
      exact h.2 (by rw [ref_fails] at hz; exact hz)

theorem unref_good {s : St} {f g : Nat → Nat} {p : Nat} (h : Good s f) (hfg : ∀ q, f q = g q + delta p q) :
    Good (unref s p) g := by
  have hp : f p = g p + 1 := by rw [hfg p]; simp [delta]
  by_cases h0 : s.refs p = 0
  · have hfl : (unref s p).fault = true := by simp [unref, h0]
    refine ⟨fun hf => (by rw [hfl] at hf; cases hf), fun hz => ?_⟩
    rw [unref_fails] at hz
    have := h.1 (h.2 hz) p
    rw [h0, hz p] at this
    omega
  · have hfl : (unref s p).fault = s.fault := by simp [unref, h0]
    refine ⟨?_, ?_⟩
    · intro hf q
      rw [hfl] at hf
      have := h.1 hf q
      rw [count_unref, unref_fails]
      rw [hfg] at this
      simp only [unref, h0, if_false, upd]
      unfold delta at this
      split
      · rename_i he
        subst he
        rw [if_pos rfl] at this
        omega
      · rename_i he
        rw [if_neg he] at this
        omega
    · intro hz
      rw [hfl]
      exact h.2 (by rw [unref_fails] at hz; exact hz)

theorem lookup_mem {s : St} {h : Nat} {p : Nat} (hl : lookup s h = some p) : (h, p) ∈ s.map.getD [] := by
  unfold lookup at hl
  rw [Option.map_eq_some_iff] at hl
  obtain ⟨⟨h', p'⟩, hf, he⟩ := hl
  have := List.mem_of_find?_eq_some hf
  have hh := List.find?_some hf
  simp only [beq_iff_eq] at hh
  subst hh
  simp only at he
  subst he
  exact this

theorem count_map_pos {s : St} {h : Nat} {p : Nat} (hm : (h, p) ∈ s.map.getD []) : 0 < count s p := by
  have : 0 < (s.map.getD []).countP (fun x => x.2 == p) := List.countP_pos_iff.mpr ⟨_, hm, by simp⟩
  unfold count
  omega

theorem merge_good {s : St} {f g : Nat → Nat} {p : Nat} (h : Good s f) (hfg : ∀ q, f q = g q + delta p q) :
    Good (merge s p).1 g ∧ (∃ x, (x, (merge s p).2) ∈ (merge s p).1.map.getD []) := by
  unfold merge
  cases hl : lookup s (s.hashOf p) with
  | none =>
    simp only
    refine ⟨?_, ⟨s.hashOf p, by simp⟩⟩
    refine h.congr rfl rfl rfl ?_
    intro q
    rw [hfg q]
    simp only [count, Option.getD_some, List.countP_cons, delta, beq_iff_eq]
    by_cases he : q = p
    · subst he; simp; omega
    · have : ¬ p = q := fun h => he h.symm
      simp [he, this]
  | some q =>
    have hm := lookup_mem hl
    simp only
    by_cases hq : q = p
    · rw [if_pos hq]
      subst hq
      by_cases h2 : s.refs q < 2
      · rw [if_pos h2]
        refine ⟨⟨fun hf => (by simp at hf), fun hz => ?_⟩, ⟨_, hm⟩⟩
        have hb := h.1 (h.2 hz) q
        have hz' : s.fails q = 0 := hz q
        have := count_map_pos hm
        rw [hz', hfg q] at hb
        simp only [delta, if_true] at hb
        omega
      · rw [if_neg h2]
        exact ⟨unref_good h hfg, ⟨_, by simpa using hm⟩⟩
    · rw [if_neg hq]
      exact ⟨unref_good h hfg, ⟨_, by simpa using hm⟩⟩

theorem ensurePin_good {s : St} {f : Nat → Nat} {w : Nat} {p : Nat} (h : Good s f) (hp : 0 < count s p + f p) :
    Good (ensurePin s w p) f := by
  unfold ensurePin
  split
  · exact h
  · refine (ref_good h hp).congr rfl rfl rfl ?_
    intro q
    simp only [count, ref_map, ref_pins, ref_insts, ref_holds, List.countP_cons, delta, beq_iff_eq]
    by_cases he : q = p
    · subst he; simp; omega
    · have : ¬ p = q := fun h => he h.symm
      simp [he, this]

theorem findEntry_mem {s : St} {w n e} (h : findEntry s w n = some e) : e ∈ s.insts ∧ e.owner = w ∧ e.name = n := by
  have h1 := List.mem_of_find?_eq_some h
  have h2 := List.find?_some h
  simp only [Bool.and_eq_true, beq_iff_eq] at h2
  exact ⟨h1, h2.1, h2.2⟩

theorem deleteInst_good {s : St} {f : Nat → Nat} {i : Nat} (h : Good s f) : Good (deleteInst s i) f := by
  unfold deleteInst
  split
  · exact h
  · rename_i w n _
    split
    · exact h
    · rename_i e he
      split
      · obtain ⟨hm, _, _⟩ := findEntry_mem he
        refine unref_good (f := fun q => f q + delta e.prog q) (h.congr rfl rfl rfl ?_) (fun _ => rfl)
        intro q
        have := countP_erase (fun e' : Entry => e'.prog == q) hm
        simp only [count, delta]
        simp only [beq_iff_eq] at this
        by_cases he : q = e.prog
        · subst he; simp at this ⊢; omega
        · have hne : ¬ e.prog = q := fun h => he h.symm
          simp [he, hne] at this ⊢
          omega
      · exact h

theorem swap_good {s : St} {f g : Nat → Nat} {x : Hold} {ys : List Hold} (h : Good s f) (hx : x ∈ s.holds)
    (hfg : ∀ q, f q + delta x.prog q = g q + ys.countP (fun y => y.prog == q)) : Good (s.swap x ys) g := by
  refine h.congr rfl rfl rfl ?_
  intro q
  have h1 := countP_erase (fun y : Hold => y.prog == q) hx
  have h2 := hfg q
  simp only [count, St.swap, List.countP_append]
  simp only [delta] at h2
  by_cases he : q = x.prog
  · subst he; simp at h1 h2 ⊢; omega
  · have hne : ¬ x.prog = q := fun h => he h.symm
    simp [he, hne] at h1 h2 ⊢
    omega

theorem unrefs_good {f : Nat → Nat} (ps : List Nat) : ∀ {s : St}, Good s (fun q => f q + ps.countP (fun p => p == q)) →
    Good (unrefs s ps) f := by
  induction ps with
  | nil => intro s h; simpa [unrefs] using h
  | cons p ps ih =>
    intro s h
    simp only [unrefs]
    refine ih (unref_good h ?_)
    intro q
    simp only [List.countP_cons, delta, beq_iff_eq]
    by_cases he : q = p
    · subst he; simp; omega
    · have : ¬ p = q := fun h => he h.symm
      simp [he, this]

theorem count_hold_pos {s : St} {x : Hold} (hx : x ∈ s.holds) : 0 < count s x.prog := by
  have : 0 < s.holds.countP (fun y => y.prog == x.prog) := List.countP_pos_iff.mpr ⟨_, hx, by simp⟩
  unfold count
  omega

theorem count_pin_pos {s : St} {w p} (hx : (w, p) ∈ s.pins) : 0 < count s p := by
  have : 0 < s.pins.countP (fun y => y.2 == p) := List.countP_pos_iff.mpr ⟨_, hx, by simp⟩
  unfold count
  omega

theorem count_inst_pos {s : St} {e : Entry} (hx : e ∈ s.insts) : 0 < count s e.prog := by
  have : 0 < s.insts.countP (fun y => y.prog == e.prog) := List.countP_pos_iff.mpr ⟨_, hx, by simp⟩
  unfold count
  omega

/-! ### Pointers in use are below the next one -/

/-- All program pointers in use have been allocated. -/
structure Below (s : St) : Prop where
  map : ∀ x ∈ s.map.getD [], x.2 < s.next
  pins : ∀ x ∈ s.pins, x.2 < s.next
  insts : ∀ e ∈ s.insts, e.prog < s.next
  holds : ∀ x ∈ s.holds, x.prog < s.next
  fails : ∀ p, s.next ≤ p → s.fails p = 0
  clo : s.fault = false → ∀ p, p < s.next → s.closed p = decide (s.refs p = 0)

theorem Below.count {s : St} (h : Below s) : count s s.next = 0 := by
  have h1 : (s.map.getD []).countP (fun x => x.2 == s.next) = 0 :=
    List.countP_eq_zero.mpr fun x hx => by have := h.map x hx; simp; omega
  have h2 : s.pins.countP (fun x => x.2 == s.next) = 0 :=
    List.countP_eq_zero.mpr fun x hx => by have := h.pins x hx; simp; omega
  have h3 : s.insts.countP (fun e => e.prog == s.next) = 0 :=
    List.countP_eq_zero.mpr fun x hx => by have := h.insts x hx; simp; omega
  have h4 : s.holds.countP (fun x => x.prog == s.next) = 0 :=
    List.countP_eq_zero.mpr fun x hx => by have := h.holds x hx; simp; omega
  unfold Gate.Server.count
  omega

/-- The lists of a state after an operation have only pointers which were in use before. -/
theorem Below.mono {s t : St} (h : Below s) (hn : t.next = s.next) (hf : t.fails = s.fails)
    (h1 : ∀ x ∈ t.map.getD [], x.2 < s.next) (h2 : ∀ x ∈ t.pins, x.2 < s.next)
    (h3 : ∀ e ∈ t.insts, e.prog < s.next) (h4 : ∀ x ∈ t.holds, x.prog < s.next)
    (h5 : t.fault = false → ∀ p, p < s.next → t.closed p = decide (t.refs p = 0)) : Below t :=
  ⟨by rw [hn]; exact h1, by rw [hn]; exact h2, by rw [hn]; exact h3, by rw [hn]; exact h4, by rw [hn, hf]; exact h.fails,
    by rw [hn]; exact h5⟩

theorem ref_below {s : St} (h : Below s) (p) : Below (ref s p) :=
  h.mono (by simp) (by simp) (by simpa using h.map) (by simpa using h.pins) (by simpa using h.insts) (by simpa using h.holds)
    (by
      unfold ref
      split
      · intro hf; cases hf
      · rename_i h0
        intro hf q hq
        have := h.clo hf q hq
        simp only [upd]
        split
        · rename_i he; subst he; rw [this]; simp [h0]
        · exact this)

theorem unref_below {s : St} (h : Below s) (p) : Below (unref s p) :=
  h.mono (by simp) (by simp) (by simpa using h.map) (by simpa using h.pins) (by simpa using h.insts) (by simpa using h.holds)
    (by
      unfold unref
      split
      · intro hf; cases hf
      · rename_i h0
        intro hf q hq
        have := h.clo hf q hq
        simp only [upd]
        split
        · rename_i he; subst he; rw [this]
          by_cases h1 : s.refs q = 1
          · simp [h1]
          · have : ¬ s.refs q - 1 = 0 := by omega
            simp [h0, h1, this]
        · exact this)

theorem merge_below {s : St} (h : Below s) (p) (hp : p < s.next) : Below (merge s p).1 ∧ (merge s p).2 < s.next ∧
    (merge s p).1.next = s.next := by
  unfold merge
  cases hl : lookup s (s.hashOf p) with
  | none =>
    simp only
    refine ⟨h.mono rfl rfl ?_ h.pins h.insts h.holds h.clo, hp, trivial⟩
    intro x hx
    simp only [Option.getD_some, List.mem_cons] at hx
    rcases hx with hx | hx
    · rw [hx]; exact hp
    · exact h.map x hx
  | some q =>
    have := h.map _ (lookup_mem hl)
    simp only at this ⊢
    split
    · split
      · exact ⟨h.mono rfl rfl h.map h.pins h.insts h.holds (fun hf => by cases hf), hp, rfl⟩
      · exact ⟨unref_below h _, hp, (by simp)⟩
    · exact ⟨unref_below h _, this, (by simp)⟩

theorem ensurePin_below {s : St} (h : Below s) (w p) (hp : p < s.next) : Below (ensurePin s w p) := by
  unfold ensurePin
  split
  · exact h
  · refine h.mono (by simp) (by simp) (by simpa using h.map) ?_ (by simpa using h.insts) (by simpa using h.holds) (by simpa using (ref_below h p).clo)
    intro x hx
    simp only [List.mem_cons] at hx
    rcases hx with hx | hx
    · rw [hx]; exact hp
    · exact h.pins x hx

theorem deleteInst_below {s : St} (h : Below s) (i) : Below (deleteInst s i) := by
  unfold deleteInst
  split
  · exact h
  · split
    · exact h
    · split
      · rename_i e _ _
        have hb : Below { s with insts := s.insts.erase e } := by
          refine h.mono rfl rfl h.map h.pins ?_ h.holds h.clo
          intro x hx
          exact h.insts x (List.mem_of_mem_erase hx)
        exact unref_below hb _
      · exact h

theorem deleteInst_holds (s : St) (i) : (deleteInst s i).holds = s.holds ∧ (deleteInst s i).next = s.next ∧
    (deleteInst s i).fails = s.fails := by
  unfold deleteInst
  split
  · exact ⟨rfl, rfl, rfl⟩
  · split
    · exact ⟨rfl, rfl, rfl⟩
    · split
      · simp
      · exact ⟨rfl, rfl, rfl⟩

theorem swap_below {s : St} (h : Below s) (x : Hold) (ys : List Hold) (hy : ∀ y ∈ ys, y.prog < s.next) : Below (s.swap x ys) := by
  refine h.mono rfl rfl h.map h.pins h.insts ?_ h.clo
  intro z hz
  simp only [St.swap, List.mem_append] at hz
  rcases hz with hz | hz
  · exact hy z hz
  · exact h.holds z (List.mem_of_mem_erase hz)

theorem unrefs_below (ps : List Nat) : ∀ {s : St}, Below s → Below (unrefs s ps) := by
  induction ps with
  | nil => intro s h; exact h
  | cons p ps ih => intro s h; exact ih (unref_below h p)

/-- Both invariants. -/
structure Inv (s : St) : Prop where
  good : Good s (fun _ => 0)
  below : Below s

theorem delta_pos (p : Nat) : 0 < delta p p := by simp [delta]

theorem alloc_good {s : St} (hg : Good s (fun _ => 0)) (hb : Below s) (hf : s.fault = false) (t : St)
    (h1 : t.refs = upd s.refs s.next 1) (h2 : t.fails = s.fails) (h3 : t.fault = s.fault)
    (h4 : ∀ p, count t p = count s p + delta s.next p) : Good t (fun _ => 0) := by
  refine ⟨?_, ?_⟩
  · intro _ q
    have := hg.1 hf q
    rw [h4, h1, h2]
    simp only [upd, delta]
    by_cases he : q = s.next
    · subst he
      have c := hb.count
      have d := hb.fails s.next (Nat.le_refl _)
      simp only [if_true]
      omega
    · simp only [he, if_false]
      exact this
  · intro hz
    rw [h3]; exact hf

theorem alloc_clo {s : St} (hb : Below s) : s.fault = false → ∀ p, p < s.next + 1 →
    upd s.closed s.next false p = decide (upd s.refs s.next 1 p = 0) := by
  intro hf p hp
  simp only [upd]
  split
  · simp
  · exact hb.clo hf p (by omega)

theorem delta_single (x y : Hold) (h : y.prog = x.prog) (q : Nat) :
    0 + delta x.prog q = 0 + [y].countP (fun z => z.prog == q) := by
  simp only [delta, List.countP_cons, List.countP_nil, h, beq_iff_eq]
  by_cases he : q = x.prog
  · subst he; simp
  · have : ¬ x.prog = q := fun h => he h.symm
    simp [he, this]

theorem hold_count (s : St) (p : Nat) (x : Hold) (hx : x.prog = p) (q : Nat) :
    count ({ ref s p with holds := x :: s.holds } : St) q + 0 = count (ref s p) q + (0 + delta p q) := by
  simp only [count, ref_map, ref_pins, ref_insts, ref_holds, List.countP_cons, delta, beq_iff_eq, hx]
  by_cases he : q = p
  · subst he; simp; omega
  · have : ¬ p = q := fun h => he h.symm
    simp [he, this]

theorem hold_below {s : St} (h : Below s) (p : Nat) (x : Hold) (hx : x.prog < s.next) :
    Below ({ ref s p with holds := x :: s.holds } : St) := by
  refine (ref_below h p).mono rfl rfl (ref_below h p).map (ref_below h p).pins (ref_below h p).insts ?_ (ref_below h p).clo
  intro y hy
  simp only [List.mem_cons] at hy
  rw [ref_next]
  rcases hy with hy | hy
  · rw [hy]; exact hx
  · exact h.holds y hy

theorem step_inv {s t : St} {l : Label} (h : Inv s) (hf : s.fault = false) (hs : step s l = some t) : Inv t := by
  obtain ⟨hg, hb⟩ := h
  cases l with
  | build who hsh =>
    simp only [step, Option.some.injEq] at hs
    subst hs
    refine ⟨alloc_good hg hb hf _ rfl rfl rfl ?_, ?_⟩
    · intro p
      simp only [count, List.countP_cons, delta, beq_iff_eq]
      by_cases he : p = s.next
      · subst he; simp; omega
      · have : ¬ s.next = p := fun h => he h.symm
        simp [he, this]
    · refine ⟨?_, ?_, ?_, ?_, ?_, alloc_clo hb⟩
      · intro x hx; have := hb.map x hx; simp only; omega
      · intro x hx; have := hb.pins x hx; simp only; omega
      · intro x hx; have := hb.insts x hx; simp only; omega
      · intro x hx
        simp only [List.mem_cons] at hx
        rcases hx with hx | hx
        · rw [hx]; simp
        · have := hb.holds x hx; simp only; omega
      · intro p hp; simp only at hp; exact hb.fails p (by omega)
  | load owner hsh =>
    simp only [step] at hs
    cases hm : s.map with
    | none => rw [hm] at hs; cases hs
    | some m =>
      rw [hm] at hs
      simp only at hs
      split at hs
      · cases hs
      · generalize ht : ({ s with
          next := s.next + 1, hashOf := upd s.hashOf s.next hsh, refs := upd s.refs s.next 1
          closed := upd s.closed s.next false, map := some ((hsh, s.next) :: m), known := (owner, hsh) :: s.known } : St) = u at hs
        have hu : Inv u := by
          subst ht
          refine ⟨alloc_good hg hb hf _ rfl rfl rfl ?_, ?_⟩
          · intro p
            simp only [count, List.countP_cons, delta, beq_iff_eq, Option.getD_some, hm]
            by_cases he : p = s.next
            · subst he; simp; omega
            · have : ¬ s.next = p := fun h => he h.symm
              simp [he, this]
          · refine ⟨?_, ?_, ?_, ?_, ?_, alloc_clo hb⟩
            · intro x hx
              simp only [Option.getD_some, List.mem_cons] at hx
              rcases hx with hx | hx
              · rw [hx]; simp
              · have := hb.map x (by rw [hm]; exact hx); simp only; omega
            · intro x hx; have := hb.pins x hx; simp only; omega
            · intro x hx; have := hb.insts x hx; simp only; omega
            · intro x hx; have := hb.holds x hx; simp only; omega
            · intro p hp; simp only at hp; exact hb.fails p (by omega)
        have hmem : (hsh, s.next) ∈ u.map.getD [] := by subst ht; simp
        have hpos := count_map_pos hmem
        have hlt := hu.below.map _ hmem
        cases owner with
        | none => simp only [Option.some.injEq] at hs; subst hs; exact hu
        | some w =>
          simp only [Option.some.injEq] at hs
          subst hs
          exact ⟨ensurePin_good hu.good (by omega), ensurePin_below hu.below _ _ hlt⟩
  | refHash who hsh =>
    simp only [step] at hs
    cases hl : lookup s hsh with
    | none => rw [hl] at hs; cases hs
    | some p =>
      rw [hl] at hs
      simp only at hs
      have hm := lookup_mem hl
      have hpos := count_map_pos hm
      split at hs
      · -- a closed program in the registry
        rename_i hc
        simp only [Option.some.injEq] at hs
        subst hs
        have hcl := hb.clo hf p (hb.map _ hm)
        rw [hc] at hcl
        have h0 : s.refs p = 0 := by simpa using hcl.symm
        refine ⟨⟨fun h => (by cases h), fun hz => ?_⟩, hb.mono rfl rfl hb.map hb.pins hb.insts hb.holds (fun h => by cases h)⟩
        have e1 := hg.1 hf p
        have e2 : s.fails p = 0 := hz p
        omega
      · simp only [Option.some.injEq] at hs
        subst hs
        exact ⟨(ref_good hg (p := p) (by omega)).congr rfl rfl rfl (hold_count s p _ rfl),
          hold_below hb p _ (hb.map _ hm)⟩
  | validate x =>
    simp only [step] at hs
    split at hs
    · rename_i hx
      simp only [Option.some.injEq] at hs
      subst hs
      refine ⟨Good.congr (swap_good (g := fun _ => 0) hg hx.1 (ys := [{ x with phase := .op }]) ?_) rfl rfl rfl (fun _ => rfl), ?_⟩
      · exact delta_single _ _ rfl
      · have := swap_below hb x [{ x with phase := .op }] (by intro y hy; simp only [List.mem_singleton] at hy; subst hy; exact hb.holds x hx.1)
        exact this.mono rfl rfl this.map this.pins this.insts this.holds this.clo
    · cases hs
  | refPinned w hsh =>
    simp only [step] at hs
    cases hl : lookup s hsh with
    | none => rw [hl] at hs; cases hs
    | some p =>
      rw [hl] at hs
      simp only at hs
      have hm := lookup_mem hl
      have hpos := count_map_pos hm
      split at hs
      · simp only [Option.some.injEq] at hs
        subst hs
        exact ⟨(ref_good hg (p := p) (by omega)).congr rfl rfl rfl (hold_count s p _ rfl),
          hold_below hb p _ (hb.map _ hm)⟩
      · cases hs
  | refInst w n =>
    simp only [step] at hs
    cases hl : findEntry s w n with
    | none => rw [hl] at hs; cases hs
    | some e =>
      rw [hl] at hs
      simp only [Option.some.injEq] at hs
      obtain ⟨hm, _, _⟩ := findEntry_mem hl
      have hpos := count_inst_pos hm
      subst hs
      exact ⟨(ref_good hg (p := e.prog) (by omega)).congr rfl rfl rfl (hold_count s e.prog _ rfl),
        hold_below hb e.prog _ (hb.insts _ hm)⟩
  | register x pin =>
    simp only [step] at hs
    split at hs
    · rename_i hx
      obtain ⟨hx, _, _⟩ := hx
      have h1 : Good (s.swap x []) (fun q => 0 + delta x.prog q) := swap_good hg hx (by intro q; simp)
      have h2 := merge_good (g := fun _ => 0) h1 (fun _ => rfl)
      have b1 := swap_below hb x [] (by simp)
      have b2 := merge_below b1 x.prog (hb.holds x hx)
      split at hs
      · simp only [Option.some.injEq] at hs
        subst hs
        exact ⟨h2.1, b2.1⟩
      · cases hs
      · rename_i w _
        simp only [Option.some.injEq] at hs
        subst hs
        obtain ⟨_, hm⟩ := h2.2
        have := count_map_pos hm
        exact ⟨ensurePin_good h2.1 (by omega), ensurePin_below b2.1 _ _ (by rw [b2.2.2]; exact b2.2.1)⟩
    · cases hs
  | registerInst x n pin =>
    simp only [step] at hs
    split at hs
    · rename_i hx
      obtain ⟨hx, _, _⟩ := hx
      have h1 : Good (s.swap x []) (fun q => 0 + delta x.prog q) := swap_good hg hx (by intro q; simp)
      have h2 := merge_good (g := fun _ => 0) h1 (fun _ => rfl)
      have b1 := swap_below hb x [] (by simp)
      have b2 := merge_below b1 x.prog (hb.holds x hx)
      obtain ⟨h2, h3⟩ := h2
      obtain ⟨b2, b3, b4⟩ := b2
      generalize merge (s.swap x []) x.prog = r at hs h2 h3 b2 b3 b4
      obtain ⟨u, p⟩ := r
      simp only at hs h2 h3 b2 b3 b4
      obtain ⟨y, hm⟩ := h3
      have hpos := count_map_pos hm
      split at hs
      · split at hs
        · cases hs
        · simp only [Option.some.injEq] at hs
          subst hs
          have hl := hold_below b2 p ⟨p, none, .launch, some s.nextInst⟩ (by simp only; rw [b4]; exact b3)
          exact ⟨(ref_good h2 (p := p) (by omega)).congr rfl rfl rfl (hold_count u p _ rfl),
            hl.mono rfl rfl hl.map hl.pins hl.insts hl.holds hl.clo⟩
      · rename_i w _
        split at hs
        · cases hs
        · simp only [Option.some.injEq] at hs
          generalize hv : (if pin then ensurePin u w p else u) = v at hs
          have hv1 : Inv v ∧ (y, p) ∈ v.map.getD [] ∧ v.next = u.next := by
            subst hv
            split
            · refine ⟨⟨ensurePin_good h2 (by omega), ensurePin_below b2 _ _ (by rw [b4]; exact b3)⟩, ?_, ?_⟩
              · unfold ensurePin; split
                · exact hm
                · simpa using hm
              · unfold ensurePin; split
                · rfl
                · simp
            · exact ⟨⟨h2, b2⟩, hm, rfl⟩
          obtain ⟨⟨g3, b5⟩, hm3, hn3⟩ := hv1
          have hpos3 := count_map_pos hm3
          have hpl : p < v.next := by rw [hn3, b4]; exact b3
          have g4 : Good ({ ref v p with insts := ⟨w, n, s.nextInst, p⟩ :: v.insts } : St) (fun _ => 0) := by
            refine (ref_good g3 (p := p) (by omega)).congr rfl rfl rfl ?_
            intro q
            simp only [count, ref_map, ref_pins, ref_insts, ref_holds, List.countP_cons, delta, beq_iff_eq]
            by_cases he : q = p
            · subst he; simp; omega
            · have : ¬ p = q := fun h => he h.symm
              simp [he, this]
          have b6 : Below ({ ref v p with insts := ⟨w, n, s.nextInst, p⟩ :: v.insts } : St) := by
            refine (ref_below b5 p).mono rfl rfl (ref_below b5 p).map (ref_below b5 p).pins ?_ (ref_below b5 p).holds (ref_below b5 p).clo
            intro e he
            simp only [List.mem_cons] at he
            rcases he with he | he
            · rw [he]; simpa using hpl
            · simpa using b5.insts e he
          have hm6 : (y, p) ∈ ({ ref v p with insts := ⟨w, n, s.nextInst, p⟩ :: v.insts } : St).map.getD [] := by simpa using hm3
          have hpl6 : p < ({ ref v p with insts := ⟨w, n, s.nextInst, p⟩ :: v.insts } : St).next := by simpa using hpl
          have hs' : t = { ref ({ ref v p with insts := ⟨w, n, s.nextInst, p⟩ :: v.insts } : St) p with
            nextInst := s.nextInst + 1, instOf := upd s.instOf s.nextInst (some (w, n))
            holds := ⟨p, some w, .launch, some s.nextInst⟩ ::
              ({ ref v p with insts := ⟨w, n, s.nextInst, p⟩ :: v.insts } : St).holds } := hs.symm
          clear hs
          generalize ({ ref v p with insts := ⟨w, n, s.nextInst, p⟩ :: v.insts } : St) = u4 at g4 b6 hm6 hpl6 hs'
          have hpos6 := count_map_pos hm6
          have hl := hold_below b6 p ⟨p, some w, .launch, some s.nextInst⟩ hpl6
          subst hs'
          exact ⟨(ref_good g4 (p := p) (by omega)).congr rfl rfl rfl (hold_count u4 p _ rfl),
            hl.mono rfl rfl hl.map hl.pins hl.insts hl.holds hl.clo⟩
    · cases hs
  | resume x =>
    simp only [step] at hs
    split at hs
    · rename_i hx
      simp only [Option.some.injEq] at hs
      subst hs
      refine ⟨swap_good (g := fun _ => 0) hg hx.1 ?_, ?_⟩
      · exact delta_single _ _ rfl
      · exact swap_below hb x _ (by intro y hy; simp only [List.mem_singleton] at hy; subst hy; exact hb.holds x hx.1)
    · cases hs
  | startRun x =>
    simp only [step] at hs
    split at hs
    · rename_i hx
      simp only [Option.some.injEq] at hs
      subst hs
      refine ⟨swap_good (g := fun _ => 0) hg hx.1 ?_, ?_⟩
      · exact delta_single _ _ rfl
      · exact swap_below hb x _ (by intro y hy; simp only [List.mem_singleton] at hy; subst hy; exact hb.holds x hx.1)
    · cases hs
  | startStored x =>
    simp only [step] at hs
    split at hs
    · rename_i hx
      simp only [Option.some.injEq] at hs
      subst hs
      have h1 : Good (s.swap x []) (fun q => 0 + delta x.prog q) := swap_good hg hx.1 (by intro q; simp)
      exact ⟨unref_good h1 (fun _ => rfl), unref_below (swap_below hb x [] (by simp)) _⟩
    · cases hs
  | startFail x =>
    simp only [step] at hs
    split at hs
    · rename_i hx
      split at hs
      · cases hs
      · rename_i i _
        simp only [Option.some.injEq] at hs
        have hd := deleteInst_good (i := i) hg
        have hdb := deleteInst_below hb i
        obtain ⟨e1, e2, e3⟩ := deleteInst_holds s i
        generalize deleteInst s i = u at hs hd hdb e1 e2 e3
        have hxu : x ∈ u.holds := by rw [e1]; exact hx.1
        subst hs
        refine ⟨⟨?_, ?_⟩, ?_⟩
        · intro hff q
          have := hd.1 hff q
          have c := countP_erase (fun y : Hold => y.prog == q) hxu
          simp only [count, St.swap, upd, List.countP_append, List.countP_cons, List.countP_nil] at this ⊢
          by_cases he : q = x.prog
          · subst he; simp at c ⊢; omega
          · have hne : ¬ x.prog = q := fun h => he h.symm
            simp [he, hne] at c ⊢
            omega
        · intro hz
          have := hz x.prog
          simp [upd] at this
        · have hy : ∀ y ∈ [({ x with phase := .op, inst := none } : Hold), { x with phase := .op, inst := none }], y.prog < u.next := by
            intro y hy
            simp only [List.mem_cons, List.not_mem_nil, or_false, or_self] at hy
            subst hy
            exact hdb.holds x hxu
          have hsb := swap_below hdb x _ hy
          refine ⟨hsb.map, hsb.pins, hsb.insts, hsb.holds, ?_, hsb.clo⟩
          intro p hp
          have hxl := hdb.holds x hxu
          have hp' : u.next ≤ p := hp
          simp only [upd]
          rw [if_neg (by omega)]
          exact hdb.fails p hp'
    · cases hs
  | release x =>
    simp only [step] at hs
    split at hs
    · rename_i hx
      simp only [Option.some.injEq] at hs
      subst hs
      have h1 : Good (s.swap x []) (fun q => 0 + delta x.prog q) := swap_good hg hx.1 (by intro q; simp)
      exact ⟨unref_good h1 (fun _ => rfl), unref_below (swap_below hb x [] (by simp)) _⟩
    · cases hs
  | driven x ne =>
    simp only [step] at hs
    split at hs
    · rename_i hx
      split at hs
      · cases hs
      · rename_i i _
        simp only [Option.some.injEq] at hs
        have hu : Inv (if ne then deleteInst s i else s) ∧ x ∈ (if ne then deleteInst s i else s).holds := by
          split
          · exact ⟨⟨deleteInst_good hg, deleteInst_below hb i⟩, by rw [(deleteInst_holds s i).1]; exact hx.1⟩
          · exact ⟨⟨hg, hb⟩, hx.1⟩
        generalize (if ne then deleteInst s i else s) = u at hs hu
        subst hs
        have h1 : Good (u.swap x []) (fun q => 0 + delta x.prog q) := swap_good hu.1.good hu.2 (by intro q; simp)
        exact ⟨unref_good h1 (fun _ => rfl), unref_below (swap_below hu.1.below x [] (by simp)) _⟩
    · cases hs
  | pin w hsh =>
    simp only [step] at hs
    cases hl : lookup s hsh with
    | none => rw [hl] at hs; cases hs
    | some p =>
      rw [hl] at hs
      simp only at hs
      have hm := lookup_mem hl
      have hpos := count_map_pos hm
      split at hs
      · simp only [Option.some.injEq] at hs
        subst hs
        exact ⟨ensurePin_good hg (by omega), ensurePin_below hb _ _ (hb.map _ hm)⟩
      · cases hs
  | unpin w hsh =>
    simp only [step] at hs
    cases hl : lookup s hsh with
    | none => rw [hl] at hs; cases hs
    | some p =>
      rw [hl] at hs
      simp only at hs
      split at hs
      · rename_i hx
        simp only [Option.some.injEq] at hs
        subst hs
        have h1 : Good ({ s with pins := s.pins.erase (w, p) } : St) (fun q => 0 + delta p q) := by
          refine hg.congr rfl rfl rfl ?_
          intro q
          have c := countP_erase (fun y : Nat × Nat => y.2 == q) hx
          simp only [count, delta]
          by_cases he : q = p
          · subst he; simp at c ⊢; omega
          · have hne : ¬ p = q := fun h => he h.symm
            simp [he, hne] at c ⊢
            omega
        have b1 : Below ({ s with pins := s.pins.erase (w, p) } : St) :=
          hb.mono rfl rfl hb.map (fun x hx => hb.pins x (List.mem_of_mem_erase hx)) hb.insts hb.holds hb.clo
        exact ⟨unref_good h1 (fun _ => rfl), unref_below b1 _⟩
      · cases hs
  | delete w i =>
    simp only [step] at hs
    split at hs
    · cases hs
    · split at hs
      · simp only [Option.some.injEq] at hs
        subst hs
        exact ⟨deleteInst_good hg, deleteInst_below hb i⟩
      · cases hs
  | shutdown =>
    simp only [step] at hs
    cases hm : s.map with
    | none => rw [hm] at hs; cases hs
    | some m =>
      rw [hm] at hs
      simp only [Option.some.injEq] at hs
      subst hs
      refine ⟨unrefs_good _ ?_, unrefs_below _ (hb.mono rfl rfl (by simp) (by simp) (by simp) hb.holds hb.clo)⟩
      refine hg.congr rfl rfl rfl ?_
      intro q
      simp only [count, hm, Option.getD_some, Option.getD_none, List.countP_nil, List.countP_append, List.countP_map]
      simp only [Function.comp_def]
      omega

/-! ### C43 -/

theorem init_inv : Inv init := by
  refine ⟨⟨fun _ p => (by simp [init, count]), fun _ => rfl⟩, ⟨?_, ?_, ?_, ?_, ?_, ?_⟩⟩ <;> simp [init]

theorem run_inv : ∀ (ls : List Label) {s t : St}, Inv s → run s ls = some t → Inv t := by
  intro ls
  induction ls with
  | nil => intro s t h hr; cases hr; exact h
  | cons l ls ih =>
    intro s t h hr
    simp only [run] at hr
    split at hr
    · cases hr
    · rename_i hf
      cases hs : step s l with
      | none => rw [hs] at hr; cases hr
      | some u =>
        rw [hs] at hr
        exact ih (step_inv h (by simpa using hf) hs) hr

@[simp] theorem merge_fails (s : St) (p) : (merge s p).1.fails = s.fails := by
  unfold merge
  split
  · rfl
  · split
    · split
      · rfl
      · simp
    · simp

@[simp] theorem ensurePin_fails (s : St) (w p) : (ensurePin s w p).fails = s.fails := by
  unfold ensurePin
  split <;> simp

@[simp] theorem deleteInst_fails (s : St) (i) : (deleteInst s i).fails = s.fails := (deleteInst_holds s i).2.2

@[simp] theorem swap_fails (s : St) (x ys) : (s.swap x ys).fails = s.fails := rfl

@[simp] theorem unrefs_fails (ps : List Nat) : ∀ s : St, (unrefs s ps).fails = s.fails := by
  induction ps with
  | nil => intro s; rfl
  | cons p ps ih => intro s; simp [unrefs, ih]

/-- A label is a failure to start an instance of program `p`. -/
def failOf (p : Nat) : Label → Bool
  | .startFail x => x.prog == p
  | _ => false

theorem step_fails {s t : St} {l : Label} (hs : step s l = some t) (p : Nat) :
    t.fails p = s.fails p + (if failOf p l then 1 else 0) := by
  cases l <;> simp only [step, failOf, Bool.false_eq_true, if_false, Nat.add_zero] at hs ⊢
  all_goals try (repeat' split at hs)
  all_goals first
    | (cases hs; done)
    | skip
  all_goals try (simp only [Option.some.injEq] at hs; subst hs)
  all_goals try (simp; done)
  all_goals try (split <;> simp; done)
  · -- the failure
    simp only [St.swap, upd, deleteInst_fails, beq_iff_eq]
    rename_i x _ _ _ _
    by_cases he : p = x.prog
    · subst he; simp
    · have : ¬ x.prog = p := fun h => he h.symm
      simp [he, this]

theorem run_fails (p : Nat) : ∀ (ls : List Label) {s t : St}, run s ls = some t → t.fails p = s.fails p + ls.countP (failOf p) := by
  intro ls
  induction ls with
  | nil => intro s t hr; cases hr; simp
  | cons l ls ih =>
    intro s t hr
    simp only [run] at hr
    split at hr
    · cases hr
    · cases hs : step s l with
      | none => rw [hs] at hr; cases hr
      | some u =>
        rw [hs] at hr
        rw [ih hr, step_fails hs p, List.countP_cons]
        omega

/-- C43, exactly what holds in every history: unless an operation has crashed, a program's
reference count plus the number of failed starts of its instances is the number of references
to it (by the registry, by accounts, by instances and by operations in progress); and its
image is closed exactly if the count is 0. -/
theorem references (ls : List Label) (s : St) (h : run init ls = some s) (hf : s.fault = false) (p : Nat) :
    s.refs p + ls.countP (failOf p) = count s p ∧ (p < s.next → (s.closed p = true ↔ s.refs p = 0)) := by
  have hi := run_inv ls init_inv h
  have hn := run_fails p ls h
  have hb := hi.good.1 hf p
  simp only [Nat.add_zero] at hb
  refine ⟨?_, ?_⟩
  · rw [show init.fails p = 0 from rfl] at hn
    omega
  · intro hp
    rw [hi.below.clo hf p hp]
    simp

/-- C43 for the histories in which every instance which is launched or resumed can be started:
no operation crashes, and a program is closed exactly when nothing refers to it. -/
theorem references_partial (ls : List Label) (s : St) (h : run init ls = some s) (hn : ∀ p, ls.countP (failOf p) = 0) :
    s.fault = false ∧ ∀ p, s.refs p = count s p ∧ (p < s.next → (s.closed p = true ↔ count s p = 0)) := by
  have hi := run_inv ls init_inv h
  have hf : s.fault = false := hi.good.2 fun p => by rw [run_fails p ls h, hn p]; rfl
  refine ⟨hf, fun p => ?_⟩
  obtain ⟨h1, h2⟩ := references ls s h hf p
  rw [hn p] at h1
  refine ⟨by omega, fun hp => ?_⟩
  rw [h2 hp]
  omega

/-- C43 is false after a start has failed, in every history: the program is closed while there
are still as many references to it as there were failures. -/
theorem closed_while_referenced (ls : List Label) (s : St) (h : run init ls = some s) (hf : s.fault = false) (p : Nat)
    (hp : p < s.next) (hc : s.closed p = true) : count s p = ls.countP (failOf p) := by
  obtain ⟨h1, h2⟩ := references ls s h hf p
  have := (h2 hp).mp hc
  omega

/-- Principal 1 uploads a module and launches an instance which cannot be started. -/
def failedStart : List Label :=
  let a : Hold := ⟨0, some 1, .op, none⟩
  [.build (some 1) 7, .registerInst a 5 false, .startFail ⟨0, some 1, .launch, some 0⟩, .release a, .release a]

/-- After that the module is in the registry with its image closed, and the next upload of the
same module by anybody crashes. -/
theorem failed_start_breaks_module : ∃ s, run init failedStart = some s ∧ s.fault = false ∧
    lookup s 7 = some 0 ∧ s.closed 0 = true ∧ ∃ t, step s (.refHash (some 2) 7) = some t ∧ t.fault = true :=
  ⟨_, rfl, by decide, by decide, by decide, _, rfl, rfl⟩

/-- A history in which nothing fails: upload with pin, launch, run, stop, delete, unpin. -/
def goodHistory : List Label :=
  let a : Hold := ⟨0, some 1, .op, none⟩
  [.build (some 1) 7, .registerInst a 5 true, .startRun ⟨0, some 1, .launch, some 0⟩, .refHash (some 2) 7,
    .driven ⟨0, some 1, .drive, some 0⟩ false, .delete 1 0, .unpin 1 7]

example : ∃ s, run init goodHistory = some s ∧ (∀ p, goodHistory.countP (failOf p) = 0) ∧ s.refs 0 = 2 ∧ count s 0 = 2 :=
  ⟨_, rfl, fun _ => rfl, by decide, by decide⟩

end Gate.Server
