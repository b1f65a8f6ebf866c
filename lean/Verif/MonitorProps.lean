import Verif.Monitor
/-
C114: the event monitor. Model: Monitor.lean.
-/
namespace Gate.Monitor

@[simp] theorem set_same {α : Type} (f : Nat → α) (k : Nat) (v : α) : set f k v k = v := if_pos rfl
theorem set_other {α : Type} (f : Nat → α) (k : Nat) (v : α) (k' : Nat) (h : k' ≠ k) : set f k v k' = f k' := if_neg h

theorem ite01 (p q : Prop) [Decidable p] [Decidable q] (h : p ↔ q) : (if p then 1 else 0) = (if q then 1 else (0 : Nat)) := by
  by_cases hp : p
  · rw [if_pos hp, if_pos (h.mp hp)]
  · rw [if_neg hp, if_neg (fun hq => hp (h.mpr hq))]

/-! ### Specification -/

/-- Everything that a subscriber's channel has been given: what it has received, and what it may still receive. -/
def given (x : Sub) : List Item := x.got ++ x.buf

/-- Whether a subscriber is still to be given the item at hand (or won't be, because it was killed). -/
def owed (l : Loop) (s : Nat) : Nat :=
  match l with
  | .delivering _ rest cur killed => if s ∈ rest ∨ cur = some s ∨ s ∈ killed then 1 else 0
  | _ => 0

/-- The loop is at an item: it's the one taken last; the subscribers which it has yet to serve, serves, and has killed, are different ones. -/
def LoopOk (t : St) : Prop :=
  match t.loop with
  | .delivering j rest cur killed => (∃ l : List Item, t.taken = l ++ [j]) ∧ (rest ++ cur.toList ++ killed).Nodup ∧ (∀ s : Nat, s ∈ rest ∨ cur = some s ∨ s ∈ killed → s ∈ t.subs)
  | .answering s => s ∈ t.subs
  | _ => True

structure Good (t : St) : Prop where
  fifo : t.pushed = t.taken ++ t.items
  bound : t.items.length ≤ t.cap
  subsNodup : t.subs.Nodup
  live : ∀ s ∈ t.subs, (t.sub s).ever = true ∧ (t.sub s).closed = false
  fresh : ∀ s, (t.sub s).ever = false → (t.sub s).got = [] ∧ (t.sub s).buf = [] ∧ (t.sub s).closed = false ∧ (t.sub s).since = 0
  since : ∀ s, (t.sub s).since ≤ t.taken.length
  pre : ∀ s, given (t.sub s) <+: t.taken.drop (t.sub s).since
  exact : t.loop ≠ .crashed → ∀ s ∈ t.subs, (t.sub s).since + (given (t.sub s)).length + owed t.loop s = t.taken.length
  unbuf : ∀ s, (t.sub s).cap = 0 → (t.sub s).buf = []
  loopOk : LoopOk t

theorem good_new (bufSize : Nat) (caps : Nat → Nat) : Good (new bufSize caps) := by
  refine ⟨rfl, Nat.zero_le _, List.nodup_nil, ?_, ?_, ?_, ?_, ?_, fun _ _ => rfl, trivial⟩
  · intro s h; cases h
  · intro s _; exact ⟨rfl, rfl, rfl, rfl⟩
  · intro s; exact Nat.zero_le _
  · intro s; exact List.nil_prefix
  · intro _ s h; cases h

theorem prefix_drop_append (g l : List Item) (i : Item) (n : Nat) (hn : n ≤ l.length) (h : g <+: l.drop n) : g <+: (l ++ [i]).drop n := by
  rw [List.drop_append_of_le_length hn]
  exact h.trans (List.prefix_append _ _)

/-- A prefix which is one short of the whole, with the last element appended. -/
theorem prefix_complete (g l' : List Item) (j : Item) (n : Nat) (hn : n + g.length + 1 = (l' ++ [j]).length) (h : g <+: (l' ++ [j]).drop n) :
    g ++ [j] = (l' ++ [j]).drop n := by
  have hl : n ≤ l'.length := by simp at hn; omega
  rw [List.drop_append_of_le_length hl] at h ⊢
  have hg : g.length = (l'.drop n).length := by simp at hn ⊢; omega
  have : g = l'.drop n := by
    have := List.prefix_iff_eq_take.mp h
    rw [hg, List.take_left'] at this
    · exact this
    · rfl
  rw [this]

theorem given_put (x : Sub) (i : Item) (h : x.cap = 0 → x.buf = []) : given (put x i) = given x ++ [i] := by
  unfold put given
  split
  · rename_i hc; simp [h hc]
  · simp

theorem put_fields (x : Sub) (i : Item) : (put x i).ever = x.ever ∧ (put x i).closed = x.closed ∧ (put x i).since = x.since ∧ (put x i).cap = x.cap := by
  unfold put; split <;> exact ⟨rfl, rfl, rfl, rfl⟩

theorem put_unbuf (x : Sub) (i : Item) (h : x.cap = 0 → x.buf = []) : (put x i).cap = 0 → (put x i).buf = [] := by
  unfold put
  split
  · exact h
  · intro h'; rename_i hc; exact absurd h' hc

theorem closeAll_fields (f : Nat → Sub) (l : List Nat) (s : Nat) :
    (closeAll f l s).ever = (f s).ever ∧ given (closeAll f l s) = given (f s) ∧ (closeAll f l s).since = (f s).since ∧ (closeAll f l s).cap = (f s).cap ∧ (closeAll f l s).buf = (f s).buf ∧ (closeAll f l s).got = (f s).got ∧ (closeAll f l s).left = (f s).left := by
  unfold closeAll; split <;> exact ⟨rfl, rfl, rfl, rfl, rfl, rfl, rfl⟩

theorem closeAll_closed (f : Nat → Sub) (l : List Nat) (s : Nat) : (closeAll f l s).closed = true ↔ s ∈ l ∨ (f s).closed = true := by
  unfold closeAll; split
  · rename_i h; simp [h]
  · rename_i h; simp [h]

theorem owed_not (l : Loop) (h : ∀ j rest cur killed, l ≠ .delivering j rest cur killed) (s : Nat) : owed l s = 0 := by
  unfold owed; split
  · rename_i heq; exact absurd rfl (h _ _ _ _)
  · rfl

/-- A change of a subscriber which keeps what matters here. -/
theorem good_sub (t : St) (g : Good t) (f : Nat → Sub)
    (h : ∀ s, (f s).ever = (t.sub s).ever ∧ (f s).closed = (t.sub s).closed ∧ (f s).since = (t.sub s).since ∧ (f s).cap = (t.sub s).cap ∧ given (f s) = given (t.sub s) ∧ ((t.sub s).buf = [] → (f s).buf = [] ∧ (f s).got = (t.sub s).got)) :
    Good { t with sub := f } := by
  refine ⟨g.fifo, g.bound, g.subsNodup, ?_, ?_, ?_, ?_, ?_, ?_, ?_⟩
  · intro s hs; rw [(h s).1, (h s).2.1]; exact g.live s hs
  · intro s hs
    have hs' := (h s).1 ▸ hs
    obtain ⟨a, b, c, d⟩ := g.fresh s hs'
    have := (h s).2.2.2.2.2 b
    exact ⟨this.2.trans a, this.1, (h s).2.1.trans c, (h s).2.2.1.trans d⟩
  · intro s; rw [show ({ t with sub := f } : St).sub s = f s from rfl, (h s).2.2.1]; exact g.since s
  · intro s; rw [show ({ t with sub := f } : St).sub s = f s from rfl, (h s).2.2.1, (h s).2.2.2.2.1]; exact g.pre s
  · intro hc s hs; rw [show ({ t with sub := f } : St).sub s = f s from rfl, (h s).2.2.1, (h s).2.2.2.2.1]; exact g.exact hc s hs
  · intro s hc; exact ((h s).2.2.2.2.2 (g.unbuf s ((h s).2.2.2.1 ▸ hc))).1
  · exact g.loopOk

theorem good_step (t u : St) (l : Label) (hst : Step t l u) (g : Good t) : Good u := by
  cases hst with
  | enter p i _ _ => exact ⟨g.fifo, g.bound, g.subsNodup, g.live, g.fresh, g.since, g.pre, g.exact, g.unbuf, g.loopOk⟩
  | full p i _ _ _ => exact ⟨g.fifo, g.bound, g.subsNodup, g.live, g.fresh, g.since, g.pre, g.exact, g.unbuf, g.loopOk⟩
  | giveUp p i _ _ _ => exact ⟨g.fifo, g.bound, g.subsNodup, g.live, g.fresh, g.since, g.pre, g.exact, g.unbuf, g.loopOk⟩
  | stop _ => exact ⟨g.fifo, g.bound, g.subsNodup, g.live, g.fresh, g.since, g.pre, g.exact, g.unbuf, g.loopOk⟩
  | send p i _ _ hr =>
    refine ⟨?_, ?_, g.subsNodup, g.live, g.fresh, g.since, g.pre, g.exact, g.unbuf, g.loopOk⟩
    · simp only; rw [g.fifo, List.append_assoc]
    · simp; omega
  | send2 p i _ _ hr =>
    refine ⟨?_, ?_, g.subsNodup, g.live, g.fresh, g.since, g.pre, g.exact, g.unbuf, g.loopOk⟩
    · simp only; rw [g.fifo, List.append_assoc]
    · simp; omega
  | kill p i j rest s killed hp hl =>
    have lo := g.loopOk
    unfold LoopOk at lo; rw [hl] at lo; simp only at lo
    refine ⟨g.fifo, g.bound, g.subsNodup, g.live, g.fresh, g.since, g.pre, ?_, g.unbuf, ?_⟩
    · intro _ s' hs'
      have := g.exact (by rw [hl]; simp) s' hs'
      rw [hl] at this
      simp only [owed] at this ⊢
      have e : (s' ∈ rest ∨ (none : Option Nat) = some s' ∨ s' ∈ killed ++ [s]) ↔ (s' ∈ rest ∨ some s = some s' ∨ s' ∈ killed) := by
        simp only [List.mem_append, List.mem_singleton, Option.some.injEq, reduceCtorEq, false_or]
        constructor
        · rintro (h | h | h) <;> simp [h]
        · rintro (h | h | h) <;> simp [h]
      rw [ite01 _ _ e]; exact this
    · refine ⟨lo.1, ?_, ?_⟩
      · have := lo.2.1
        simp only [Option.toList, List.append_nil] at this ⊢
        rw [List.append_assoc] at this
        rw [List.nodup_append] at this ⊢
        obtain ⟨a, b, c⟩ := this
        refine ⟨a, ?_, ?_⟩
        · rw [List.nodup_append] at b ⊢
          obtain ⟨b1, b2, b3⟩ := b
          refine ⟨b2, by simp, ?_⟩
          intro x hx y hy h
          exact b3 y hy x hx h.symm
        · intro x hx y hy
          apply c x hx y
          simp only [List.mem_append] at hy ⊢
          exact hy.symm
      · rintro s' (h | h | h)
        · exact lo.2.2 s' (Or.inl h)
        · cases h
        · rw [List.mem_append, List.mem_singleton] at h
          rcases h with h | h
          · exact lo.2.2 s' (Or.inr (Or.inr h))
          · subst h; exact lo.2.2 s' (Or.inr (Or.inl rfl))
  | take i l c hl hi hc =>
    refine ⟨?_, ?_, g.subsNodup, g.live, g.fresh, ?_, ?_, ?_, g.unbuf, ?_⟩
    · simp only; rw [g.fifo, hi]; simp
    · have := g.bound; rw [hi] at this; simp at this ⊢; omega
    · intro s; have := g.since s; simp; omega
    · intro s; exact prefix_drop_append _ _ _ _ (g.since s) (g.pre s)
    · intro _ s hs
      have := g.exact (by rw [hl]; simp) s hs
      rw [hl] at this
      simp only [owed] at this ⊢
      rw [if_pos (Or.inl hs)]; simp; omega
    · refine ⟨⟨_, rfl⟩, ?_, ?_⟩
      · simpa using g.subsNodup
      · rintro s (h | h | h)
        · exact h
        · cases h
        · cases h
  | takeCrash i l hl hi hc =>
    refine ⟨?_, ?_, g.subsNodup, g.live, g.fresh, ?_, ?_, ?_, g.unbuf, trivial⟩
    · simp only; rw [g.fifo, hi]; simp
    · have := g.bound; rw [hi] at this; simp at this ⊢; omega
    · intro s; have := g.since s; simp; omega
    · intro s; exact prefix_drop_append _ _ _ _ (g.since s) (g.pre s)
    · intro h; exact absurd rfl h
  | pick j rest killed s hl hs =>
    have lo := g.loopOk
    unfold LoopOk at lo; rw [hl] at lo; simp only [Option.toList, List.append_nil] at lo
    have hnd : rest.Nodup := (List.nodup_append.mp lo.2.1).1
    have hm : ∀ x, x ∈ rest.erase s ↔ x ≠ s ∧ x ∈ rest := fun x => hnd.mem_erase_iff
    refine ⟨g.fifo, g.bound, g.subsNodup, g.live, g.fresh, g.since, g.pre, ?_, g.unbuf, ?_⟩
    · intro _ s' hs'
      have := g.exact (by rw [hl]; simp) s' hs'
      rw [hl] at this
      simp only [owed] at this ⊢
      have e : (s' ∈ rest.erase s ∨ some s = some s' ∨ s' ∈ killed) ↔ (s' ∈ rest ∨ (none : Option Nat) = some s' ∨ s' ∈ killed) := by
        rw [hm]
        simp only [Option.some.injEq, reduceCtorEq, false_or]
        constructor
        · rintro (⟨_, h⟩ | h | h)
          · exact Or.inl h
          · exact Or.inl (h ▸ hs)
          · exact Or.inr h
        · rintro (h | h)
          · by_cases e : s' = s
            · exact Or.inr (Or.inl e.symm)
            · exact Or.inl ⟨e, h⟩
          · exact Or.inr (Or.inr h)
      rw [ite01 _ _ e]; exact this
    · refine ⟨lo.1, ?_, ?_⟩
      · simp only [Option.toList]
        obtain ⟨a, b, c⟩ := List.nodup_append.mp lo.2.1
        rw [List.nodup_append]
        refine ⟨?_, b, ?_⟩
        · rw [List.nodup_append]
          refine ⟨hnd.erase s, by simp, ?_⟩
          intro x hx y hy
          rw [List.mem_singleton] at hy; subst hy
          exact ((hm x).mp hx).1
        · intro x hx y hy
          rw [List.mem_append, List.mem_singleton] at hx
          rcases hx with hx | hx
          · exact c x ((hm x).mp hx).2 y hy
          · exact c x (hx ▸ hs) y hy
      · rintro s' (h | h | h)
        · exact lo.2.2 s' (Or.inl ((hm s').mp h).2)
        · cases h; exact lo.2.2 s (Or.inl hs)
        · exact lo.2.2 s' (Or.inr (Or.inr h))
  | deliver j rest killed s hl hp =>
    have lo := g.loopOk
    unfold LoopOk at lo; rw [hl] at lo; simp only [Option.toList] at lo
    have hs : s ∈ t.subs := lo.2.2 s (Or.inr (Or.inl rfl))
    obtain ⟨l', hl'⟩ := lo.1
    have hex := g.exact (by rw [hl]; simp) s hs
    rw [hl] at hex
    simp only [owed] at hex
    rw [if_pos (by simp)] at hex
    have hpf := put_fields (t.sub s) j
    have hgv := given_put (t.sub s) j (g.unbuf s)
    have hcomp : given (t.sub s) ++ [j] = t.taken.drop (t.sub s).since := by
      rw [hl']
      refine prefix_complete _ _ _ _ ?_ ?_
      · rw [← hl']; omega
      · rw [← hl']; exact g.pre s
    refine ⟨g.fifo, g.bound, g.subsNodup, ?_, ?_, ?_, ?_, ?_, ?_, ?_⟩
    · intro s' hs'
      by_cases e : s' = s
      · subst e; simp only [set_same]; rw [hpf.1, hpf.2.1]; exact g.live s' hs'
      · simp only [set_other _ _ _ _ e]; exact g.live s' hs'
    · intro s'
      by_cases e : s' = s
      · subst e; simp only [set_same]; rw [hpf.1]; intro h; rw [(g.live s' hs).1] at h; cases h
      · simp only [set_other _ _ _ _ e]; exact g.fresh s'
    · intro s'
      by_cases e : s' = s
      · subst e; simp only [set_same]; rw [hpf.2.2.1]; exact g.since s'
      · simp only [set_other _ _ _ _ e]; exact g.since s'
    · intro s'
      by_cases e : s' = s
      · subst e; simp only [set_same]; rw [hpf.2.2.1, hgv, hcomp]
        exact List.prefix_rfl
      · simp only [set_other _ _ _ _ e]; exact g.pre s'
    · intro _ s' hs'
      by_cases e : s' = s
      · subst e; simp only [set_same]; rw [hpf.2.2.1, hgv]
        simp only [owed]
        have hn : ¬ (s' ∈ rest ∨ (none : Option Nat) = some s' ∨ s' ∈ killed) := by
          rintro (h | h | h)
          · obtain ⟨a, b, c⟩ := List.nodup_append.mp lo.2.1
            obtain ⟨a1, a2, a3⟩ := List.nodup_append.mp a
            exact a3 s' h s' (by simp) rfl
          · cases h
          · obtain ⟨a, b, c⟩ := List.nodup_append.mp lo.2.1
            exact c s' (by simp) s' h rfl
        rw [if_neg hn, List.length_append, List.length_singleton]; omega
      · simp only [set_other _ _ _ _ e]
        have := g.exact (by rw [hl]; simp) s' hs'
        rw [hl] at this
        simp only [owed] at this ⊢
        have e' : (s' ∈ rest ∨ some s = some s' ∨ s' ∈ killed) ↔ (s' ∈ rest ∨ (none : Option Nat) = some s' ∨ s' ∈ killed) := by
          simp only [Option.some.injEq, reduceCtorEq, false_or, Ne.symm e]
        rw [ite01 _ _ e'] at this; exact this
    · intro s'
      by_cases e : s' = s
      · subst e; simp only [set_same]; exact put_unbuf _ _ (g.unbuf s')
      · simp only [set_other _ _ _ _ e]; exact g.unbuf s'
    · refine ⟨lo.1, ?_, ?_⟩
      · simp only [Option.toList, List.append_nil]
        obtain ⟨a, b, c⟩ := List.nodup_append.mp lo.2.1
        obtain ⟨a1, a2, a3⟩ := List.nodup_append.mp a
        rw [List.nodup_append]
        exact ⟨a1, b, fun x hx y hy => c x (by simp [hx]) y hy⟩
      · rintro s' (h | h | h)
        · exact lo.2.2 s' (Or.inl h)
        · cases h
        · exact lo.2.2 s' (Or.inr (Or.inr h))
  | finish j killed hl =>
    refine ⟨g.fifo, g.bound, g.subsNodup.filter _, ?_, ?_, ?_, ?_, ?_, ?_, trivial⟩
    · intro s hs
      simp only [List.mem_filter, decide_eq_true_eq] at hs
      have := g.live s hs.1
      refine ⟨(closeAll_fields t.sub killed s).1.trans this.1, ?_⟩
      cases hc : (closeAll t.sub killed s).closed with
      | false => rfl
      | true =>
        rcases (closeAll_closed _ _ _).mp hc with h | h
        · exact absurd h hs.2
        · rw [this.2] at h; cases h
    · intro s hs
      have f := closeAll_fields t.sub killed s
      have hs' := f.1 ▸ hs
      obtain ⟨a, b, c, d⟩ := g.fresh s hs'
      refine ⟨f.2.2.2.2.2.1.trans a, f.2.2.2.2.1.trans b, ?_, f.2.2.1.trans d⟩
      cases hc : (closeAll t.sub killed s).closed with
      | false => rfl
      | true =>
        rcases (closeAll_closed _ _ _).mp hc with h | h
        · have lo := g.loopOk
          unfold LoopOk at lo; rw [hl] at lo
          have := (g.live s (lo.2.2 s (Or.inr (Or.inr h)))).1
          rw [hs'] at this; cases this
        · rw [c] at h; cases h
    · intro s; simp only; rw [(closeAll_fields t.sub killed s).2.2.1]; exact g.since s
    · intro s; simp only; rw [(closeAll_fields t.sub killed s).2.2.1, (closeAll_fields t.sub killed s).2.1]; exact g.pre s
    · intro _ s hs
      simp only [List.mem_filter, decide_eq_true_eq] at hs
      simp only; rw [(closeAll_fields t.sub killed s).2.2.1, (closeAll_fields t.sub killed s).2.1]
      have := g.exact (by rw [hl]; simp) s hs.1
      rw [hl] at this
      simp only [owed] at this ⊢
      rw [if_neg (by simp [hs.2])] at this
      exact this
    · intro s; simp only; rw [(closeAll_fields t.sub killed s).2.2.2.1, (closeAll_fields t.sub killed s).2.2.2.2.1]; exact g.unbuf s
  | subscribe s hl he =>
    obtain ⟨a, b, c, d⟩ := g.fresh s he
    have hns : s ∉ t.subs := fun h => by rw [(g.live s h).1] at he; cases he
    refine ⟨g.fifo, g.bound, ?_, ?_, ?_, ?_, ?_, ?_, ?_, ?_⟩
    · simp only [List.nodup_append]
      refine ⟨g.subsNodup, by simp, ?_⟩
      intro x hx y hy e; rw [List.mem_singleton] at hy; subst hy; subst e; exact hns hx
    · intro s' hs'
      by_cases e : s' = s
      · subst e; simp only [set_same]; exact ⟨trivial, c⟩
      · simp only [set_other _ _ _ _ e]
        simp only [List.mem_append, List.mem_singleton, e, or_false] at hs'
        exact g.live s' hs'
    · intro s'
      by_cases e : s' = s
      · subst e; simp only [set_same]; intro h; cases h
      · simp only [set_other _ _ _ _ e]; exact g.fresh s'
    · intro s'
      by_cases e : s' = s
      · subst e; simp only [set_same]; exact Nat.le_refl _
      · simp only [set_other _ _ _ _ e]; exact g.since s'
    · intro s'
      by_cases e : s' = s
      · subst e; simp only [set_same, given]; rw [a, b]; exact List.nil_prefix
      · simp only [set_other _ _ _ _ e]; exact g.pre s'
    · intro _ s' hs'
      by_cases e : s' = s
      · subst e; simp only [set_same, given, owed]; rw [a, b]; rfl
      · simp only [set_other _ _ _ _ e]
        simp only [List.mem_append, List.mem_singleton, e, or_false] at hs'
        have := g.exact (by rw [hl]; simp) s' hs'
        rw [hl] at this
        exact this
    · intro s'
      by_cases e : s' = s
      · subst e; simp only [set_same]; intro _; exact b
      · simp only [set_other _ _ _ _ e]; exact g.unbuf s'
    · show s ∈ t.subs ++ [s]; simp
  | answer s hl hg =>
    refine ⟨g.fifo, g.bound, g.subsNodup, g.live, g.fresh, g.since, g.pre, ?_, g.unbuf, trivial⟩
    intro _ s' hs'
    have := g.exact (by rw [hl]; simp) s' hs'
    rw [hl] at this
    exact this
  | cancel s hl =>
    refine good_sub t g _ (fun s' => ?_)
    by_cases e : s' = s
    · subst e; simp only [set_same]; exact ⟨trivial, trivial, trivial, trivial, rfl, fun h => ⟨h, trivial⟩⟩
    · simp only [set_other _ _ _ _ e]; exact ⟨trivial, trivial, trivial, trivial, trivial, fun h => ⟨h, trivial⟩⟩
  | recv s i l _ hb =>
    refine good_sub t g _ (fun s' => ?_)
    by_cases e : s' = s
    · subst e; simp only [set_same]
      refine ⟨trivial, trivial, trivial, trivial, ?_, fun h => ?_⟩
      · unfold given; simp only; rw [hb]; simp
      · rw [hb] at h; cases h
    · simp only [set_other _ _ _ _ e]; exact ⟨trivial, trivial, trivial, trivial, trivial, fun h => ⟨h, trivial⟩⟩
  | unsub s hl he hle hc =>
    refine ⟨g.fifo, g.bound, g.subsNodup.filter _, ?_, ?_, ?_, ?_, ?_, ?_, ?_⟩
    · intro s' hs'
      simp only [List.mem_filter, decide_eq_true_eq] at hs'
      simp only [set_other _ _ _ _ hs'.2]; exact g.live s' hs'.1
    · intro s'
      by_cases e : s' = s
      · subst e; simp only [set_same]; intro h; rw [he] at h; cases h
      · simp only [set_other _ _ _ _ e]; exact g.fresh s'
    · intro s'
      by_cases e : s' = s
      · subst e; simp only [set_same]; exact g.since s'
      · simp only [set_other _ _ _ _ e]; exact g.since s'
    · intro s'
      by_cases e : s' = s
      · subst e; simp only [set_same]; exact g.pre s'
      · simp only [set_other _ _ _ _ e]; exact g.pre s'
    · intro hcr s' hs'
      simp only [List.mem_filter, decide_eq_true_eq] at hs'
      simp only [set_other _ _ _ _ hs'.2]; exact g.exact hcr s' hs'.1
    · intro s'
      by_cases e : s' = s
      · subst e; simp only [set_same]; exact g.unbuf s'
      · simp only [set_other _ _ _ _ e]; exact g.unbuf s'
    · unfold LoopOk; simp only; rw [hl]; trivial
  | unsubCrash s hl he hle hc =>
    exact ⟨g.fifo, g.bound, g.subsNodup, g.live, g.fresh, g.since, g.pre, fun h => absurd rfl h, g.unbuf, trivial⟩
  | unsubClosed s _ hle hc hb =>
    refine good_sub t g _ (fun s' => ?_)
    by_cases e : s' = s
    · subst e; simp only [set_same]; exact ⟨trivial, trivial, trivial, trivial, rfl, fun h => ⟨h, trivial⟩⟩
    · simp only [set_other _ _ _ _ e]; exact ⟨trivial, trivial, trivial, trivial, trivial, fun h => ⟨h, trivial⟩⟩
  | unsubCancel s _ hle hc =>
    refine good_sub t g _ (fun s' => ?_)
    by_cases e : s' = s
    · subst e; simp only [set_same]; exact ⟨trivial, trivial, trivial, trivial, rfl, fun h => ⟨h, trivial⟩⟩
    · simp only [set_other _ _ _ _ e]; exact ⟨trivial, trivial, trivial, trivial, trivial, fun h => ⟨h, trivial⟩⟩
  | exit hl hd =>
    refine ⟨g.fifo, g.bound, g.subsNodup, g.live, g.fresh, g.since, g.pre, ?_, g.unbuf, trivial⟩
    intro _ s' hs'
    have := g.exact (by rw [hl]; simp) s' hs'
    rw [hl] at this
    exact this

theorem steps_preserve (P : St → Prop) (hP : ∀ t u l, Step t l u → P t → P u) {t u : St} {ls : List Label} (h : Steps t ls u) (ht : P t) : P u := by
  induction h with
  | nil => exact ht
  | cons hs _ ih => exact ih (hP _ _ _ hs ht)

theorem good (bufSize : Nat) (caps : Nat → Nat) (t : St) (h : Reachable bufSize caps t) : Good t := by
  obtain ⟨ls, h⟩ := h
  exact steps_preserve Good (fun t u l => good_step t u l) h (good_new _ _)

/-! ### What subscribers get -/

/-- C114: events go through the monitor in the order in which they were given to it; none is lost or made up, and no more are buffered than was configured. -/
theorem events_fifo (bufSize : Nat) (caps : Nat → Nat) (t : St) (h : Reachable bufSize caps t) : t.pushed = t.taken ++ t.items ∧ t.items.length ≤ t.cap :=
  ⟨(good _ _ t h).fifo, (good _ _ t h).bound⟩

/-- C114: at every moment, what a subscriber has been given is the beginning of what the monitor has taken since the subscription: nothing is skipped, repeated or reordered, also if the subscriber was killed. -/
theorem given_prefix (bufSize : Nat) (caps : Nat → Nat) (t : St) (h : Reachable bufSize caps t) (s : Nat) :
    given (t.sub s) <+: t.taken.drop (t.sub s).since := (good _ _ t h).pre s

/-- C114: a subscriber which hasn't been removed has been given every event since its subscription, whenever the monitor isn't in the middle of delivering. -/
theorem given_all (bufSize : Nat) (caps : Nat → Nat) (t : St) (h : Reachable bufSize caps t) (hl : t.loop = .idle) (s : Nat) (hs : s ∈ t.subs) :
    given (t.sub s) = t.taken.drop (t.sub s).since := by
  have g := good _ _ t h
  have hp := g.pre s
  have he := g.exact (by rw [hl]; simp) s hs
  rw [hl] at he
  simp only [owed] at he
  exact hp.eq_of_length (by rw [List.length_drop]; omega)

/-- C114: and its channel is open; a closed channel belongs to no subscriber. -/
theorem subscribed_open (bufSize : Nat) (caps : Nat → Nat) (t : St) (h : Reachable bufSize caps t) (s : Nat) (hs : s ∈ t.subs) : (t.sub s).closed = false :=
  ((good _ _ t h).live s hs).2

/-! ### Subscribers aren't killed without need -/

/-- As long as no call has found the buffer full: no call waits, and no subscriber has been killed. -/
structure Calm (t : St) : Prop where
  calls : ∀ p i, t.call p ≠ .wantKill i ∧ t.call p ≠ .wantSend i
  killed : ∀ j rest cur k, t.loop = .delivering j rest cur k → k = []
  closed : ∀ s, (t.sub s).closed = true → (t.sub s).left = true

theorem calm_step (t u : St) (l : Label) (hst : Step t l u) (g : t.everFull = false → Calm t) : u.everFull = false → Calm u := by
  have key : ∀ (p : Nat) (c : Call) (x : Nat) (i : Item), (∀ j, c ≠ .wantKill j ∧ c ≠ .wantSend j) → (t.call x ≠ .wantKill i ∧ t.call x ≠ .wantSend i) → (set t.call p c x ≠ .wantKill i ∧ set t.call p c x ≠ .wantSend i) := by
    intro p c x i h1 h2
    by_cases e : x = p
    · subst e; rw [set_same]; exact h1 i
    · rw [set_other _ _ _ _ e]; exact h2
  cases hst with
  | enter p i _ _ => intro h; have c := g h; exact ⟨fun x j => key p (.calling i) x j (by simp) (c.calls x j), c.killed, c.closed⟩
  | full p i _ _ _ => intro h; cases h
  | giveUp p i hc _ _ => intro h; have c := g h; exact ⟨fun x j => key p .returned x j (by simp) (c.calls x j), c.killed, c.closed⟩
  | stop _ => intro h; have c := g h; exact ⟨c.calls, c.killed, c.closed⟩
  | send p i _ _ hr => intro h; have c := g h; exact ⟨fun x j => key p .returned x j (by simp) (c.calls x j), c.killed, c.closed⟩
  | send2 p i _ _ hr => intro h; have c := g h; exact ⟨fun x j => key p .returned x j (by simp) (c.calls x j), c.killed, c.closed⟩
  | kill p i j rest s killed hp hl => intro h; have c := g h; exact absurd hp (c.calls p i).1
  | take i l c hl hi hc => intro h; have c := g h; exact ⟨c.calls, fun _ _ _ _ e => (by cases e; rfl), c.closed⟩
  | takeCrash i l hl hi hc => intro h; have c := g h; exact ⟨c.calls, fun _ _ _ _ e => (by cases e), c.closed⟩
  | pick j rest killed s hl hs => intro h; have c := g h; exact ⟨c.calls, fun _ _ _ _ e => (by cases e; exact c.killed _ _ _ _ hl), c.closed⟩
  | deliver j rest killed s hl hp =>
    intro h; have c := g h
    refine ⟨c.calls, fun _ _ _ _ e => (by cases e; exact c.killed _ _ _ _ hl), ?_⟩
    intro s'
    by_cases e : s' = s
    · subst e; simp only [set_same]; rw [(put_fields _ _).2.1]; intro hc
      have := c.closed s' hc
      unfold put; split <;> exact this
    · simp only [set_other _ _ _ _ e]; exact c.closed s'
  | finish j killed hl =>
    intro h; have c := g h
    have hk := c.killed _ _ _ _ hl
    subst hk
    refine ⟨c.calls, fun _ _ _ _ e => (by cases e), ?_⟩
    intro s hc
    rcases (closeAll_closed _ _ _).mp hc with h | h
    · cases h
    · exact (closeAll_fields _ _ _).2.2.2.2.2.2.trans (c.closed s h)
  | subscribe s hl he =>
    intro h; have c := g h
    refine ⟨c.calls, fun _ _ _ _ e => (by cases e), ?_⟩
    intro s'
    by_cases e : s' = s
    · subst e; simp only [set_same]; exact c.closed s'
    · simp only [set_other _ _ _ _ e]; exact c.closed s'
  | answer s hl hg => intro h; have c := g h; exact ⟨c.calls, fun _ _ _ _ e => (by cases e), c.closed⟩
  | cancel s hl =>
    intro h; have c := g h
    refine ⟨c.calls, c.killed, ?_⟩
    intro s'
    by_cases e : s' = s
    · subst e; simp only [set_same]; exact c.closed s'
    · simp only [set_other _ _ _ _ e]; exact c.closed s'
  | recv s i l _ hb =>
    intro h; have c := g h
    refine ⟨c.calls, c.killed, ?_⟩
    intro s'
    by_cases e : s' = s
    · subst e; simp only [set_same]; exact c.closed s'
    · simp only [set_other _ _ _ _ e]; exact c.closed s'
  | unsub s hl he hle hc =>
    intro h; have c := g h
    refine ⟨c.calls, c.killed, ?_⟩
    intro s'
    by_cases e : s' = s
    · subst e; simp only [set_same]; intro _; trivial
    · simp only [set_other _ _ _ _ e]; exact c.closed s'
  | unsubCrash s hl he hle hc => intro h; have c := g h; exact ⟨c.calls, fun _ _ _ _ e => (by cases e), c.closed⟩
  | unsubClosed s _ hle hc hb =>
    intro h; have c := g h
    refine ⟨c.calls, c.killed, ?_⟩
    intro s'
    by_cases e : s' = s
    · subst e; simp only [set_same]; intro _; trivial
    · simp only [set_other _ _ _ _ e]; exact c.closed s'
  | unsubCancel s _ hle hc =>
    intro h; have c := g h
    refine ⟨c.calls, c.killed, ?_⟩
    intro s'
    by_cases e : s' = s
    · subst e; simp only [set_same]; intro _; trivial
    · simp only [set_other _ _ _ _ e]; exact c.closed s'
  | exit hl hd => intro h; have c := g h; exact ⟨c.calls, fun _ _ _ _ e => (by cases e), c.closed⟩

/-- C114: a subscriber's channel is closed without it being asked for only if some call has found the buffer full. -/
theorem not_killed (bufSize : Nat) (caps : Nat → Nat) (t : St) (h : Reachable bufSize caps t) (hf : t.everFull = false) (s : Nat) (hc : (t.sub s).closed = true) : (t.sub s).left = true := by
  obtain ⟨ls, h⟩ := h
  refine (steps_preserve (fun t => t.everFull = false → Calm t) (fun t u l => calm_step t u l) h ?_ hf).closed s hc
  intro _
  exact ⟨fun _ _ => ⟨by simp [new], by simp [new]⟩, fun _ _ _ _ e => (by cases e), fun s hc => by cases hc⟩

/-- C114: a call made when there is room in the buffer returns at once: it has one step to make, whatever the others do, and that ends it. -/
theorem call_returns (t : St) (p : Nat) (i : Item) (hc : t.call p = .calling i) (hl : t.loop ≠ .crashed) (hr : t.items.length < t.cap) :
    (∃ u, Step t (.send p) u ∧ u.call p = .returned) ∧ ¬ ∃ u, Step t (.full p) u := by
  refine ⟨⟨_, Step.send t p i hc hl hr, set_same _ _ _⟩, ?_⟩
  rintro ⟨u, h⟩
  cases h with
  | full _ j h1 h2 h3 => exact h3 hr

/-- C114: when the server is being stopped, no call stays blocked: each waiting one has a step to make which ends it. -/
theorem stopped_releases (t : St) (p : Nat) (i : Item) (hc : t.call p = .wantKill i ∨ t.call p = .wantSend i) (hl : t.loop ≠ .crashed) (hd : t.done = true) :
    ∃ u, Step t (.giveUp p) u ∧ u.call p = .returned :=
  ⟨_, Step.giveUp t p i hc hl hd, set_same _ _ _⟩

/-! ### Refutations -/

/-- New leaves the counters' pointer nil, and nothing sets it. -/
theorem current_nil (bufSize : Nat) (caps : Nat → Nat) (t : St) (h : Reachable bufSize caps t) : t.current = none := by
  obtain ⟨ls, h⟩ := h
  refine steps_preserve (fun t => t.current = none) ?_ h rfl
  intro t u l hs ht
  cases hs with
  | take i l c hl hi hc =>
    simp only
    rw [ht] at hc
    unfold updateItem at hc
    cases he : i.event with
    | none => rw [he] at hc; cases hc; rfl
    | some e => rw [he] at hc; cases e <;> cases hc; rfl
  | _ => exact ht

/-- C114, refuted: the first event which would be counted (a new or an existing program, a created or a deleted instance) ends the server process,
whatever has happened before, when the monitor comes to it. -/
theorem counted_crashes_refuted (bufSize : Nat) (caps : Nat → Nat) (t : St) (h : Reachable bufSize caps t) (i : Item) (l : List Item) (e : Ev)
    (hl : t.loop = .idle) (hi : t.items = i :: l) (he : i.event = some e) (hc : e.counted = true) :
    (∃ u, Step t .take u) ∧ ∀ u, Step t .take u → u.loop = .crashed := by
  have hn := current_nil _ _ _ h
  have hu : updateItem t.current i = none := by
    unfold updateItem; rw [hn, he]; cases e <;> first | rfl | cases hc
  refine ⟨⟨_, Step.takeCrash t i l hl hi hu⟩, ?_⟩
  intro u hs
  cases hs with
  | take i' l' c h1 h2 h3 =>
    rw [hi] at h2; cases h2
    rw [hu] at h3; cases h3
  | takeCrash => rfl

/-- Hence a monitor which hasn't crashed hasn't come to any such event. -/
theorem no_counted (bufSize : Nat) (caps : Nat → Nat) (t : St) (h : Reachable bufSize caps t) (hl : t.loop ≠ .crashed) :
    ∀ i ∈ t.taken, ∀ e, i.event = some e → e.counted = false := by
  obtain ⟨ls, h⟩ := h
  refine (steps_preserve (fun t => t.current = none ∧ (t.loop ≠ .crashed → ∀ i ∈ t.taken, ∀ e, i.event = some e → e.counted = false)) ?_ h ⟨rfl, fun _ i hi => by cases hi⟩).2 hl
  intro t u l hs ⟨hn, ht⟩
  cases hs with
  | take i l c hl hi hc =>
    rw [hn] at hc
    have hc' : c = none ∧ ∀ e, i.event = some e → e.counted = false := by
      unfold updateItem at hc
      cases he : i.event with
      | none => rw [he] at hc; cases hc; exact ⟨rfl, fun e h => by cases h⟩
      | some e => rw [he] at hc; cases e <;> cases hc; exact ⟨rfl, fun e h => by cases h; rfl⟩
    refine ⟨hc'.1, fun _ x hx => ?_⟩
    rw [List.mem_append, List.mem_singleton] at hx
    rcases hx with hx | hx
    · exact ht (by rw [hl]; simp) x hx
    · subst hx; exact hc'.2
  | takeCrash => exact ⟨hn, fun h => absurd rfl h⟩
  | unsubCrash => exact ⟨hn, fun h => absurd rfl h⟩
  | kill p i j rest s killed hp hl => exact ⟨hn, fun _ => ht (by rw [hl]; simp)⟩
  | pick j rest killed s hl => exact ⟨hn, fun _ => ht (by rw [hl]; simp)⟩
  | deliver j rest killed s hl => exact ⟨hn, fun _ => ht (by rw [hl]; simp)⟩
  | finish j killed hl => exact ⟨hn, fun _ => ht (by rw [hl]; simp)⟩
  | subscribe s hl => exact ⟨hn, fun _ => ht (by rw [hl]; simp)⟩
  | answer s hl => exact ⟨hn, fun _ => ht (by rw [hl]; simp)⟩
  | exit hl => exact ⟨hn, fun _ => ht (by rw [hl]; simp)⟩
  | _ => exact ⟨hn, ht⟩

/-- C114, refuted: a call which found the buffer full stays blocked as long as nobody subscribes and the server isn't stopped, even though the monitor may have emptied the buffer long since:
only a monitor which is sending to a subscriber releases it. -/
theorem blocked_refuted (t u : St) (ls : List Label) (p : Nat) (i : Item) (h : Steps t ls u) (hc : t.call p = .wantKill i) (hs : t.subs = [])
    (hl : ∀ j rest cur k, t.loop = .delivering j rest cur k → rest = [] ∧ cur = none) (hd : t.done = false)
    (hno : ∀ l ∈ ls, l ≠ .stop ∧ ∀ s, l ≠ .subscribe s) : u.call p = .wantKill i := by
  induction h with
  | nil => exact hc
  | cons hst _ ih =>
    rename_i t u v l ls _
    have hl1 := hno l (List.mem_cons_self)
    have hno' : ∀ l ∈ ls, l ≠ .stop ∧ ∀ s, l ≠ .subscribe s := fun l h => hno l (List.mem_cons_of_mem _ h)
    have other : ∀ (q : Nat) (c : Call), t.call q ≠ .wantKill i → set t.call q c p = .wantKill i := by
      intro q c hq
      have e : p ≠ q := by rintro rfl; exact hq hc
      rw [set_other _ _ _ _ e]; exact hc
    cases hst with
    | enter q j h1 _ => exact ih (other q _ (by rw [h1]; simp)) hs hl hd hno'
    | send q j h1 _ => exact ih (other q _ (by rw [h1]; simp)) hs hl hd hno'
    | full q j h1 _ => exact ih (other q _ (by rw [h1]; simp)) hs hl hd hno'
    | kill q j k rest s killed h1 h2 => have := (hl _ _ _ _ h2).2; cases this
    | send2 q j h1 _ => exact ih (other q _ (by rw [h1]; simp)) hs hl hd hno'
    | giveUp q j h1 h2 h3 => rw [hd] at h3; cases h3
    | take j l c h1 h2 h3 => exact ih hc hs (fun _ _ _ _ e => by cases e; exact ⟨hs, rfl⟩) hd hno'
    | takeCrash => exact ih hc hs (fun _ _ _ _ e => by cases e) hd hno'
    | pick j rest killed s h1 h2 => have := (hl _ _ _ _ h1).1; subst this; cases h2
    | deliver j rest killed s h1 h2 => have := (hl _ _ _ _ h1).2; cases this
    | finish j killed h1 => exact ih hc (by rw [hs]; rfl) (fun _ _ _ _ e => by cases e) hd hno'
    | subscribe s => exact absurd rfl (hl1.2 s)
    | answer s h1 => exact ih hc hs (fun _ _ _ _ e => by cases e) hd hno'
    | cancel s h1 => exact ih hc hs hl hd hno'
    | recv => exact ih hc hs hl hd hno'
    | unsub s => exact ih hc (by simp only; rw [hs]; rfl) hl hd hno'
    | unsubCrash => exact ih hc hs (fun _ _ _ _ e => by cases e) hd hno'
    | unsubClosed => exact ih hc hs hl hd hno'
    | unsubCancel => exact ih hc hs hl hd hno'
    | stop => exact absurd rfl hl1.1
    | exit => exact ih hc hs (fun _ _ _ _ e => by cases e) hd hno'

/-- C114, refuted: once Subscribe's caller has gone away before the answer, the monitor is stuck for good: it takes no event ever after, and doesn't even notice being stopped. -/
theorem stuck_refuted (t u : St) (ls : List Label) (s : Nat) (h : Steps t ls u) (hl : t.loop = .answering s) (hg : (t.sub s).gone = true) :
    u.loop = .answering s ∧ u.taken = t.taken ∧ (u.sub s).gone = true := by
  induction h with
  | nil => exact ⟨hl, rfl, hg⟩
  | cons hst _ ih =>
    rename_i t u v l ls _
    cases hst with
    | enter => exact ih hl hg
    | send => exact ih hl hg
    | full => exact ih hl hg
    | send2 => exact ih hl hg
    | giveUp => exact ih hl hg
    | stop => exact ih hl hg
    | kill p i j rest s' killed h1 h2 => rw [hl] at h2; cases h2
    | take j l c h1 => rw [hl] at h1; cases h1
    | takeCrash j l h1 => rw [hl] at h1; cases h1
    | pick j rest killed s h1 h2 => rw [hl] at h1; cases h1
    | deliver j rest killed s h1 h2 => rw [hl] at h1; cases h1
    | finish j killed h1 => rw [hl] at h1; cases h1
    | subscribe s h1 => rw [hl] at h1; cases h1
    | answer s' h1 h2 => rw [hl] at h1; cases h1; rw [hg] at h2; cases h2
    | unsub s h1 => rw [hl] at h1; cases h1
    | unsubCrash s h1 => rw [hl] at h1; cases h1
    | exit h1 => rw [hl] at h1; cases h1
    | cancel s' h1 =>
      refine ih hl ?_
      by_cases e : s = s'
      · subst e; simp only [set_same]
      · simp only [set_other _ _ _ _ e]; exact hg
    | recv s' =>
      refine ih hl ?_
      by_cases e : s = s'
      · subst e; simp only [set_same]; exact hg
      · simp only [set_other _ _ _ _ e]; exact hg
    | unsubClosed s' =>
      refine ih hl ?_
      by_cases e : s = s'
      · subst e; simp only [set_same]; exact hg
      · simp only [set_other _ _ _ _ e]; exact hg
    | unsubCancel s' =>
      refine ih hl ?_
      by_cases e : s = s'
      · subst e; simp only [set_same]; exact hg
      · simp only [set_other _ _ _ _ e]; exact hg

/-! ### The refutations' states are reachable -/

theorem steps_snoc {t u v : St} {ls : List Label} {l : Label} (h : Steps t ls u) (h' : Step u l v) : Steps t (ls ++ [l]) v := by
  induction h with
  | nil => exact .cons h' (.nil _)
  | cons hs _ ih => exact .cons hs (ih h')

theorem reachable_step {bufSize : Nat} {caps : Nat → Nat} {t u : St} {l : Label} (h : Reachable bufSize caps t) (h' : Step t l u) : Reachable bufSize caps u :=
  ⟨_, steps_snoc h.choose_spec h'⟩

/-- A burst: n calls one after the other, before the monitor gets to run. -/
theorem burst (bufSize : Nat) (caps : Nat → Nat) (n : Nat) (hn : n ≤ (new bufSize caps).cap) :
    ∃ t, Reachable bufSize caps t ∧ t.items = List.replicate n ⟨none, 0⟩ ∧ t.loop = .idle ∧ t.subs = [] ∧ t.done = false ∧ t.cap = (new bufSize caps).cap ∧ (∀ q, n ≤ q → t.call q = .absent) ∧ (∀ s, (t.sub s).ever = false) := by
  induction n with
  | zero => exact ⟨_, ⟨[], .nil _⟩, rfl, rfl, rfl, rfl, rfl, fun _ _ => rfl, fun _ => rfl⟩
  | succ n ih =>
    obtain ⟨t, hr, hi, hl, hs, hd, hcap, hc, hsub⟩ := ih (by omega)
    have s1 := Step.enter t n ⟨none, 0⟩ (hc n (Nat.le_refl _)) (by rw [hl]; simp)
    have s2 := Step.send { t with call := set t.call n (.calling ⟨none, 0⟩) } n ⟨none, 0⟩ (set_same _ _ _) (by simp only; rw [hl]; simp) (by simp only; rw [hi, hcap, List.length_replicate]; omega)
    refine ⟨_, reachable_step (reachable_step hr s1) s2, ?_, hl, hs, hd, hcap, ?_, hsub⟩
    · simp only; rw [hi, List.replicate_succ']
    · intro q hq
      simp only
      rw [set_other _ _ _ _ (by omega), set_other _ _ _ _ (by omega)]
      exact hc q (by omega)

/-- The monitor works off uncounted items when there are no subscribers. -/
theorem drain (bufSize : Nat) (caps : Nat → Nat) (n : Nat) (p : Nat) (c : Call) (t : St) (hr : Reachable bufSize caps t) (hi : t.items = List.replicate n ⟨none, 0⟩) (hl : t.loop = .idle) (hs : t.subs = []) (hd : t.done = false) (hc : t.call p = c) :
    ∃ u, Reachable bufSize caps u ∧ u.items = [] ∧ u.loop = .idle ∧ u.subs = [] ∧ u.done = false ∧ u.call p = c := by
  induction n generalizing t with
  | zero => exact ⟨t, hr, hi, hl, hs, hd, hc⟩
  | succ n ih =>
    rw [List.replicate_succ] at hi
    have s1 := Step.take t ⟨none, 0⟩ _ t.current hl hi rfl
    have r1 := reachable_step hr s1
    have s2 := Step.finish _ ⟨none, 0⟩ [] (show ({ t with items := List.replicate n ⟨none, 0⟩, taken := t.taken ++ [⟨none, 0⟩], current := t.current, loop := .delivering ⟨none, 0⟩ t.subs none [] } : St).loop = .delivering ⟨none, 0⟩ [] none [] by simp only; rw [hs])
    exact ih _ (reachable_step r1 s2) rfl rfl (by simp only; rw [hs]; rfl) hd hc

/-- C114, refuted: without any subscribers, and with the monitor idle and its buffer empty, there may be a call which blocks; by `blocked_refuted` it does so until somebody subscribes. For every buffer size. -/
theorem blocked_reachable_refuted (bufSize : Nat) (caps : Nat → Nat) :
    ∃ t p i, Reachable bufSize caps t ∧ t.loop = .idle ∧ t.items = [] ∧ t.subs = [] ∧ t.done = false ∧ t.call p = .wantKill i := by
  obtain ⟨t, hr, hi, hl, hs, hd, hcap, hc, hsub⟩ := burst bufSize caps _ (Nat.le_refl _)
  let p := (new bufSize caps).cap
  have s1 := Step.enter t p ⟨none, 0⟩ (hc p (Nat.le_refl _)) (by rw [hl]; simp)
  have s2 := Step.full { t with call := set t.call p (.calling ⟨none, 0⟩) } p ⟨none, 0⟩ (set_same _ _ _) (by simp only; rw [hl]; simp) (by simp only; rw [hi, hcap, List.length_replicate]; omega)
  obtain ⟨u, h1, h2, h3, h4, h5, h6⟩ := drain bufSize caps _ p (.wantKill ⟨none, 0⟩) _ (reachable_step (reachable_step hr s1) s2) hi hl hs hd (set_same _ _ _)
  exact ⟨u, p, _, h1, h3, h2, h4, h5, h6⟩

/-- C114, refuted: the state of `stuck_refuted` is reachable. -/
theorem stuck_reachable_refuted (bufSize : Nat) (caps : Nat → Nat) : ∃ t s, Reachable bufSize caps t ∧ t.loop = .answering s ∧ (t.sub s).gone = true :=
  ⟨_, 0, ⟨[.subscribe 0, .cancel 0], .cons (.subscribe _ 0 rfl rfl) (.cons (.cancel _ 0 rfl) (.nil _))⟩, rfl, rfl⟩

/-- The schedule of the next two theorems. -/
def schedule : List Label := [.subscribe 0, .answer 0, .enter 0 ⟨none, 0⟩, .send 0, .take, .pick 0, .enter 1 ⟨none, 1⟩, .send 1, .enter 2 ⟨none, 2⟩, .full 2]

theorem schedule_runs (caps : Nat → Nat) : ∃ t, Steps (new 1 caps) schedule t ∧ t.loop = .delivering ⟨none, 0⟩ [] (some 0) [] ∧ t.call 2 = .wantKill ⟨none, 2⟩ ∧ (t.sub 0).buf = [] ∧ (t.sub 0).cap = caps 0 ∧ (t.sub 0).ever = true ∧ (t.sub 0).left = false := by
  refine ⟨_, .cons (.subscribe _ 0 rfl rfl) <| .cons (.answer _ 0 rfl rfl) <| .cons (.enter _ 0 _ rfl (by intro h; cases h)) <| .cons (.send _ 0 _ rfl (by intro h; cases h) Nat.zero_lt_one) <|
    .cons (.take _ _ _ none rfl rfl rfl) <| .cons (.pick _ _ _ _ 0 rfl (List.mem_singleton_self 0)) <| .cons (.enter _ 1 _ rfl (by intro h; cases h)) <| .cons (.send _ 1 _ rfl (by intro h; cases h) Nat.zero_lt_one) <|
    .cons (.enter _ 2 _ rfl (by intro h; cases h)) <| .cons (.full _ 2 _ rfl (by intro h; cases h) (Nat.lt_irrefl 1)) <| .nil _, rfl, rfl, rfl, rfl, rfl, rfl⟩

/-- C114, refuted: a subscriber may be killed although its channel has room for the event (of any capacity): the monitor chooses between a ready channel and the kill request at random. -/
theorem prompt_killed_refuted (caps : Nat → Nat) (_ : 0 < caps 0) :
    ∃ t u, Reachable 1 caps t ∧ canPut (t.sub 0) ∧ (t.sub 0).buf = [] ∧ Step t (.kill 2) u ∧ u.loop = .delivering ⟨none, 0⟩ [] none [0] := by
  obtain ⟨t, h, hl, hc, hb, hcap, he, hle⟩ := schedule_runs caps
  exact ⟨t, _, ⟨_, h⟩, Or.inr (by rw [hb, hcap]; assumption), hb, Step.kill t 2 _ _ _ 0 _ hc hl, rfl⟩

/-- C114, refuted: after a subscriber has been killed, its call of Unsubscribe (which the web monitor makes always, webmonitor.go:112) may crash the server. -/
theorem double_close_refuted (caps : Nat → Nat) : ∃ t u s, Reachable 1 caps t ∧ (t.sub s).ever = true ∧ (t.sub s).left = false ∧ (t.sub s).closed = true ∧ Step t (.unsub s) u ∧ u.loop = .crashed := by
  obtain ⟨t, h, hl, hc, hb, hcap, he, hle⟩ := schedule_runs caps
  have s1 := Step.kill t 2 _ _ _ 0 _ hc hl
  have r1 := reachable_step ⟨_, h⟩ s1
  have s2 := Step.finish _ _ _ (show ({ t with call := set t.call 2 (.wantSend ⟨none, 2⟩), loop := .delivering ⟨none, 0⟩ [] none ([] ++ [0]) } : St).loop = .delivering ⟨none, 0⟩ [] none [0] from rfl)
  have r2 := reachable_step r1 s2
  have hclosed : (closeAll t.sub [0] 0).closed = true := (closeAll_closed _ _ _).mpr (Or.inl (by simp))
  have f := closeAll_fields t.sub [0] 0
  exact ⟨_, _, 0, r2, f.1.trans he, f.2.2.2.2.2.2.trans hle, hclosed, Step.unsubCrash _ 0 rfl (f.1.trans he) (f.2.2.2.2.2.2.trans hle) hclosed, rfl⟩

/-- The hypotheses of `counted_crashes_refuted` are met by the first upload after the start. -/
example : ∃ t, Reachable 0 (fun _ => 0) t ∧ t.loop = .idle ∧ t.items = [⟨some .programNew, 7⟩] :=
  ⟨_, ⟨[.enter 0 ⟨some .programNew, 7⟩, .send 0], .cons (.enter _ 0 _ rfl (by intro h; cases h)) (.cons (.send _ 0 _ rfl (by intro h; cases h) (by decide)) (.nil _))⟩, rfl, rfl⟩

/-- `given_all` and `subscribed_open` speak of states like this one: a subscriber with one event in its channel. -/
example : ∃ t, Reachable 1 (fun _ => 1) t ∧ t.loop = .idle ∧ 0 ∈ t.subs ∧ given (t.sub 0) = [⟨some .other, 3⟩] :=
  ⟨_, ⟨[.subscribe 0, .answer 0, .enter 0 ⟨some .other, 3⟩, .send 0, .take, .pick 0, .deliver 0, .finish],
    .cons (.subscribe _ 0 rfl rfl) <| .cons (.answer _ 0 rfl rfl) <| .cons (.enter _ 0 _ rfl (by intro h; cases h)) <| .cons (.send _ 0 _ rfl (by intro h; cases h) (by decide)) <|
    .cons (.take _ _ _ none rfl rfl rfl) <| .cons (.pick _ _ _ _ 0 rfl (by decide)) <| .cons (.deliver _ _ _ _ 0 rfl (Or.inr (by decide))) <| .cons (.finish _ _ _ rfl) <| .nil _⟩, rfl, by decide, rfl⟩

end Gate.Monitor
