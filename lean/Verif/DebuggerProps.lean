import Verif.Debugger

/-! # Properties of breakpoints and debug configuration (C34) -/

namespace Gate.Dbg

/-- Strictly increasing. -/
def Increasing (a : List Nat) : Prop := a.Pairwise (· < ·)

/-! ## Sorting and deduplicating -/

theorem insert_perm (x : Nat) (a : List Nat) : (insert x a).Perm (x :: a) := by
  induction a with
  | nil => exact List.Perm.refl _
  | cons y ys ih =>
    unfold insert
    split
    · exact List.Perm.refl _
    · exact (ih.cons y).trans (List.Perm.swap x y ys)

theorem insert_sorted (x : Nat) (a : List Nat) (h : a.Pairwise (· ≤ ·)) : (insert x a).Pairwise (· ≤ ·) := by
  induction a with
  | nil => simp [insert]
  | cons y ys ih =>
    rw [List.pairwise_cons] at h
    unfold insert
    split
    · rw [List.pairwise_cons, List.pairwise_cons]
      refine ⟨?_, h⟩
      intro z hz
      rcases List.mem_cons.mp hz with rfl | hz
      · assumption
      · have := h.1 z hz; omega
    · rw [List.pairwise_cons]
      refine ⟨?_, ih h.2⟩
      intro z hz
      rcases List.mem_cons.mp ((insert_perm x ys).mem_iff.mp hz) with rfl | hz
      · omega
      · exact h.1 z hz

theorem sort_perm (a : List Nat) : (sort a).Perm a := by
  induction a with
  | nil => exact List.Perm.refl _
  | cons x a ih => exact (insert_perm x _).trans (ih.cons x)

theorem sort_sorted (a : List Nat) : (sort a).Pairwise (· ≤ ·) := by
  induction a with
  | nil => exact List.Pairwise.nil
  | cons x a ih => exact insert_sorted x _ ih

theorem dedupLoop_spec (n : Nat) : ∀ (a : List Nat) (k : Nat), a.length - k = n → a.Pairwise (· ≤ ·) →
    (∀ i, i < k → i + 1 < a.length → a.getD i 0 < a.getD (i + 1) 0) →
    Increasing (dedupLoop a k) ∧ (∀ x, x ∈ dedupLoop a k ↔ x ∈ a) ∧ (dedupLoop a k).length ≤ a.length := by
  induction n using Nat.strongRecOn with
  | ind n ih =>
    intro a k hn hs hk
    have get : ∀ i (h : i < a.length), a.getD i 0 = a[i] := fun i h => by simp [List.getD, h]
    unfold dedupLoop
    split
    · rename_i hlt
      split
      · rename_i he
        rw [List.getElem?_eq_getElem (by omega), List.getElem?_eq_getElem hlt, Option.some.injEq] at he
        obtain ⟨b, hb⟩ : ∃ b, b = a.take k ++ a.drop (k + 1) := ⟨_, rfl⟩
        rw [← hb]
        have hlen : b.length = a.length - 1 := by
          rw [hb, List.length_append, List.length_take, List.length_drop]; omega
        have hsub : b.Sublist a := by
          rw [hb]
          conv => rhs; rw [← List.take_append_drop k a]
          exact List.Sublist.append_left (by rw [List.drop_add_one_eq_tail_drop]; exact List.tail_sublist _) _
        have hget : ∀ i, i < b.length → b.getD i 0 = if i < k then a.getD i 0 else a.getD (i + 1) 0 := by
          intro i hi
          have : b[i]? = if i < k then a[i]? else a[i + 1]? := by
            rw [hb, List.getElem?_append, List.length_take]
            by_cases hik : i < k
            · rw [if_pos (by omega), if_pos hik, List.getElem?_take, if_pos hik]
            · rw [if_neg (by omega), if_neg hik, List.getElem?_drop]
              congr 1
              omega
          simp only [List.getD, this]
          split <;> rfl
        have hm : ∀ x, x ∈ b ↔ x ∈ a := by
          intro x
          constructor
          · exact fun h => hsub.subset h
          · intro h
            rw [hb, List.mem_append]
            rw [← List.take_append_drop k a, List.mem_append, List.drop_eq_getElem_cons (by omega), List.mem_cons] at h
            rcases h with h | h | h
            · exact .inl h
            · right; rw [List.drop_eq_getElem_cons hlt, h, he]; exact List.mem_cons_self
            · exact .inr h
        have := ih (b.length - k) (by omega) b k rfl (hs.sublist hsub) (by
          intro i hi hi2
          rw [hget i (by omega), hget (i + 1) hi2, if_pos hi]
          by_cases h : i + 1 < k
          · rw [if_pos h]; exact hk i hi (by omega)
          · rw [if_neg h]
            have h1 := hk i hi (by omega)
            have e : i + 1 = k := by omega
            rw [get (i + 1 + 1) (by omega)]
            rw [get (i + 1) (by omega)] at h1
            simp only [e] at h1 ⊢
            rw [← he]; exact h1)
        refine ⟨this.1, ?_, by omega⟩
        intro x; rw [this.2.1, hm]
      · rename_i he
        have := ih (a.length - (k + 1)) (by omega) a (k + 1) rfl hs (by
          intro i hi hi2
          by_cases h : i < k
          · exact hk i h hi2
          · have e : i = k := by omega
            subst e
            rw [List.getElem?_eq_getElem (by omega), List.getElem?_eq_getElem hlt, Option.some.injEq] at he
            rw [get i (by omega), get (i + 1) hlt]
            have := List.pairwise_iff_getElem.mp hs i (i + 1) (by omega) hlt (by omega)
            omega)
        exact this
    · rename_i hlt
      refine ⟨?_, by simp, by omega⟩
      unfold Increasing
      have key : ∀ d i, i + d + 1 < a.length → a.getD i 0 < a.getD (i + d + 1) 0 := by
        intro d
        induction d with
        | zero => intro i h; exact hk i (by omega) h
        | succ d ihd =>
          intro i h
          have h1 := ihd i (by omega)
          have h2 := hk (i + d + 1) (by omega) (by omega)
          have e : i + (d + 1) + 1 = i + d + 1 + 1 := by omega
          rw [e]; omega
      rw [List.pairwise_iff_getElem]
      intro i j hi hj hij
      have := key (j - i - 1) i (by omega)
      have e : i + (j - i - 1) + 1 = j := by omega
      rw [e, get i hi, get j hj] at this
      exact this

/-- C34: sorting and deduplicating keeps exactly the given offsets, in strictly increasing order. -/
theorem sortDedup_spec (a : List Nat) : Increasing (sortDedup a) ∧ (∀ x, x ∈ sortDedup a ↔ x ∈ a) ∧ (sortDedup a).length ≤ a.length := by
  have := dedupLoop_spec _ (sort a) 0 rfl (sort_sorted a) (by intro i hi; omega)
  refine ⟨this.1, fun x => ?_, ?_⟩
  · exact (this.2.1 x).trans (sort_perm a).mem_iff
  · have h := (sort_perm a).length_eq
    unfold sortDedup; omega

example : sortDedup [3, 1, 3, 2, 1, 1] = [1, 2, 3] := by
  decide +kernel

/-! ## Searching -/

theorem searchLoop_spec (f : Nat → Bool) (N : Nat) (hf : ∀ i j, i ≤ j → j < N → f i = true → f j = true) :
    ∀ (n i j : Nat), j - i = n → i ≤ j → j ≤ N → (∀ k, k < i → f k = false) → (∀ k, j ≤ k → k < N → f k = true) →
      let r := searchLoop f i j
      r ≤ N ∧ (∀ k, k < r → f k = false) ∧ (∀ k, r ≤ k → k < N → f k = true) := by
  intro n
  induction n using Nat.strongRecOn with
  | ind n ih =>
    intro i j hn hij hj h1 h2
    unfold searchLoop
    split
    · rename_i hlt
      split
      · rename_i hh
        apply ih (j - ((i + j) / 2 + 1)) (by omega) _ _ rfl (by omega) hj _ h2
        intro k hk
        cases hfk : f k
        · rfl
        · have := hf k ((i + j) / 2) (by omega) (by omega) hfk
          simp [this] at hh
      · rename_i hh
        simp only [Bool.not_eq_true', Bool.not_eq_false] at hh
        apply ih ((i + j) / 2 - i) (by omega) _ _ rfl (by omega) (by omega) h1
        intro k hk hkN
        exact hf _ k hk hkN hh
    · have : i = j := by omega
      subst this
      exact ⟨hj, h1, h2⟩

theorem search_spec (a : List Nat) (ha : Increasing a) (x : Nat) :
    searchUint64 a x ≤ a.length ∧ (∀ y ∈ a.take (searchUint64 a x), y < x) ∧ (∀ y ∈ a.drop (searchUint64 a x), x ≤ y) := by
  have get : ∀ i (h : i < a.length), a.getD i 0 = a[i] := fun i h => by simp [List.getD, h]
  have mono : ∀ i j (hi : i < a.length) (hj : j < a.length), i ≤ j → a[i] ≤ a[j] := by
    intro i j hi hj hij
    rcases Nat.lt_or_eq_of_le hij with h | h
    · have := List.pairwise_iff_getElem.mp ha i j hi hj h; omega
    · subst h; omega
  have := searchLoop_spec (fun i => decide (a.getD i 0 ≥ x)) a.length (by
    intro i j hij hj h
    simp only [decide_eq_true_eq] at h ⊢
    rw [get i (by omega)] at h; rw [get j hj]
    have := mono i j (by omega) hj hij; omega) a.length 0 a.length rfl (by omega) (by omega) (by intro k hk; omega) (by intro k h1 h2; omega)
  obtain ⟨h1, h2, h3⟩ := this
  change searchUint64 a x ≤ _ at h1
  refine ⟨h1, ?_, ?_⟩
  · intro y hy
    rw [List.mem_iff_getElem] at hy
    obtain ⟨k, hk, rfl⟩ := hy
    rw [List.length_take] at hk
    have := h2 k (by change k < searchUint64 a x; omega)
    simp only [decide_eq_false_iff_not] at this
    rw [get k (by omega)] at this
    rw [List.getElem_take]; omega
  · intro y hy
    rw [List.mem_iff_getElem] at hy
    obtain ⟨k, hk, rfl⟩ := hy
    rw [List.length_drop] at hk
    have := h3 (searchUint64 a x + k) (by change searchUint64 a x ≤ _; omega) (by omega)
    simp only [decide_eq_true_eq] at this
    rw [get _ (by omega)] at this
    rw [List.getElem_drop]; omega

/-- The offset is in the list if and only if it is at the place which the search gives. -/
theorem search_found (a : List Nat) (ha : Increasing a) (x : Nat) : a[searchUint64 a x]? = some x ↔ x ∈ a := by
  obtain ⟨h1, h2, h3⟩ := search_spec a ha x
  constructor
  · intro h; exact List.mem_of_getElem? h
  · intro h
    rw [← List.take_append_drop (searchUint64 a x) a, List.mem_append] at h
    rcases h with h | h
    · have := h2 x h; omega
    · rcases hd : a.drop (searchUint64 a x) with _ | ⟨y, ys⟩
      · rw [hd] at h; cases h
      · have hy : a[searchUint64 a x]? = some y := by
          have := List.getElem?_drop (xs := a) (i := searchUint64 a x) (j := 0)
          rw [hd] at this; simpa using this.symm
        rw [hy]
        rw [hd] at h h3
        have hxy := h3 y (by simp)
        rcases List.mem_cons.mp h with rfl | h
        · rfl
        · have hp : (a.drop (searchUint64 a x)).Pairwise (· < ·) := ha.sublist (List.drop_sublist _ _)
          rw [hd, List.pairwise_cons] at hp
          have := hp.1 x h; omega

theorem unionStep_spec (a : List Nat) (m : Bool) (x : Nat) (ha : Increasing a) :
    Increasing (unionStep (a, m) x).1 ∧ (∀ y, y ∈ (unionStep (a, m) x).1 ↔ y ∈ a ∨ y = x) ∧
    ((unionStep (a, m) x).2 = true ↔ m = true ∨ x ∉ a) ∧ (unionStep (a, m) x).1.length ≤ a.length + 1 ∧
    (x ∈ a → unionStep (a, m) x = (a, m)) := by
  obtain ⟨h1, h2, h3⟩ := search_spec a ha x
  have hf := search_found a ha x
  unfold unionStep
  simp only
  by_cases hx : x ∈ a
  · have hg := hf.mpr hx
    rw [if_neg]
    · refine ⟨ha, ?_, by simp [hx], Nat.le_succ _, fun _ => rfl⟩
      intro y; constructor
      · exact .inl
      · rintro (h | rfl)
        · exact h
        · exact hx
    · rw [not_or]
      refine ⟨?_, by simp [hg]⟩
      intro h; rw [h] at hg; simp at hg
  · rw [if_pos (.inr (fun h => hx (hf.mp h)))]
    refine ⟨?_, ?_, by simp [hx], ?_, fun h => absurd h hx⟩
    · unfold Increasing
      rw [List.pairwise_append, List.pairwise_cons]
      refine ⟨ha.sublist (List.take_sublist _ _), ⟨?_, ha.sublist (List.drop_sublist _ _)⟩, ?_⟩
      · intro y hy
        have := h3 y hy
        rcases Nat.lt_or_eq_of_le this with h | h
        · exact h
        · exact absurd (h ▸ List.mem_of_mem_drop hy) hx
      · intro y hy z hz
        have hyx := h2 y hy
        rcases List.mem_cons.mp hz with rfl | hz
        · exact hyx
        · have := h3 z hz; omega
    · intro y
      rw [List.mem_append, List.mem_cons]
      conv => rhs; rw [← List.take_append_drop (searchUint64 a x) a, List.mem_append]
      constructor
      · rintro (h | h | h)
        · exact .inl (.inl h)
        · exact .inr h
        · exact .inl (.inr h)
      · rintro ((h | h) | h)
        · exact .inl h
        · exact .inr (.inr h)
        · exact .inr (.inl h)
    · simp only [List.length_append, List.length_cons, List.length_take, List.length_drop]; omega

theorem complementStep_spec (a : List Nat) (m : Bool) (x : Nat) (ha : Increasing a) :
    Increasing (complementStep (a, m) x).1 ∧ (∀ y, y ∈ (complementStep (a, m) x).1 ↔ y ∈ a ∧ y ≠ x) ∧
    ((complementStep (a, m) x).2 = true ↔ m = true ∨ x ∈ a) ∧ (complementStep (a, m) x).1.length ≤ a.length ∧
    (x ∉ a → complementStep (a, m) x = (a, m)) := by
  obtain ⟨h1, h2, h3⟩ := search_spec a ha x
  have hf := search_found a ha x
  unfold complementStep
  simp only
  by_cases hx : x ∈ a
  · have hg := hf.mpr hx
    have hlt : searchUint64 a x < a.length := by
      rcases Nat.lt_or_eq_of_le h1 with h | h
      · exact h
      · rw [h] at hg; simp at hg
    rw [if_pos ⟨hlt, hg⟩]
    have hsplit : a = a.take (searchUint64 a x) ++ x :: a.drop (searchUint64 a x + 1) := by
      conv => lhs; rw [← List.take_append_drop (searchUint64 a x) a, List.drop_eq_getElem_cons hlt]
      rw [List.getElem?_eq_getElem hlt, Option.some.injEq] at hg
      rw [hg]
    have hp : (a.take (searchUint64 a x) ++ x :: a.drop (searchUint64 a x + 1)).Pairwise (· < ·) := hsplit ▸ ha
    rw [List.pairwise_append, List.pairwise_cons] at hp
    obtain ⟨p1, ⟨p2, p3⟩, p4⟩ := hp
    refine ⟨?_, ?_, by simp [hx], ?_, fun h => absurd hx h⟩
    · unfold Increasing; rw [List.pairwise_append]
      exact ⟨p1, p3, fun y hy z hz => p4 y hy z (List.mem_cons_of_mem _ hz)⟩
    · intro y
      rw [List.mem_append]
      constructor
      · rintro (h | h)
        · refine ⟨List.mem_of_mem_take h, ?_⟩
          have := p4 y h x (by simp); omega
        · refine ⟨List.mem_of_mem_drop h, ?_⟩
          have := p2 y h; omega
      · rintro ⟨h, hne⟩
        rw [hsplit, List.mem_append, List.mem_cons] at h
        rcases h with h | h | h
        · exact .inl h
        · exact absurd h hne
        · exact .inr h
    · simp only [List.length_append, List.length_take, List.length_drop]; omega
  · rw [if_neg (by rintro ⟨_, h⟩; exact hx (hf.mp h))]
    refine ⟨ha, ?_, by simp [hx], Nat.le_refl _, fun _ => rfl⟩
    intro y; constructor
    · intro h; exact ⟨h, fun e => hx (e ▸ h)⟩
    · exact fun h => h.1

theorem union_spec (xs a : List Nat) (m : Bool) (ha : Increasing a) :
    Increasing (xs.foldl unionStep (a, m)).1 ∧ (∀ y, y ∈ (xs.foldl unionStep (a, m)).1 ↔ y ∈ a ∨ y ∈ xs) ∧
    ((xs.foldl unionStep (a, m)).2 = true ↔ m = true ∨ ∃ x ∈ xs, x ∉ a) ∧ (xs.foldl unionStep (a, m)).1.length ≤ a.length + xs.length ∧
    ((∀ x ∈ xs, x ∈ a) → xs.foldl unionStep (a, m) = (a, m)) := by
  induction xs generalizing a m with
  | nil => exact ⟨ha, by simp, by simp, by simp, fun _ => rfl⟩
  | cons x xs ih =>
    obtain ⟨s1, s2, s3, s4, s5⟩ := unionStep_spec a m x ha
    simp only [List.foldl_cons]
    obtain ⟨b, m', hb⟩ : ∃ b m', unionStep (a, m) x = (b, m') := ⟨_, _, rfl⟩
    simp only [hb] at s1 s2 s3 s4 s5 ⊢
    obtain ⟨i1, i2, i3, i4, i5⟩ := ih b m' s1
    refine ⟨i1, ?_, ?_, by simp only [List.length_cons]; omega, ?_⟩
    · intro y; rw [i2, s2, List.mem_cons]
      constructor
      · rintro ((h | h) | h)
        · exact .inl h
        · exact .inr (.inl h)
        · exact .inr (.inr h)
      · rintro (h | h | h)
        · exact .inl (.inl h)
        · exact .inl (.inr h)
        · exact .inr h
    · rw [i3, s3]
      constructor
      · rintro ((h | h) | ⟨y, h1, h2⟩)
        · exact .inl h
        · exact .inr ⟨x, by simp, h⟩
        · refine .inr ⟨y, by simp [h1], fun h => h2 ((s2 y).mpr (.inl h))⟩
      · rintro (h | ⟨y, h1, h2⟩)
        · exact .inl (.inl h)
        · rcases List.mem_cons.mp h1 with rfl | h1
          · exact .inl (.inr h2)
          · by_cases hyx : y = x
            · subst hyx; exact .inl (.inr h2)
            · refine .inr ⟨y, h1, fun h => ?_⟩
              rcases (s2 y).mp h with h | h
              · exact h2 h
              · exact hyx h
    · intro h
      have := s5 (h x (by simp))
      obtain ⟨rfl, rfl⟩ := Prod.mk.inj this
      exact i5 (fun y hy => h y (by simp [hy]))

theorem complement_spec (xs a : List Nat) (m : Bool) (ha : Increasing a) :
    Increasing (xs.foldl complementStep (a, m)).1 ∧ (∀ y, y ∈ (xs.foldl complementStep (a, m)).1 ↔ y ∈ a ∧ y ∉ xs) ∧
    ((xs.foldl complementStep (a, m)).2 = true ↔ m = true ∨ ∃ x ∈ xs, x ∈ a) ∧ (xs.foldl complementStep (a, m)).1.length ≤ a.length ∧
    ((∀ x ∈ xs, x ∉ a) → xs.foldl complementStep (a, m) = (a, m)) := by
  induction xs generalizing a m with
  | nil => exact ⟨ha, by simp, by simp, by simp, fun _ => rfl⟩
  | cons x xs ih =>
    obtain ⟨s1, s2, s3, s4, s5⟩ := complementStep_spec a m x ha
    simp only [List.foldl_cons]
    obtain ⟨b, m', hb⟩ : ∃ b m', complementStep (a, m) x = (b, m') := ⟨_, _, rfl⟩
    simp only [hb] at s1 s2 s3 s4 s5 ⊢
    obtain ⟨i1, i2, i3, i4, i5⟩ := ih b m' s1
    refine ⟨i1, ?_, ?_, by omega, ?_⟩
    · intro y; rw [i2, s2, List.mem_cons, not_or, and_assoc]
    · rw [i3, s3]
      constructor
      · rintro ((h | h) | ⟨y, h1, h2⟩)
        · exact .inl h
        · exact .inr ⟨x, by simp, h⟩
        · exact .inr ⟨y, by simp [h1], ((s2 y).mp h2).1⟩
      · rintro (h | ⟨y, h1, h2⟩)
        · exact .inl (.inl h)
        · rcases List.mem_cons.mp h1 with rfl | h1
          · exact .inl (.inr h2)
          · by_cases hyx : y = x
            · subst hyx; exact .inl (.inr h2)
            · exact .inr ⟨y, h1, (s2 y).mpr ⟨h2, hyx⟩⟩
    · intro h
      have := s5 (h x (by simp))
      obtain ⟨rfl, rfl⟩ := Prod.mk.inj this
      exact i5 (fun y hy => h y (by simp [hy]))

/-! ## Debug operations -/

/-- The specification: what the operation makes of debug information and breakpoints, as a set. -/
def wanted (img : Config) : Op → Bool × (Nat → Prop)
  | .set (some c) => (c.info, fun x => x ∈ c.breaks.list)
  | .union (some c) => (img.info || c.info, fun x => x ∈ img.breaks.list ∨ x ∈ c.breaks.list)
  | .complement (some c) => (img.info && !c.info, fun x => x ∈ img.breaks.list ∧ x ∉ c.breaks.list)
  | _ => (img.info, fun x => x ∈ img.breaks.list)

/-- A configuration which is kept with an instance or a program. -/
def Valid (c : Config) : Prop := Increasing c.breaks.list ∧ c.breaks.list.length ≤ maxBreakpoints

/-- The configuration which results: the one to rebuild for, or that of the instance. -/
def resulting (i : Inst) (rebuild : Option Config) : Option Config :=
  match rebuild with | some c => some c | none => i.image

def Is (c : Option Config) (w : Bool × (Nat → Prop)) : Prop :=
  ∃ c', c = some c' ∧ Valid c' ∧ c'.info = w.1 ∧ ∀ x, x ∈ c'.breaks.list ↔ w.2 x

theorem setBreakpoints_list (old a : Slice) : (setBreakpoints old a).list = a.list := by
  unfold setBreakpoints; split
  · rename_i h; exact h.2
  · rfl

theorem finish_spec (p : Prog) (i : Inst) (img new : Config) (m : Bool) (i' : Inst) (r : Option Config) (w : Bool × (Nat → Prop))
    (hi : i.image = some img) (hn : Valid new) (hw1 : new.info = w.1) (hw2 : ∀ x, x ∈ new.breaks.list ↔ w.2 x)
    (hv : Valid img) (hm : m = false → img.info = w.1 ∧ ∀ x, x ∈ img.breaks.list ↔ w.2 x)
    (h : finish p i img new m = .ok i' r) : Is (resulting i' r) w ∧ (r = none ∨ i' = i) := by
  unfold finish at h
  cases m with
  | false =>
    simp only [Bool.false_eq_true, if_false, Out.ok.injEq] at h
    obtain ⟨rfl, rfl⟩ := h
    exact ⟨⟨img, hi, hv, hm rfl⟩, .inl rfl⟩
  | true =>
    simp only [if_true] at h
    split at h
    · cases h
    · rename_i pc
      split at h
      · rename_i hc
        simp only [Out.ok.injEq] at h
        obtain ⟨rfl, rfl⟩ := h
        refine ⟨⟨_, rfl, ?_, hw1, ?_⟩, .inl rfl⟩
        · unfold Valid; simp only [setBreakpoints_list]; rw [← hc.2]; exact hn
        · intro x; simp only [setBreakpoints_list]; rw [← hc.2]; exact hw2 x
      · simp only [Out.ok.injEq] at h
        obtain ⟨rfl, rfl⟩ := h
        exact ⟨⟨_, rfl, hn, hw1, hw2⟩, .inr rfl⟩

/-- C34: whenever a debug operation succeeds, the resulting configuration has exactly the breakpoints of
the set operation (replacement, union, difference), in strictly increasing order and at most the
permitted number of them. -/
theorem debug_config (p : Prog) (i : Inst) (img : Config) (op : Op) (i' : Inst) (r : Option Config)
    (hi : i.image = some img) (hv : Valid img) (h : debug p i op = .ok i' r) :
    Is (resulting i' r) (wanted img op) ∧ (r = none ∨ i' = i) := by
  unfold debug at h
  split at h
  · cases h
  · split at h
    · cases h
    · rw [hi] at h
      simp only at h
      cases op with
      | get => exact finish_spec p i img img false i' r _ hi hv rfl (fun _ => Iff.rfl) hv (fun _ => ⟨rfl, fun _ => Iff.rfl⟩) h
      | readStack => exact finish_spec p i img img false i' r _ hi hv rfl (fun _ => Iff.rfl) hv (fun _ => ⟨rfl, fun _ => Iff.rfl⟩) h
      | readGlobals => cases h
      | readMemory => cases h
      | other => cases h
      | set c =>
        rcases c with _ | c
        · cases h
        · simp only at h
          split at h
          · cases h
          · rename_i hl
            have hl : c.breaks.list.length ≤ maxBreakpoints := by omega
            have hlist : Slice.list (c.breaks.map sortDedup) = sortDedup c.breaks.list := by
              rcases c with ⟨_, _ | l⟩
              · simp only [Slice.list, Option.map_none, Option.getD_none]
                have := (sortDedup_spec []).2.2
                simp at this; exact this.symm
              · rfl
            obtain ⟨s1, s2, s3⟩ := sortDedup_spec c.breaks.list
            refine finish_spec p i img ⟨c.info, c.breaks.map sortDedup⟩ _ i' r (wanted img (.set (some c))) hi ?_ rfl ?_ hv ?_ h
            · unfold Valid; simp only [hlist]; exact ⟨s1, by omega⟩
            · intro x; simp only [hlist, wanted]; exact s2 x
            · intro hm
              simp only [ne_eq, decide_eq_false_iff_not, not_or, Decidable.not_not] at hm
              refine ⟨hm.1.symm, ?_⟩
              intro x; rw [← hm.2, hlist]; exact s2 x
      | union c =>
        rcases c with _ | c
        · cases h
        · simp only at h
          split at h
          · cases h
          · rename_i hl
            obtain ⟨s1, s2, s3, s4, s5⟩ := union_spec c.breaks.list img.breaks.list (c.info && !img.info) hv.1
            refine finish_spec p i img ⟨img.info || c.info, some (c.breaks.list.foldl unionStep (img.breaks.list, c.info && !img.info)).1⟩ _ i' r (wanted img (.union (some c))) hi ⟨s1, ?_⟩ rfl s2 hv ?_ h
            · simp only [Slice.list, Option.getD_some] at *; omega
            · intro hm
              have hn : ¬ ((c.info && !img.info) = true ∨ ∃ x ∈ c.breaks.list, x ∉ img.breaks.list) := by
                rw [← s3, hm]; simp
              rw [not_or] at hn
              refine ⟨?_, ?_⟩
              · simp only [wanted]
                cases h1 : c.info <;> cases h2 : img.info <;> simp_all
              · intro x; simp only [wanted]
                constructor
                · exact .inl
                · rintro (h | h)
                  · exact h
                  · by_cases hx : x ∈ img.breaks.list
                    · exact hx
                    · exact absurd ⟨x, h, hx⟩ hn.2
      | complement c =>
        rcases c with _ | c
        · cases h
        · simp only at h
          obtain ⟨s1, s2, s3, s4, s5⟩ := complement_spec c.breaks.list img.breaks.list (c.info && img.info) hv.1
          refine finish_spec p i img ⟨img.info && !c.info, some (c.breaks.list.foldl complementStep (img.breaks.list, c.info && img.info)).1⟩ _ i' r (wanted img (.complement (some c))) hi ⟨s1, ?_⟩ rfl s2 hv ?_ h
          · have := hv.2
            simp only [Slice.list, Option.getD_some] at *; omega
          · intro hm
            have hn : ¬ ((c.info && img.info) = true ∨ ∃ x ∈ c.breaks.list, x ∈ img.breaks.list) := by
              rw [← s3, hm]; simp
            rw [not_or] at hn
            refine ⟨?_, ?_⟩
            · simp only [wanted]
              cases h1 : c.info <;> cases h2 : img.info <;> simp_all
            · intro x; simp only [wanted]
              constructor
              · intro h; exact ⟨h, fun hx => hn.2 ⟨x, hx, h⟩⟩
              · exact fun h => h.1

/-- C34: a configuration is put into use only over the one it was computed from; otherwise the operation is
refused. -/
theorem apply_spec (i : Inst) (img old new : Config) (i' : Inst) (r : Option Config) (hi : i.image = some img) (hn : Valid new)
    (h : apply i old new = .ok i' r) :
    img = old ∧ r = none ∧ Is i'.image (new.info, fun x => x ∈ new.breaks.list) := by
  unfold apply at h
  rw [hi] at h
  simp only at h
  split at h
  · rename_i hc
    simp only [Out.ok.injEq] at h
    obtain ⟨rfl, rfl⟩ := h
    refine ⟨?_, rfl, _, rfl, ?_, rfl, ?_⟩
    · cases img; cases old; simp_all
    · unfold Valid; simp only [setBreakpoints_list]; exact hn
    · intro x; simp only [setBreakpoints_list]
  · cases h

/-- C34: requests for more than the permitted number are refused. -/
theorem too_many_refused (p : Prog) (i : Inst) (img c : Config) (hi : i.image = some img) (hr : i.running = false) :
    (c.breaks.list.length > maxBreakpoints → debug p i (.set (some c)) = .refused "too many breakpoints") ∧
    (img.breaks.list.length + c.breaks.list.length > maxBreakpoints → debug p i (.union (some c)) = .refused "too many breakpoints") := by
  constructor <;> intro h <;> simp [debug, hi, hr, h]

/-- A history of debug operations on one instance, each rebuilt program being applied, with other
configurations (of concurrent requests) tried in between. -/
inductive Event
  | debug (op : Op)
  | applyPending
deriving DecidableEq, Repr

structure Hist where
  inst : Inst
  /-- Rebuilds under way: the configuration they were computed from, and the new one. -/
  pending : List (Config × Config)

def event (p : Prog) (s : Hist) : Event → Hist
  | .debug op =>
    match debug p s.inst op, s.inst.image with
    | .ok i (some c), some img => ⟨i, s.pending ++ [(img, c)]⟩
    | .ok i _, _ => ⟨i, s.pending⟩
    | _, _ => s
  | .applyPending =>
    match s.pending with
    | [] => s
    | (old, new) :: rest =>
      match apply s.inst old new with
      | .ok i _ => ⟨i, rest⟩
      | _ => ⟨s.inst, rest⟩

def Good (s : Hist) : Prop := (∀ c, s.inst.image = some c → Valid c) ∧ ∀ x ∈ s.pending, Valid x.2

/-- C34: after every history of operations, concurrent rebuilds included, the breakpoints of an instance
are in strictly increasing order and at most the permitted number. -/
theorem breakpoints_always_valid (p : Prog) (es : List Event) (s : Hist) (h : Good s) : Good (es.foldl (event p) s) := by
  induction es generalizing s with
  | nil => exact h
  | cons e es ih =>
    apply ih
    obtain ⟨h1, h2⟩ := h
    cases e with
    | debug op =>
      rcases himg : s.inst.image with _ | img
      · have hd : ∀ i r, debug p s.inst op ≠ .ok i r := by
          intro i r hd
          unfold debug at hd
          split at hd
          · cases hd
          · split at hd
            · cases hd
            · rw [himg] at hd; cases hd
        unfold event
        simp only
        split
        · rename_i hd' _; exact absurd hd' (hd _ _)
        · rename_i hd' _; exact absurd hd' (hd _ _)
        · exact ⟨(by rw [himg]; intro c hc; cases hc), h2⟩
      · unfold event
        simp only [himg]
        split
        · rename_i i c img' hd hsome
          simp only [Option.some.injEq] at hsome
          have := debug_config p s.inst img op i (some c) himg (h1 img himg) hd
          obtain ⟨⟨c', hc', hv, _⟩, hor⟩ := this
          simp only [resulting, Option.some.injEq] at hc'
          rcases hor with hor | hor
          · cases hor
          · subst hor
            refine ⟨h1, ?_⟩
            intro x hx
            rcases List.mem_append.mp hx with hx | hx
            · exact h2 x hx
            · simp at hx; subst hx; simp only; rw [hc']; exact hv
        · rename_i i r hd hnot
          have := debug_config p s.inst img op i _ himg (h1 img himg) hd
          obtain ⟨⟨c', hc', hv, _⟩, hor⟩ := this
          refine ⟨?_, h2⟩
          intro c hc
          rcases hor with hor | hor
          · subst hor
            simp only [resulting] at hc'
            simp only at hc
            rw [hc] at hc'; cases hc'; exact hv
          · subst hor; exact h1 c hc
        · exact ⟨h1, h2⟩
    | applyPending =>
      unfold event
      simp only
      split
      · exact ⟨h1, h2⟩
      · rename_i old new rest hp
        have hnew : Valid new := h2 (old, new) (by rw [hp]; simp)
        have hrest : ∀ x ∈ rest, Valid x.2 := fun x hx => h2 x (by rw [hp]; simp [hx])
        split
        · rename_i i r ha
          refine ⟨?_, hrest⟩
          intro c hc
          rcases himg : s.inst.image with _ | img
          · unfold apply at ha; rw [himg] at ha; cases ha
          · obtain ⟨_, _, c', hc', hv, _⟩ := apply_spec s.inst img old new i r himg hnew ha
            simp only at hc
            rw [hc] at hc'; cases hc'; exact hv
        · exact ⟨h1, hrest⟩

/-- C70, the requests which do not crash the handler: the instance exists, the operation is a written one,
its configuration was given, and the program is a snapshot. -/
theorem debug_no_crash_partial (pc : Config) (i : Inst) (img : Config) (op : Op) (hi : i.image = some img)
    (ho : op ≠ .readGlobals ∧ op ≠ .readMemory ∧ op ≠ .set none ∧ op ≠ .union none ∧ op ≠ .complement none) :
    debug (some pc) i op ≠ .crash := by
  have hf : ∀ new m, finish (some pc) i img new m ≠ .crash := by
    intro new m
    unfold finish
    split
    · simp only; split <;> simp
    · simp
  unfold debug
  split
  · simp
  · split
    · simp
    · rw [hi]
      rcases op with _ | (_ | c) | (_ | c) | (_ | c) | _ | _ | _ | _ <;> simp at ho <;> simp only
      · exact hf _ _
      · split
        · simp
        · exact hf _ _
      · split
        · simp
        · exact hf _ _
      · exact hf _ _
      · exact hf _ _
      · contradiction

/-- Refutes C70 for the ordinary program, which is not a snapshot: every operation which would change the
configuration crashes the handler, whatever the instance. -/
theorem debug_crashes_on_change (i : Inst) (img : Config) (op : Op) (hi : i.image = some img) (hv : Valid img) (hr : i.running = false)
    (hop : ∃ c, op = .set (some c) ∨ op = .union (some c) ∨ op = .complement (some c))
    (hl : ∀ m, debug none i op ≠ .refused m)
    (hc : ¬ ((wanted img op).1 = img.info ∧ ∀ x, (wanted img op).2 x ↔ x ∈ img.breaks.list)) : debug none i op = .crash := by
  rcases ho : debug none i op with m | _ | ⟨i', r⟩
  · exact absurd ho (hl m)
  · rfl
  · exfalso
    obtain ⟨⟨c', h1, h2, h3, h4⟩, _⟩ := debug_config none i img op i' r hi hv ho
    apply hc
    have hok : i' = i ∧ r = none := by
      have hf : ∀ new m, finish none i img new m = .ok i' r → i' = i ∧ r = none := by
        intro new m h
        unfold finish at h
        split at h
        · cases h
        · simp only [Out.ok.injEq] at h; exact ⟨h.1.symm, h.2.symm⟩
      unfold debug at ho
      split at ho
      · cases ho
      · split at ho
        · cases ho
        · rw [hi] at ho
          obtain ⟨c, rfl | rfl | rfl⟩ := hop <;> simp only at ho
          · split at ho
            · cases ho
            · exact hf _ _ ho
          · split at ho
            · cases ho
            · exact hf _ _ ho
          · exact hf _ _ ho
    obtain ⟨rfl, rfl⟩ := hok
    simp only [resulting] at h1
    rw [hi, Option.some.injEq] at h1
    subst h1
    exact ⟨h3.symm, fun x => (h4 x).symm⟩

/-- A plain program's suspended instance, and a client which sets a breakpoint, or which forgets the
configuration, or which asks for memory. -/
theorem debug_crashes :
    debug none ⟨false, some ⟨false, none⟩, false⟩ (.set (some ⟨false, some [16]⟩)) = .crash ∧
    debug (some ⟨false, none⟩) ⟨false, some ⟨false, none⟩, false⟩ (.set none) = .crash ∧
    debug (some ⟨false, none⟩) ⟨false, some ⟨false, none⟩, false⟩ .readMemory = .crash := by decide +kernel

example : debug (some ⟨false, none⟩) ⟨false, some ⟨false, some [4, 9]⟩, true⟩ (.union (some ⟨true, some [7, 4, 1]⟩)) =
    .ok ⟨false, some ⟨false, some [4, 9]⟩, true⟩ (some ⟨true, some [1, 4, 7, 9]⟩) := by decide +kernel
example : debug (some ⟨false, some [4]⟩) ⟨false, some ⟨false, some [4, 9]⟩, true⟩ (.complement (some ⟨false, some [9, 10]⟩)) =
    .ok ⟨false, some ⟨false, some [4]⟩, false⟩ none := by decide +kernel

/-- Removing the last breakpoint does not go back to the program itself: the empty list is not taken to be
equal to the program's missing one, and the program is rebuilt. -/
theorem empty_is_not_nil : debug (some ⟨false, none⟩) ⟨false, some ⟨false, some [4]⟩, true⟩ (.complement (some ⟨false, some [4]⟩)) =
    .ok ⟨false, some ⟨false, some [4]⟩, true⟩ (some ⟨false, some []⟩) := by decide +kernel

end Gate.Dbg
