import Verif.Sharder
/-
C29: taking a process from several channels. The claim is refuted for every number of
channels; what holds is proved with the suffix `_partial`.
-/
namespace Gate.Sharder
open Gate

theorem fill_length (c : Nat) : ∀ (v k : Nat), (fill c v k).length = k := by
  intro v k
  induction k generalizing v with
  | zero => rfl
  | succ k ih => simp [fill, ih]

/-- The `j`-th value of the initial list: the channels in order, without `c`. -/
theorem fill_get (c : Nat) : ∀ (k v j : Nat), j < k →
    (fill c v k)[j]? = some (if v ≤ c ∧ c ≤ v + j then v + j + 1 else v + j) := by
  intro k
  induction k with
  | zero => intro v j h; omega
  | succ k ih =>
    intro v j h
    cases j with
    | zero =>
      simp only [fill, List.getElem?_cons_zero, Nat.add_zero]
      congr 1
      split <;> split <;> omega
    | succ j =>
      simp only [fill, List.getElem?_cons_succ]
      rw [ih _ _ (by omega)]
      congr 1
      split <;> split <;> split <;> omega

theorem fill_lt (c n : Nat) (hc : c < n) : ∀ x ∈ fill c 0 (n - 1), x < n ∧ x ≠ c := by
  intro x hx
  obtain ⟨j, hj⟩ := List.mem_iff_getElem?.mp hx
  have hl := List.getElem?_eq_some_iff.mp hj
  obtain ⟨hlt, _⟩ := hl
  rw [fill_length] at hlt
  rw [fill_get _ _ _ _ hlt] at hj
  simp only [Option.some.injEq] at hj
  split at hj <;> omega

/-- Invariants of the loop: an item which is returned was offered by a tried channel, the
channels tried are valid, and there are no more attempts than channels left. -/
theorem loop_spec {α : Type} (n first : Nat) (draw : Nat → Nat) (poll : Nat → Nat → Offer α) :
    ∀ (k i : Nat) (u : List Nat), u.length = k → (∀ x ∈ u, x < n) →
      (loop first draw poll i u).2.length ≤ k ∧
      (∀ c ∈ (loop first draw poll i u).2, c < n) ∧
      (∀ x, (loop first draw poll i u).1 = .item x → ∃ j c, i ≤ j ∧ c < n ∧ poll j c = .item x) ∧
      ((loop first draw poll i u).1 = .closed → ∃ j c, i ≤ j ∧ c < n ∧ poll j c = .closed) ∧
      (∀ c, (loop first draw poll i u).1 = .block c → c = first) := by
  intro k
  induction k with
  | zero =>
    intro i u hk hu
    rw [loop]
    simp only [hk, dif_pos]
    refine ⟨by simp, by simp, by simp, by simp, fun c h => ?_⟩
    cases h; rfl
  | succ k ih =>
    intro i u hk hu
    have hne : ¬ u.length = 0 := by omega
    rw [loop]
    simp only [dif_neg hne]
    generalize hch : u[draw i % u.length]'(Nat.mod_lt _ (by omega)) = ch
    have hchn : ch < n := hu _ (hch ▸ List.getElem_mem _)
    cases hp : poll i ch with
    | item x =>
      simp only
      refine ⟨by simp, by simpa using hchn, ?_, (by intro h; cases h), (by intro c h; cases h)⟩
      intro y h; cases h
      exact ⟨i, ch, Nat.le_refl _, hchn, hp⟩
    | closed =>
      simp only
      exact ⟨by simp, by simpa using hchn, (by intro y h; cases h),
        fun _ => ⟨i, ch, Nat.le_refl _, hchn, hp⟩, (by intro c h; cases h)⟩
    | empty =>
      simp only
      split
      · rename_i hc
        have hu' : ∀ x ∈ u.take ch ++ u.drop (ch + 1), x < n := by
          intro x hx
          rcases List.mem_append.mp hx with h | h
          · exact hu _ (List.mem_of_mem_take h)
          · exact hu _ (List.mem_of_mem_drop h)
        obtain ⟨h1, h2, h3, h4, h5⟩ := ih (i + 1) (u.take ch ++ u.drop (ch + 1)) (by simp; omega) hu'
        refine ⟨by simpa using h1, ?_, ?_, ?_, h5⟩
        · intro c hcm
          rcases List.mem_cons.mp hcm with h | h
          · omega
          · exact h2 c h
        · intro x hx
          obtain ⟨j, c, hj, hc, hpp⟩ := h3 x hx
          exact ⟨j, c, by omega, hc, hpp⟩
        · intro hx
          obtain ⟨j, c, hj, hc, hpp⟩ := h4 hx
          exact ⟨j, c, by omega, hc, hpp⟩
      · refine ⟨by simp, by simpa using hchn, (by intro y h; cases h), (by intro h; cases h), (by intro c h; cases h)⟩

/-- C29, the part which holds: whatever the random numbers and the channels do, a process
is one which some channel offered, "closed" is reported only if a channel was closed, and no
more than `n` attempts are made; it never waits on any channel but a valid one. -/
theorem outcome_sound_partial {α : Type} (n : Nat) (draw : Nat → Nat) (poll : Nat → Nat → Offer α) :
    (newProcess n draw poll).2.length ≤ n ∧
    (∀ c ∈ (newProcess n draw poll).2, c < n) ∧
    (∀ x, (newProcess n draw poll).1 = .item x → ∃ j c, c < n ∧ poll j c = .item x) ∧
    ((newProcess n draw poll).1 = .closed → ∃ j c, c < n ∧ poll j c = .closed) ∧
    (∀ c, (newProcess n draw poll).1 = .block c → c < n) := by
  unfold newProcess
  by_cases hn : n = 0
  · rw [if_pos hn]
    refine ⟨by simp, by simp, (by intro y h; cases h), (by intro h; cases h), (by intro c h; cases h)⟩
  rw [if_neg hn]
  have hf : draw 0 % n < n := Nat.mod_lt _ (by omega)
  generalize draw 0 % n = f at hf
  simp only
  cases hp : poll 0 f with
  | item x =>
    refine ⟨by simp; omega, by simpa using hf, ?_, (by intro h; cases h), (by intro c h; cases h)⟩
    intro y h; cases h
    exact ⟨0, f, hf, hp⟩
  | closed =>
    exact ⟨by simp; omega, by simpa using hf, (by intro y h; cases h), fun _ => ⟨0, f, hf, hp⟩, (by intro c h; cases h)⟩
  | empty =>
    obtain ⟨h1, h2, h3, h4, h5⟩ := loop_spec n f draw poll (n - 1) 1 (fill f 0 (n - 1)) (fill_length _ _ _)
      (fun x hx => (fill_lt f n hf x hx).1)
    refine ⟨by simp only [List.length_cons]; omega, ?_, ?_, ?_, ?_⟩
    · intro c hc
      rcases List.mem_cons.mp hc with h | h
      · omega
      · exact h2 c h
    · intro x hx
      obtain ⟨j, c, _, hc, hpp⟩ := h3 x hx
      exact ⟨j, c, hc, hpp⟩
    · intro hx
      obtain ⟨j, c, _, hc, hpp⟩ := h4 hx
      exact ⟨j, c, hc, hpp⟩
    · intro c hc
      rw [h5 c hc]; exact hf

/-- C29, the part which holds: if all the channels stay ready, or the first one chosen is,
the process is taken from the first choice; if only the first choice is empty, the process
is taken from another channel. -/
theorem ready_taken_partial {α : Type} (n : Nat) (hn : 2 ≤ n) (draw : Nat → Nat) (poll : Nat → Nat → Offer α)
    (hready : ∀ c, c < n → c ≠ draw 0 % n → ∃ x, poll 1 c = .item x) :
    ((∃ x, poll 0 (draw 0 % n) = .item x ∧ (newProcess n draw poll).1 = .item x) ∨
     (poll 0 (draw 0 % n) = .closed ∧ (newProcess n draw poll).1 = .closed) ∨
     (poll 0 (draw 0 % n) = .empty ∧ ∃ c x, c < n ∧ c ≠ draw 0 % n ∧ poll 1 c = .item x ∧ (newProcess n draw poll).1 = .item x)) := by
  unfold newProcess
  rw [if_neg (by omega)]
  have hf : draw 0 % n < n := Nat.mod_lt _ (by omega)
  generalize draw 0 % n = f at *
  simp only
  cases hp : poll 0 f with
  | item x => exact Or.inl ⟨x, rfl, rfl⟩
  | closed => exact Or.inr (Or.inl ⟨rfl, rfl⟩)
  | empty =>
    refine Or.inr (Or.inr ⟨rfl, ?_⟩)
    rw [loop]
    have hl : (fill f 0 (n - 1)).length = n - 1 := fill_length _ _ _
    have hne : ¬ (fill f 0 (n - 1)).length = 0 := by omega
    simp only [dif_neg hne]
    generalize hch : (fill f 0 (n - 1))[draw 1 % (fill f 0 (n - 1)).length]'(Nat.mod_lt _ (by omega)) = ch
    have hm : ch ∈ fill f 0 (n - 1) := hch ▸ List.getElem_mem _
    obtain ⟨hlt, hneq⟩ := fill_lt f n hf ch hm
    obtain ⟨x, hx⟩ := hready ch hlt hneq
    exact ⟨ch, x, hlt, hneq, hx, by simp [hx]⟩

/-- C29 is false: for every number of executors there are random choices with which the
server panics as soon as two of the channels are momentarily empty, even though all the
other channels have processes. -/
theorem distribution_panics {α : Type} (n : Nat) (hn : 2 ≤ n) (x : α) :
    ∃ draw : Nat → Nat, ∃ poll : Nat → Nat → Offer α,
      (∀ i c, c ≠ 0 → c ≠ n - 1 → poll i c = .item x) ∧
      (newProcess n draw poll).1 = .panic := by
  refine ⟨fun i => if i = 0 then 0 else n - 2, fun _ c => if c = 0 ∨ c = n - 1 then .empty else .item x, ?_, ?_⟩
  · intro i c h0 h1
    simp [h0, h1]
  · unfold newProcess
    rw [if_neg (by omega)]
    simp only [if_pos, Nat.zero_mod, true_or]
    have hl : (fill 0 0 (n - 1)).length = n - 1 := fill_length _ _ _
    rw [loop]
    have hne : ¬ (fill 0 0 (n - 1)).length = 0 := by omega
    simp only [dif_neg hne]
    have hg : (fill 0 0 (n - 1))[(if 1 = 0 then 0 else n - 2) % (fill 0 0 (n - 1)).length]'(Nat.mod_lt _ (by omega)) = n - 1 := by
      have h := fill_get 0 (n - 1) 0 (n - 2) (by omega)
      rw [if_pos (by omega)] at h
      obtain ⟨hlt, he⟩ := List.getElem?_eq_some_iff.mp h
      have hi : (if 1 = 0 then 0 else n - 2) % (fill 0 0 (n - 1)).length = n - 2 := by
        rw [if_neg (by omega), hl]
        exact Nat.mod_eq_of_lt (by omega)
      simp only [hi, he]
      omega
    simp only [hg, or_true, if_true]
    rw [dif_neg (by omega)]

/-- With two executors, every time both channels are empty and the first one was chosen
first, the server panics: there is no other outcome. -/
theorem two_executors_panic {α : Type} (draw : Nat → Nat) (poll : Nat → Nat → Offer α)
    (h0 : draw 0 % 2 = 0) (he : poll 0 0 = .empty) (he' : poll 1 1 = .empty) :
    (newProcess 2 draw poll).1 = .panic := by
  unfold newProcess
  rw [if_neg (by omega), h0]
  simp only [he]
  rw [loop]
  simp only [fill, List.length_cons, List.length_nil]
  simp [he']

/-- No executors at all: `DistributeProcesses()` yields a factory that always panics. -/
theorem no_executors_panic {α : Type} (draw : Nat → Nat) (poll : Nat → Nat → Offer α) :
    (newProcess 0 draw poll).1 = .panic := rfl

/-- C29 is false in another way: with four executors a channel is tried three times while one
that has a process all the time is never tried. -/
theorem wrong_channel_removed :
    (newProcess 4 (fun _ => 0) (fun _ c => if c = 2 then Offer.item 7 else .empty)) = (.panic, [0, 1, 1, 1]) := by
  decide +kernel

/-- If all the channels stay empty, the loop survives only by trying the channels in
descending order, each at its own position. -/
theorem loop_all_empty {α : Type} (first : Nat) (draw : Nat → Nat) (poll : Nat → Nat → Offer α)
    (he : ∀ i c, poll i c = .empty) :
    ∀ (k i : Nat) (u : List Nat), u.length = k → u.Pairwise (· < ·) → (loop first draw poll i u).1 ≠ .panic →
      u = List.range k ∧ (loop first draw poll i u).2 = (List.range k).reverse := by
  intro k
  induction k with
  | zero =>
    intro i u hk _ _
    have : u = [] := List.length_eq_zero_iff.mp hk
    subst this
    rw [loop]
    simp
  | succ k ih =>
    intro i u hk hs hnp
    have hne : ¬ u.length = 0 := by omega
    rw [loop] at hnp ⊢
    simp only [dif_neg hne, he] at hnp ⊢
    generalize hch : u[draw i % u.length]'(Nat.mod_lt _ (by omega)) = ch at hnp ⊢
    by_cases hc : ch + 1 ≤ u.length
    · simp only [dif_pos hc] at hnp ⊢
      have hsub : (u.take ch ++ u.drop (ch + 1)).Pairwise (· < ·) := by
        have h2 : (u.take ch ++ u.drop (ch + 1)) = u.eraseIdx ch := by
          rw [List.eraseIdx_eq_take_drop_succ]
        rw [h2]
        exact hs.sublist (List.eraseIdx_sublist _ _)
      obtain ⟨h1, h2⟩ := ih (i + 1) _ (by simp; omega) hsub hnp
      have hmono : ∀ (a b : Nat) (ha : a < u.length) (hb : b < u.length), a < b → u[a] < u[b] :=
        fun a b ha hb hab => List.pairwise_iff_getElem.mp hs a b ha hb hab
      have hidx : ∀ (a : Nat) (ha : a < u.length), a ≤ u[a] := by
        intro a
        induction a with
        | zero => intro _; exact Nat.zero_le _
        | succ a iha =>
          intro ha
          have := iha (by omega)
          have := hmono a (a + 1) (by omega) ha (by omega)
          omega
      have hget : ∀ j : Nat, (u.take ch ++ u.drop (ch + 1))[j]? = (List.range k)[j]? := fun j => by rw [h1]
      have hck : ch = k := by
        by_cases hlt : ch = k
        · exact hlt
        · exfalso
          have hg := hget (k - 1)
          rw [List.getElem?_append_right (by simp; omega)] at hg
          rw [List.getElem?_range (by omega)] at hg
          rw [List.getElem?_drop] at hg
          have hix : ch + 1 + (k - 1 - (u.take ch).length) = k := by simp; omega
          rw [hix, List.getElem?_eq_getElem (by omega)] at hg
          have := hidx k (by omega)
          simp only [Option.some.injEq] at hg
          omega
      subst hck
      have hpre : ∀ (a : Nat) (ha : a < u.length), a < ch → u[a] = a := by
        intro a ha hac
        have hg := hget a
        rw [List.getElem?_append_left (by simp; omega), List.getElem?_take, if_pos hac,
          List.getElem?_eq_getElem ha, List.getElem?_range hac] at hg
        simpa using hg
      have hj : draw i % u.length < u.length := Nat.mod_lt _ (by omega)
      have hjk : draw i % u.length = ch := by
        by_cases hjl : draw i % u.length < ch
        · have := hpre _ hj hjl
          omega
        · omega
      refine ⟨?_, by rw [h2]; simp [List.range_succ]⟩
      apply List.ext_getElem
      · simp [hk]
      · intro a ha hb
        rw [List.getElem_range]
        by_cases hac : a < ch
        · exact hpre a ha hac
        · have : a = ch := by omega
          subst this
          have : u[a] = u[draw i % u.length] := by congr 1; omega
          rw [this, hch]
    · simp only [dif_neg hc] at hnp
      exact absurd rfl hnp

/-- How badly C29 fails: when all the channels are empty during the call, waiting is reached
with exactly one of the orders in which the channels can be chosen; every other order panics. -/
theorem all_empty {α : Type} (n : Nat) (draw : Nat → Nat) (poll : Nat → Nat → Offer α)
    (he : ∀ i c, poll i c = .empty) :
    (newProcess n draw poll).1 = .panic ∨
    ((newProcess n draw poll).1 = .block (n - 1) ∧ (newProcess n draw poll).2 = (List.range n).reverse) := by
  unfold newProcess
  by_cases hn : n = 0
  · rw [if_pos hn]; exact Or.inl rfl
  rw [if_neg hn]
  have hf : draw 0 % n < n := Nat.mod_lt _ (by omega)
  generalize draw 0 % n = f at hf
  simp only [he]
  by_cases hp : (loop f draw poll 1 (fill f 0 (n - 1))).1 = .panic
  · exact Or.inl hp
  · right
    have hs : (fill f 0 (n - 1)).Pairwise (· < ·) := by
      rw [List.pairwise_iff_getElem]
      intro i j hi hj hij
      rw [fill_length] at hi hj
      have h1 := fill_get f (n - 1) 0 i hi
      have h2 := fill_get f (n - 1) 0 j hj
      obtain ⟨_, h1⟩ := List.getElem?_eq_some_iff.mp h1
      obtain ⟨_, h2⟩ := List.getElem?_eq_some_iff.mp h2
      rw [h1, h2]
      split <;> split <;> omega
    obtain ⟨h1, h2⟩ := loop_all_empty f draw poll he (n - 1) 1 _ (fill_length _ _ _) hs hp
    have hfn : f = n - 1 := by
      by_cases hlt : f < n - 1
      · exfalso
        have h := fill_get f (n - 1) 0 f hlt
        rw [h1, List.getElem?_range hlt, if_pos (by omega)] at h
        simp only [Option.some.injEq] at h
        omega
      · omega
    have hspec := loop_spec n f draw poll (n - 1) 1 (fill f 0 (n - 1)) (fill_length _ _ _)
      (fun x hx => (fill_lt f n hf x hx).1)
    refine ⟨?_, ?_⟩
    · cases ho : (loop f draw poll 1 (fill f 0 (n - 1))).1 with
      | item x => obtain ⟨j, c, _, _, h⟩ := hspec.2.2.1 x ho; rw [he] at h; cases h
      | closed => obtain ⟨j, c, _, _, h⟩ := hspec.2.2.2.1 ho; rw [he] at h; cases h
      | block c => rw [hspec.2.2.2.2 c ho, hfn]
      | panic => exact absurd ho hp
    · rw [h2]
      obtain ⟨m, rfl⟩ : ∃ m, n = m + 1 := ⟨n - 1, by omega⟩
      simp only [Nat.add_sub_cancel] at hfn ⊢
      rw [List.range_succ, List.reverse_append, hfn]
      rfl

/-- The one order which works, with three executors. -/
example : newProcess 3 (fun i => 2 - i) (fun _ _ => (Offer.empty : Offer Nat)) = (.block 2, [2, 1, 0]) := by
  decide +kernel

/-- The hypotheses of `ready_taken_partial` are met by a case in which the first choice is empty. -/
example : (newProcess 3 (fun i => i + 1) (fun _ c => if c = 1 then Offer.empty else .item c)) = (.item 0, [1, 0]) := by
  decide +kernel

end Gate.Sharder
