import Verif.InstIds
namespace Gate.InstIds
open Gate.Life Gate.Process

/-! ### Specification -/

/-- The instance with the number has the id, and is found by it. -/
def Found (w : World) (id : String) (k : Nat) : Prop := ∃ s, w.objs[k]? = some (id, s) ∧ s.registered = true

/-! ### One instance, without its storage -/

structure J (s : St) : Prop where
  phase : match s.phase with
    | .created | .unborn => s.present = false
    | .resumed => s.status.state = .running ∧ s.process = true
    | .driving => s.status.state = .running
    | .lost => s.status.state = .running ∧ s.image = none
    | .quiet => True
  listed : s.registered = true → s.present = false → s.phase = .created ∨ 0 < s.removals
  gone : s.registered = false ∨ 0 < s.removals → (s.phase = .unborn ∨ s.phase = .lost ∨ (s.phase = .quiet ∧ s.present = false))

theorem j_launch (t su : Bool) (md : Meta) (e : Nat) : J (Life.launch t su md e) := by
  constructor <;> simp [Life.launch]

theorem j_file (s : St) (f : Option Meta) (h : J s) : J { s with file := f } := ⟨h.phase, h.listed, h.gone⟩

theorem j_step (s : St) (h : J s) (l : Life.Label) (s' : St) (r : Life.Resp) (hs : Life.step s l = some (s', r)) : J s' := by
  obtain ⟨h1, h3, h2⟩ := h
  cases l
  all_goals simp only [Life.step, Life.start, Life.resumeCheck, Life.cleanup, Life.doAnnihilate, St.close] at hs
  all_goals repeat' split at hs
  all_goals try cases hs
  all_goals try simp only [Option.some.injEq, Prod.mk.injEq, reduceCtorEq] at hs
  all_goals constructor
  all_goals grind

/-- Gone: not found by its id, ever again. -/
theorem unregistered_step (s : St) (l : Life.Label) (s' : St) (r : Life.Resp) (hs : Life.step s l = some (s', r)) (h : s.registered = false) : s'.registered = false := by
  cases l
  all_goals simp only [Life.step, Life.start, Life.resumeCheck, Life.cleanup, Life.doAnnihilate, St.close] at hs
  all_goals repeat' split at hs
  all_goals try cases hs
  all_goals try simp only [Option.some.injEq, Prod.mk.injEq, reduceCtorEq] at hs
  all_goals grind

/-- An instance which isn't found by its id any more doesn't touch the storage. -/
theorem gone_file (s : St) (h : J s) (hg : s.registered = false) (l : Life.Label) (s' : St) (r : Life.Resp) (hs : Life.step s l = some (s', r)) : s'.file = s.file := by
  obtain ⟨h1, -, h2⟩ := h
  replace h2 := h2 (Or.inl hg)
  cases l
  all_goals simp only [Life.step, Life.start, Life.resumeCheck, Life.cleanup, Life.doAnnihilate, St.close] at hs
  all_goals repeat' split at hs
  all_goals try cases hs
  all_goals try simp only [Option.some.injEq, Prod.mk.injEq, reduceCtorEq] at hs
  all_goals grind

/-- Only a removal takes an instance from where it's found. -/
theorem registered_step (s : St) (l : Life.Label) (s' : St) (r : Life.Resp) (hs : Life.step s l = some (s', r)) (h : s.registered = true) (hl : l ≠ .remove) : s'.registered = true := by
  cases l
  all_goals simp only [Life.step, Life.start, Life.resumeCheck, Life.cleanup, Life.doAnnihilate, St.close] at hs
  all_goals repeat' split at hs
  all_goals try cases hs
  all_goals try simp only [Option.some.injEq, Prod.mk.injEq, reduceCtorEq] at hs
  all_goals grind

/-! ### All instances -/

structure Good (w : World) : Prop where
  each : ∀ (k : Nat) (id : String) (s : St), w.objs[k]? = some (id, s) → J s
  unique : ∀ (j k : Nat) (id : String), Found w id j → Found w id k → j = k

theorem taken_iff (w : World) (id : String) : taken w id = true ↔ ∃ k, Found w id k := by
  simp only [taken, List.any_eq_true, Bool.and_eq_true, beq_iff_eq, Found]
  constructor
  · rintro ⟨⟨i, s⟩, hm, rfl, hr⟩
    obtain ⟨k, hk⟩ := List.mem_iff_getElem?.1 hm
    exact ⟨k, s, hk, hr⟩
  · rintro ⟨k, s, hk, hr⟩
    exact ⟨(id, s), List.mem_iff_getElem?.2 ⟨k, hk⟩, rfl, hr⟩

theorem getElem?_push {α : Type} (l : List α) (a : α) (k : Nat) (x : α) (h : (l ++ [a])[k]? = some x) : l[k]? = some x ∨ (k = l.length ∧ x = a) := by
  by_cases hk : k < l.length
  · rw [List.getElem?_append_left hk] at h; exact Or.inl h
  · rw [List.getElem?_append_right (by omega)] at h
    have : k - l.length = 0 := by
      apply Classical.byContradiction
      intro hne
      rw [List.getElem?_eq_none (by simp; omega)] at h
      cases h
    rw [this] at h
    exact Or.inr ⟨by omega, by simpa using h.symm⟩

theorem good_step (w : World) (h : Good w) (l : Label) (w' : World) (r : Resp) (hs : step w l = some (w', r)) : Good w' := by
  cases l with
  | launch id t su md e =>
    simp only [step] at hs
    split at hs
    · cases hs; exact h
    · rename_i ht
      cases hs
      have hno : ∀ k, ¬ Found w id k := fun k hk => ht ((taken_iff w id).2 ⟨k, hk⟩)
      refine ⟨?_, ?_⟩
      · intro k i s hk
        rcases getElem?_push _ _ _ _ hk with hk | ⟨_, hk⟩
        · exact h.each k i s hk
        · cases hk; exact j_launch ..
      · intro j k i hj hk
        obtain ⟨sj, hj, rj⟩ := hj
        obtain ⟨sk, hk, rk⟩ := hk
        rcases getElem?_push _ _ _ _ hj with hj | ⟨ej, hj⟩ <;> rcases getElem?_push _ _ _ _ hk with hk | ⟨ek, hk⟩
        · exact h.unique j k i ⟨sj, hj, rj⟩ ⟨sk, hk, rk⟩
        · cases hk; exact absurd ⟨sj, hj, rj⟩ (hno j)
        · cases hj; exact absurd ⟨sk, hk, rk⟩ (hno k)
        · omega
  | op k l =>
    simp only [step] at hs
    split at hs
    · cases hs
    · rename_i id s hk
      split at hs
      · cases hs
      · rename_i s' r' hl
        cases hs
        have hj := j_file s (w.files id) (h.each k id s hk)
        have hfound : ∀ j i, (∃ x, (w.objs.set k (id, s'))[j]? = some (i, x) ∧ x.registered = true) → Found w i j := by
          rintro j i ⟨x, hx, hr⟩
          by_cases e : k = j
          · subst e
            have hlt : k < w.objs.length := by
              rcases Nat.lt_or_ge k w.objs.length with h | h
              · exact h
              · rw [List.getElem?_eq_none h] at hk; cases hk
            rw [List.getElem?_set_self hlt] at hx
            cases hx
            refine ⟨s, hk, ?_⟩
            cases hreg : s.registered with
            | true => rfl
            | false => rw [unregistered_step _ l s' r' hl hreg] at hr; cases hr
          · rw [List.getElem?_set_ne e] at hx
            exact ⟨x, hx, hr⟩
        refine ⟨?_, fun a b i ha hb => h.unique a b i (hfound a i ha) (hfound b i hb)⟩
        intro j i x hx
        by_cases e : k = j
        · subst e
          have hlt : k < w.objs.length := by
            rcases Nat.lt_or_ge k w.objs.length with h | h
            · exact h
            · rw [List.getElem?_eq_none h] at hk; cases hk
          simp only at hx
          rw [List.getElem?_set_self hlt] at hx
          cases hx
          exact j_step _ hj l s' r' hl
        · simp only at hx
          rw [List.getElem?_set_ne e] at hx
          exact h.each j i x hx

theorem good (w : World) (h : Reach w) : Good w := by
  induction h with
  | init => exact ⟨by simp, by rintro j k id ⟨s, h, _⟩; simp at h⟩
  | step _ hs ih => exact good_step _ ih _ _ _ hs

/-! ### Properties -/

/-- An id names one instance at a time. -/
theorem one_at_a_time (w : World) (h : Reach w) (id : String) (j k : Nat) (hj : Found w id j) (hk : Found w id k) : j = k := (good w h).unique j k id hj hk

/-- A launch gets its id exactly if no instance is found by it; of two, whichever is first gets it. -/
theorem launch_iff (w : World) (id : String) (t su : Bool) (md : Meta) (e : Nat) :
    ((∃ k, Found w id k) → step w (.launch id t su md e) = some (w, .exists_)) ∧
    ((¬ ∃ k, Found w id k) → ∃ w', step w (.launch id t su md e) = some (w', .launched w.objs.length) ∧ Found w' id w.objs.length ∧ w'.files = w.files ∧
      ∀ (k : Nat) x, w.objs[k]? = some x → w'.objs[k]? = some x) := by
  refine ⟨fun h => ?_, fun h => ?_⟩
  · simp only [step, if_pos ((taken_iff w id).2 h)]
  · rw [← taken_iff] at h
    refine ⟨{ w with objs := w.objs ++ [(id, Life.launch t su md e)] }, by simp only [step, if_neg h], ⟨Life.launch t su md e, by simp, rfl⟩, rfl, fun k x hk => ?_⟩
    have hlt : k < w.objs.length := by
      rcases Nat.lt_or_ge k w.objs.length with h | h
      · exact h
      · rw [List.getElem?_eq_none h] at hk; cases hk
    simp only; rw [List.getElem?_append_left hlt, hk]

/-- What is done with an instance doesn't concern any other instance, nor what is stored for other ids; and if the instance isn't found by its id any more, nor what is stored for its own id. -/
theorem no_crosstalk (w : World) (h : Reach w) (k : Nat) (l : Life.Label) (w' : World) (r : Resp) (hs : step w (.op k l) = some (w', r)) :
    (∀ j : Nat, j ≠ k → w'.objs[j]? = w.objs[j]?) ∧ ∃ id s, w.objs[k]? = some (id, s) ∧ (∀ i, i ≠ id → w'.files i = w.files i) ∧ (s.registered = false → w'.files = w.files) := by
  have hg := good w h
  simp only [step] at hs
  split at hs
  · cases hs
  · rename_i id s hk
    split at hs
    · cases hs
    · rename_i s' r' hl
      cases hs
      refine ⟨fun j hj => List.getElem?_set_ne (Ne.symm hj), id, s, hk, fun i hi => if_neg hi, fun hr => ?_⟩
      have := gone_file _ (j_file s (w.files id) (hg.each k id s hk)) hr l s' r' hl
      funext i
      by_cases e : i = id
      · simp [e, this]
      · simp [e]

/-- So an operation on an earlier instance of the id doesn't destroy the later one or what is stored of it. -/
theorem later_safe (w : World) (h : Reach w) (id : String) (j k : Nat) (hne : j ≠ k) (s : St) (hj : w.objs[j]? = some (id, s)) (hk : Found w id k) (l : Life.Label) (w' : World) (r : Resp)
    (hs : step w (.op j l) = some (w', r)) : Found w' id k ∧ w'.objs[k]? = w.objs[k]? ∧ w'.files = w.files := by
  obtain ⟨h1, id', s', h2, _, h3⟩ := no_crosstalk w h j l w' r hs
  rw [hj] at h2; cases h2
  have hreg : s.registered = false := by
    cases hr : s.registered with
    | false => rfl
    | true => exact absurd (one_at_a_time w h id j k ⟨s, hj, hr⟩ hk) hne
  obtain ⟨sk, hk1, hk2⟩ := hk
  exact ⟨⟨sk, by rw [h1 k (Ne.symm hne)]; exact hk1, hk2⟩, h1 k (Ne.symm hne), h3 hreg⟩

/-- Once an instance isn't found by its id, it never is. -/
theorem lost_forever (w : World) (k : Nat) (id : String) (s : St) (hk : w.objs[k]? = some (id, s)) (hr : s.registered = false) (ls : List Label) (w' : World) (rs : List Resp)
    (hrun : run w ls = some (w', rs)) : ¬ Found w' id k := by
  suffices H : ∃ s', w'.objs[k]? = some (id, s') ∧ s'.registered = false by
    obtain ⟨s', h1, h2⟩ := H
    rintro ⟨x, h3, h4⟩
    rw [h1] at h3; cases h3
    rw [h2] at h4; cases h4
  induction ls generalizing w s rs with
  | nil => cases hrun; exact ⟨s, hk, hr⟩
  | cons l ls ih =>
    simp only [run] at hrun
    split at hrun
    · cases hrun
    · rename_i w1 r1 h1
      split at hrun
      · cases hrun
      · rename_i w2 rs2 h2
        cases hrun
        have hlt : k < w.objs.length := by
          rcases Nat.lt_or_ge k w.objs.length with h | h
          · exact h
          · rw [List.getElem?_eq_none h] at hk; cases hk
        cases l with
        | launch i t su md e =>
          simp only [step] at h1
          split at h1
          · cases h1; exact ih w s hk hr rs2 h2
          · cases h1
            exact ih _ s (by simp only; rw [List.getElem?_append_left hlt, hk]) hr rs2 h2
        | op j l =>
          simp only [step] at h1
          split at h1
          · cases h1
          · rename_i id' x hj
            split at h1
            · cases h1
            · rename_i s' r' hl
              cases h1
              by_cases e : j = k
              · subst e
                rw [hk] at hj; cases hj
                exact ih _ s' (by simp only; rw [List.getElem?_set_self hlt]) (unregistered_step _ l s' r' hl hr) rs2 h2
              · exact ih _ s (by simp only; rw [List.getElem?_set_ne e, hk]) hr rs2 h2

/-- An id is given up by a removal only. -/
theorem kept (w : World) (id : String) (k : Nat) (hk : Found w id k) (l : Label) (hl : l ≠ .op k .remove) (w' : World) (r : Resp) (hs : step w l = some (w', r)) : Found w' id k := by
  obtain ⟨s, hk, hr⟩ := hk
  have hlt : k < w.objs.length := by
    rcases Nat.lt_or_ge k w.objs.length with h | h
    · exact h
    · rw [List.getElem?_eq_none h] at hk; cases hk
  cases l with
  | launch i t su md e =>
    simp only [step] at hs
    split at hs
    · cases hs; exact ⟨s, hk, hr⟩
    · cases hs
      exact ⟨s, by simp only; rw [List.getElem?_append_left hlt, hk], hr⟩
  | op j l =>
    simp only [step] at hs
    split at hs
    · cases hs
    · rename_i id' x hj
      split at hs
      · cases hs
      · rename_i s' r' hl'
        cases hs
        by_cases e : j = k
        · subst e
          rw [hk] at hj; cases hj
          refine ⟨s', by simp only; rw [List.getElem?_set_self hlt], registered_step _ l s' r' hl' hr (fun e => hl (by rw [e]))⟩
        · exact ⟨s, by simp only; rw [List.getElem?_set_ne e, hk], hr⟩

/-- After its removal the instance's id is free. -/
theorem freed (w : World) (h : Reach w) (id : String) (k : Nat) (hk : Found w id k) (w' : World) (r : Resp) (hs : step w (.op k .remove) = some (w', r)) : ¬ ∃ j, Found w' id j := by
  obtain ⟨s, hk, hr⟩ := hk
  have hlt : k < w.objs.length := by
    rcases Nat.lt_or_ge k w.objs.length with h | h
    · exact h
    · rw [List.getElem?_eq_none h] at hk; cases hk
  have h' := hs
  simp only [step, hk, Life.step] at hs
  rintro ⟨j, x, hj, hjr⟩
  by_cases hz : s.removals = 0
  · simp [hz] at hs
  · simp only [hz, if_false] at hs
    cases hs
    simp only at hj
    by_cases e : j = k
    · subst e
      rw [List.getElem?_set_self hlt] at hj
      cases hj
      cases hjr
    · rw [List.getElem?_set_ne (Ne.symm e)] at hj
      exact e (one_at_a_time w h id j k ⟨x, hj, hjr⟩ ⟨s, hk, hr⟩)

/-- The id of an instance which doesn't exist any more is about to be free: its removal is due, and can take place. -/
theorem freeable (w : World) (h : Reach w) (id : String) (k : Nat) (s : St) (hk : w.objs[k]? = some (id, s)) (hr : s.registered = true) (hp : s.present = false) (hc : s.phase ≠ .created) :
    ∃ w', step w (.op k .remove) = some (w', .inst .ok) := by
  have hj := (good w h).each k id s hk
  rcases hj.listed hr hp with h1 | h1
  · exact absurd h1 hc
  · simp only [step, hk, Life.step]
    rw [if_neg (by omega)]
    exact ⟨_, rfl⟩

/-! ### Refutations -/

def fresh : Meta := ⟨false, 0, 0⟩

/-- The end of a transient instance: exited normally. -/
def exited : Served := ⟨0, 0, none⟩

/-- The history of a client which launches a transient instance, waits for it, finds that it doesn't exist any more, and launches another one by the same id. -/
def early : List Label := [.launch "a" true false fresh 64, .op 0 (.start false false), .op 0 .wait, .op 0 (.finish exited .ran false), .op 0 (.waited 0 false), .op 0 .info, .launch "a" true false fresh 64]

/-- The id of an instance whose end was reported, and which isn't found by any operation, may still be taken. -/
theorem early_refuted : (run {} early).map Prod.snd = some [.launched 0, .inst .ok, .inst .ok, .inst .ok, .inst (.status ⟨.terminated, 0, 0⟩), .inst .notFound, .exists_] := by decide +kernel

/-- It's free as soon as the server has removed it. -/
theorem early_later : (run {} (early ++ [.op 0 .remove, .launch "a" true false fresh 64])).map (·.2.getLast?) = some (some (.launched 1)) := by decide +kernel

/-- A resumption which fails leaves the instance's file behind, and makes its id useless: new instances can be launched by it, but not stored. -/
theorem stale_refuted : (run {} [.launch "a" false true fresh 64, .op 0 (.start false false), .op 0 (.resume ""), .op 0 (.start true false), .op 0 .remove,
    .launch "a" false true fresh 64, .op 1 (.start false false)]).map (·.2) = some [.launched 0, .inst .ok, .inst .ok, .inst .failed, .inst .ok, .launched 1, .inst .failed] := by decide +kernel

/-! ### Non-vacuity -/

theorem reach_run (w : World) (h : Reach w) (ls : List Label) (w' : World) (rs : List Resp) (hr : run w ls = some (w', rs)) : Reach w' := by
  induction ls generalizing w rs with
  | nil => cases hr; exact h
  | cons l ls ih =>
    simp only [run] at hr
    split at hr
    · cases hr
    · rename_i w1 r1 h1
      split at hr
      · cases hr
      · rename_i w2 rs2 h2
        cases hr
        exact ih w1 (.step h h1) rs2 h2

/-- A later instance of the same id, stored, while a client still has hold of the earlier one. -/
def two : List Label := [.launch "a" false true fresh 64, .op 0 (.start false false), .op 0 .annihilate, .op 0 .remove, .launch "a" false true fresh 64, .op 1 (.start false false)]

example : ∃ w rs, run {} two = some (w, rs) ∧ Reach w ∧ Found w "a" 1 ∧ (∃ s, w.objs[0]? = some ("a", s)) ∧ w.files "a" = some fresh := by
  have h : ∃ w rs, run {} two = some (w, rs) := ⟨_, _, rfl⟩
  obtain ⟨w, rs, h⟩ := h
  refine ⟨w, rs, h, reach_run _ .init _ _ _ h, ?_⟩
  cases h
  exact ⟨⟨_, rfl, rfl⟩, ⟨_, rfl⟩, rfl⟩

end Gate.InstIds
