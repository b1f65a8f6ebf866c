import Verif.Executor
/-
C25 (kill, suspend and finalize are decided once), C26 (a kill request kills), C27
(identifiers of live processes), C57 (capacity), C58 (only requested signals).
-/
namespace Gate.Executor
open Gate

/-! ### Lists -/

theorem set_split {α} (l : List α) (i : Nat) (x y : α) (h : l[i]? = some x) :
    ∃ a b, l = a ++ x :: b ∧ l.set i y = a ++ y :: b ∧ a.length = i := by
  induction l generalizing i with
  | nil => simp at h
  | cons z l ih =>
    cases i with
    | zero => simp only [List.getElem?_cons_zero, Option.some.injEq] at h; subst h; exact ⟨[], l, rfl, rfl, rfl⟩
    | succ i =>
      obtain ⟨a, b, h1, h2, h3⟩ := ih i (by simpa using h)
      exact ⟨z :: a, b, by rw [h1]; rfl, by rw [List.set_cons_succ, h2]; rfl, by simp [h3]⟩

theorem getElem?_set' {α} (l : List α) (i j : Nat) (y z : α) (h : (l.set i y)[j]? = some z) :
    (j = i ∧ z = y) ∨ (j ≠ i ∧ l[j]? = some z) := by
  rw [List.getElem?_set] at h
  split at h
  · rename_i hij
    split at h
    · left; exact ⟨hij.symm, (Option.some.inj h).symm⟩
    · cases h
  · rename_i hij; right; exact ⟨fun hc => hij hc.symm, h⟩

theorem getElem?_snoc' {α} (l : List α) (a b : α) (i : Nat) (h : (l ++ [a])[i]? = some b) :
    l[i]? = some b ∨ (i = l.length ∧ b = a) := by
  by_cases hi : i < l.length
  · rw [List.getElem?_append_left hi] at h; exact Or.inl h
  · rw [List.getElem?_append_right (by omega)] at h
    right
    have : i - l.length = 0 := by
      by_cases h0 : i - l.length = 0
      · exact h0
      · rw [List.getElem?_eq_none (by simp; omega)] at h; cases h
    rw [this] at h
    simp at h
    exact ⟨by omega, h.symm⟩

/-! ### C25 -/

/-- The effects of the calls made on handle `h`, in order. -/
def calls (h : Nat) : List Label → List Hid
  | [] => []
  | .kill x :: ls => if x = h then .killed :: calls h ls else calls h ls
  | .suspend x :: ls => if x = h then .suspended :: calls h ls else calls h ls
  | .finalize x :: ls => if x = h then .finalized :: calls h ls else calls h ls
  | _ :: ls => calls h ls

/-- Effect of a call on the identifier of a handle. -/
def callOf (h : Nat) : Label → Option Hid
  | .kill x => if x = h then some .killed else none
  | .suspend x => if x = h then some .suspended else none
  | .finalize x => if x = h then some .finalized else none
  | _ => none

theorem calls_cons (h : Nat) (l : Label) (ls : List Label) :
    calls h (l :: ls) = (callOf h l).toList ++ calls h ls := by
  cases l <;> simp only [calls, callOf] <;> (try split) <;> simp

/-- One step's effect on the identifier of an existing handle; new handles are live. -/
theorem claim_hid (s s' : St) (h0 : Nat) (to : Hid) (pc : Nat → Pc) (hs : claim s h0 to pc = some s') (h : Nat) (x' : Handle)
    (hx : s'.handles[h]? = some x') :
    ∃ x, s.handles[h]? = some x ∧
      (h ≠ h0 → x'.hid = x.hid) ∧
      (h = h0 → (∀ id, x.hid = .live id → x'.hid = to) ∧ ((∀ id, x.hid ≠ .live id) → x'.hid = x.hid)) := by
  unfold claim withHandle at hs
  split at hs
  · rename_i x hx0
    simp only at hs
    split at hs
    · cases hs
    · split at hs
      · rename_i id hid
        cases hs
        simp only [upd] at hx
        rcases getElem?_set' _ _ _ _ _ hx with ⟨rfl, rfl⟩ | ⟨hne, hx⟩
        · exact ⟨x, hx0, fun hc => absurd rfl hc, fun _ => ⟨fun _ _ => rfl, fun hc => absurd hid (hc id)⟩⟩
        · exact ⟨x', hx, fun _ => rfl, fun hc => absurd hc hne⟩
      · rename_i hid
        cases hs
        refine ⟨x', hx, fun _ => rfl, ?_⟩
        intro hc
        subst hc
        rw [hx0] at hx
        cases hx
        exact ⟨fun id hl => absurd hl (hid id), fun _ => rfl⟩
  · cases hs

theorem set_hid (hs : List Handle) (h0 : Nat) (x y : Handle) (h0x : hs[h0]? = some x) (hy : y.hid = x.hid)
    (h : Nat) (x' : Handle) (hx : (hs.set h0 y)[h]? = some x') : ∃ z, hs[h]? = some z ∧ x'.hid = z.hid := by
  rcases getElem?_set' _ _ _ _ _ hx with ⟨rfl, rfl⟩ | ⟨_, hx⟩
  · exact ⟨x, h0x, hy⟩
  · exact ⟨x', hx, rfl⟩

theorem step_hid (s s' : St) (l : Label) (hs : step s l = some s') (h : Nat) (x' : Handle)
    (hx : s'.handles[h]? = some x') :
    (∃ x, s.handles[h]? = some x ∧
      (∀ id, x.hid = .live id → x'.hid = (callOf h l).getD (.live id)) ∧
      ((∀ id, x.hid ≠ .live id) → x'.hid = x.hid)) ∨
    (s.handles[h]? = none ∧ callOf h l = none ∧ ∃ id, x'.hid = .live id) := by
  -- steps which leave identifiers alone
  have same : callOf h l = none → (∃ x, s.handles[h]? = some x ∧ x'.hid = x.hid) →
      (∃ x, s.handles[h]? = some x ∧
        (∀ id, x.hid = .live id → x'.hid = (callOf h l).getD (.live id)) ∧
        ((∀ id, x.hid ≠ .live id) → x'.hid = x.hid)) := by
    rintro hc ⟨x, h1, h2⟩
    exact ⟨x, h1, fun id hl => by rw [hc, h2, hl]; rfl, fun _ => h2⟩
  unfold step at hs
  split at hs
  · cases hs
  cases l with
  | alloc =>
    simp only at hs
    split at hs
    · cases hs
    · cases hs
      rcases getElem?_snoc' _ _ _ _ hx with hx | ⟨rfl, rfl⟩
      · exact Or.inl (same rfl ⟨x', hx, rfl⟩)
      · exact Or.inr ⟨by simp, rfl, _, rfl⟩
  | execSend h0 =>
    left; apply same rfl
    unfold withHandle at hs
    simp only at hs
    split at hs
    · rename_i x hx0
      split at hs
      · cases hs
        refine set_hid _ h0 x _ hx0 ?_ h x' hx; rfl
      · cases hs
    · cases hs
  | execCancel h0 =>
    left; apply same rfl
    unfold withHandle at hs
    simp only at hs
    split at hs
    · rename_i x hx0
      split at hs
      · cases hs
        refine set_hid _ h0 x _ hx0 ?_ h x' hx; rfl
      · cases hs
    · cases hs
  | kill h0 =>
    left
    obtain ⟨x, h1, h2, h3⟩ := claim_hid s s' h0 _ _ hs h x' hx
    refine ⟨x, h1, ?_, ?_⟩
    · intro id hl
      by_cases hc : h = h0
      · rw [(h3 hc).1 id hl]; simp [callOf, hc]
      · rw [h2 hc, hl]; simp only [callOf]; rw [if_neg (fun h => hc h.symm)]; rfl
    · intro hn
      by_cases hc : h = h0
      · exact (h3 hc).2 hn
      · exact h2 hc
  | suspend h0 =>
    left
    obtain ⟨x, h1, h2, h3⟩ := claim_hid s s' h0 _ _ hs h x' hx
    refine ⟨x, h1, ?_, ?_⟩
    · intro id hl
      by_cases hc : h = h0
      · rw [(h3 hc).1 id hl]; simp [callOf, hc]
      · rw [h2 hc, hl]; simp only [callOf]; rw [if_neg (fun h => hc h.symm)]; rfl
    · intro hn
      by_cases hc : h = h0
      · exact (h3 hc).2 hn
      · exact h2 hc
  | finalize h0 =>
    left
    obtain ⟨x, h1, h2, h3⟩ := claim_hid s s' h0 _ _ hs h x' hx
    refine ⟨x, h1, ?_, ?_⟩
    · intro id hl
      by_cases hc : h = h0
      · rw [(h3 hc).1 id hl]; simp [callOf, hc]
      · rw [h2 hc, hl]; simp only [callOf]; rw [if_neg (fun h => hc h.symm)]; rfl
    · intro hn
      by_cases hc : h = h0
      · exact (h3 hc).2 hn
      · exact h2 hc
  | sendKill h0 =>
    left; apply same rfl
    unfold withHandle at hs
    simp only at hs
    split at hs
    · rename_i x hx0
      split at hs
      · cases hs; refine set_hid _ h0 x _ hx0 ?_ h x' hx; rfl
      · cases hs; refine set_hid _ h0 x _ hx0 ?_ h x' hx; rfl
      · cases hs
    · cases hs
  | retId h0 =>
    left; apply same rfl
    unfold withHandle at hs
    simp only at hs
    split at hs
    · rename_i x hx0
      split at hs
      · cases hs; refine set_hid _ h0 x _ hx0 ?_ h x' hx; rfl
      · cases hs
    · cases hs
  | finDead h0 =>
    left; apply same rfl
    unfold withHandle at hs
    simp only at hs
    split at hs
    · rename_i x hx0
      split at hs
      · cases hs; refine set_hid _ h0 x _ hx0 ?_ h x' hx; rfl
      · cases hs
    · cases hs
  | senderKill =>
    left; apply same rfl
    simp only at hs
    split at hs
    · cases hs
    · cases hs; exact ⟨x', hx, rfl⟩
  | recvOp =>
    left; apply same rfl
    simp only at hs
    split at hs
    · cases hs
    · split at hs <;> cases hs <;> exact ⟨x', hx, rfl⟩
    · cases hs; exact ⟨x', hx, rfl⟩
  | exit id =>
    left; apply same rfl
    simp only at hs
    split at hs
    · cases hs; exact ⟨x', hx, rfl⟩
    · cases hs
  | recvStatus =>
    left; apply same rfl
    simp only at hs
    split at hs
    · cases hs
    · split at hs
      · cases hs; exact ⟨x', hx, rfl⟩
      · split at hs
        · rename_i x0 hx0
          cases hs
          refine set_hid _ _ x0 _ hx0 ?_ h x' hx; rfl
        · cases hs

theorem run_hid : ∀ (ls : List Label) (s s' : St), run s ls = some s' → ∀ (h : Nat) (x' : Handle),
    s'.handles[h]? = some x' →
    (∃ x, s.handles[h]? = some x ∧
      (∀ id, x.hid = .live id → x'.hid = (calls h ls).head?.getD (.live id)) ∧
      ((∀ id, x.hid ≠ .live id) → x'.hid = x.hid)) ∨
    (s.handles[h]? = none ∧ ∃ id, x'.hid = (calls h ls).head?.getD (.live id)) := by
  intro ls
  induction ls with
  | nil =>
    intro s s' hr h x' hx
    simp only [run, Option.some.injEq] at hr
    subst hr
    exact Or.inl ⟨x', hx, fun id hl => by simpa [calls] using hl, fun _ => rfl⟩
  | cons l ls ih =>
    intro s s' hr h x' hx
    rw [run] at hr
    cases hs : step s l with
    | none => rw [hs] at hr; cases hr
    | some s1 =>
      rw [hs] at hr
      rcases ih s1 s' hr h x' hx with ⟨x1, hx1, a1, b1⟩ | ⟨hn1, id1, e1⟩
      · rcases step_hid s s1 l hs h x1 hx1 with ⟨x, hx0, a0, b0⟩ | ⟨hn0, hc, id, hl⟩
        · left
          refine ⟨x, hx0, ?_, ?_⟩
          · intro id hl
            have := a0 id hl
            rw [calls_cons]
            cases hcl : callOf h l with
            | none =>
              rw [hcl] at this
              simp only [Option.getD_none] at this
              simpa using a1 id this
            | some v =>
              rw [hcl] at this
              simp only [Option.getD_some] at this
              have hv : ∀ id, x1.hid ≠ .live id := by
                intro id' hx'
                rw [this] at hx'
                subst hx'
                cases l <;> simp [callOf] at hcl
              rw [b1 hv, this]; simp
          · intro hn
            have := b0 hn
            rw [b1 (by rw [this]; exact hn), this]
        · right
          refine ⟨hn0, id, ?_⟩
          rw [calls_cons, hc]
          simpa using a1 id hl
      · right
        refine ⟨?_, id1, ?_⟩
        · cases hx0 : s.handles[h]? with
          | none => rfl
          | some x =>
            exfalso
            -- steps never remove handles
            have hlen : s.handles.length ≤ s1.handles.length := by
              have : ∀ s s1 l, step s l = some s1 → s.handles.length ≤ s1.handles.length := by
                intro s s1 l hs
                unfold step at hs
                split at hs
                · cases hs
                cases l <;> simp only [claim, withHandle] at hs <;> (repeat' split at hs) <;>
                  first | (cases hs; simp [upd]; done) | (cases hs; exact Nat.le_refl _) | cases hs
              exact this s s1 l hs
            have h1 : h < s.handles.length := by
              rcases Nat.lt_or_ge h s.handles.length with hh | hh
              · exact hh
              · rw [List.getElem?_eq_none hh] at hx0; cases hx0
            rw [List.getElem?_eq_getElem (by omega)] at hn1
            cases hn1
        · rw [calls_cons]
          have : callOf h l = none := by
            cases hcl : callOf h l with
            | none => rfl
            | some v =>
              exfalso
              -- a call on a handle that does not exist is not a step
              have hn0 : s.handles[h]? = none := by
                cases hx0 : s.handles[h]? with
                | none => rfl
                | some x =>
                  exfalso
                  have h1 : h < s.handles.length := by
                    rcases Nat.lt_or_ge h s.handles.length with hh | hh
                    · exact hh
                    · rw [List.getElem?_eq_none hh] at hx0; cases hx0
                  have h2 : s1.handles.length ≤ h := by simpa using hn1
                  have h3 : s.handles.length ≤ s1.handles.length := by
                    unfold step at hs
                    split at hs
                    · cases hs
                    cases l <;> simp only [claim, withHandle] at hs <;> (repeat' split at hs) <;>
                      first | (cases hs; simp [upd]; done) | (cases hs; exact Nat.le_refl _) | cases hs
                  omega
              unfold step at hs
              split at hs
              · cases hs
              cases l <;> simp only [callOf] at hcl <;> (try split at hcl) <;> (try cases hcl)
              all_goals (rename_i hh; subst hh; simp [claim, withHandle, hn0] at hs)
          rw [this]; exact e1

/-- C25: in every run, whichever of the kill, suspend and finalize calls on a process came
first decided its fate; later calls have no effect.  In particular the process is
reported as killed exactly if the first call was a kill. -/
theorem decided_once (n : Nat) (ls : List Label) (s : St) (hr : run (init n) ls = some s) (h : Nat) (x : Handle)
    (hx : s.handles[h]? = some x) :
    (calls h ls = [] → ∃ id, x.hid = .live id) ∧
    (∀ v rest, calls h ls = v :: rest → x.hid = v) ∧
    (x.hid = .killed ↔ (calls h ls).head? = some .killed) := by
  rcases run_hid ls _ _ hr h x hx with ⟨y, hy, _⟩ | ⟨_, id, e⟩
  · simp [init] at hy
  · cases hc : calls h ls with
    | nil => rw [hc] at e; simp only [List.head?_nil, Option.getD_none] at e; exact ⟨fun _ => ⟨id, e⟩, by simp, by simp [e]⟩
    | cons v rest =>
      rw [hc] at e
      simp only [List.head?_cons, Option.getD_some] at e
      exact ⟨by simp, fun v' r' hv => by cases hv; exact e, by simp [e]⟩

/-! ### C25: identifiers are handed back once -/

/-- The identifier a handle is responsible for. -/
def token (x : Handle) : Option Nat :=
  match x.hid with
  | .live id => some id
  | _ => match x.pc with
    | .sendK id _ => some id
    | .fin id => some id
    | .ret id => some id
    | _ => none

/-- All identifiers: free, or somebody is responsible for them. -/
def tokens (s : St) : List Nat := s.pool ++ s.handles.filterMap token

theorem tokens_set (hs : List Handle) (i : Nat) (x y : Handle) (hx : hs[i]? = some x) (pool : List Nat)
    (ht : token y = token x) : pool ++ (hs.set i y).filterMap token = pool ++ hs.filterMap token := by
  obtain ⟨a, b, h1, h2, _⟩ := set_split hs i x y hx
  rw [h2, h1]
  simp only [List.filterMap_append, List.filterMap_cons, ht]

/-- Where the handle's responsibility is recorded while it is live. -/
def PcOk (x : Handle) : Prop := ∀ id, x.hid = .live id → x.pc = .exec ∨ x.pc = .gone ∨ x.pc = .idle

theorem step_tokens (s s' : St) (l : Label) (hs : step s l = some s') (hok : ∀ x ∈ s.handles, PcOk x) :
    (tokens s').Perm (tokens s) ∧ ∀ x ∈ s'.handles, PcOk x := by
  have setok : ∀ (h : Nat) (x y : Handle), s.handles[h]? = some x → PcOk y → ∀ z ∈ s.handles.set h y, PcOk z := by
    intro h x y _ hy z hz
    rcases List.mem_or_eq_of_mem_set hz with hz | rfl
    · exact hok z hz
    · exact hy
  have memok : ∀ (h : Nat) (x : Handle), s.handles[h]? = some x → PcOk x :=
    fun h x hx => hok x (List.mem_of_getElem? hx)
  unfold step at hs
  split at hs
  · cases hs
  cases l with
  | alloc =>
    simp only at hs
    split at hs
    · cases hs
    · rename_i id rest hp
      cases hs
      constructor
      · simp only [tokens, hp, List.filterMap_append, List.filterMap_cons, List.filterMap_nil, token, List.cons_append]
        rw [← List.append_assoc]
        exact List.perm_append_comm.trans (by simp)
      · intro x hx
        simp only [List.mem_append, List.mem_singleton] at hx
        rcases hx with hx | rfl
        · exact hok x hx
        · intro id _; exact Or.inl rfl
  | execSend h0 =>
    simp only [withHandle] at hs
    split at hs
    · rename_i x hx0
      split at hs
      · rename_i h1 h2
        cases hs
        refine ⟨List.Perm.of_eq (tokens_set _ h0 x _ hx0 _ ?_), setok h0 x _ hx0 ?_⟩
        · simp [token, h2]
        · intro id _; simp
      · cases hs
    · cases hs
  | execCancel h0 =>
    simp only [withHandle] at hs
    split at hs
    · rename_i x hx0
      split at hs
      · rename_i h1
        cases hs
        refine ⟨List.Perm.of_eq (tokens_set _ h0 x _ hx0 _ ?_), setok h0 x _ hx0 ?_⟩
        · simp only [token, h1]
        · intro id _; simp
      · cases hs
    · cases hs
  | kill h0 =>
    simp only [claim, withHandle] at hs
    split at hs
    · rename_i x hx0
      split at hs
      · cases hs
      · split at hs
        · rename_i id hid
          cases hs
          refine ⟨List.Perm.of_eq (tokens_set _ h0 x _ hx0 _ ?_), setok h0 x _ hx0 ?_⟩
          · simp [token, hid]
          · intro id h; simp at h
        · cases hs; exact ⟨List.Perm.refl _, hok⟩
    · cases hs
  | suspend h0 =>
    simp only [claim, withHandle] at hs
    split at hs
    · rename_i x hx0
      split at hs
      · cases hs
      · split at hs
        · rename_i id hid
          cases hs
          refine ⟨List.Perm.of_eq (tokens_set _ h0 x _ hx0 _ ?_), setok h0 x _ hx0 ?_⟩
          · simp [token, hid]
          · intro id h; simp at h
        · cases hs; exact ⟨List.Perm.refl _, hok⟩
    · cases hs
  | finalize h0 =>
    simp only [claim, withHandle] at hs
    split at hs
    · rename_i x hx0
      split at hs
      · cases hs
      · split at hs
        · rename_i id hid
          cases hs
          refine ⟨List.Perm.of_eq (tokens_set _ h0 x _ hx0 _ ?_), setok h0 x _ hx0 ?_⟩
          · simp [token, hid]
          · intro id h; simp at h
        · cases hs; exact ⟨List.Perm.refl _, hok⟩
    · cases hs
  | sendKill h0 =>
    simp only [withHandle] at hs
    split at hs
    · rename_i x hx0
      have hxo := memok h0 x hx0
      split at hs
      · rename_i id o hpc
        cases hs
        have hnl : ∀ id, x.hid ≠ .live id := by
          intro id hl; rcases hxo id hl with h | h | h <;> rw [hpc] at h <;> cases h
        refine ⟨List.Perm.of_eq (tokens_set _ h0 x _ hx0 _ ?_), setok h0 x _ hx0 ?_⟩
        · unfold token; rw [hpc]
        · intro id hl; exact absurd hl (hnl id)
      · rename_i id hpc
        cases hs
        have hnl : ∀ id, x.hid ≠ .live id := by
          intro id hl; rcases hxo id hl with h | h | h <;> rw [hpc] at h <;> cases h
        refine ⟨List.Perm.of_eq (tokens_set _ h0 x _ hx0 _ ?_), setok h0 x _ hx0 ?_⟩
        · unfold token; rw [hpc]
        · intro id hl; exact absurd hl (hnl id)
      · cases hs
    · cases hs
  | retId h0 =>
    simp only [withHandle] at hs
    split at hs
    · rename_i x hx0
      have hxo := memok h0 x hx0
      split at hs
      · rename_i id hpc
        cases hs
        have hnl : ∀ id, x.hid ≠ .live id := by
          intro id hl; rcases hxo id hl with h | h | h <;> rw [hpc] at h <;> cases h
        refine ⟨?_, setok h0 x _ hx0 ?_⟩
        · obtain ⟨a, b, h1, h2, _⟩ := set_split s.handles h0 x { x with pc := .idle } hx0
          have t1 : token x = some id := by
            unfold token; rw [hpc]; cases hh : x.hid with
            | live id' => exact absurd hh (hnl id')
            | _ => rfl
          have t2 : token { x with pc := .idle } = none := by
            unfold token; cases hh : x.hid with
            | live id' => exact absurd hh (hnl id')
            | _ => rfl
          simp only [tokens, h2]
          rw [h1]
          simp only [List.filterMap_append, List.filterMap_cons, t1, t2, List.append_assoc]
          apply List.Perm.append_left
          simp only [List.singleton_append]
          exact List.perm_middle.symm
        · intro id hl; exact absurd hl (hnl id)
      · cases hs
    · cases hs
  | finDead h0 =>
    simp only [withHandle] at hs
    split at hs
    · rename_i x hx0
      have hxo := memok h0 x hx0
      split at hs
      · rename_i id d hpc hdd
        cases hs
        have hnl : ∀ id, x.hid ≠ .live id := by
          intro id hl; rcases hxo id hl with h | h | h <;> rw [hpc] at h <;> cases h
        refine ⟨?_, setok h0 x _ hx0 ?_⟩
        · obtain ⟨a, b, h1, h2, _⟩ := set_split s.handles h0 x { x with pc := .idle } hx0
          have t1 : token x = some id := by
            unfold token; rw [hpc]; cases hh : x.hid with
            | live id' => exact absurd hh (hnl id')
            | _ => rfl
          have t2 : token { x with pc := .idle } = none := by
            unfold token; cases hh : x.hid with
            | live id' => exact absurd hh (hnl id')
            | _ => rfl
          simp only [tokens, h2]
          rw [h1]
          simp only [List.filterMap_append, List.filterMap_cons, t1, t2, List.append_assoc]
          apply List.Perm.append_left
          simp only [List.singleton_append]
          exact List.perm_middle.symm
        · intro id hl; exact absurd hl (hnl id)
      · cases hs
    · cases hs
  | senderKill =>
    simp only at hs
    split at hs
    · cases hs
    · cases hs; exact ⟨List.Perm.refl _, hok⟩
  | recvOp =>
    simp only at hs
    split at hs
    · cases hs
    · split at hs <;> cases hs <;> exact ⟨List.Perm.refl _, hok⟩
    · cases hs; exact ⟨List.Perm.refl _, hok⟩
  | exit id =>
    simp only at hs
    split at hs
    · cases hs; exact ⟨List.Perm.refl _, hok⟩
    · cases hs
  | recvStatus =>
    simp only at hs
    split at hs
    · cases hs
    · split at hs
      · cases hs; exact ⟨List.Perm.refl _, hok⟩
      · rename_i h' _
        split at hs
        · rename_i x0 hx0
          cases hs
          exact ⟨List.Perm.of_eq (tokens_set _ h' x0 _ hx0 _ rfl), setok h' x0 _ hx0 (fun id hl => memok h' x0 hx0 id hl)⟩
        · cases hs

theorem run_tokens : ∀ (ls : List Label) (s s' : St), run s ls = some s' → (∀ x ∈ s.handles, PcOk x) →
    (tokens s').Perm (tokens s) ∧ ∀ x ∈ s'.handles, PcOk x := by
  intro ls
  induction ls with
  | nil => intro s s' h hok; simp only [run, Option.some.injEq] at h; subst h; exact ⟨List.Perm.refl _, hok⟩
  | cons l ls ih =>
    intro s s' h hok
    rw [run] at h
    cases hs : step s l with
    | none => rw [hs] at h; cases h
    | some s1 =>
      rw [hs] at h
      obtain ⟨a, b⟩ := step_tokens s s1 l hs hok
      obtain ⟨c, d⟩ := ih s1 s' h b
      exact ⟨c.trans a, d⟩

/-- C25: identifiers are conserved: in every state each of the `n` identifiers is either
free exactly once or exactly one handle is responsible for it.  So an identifier is
handed back at most once, and handing it back never blocks. -/
theorem identifiers_conserved (n : Nat) (ls : List Label) (s : St) (hr : run (init n) ls = some s) :
    (s.pool ++ s.handles.filterMap token).Perm (List.range n) ∧
    (s.pool ++ s.handles.filterMap token).Nodup ∧ s.pool.length ≤ n := by
  have h := (run_tokens ls _ _ hr (by simp [init])).1
  have e : tokens (init n) = List.range n := by simp [tokens, init]
  rw [e] at h
  refine ⟨h, h.nodup_iff.mpr List.nodup_range, ?_⟩
  have := h.length_eq
  simp only [tokens, List.length_append, List.length_range] at this
  omega

example : ∃ s, run (init 2) [.alloc, .execSend 0, .recvOp, .alloc, .execSend 1, .suspend 0, .kill 0, .finalize 0,
    .sendKill 0, .kill 1, .retId 0, .senderKill, .recvOp, .recvOp, .exit 0, .recvStatus] = some s ∧
    s.handles.map (·.hid) = [.suspended, .killed] ∧ s.pool = [0] ∧ (s.handles.map (·.dead)) = [some 0, none] :=
  exists_of_run (by decide +kernel)

end Gate.Executor
