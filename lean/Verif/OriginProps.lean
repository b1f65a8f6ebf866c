import Verif.Origin
/-
C108: proofs about accepting of connections.
-/
namespace Gate.Origin

def Reachable (a : Nat) (rs : List Stream) (s : St) : Prop := ∃ ls, run (initial a rs) ls = some s

theorem run_append (s s1 : St) (l1 l2 : List Label) (h : run s l1 = some s1) : run s (l1 ++ l2) = run s1 l2 := by
  induction l1 generalizing s with
  | nil => simp only [run, Option.some.injEq] at h; subst h; rfl
  | cons l ls ih =>
    simp only [List.cons_append, run] at h ⊢
    cases hs : step s l with
    | none => rw [hs] at h; cases h
    | some s' => rw [hs] at h; exact ih s' h

theorem run_inv (P : St → Prop) (hstep : ∀ s l s', P s → step s l = some s' → P s') (ls : List Label) : ∀ s s', P s → run s ls = some s' → P s' := by
  induction ls with
  | nil => intro s s' hp h; simp only [run, Option.some.injEq] at h; exact h ▸ hp
  | cons l ls ih =>
    intro s s' hp h
    simp only [run] at h
    cases hs : step s l with
    | none => rw [hs] at h; cases h
    | some s1 => rw [hs] at h; exact ih s1 s' (hstep s l s1 hp hs) h

/-! ### Counting -/

/-- Between making a stream and having told about it (or not). -/
def inSec : Cl → Bool
  | .replying _ | .replyWoken _ | .finishing _ _ => true
  | _ => false

/-- The reply has been sent, but that hasn't been accounted for. -/
def isSent : Cl → Bool
  | .finishing _ false => true
  | _ => false

/-- It has received a token, or is going to put one. -/
def awake : Cl → Bool
  | .woken | .poking _ _ => true
  | _ => false

def cnt (p : Cl → Bool) (l : List (Cl × Bool)) : Nat := l.countP fun x => p x.1

theorem cnt_modify (p : Cl → Bool) : ∀ (l : List (Cl × Bool)) (i : Nat) (c c' : Cl) (d : Bool), l[i]? = some (c, d) →
    cnt p (l.modify i fun x => (c', x.2)) + (p c).toNat = cnt p l + (p c').toNat
  | [], i, c, c', d, h => by simp at h
  | a :: l, 0, c, c', d, h => by
    simp only [List.getElem?_cons_zero, Option.some.injEq] at h
    subst h
    simp only [List.modify_zero_cons, cnt, List.countP_cons]
    cases p c <;> cases p c' <;> simp
  | a :: l, i + 1, c, c', d, h => by
    simp only [List.getElem?_cons_succ] at h
    have := cnt_modify p l i c c' d h
    simp only [List.modify_succ_cons, cnt, List.countP_cons] at this ⊢
    omega

theorem cnt_cl (p : Cl → Bool) (s : St) (i : Nat) (c c' : Cl) (d : Bool) (h : s.clients[i]? = some (c, d)) : cnt p (s.cl i c') + (p c).toNat = cnt p s.clients + (p c').toNat :=
  cnt_modify p s.clients i c c' d h

theorem cnt_done (p : Cl → Bool) : ∀ (l : List (Cl × Bool)) (i : Nat), cnt p (l.modify i fun x => (x.1, true)) = cnt p l
  | [], i => by simp
  | a :: l, 0 => by simp [cnt, List.countP_cons]
  | a :: l, i + 1 => by
    have := cnt_done p l i
    simp only [List.modify_succ_cons, cnt, List.countP_cons] at this ⊢
    omega

theorem cnt_new (p : Cl → Bool) (l : List (Cl × Bool)) (d : Bool) (h : p .waiting = false) : cnt p (l ++ [(.waiting, d)]) = cnt p l := by
  simp [cnt, h]

theorem cnt_mono (p q : Cl → Bool) (h : ∀ c, p c = true → q c = true) (l : List (Cl × Bool)) : cnt p l ≤ cnt q l :=
  List.countP_mono_left fun x _ hx => h x.1 hx

theorem replying_of (s : St) (i : Nat) (c : Cl) (d : Bool) (hi : s.clients[i]? = some (c, d)) (hc : inSec c = true) (h1 : cnt inSec s.clients = s.replying.toNat) : s.replying = true := by
  have : 0 < cnt inSec s.clients := List.countP_pos_iff.mpr ⟨(c, d), List.mem_of_getElem? hi, hc⟩
  cases hr : s.replying with
  | true => rfl
  | false => rw [hr] at h1; simp at h1; omega

/-- Shutting down has begun. -/
def Sv.shut : Sv → Bool
  | .serving | .poking | .failed => false
  | _ => true

/-- The state of affairs. `a` is the number of restored accept calls. -/
structure Count (a : Nat) (s : St) : Prop where
  one : cnt inSec s.clients = s.replying.toNat
  pos : s.replying.toNat ≤ s.accepting
  sum : s.accepting + s.replies.length = s.calls + a + cnt isSent s.clients
  max : s.accepting ≤ maxAccepting ∨ s.accepting ≤ a
  wake : 0 < s.accepting → s.replying = false → s.shutting = false → s.token = true ∨ s.sv = .poking ∨ 0 < cnt awake s.clients
  shut : s.shutting = s.sv.shut
  late : s.sv.shut = true → s.sv ≠ .shutWait → s.replying = false
  loopEnded : s.shutting = true → s.loop = false

theorem count_initial (a : Nat) (rs : List Stream) : Count a (initial a rs) :=
  ⟨rfl, by simp [initial], by simp [initial, cnt], .inr (by simp [initial]), fun h _ _ => .inl (by simpa [initial] using h), rfl, by simp [initial, Sv.shut], by simp [initial]⟩

theorem count_step (a : Nat) (s : St) (l : Label) (s' : St) (hc : Count a s) (h : step s l = some s') : Count a s' := by
  obtain ⟨h1, h2, h3, h4, h5, h6, h7, h8⟩ := hc
  have hsub := cnt_mono isSent inSec (by intro c; cases c <;> simp [isSent, inSec]) s.clients
  cases l with
  | connect =>
    simp only [step, Option.some.injEq] at h
    subst h
    exact ⟨by rw [cnt_new _ _ _ rfl]; exact h1, h2, by rw [cnt_new _ _ _ rfl]; exact h3, h4, by rw [cnt_new _ _ _ rfl]; exact h5, h6, h7, h8⟩
  | wake i =>
    simp only [step] at h
    split at h
    · rename_i d hi
      split at h
      · simp only [Option.some.injEq] at h
        subst h
        have g1 := cnt_cl inSec s i _ .woken d hi
        have g2 := cnt_cl isSent s i _ .woken d hi
        have g3 := cnt_cl awake s i _ .woken d hi
        simp [inSec, isSent, awake] at g1 g2 g3
        exact ⟨by simp only; omega, h2, by simp only; omega, h4, fun _ _ _ => .inr (.inr (by simp only; omega)), h6, h7, h8⟩
      · cases h
    · cases h
  | look i =>
    simp only [step] at h
    split at h
    · rename_i d hi
      have g1 := fun c => cnt_cl inSec s i _ c d hi
      have g2 := fun c => cnt_cl isSent s i _ c d hi
      have g3 := fun c => cnt_cl awake s i _ c d hi
      split at h
      · rename_i hcond
        simp only [Option.some.injEq] at h
        subst h
        have g1 := g1 (.replying (freeId s.streams)); have g2 := g2 (.replying (freeId s.streams))
        simp [inSec, isSent, hcond.2.1] at g1 g2 h1
        refine ⟨by simp only [Bool.toNat_true]; omega, by simp only [Bool.toNat_true]; omega, by simp only; omega, h4, fun _ h => (by cases h), h6, ?_, h8⟩
        intro hs
        have hs' : s.sv.shut = true := hs
        rw [← h6, hcond.2.2] at hs'; cases hs'
      · rename_i hcond
        split at h
        · rename_i hsh
          simp only [Option.some.injEq] at h
          subst h
          have g1 := g1 .refused; have g2 := g2 .refused
          simp [inSec, isSent] at g1 g2
          exact ⟨by simp only; omega, h2, by simp only; omega, h4, fun _ _ h => (by rw [hsh] at h; cases h), h6, h7, h8⟩
        · rename_i hsh
          simp only [Option.some.injEq] at h
          subst h
          have g1 := g1 .waiting; have g2 := g2 .waiting
          simp [inSec, isSent] at g1 g2
          exact ⟨by simp only; omega, h2, by simp only; omega, h4, fun x y z => absurd ⟨x, y, z⟩ hcond, h6, h7, h8⟩
    · cases h
  | giveUp i =>
    simp only [step] at h
    split at h
    · rename_i d hi
      split at h
      · simp only [Option.some.injEq] at h
        subst h
        have g1 := cnt_cl inSec s i _ .refused d hi
        have g2 := cnt_cl isSent s i _ .refused d hi
        have g3 := cnt_cl awake s i _ .refused d hi
        simp [inSec, isSent, awake] at g1 g2 g3
        exact ⟨by simp only; omega, h2, by simp only; omega, h4, by simp only [g3]; exact h5, h6, h7, h8⟩
      · cases h
    · cases h
  | send i =>
    simp only [step] at h
    split at h
    · rename_i id d hi
      split at h
      · simp only [Option.some.injEq] at h
        subst h
        have g1 := cnt_cl inSec s i _ (.finishing id false) d hi
        have g2 := cnt_cl isSent s i _ (.finishing id false) d hi
        have g3 := cnt_cl awake s i _ (.finishing id false) d hi
        simp [inSec, isSent, awake] at g1 g2 g3
        exact ⟨by simp only; omega, h2, by simp only [List.length_append, List.length_singleton]; omega, h4, by simp only [g3]; exact h5, h6, h7, h8⟩
      · cases h
    · cases h
  | wake2 i =>
    simp only [step] at h
    split at h
    · rename_i id d hi
      split at h
      · simp only [Option.some.injEq] at h
        subst h
        have g1 := cnt_cl inSec s i _ (.replyWoken id) d hi
        have g2 := cnt_cl isSent s i _ (.replyWoken id) d hi
        simp [inSec, isSent] at g1 g2
        have hr := replying_of s i _ d hi rfl h1
        exact ⟨by simp only; omega, h2, by simp only; omega, h4, fun _ h => (by rw [hr] at h; cases h), h6, h7, h8⟩
      · cases h
    · cases h
  | look2 i =>
    simp only [step] at h
    split at h
    · rename_i id d hi
      simp only [Option.some.injEq] at h
      subst h
      have g1 := cnt_cl inSec s i _ (if s.shutting then .finishing id true else .replying id) d hi
      have g2 := cnt_cl isSent s i _ (if s.shutting then .finishing id true else .replying id) d hi
      have g3 := cnt_cl awake s i _ (if s.shutting then .finishing id true else .replying id) d hi
      have e1 : inSec (if s.shutting then .finishing id true else .replying id) = true := by split <;> rfl
      have e2 : isSent (if s.shutting then .finishing id true else .replying id) = false := by split <;> rfl
      have e3 : awake (if s.shutting then .finishing id true else .replying id) = false := by split <;> rfl
      rw [e1] at g1; rw [e2] at g2; rw [e3] at g3
      simp [inSec, isSent, awake] at g1 g2 g3
      exact ⟨by simp only; omega, h2, by simp only; omega, h4, by simp only [g3]; exact h5, h6, h7, h8⟩
    · cases h
  | cancel i =>
    simp only [step] at h
    split at h
    · rename_i id d hi
      split at h
      · simp only [Option.some.injEq] at h
        subst h
        have g1 := cnt_cl inSec s i _ (.finishing id true) d hi
        have g2 := cnt_cl isSent s i _ (.finishing id true) d hi
        have g3 := cnt_cl awake s i _ (.finishing id true) d hi
        simp [inSec, isSent, awake] at g1 g2 g3
        exact ⟨by simp only; omega, h2, by simp only; omega, h4, by simp only [g3]; exact h5, h6, h7, h8⟩
      · cases h
    · cases h
  | finish i =>
    simp only [step] at h
    split at h
    · rename_i id d hi
      simp only [Option.some.injEq] at h
      subst h
      have g1 := cnt_cl inSec s i _ (.poking id true) d hi
      have g2 := cnt_cl isSent s i _ (.poking id true) d hi
      have g3 := cnt_cl awake s i _ (.poking id true) d hi
      simp [inSec, isSent, awake] at g1 g2 g3
      have hr := replying_of s i _ d hi rfl h1
      simp [hr] at h1
      exact ⟨by simp only [Bool.toNat_false]; omega, by simp, by simp only; omega, h4, fun _ _ _ => .inr (.inr (by simp only; omega)), h6, fun _ _ => rfl, h8⟩
    · rename_i id d hi
      simp only [Option.some.injEq] at h
      subst h
      have g1 := cnt_cl inSec s i _ (.poking id false) d hi
      have g2 := cnt_cl isSent s i _ (.poking id false) d hi
      have g3 := cnt_cl awake s i _ (.poking id false) d hi
      simp [inSec, isSent, awake] at g1 g2 g3
      have hr := replying_of s i _ d hi rfl h1
      simp [hr] at h1 h2
      exact ⟨by simp only [Bool.toNat_false]; omega, by simp, by simp only; omega, by simp only; omega, fun _ _ _ => .inr (.inr (by simp only; omega)), h6, fun _ _ => rfl, h8⟩
    · cases h
  | poke i =>
    simp only [step] at h
    split at h
    · rename_i id c d hi
      simp only [Option.some.injEq] at h
      subst h
      have g1 := cnt_cl inSec s i _ (if c then .refused else .opened id) d hi
      have g2 := cnt_cl isSent s i _ (if c then .refused else .opened id) d hi
      have e1 : inSec (if c then .refused else .opened id) = false := by split <;> rfl
      have e2 : isSent (if c then .refused else .opened id) = false := by split <;> rfl
      rw [e1] at g1; rw [e2] at g2
      simp [inSec, isSent] at g1 g2
      exact ⟨by simp only; omega, h2, by simp only; omega, h4, fun _ _ _ => .inl rfl, h6, h7, h8⟩
    · cases h
  | begin i =>
    simp only [step] at h
    split at h
    · rename_i id d hi
      simp only [Option.some.injEq] at h
      subst h
      have g1 := cnt_cl inSec s i _ (.transferring id) d hi
      have g2 := cnt_cl isSent s i _ (.transferring id) d hi
      have g3 := cnt_cl awake s i _ (.transferring id) d hi
      simp [inSec, isSent, awake] at g1 g2 g3
      exact ⟨by simp only; omega, h2, by simp only; omega, h4, by simp only [g3]; exact h5, h6, h7, h8⟩
    · cases h
  | enterRead i =>
    simp only [step] at h
    split at h
    · simp only [Option.some.injEq] at h
      subst h
      exact ⟨h1, h2, h3, h4, h5, h6, h7, h8⟩
    · cases h
  | leaveRead i =>
    simp only [step] at h
    split at h
    · simp only [Option.some.injEq] at h
      subst h
      exact ⟨h1, h2, h3, h4, h5, h6, h7, h8⟩
    · cases h
  | endTransfer i =>
    simp only [step] at h
    split at h
    · rename_i id d hi
      split at h
      · split at h
        · simp only [Option.some.injEq] at h
          subst h
          have g1 := cnt_cl inSec s i _ (.ended id) d hi
          have g2 := cnt_cl isSent s i _ (.ended id) d hi
          have g3 := cnt_cl awake s i _ (.ended id) d hi
          simp [inSec, isSent, awake] at g1 g2 g3
          exact ⟨by simp only; omega, h2, by simp only; omega, h4, by simp only [g3]; exact h5, h6, h7, h8⟩
        · cases h
      · cases h
    · cases h
  | delete i =>
    simp only [step] at h
    split at h
    · rename_i id d hi
      simp only [Option.some.injEq] at h
      subst h
      have g1 := cnt_cl inSec s i _ .closed d hi
      have g2 := cnt_cl isSent s i _ .closed d hi
      have g3 := cnt_cl awake s i _ .closed d hi
      simp [inSec, isSent, awake] at g1 g2 g3
      exact ⟨by simp only; omega, h2, by simp only; omega, h4, by simp only [g3]; exact h5, h6, h7, h8⟩
    · cases h
  | ctxDone i =>
    simp only [step, Option.some.injEq] at h
    subst h
    exact ⟨by rw [cnt_done]; exact h1, h2, by rw [cnt_done]; exact h3, h4, by rw [cnt_done]; exact h5, h6, h7, h8⟩
  | close =>
    simp only [step, Option.some.injEq] at h
    subst h
    exact ⟨h1, h2, h3, h4, h5, h6, h7, h8⟩
  | call =>
    simp only [step] at h
    split at h
    · rename_i hsv
      have hns : s.shutting = false := by rw [h6, hsv]; rfl
      split at h
      · simp only [Option.some.injEq] at h
        subst h
        exact ⟨h1, by simp only; omega, by simp only; omega, .inl (by assumption), fun _ _ _ => .inr (.inl rfl), by simp only [hns]; rfl, by simp [Sv.shut], h8⟩
      · simp only [Option.some.injEq] at h
        subst h
        exact ⟨h1, h2, h3, h4, fun x y z => (by
          rcases h5 x y z with h | h | h
          · exact .inl h
          · rw [hsv] at h; cases h
          · exact .inr (.inr h)), by simp only [hns]; rfl, by simp [Sv.shut], h8⟩
    · cases h
  | callPoke =>
    simp only [step] at h
    split at h
    · rename_i hsv
      have hns : s.shutting = false := by rw [h6, hsv]; rfl
      simp only [Option.some.injEq] at h
      subst h
      exact ⟨h1, h2, h3, h4, fun _ _ _ => .inl rfl, by simp only [hns]; rfl, by simp [Sv.shut], h8⟩
    · cases h
  | flow id inc =>
    simp only [step] at h
    split at h
    · rename_i hsv
      have hns : s.shutting = false := by rw [h6, hsv]; rfl
      have hw : ∀ (ss : List Stream), Count a { s with streams := ss } := fun ss => ⟨h1, h2, h3, h4, h5, h6, h7, h8⟩
      have hf : Count a { s with sv := .failed } := ⟨h1, h2, h3, h4, fun x y z => (by
          rcases h5 x y z with h | h | h
          · exact .inl h
          · rw [hsv] at h; cases h
          · exact .inr (.inr h)), by simp only [hns]; rfl, by simp [Sv.shut], h8⟩
      split at h
      · simp only [Option.some.injEq] at h; subst h; exact hf
      · split at h
        · simp only [Option.some.injEq] at h; subst h; exact hw _
        · simp only [Option.some.injEq] at h; subst h; exact hf
    · cases h
  | data id len fits =>
    simp only [step] at h
    split at h
    · rename_i hsv
      have hns : s.shutting = false := by rw [h6, hsv]; rfl
      have hw : ∀ (ss : List Stream), Count a { s with streams := ss } := fun ss => ⟨h1, h2, h3, h4, h5, h6, h7, h8⟩
      have hf : Count a { s with sv := .failed } := ⟨h1, h2, h3, h4, fun x y z => (by
          rcases h5 x y z with h | h | h
          · exact .inl h
          · rw [hsv] at h; cases h
          · exact .inr (.inr h)), by simp only [hns]; rfl, by simp [Sv.shut], h8⟩
      split at h
      · simp only [Option.some.injEq] at h; subst h; exact hf
      · split at h
        · simp only [Option.some.injEq] at h; subst h; exact hw _
        · simp only [Option.some.injEq] at h; subst h; exact hf
    · cases h
  | loopEnd =>
    simp only [step, Option.some.injEq] at h
    subst h
    exact ⟨h1, h2, h3, h4, h5, h6, h7, fun _ => rfl⟩
  | shut =>
    simp only [step] at h
    split at h
    · rename_i hcond
      simp only [Option.some.injEq] at h
      subst h
      exact ⟨h1, h2, h3, h4, fun _ _ h => (by cases h), rfl, fun _ h => absurd rfl h, fun _ => hcond.2⟩
    · cases h
  | shutWaited =>
    simp only [step] at h
    split at h
    · rename_i hcond
      simp only [Option.some.injEq] at h
      subst h
      have hs : s.shutting = true := by rw [h6, hcond.1]; rfl
      exact ⟨h1, h2, h3, h4, fun _ _ h => (by rw [hs] at h; cases h), by simp only [hs]; rfl, fun _ _ => hcond.2, h8⟩
    · cases h
  | shutPoke =>
    simp only [step] at h
    split at h
    · rename_i hcond
      simp only [Option.some.injEq] at h
      subst h
      have hs : s.shutting = true := by rw [h6, hcond]; rfl
      exact ⟨h1, h2, h3, h4, fun _ _ h => .inl rfl, by simp only [hs]; rfl, fun _ _ => h7 (by rw [hcond]; rfl) (by rw [hcond]; simp), h8⟩
    · cases h
  | stopAll =>
    simp only [step] at h
    split at h
    · rename_i hcond
      simp only [Option.some.injEq] at h
      subst h
      have hs : s.shutting = true := by rw [h6, hcond]; rfl
      exact ⟨h1, h2, h3, h4, fun _ _ h => (by rw [hs] at h; cases h), by simp only [hs]; rfl, fun _ _ => h7 (by rw [hcond]; rfl) (by rw [hcond]; simp), h8⟩
    · cases h
  | joined =>
    simp only [step] at h
    split at h
    · rename_i hcond
      simp only [Option.some.injEq] at h
      subst h
      have hs : s.shutting = true := by rw [h6, hcond.1]; rfl
      exact ⟨h1, h2, h3, h4, fun _ _ h => (by rw [hs] at h; cases h), by simp only [hs]; rfl, fun _ _ => h7 (by rw [hcond.1]; rfl) (by rw [hcond.1]; simp), h8⟩
    · cases h
  | drainEnd =>
    simp only [step] at h
    split at h
    · split at h
      · cases h
      · split at h
        · split at h
          · simp only [Option.some.injEq] at h
            subst h
            exact ⟨h1, h2, h3, h4, h5, h6, h7, h8⟩
          · cases h
        · cases h
    · cases h
  | drainNext =>
    simp only [step] at h
    split at h
    · split at h
      · simp only [Option.some.injEq] at h
        subst h
        exact ⟨h1, h2, h3, h4, h5, h6, h7, h8⟩
      · cases h
    · cases h

theorem count_reachable (a : Nat) (rs : List Stream) (s : St) (h : Reachable a rs s) : Count a s := by
  obtain ⟨ls, h⟩ := h
  exact run_inv (Count a) (fun s l s' => count_step a s l s') ls _ _ (count_initial a rs) h

/-- C108: the program is told of at most as many connections as it has called for, and those it hasn't been told of are pending. -/
theorem accepted_le_calls (a : Nat) (rs : List Stream) (s : St) (h : Reachable a rs s) :
    s.replies.length ≤ s.calls + a ∧ s.calls + a ≤ s.accepting + s.replies.length ∧ (s.replying = false → s.accepting + s.replies.length = s.calls + a) := by
  have hc := count_reachable a rs s h
  have hsub := cnt_mono isSent inSec (by intro c; cases c <;> simp [isSent, inSec]) s.clients
  have h1 := hc.one; have h2 := hc.pos; have h3 := hc.sum
  refine ⟨by omega, by omega, fun hr => ?_⟩
  rw [hr] at h1
  simp at h1
  omega

/-- C108: one connection is being accepted at a time. -/
theorem one_at_a_time (a : Nat) (rs : List Stream) (s : St) (h : Reachable a rs s) : cnt inSec s.clients ≤ 1 := by
  have hc := (count_reachable a rs s h).one
  have := Bool.toNat_le s.replying
  omega

/-- C108: no wakeup is lost. If a call of Connect is waiting and the program has called for a connection, then there's a step to be taken by the service, or by a call of Connect, or by the loop which receives the reply -
unless the service is shutting down. -/
theorem no_lost_wakeup (a : Nat) (rs : List Stream) (s : St) (h : Reachable a rs s) (ha : 0 < s.accepting) (hs : s.shutting = false) (i : Nat) (d : Bool) (hi : s.clients[i]? = some (.waiting, d)) :
    (∃ j, (step s (.wake j)).isSome ∨ (step s (.look j)).isSome ∨ (step s (.look2 j)).isSome ∨ (step s (.finish j)).isSome ∨ (step s (.poke j)).isSome) ∨ (step s .callPoke).isSome ∨
      ∃ j id e, s.clients[j]? = some (.replying id, e) ∧ (s.loop = true → (step s (.send j)).isSome) := by
  have hc := count_reachable a rs s h
  have hex : ∀ p : Cl → Bool, 0 < cnt p s.clients → ∃ (j : Nat) (c : Cl) (e : Bool), s.clients[j]? = some (c, e) ∧ p c = true := by
    intro p hp
    obtain ⟨x, hx, hpx⟩ := List.countP_pos_iff.mp hp
    obtain ⟨j, hj⟩ := List.getElem?_of_mem hx
    exact ⟨j, x.1, x.2, hj, hpx⟩
  cases hr : s.replying with
  | true =>
    have h1 := hc.one
    rw [hr] at h1
    simp at h1
    obtain ⟨j, c, e, hj, hp⟩ := hex inSec (by omega)
    cases c with
    | replying id => exact .inr (.inr ⟨j, id, e, hj, fun hl => by simp [step, hj, hl]⟩)
    | replyWoken id => exact .inl ⟨j, .inr (.inr (.inl (by simp [step, hj])))⟩
    | finishing id b => exact .inl ⟨j, .inr (.inr (.inr (.inl (by cases b <;> simp [step, hj]))))⟩
    | _ => simp [inSec] at hp
  | false =>
    rcases hc.wake ha hr hs with ht | hsv | hcnt
    · exact .inl ⟨i, .inl (by simp [step, hi, ht])⟩
    · exact .inr (.inl (by simp [step, hsv]))
    · obtain ⟨j, c, e, hj, hp⟩ := hex awake hcnt
      cases c with
      | woken => exact .inl ⟨j, .inr (.inl (by simp [step, hj, ha, hr, hs]))⟩
      | poking id b => exact .inl ⟨j, .inr (.inr (.inr (.inr (by simp [step, hj]))))⟩
      | _ => simp [awake] at hp

end Gate.Origin
