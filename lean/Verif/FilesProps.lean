import Verif.Files

/-! # Properties of shared file references and of complete writes (C46, C47) -/

namespace Gate.Files

/-! ## References -/

/-- What holds in every state: before the release every count belongs to a holder or to an Unref in
progress; the release happens once; afterwards a count can only be one which a panicking MustRef left
behind, or come after such. -/
structure Inv (s : St) : Prop where
  eq : s.count = holders s + s.decs + s.leaked
  once : s.closing + s.closed ≤ 1
  live : s.closing + s.closed = 0 → s.leaked = 0 ∧ 0 < holders s + s.decs
  gone : s.closing + s.closed = 1 → s.leaked = 0 → holders s = 0 ∧ s.decs = 0

theorem inv_own : Inv own := by constructor <;> decide

theorem holders_append (rs : List Ref) (r : Ref) : (rs ++ [r]).countP (· == .owned) = rs.countP (· == .owned) + (if r = .owned then 1 else 0) := by
  rw [List.countP_append]; cases r <;> simp [List.countP_cons, List.countP_nil]

theorem holders_set (rs : List Ref) (i : Nat) (h : rs[i]? = some .owned) :
    (rs.set i .nil).countP (· == .owned) + 1 = rs.countP (· == .owned) := by
  induction rs generalizing i with
  | nil => simp at h
  | cons r rs ih =>
    cases i with
    | zero =>
      simp at h; subst h
      simp [List.countP_cons]
    | succ i =>
      simp at h
      have := ih i h
      simp only [List.set_cons_succ, List.countP_cons]
      omega

theorem holders_pos (rs : List Ref) (i : Nat) (h : rs[i]? = some .owned) : 0 < rs.countP (· == .owned) := by
  have := holders_set rs i h; omega

theorem inv_addRef {s : St} (h : Inv s) : Inv (addRef s) := by
  obtain ⟨h1, h2, h3, h4⟩ := h
  unfold addRef
  split
  · constructor
    · simp only [holders] at *; omega
    · simpa using h2
    · simp only [holders] at *; intro h; have := h3 h; omega
    · simp only [holders] at *; intro h5 h6; omega
  · constructor
    · simp only [holders, holders_append, if_true] at *; omega
    · simpa using h2
    · simp only [holders, holders_append, if_true] at *; intro h; have := h3 h; omega
    · simp only [holders, holders_append, if_true] at *; intro h5 h6; have := h4 h5 h6; omega

theorem inv_congr {s t : St} (h : Inv s) (h1 : t.count = s.count) (h2 : holders t = holders s) (h3 : t.decs = s.decs)
    (h4 : t.closing + t.closed = s.closing + s.closed) (h5 : t.leaked = s.leaked) : Inv t := by
  obtain ⟨a, b, c, d⟩ := h
  constructor
  · rw [h1, h2, h3, h5]; exact a
  · rw [h4]; exact b
  · rw [h4, h2, h3, h5]; exact c
  · rw [h4, h2, h3, h5]; exact d

theorem inv_step {s s' : St} {l : Label} (h : Inv s) (hs : step s l = some s') : Inv s' := by
  cases l with
  | mustRef i =>
    simp only [step] at hs
    split at hs
    · cases hs
    · simp only [Option.some.injEq] at hs; subst hs; exact inv_congr h rfl rfl rfl rfl rfl
    · simp only [Option.some.injEq] at hs; subst hs; exact inv_addRef h
  | ref i =>
    simp only [step] at hs
    split at hs
    · cases hs
    · simp only [Option.some.injEq] at hs; subst hs
      exact inv_congr h rfl (by simp [holders]) rfl rfl rfl
    · simp only [Option.some.injEq] at hs; subst hs; exact inv_addRef h
  | lend i =>
    simp only [step] at hs
    split at hs
    · cases hs
    · simp only [Option.some.injEq] at hs; subst hs
      exact inv_congr h rfl (by simp [holders]) rfl rfl rfl
    · simp only [Option.some.injEq] at hs; subst hs
      exact inv_congr h rfl (by simp [holders]) rfl rfl rfl
  | unref i =>
    simp only [step] at hs
    split at hs
    · cases hs
    · simp only [Option.some.injEq] at hs; subst hs; exact h
    · rename_i hr
      simp only [Option.some.injEq] at hs; subst hs
      have := holders_set s.refs i hr
      obtain ⟨a, b, c, d⟩ := h
      constructor <;> simp only [holders] at *
      · omega
      · exact b
      · intro hh; have := c hh; omega
      · intro h5 h6; have := d h5 h6; omega
    · cases hs
  | dec =>
    simp only [step] at hs
    obtain ⟨a, b, c, d⟩ := h
    split at hs
    · cases hs
    · split at hs
      · simp only [Option.some.injEq] at hs; subst hs
        constructor <;> simp only [holders] at *
        · omega
        · by_cases h0 : s.closing + s.closed = 0
          · omega
          · have := d (by omega); omega
        · intro hh; omega
        · intro h5 h6; omega
      · split at hs
        · exfalso; simp only [holders] at *; omega
        · simp only [Option.some.injEq] at hs; subst hs
          constructor <;> simp only [holders] at *
          · omega
          · exact b
          · intro hh; have := c hh; omega
          · intro h5 h6; have := d h5 h6; omega
  | close =>
    simp only [step] at hs
    split at hs
    · cases hs
    · simp only [Option.some.injEq] at hs; subst hs
      exact inv_congr h rfl rfl rfl (by simp only; omega) rfl

theorem inv_run {s s' : St} {ls : List Label} (h : Inv s) (hr : run s ls = some s') : Inv s' := by
  induction ls generalizing s with
  | nil => simp [run] at hr; subst hr; exact h
  | cons l ls ih =>
    simp only [run, Option.bind_eq_some_iff] at hr
    obtain ⟨t, h1, h2⟩ := hr
    exact ih (inv_step h h1) h2

/-- C46, never twice: whatever happens, panics included, the file is closed at most once. -/
theorem closed_at_most_once (ls : List Label) (s : St) (h : run own ls = some s) : s.closing + s.closed ≤ 1 :=
  (inv_run inv_own h).once

/-- C46, never earlier: closing starts only when there is no reference left and every Unref has given
its count back. -/
theorem closed_after_last_reference (ls : List Label) (l : Label) (s s' : St) (h : run own ls = some s) (hs : step s l = some s')
    (hc : s.closing + s.closed = 0) (hc' : s'.closing + s'.closed ≠ 0) : holders s' = 0 ∧ s'.decs = 0 := by
  have i := inv_run inv_own h
  have i' := inv_step i hs
  have : s'.leaked = 0 := by
    have hl := (i.live hc).1
    cases l with
    | dec =>
      simp only [step] at hs
      split at hs
      · cases hs
      · split at hs
        · simp only [Option.some.injEq] at hs; subst hs; exact hl
        · split at hs <;> (simp only [Option.some.injEq] at hs; subst hs; exact hl)
    | close =>
      simp only [step] at hs
      split at hs
      · cases hs
      · simp only [Option.some.injEq] at hs; subst hs; simp only at hc'; omega
    | mustRef j =>
      exfalso; apply hc'
      simp only [step] at hs
      split at hs
      · cases hs
      all_goals (simp only [Option.some.injEq] at hs; subst hs; first | exact hc | (unfold addRef; split <;> exact hc))
    | ref j =>
      exfalso; apply hc'
      simp only [step] at hs
      split at hs
      · cases hs
      all_goals (simp only [Option.some.injEq] at hs; subst hs; first | exact hc | (unfold addRef; split <;> exact hc))
    | lend j =>
      exfalso; apply hc'
      simp only [step] at hs
      split at hs
      · cases hs
      all_goals (simp only [Option.some.injEq] at hs; subst hs; exact hc)
    | unref j =>
      exfalso; apply hc'
      simp only [step] at hs
      split at hs
      · cases hs
      · simp only [Option.some.injEq] at hs; subst hs; exact hc
      · simp only [Option.some.injEq] at hs; subst hs; exact hc
      · cases hs
  exact i'.gone (by have := i'.once; omega) this

/-- C46, exactly when: as long as no reference to a released file has been attempted, the file is open
if and only if there is a reference to it, or an Unref which has not given its count back. -/
theorem open_iff_referenced (ls : List Label) (s : St) (h : run own ls = some s) (hl : s.leaked = 0) :
    s.closing + s.closed = 0 ↔ (0 < holders s ∨ 0 < s.decs) := by
  have i := inv_run inv_own h
  have := i.live; have := i.gone; have := i.once
  omega

/-- C46: with references got from Own, MustRef and Ref alone, every operation on a reference which has
not been released succeeds: no MustRef of a held reference panics, and Unref never does. -/
theorem held_reference_never_panics (ls : List Label) (l : Label) (s s' : St) (h : run own ls = some s)
    (hl : match l with | .mustRef i => s.refs[i]? = some .owned | .ref i => s.refs[i]? ≠ some .lent | _ => True)
    (hs : step s l = some s') :
    s'.panics = s.panics := by
  have i := inv_run inv_own h
  have key : ∀ j : Nat, s.refs[j]? = some Ref.owned → (addRef s).panics = s.panics := by
    intro j hj
    have := holders_pos s.refs j hj
    unfold addRef
    rw [if_neg]
    have := i.eq
    simp only [holders] at *; omega
  cases l with
  | mustRef j =>
    simp only at hl
    simp only [step, hl, Option.some.injEq] at hs; subst hs
    exact key j hl
  | ref j =>
    simp only [step] at hs
    split at hs
    · cases hs
    · simp only [Option.some.injEq] at hs; subst hs; rfl
    · rename_i r hn hr
      simp only [Option.some.injEq] at hs; subst hs
      cases r with
      | nil => exact absurd rfl (fun h => hn h)
      | lent => exact absurd hr hl
      | owned => exact key j hr
  | lend j =>
    simp only [step] at hs
    split at hs
    · cases hs
    all_goals (simp only [Option.some.injEq] at hs; subst hs; rfl)
  | unref j =>
    simp only [step] at hs
    split at hs
    · cases hs
    · simp only [Option.some.injEq] at hs; subst hs; rfl
    · simp only [Option.some.injEq] at hs; subst hs; rfl
    · cases hs
  | dec =>
    simp only [step] at hs
    split at hs
    · cases hs
    · split at hs
      · simp only [Option.some.injEq] at hs; subst hs; rfl
      · split at hs
        · exfalso
          have := i.eq
          simp only [holders] at *; omega
        · simp only [Option.some.injEq] at hs; subst hs; rfl
  | close =>
    simp only [step] at hs
    split at hs
    · cases hs
    · simp only [Option.some.injEq] at hs; subst hs; rfl

/-- The part of C46 about referencing a released file: the first attempt panics, and makes no
reference. -/
theorem first_reference_of_released_panics_partial (ls : List Label) (i : Nat) (s s' : St) (h : run own ls = some s)
    (hr : s.closing + s.closed = 1) (hl : s.leaked = 0) (hi : s.refs[i]? = some .lent) (hs : step s (.mustRef i) = some s') :
    s'.panics = s.panics + 1 ∧ holders s' = 0 := by
  have iv := inv_run inv_own h
  have g := iv.gone hr hl
  simp only [step, hi, Option.some.injEq] at hs
  subst hs
  have := iv.eq
  unfold addRef
  rw [if_pos (by omega)]
  exact ⟨rfl, g.1⟩

/-- Refutes the rest of C46: the panicking MustRef leaves the count incremented, so that a second attempt
to reference the released file (from another goroutine, or after recovery) succeeds, with the file
closed. -/
theorem released_file_resurrected :
    ∃ s, run own [.lend 0, .unref 0, .dec, .close, .mustRef 1, .mustRef 1] = some s ∧
      s.closed = 1 ∧ s.panics = 1 ∧ holders s = 1 := ⟨_, rfl, by decide, by decide, by decide⟩

example : ∃ s, run own [.mustRef 0, .unref 0, .ref 1, .dec, .unref 1, .unref 2, .dec, .dec, .close] = some s ∧
    s.closed = 1 ∧ s.panics = 0 ∧ holders s = 0 := ⟨_, rfl, by decide, by decide, by decide⟩

/-! ## Writes -/

def Result.log : Result → Log
  | .done l | .eof l | .error _ l | .waiting l => l
  | .panic => []

theorem placed_append (p : Nat) (a b : Bytes) : placed p (a ++ b) = placed p a ++ placed (p + a.length) b := by
  induction a generalizing p with
  | nil => simp [placed]
  | cons x a ih => simp [placed, ih, Nat.add_assoc, Nat.add_comm 1]

theorem flatten_vector (bs : List Bytes) : (vector bs).flatten = bs.flatten := by
  induction bs with
  | nil => rfl
  | cons b bs ih =>
    unfold vector at *
    rw [List.filter_cons]
    split
    · simp [ih]
    · rename_i h
      have : b = [] := by cases b <;> simp_all
      simp [this, ih]

theorem vector_length (bs : List Bytes) : (vector bs).length = 0 ↔ bs.flatten = [] := by
  rw [← flatten_vector]
  constructor
  · intro h; rw [List.length_eq_zero_iff.mp h]; rfl
  · intro h
    rcases hv : vector bs with _ | ⟨b, v⟩
    · rfl
    · exfalso
      have hb : b ∈ vector bs := by rw [hv]; simp
      unfold vector at hb
      rw [List.mem_filter] at hb
      rw [hv] at h
      simp at h
      simp [h.1] at hb

/-- The inner loop drops the bytes which were written, and finishes when there are no more. -/
theorem consume_spec (bs : List Bytes) (n : Nat) (hn : n ≤ bs.flatten.length) (hne : bs ≠ []) :
    (consume bs n = .finished ∧ n = bs.flatten.length) ∨
      (∃ cs, consume bs n = .again cs ∧ cs.flatten = bs.flatten.drop n ∧ cs ≠ []) := by
  induction bs generalizing n with
  | nil => exact absurd rfl hne
  | cons b bs ih =>
    simp only [List.flatten_cons, List.length_append] at hn ⊢
    unfold consume
    split
    · rename_i hb
      split
      · rename_i hc
        obtain ⟨h1, h2⟩ := hc
        have : bs = [] := List.length_eq_zero_iff.mp h2
        subst this
        left
        refine ⟨rfl, ?_⟩
        simp at hn ⊢; omega
      · rename_i hc
        have hbs : bs ≠ [] := by
          intro h; subst h; simp at hn; simp at hc; omega
        rcases ih (n - b.length) (by omega) hbs with ⟨h1, h2⟩ | ⟨cs, h1, h2, h3⟩
        · left; exact ⟨h1, by omega⟩
        · right
          refine ⟨cs, h1, ?_, h3⟩
          rw [h2, List.drop_append, List.drop_eq_nil_of_le hb]; rfl
    · rename_i hb
      right
      refine ⟨_, rfl, ?_, by simp⟩
      rw [List.flatten_cons, List.drop_append]
      have : n - b.length = 0 := by omega
      rw [this]; simp

/-- What has been written at each point: the first `n` bytes. -/
theorem writeVecLoop_spec (rs : List Resp) (bs : List Bytes) (hne : bs ≠ []) (offset : Int) (filePos : Nat) (log : Log) :
    ∃ n, n ≤ bs.flatten.length ∧ writeVecLoop bs offset filePos log rs ≠ .panic ∧
      (writeVecLoop bs offset filePos log rs).log = log ++ placed (position offset filePos) (bs.flatten.take n) ∧
      (∀ l, writeVecLoop bs offset filePos log rs = .done l → n = bs.flatten.length) ∧
      (∀ l, writeVecLoop bs offset filePos log rs = .eof l → ∃ k, Resp.wrote k ∈ rs ∧ k = 0) ∧
      (∀ e l, writeVecLoop bs offset filePos log rs = .error e l → Resp.fail e ∈ rs) := by
  induction rs generalizing bs offset filePos log with
  | nil =>
    unfold writeVecLoop
    split
    · rename_i h; rw [vector_length] at h
      exact ⟨0, by omega, by simp, by simp [Result.log, placed], by simp [h], by simp, by simp⟩
    · exact ⟨0, by omega, by simp, by simp [Result.log, placed], by simp, by simp, by simp⟩
  | cons r rs ih =>
    by_cases hv : (vector bs).length = 0
    · have h := hv; rw [vector_length] at h
      refine ⟨0, by omega, ?_, ?_, ?_, ?_, ?_⟩ <;> cases r <;>
        simp [writeVecLoop, hv, Result.log, placed, h]
    · cases r with
      | again =>
        simp only [writeVecLoop, hv, if_false]
        obtain ⟨n, h1, h2, h3, h4, h5, h6⟩ := ih bs hne offset filePos log
        refine ⟨n, h1, h2, h3, h4, ?_, ?_⟩
        · intro l hl; obtain ⟨k, hk⟩ := h5 l hl; exact ⟨k, by simp [hk.1], hk.2⟩
        · intro e l hl; simp [h6 e l hl]
      | fail e =>
        simp only [writeVecLoop, hv, if_false]
        exact ⟨0, by omega, by simp, by simp [Result.log, placed], by simp, by simp, by intro e' l h; simp at h; simp [h.1]⟩
      | wrote k =>
        simp only [writeVecLoop, hv, if_false, flatten_vector]
        have hpos : 0 < bs.flatten.length := by
          rcases hx : bs.flatten with _ | _
          · exact absurd ((vector_length bs).mpr hx) hv
          · simp
        obtain ⟨m, hm⟩ : ∃ m, m = min k bs.flatten.length := ⟨_, rfl⟩
        rw [← hm]
        by_cases h0 : m = 0
        · rw [if_pos h0]
          refine ⟨0, by omega, by simp, by simp [Result.log, h0], by simp, ?_, by simp⟩
          intro l _; exact ⟨k, by simp, by omega⟩
        · rw [if_neg h0]
          rcases consume_spec bs m (by omega) hne with ⟨h1, h2⟩ | ⟨cs, h1, h2, h3⟩
          · simp only [h1]
            exact ⟨m, by omega, by simp, by simp [Result.log], fun _ _ => h2, by simp, by simp⟩
          · simp only [h1]
            obtain ⟨n, g1, g2, g3, g4, g5, g6⟩ := ih cs h3 (if offset ≥ 0 then offset + m else offset)
              (if offset ≥ 0 then filePos else filePos + m) (log ++ placed (position offset filePos) (bs.flatten.take m))
            have hlen : cs.flatten.length = bs.flatten.length - m := by rw [h2]; simp
            refine ⟨m + n, by omega, g2, ?_, ?_, ?_, ?_⟩
            · rw [g3, List.append_assoc]
              congr 1
              have hp : position (if offset ≥ 0 then offset + m else offset) (if offset ≥ 0 then filePos else filePos + m) =
                  position offset filePos + (bs.flatten.take m).length := by
                rw [List.length_take, Nat.min_eq_left (by omega)]
                unfold position
                by_cases ho : offset ≥ 0
                · simp only [ho, if_true]
                  rw [if_pos (by omega)]; omega
                · simp only [ho, if_false]
              rw [hp, ← placed_append, List.take_add, h2]
            · intro l hl; have := g4 l hl; omega
            · intro l hl; obtain ⟨k', hk'⟩ := g5 l hl; exact ⟨k', by simp [hk'.1], hk'.2⟩
            · intro e l hl; simp [g6 e l hl]

/-- C47: however the kernel splits the write and however often it asks to retry, success means that the
file got exactly the concatenation, in order, once, at consecutive positions. -/
theorem vector_write_complete (b0 b1 : Bytes) (offset : Int) (filePos : Nat) (rs : List Resp) (log : Log)
    (h : writeVecAt b0 b1 offset filePos rs = .done log) : log = placed (position offset filePos) (b0 ++ b1) := by
  obtain ⟨n, h1, h2, h3, h4, h5, h6⟩ := writeVecLoop_spec rs [b0, b1] (by simp) offset filePos []
  have hn := h4 log h
  have : writeVecLoop [b0, b1] offset filePos [] rs = .done log := h
  rw [this, hn, List.take_length] at h3
  simpa [Result.log] using h3

/-- C47: at every other moment, and after a failure, the file has got a prefix of it, and there is no
panic. -/
theorem vector_write_prefix (b0 b1 : Bytes) (offset : Int) (filePos : Nat) (rs : List Resp) :
    writeVecAt b0 b1 offset filePos rs ≠ .panic ∧
    ∃ n, n ≤ (b0 ++ b1).length ∧
      (writeVecAt b0 b1 offset filePos rs).log = placed (position offset filePos) ((b0 ++ b1).take n) := by
  obtain ⟨n, h1, h2, h3, h4, h5, h6⟩ := writeVecLoop_spec rs [b0, b1] (by simp) offset filePos []
  refine ⟨h2, n, by simpa using h1, ?_⟩
  simpa [writeVecAt] using h3

/-- C47: an error is reported only if the kernel failed a write with it, or wrote nothing. -/
theorem vector_write_error (b0 b1 : Bytes) (offset : Int) (filePos : Nat) (rs : List Resp) :
    (∀ e l, writeVecAt b0 b1 offset filePos rs = .error e l → Resp.fail e ∈ rs) ∧
    (∀ l, writeVecAt b0 b1 offset filePos rs = .eof l → Resp.wrote 0 ∈ rs) := by
  obtain ⟨n, h1, h2, h3, h4, h5, h6⟩ := writeVecLoop_spec rs [b0, b1] (by simp) offset filePos []
  refine ⟨h6, fun l hl => ?_⟩
  obtain ⟨k, hk, h0⟩ := h5 l hl
  exact h0 ▸ hk

/-- The answers which take at least one byte. -/
def progress (rs : List Resp) : Nat := rs.countP (fun r => match r with | .wrote k => k > 0 | _ => false)

theorem writeVecLoop_terminates (rs : List Resp) (bs : List Bytes) (hne : bs ≠ []) (offset : Int) (filePos : Nat) (log : Log)
    (hp : bs.flatten.length ≤ progress rs) : ∀ l, writeVecLoop bs offset filePos log rs ≠ .waiting l := by
  induction rs generalizing bs offset filePos log with
  | nil =>
    intro l
    unfold writeVecLoop
    rw [if_pos]
    · simp
    · rw [vector_length]
      simp only [progress, List.countP_nil, Nat.le_zero] at hp
      exact List.length_eq_zero_iff.mp hp
  | cons r rs ih =>
    intro l
    by_cases hv : (vector bs).length = 0
    · cases r <;> simp [writeVecLoop, hv]
    · cases r with
      | again =>
        simp only [writeVecLoop, hv, if_false]
        exact ih bs hne _ _ _ (by simpa [progress] using hp) l
      | fail e => simp [writeVecLoop, hv]
      | wrote k =>
        simp only [writeVecLoop, hv, if_false, flatten_vector]
        obtain ⟨m, hm⟩ : ∃ m, m = min k bs.flatten.length := ⟨_, rfl⟩
        rw [← hm]
        by_cases h0 : m = 0
        · simp [h0]
        · rw [if_neg h0]
          rcases consume_spec bs m (by omega) hne with ⟨h1, h2⟩ | ⟨cs, h1, h2, h3⟩
          · simp [h1]
          · simp only [h1]
            apply ih cs h3
            rw [h2, List.length_drop]
            have hk : k > 0 := by omega
            simp only [progress, List.countP_cons, hk, decide_true, if_true] at hp ⊢
            omega

/-- C47: the write does not go on for ever: it has ended at the latest when as many answers have taken a
byte as there are bytes. -/
theorem vector_write_terminates (b0 b1 : Bytes) (offset : Int) (filePos : Nat) (rs : List Resp) (hp : (b0 ++ b1).length ≤ progress rs) (l : Log) :
    writeVecAt b0 b1 offset filePos rs ≠ .waiting l :=
  writeVecLoop_terminates rs [b0, b1] (by simp) offset filePos [] (by simpa using hp) l

example : writeVecAt [1, 2] [3] 7 0 [.again, .wrote 1, .wrote 1, .again, .wrote 9] = .done [(7, 1), (8, 2), (9, 3)] := by decide
example : writeVec [1, 2] [3, 4] 5 [.wrote 3, .wrote 1] = .done [(5, 1), (6, 2), (7, 3), (8, 4)] := by decide
example : writeVec [] [3, 4] 5 [.wrote 1, .fail 28] = .error 28 [(5, 3)] := by decide

/-- C47 for plain positioned writes: the count which is returned is the number of bytes written, they are
a prefix, and all of them when there is no error. -/
theorem write_at_exact (rs : List Resp) (b : Bytes) (offset n : Nat) (log : Log) :
    ∃ m, m ≤ b.length ∧ (writeAt b offset n log rs).1 = n + m ∧
      (writeAt b offset n log rs).2 ≠ .panic ∧
      (writeAt b offset n log rs).2.log = log ++ placed offset (b.take m) ∧
      (∀ l, (writeAt b offset n log rs).2 = .done l → m = b.length) := by
  induction rs generalizing b offset n log with
  | nil =>
    unfold writeAt
    split
    · exact ⟨0, by omega, rfl, by simp, by simp [Result.log, placed], by simp⟩
    · exact ⟨0, by omega, rfl, by simp, by simp [Result.log, placed], by intro l _; omega⟩
  | cons r rs ih =>
    by_cases hb : b.length > 0
    · cases r with
      | again =>
        simp only [writeAt, hb, if_true]
        exact ih b offset n log
      | fail e =>
        simp only [writeAt, hb, if_true]
        exact ⟨0, by omega, rfl, by simp, by simp [Result.log, placed], by simp⟩
      | wrote k =>
        simp only [writeAt, hb, if_true]
        obtain ⟨c, hc⟩ : ∃ c, c = min k b.length := ⟨_, rfl⟩
        rw [← hc]
        by_cases h0 : c = 0
        · rw [if_pos h0]
          exact ⟨0, by omega, rfl, by simp, by simp [Result.log, h0], by simp⟩
        · rw [if_neg h0]
          obtain ⟨m, h1, h2, h3, h4, h5⟩ := ih (b.drop c) (offset + c) (n + c) (log ++ placed offset (b.take c))
          rw [List.length_drop] at h1
          refine ⟨c + m, by omega, by omega, h3, ?_, ?_⟩
          · have : (b.take c).length = c := by rw [List.length_take]; omega
            rw [h4, List.append_assoc, List.take_add, placed_append, this]
          · intro l hl; have := h5 l hl; rw [List.length_drop] at this; omega
    · refine ⟨0, by omega, ?_, ?_, ?_, ?_⟩ <;> cases r <;> simp [writeAt, hb, Result.log, placed] <;> simp_all

end Gate.Files
