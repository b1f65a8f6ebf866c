import Verif.Download
/-
C151: a file being downloaded is never seen incomplete.
-/
namespace Gate.Download
open Gate.Auth

/-- The state at the end. -/
def final (r : List World × Exit) : Option World := r.1.getLast?

def IsFile (n : Node) : Prop := ∀ s, n ≠ .special s

theorem write_dest (w : World) (o : Out) (b : Bytes) (h : IsFile w.dest) : (write w o b).dest = w.dest := by
  unfold write
  split
  · rfl
  · split
    · rename_i s hs; exact absurd hs (h s)
    · rfl
  · split <;> rfl

theorem copy_dest (o : Out) : ∀ (cs : List Bytes) (w : World), IsFile w.dest → ∀ w' ∈ copy w o cs, w'.dest = w.dest := by
  intro cs
  induction cs with
  | nil => intro w _ w' hw; simp only [copy, List.mem_singleton] at hw; rw [hw]
  | cons b bs ih =>
    intro w hf w' hw
    simp only [copy, List.mem_cons] at hw
    rcases hw with rfl | hw
    · rfl
    · have hd := write_dest w o b hf
      rw [ih _ (by rw [hd]; exact hf) w' hw, hd]

theorem copy_ne (o : Out) (cs : List Bytes) (w : World) : copy w o cs ≠ [] := by cases cs <;> simp [copy]

/-- What the copying has made. -/
def written (w : World) (o : Out) (b : Bytes) : World := write w o b

theorem write_append (w : World) (o : Out) (a b : Bytes) : write (write w o a) o b = write w o (a ++ b) := by
  cases w with
  | mk d t s =>
    cases o <;> cases d <;> cases t <;> simp [write]

theorem write_nil (w : World) (o : Out) : write w o [] = w := by
  cases w with
  | mk d t s => cases o <;> cases d <;> cases t <;> simp [write]

theorem copy_last (o : Out) : ∀ (cs : List Bytes) (w : World) (h : copy w o cs ≠ []), (copy w o cs).getLast h = write w o cs.flatten := by
  intro cs
  induction cs with
  | nil => intro w h; simp [copy, write_nil]
  | cons b bs ih =>
    intro w h
    simp only [copy, List.flatten_cons]
    rw [List.getLast_cons (copy_ne _ _ _), ih, write_append]

theorem size_flatten (cs : List Bytes) : size cs = cs.flatten.length := by simp [size, List.length_flatten]

/-- The states of a run which has got as far as copying. -/
theorem download_eq (e : Env) (w : World) (o : Out) (n : Int) (h1 : choose e w = some o) (h2 : e.get = some n)
    (h3 : ¬ (o = .temp ∧ e.tempFails = true)) :
    download e w = (w :: copy (if o = .temp then { w with temp := some ⟨[], 0o600⟩ } else w) o e.chunks ++
        (finish e o n (write (if o = .temp then { w with temp := some ⟨[], 0o600⟩ } else w) o e.chunks.flatten)).1,
      (finish e o n (write (if o = .temp then { w with temp := some ⟨[], 0o600⟩ } else w) o e.chunks.flatten)).2) := by
  unfold download
  simp only [h1, h2, h3, if_false]
  rw [copy_last]

theorem w1_dest (o : Out) (w : World) : (if o = .temp then { w with temp := some ⟨[], 0o600⟩ } else w : World).dest = w.dest := by
  split <;> rfl

/-- C151: whenever the program may be killed, there's what there was at the destination, or all that was announced. -/
theorem atomic (e : Env) (w w' : World) (hf : IsFile w.dest) (h : w' ∈ (download e w).1) :
    w'.dest = w.dest ∨ (e.noName = false ∧ e.get = some (e.chunks.flatten.length : Int) ∧ e.copyFails = false ∧
      w'.dest = .regular ⟨e.chunks.flatten, 0o600⟩ ∧ w'.temp = none) := by
  cases h1 : choose e w with
  | none => simp [download, h1] at h; simp [h]
  | some o =>
    cases h2 : e.get with
    | none => simp [download, h1, h2] at h; simp [h]
    | some n =>
      by_cases h3 : o = .temp ∧ e.tempFails = true
      · simp [download, h1, h2, h3] at h; simp [h]
      · rw [download_eq e w o n h1 h2 h3] at h
        simp only [List.cons_append, List.mem_cons, List.mem_append] at h
        rcases h with rfl | h | h
        · simp
        · left
          rw [copy_dest o _ _ (by rw [w1_dest]; exact hf) _ h, w1_dest]
        · right
          unfold finish at h
          split at h
          · simp at h
          split at h
          · simp at h
          split at h
          · simp at h
          split at h
          · rename_i hc hs _ ho
            split at h
            · simp at h
            · subst ho
              simp only [List.mem_singleton, if_true, write, rename] at h
              rw [size_flatten] at hs
              have hn : e.noName = false := by
                cases hx : e.noName with
                | false => rfl
                | true => simp [choose, hx] at h1
              refine ⟨hn, ?_, by simpa using hc, ?_, ?_⟩
              · rw [Option.some.injEq]; simp only [ne_eq, Decidable.not_not] at hs; exact hs.symm
              · rw [h]; simp
              · rw [h]
          · simp at h

/-- Where the data ends up. -/
def Delivered (e : Env) (w w' : World) (data : Bytes) : Prop :=
  if e.noName = true then w' = { w with stdout := w.stdout ++ data }
  else match w.dest with
    | .special s => w' = { w with dest := .special (s ++ data) }
    | _ => w' = { w with dest := .regular ⟨data, 0o600⟩, temp := none }

/-- C151: success means that everything which was announced is there, and that nothing else was changed. -/
theorem success (e : Env) (w : World) (h : (download e w).2 = .ok) :
    e.get = some (e.chunks.flatten.length : Int) ∧ e.copyFails = false ∧
      ∃ w', final (download e w) = some w' ∧ Delivered e w w' e.chunks.flatten := by
  cases h1 : choose e w with
  | none => simp [download, h1] at h
  | some o =>
    cases h2 : e.get with
    | none => simp [download, h1, h2] at h
    | some n =>
      by_cases h3 : o = .temp ∧ e.tempFails = true
      · simp [download, h1, h2, h3] at h
      · have hd := download_eq e w o n h1 h2 h3
        rw [hd] at h
        simp only at h
        unfold final
        rw [hd]
        generalize hw1 : (if o = .temp then { w with temp := some ⟨[], 0o600⟩ } else w : World) = w1 at h ⊢
        unfold finish at h ⊢
        split at h
        · cases h
        split at h
        · cases h
        split at h
        · cases h
        rename_i hc hs hcl
        simp only [hc, hs, hcl, if_false, Bool.false_eq_true]
        simp only [ne_eq, Decidable.not_not, size_flatten] at hs
        refine ⟨by rw [hs], by simpa using hc, ?_⟩
        have hlast : (copy w1 o e.chunks).getLast? = some (write w1 o e.chunks.flatten) := by
          rw [List.getLast?_eq_some_getLast (copy_ne _ _ _), copy_last]
        split at h
        · rename_i ho
          split at h
          · cases h
          rename_i hr
          simp only [hr, ho, if_true, if_false, Bool.false_eq_true]
          subst ho
          simp only [if_true] at hw1
          refine ⟨rename (write w1 .temp e.chunks.flatten), by rw [List.getLast?_append]; simp, ?_⟩
          rw [← hw1]
          simp only [write, rename, List.nil_append, Delivered]
          have hn : e.noName = false := by
            cases hx : e.noName with
            | false => rfl
            | true => simp [choose, hx] at h1
          simp only [hn]
          cases hdst : w.dest with
          | special s =>
            rw [choose, hdst] at h1
            simp only [hn] at h1
            split at h1
            · contradiction
            · split at h1
              · cases h1
              · split at h1 <;> cases h1
          | _ => simp
        · rename_i ho
          simp only [ho, if_false] at hw1 ⊢
          subst hw1
          refine ⟨write w o e.chunks.flatten, ?_, ?_⟩
          · rw [List.append_nil, List.getLast?_cons, hlast]; rfl
          · unfold Delivered
            cases hn : e.noName with
            | true =>
              simp only [choose, hn, if_true, Option.some.injEq] at h1
              subst h1
              simp [write]
            | false =>
              cases hdst : w.dest with
              | special s =>
                simp only [choose, hn, hdst] at h1
                have : o = .opened := by
                  split at h1
                  · contradiction
                  · split at h1
                    · cases h1
                    · split at h1
                      · cases h1
                      · simpa using h1.symm
                subst this
                simp [write, hdst]
              | absent => simp [choose, hn, hdst] at h1; exact absurd h1.symm ho
              | regular f =>
                simp only [choose, hn, hdst] at h1
                split at h1
                · contradiction
                · split at h1
                  · cases h1
                  · split at h1
                    · cases h1
                    · exact absurd (by simpa using h1.symm) ho
              | link f =>
                simp only [choose, hn, hdst] at h1
                split at h1
                · contradiction
                · split at h1
                  · cases h1
                  · split at h1
                    · cases h1
                    · exact absurd (by simpa using h1.symm) ho

/-- C151: a failure doesn't touch the destination. -/
theorem failure_keeps (e : Env) (w w' : World) (hf : IsFile w.dest) (hx : (download e w).2 = .fatal) (h : w' ∈ (download e w).1) :
    w'.dest = w.dest := by
  cases h1 : choose e w with
  | none => simp [download, h1] at h; simp [h]
  | some o =>
    cases h2 : e.get with
    | none => simp [download, h1, h2] at h; simp [h]
    | some n =>
      by_cases h3 : o = .temp ∧ e.tempFails = true
      · simp [download, h1, h2, h3] at h; simp [h]
      · rw [download_eq e w o n h1 h2 h3] at h hx
        simp only [List.cons_append, List.mem_cons, List.mem_append] at h hx
        rcases h with rfl | h | h
        · rfl
        · rw [copy_dest o _ _ (by rw [w1_dest]; exact hf) _ h, w1_dest]
        · exfalso
          unfold finish at h hx
          split at h
          · simp at h
          split at h
          · simp at h
          split at h
          · simp at h
          rename_i a b c
          simp only [a, b, c, if_false] at hx
          split at h
          · rename_i ho
            split at h
            · simp at h
            · rename_i hr
              simp [ho, hr] at hx
          · simp at h

/-- C151: with an existing destination the program needs to be able to write it. -/
theorem unwritable (e : Env) (w : World) (h1 : e.noName = false) (h2 : w.dest ≠ .absent) (h3 : e.openFails = true) :
    download e w = ([w], .fatal) := by
  have : choose e w = none := by
    unfold choose
    rw [h1]
    cases hd : w.dest <;> simp_all
  simp [download, this]

/-- C151 (refutation): the temporary file is removed by a deferred function, which log.Fatal doesn't call: every failure
after its creation leaves it in the directory. -/
theorem leftover_refuted (e : Env) (w : World) (n : Int) (h1 : choose e w = some .temp) (h2 : e.get = some n) (h3 : e.tempFails = false)
    (hx : (download e w).2 = .fatal) : ∃ w', final (download e w) = some w' ∧ w'.temp = some ⟨e.chunks.flatten, 0o600⟩ := by
  have hd := download_eq e w .temp n h1 h2 (by simp [h3])
  rw [hd] at hx
  unfold final
  rw [hd]
  simp only [if_true] at hx ⊢
  have hlast : (copy { w with temp := some ⟨[], 0o600⟩ } .temp e.chunks).getLast? = some (write { w with temp := some ⟨[], 0o600⟩ } .temp e.chunks.flatten) := by
    rw [List.getLast?_eq_some_getLast (copy_ne _ _ _), copy_last]
  have hnil : (finish e .temp n (write { w with temp := some ⟨[], 0o600⟩ } .temp e.chunks.flatten)).1 = [] := by
    unfold finish at hx ⊢
    split
    · rfl
    split
    · rfl
    split
    · rfl
    split
    · rename_i a b c _
      simp only [a, b, c, if_false] at hx
      split
      · rfl
      · rename_i hr
        simp [hr] at hx
    · rfl
  rw [hnil]
  refine ⟨write { w with temp := some ⟨[], 0o600⟩ } .temp e.chunks.flatten, ?_, ?_⟩
  · rw [List.append_nil, List.getLast?_cons, hlast]; rfl
  · simp [write]

/-- C151 (refutation): an existing file's mode isn't kept, and a link is replaced. -/
theorem replaced_refuted (e : Env) (w : World) (h : (download e w).2 = .ok) (hn : e.noName = false) (hf : IsFile w.dest) :
    ∃ w', final (download e w) = some w' ∧ w'.dest = .regular ⟨e.chunks.flatten, 0o600⟩ := by
  obtain ⟨-, -, w', h1, h2⟩ := success e w h
  refine ⟨w', h1, ?_⟩
  unfold Delivered at h2
  rw [hn] at h2
  simp only [Bool.false_eq_true, if_false] at h2
  split at h2
  · rename_i s hs; exact absurd hs (hf s)
  · rw [h2]

/-! ## Examples -/

def exampleWorld : World := ⟨.regular ⟨[1, 2], 0o644⟩, none, []⟩
def exampleEnv : Env := ⟨false, false, false, some 3, [[7], [8, 9]], false, false, false, false⟩
/-- A run which replaces a file. -/
example : (download exampleEnv exampleWorld).2 = .ok ∧ (download exampleEnv exampleWorld).1.length = 5 ∧
    (download exampleEnv exampleWorld).1.map (·.dest) =
      [.regular ⟨[1, 2], 0o644⟩, .regular ⟨[1, 2], 0o644⟩, .regular ⟨[1, 2], 0o644⟩, .regular ⟨[1, 2], 0o644⟩, .regular ⟨[7, 8, 9], 0o600⟩] := by decide
/-- A connection which is lost. -/
example : (download { exampleEnv with copyFails := true } exampleWorld).2 = .fatal := by decide
/-- A server which doesn't announce the length. -/
example : (download { exampleEnv with get := some (-1) } exampleWorld).2 = .fatal := by decide

end Gate.Download
