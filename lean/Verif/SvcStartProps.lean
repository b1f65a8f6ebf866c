import Verif.SvcStart
import Verif.ServicesProps

/-!
# C153: Configured services

Specification: the words of a configuration string (`Words`), the connections which a configuration asks for
(`wanted`), the connections opened and closed (`opened`, `closed`).
-/

namespace Gate.SvcStart
open Gate.Auth (str)
open Gate.Services (Factory Node Categories register find)

/-! ### Specification -/

/-- The words of a string: white space, word, white space, word... -/
inductive Words : Bytes → List Bytes → Prop
  | nil (ws : Bytes) : (∀ c ∈ ws, isSpace c = true) → Words ws []
  | cons (ws w rest : Bytes) (l : List Bytes) : (∀ c ∈ ws, isSpace c = true) → w ≠ [] → (∀ c ∈ w, isSpace c = false) →
    (∀ c, rest.head? = some c → isSpace c = true) → Words rest l → Words (ws ++ w ++ rest) (w :: l)

def opened (evs : List Ev) : List Conn := evs.filterMap fun e => match e with | .opened c => some c | _ => none
def closed (evs : List Ev) : List Conn := evs.filterMap fun e => match e with | .closed c => some c | _ => none

/-- The program and arguments which a command's words name. -/
def program : List Bytes → Bytes × List Bytes
  | [] => ([], [])
  | w :: ws => if w.head? = some 64 then (w.drop 1, ws) else (w, w :: ws)

/-- The connections which the configuration's words ask for, as far as they can be had. -/
def wantedCommand (w : World) (words : List Bytes) : Option Conn :=
  match w.execute (program words).1 (program words).2 with
  | .services l => some ⟨(program words).1, some (program words).2, true, l⟩
  | .fails => none
def wantedTarget (w : World) (words : List Bytes) : Option Conn :=
  match w.dial (words.headD []) (decide (str "insecure" ∈ words.drop 1)) with
  | .services l => some ⟨words.headD [], none, decide (str "insecure" ∈ words.drop 1), l⟩
  | .fails => none

/-- A command which names a program with a command name. -/
def GoodCommand (words : List Bytes) : Prop := words ≠ [] ∧ (program words).2 ≠ []
/-- A target which consists of an address and known options. -/
def GoodTarget (words : List Bytes) : Prop := words ≠ [] ∧ ∀ o ∈ words.drop 1, o = str "insecure" ∨ o = str "optional"

/-! ### Words -/

theorem fieldsAux_spaces (ws b : Bytes) (h : ∀ c ∈ ws, isSpace c = true) : fieldsAux (ws ++ b) [] = fieldsAux b [] := by
  induction ws with
  | nil => rfl
  | cons c cs ih =>
    rw [List.cons_append, fieldsAux, if_pos (h c (by simp)), if_pos rfl]
    exact ih fun d hd => h d (by simp [hd])

theorem fieldsAux_word (w b acc : Bytes) (h : ∀ c ∈ w, isSpace c = false) :
    fieldsAux (w ++ b) acc = fieldsAux b (acc ++ w) := by
  induction w generalizing acc with
  | nil => simp
  | cons c cs ih =>
    rw [List.cons_append, fieldsAux, if_neg (by rw [h c (by simp)]; simp), ih _ fun d hd => h d (by simp [hd])]
    simp

theorem fields_of_words {b : Bytes} {l : List Bytes} (h : Words b l) : fields b = l := by
  induction h with
  | nil ws h =>
    have := fieldsAux_spaces ws [] h
    rw [List.append_nil] at this
    rw [fields, this]; rfl
  | cons ws w rest l h1 h2 h3 h4 _ ih =>
    rw [fields, List.append_assoc, fieldsAux_spaces _ _ h1, fieldsAux_word _ _ _ h3, List.nil_append]
    cases rest with
    | nil => rw [fieldsAux, if_neg h2]; rw [← ih]; rfl
    | cons c cs =>
      rw [fieldsAux, if_pos (h4 c rfl), if_neg h2]
      have : fields (c :: cs) = fields cs := by
        rw [fields, fields, fieldsAux, if_pos (h4 c rfl), if_pos rfl]
      rw [← ih, this]; rfl

theorem words_space (c : UInt8) (hc : isSpace c = true) {b : Bytes} {l : List Bytes} (h : Words b l) : Words (c :: b) l := by
  have hcons : ∀ ws : Bytes, (∀ d ∈ ws, isSpace d = true) → ∀ d ∈ c :: ws, isSpace d = true := by
    intro ws h d hd
    rcases List.mem_cons.mp hd with rfl | hd
    · exact hc
    · exact h _ hd
  cases h with
  | nil _ h => exact .nil _ (hcons _ h)
  | cons ws w rest l h1 h2 h3 h4 h5 =>
    have := Words.cons (c :: ws) w rest l (hcons _ h1) h2 h3 h4 h5
    simpa using this

theorem words_aux (b acc : Bytes) (ha : ∀ c ∈ acc, isSpace c = false) : Words (acc ++ b) (fieldsAux b acc) := by
  induction b generalizing acc with
  | nil =>
    rw [fieldsAux]
    split
    · rename_i h; subst h; exact .nil _ (by simp)
    · rename_i h
      have := Words.cons [] acc [] [] (by simp) h ha (by simp) (.nil [] (by simp))
      simpa using this
  | cons c cs ih =>
    rw [fieldsAux]
    split
    · rename_i hc
      have hr : Words (c :: cs) (fieldsAux cs []) := by
        have := ih [] (by simp)
        rw [List.nil_append] at this
        exact words_space c hc this
      split
      · rename_i h; subst h; exact hr
      · rename_i h
        have := Words.cons [] acc (c :: cs) _ (by simp) h ha (by intro d hd; simp at hd; subst hd; exact hc) hr
        simpa using this
    · rename_i hc
      have := ih (acc ++ [c]) (by
        intro d hd
        rcases List.mem_append.mp hd with hd | hd
        · exact ha _ hd
        · simp at hd; subst hd; simpa using hc)
      simpa using this

theorem fields_iff (b : Bytes) (l : List Bytes) : fields b = l ↔ Words b l := by
  constructor
  · rintro rfl
    have := words_aux b [] (by simp)
    rw [List.nil_append] at this
    exact this
  · exact fields_of_words

theorem word_nonempty {b : Bytes} {l : List Bytes} (h : Words b l) : ∀ w ∈ l, w ≠ [] := by
  induction h with
  | nil => simp
  | cons ws w rest l h1 h2 h3 h4 _ ih =>
    intro x hx
    rcases List.mem_cons.mp hx with rfl | hx
    · exact h2
    · exact ih x hx

theorem parseCommand_eq (b : Bytes) (l : List Bytes) (h : Words b l) :
    parseCommand b = if l = [] then none else some (program l) := by
  unfold parseCommand
  rw [fields_of_words h]
  cases l with
  | nil => rfl
  | cons a as => simp only [program, reduceCtorEq, if_false]; split <;> rfl

theorem parseOptions_eq (l : List Bytes) (o : Options) :
    parseOptions l o =
      if ∀ s ∈ l, s = str "insecure" ∨ s = str "optional" then
        some ⟨o.insecure || decide (str "insecure" ∈ l), o.optional || decide (str "optional" ∈ l)⟩
      else none := by
  have hne : str "insecure" ≠ str "optional" := by decide
  induction l generalizing o with
  | nil => simp [parseOptions]
  | cons s ss ih =>
    rw [parseOptions]
    by_cases h1 : s = str "insecure"
    · subst h1
      rw [if_pos rfl, ih]
      simp [hne, hne.symm]
    · rw [if_neg h1]
      by_cases h2 : s = str "optional"
      · subst h2
        rw [if_pos rfl, ih]
        simp [hne, hne.symm]
      · rw [if_neg h2, if_neg]
        intro h
        rcases h s (by simp) with h | h
        · exact h1 h
        · exact h2 h

/-! ### Init -/

theorem opened_append (a b : List Ev) : opened (a ++ b) = opened a ++ opened b := by simp [opened]
theorem closed_append (a b : List Ev) : closed (a ++ b) = closed a ++ closed b := by simp [closed]
theorem opened_closed (l : List Conn) : opened (l.map .closed) = [] := by
  induction l with
  | nil => rfl
  | cons c cs ih => simpa [opened] using ih
theorem closed_closed (l : List Conn) : closed (l.map .closed) = l := by
  induction l with
  | nil => rfl
  | cons c cs ih => simpa [closed] using ih
theorem opened_cons (c : Conn) (evs : List Ev) : opened (.opened c :: evs) = c :: opened evs := rfl
theorem opened_logged (evs : List Ev) : opened (.logged :: evs) = opened evs := rfl
theorem closed_opened (c : Conn) (evs : List Ev) : closed (.opened c :: evs) = closed evs := rfl
theorem closed_logged (evs : List Ev) : closed (.logged :: evs) = closed evs := rfl

/-- Nothing is closed during the loops, and what is in the variable has been opened; the reverse holds unless a command has no
command name. -/
theorem commands_conns (w : World) (cmds : List Bytes) : ∀ conns,
    closed (initCommands w cmds conns).1 = [] ∧
    ((initCommands w cmds conns).2.2 ≠ .panic → (initCommands w cmds conns).2.1 = conns ++ opened (initCommands w cmds conns).1) ∧
    ((∀ b ∈ cmds, ∀ l, Words b l → l ≠ [] → (program l).2 ≠ []) →
      (initCommands w cmds conns).2.1 = conns ++ opened (initCommands w cmds conns).1) := by
  induction cmds with
  | nil => intro conns; simp [initCommands, opened, closed]
  | cons b rest ih =>
    intro conns
    have hw := (fields_iff b _).mp rfl
    rw [initCommands, parseCommand_eq b _ hw]
    by_cases hl : fields b = []
    · rw [if_pos hl]; simp [opened, closed]
    · rw [if_neg hl]
      simp only
      cases he : w.execute (program (fields b)).1 (program (fields b)).2 with
      | fails => simp [opened, closed]
      | services l =>
        simp only
        by_cases ha : (program (fields b)).2 = []
        · rw [if_pos ha]
          refine ⟨rfl, by simp, fun h => absurd ha (h b (by simp) _ hw hl)⟩
        · rw [if_neg ha]
          obtain ⟨h1, h2, h3⟩ := ih (conns ++ [⟨(program (fields b)).1, some (program (fields b)).2, true, l⟩])
          refine ⟨by simpa [closed_opened] using h1, fun h => ?_, fun h => ?_⟩
          · simp only [opened_cons]; rw [h2 h]; simp
          · simp only [opened_cons]; rw [h3 fun x hx => h x (by simp [hx])]; simp

theorem targets_conns (w : World) (ts : List Bytes) : ∀ conns,
    closed (initTargets w ts conns).1 = [] ∧
    (initTargets w ts conns).2.1 = conns ++ opened (initTargets w ts conns).1 := by
  induction ts with
  | nil => intro conns; simp [initTargets, opened, closed]
  | cons b rest ih =>
    intro conns
    rw [initTargets]
    cases hf : fields b with
    | nil => simp [opened, closed]
    | cons a opts =>
      simp only
      cases ho : parseOptions opts ⟨false, false⟩ with
      | none => simp [opened, closed]
      | some o =>
        simp only
        cases hd : w.dial a o.insecure with
        | fails =>
          simp only
          split
          · obtain ⟨h1, h2⟩ := ih conns
            exact ⟨by simpa [closed_logged] using h1, by simpa [opened_logged] using h2⟩
          · simp [opened, closed]
        | services l =>
          obtain ⟨h1, h2⟩ := ih (conns ++ [⟨a, none, o.insecure, l⟩])
          refine ⟨by simpa [closed_opened] using h1, ?_⟩
          simp only [opened_cons]; rw [h2]; simp

/-- C153: if `Init` fails, every connection which it had opened is closed, and none is kept. -/
theorem failed_closes (w : World) (cmds ts : List Bytes) (h : (init w cmds ts).2.2 = .err) :
    closed (init w cmds ts).1 = opened (init w cmds ts).1 ∧ (init w cmds ts).2.1 = [] := by
  obtain ⟨h1, h2, -⟩ := commands_conns w cmds []
  obtain ⟨h3, h4⟩ := targets_conns w ts (initCommands w cmds []).2.1
  unfold init at h ⊢
  simp only at h ⊢
  cases e : (initCommands w cmds []).2.2 with
  | ok =>
    rw [e] at h
    simp only at h ⊢
    cases e' : (initTargets w ts (initCommands w cmds []).2.1).2.2 with
    | err =>
      have h2' := h2 (by rw [e]; simp)
      simp only [finish, closed_append, opened_append, closed_closed, opened_closed, h1, h3, List.nil_append, List.append_nil, and_true]
      rw [h4, h2']; simp
    | ok => rw [e'] at h; simp [finish] at h
    | panic => rw [e'] at h; simp [finish] at h
  | err =>
    have h2' := h2 (by rw [e]; simp)
    simp only [finish, closed_append, opened_append, closed_closed, opened_closed, h1, List.nil_append, List.append_nil, and_true]
    rw [h2']; simp
  | panic => rw [e] at h; simp [finish] at h

/-- The same if it panics, provided that all commands have a command name. -/
theorem panicked_closes (w : World) (cmds ts : List Bytes) (hok : (init w cmds ts).2.2 ≠ .ok)
    (hc : ∀ b ∈ cmds, ∀ l, Words b l → l ≠ [] → (program l).2 ≠ []) :
    closed (init w cmds ts).1 = opened (init w cmds ts).1 ∧ (init w cmds ts).2.1 = [] := by
  obtain ⟨h1, -, h2⟩ := commands_conns w cmds []
  obtain ⟨h3, h4⟩ := targets_conns w ts (initCommands w cmds []).2.1
  have h2' := h2 hc
  unfold init at hok ⊢
  simp only at hok ⊢
  have hfin : ∀ (evs : List Ev) (conns : List Conn) (o : Outcome), (finish evs conns o).2.2 ≠ .ok → closed evs = [] → conns = opened evs →
      closed (finish evs conns o).1 = opened (finish evs conns o).1 ∧ (finish evs conns o).2.1 = [] := by
    intro evs conns o ho hcl hop
    cases o with
    | ok => exact absurd rfl ho
    | err | panic =>
      simp only [finish, closed_append, opened_append, closed_closed, opened_closed, hcl, List.nil_append, List.append_nil, and_true]
      exact hop
  cases e : (initCommands w cmds []).2.2 with
  | ok =>
    rw [e] at hok
    simp only at hok ⊢
    refine hfin _ _ _ hok (by rw [closed_append, h1, h3]; rfl) (by rw [opened_append, h4, h2']; simp)
  | err => rw [e] at hok; exact hfin _ _ _ hok h1 (by rw [h2']; simp)
  | panic => rw [e] at hok; exact hfin _ _ _ hok h1 (by rw [h2']; simp)

/-- C153 refuted: blank strings make `Init` panic. -/
theorem blank_refuted (w : World) (b : Bytes) (hb : ∀ c ∈ b, isSpace c = true) (rest ts : List Bytes) :
    (init w (b :: rest) ts).2.2 = .panic ∧ (init w [] (b :: ts)).2.2 = .panic := by
  have hf := fields_of_words (.nil b hb)
  constructor
  · simp [init, initCommands, parseCommand, hf, finish]
  · simp [init, initCommands, initTargets, hf, finish]

/-- C153 refuted: a command which consists of a path only (`@path`), as documented, makes `Init` panic when the program has
been started and connected to, and the connection isn't closed. -/
theorem path_refuted (w : World) (p : Bytes) (hp : ∀ c ∈ p, isSpace c = false) (l : List Factory)
    (he : w.execute p [] = .services l) (ts : List Bytes) :
    (init w [64 :: p] ts).2.2 = .panic ∧ opened (init w [64 :: p] ts).1 = [⟨p, some [], true, l⟩] ∧
      closed (init w [64 :: p] ts).1 = [] := by
  have hw : Words (64 :: p) [64 :: p] := by
    have := Words.cons [] (64 :: p) [] [] (by simp) (by simp) (by
      intro c hc; rcases List.mem_cons.mp hc with rfl | hc
      · decide
      · exact hp c hc) (by simp) (.nil [] (by simp))
    simpa using this
  have hpc : parseCommand (64 :: p) = some (p, []) := by
    rw [parseCommand_eq _ _ hw]; simp [program]
  simp [init, initCommands, hpc, he, finish, opened, closed]

/-- C153: `Init` succeeds exactly if all commands name a program which can be connected to, and all targets have known options
only and can be connected to or are optional. -/
theorem commands_ok (w : World) (cmds : List Bytes) : ∀ conns,
    ((initCommands w cmds conns).2.2 = .ok ↔
      ∀ b ∈ cmds, ∃ l, Words b l ∧ GoodCommand l ∧ (wantedCommand w l).isSome) ∧
    ((initCommands w cmds conns).2.2 = .ok →
      (initCommands w cmds conns).2.1 = conns ++ cmds.filterMap (fun b => wantedCommand w (fields b))) := by
  induction cmds with
  | nil => intro conns; simp [initCommands]
  | cons b rest ih =>
    intro conns
    have hw := (fields_iff b _).mp rfl
    have huniq : ∀ l, Words b l → l = fields b := fun l h => (fields_of_words h).symm
    rw [initCommands, parseCommand_eq b _ hw]
    by_cases hl : fields b = []
    · rw [if_pos hl]
      simp only [reduceCtorEq, false_iff, false_implies, and_true]
      intro h
      obtain ⟨l, h1, h2, -⟩ := h b (by simp)
      exact h2.1 (by rw [huniq l h1, hl])
    · rw [if_neg hl]
      simp only
      cases he : w.execute (program (fields b)).1 (program (fields b)).2 with
      | fails =>
        simp only [reduceCtorEq, false_iff, false_implies, and_true]
        intro h
        obtain ⟨l, h1, -, h3⟩ := h b (by simp)
        rw [huniq l h1, wantedCommand, he] at h3
        simp at h3
      | services s =>
        simp only
        by_cases ha : (program (fields b)).2 = []
        · rw [if_pos ha]
          simp only [reduceCtorEq, false_iff, false_implies, and_true]
          intro h
          obtain ⟨l, h1, h2, -⟩ := h b (by simp)
          exact h2.2 (by rw [huniq l h1, ha])
        · rw [if_neg ha]
          have hwant : wantedCommand w (fields b) = some ⟨(program (fields b)).1, some (program (fields b)).2, true, s⟩ := by
            rw [wantedCommand, he]
          obtain ⟨h1, h2⟩ := ih (conns ++ [⟨(program (fields b)).1, some (program (fields b)).2, true, s⟩])
          refine ⟨?_, fun h => ?_⟩
          · simp only
            rw [h1]
            simp only [List.mem_cons, forall_eq_or_imp]
            constructor
            · intro h; exact ⟨⟨_, hw, ⟨hl, ha⟩, by rw [hwant]; rfl⟩, h⟩
            · exact fun h => h.2
          · simp only
            rw [h2 h, List.filterMap_cons, hwant]; simp

theorem options_good (a : Bytes) (opts : List Bytes) : (parseOptions opts ⟨false, false⟩).isSome ↔ GoodTarget (a :: opts) := by
  rw [parseOptions_eq]
  unfold GoodTarget
  split
  · rename_i h; simpa using h
  · rename_i h; simpa using h

theorem targets_ok (w : World) (ts : List Bytes) : ∀ conns,
    ((initTargets w ts conns).2.2 = .ok ↔
      ∀ b ∈ ts, ∃ l, Words b l ∧ GoodTarget l ∧ ((wantedTarget w l).isSome ∨ str "optional" ∈ l.drop 1)) ∧
    ((initTargets w ts conns).2.2 = .ok →
      (initTargets w ts conns).2.1 = conns ++ ts.filterMap (fun b => wantedTarget w (fields b))) := by
  induction ts with
  | nil => intro conns; simp [initTargets]
  | cons b rest ih =>
    intro conns
    have hw := (fields_iff b _).mp rfl
    have huniq : ∀ l, Words b l → l = fields b := fun l h => (fields_of_words h).symm
    rw [initTargets]
    cases hf : fields b with
    | nil =>
      simp only [reduceCtorEq, false_iff, false_implies, and_true]
      intro h
      obtain ⟨l, h1, h2, -⟩ := h b (by simp)
      exact h2.1 (by rw [huniq l h1, hf])
    | cons a opts =>
      rw [hf] at hw huniq
      simp only
      have hg := options_good a opts
      cases ho : parseOptions opts ⟨false, false⟩ with
      | none =>
        rw [ho] at hg
        simp only [reduceCtorEq, false_iff, false_implies, and_true]
        intro h
        obtain ⟨l, h1, h2, -⟩ := h b (by simp)
        rw [huniq l h1] at h2
        simpa using hg.mpr h2
      | some o =>
        rw [ho] at hg
        have hgood : GoodTarget (a :: opts) := hg.mp rfl
        have hoe := parseOptions_eq opts ⟨false, false⟩
        rw [ho, if_pos (by simpa [GoodTarget] using hgood)] at hoe
        simp only [Bool.false_or, Option.some.injEq] at hoe
        subst hoe
        simp only
        cases hd : w.dial a (decide (str "insecure" ∈ opts)) with
        | fails =>
          have hwant : wantedTarget w (a :: opts) = none := by simp [wantedTarget, hd]
          simp only
          by_cases hopt : str "optional" ∈ opts
          · rw [if_pos (decide_eq_true hopt)]
            obtain ⟨h1, h2⟩ := ih conns
            refine ⟨?_, fun h => ?_⟩
            · simp only
              rw [h1]
              simp only [List.mem_cons, forall_eq_or_imp]
              constructor
              · intro h; exact ⟨⟨_, hw, hgood, .inr hopt⟩, h⟩
              · exact fun h => h.2
            · simp only
              rw [h2 h, List.filterMap_cons, hf, hwant]
          · rw [if_neg (by simpa using hopt)]
            simp only [reduceCtorEq, false_iff, false_implies, and_true]
            intro h
            obtain ⟨l, h1, -, h3⟩ := h b (by simp)
            rw [huniq l h1, hwant] at h3
            rcases h3 with h3 | h3
            · simp at h3
            · exact hopt h3
        | services s =>
          have hwant : wantedTarget w (a :: opts) = some ⟨a, none, decide (str "insecure" ∈ opts), s⟩ := by simp [wantedTarget, hd]
          obtain ⟨h1, h2⟩ := ih (conns ++ [⟨a, none, decide (str "insecure" ∈ opts), s⟩])
          refine ⟨?_, fun h => ?_⟩
          · simp only
            rw [h1]
            simp only [List.mem_cons, forall_eq_or_imp]
            constructor
            · intro h; exact ⟨⟨_, hw, hgood, .inl (by rw [hwant]; rfl)⟩, h⟩
            · exact fun h => h.2
          · simp only
            rw [h2 h, List.filterMap_cons, hf, hwant]; simp

/-- C153: when all targets have been gone through, each of them has either been connected to, or its failure has been logged,
in order. -/
theorem targets_events (w : World) (ts : List Bytes) : ∀ conns, (initTargets w ts conns).2.2 = .ok →
    (initTargets w ts conns).1 = ts.map (fun b => ((wantedTarget w (fields b)).map Ev.opened).getD Ev.logged) := by
  induction ts with
  | nil => intro conns _; simp [initTargets]
  | cons b rest ih =>
    intro conns
    rw [initTargets]
    cases hf : fields b with
    | nil => simp
    | cons a opts =>
      simp only
      cases ho : parseOptions opts ⟨false, false⟩ with
      | none => simp
      | some o =>
        have hoe := parseOptions_eq opts ⟨false, false⟩
        rw [ho] at hoe
        split at hoe
        · simp only [Bool.false_or, Option.some.injEq] at hoe
          subst hoe
          simp only
          cases hd : w.dial a (decide (str "insecure" ∈ opts)) with
          | fails =>
            have hwant : wantedTarget w (a :: opts) = none := by simp [wantedTarget, hd]
            simp only
            split
            · intro h
              rw [List.map_cons, hf, hwant, ← ih conns h]; rfl
            · intro h; simp at h
          | services s =>
            have hwant : wantedTarget w (a :: opts) = some ⟨a, none, decide (str "insecure" ∈ opts), s⟩ := by
              simp [wantedTarget, hd]
            intro h
            simp only at h ⊢
            rw [List.map_cons, hf, hwant, ← ih _ h]; rfl
        · simp at hoe

/-- C153: closing a program's connection reports the error of closing, or the one of waiting if closing succeeded. -/
theorem closeResult_first (a b : Nat) (w : Option Nat) :
    closeResult (some a) w = some a ∧ closeResult none (some b) = some b ∧ closeResult none none = none := ⟨rfl, rfl, rfl⟩

theorem init_ok_iff (w : World) (cmds ts : List Bytes) : (init w cmds ts).2.2 = .ok ↔
    (∀ b ∈ cmds, ∃ l, Words b l ∧ GoodCommand l ∧ (wantedCommand w l).isSome) ∧
    (∀ b ∈ ts, ∃ l, Words b l ∧ GoodTarget l ∧ ((wantedTarget w l).isSome ∨ str "optional" ∈ l.drop 1)) := by
  rw [← (commands_ok w cmds []).1, ← (targets_ok w ts (initCommands w cmds []).2.1).1]
  unfold init
  simp only
  cases e : (initCommands w cmds []).2.2 with
  | ok =>
    simp only
    cases e' : (initTargets w ts (initCommands w cmds []).2.1).2.2 <;> simp [finish]
  | err | panic => simp [finish]

/-- C153: then there's an open connection for each program and each target which could be connected to, in order, and no
other. -/
theorem init_conns (w : World) (cmds ts : List Bytes) (h : (init w cmds ts).2.2 = .ok) :
    (init w cmds ts).2.1 = cmds.filterMap (fun b => wantedCommand w (fields b)) ++ ts.filterMap (fun b => wantedTarget w (fields b)) ∧
    opened (init w cmds ts).1 = (init w cmds ts).2.1 ∧ closed (init w cmds ts).1 = [] := by
  obtain ⟨h1, h2, -⟩ := commands_conns w cmds []
  obtain ⟨h3, h4⟩ := targets_conns w ts (initCommands w cmds []).2.1
  have h5 := (commands_ok w cmds []).2
  have h6 := (targets_ok w ts (initCommands w cmds []).2.1).2
  unfold init at h ⊢
  simp only at h ⊢
  cases e : (initCommands w cmds []).2.2 with
  | ok =>
    rw [e] at h
    simp only at h ⊢
    cases e' : (initTargets w ts (initCommands w cmds []).2.1).2.2 with
    | ok =>
      simp only [finish]
      have h2' := h2 (by rw [e]; simp)
      refine ⟨?_, ?_, by rw [closed_append, h1, h3]; rfl⟩
      · rw [h6 e', h5 e]; simp
      · rw [opened_append, h4, h2']; simp
    | err | panic => rw [e'] at h; simp [finish] at h
  | err | panic => rw [e] at h; simp [finish] at h

/-- `Close` closes every connection once. -/
theorem close_all (conns : List Conn) (errs : Conn → Option Nat) :
    closed (close conns errs).1 = conns ∧ (close conns errs).2.1 = [] ∧
      ((close conns errs).2.2 = none ↔ ∀ c ∈ conns, errs c = none) := by
  refine ⟨closed_closed conns, rfl, ?_⟩
  simp [close, List.findSome?_eq_none_iff]

/-- A concrete configuration. -/
def world : World where
  execute p a := if p = str "/bin/svc" ∧ a = [str "svc", str "-x"] then .services [⟨0, str "test", str "1"⟩] else .fails
  dial a i := if a = str "host:1" ∧ i = true then .services [⟨1, str "other", str "1"⟩] else .fails
example : (init world [str "@/bin/svc  svc -x"] [str "host:2 optional", str " host:1\tinsecure"]).2 =
    ([⟨str "/bin/svc", some [str "svc", str "-x"], true, [⟨0, str "test", str "1"⟩]⟩,
      ⟨str "host:1", none, true, [⟨1, str "other", str "1"⟩]⟩], .ok) := by decide
example : (init world [str "@/bin/svc  svc -x"] [str "host:2"]).2 = ([], .err) := by decide

/-! ### Extensions -/

/-- The configurations of the extensions of a name. -/
def configsOf (es : List Ext) (name : Bytes) : List Nat :=
  es.filterMap fun e => if e.name = name then e.config else none

theorem configsOf_append (a b : List Ext) (k : Bytes) : configsOf (a ++ b) k = configsOf a k ++ configsOf b k := by
  simp [configsOf]

theorem get_set (m : Map) (k k' : Bytes) (v : Nat) : get (set m k v) k' = if k = k' then some v else get m k' := by
  unfold get set
  rw [List.find?_cons]
  by_cases h : k = k'
  · simp [h]
  · rw [show (k == k') = false by simpa using h, if_neg h]

theorem get_delete (m : Map) (k k' : Bytes) : get (delete m k) k' = if k = k' then none else get m k' := by
  unfold get delete
  induction m with
  | nil => simp
  | cons e m ih =>
    rw [List.filter_cons]
    by_cases h1 : e.1 = k
    · rw [if_neg (by simp [h1]), ih]
      split
      · rfl
      · rename_i h2
        rw [List.find?_cons, show (e.1 == k') = false by simp [h1, h2]]
    · rw [if_pos (by simpa using h1), List.find?_cons, List.find?_cons]
      by_cases h2 : e.1 = k'
      · rw [show (e.1 == k') = true by simp [h2]]
        have : k ≠ k' := fun h => h1 (by rw [h2, h])
        simp [this]
      · rw [show (e.1 == k') = false by simp [h2]]
        exact ih

theorem get_deletes (ds : List Bytes) (m : Map) (k : Bytes) : get (ds.foldl delete m) k = if k ∈ ds then none else get m k := by
  induction ds generalizing m with
  | nil => simp
  | cons d ds ih =>
    rw [List.foldl_cons, ih, get_delete]
    by_cases h : d = k
    · simp [h]
    · have : k ≠ d := fun e => h e.symm
      simp [h, this]

theorem configLoop_inv (es : List Ext) : ∀ (done : List Ext) (m : Map) (dupes : List Bytes),
    (∀ k, get m k = (configsOf done k).head?) → (∀ k, k ∈ dupes ↔ 2 ≤ (configsOf done k).length) →
    (∀ k, get (configLoop es m dupes).1 k = (configsOf (done ++ es) k).head?) ∧
    (∀ k, k ∈ (configLoop es m dupes).2 ↔ 2 ≤ (configsOf (done ++ es) k).length) := by
  induction es with
  | nil => intro done m dupes h1 h2; simpa [configLoop] using ⟨h1, h2⟩
  | cons e es ih =>
    intro done m dupes h1 h2
    rw [show done ++ e :: es = (done ++ [e]) ++ es by simp, configLoop]
    cases hc : e.config with
    | none =>
      have hsame : ∀ k, configsOf (done ++ [e]) k = configsOf done k := by
        intro k; rw [configsOf_append]; simp [configsOf, hc]
      exact ih (done ++ [e]) m dupes (by intro k; rw [hsame]; exact h1 k) (by intro k; rw [hsame]; exact h2 k)
    | some c =>
      have hk : ∀ k, configsOf (done ++ [e]) k = configsOf done k ++ if e.name = k then [c] else [] := by
        intro k; rw [configsOf_append]; congr 1
        by_cases h : e.name = k
        · simp [configsOf, h, hc]
        · simp [configsOf, h]
      simp only
      split
      · rename_i hs
        rw [h1] at hs
        have hne : configsOf done e.name ≠ [] := by intro h; rw [h] at hs; simp at hs
        refine ih (done ++ [e]) m _ ?_ ?_
        · intro k; rw [hk, h1]
          split
          · rename_i h; subst h
            cases hd : configsOf done e.name with
            | nil => exact absurd hd hne
            | cons a as => rfl
          · simp
        · intro k
          rw [hk]
          by_cases h : e.name = k
          · subst h
            have hlen : 1 ≤ (configsOf done e.name).length := by
              cases hd : configsOf done e.name with
              | nil => exact absurd hd hne
              | cons a as => simp
            simp only [List.mem_append, List.mem_singleton, or_true, if_true, List.length_append, List.length_singleton, true_iff]
            omega
          · rw [if_neg h]
            have : ¬ k = e.name := fun h' => h h'.symm
            simp only [List.mem_append, List.mem_singleton, this, or_false, List.append_nil]
            exact h2 k
      · rename_i hs
        rw [h1] at hs
        have hnil : configsOf done e.name = [] := by
          cases hd : configsOf done e.name with
          | nil => rfl
          | cons a as => rw [hd] at hs; simp at hs
        refine ih (done ++ [e]) _ dupes ?_ ?_
        · intro k; rw [hk, get_set]
          split
          · rename_i h; subst h; rw [hnil]; rfl
          · rw [h1]; simp
        · intro k
          rw [hk]
          by_cases h : e.name = k
          · subst h
            rw [h2, hnil]
            simp
          · rw [if_neg h, List.append_nil]
            exact h2 k

/-- C153: the configuration under a name is that of the only configurable extension of the name. -/
theorem config_iff (es : List Ext) (k : Bytes) (c : Nat) : get (config es) k = some c ↔ configsOf es k = [c] := by
  obtain ⟨h1, h2⟩ := configLoop_inv es [] [] [] (by intro k; rfl) (by intro k; simp [configsOf])
  rw [List.nil_append] at h1 h2
  unfold config
  simp only
  rw [get_deletes]
  by_cases hk : k ∈ (configLoop es [] []).2
  · rw [if_pos hk]
    have := (h2 k).mp hk
    constructor
    · intro h; simp at h
    · intro h; rw [h] at this; simp at this
  · rw [if_neg hk, h1]
    have : ¬ 2 ≤ (configsOf es k).length := fun h => hk ((h2 k).mpr h)
    match he : configsOf es k with
    | [] => simp
    | [a] => simp
    | a :: b :: l => rw [he] at this; simp at this

/-- C153: the programs' configurations of the other extensions are these. -/
theorem programConfig_other (es : List Ext) (g o : Nat) (k : Bytes) (h1 : k ≠ str "grpc") (h2 : k ≠ str "origin") :
    get (programConfig es g o) k = get (config es) k := by
  unfold programConfig
  rw [get_set, get_set, if_neg (fun e => h2 e.symm), if_neg (fun e => h1 e.symm)]

/-- C153 refuted: an extension named `grpc` or `origin` can't be configured: the options of that name are another
service's. -/
theorem reserved_refuted (es : List Ext) (g o : Nat) :
    get (programConfig es g o) (str "grpc") = some g ∧ get (programConfig es g o) (str "origin") = some o := by
  have : str "origin" ≠ str "grpc" := by decide
  unfold programConfig
  rw [get_set, get_set, get_set]
  simp [this]

/-! ### Services of instances -/

theorem register_ok {cat : Categories} {n n' : Node} {f : Factory} (h : register cat n f false = .ok n') :
    find f.name n.factories = none ∧ n' = { n with factories := (f.name, f) :: n.factories } := by
  unfold Services.register at h
  cases h1 : Services.checkString cat.nameOk f.name with
  | ok u =>
    cases h2 : Services.checkString cat.revOk f.revision with
    | ok u' =>
      rw [h1, h2] at h
      simp only [Bind.bind, Res.bind] at h
      split at h
      · simp at h
      · rename_i hf
        simp at h hf
        exact ⟨hf, h.symm⟩
    | err e => rw [h1, h2] at h; simp [Bind.bind, Res.bind] at h
    | panic => rw [h1, h2] at h; simp [Bind.bind, Res.bind] at h
  | err e => rw [h1] at h; simp [Bind.bind, Res.bind] at h
  | panic => rw [h1] at h; simp [Bind.bind, Res.bind] at h

/-- The registry holds exactly these services, of distinct names. -/
def Holds (n : Node) (fs : List Factory) : Prop :=
  (fs.map (·.name)).Nodup ∧ (∀ name f, find name n.factories = some f ↔ f ∈ fs ∧ f.name = name)

theorem holds_none {n : Node} {fs : List Factory} (h : Holds n fs) {name : Bytes} (hn : find name n.factories = none) :
    name ∉ fs.map (·.name) := by
  intro hm
  obtain ⟨f, hf, rfl⟩ := List.mem_map.mp hm
  rw [(h.2 f.name f).mpr ⟨hf, rfl⟩] at hn
  simp at hn

theorem registerAll_holds (cat : Categories) (fs : List Factory) : ∀ (n n' : Node) (l : List Factory), Holds n l →
    registerAll cat n fs = .ok n' → Holds n' (l ++ fs) := by
  induction fs with
  | nil => intro n n' l h e; simp [registerAll] at e; subst e; simpa using h
  | cons f fs ih =>
    intro n n' l h e
    rw [registerAll] at e
    cases hr : register cat n f false with
    | ok n1 =>
      rw [hr] at e
      obtain ⟨h1, rfl⟩ := register_ok hr
      have hnm := holds_none h h1
      rw [show l ++ f :: fs = (l ++ [f]) ++ fs by simp]
      refine ih _ _ _ ⟨?_, ?_⟩ e
      · rw [List.map_append, List.nodup_append]
        refine ⟨h.1, by simp, ?_⟩
        intro a ha b hb
        simp at hb; subst hb
        intro e'; subst e'; exact hnm ha
      · intro name g
        simp only [Services.find]
        split
        · rename_i hn
          subst hn
          simp only [Option.some.injEq, List.mem_append, List.mem_singleton]
          constructor
          · rintro rfl; exact ⟨.inr rfl, rfl⟩
          · rintro ⟨hg | hg, e'⟩
            · exact absurd (List.mem_map.mpr ⟨g, hg, e'⟩) hnm
            · exact hg.symm
        · rename_i hn
          rw [h.2]
          simp only [List.mem_append, List.mem_singleton]
          constructor
          · rintro ⟨h1, h2⟩; exact ⟨.inl h1, h2⟩
          · rintro ⟨h1 | h1, h2⟩
            · exact ⟨h1, h2⟩
            · subst h1; exact absurd h2 hn
    | err e' => rw [hr] at e; simp at e
    | panic => rw [hr] at e; simp at e

theorem initExts_holds (cat : Categories) (es : List Ext) : ∀ (n n' : Node) (l : List Factory), Holds n l →
    initExts cat n es = .ok n' → Holds n' (l ++ es.flatMap (·.services)) ∧ ∀ e ∈ es, e.fails = false := by
  induction es with
  | nil => intro n n' l h e; simp [initExts] at e; subst e; simpa using h
  | cons x es ih =>
    intro n n' l h e
    rw [initExts] at e
    cases hr : registerAll cat n x.services with
    | ok n1 =>
      rw [hr] at e
      simp only at e
      split at e
      · simp at e
      · rename_i hx
        obtain ⟨h1, h2⟩ := ih _ _ _ (registerAll_holds cat _ _ _ _ h hr) e
        refine ⟨by simpa [List.flatMap_cons] using h1, ?_⟩
        intro y hy
        rcases List.mem_cons.mp hy with rfl | hy
        · simpa using hx
        · exact h2 y hy
    | err e' => rw [hr] at e; simp at e
    | panic => rw [hr] at e; simp at e

/-- All services which the configuration asks for. -/
def configured (w : World) (es : List Ext) (cmds ts : List Bytes) : List Factory :=
  es.flatMap (·.services) ++
    (cmds.filterMap (fun b => wantedCommand w (fields b)) ++ ts.filterMap (fun b => wantedTarget w (fields b))).flatMap (·.services)

theorem start_holds (cat : Categories) (w : World) (es : List Ext) (cmds ts : List Bytes) (n : Node)
    (h : (start cat w es cmds ts).2 = .ok n) : Holds n (configured w es cmds ts) ∧ (∀ e ∈ es, e.fails = false) := by
  unfold start at h
  cases hi : initExts cat ⟨[], none⟩ es with
  | ok n1 =>
    rw [hi] at h
    obtain ⟨h1, h2⟩ := initExts_holds cat es _ _ [] ⟨by simp, by simp [Services.find]⟩ hi
    rw [List.nil_append] at h1
    refine ⟨?_, h2⟩
    simp only at h
    generalize hg : init w cmds ts = r at h
    obtain ⟨evs, conns, o⟩ := r
    cases o with
    | ok =>
      have hc := init_conns w cmds ts (by rw [hg])
      rw [hg] at hc
      simp only at h hc
      rw [hc.1] at h
      exact registerAll_holds cat _ _ _ _ h1 h
    | err => simp at h
    | panic => simp at h
  | err e => rw [hi] at h; simp at h
  | panic => rw [hi] at h; simp at h

/-- C153: if the server starts, no two configured services have the same name, and instances find each configured service
whose name isn't a built-in service's; they find nothing else but the built-in ones. -/
theorem available (cat : Categories) (w : World) (es : List Ext) (cmds ts : List Bytes) (n : Node)
    (h : (start cat w es cmds ts).2 = .ok n) (builtins : List Factory) :
    ((configured w es cmds ts).map (·.name)).Nodup ∧
    (∀ f ∈ configured w es cmds ts, f.name ∉ builtins.map (·.name) → instanceLookup n builtins f.name = some f) ∧
    (∀ name f, instanceLookup n builtins name = some f → f.name = name ∧ (f ∈ builtins ∨ f ∈ configured w es cmds ts)) := by
  obtain ⟨⟨h1, h2⟩, -⟩ := start_holds cat w es cmds ts n h
  have hfind : ∀ (l : List (Bytes × Factory)) name f, find name l = some f → (name, f) ∈ l := by
    intro l name f
    induction l with
    | nil => intro h; simp [Services.find] at h
    | cons e l ih =>
      obtain ⟨k, g⟩ := e
      simp only [Services.find]
      split
      · rename_i hk; subst hk; rintro h; simp at h; simp [h]
      · intro h; exact List.mem_cons_of_mem _ (ih h)
  refine ⟨h1, ?_, ?_⟩
  · intro f hf hb
    unfold instanceLookup
    cases hl : find f.name ((builtins.map fun f => (f.name, f)).reverse) with
    | some g =>
      have := hfind _ _ _ hl
      rw [List.mem_reverse, List.mem_map] at this
      obtain ⟨x, hx, e⟩ := this
      simp only [Prod.mk.injEq] at e
      exact absurd (List.mem_map.mpr ⟨x, hx, e.1⟩) hb
    | none => exact (h2 f.name f).mpr ⟨hf, rfl⟩
  · intro name f hl
    unfold instanceLookup at hl
    split at hl
    · rename_i g hg
      simp at hl; subst hl
      have := hfind _ _ _ hg
      rw [List.mem_reverse, List.mem_map] at this
      obtain ⟨x, hx, e⟩ := this
      simp only [Prod.mk.injEq] at e
      obtain ⟨e1, e2⟩ := e
      subst e2
      exact ⟨e1, .inl hx⟩
    · obtain ⟨hf, e⟩ := (h2 name f).mp hl
      exact ⟨e, .inr hf⟩

/-- C153 refuted: a configured service of a built-in service's name (such as `origin`) is accepted, but no instance gets
it. -/
theorem shadowed_refuted (n : Node) (f b : Factory) (h : b.name = f.name) (hne : b ≠ f) :
    instanceLookup n [b] f.name = some b ∧ instanceLookup n [b] f.name ≠ some f := by
  have : instanceLookup n [b] f.name = some b := by simp [instanceLookup, Services.find, h]
  exact ⟨this, by rw [this]; simpa using hne⟩

/-- Such a server starts. -/
def anyCat : Categories := ⟨fun _ => true, fun _ => true⟩
def originExt : Ext := ⟨str "x", none, [⟨7, str "origin", str "1"⟩], false⟩
example : ∃ n, (start anyCat world [originExt] [str "@/bin/svc svc -x"] []).2 = .ok n ∧
    instanceLookup n [⟨8, str "origin", str "0"⟩] (str "test") = some ⟨0, str "test", str "1"⟩ ∧
    instanceLookup n [⟨8, str "origin", str "0"⟩] (str "origin") = some ⟨8, str "origin", str "0"⟩ := by
  exact ⟨⟨[(str "test", ⟨0, str "test", str "1"⟩), (str "origin", ⟨7, str "origin", str "1"⟩)], none⟩, by decide, by decide, by decide⟩

/-! ### Executed programs -/

def holding (us : List Use) (s : Step) : Int :=
  ((us.filter (· = .acquire s)).length : Int) - (us.filter (· = .release s)).length

/-- C153: an `Execute` which fails leaves nothing behind; one which succeeds leaves the process, its stderr pipe and the
connection. -/
theorem execute_balanced (fails : Option Step) (args : List Bytes) (s : Step) :
    (∀ e, (execute fails args).2 = .err e → holding (execute fails args).1 s = 0) ∧
    ((execute fails args).2 = .ok () → holding (execute fails args).1 s = if s = .sockets then 0 else 1) ∧
    ((execute fails args).2 = .panic ↔ fails = none ∧ args = []) := by
  cases fails with
  | none =>
    by_cases h : args = []
    · simp [execute, h]
    · simp only [execute, h, if_false]
      cases s <;> simp <;> decide
  | some f => cases f <;> cases s <;> simp [execute] <;> decide

/-- C153 refuted: the panicking `Execute` (a command with nothing but a path) leaves the connection. -/
theorem execute_leak_refuted : holding (execute none []).1 .dial = 1 ∧ holding (execute none []).1 .process = 0 := by decide

/-- C153: closing terminates a well-behaved program, and one which obeys signals if the context is done. -/
theorem close_returns_iff (p : Program) (f d : Bool) : closeReturns p f d = true ↔ p.onEOF = true ∨ ((f = true ∨ d = true) ∧ p.onTerm = true) := by
  simp [closeReturns]

/-- C153 refuted: `Close`, which is documented to terminate the process, waits forever for a program which doesn't watch its
connection, although it would obey a signal. -/
theorem close_hangs_refuted : closeReturns ⟨false, true⟩ false false = false := rfl

theorem logLines_eq (b acc : Bytes) (ha : (10 : UInt8) ∉ acc) :
    ∃ rest, acc ++ b = (logLines b acc).flatten ++ rest ∧ (10 : UInt8) ∉ rest ∧
      (∀ l ∈ logLines b acc, ∃ p, l = p ++ [10] ∧ (10 : UInt8) ∉ p) := by
  induction b generalizing acc with
  | nil => exact ⟨acc, by simp [logLines], ha, by simp [logLines]⟩
  | cons c cs ih =>
    rw [logLines]
    split
    · rename_i hc
      obtain ⟨rest, h1, h2, h3⟩ := ih [] (by simp)
      refine ⟨rest, ?_, h2, ?_⟩
      · rw [List.flatten_cons, List.append_assoc, ← h1, hc]; simp
      · intro l hl
        rcases List.mem_cons.mp hl with rfl | hl
        · exact ⟨acc, rfl, ha⟩
        · exact h3 l hl
    · rename_i hc
      obtain ⟨rest, h1, h2, h3⟩ := ih (acc ++ [c]) (by simp [ha]; exact fun e => hc e.symm)
      exact ⟨rest, by rw [← h1]; simp, h2, h3⟩

/-- C153: what is logged of a program's error output is its complete lines, in order. -/
theorem logged_lines (b : Bytes) : ∃ rest, b = (logLines b []).flatten ++ rest ∧ (10 : UInt8) ∉ rest ∧
    ∀ l ∈ logLines b [], ∃ p, l = p ++ [10] ∧ (10 : UInt8) ∉ p := by
  simpa using logLines_eq b [] (by simp)

/-- C153 refuted: a last line which isn't terminated isn't logged. -/
theorem last_line_refuted (b : Bytes) (h : (10 : UInt8) ∉ b) : logLines b [] = [] := by
  obtain ⟨rest, h1, h2, h3⟩ := logged_lines b
  cases hl : logLines b [] with
  | nil => rfl
  | cons l ls =>
    exfalso
    obtain ⟨p, hp, -⟩ := h3 l (by rw [hl]; simp)
    apply h
    rw [h1, hl, hp]; simp

/-- What the goroutine has read is a prefix of what the program has written. -/
theorem read_prefix {s : Pipe} {w : Bytes} (h : PReach s w) : w = s.got ++ s.unread := by
  induction h with
  | init => rfl
  | step _ hs ih => cases hs <;> simp_all

/-- C153 refuted: the error output of a program which was written before it exited may be lost: `cmd.Wait` closes the pipe before
the goroutine has read it. -/
theorem output_lost_refuted (b : Bytes) : ∃ s, PReach s b ∧ s.exited = true ∧ s.closed = true ∧ s.got = [] ∧ s.unread = b := by
  refine ⟨⟨b, [], true, true⟩, ?_, rfl, rfl, rfl, rfl⟩
  have h1 : PReach ⟨b, [], false, false⟩ b := by
    have := PReach.step PReach.init (PStep.write ⟨[], [], false, false⟩ b rfl)
    simpa using this
  have h2 : PReach ⟨b, [], true, false⟩ (b ++ []) := PReach.step h1 (PStep.exit _)
  have h3 : PReach ⟨b, [], true, true⟩ (b ++ [] ++ []) := PReach.step h2 (PStep.wait _ rfl)
  simpa using h3

end Gate.SvcStart
