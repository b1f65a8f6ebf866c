import Verif.ClientPipes

namespace Gate.ClientPipes

structure Ok (c : Up) (w : UpWorld) : Prop where
  conserved : w.got ++ w.pipe ++ w.left = c.data
  copied : w.copied = some true → w.left = []
  open_ : w.wOpen = false → w.copied ≠ none ∨ w.exit = some false ∨ w.exit = some true
  eof : w.eof = true → w.pipe = [] ∧ w.wOpen = false
  whole : w.eof = true → w.exit = none ∨ w.exit = some true → w.left = []
  accepted : w.answer = some true → w.eof = true
  daemon : w.rDaemon = false ↔ w.answer ≠ none
  client : w.rClient = false → w.answer ≠ none ∨ w.exit = some false
  failed : w.copied = some false → w.answer = some false ∨ w.exit = some false
  done : w.exit = some true → w.answer = some true ∧ w.copied = some true

theorem opts (o : Option Bool) : o = none ∨ o = some true ∨ o = some false := by
  cases o with
  | none => simp
  | some b => cases b <;> simp

set_option maxHeartbeats 4000000 in
theorem ok_step {c : Up} {w v : UpWorld} (g : Ok c w) (h : UpStep c w v) : Ok c v := by
  have := g.conserved; have := g.copied; have := g.open_; have := g.eof; have := g.whole
  have := g.accepted; have := g.daemon; have := g.client; have := g.failed; have := g.done
  have := opts w.answer; have := opts w.copied; have := opts w.exit
  cases h <;> constructor <;> simp only <;> grind [List.append_eq_nil_iff]

theorem ok {c : Up} {w : UpWorld} (h : UpSteps c c.init w) : Ok c w := by
  induction h with
  | refl => constructor <;> simp [Up.init]
  | step _ s ih => exact ok_step ih s

/-- When the command has succeeded, the daemon has got everything and accepted it. -/
theorem success {c : Up} {w : UpWorld} (h : UpSteps c c.init w) (he : w.exit = some true) : w.answer = some true ∧ w.eof = true ∧ w.got = c.data := by
  have g := ok h
  have ⟨ha, _⟩ := g.done he
  have e := g.accepted ha
  refine ⟨ha, e, ?_⟩
  have := g.conserved
  simp [(g.eof e).1, g.whole e (.inr he)] at this
  exact this

/-- The daemon gets nothing but a prefix of the module, in any case. -/
theorem prefix_ {c : Up} {w : UpWorld} (h : UpSteps c c.init w) : w.got <+: c.data := ⟨w.pipe ++ w.left, by rw [← (ok h).conserved]; simp⟩

/-- What the daemon has accepted while the command is running is the whole module: it isn't mistaken about the end. -/
theorem accepted_whole {c : Up} {w : UpWorld} (h : UpSteps c c.init w) (ha : w.answer = some true) (he : w.exit = none ∨ w.exit = some true) : w.got = c.data := by
  have g := ok h
  have e := g.accepted ha
  have := g.conserved
  simp [(g.eof e).1, g.whole e he] at this
  exact this

/-- When the daemon accepts, the goroutine doesn't fail: the command fails only if the daemon refused or it was interrupted.  (The write after which nobody reads comes only after a refusal.) -/
theorem copied_ok {c : Up} {w : UpWorld} (h : UpSteps c c.init w) (ha : w.answer = some true) (he : w.exit = none) : w.copied ≠ some false := by
  have := (ok h).failed
  grind

/-- When the goroutine closes its end (or the collector does), the command always gets on, until it's done: there's a step other than a refusal or an interruption. -/
theorem progress {c : Up} {w : UpWorld} (h : UpSteps c c.init w) (hc : c.closes = true ∨ c.gc = true) (hcap : 0 < c.cap) (he : w.exit = none) :
    ∃ v, UpStep c w v ∧ (v.answer = some false → w.answer = some false) ∧ (v.exit = some false → w.answer = some false) := by
  have g := ok h
  rcases opts w.answer with ha | ha | ha
  · have hd : w.rDaemon = true := by have := g.daemon; grind
    cases hp : w.pipe with
    | cons x l => exact ⟨_, .read w [x] l hd hp (by simp), by simp [ha], by simp [he]⟩
    | nil =>
      cases ho : w.wOpen with
      | false =>
        cases hf : w.eof with
        | true => exact ⟨_, .accept w ha hf, by simp, by simp [he]⟩
        | false => exact ⟨_, .readEnd w hd hp ho hf, by simp [ha], by simp [he]⟩
      | true =>
        cases hk : w.copied with
        | none =>
          cases hl : w.left with
          | nil => exact ⟨_, .writeDone w he hk hl, by simp [ha], by simp [he]⟩
          | cons x l => exact ⟨_, .write w [x] l he hk hl (by simp) (by simp [hp]; omega) (.inr hd), by simp [ha], by simp [he]⟩
        | some b =>
          rcases hc with hc | hc
          · exact ⟨_, .close w he hc (by simp [hk]) ho, by simp [ha], by simp [he]⟩
          · exact ⟨_, .collect w he hc (by simp [hk]) ho, by simp [ha], by simp [he]⟩
  · cases hr : w.rClient with
    | true => exact ⟨_, .answered w he (by simp [ha]) hr, by simp [ha], by simp [he]⟩
    | false =>
      rcases opts w.copied with hk | hk | hk
      · have e := g.accepted ha
        have := g.open_ (g.eof e).2
        simp [hk, he] at this
      · exact ⟨_, .finish w true he ha hr hk, by simp [ha], by simp⟩
      · exact absurd hk (copied_ok h ha he)
  · cases hr : w.rClient with
    | true => exact ⟨_, .answered w he (by simp [ha]) hr, by simp [ha], by simp [he]⟩
    | false => exact ⟨_, .fail w he ha hr, by simp [ha], by simp [ha]⟩

/-- What the import command does with something which isn't a regular file never succeeds (unless the collector happens to close the pipe): nobody closes the write end, and the daemon reads to the end. -/
theorem import_never {data : Bytes} {cap : Nat} {w : UpWorld} (h : UpSteps (importPipe data cap) (importPipe data cap).init w) : w.exit ≠ some true ∧ (w.exit = none → w.eof = false ∧ w.answer ≠ some true) := by
  have key : w.exit = none → w.wOpen = true := by
    induction h with
    | refl => simp [Up.init]
    | step _ s ih => cases s <;> simp_all [importPipe]
  have g := ok h
  have e1 : w.exit = none → w.eof = false := by have := g.eof; grind
  refine ⟨?_, fun he => ⟨e1 he, fun ha => ?_⟩⟩
  · intro he
    have key2 : w.exit = some true → w.answer = some true → False := by
      clear key g e1 he
      induction h with
      | refl => simp [Up.init]
      | @step x y hx s ih =>
        have g := ok hx
        have k : x.exit = none → x.wOpen = true := by
          clear ih g s
          induction hx with
          | refl => simp [Up.init]
          | step _ s ih => cases s <;> simp_all [importPipe]
        have := g.eof; have := g.accepted; have := g.done
        cases s <;> grind
    exact key2 he (g.done he).1
  · have := g.accepted ha; simp [e1 he] at this

theorem UpSteps.trans {c : Up} {x y z : UpWorld} (h : UpSteps c x y) (k : UpSteps c y z) : UpSteps c x z := by
  induction k with
  | refl => exact h
  | step _ s ih => exact .step ih s

theorem transfer (c : Up) (hc : 0 < c.cap) (b : Bytes) : ∀ a, UpSteps c { left := b, got := a } { left := [], got := a ++ b } := by
  induction b with
  | nil => intro a; simpa using UpSteps.refl _
  | cons x l ih =>
    intro a
    have s1 : UpSteps c { left := x :: l, got := a } { left := l, pipe := [x], got := a } :=
      .step (.refl _) (.write _ [x] l rfl rfl rfl (by simp) (by simp; omega) (.inl rfl))
    have s2 := UpSteps.step s1 (.read _ [x] [] rfl rfl (by simp))
    have := ih (a ++ [x])
    rw [List.append_assoc] at this
    exact s2.trans this

/-- It hangs: when everything has been sent and read, nothing happens any more, unless the daemon gives up or the user does. -/
theorem import_stuck (data : Bytes) (cap : Nat) (hc : 0 < cap) : ∃ w, UpSteps (importPipe data cap) (importPipe data cap).init w ∧ w.exit = none ∧ w.got = data ∧ w.answer = none
    ∧ ∀ v, UpStep (importPipe data cap) w v → v.answer = some false ∨ v.exit = some false := by
  have h := transfer (importPipe data cap) hc data []
  have h2 := UpSteps.step h (.writeDone _ rfl rfl rfl)
  refine ⟨_, h2, rfl, rfl, rfl, ?_⟩
  intro v s
  cases s <;> simp_all [importPipe]

/-- The pull command with the same: it succeeds. -/
theorem pull_succeeds (data : Bytes) (cap : Nat) (hc : 0 < cap) : ∃ w, UpSteps (pullPipe data cap) (pullPipe data cap).init w ∧ w.exit = some true ∧ w.got = data := by
  have h := transfer (pullPipe data cap) hc data []
  have h2 := UpSteps.step h (.writeDone _ rfl rfl rfl)
  have h3 := UpSteps.step h2 (.close _ rfl rfl (by simp) rfl)
  have h4 := UpSteps.step h3 (.readEnd _ rfl rfl rfl rfl)
  have h5 := UpSteps.step h4 (.accept _ rfl rfl)
  have h6 := UpSteps.step h5 (.answered _ rfl (by simp) rfl)
  have h7 := UpSteps.step h6 (.finish _ true rfl rfl rfl rfl)
  exact ⟨_, h7, rfl, rfl⟩

/-- And it never hangs. -/
theorem pull_progress {data : Bytes} {cap : Nat} (hc : 0 < cap) {w : UpWorld} (h : UpSteps (pullPipe data cap) (pullPipe data cap).init w) (he : w.exit = none) :
    ∃ v, UpStep (pullPipe data cap) w v ∧ (v.answer = some false → w.answer = some false) ∧ (v.exit = some false → w.answer = some false) :=
  progress h (.inl rfl) hc he

/-! ## The instance's output -/

structure OutOk (c : Out) (w : OutWorld) : Prop where
  conserved : w.shown ++ w.hand ++ w.pipe = w.written
  pipe : w.pipe.length ≤ c.cap
  hand : w.hand.length ≤ c.buf
  direct : c.terminal = false → w.pipe = [] ∧ w.hand = []
  waited : c.waits = true → w.exited = true → w.pipe = [] ∧ w.hand = []
  ended : w.exited = true → w.answered = true

set_option maxHeartbeats 4000000 in
theorem outOk {c : Out} {w : OutWorld} (h : OutSteps c {} w) : OutOk c w := by
  induction h with
  | refl => constructor <;> simp
  | step _ s g =>
    have := g.conserved; have := g.pipe; have := g.hand; have := g.direct; have := g.waited; have := g.ended
    cases s <;> constructor <;> simp only <;> grind [List.append_eq_nil_iff]

/-- Nothing is shown which the instance didn't write, in the order in which it wrote. -/
theorem shown_prefix {c : Out} {w : OutWorld} (h : OutSteps c {} w) : w.shown <+: w.written := ⟨w.hand ++ w.pipe, by rw [← (outOk h).conserved]; simp⟩

/-- When the standard output isn't a terminal, everything's there at all times. -/
theorem direct_all {cap : Nat} {w : OutWorld} (h : OutSteps (stdout false cap) {} w) : w.shown = w.written := by
  have g := outOk h
  have := g.conserved
  simpa [(g.direct rfl).1, (g.direct rfl).2] using this

/-- On a terminal no more is missing than fits into the pipe and the buffer. -/
theorem lost_bounded {cap : Nat} {w : OutWorld} (h : OutSteps (stdout true cap) {} w) : w.written.length ≤ w.shown.length + 32768 + cap := by
  have g := outOk h
  have h1 := congrArg List.length g.conserved
  have := g.pipe; have := g.hand
  simp only [stdout, List.length_append] at *
  omega

/-- But the end of the output may be missing, up to that, when the command is done: for any output of that size. -/
theorem output_refuted (out : Bytes) (cap : Nat) (hl : out.length ≤ cap) : ∃ w, OutSteps (stdout true cap) {} w ∧ w.exited = true ∧ w.written = out ∧ w.shown = []
    ∧ ∀ v, OutStep (stdout true cap) w v → False := by
  have h1 := OutSteps.step (.refl _) (.write (c := stdout true cap) {} out rfl rfl (by simpa [stdout] using hl))
  have h2 := OutSteps.step h1 (.answer _ rfl)
  have h3 := OutSteps.step h2 (.exit _ rfl rfl (by simp [stdout]))
  refine ⟨_, h3, rfl, rfl, rfl, ?_⟩
  intro v s
  cases s <;> simp_all [stdout]

/-- The bound is met: a full buffer and a full pipe. -/
theorem lost_exactly (out : Bytes) (cap : Nat) (hb : 32768 ≤ cap) (hl : out.length = 32768 + cap) : ∃ w, OutSteps (stdout true cap) {} w ∧ w.exited = true ∧ w.written = out ∧ w.shown = [] := by
  have ha : (out.take 32768).length = 32768 := by simp [List.length_take]; omega
  have h1 := OutSteps.step (.refl _) (.write (c := stdout true cap) {} (out.take 32768) rfl rfl (by simp [stdout]; omega))
  have h2 := OutSteps.step h1 (.copyRead _ (out.take 32768) [] rfl rfl (by simp) (by rw [ha]; exact Nat.le_refl _))
  have h3 := OutSteps.step h2 (.write _ (out.drop 32768) rfl rfl (by simp [stdout]; omega))
  have h4 := OutSteps.step h3 (.answer _ rfl)
  have h5 := OutSteps.step h4 (.exit _ rfl rfl (by simp [stdout]))
  exact ⟨_, h5, rfl, by simp, rfl⟩

/-- If main waited for the goroutine, all would be there. -/
theorem output_fixed {c : Out} (hw : c.waits = true) {w : OutWorld} (h : OutSteps c {} w) (he : w.exited = true) : w.shown = w.written := by
  have g := outOk h
  have := g.conserved
  have k := g.waited hw he
  simpa [k.1, k.2] using this

end Gate.ClientPipes
