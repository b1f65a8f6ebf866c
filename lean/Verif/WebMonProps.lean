import Verif.WebMon
namespace Gate.WebMon
open Gate.Monitor

theorem mon_snoc {a b : Monitor.St} {ls : List Label} {l : Label} {c : Monitor.St} (h : Monitor.Steps a ls b) (h' : Monitor.Step b l c) :
    Monitor.Steps a (ls ++ [l]) c := by
  induction h with
  | nil => exact .cons h' (.nil _)
  | cons h1 _ ih => exact .cons h1 (ih h')

theorem mon_reach {b : Nat} {caps : Nat → Nat} {m m' : Monitor.St} {l : Label} (h : Monitor.Reachable b caps m) (hs : Monitor.Step m l m') :
    Monitor.Reachable b caps m' := by
  obtain ⟨ls, h⟩ := h
  exact ⟨_, mon_snoc h hs⟩

/-- What a step of others changes of a subscriber: only whether it has been closed. -/
theorem other_sub {m m' : Monitor.St} {l : Label} (s : Nat) (h : Monitor.Step m l m') (ho : own s l = false) :
    (m'.sub s).got = (m.sub s).got ∧ (m'.sub s).left = (m.sub s).left ∧ (m'.sub s).ever = (m.sub s).ever ∧
    (m'.sub s).cap = (m.sub s).cap ∧ (m'.sub s).buf = (m.sub s).buf ∧ (m'.sub s).since = (m.sub s).since ∧
    (m'.sub s).gone = (m.sub s).gone := by
  cases h <;> simp only [own, decide_eq_false_iff_not] at ho <;>
    first
    | exact ⟨rfl, rfl, rfl, rfl, rfl, rfl, rfl⟩
    | (have ho' := Ne.symm ho; simp only [set_other _ _ _ _ ho', and_self])
    | (simp only [closeAll]; split <;> exact ⟨rfl, rfl, rfl, rfl, rfl, rfl, rfl⟩)

/-- The frames which a connection has been given, as long as nothing has gone wrong. -/
def told (g : List Item) : List Frame := .state :: g.map .event

/-- The phases by what has been received (`got`) and written. -/
def Ok (x : Sub) (frames : List Frame) : Phase → Prop
  | .start => x.ever = false ∧ x.got = [] ∧ frames = [] ∧ x.left = false
  | .subscribing | .greeting => x.ever = true ∧ x.got = [] ∧ frames = [] ∧ x.left = false
  | .waiting => x.ever = true ∧ frames = told x.got ∧ x.left = false ∧ (∀ i ∈ x.got, i.event ≠ none)
  | .writing j => x.ever = true ∧ x.left = false ∧ ∃ g, x.got = g ++ [j] ∧ frames = told g ∧ (∀ i ∈ g, i.event ≠ none)
  | .leaving => x.ever = true ∧ x.left = false ∧ (frames = [] ∨ ∃ g c, g <+: x.got ∧ frames = told g ++ c ∧ (c = [] ∨ c = [.tryAgainLater] ∨ c = [.goingAway]))
  | .ended => (frames = [] ∨ frames = [.goingAway] ∨ ∃ g c, g <+: x.got ∧ frames = told g ++ c ∧ (c = [] ∨ c = [.tryAgainLater] ∨ c = [.goingAway]))

theorem ok_congr {x y : Sub} {f : List Frame} {p : Phase} (h : Ok x f p) (hg : y.got = x.got) (hl : y.left = x.left) (he : y.ever = x.ever) : Ok y f p := by
  cases p <;> simp only [Ok] at h ⊢ <;> rw [hg] <;> (try rw [hl]) <;> (try rw [he]) <;> exact h

structure Fine (s b : Nat) (caps : Nat → Nat) (t : St) : Prop where
  reach : Monitor.Reachable b caps t.mon
  cap : (t.mon.sub s).cap = 0
  buf : (t.mon.sub s).buf = []
  ok : Ok (t.mon.sub s) t.frames t.phase
  /-- a connection which has ended isn't subscribed, unless something was stopped -/
  gone : t.phase = .ended → t.ctxDone = false → t.mon.done = false → s ∉ t.mon.subs
  /-- why it was closed -/
  slow : .tryAgainLater ∈ t.frames → t.mon.everFull = true
  away : .goingAway ∈ t.frames → t.ctxDone = true ∨ t.mon.done = true

theorem done_mono {m m' : Monitor.St} {l : Label} (h : Monitor.Step m l m') (hd : m.done = true) : m'.done = true := by
  cases h <;> first | exact hd | rfl

theorem full_mono {m m' : Monitor.St} {l : Label} (h : Monitor.Step m l m') (hd : m.everFull = true) : m'.everFull = true := by
  cases h <;> first | exact hd | rfl

theorem subs_other {m m' : Monitor.St} {l : Label} (s : Nat) (h : Monitor.Step m l m') (ho : l ≠ .subscribe s) (hs : s ∉ m.subs) : s ∉ m'.subs := by
  cases h with
  | subscribe s' h1 h2 =>
    simp only [List.mem_append, List.mem_singleton, not_or]
    exact ⟨hs, fun e => ho (by rw [e])⟩
  | finish j killed h1 => exact fun h => hs (List.mem_filter.1 h).1
  | unsub s' h1 h2 h3 h4 => exact fun h => hs (List.mem_filter.1 h).1
  | _ => exact hs

theorem mem_wrote {ok : Bool} {f g : Frame} {l : List Frame} (h : g ∈ wrote ok f l) : g = f ∨ g ∈ l := by
  unfold wrote at h
  split at h
  · simp only [List.mem_append, List.mem_singleton] at h; exact h.symm
  · exact .inr h

/-- An unbuffered delivery. -/
theorem deliver_sub {m m' : Monitor.St} {s : Nat} {j : Item} {rest k : List Nat} (h : Monitor.Step m (.deliver s) m')
    (hl : m.loop = .delivering j rest (some s) k) (hc : (m.sub s).cap = 0) : m'.sub s = { m.sub s with got := (m.sub s).got ++ [j] } := by
  cases h with
  | deliver j' rest' k' _ h1 h2 =>
    rw [hl] at h1
    simp only [Loop.delivering.injEq] at h1
    obtain ⟨rfl, rfl, -, rfl⟩ := h1
    simp only [set_same]
    unfold put
    rw [if_pos hc]

theorem deliver_ex {m m' : Monitor.St} {s : Nat} (h : Monitor.Step m (.deliver s) m') :
    ∃ j rest k, m.loop = .delivering j rest (some s) k := by
  cases h with
  | deliver j' rest' k' _ h1 h2 => exact ⟨_, _, _, h1⟩

theorem fine_step {s b : Nat} {caps : Nat → Nat} {t u : St} {l : Lab} (hst : Step s t l u) (g : Fine s b caps t) : Fine s b caps u := by
  have hw : ∀ {f ok}, f ∈ wrote ok Frame.goingAway t.frames → f = Frame.goingAway ∨ f ∈ t.frames := fun h => mem_wrote h
  have hslow : ∀ m' l', Monitor.Step t.mon l' m' → .tryAgainLater ∈ t.frames → m'.everFull = true := fun m' l' h h1 => full_mono h (g.slow h1)
  have haway : ∀ m' l', Monitor.Step t.mon l' m' → .goingAway ∈ t.frames → t.ctxDone = true ∨ m'.done = true :=
    fun m' l' h h1 => (g.away h1).imp id (done_mono h)
  have hok := g.ok
  cases hst with
  | mon l m hm ho =>
    obtain ⟨h1, h2, h3, h4, h5, -⟩ := other_sub s hm ho
    refine ⟨mon_reach g.reach hm, h4 ▸ g.cap, h5 ▸ g.buf, ok_congr g.ok h1 h2 h3, ?_, hslow m l hm, haway m l hm⟩
    intro hp hc hd
    refine subs_other s hm (fun e => ?_) (g.gone hp hc ?_)
    · rw [e] at ho; simp [own] at ho
    · cases hd' : t.mon.done with
      | false => rfl
      | true => rw [done_mono hm hd'] at hd; cases hd
  | cancel => exact ⟨g.reach, g.cap, g.buf, g.ok, fun _ h => (by cases h), g.slow, fun _ => .inl rfl⟩
  | clientClose => exact ⟨g.reach, g.cap, g.buf, g.ok, g.gone, g.slow, g.away⟩
  | subscribe m hp hm =>
    rw [hp] at hok
    have hm' := hm
    cases hm with
    | subscribe _ h1 h2 =>
      refine ⟨mon_reach g.reach hm', ?_, ?_, ?_, fun h => (by simp at h), hslow _ _ hm', haway _ _ hm'⟩
      · simp only [set_same]; exact g.cap
      · simp only [set_same]; exact g.buf
      · simp only [set_same, Ok]; exact ⟨trivial, hok.2.1, hok.2.2.1, hok.2.2.2⟩
  | refused ok hp hd =>
    rw [hp] at hok
    refine ⟨g.reach, g.cap, g.buf, ?_, ?_, ?_, ?_⟩
    · simp only [Ok, hok.2.2.1]
      cases ok
      · left; rfl
      · right; left; rfl
    · intro _ h1 h2
      simp only at h1 h2
      rcases hd with h | h
      · rw [h] at h2; cases h2
      · rw [h] at h1; cases h1
    · intro h
      rcases mem_wrote h with h | h
      · cases h
      · exact g.slow h
    · intro _; exact hd.symm
  | answered m hp hm =>
    rw [hp] at hok
    have hm' := hm
    cases hm with
    | answer _ h1 h2 =>
      exact ⟨mon_reach g.reach hm', g.cap, g.buf, hok, fun h => (by simp at h), hslow _ _ hm', haway _ _ hm'⟩
  | gaveUp m ok hp hc hm =>
    rw [hp] at hok
    have hm' := hm
    cases hm with
    | cancel _ h1 =>
      refine ⟨mon_reach g.reach hm', ?_, ?_, ?_, ?_, ?_, fun _ => .inl hc⟩
      · simp only [set_same]; exact g.cap
      · simp only [set_same]; exact g.buf
      · simp only [Ok, hok.2.2.1]
        cases ok
        · left; rfl
        · right; left; rfl
      · intro _ h; rw [hc] at h; cases h
      · intro h
        rcases mem_wrote h with h | h
        · cases h
        · exact g.slow h
  | greetOk hp =>
    rw [hp] at hok
    refine ⟨g.reach, g.cap, g.buf, ?_, fun h => (by simp at h), ?_, ?_⟩
    · simp only [Ok]; rw [hok.2.1, hok.2.2.1]; exact ⟨hok.1, rfl, hok.2.2.2, by simp⟩
    · intro h; simp [hok.2.2.1] at h
    · intro h; simp [hok.2.2.1] at h
  | greetFail hp =>
    rw [hp] at hok
    exact ⟨g.reach, g.cap, g.buf, ⟨hok.1, hok.2.2.2, .inl hok.2.2.1⟩, fun h => (by simp at h), g.slow, g.away⟩
  | receive m j rest k hp hl hm =>
    rw [hp] at hok
    have hsub := deliver_sub hm hl g.cap
    refine ⟨mon_reach g.reach hm, ?_, ?_, ?_, fun h => (by simp at h), hslow _ _ hm, haway _ _ hm⟩
    · simp only [hsub]; exact g.cap
    · simp only [hsub]; exact g.buf
    · simp only [hsub, Ok]; exact ⟨hok.1, hok.2.2.1, _, rfl, hok.2.1, hok.2.2.2⟩
  | panic j hp hn =>
    rw [hp] at hok
    obtain ⟨h1, h2, gg, h3, h4, h5⟩ := hok
    exact ⟨g.reach, g.cap, g.buf, ⟨h1, h2, .inr ⟨gg, [], h3 ▸ List.prefix_append _ _, by simpa using h4, .inl rfl⟩⟩, fun h => (by simp at h), g.slow, g.away⟩
  | writeOk j hp hn =>
    rw [hp] at hok
    obtain ⟨h1, h2, gg, h3, h4, h5⟩ := hok
    refine ⟨g.reach, g.cap, g.buf, ⟨h1, ?_, h2, ?_⟩, fun h => (by simp at h), ?_, ?_⟩
    · simp only [h3, h4, told]; simp
    · intro i hi
      simp only [h3, List.mem_append, List.mem_singleton] at hi
      rcases hi with hi | rfl
      · exact h5 i hi
      · exact hn
    · intro h; simp only [List.mem_append, List.mem_singleton, reduceCtorEq, or_false] at h; exact g.slow h
    · intro h; simp only [List.mem_append, List.mem_singleton, reduceCtorEq, or_false] at h; exact g.away h
  | writeFail j hp hn =>
    rw [hp] at hok
    obtain ⟨h1, h2, gg, h3, h4, h5⟩ := hok
    exact ⟨g.reach, g.cap, g.buf, ⟨h1, h2, .inr ⟨gg, [], h3 ▸ List.prefix_append _ _, by simpa using h4, .inl rfl⟩⟩, fun h => (by simp at h), g.slow, g.away⟩
  | killed ok hp hcl =>
    rw [hp] at hok
    refine ⟨g.reach, g.cap, g.buf, ⟨hok.1, hok.2.2.1, .inr ⟨_, wrote ok .tryAgainLater [], List.prefix_refl _, ?_, ?_⟩⟩, fun h => (by simp at h), ?_, ?_⟩
    · simp only [hok.2.1]; cases ok <;> simp [wrote]
    · cases ok <;> simp [wrote]
    · intro _
      cases hf : t.mon.everFull with
      | true => rfl
      | false =>
        have := not_killed b caps t.mon g.reach hf s hcl
        rw [hok.2.2.1] at this; cases this
    · intro h
      rcases mem_wrote h with h | h
      · cases h
      · exact g.away h
  | done ok hp hc =>
    rw [hp] at hok
    refine ⟨g.reach, g.cap, g.buf, ⟨hok.1, hok.2.2.1, .inr ⟨_, wrote ok .goingAway [], List.prefix_refl _, ?_, ?_⟩⟩, fun h => (by simp at h), ?_, fun _ => .inl hc⟩
    · simp only [hok.2.1]; cases ok <;> simp [wrote]
    · cases ok <;> simp [wrote]
    · intro h
      rcases mem_wrote h with h | h
      · cases h
      · exact g.slow h
  | drain m hp hm =>
    rw [hp] at hok
    obtain ⟨j, rest, k, hl⟩ := deliver_ex hm
    have hsub := deliver_sub hm hl g.cap
    refine ⟨mon_reach g.reach hm, ?_, ?_, ?_, fun h => (by simp [hp] at h), hslow _ _ hm, haway _ _ hm⟩
    · simp only [hsub]; exact g.cap
    · simp only [hsub]; exact g.buf
    · simp only [hsub, Ok, hp]
      refine ⟨hok.1, hok.2.1, hok.2.2.imp id ?_⟩
      rintro ⟨gg, c, h1, h2, h3⟩
      exact ⟨gg, c, h1.trans (List.prefix_append _ _), h2, h3⟩
  | unsub m hp hm =>
    rw [hp] at hok
    have hm' := hm
    have hend : ∀ x : Sub, x.got = (t.mon.sub s).got → Ok x t.frames .ended := fun x hx => by
      simp only [Ok]; rw [hx]; exact hok.2.2.imp id .inr
    cases hm with
    | unsub _ h1 h2 h3 h4 =>
      refine ⟨mon_reach g.reach hm', ?_, ?_, ?_, ?_, hslow _ _ hm', haway _ _ hm'⟩
      · simp only [set_same]; exact g.cap
      · simp only [set_same]; exact g.buf
      · simp only [set_same]; exact hend _ rfl
      · intro _ _ _; simp
    | unsubCrash _ h1 h2 h3 h4 =>
      refine ⟨mon_reach g.reach hm', g.cap, g.buf, hend _ rfl, ?_, hslow _ _ hm', haway _ _ hm'⟩
      intro _ _ _ hs
      have := subscribed_open b caps t.mon g.reach s hs
      rw [h4] at this; cases this
  | unsubClosed m hp hm =>
    rw [hp] at hok
    have hm' := hm
    cases hm with
    | unsubClosed _ h1 h2 h3 h4 =>
      refine ⟨mon_reach g.reach hm', ?_, ?_, ?_, ?_, hslow _ _ hm', haway _ _ hm'⟩
      · simp only [set_same]; exact g.cap
      · simp only [set_same]; exact g.buf
      · simp only [set_same, Ok]; exact hok.2.2.imp id .inr
      · intro _ _ _ hs
        have := subscribed_open b caps t.mon g.reach s hs
        rw [h3] at this; cases this
  | unsubDone hp hd =>
    rw [hp] at hok
    exact ⟨g.reach, g.cap, g.buf, hok.2.2.imp id .inr, fun _ _ h => (by simp only at h; rw [hd] at h; cases h), g.slow, g.away⟩
  | unsubCancel m hp hc hm =>
    rw [hp] at hok
    have hm' := hm
    cases hm with
    | unsubCancel _ h1 h2 h3 =>
      refine ⟨mon_reach g.reach hm', ?_, ?_, ?_, fun _ h => (by simp only at h; rw [hc] at h; cases h), hslow _ _ hm', haway _ _ hm'⟩
      · simp only [set_same]; exact g.cap
      · simp only [set_same]; exact g.buf
      · simp only [set_same, Ok]; exact hok.2.2.imp id .inr

theorem fine {s b : Nat} {caps : Nat → Nat} {t : St} (h : Reachable s b caps t) : Fine s b caps t := by
  obtain ⟨hc, ls, h⟩ := h
  have h0 : Fine s b caps (new b caps) :=
    ⟨⟨[], .nil _⟩, hc, rfl, ⟨rfl, rfl, rfl, rfl⟩, fun h => (by cases h), fun h => (by cases h), fun h => (by cases h)⟩
  generalize new b caps = z at h h0
  induction h with
  | nil => exact h0
  | cons hs _ ih => exact ih (fine_step hs h0)

/-! ### Properties -/

/-- C158: who may connect: anybody if no origins have been configured; otherwise a browser page whose origin has been. -/
theorem checkOrigin_iff (origins : Option (List Bytes)) (headers : List Bytes) : checkOrigin origins headers = true ↔
    origins = none ∨ ∃ l o rest, origins = some l ∧ headers = o :: rest ∧ o ≠ [] ∧ o ∈ l := by
  unfold checkOrigin
  cases origins with
  | none => simp
  | some l =>
    cases headers with
    | nil => simp
    | cons o rest =>
      by_cases h : o = []
      · simp [h]
      · simp [h]

/-- C158: an empty list of origins means that nobody may connect. -/
theorem checkOrigin_empty (headers : List Bytes) : checkOrigin (some []) headers = false := by
  simp [checkOrigin]

/-- C158: the page and its script are served only if there's a directory for them; the websocket always. -/
theorem route_iff (dir path : Bytes) :
    (route dir path = .websocket ↔ path = Auth.str "/websocket.json") ∧
    (route dir path = .notFound ↔ dir = [] ∧ path ≠ Auth.str "/websocket.json") ∧
    (route dir path = .script ↔ dir ≠ [] ∧ path = Auth.str "/dashboard.js") := by
  have hne : Auth.str "/dashboard.js" ≠ Auth.str "/websocket.json" := by decide
  unfold route
  by_cases h1 : path = Auth.str "/websocket.json"
  · subst h1; simp [hne.symm]
  · by_cases h2 : dir = []
    · simp [h1, h2]
    · by_cases h3 : path = Auth.str "/dashboard.js"
      · subst h3; simp [hne, h2]
      · simp [h1, h2, h3]

theorem items_told (g : List Item) : items (told g) = g := by
  induction g with
  | nil => rfl
  | cons a g ih => simpa [items, told] using ih

/-- C158: at every moment of every schedule, what a client has been sent is: nothing; or only that the server is going away; or
the state, then the events since the subscription, in order, without gaps; and after that at most one close message, being the last. -/
theorem frames_shape {s b : Nat} {caps : Nat → Nat} {t : St} (h : Reachable s b caps t) :
    t.frames = [] ∨ t.frames = [.goingAway] ∨
    ∃ evs c, t.frames = .state :: evs.map .event ++ c ∧ evs <+: since s t ∧ (c = [] ∨ c = [.tryAgainLater] ∨ c = [.goingAway]) := by
  have f := fine h
  have hgiven : given (t.mon.sub s) = (t.mon.sub s).got := by simp [given, f.buf]
  have hp : (t.mon.sub s).got <+: since s t := hgiven ▸ given_prefix b caps t.mon f.reach s
  have hok := f.ok
  cases hph : t.phase with
  | start => rw [hph] at hok; exact .inl hok.2.2.1
  | subscribing => rw [hph] at hok; exact .inl hok.2.2.1
  | greeting => rw [hph] at hok; exact .inl hok.2.2.1
  | waiting => rw [hph] at hok; exact .inr (.inr ⟨_, [], by simpa [told] using hok.2.1, hp, .inl rfl⟩)
  | writing j =>
    rw [hph] at hok
    obtain ⟨-, -, g, h1, h2, -⟩ := hok
    exact .inr (.inr ⟨g, [], by simpa [told] using h2, (h1 ▸ List.prefix_append g [j] : g <+: _).trans hp, .inl rfl⟩)
  | leaving =>
    rw [hph] at hok
    rcases hok.2.2 with h1 | ⟨g, c, h1, h2, h3⟩
    · exact .inl h1
    · exact .inr (.inr ⟨g, c, by simpa [told] using h2, h1.trans hp, h3⟩)
  | ended =>
    rw [hph] at hok
    rcases hok with h1 | h1 | ⟨g, c, h1, h2, h3⟩
    · exact .inl h1
    · exact .inr (.inl h1)
    · exact .inr (.inr ⟨g, c, by simpa [told] using h2, h1.trans hp, h3⟩)

/-- C158: whenever neither the connection nor the monitor is in the middle of something, the client of a live connection has
been sent every event since the subscription. -/
theorem all_sent {s b : Nat} {caps : Nat → Nat} {t : St} (h : Reachable s b caps t) (hw : t.phase = .waiting)
    (hl : t.mon.loop = .idle) (hs : s ∈ t.mon.subs) : t.frames = .state :: (since s t).map .event := by
  have f := fine h
  have hok := f.ok
  rw [hw] at hok
  have hgiven : given (t.mon.sub s) = (t.mon.sub s).got := by simp [given, f.buf]
  rw [hok.2.1, told, since, ← given_all b caps t.mon f.reach hl s hs, hgiven]

/-- C158: a client is told to try again later only if the monitor's buffer has been full, and that the server is going away
only if the server (the monitor, or the handler's context) has been stopped. -/
theorem closed_why {s b : Nat} {caps : Nat → Nat} {t : St} (h : Reachable s b caps t) :
    (.tryAgainLater ∈ t.frames → t.mon.everFull = true) ∧ (.goingAway ∈ t.frames → t.ctxDone = true ∨ t.mon.done = true) :=
  ⟨(fine h).slow, (fine h).away⟩

/-- C158: as long as the server hasn't been stopped, a connection which has ended isn't subscribed any more: the monitor doesn't
wait for it. -/
theorem ended_unsubscribed {s b : Nat} {caps : Nat → Nat} {t : St} (h : Reachable s b caps t) (he : t.phase = .ended)
    (hc : t.ctxDone = false) (hd : t.mon.done = false) : s ∉ t.mon.subs := (fine h).gone he hc hd

/-- C158: a connection which is being ended can always be unsubscribed when the monitor is between its tasks. -/
theorem leaving_ends {s b : Nat} {caps : Nat → Nat} {t : St} (h : Reachable s b caps t) (hp : t.phase = .leaving)
    (hl : t.mon.loop = .idle) : ∃ u l, Step s t l u ∧ u.phase = .ended := by
  have f := fine h
  have hok := f.ok
  rw [hp] at hok
  cases hc : (t.mon.sub s).closed with
  | false => exact ⟨_, _, .unsub t _ hp (.unsub t.mon s hl hok.1 hok.2.1 hc), rfl⟩
  | true => exact ⟨_, _, .unsubClosed t _ hp (.unsubClosed t.mon s (by rw [hl]; simp) hok.2.1 hc f.buf), rfl⟩

/-! ### What isn't noticed -/

/-- The steps of the connection's goroutine. -/
def handlerStep : Lab → Bool
  | .mon _ | .cancel | .clientClose => false
  | _ => true

/-- C158: between events, a connection makes no step by itself, whether or not its client is still there. -/
theorem waits {s b : Nat} {caps : Nat → Nat} {t u : St} {l : Lab} (h : Reachable s b caps t) (hw : t.phase = .waiting)
    (hc : t.ctxDone = false) (hl : t.mon.loop = .idle) (hs : s ∈ t.mon.subs) (hst : Step s t l u) : handlerStep l = false := by
  have ho := subscribed_open b caps t.mon (fine h).reach s hs
  cases hst with
  | mon | cancel | clientClose => rfl
  | receive m j rest k _ h1 _ => rw [hl] at h1; cases h1
  | killed ok _ h1 => rw [ho] at h1; cases h1
  | done ok _ h1 => rw [hc] at h1; cases h1
  | subscribe _ h1 | refused _ h1 | answered _ h1 | gaveUp _ _ h1 | greetOk h1 | greetFail h1 | panic _ h1 | writeOk _ h1 | writeFail _ h1
  | drain _ h1 | unsub _ h1 | unsubClosed _ h1 | unsubDone h1 | unsubCancel _ h1 => rw [hw] at h1; cases h1

def ev (n : Nat) : Item := ⟨some .other, n⟩

/-- A run: the connection is subscribed, and two events are sent to it; then the client goes away. -/
theorem run_example : ∃ t, Reachable 0 1 (fun _ => 0) t ∧ t.phase = .waiting ∧ t.mon.loop = .idle ∧ 0 ∈ t.mon.subs ∧
    t.ctxDone = false ∧ t.clientGone = true ∧ t.frames = [.state, .event (ev 1), .event (ev 2)] := by
  refine ⟨_, ⟨rfl, _, .cons (.subscribe _ _ rfl (.subscribe _ _ rfl rfl)) <| .cons (.answered _ _ rfl (.answer _ _ rfl rfl)) <|
    .cons (.greetOk _ rfl) <| .cons (.mon _ _ _ (.enter _ 0 (ev 1) rfl (by decide)) rfl) <|
    .cons (.mon _ _ _ (.send _ 0 (ev 1) rfl (by decide) (by decide)) rfl) <|
    .cons (.mon _ _ _ (.take _ (ev 1) [] none rfl rfl rfl) rfl) <|
    .cons (.mon _ _ _ (.pick _ (ev 1) [0] [] 0 rfl (by decide)) rfl) <|
    .cons (.receive _ _ (ev 1) [] [] rfl rfl (.deliver _ (ev 1) [] [] 0 rfl (.inl rfl))) <|
    .cons (.mon _ _ _ (.finish _ (ev 1) [] rfl) rfl) <|
    .cons (.writeOk _ (ev 1) rfl (by decide)) <|
    .cons (.mon _ _ _ (.enter _ 1 (ev 2) rfl (by decide)) rfl) <|
    .cons (.mon _ _ _ (.send _ 1 (ev 2) rfl (by decide) (by decide)) rfl) <|
    .cons (.mon _ _ _ (.take _ (ev 2) [] none rfl rfl rfl) rfl) <|
    .cons (.mon _ _ _ (.pick _ (ev 2) [0] [] 0 rfl (by decide)) rfl) <|
    .cons (.receive _ _ (ev 2) [] [] rfl rfl (.deliver _ (ev 2) [] [] 0 rfl (.inl rfl))) <|
    .cons (.mon _ _ _ (.finish _ (ev 2) [] rfl) rfl) <|
    .cons (.writeOk _ (ev 2) rfl (by decide)) <|
    .cons (.clientClose _) <| .nil _⟩, rfl, rfl, by decide, rfl, rfl, rfl⟩

/-- C158 refuted: that a connection is ended when its client closes it. Without further events it stays subscribed. -/
theorem close_noticed_refuted : ∃ t, Reachable 0 1 (fun _ => 0) t ∧ t.clientGone = true ∧ 0 ∈ t.mon.subs ∧
    ∀ l u, Step 0 t l u → handlerStep l = false := by
  obtain ⟨t, h, h1, h2, h3, h4, h5, -⟩ := run_example
  exact ⟨t, h, h5, h3, fun l u hs => waits h h1 h4 h2 h3 hs⟩

/-- A slow client is told to try again: the only place of the buffer is taken while its frame is being written. -/
theorem slow_example : ∃ t, Reachable 0 1 (fun _ => 0) t ∧ t.phase = .ended ∧ t.ctxDone = false ∧ t.mon.done = false ∧
    t.frames = [.state, .event (ev 1), .tryAgainLater] := by
  refine ⟨_, ⟨rfl, _, .cons (.subscribe _ _ rfl (.subscribe _ _ rfl rfl)) <| .cons (.answered _ _ rfl (.answer _ _ rfl rfl)) <|
    .cons (.greetOk _ rfl) <| .cons (.mon _ _ _ (.enter _ 0 (ev 1) rfl (by decide)) rfl) <|
    .cons (.mon _ _ _ (.send _ 0 (ev 1) rfl (by decide) (by decide)) rfl) <|
    .cons (.mon _ _ _ (.take _ (ev 1) [] none rfl rfl rfl) rfl) <|
    .cons (.mon _ _ _ (.pick _ (ev 1) [0] [] 0 rfl (by decide)) rfl) <|
    .cons (.receive _ _ (ev 1) [] [] rfl rfl (.deliver _ (ev 1) [] [] 0 rfl (.inl rfl))) <|
    .cons (.mon _ _ _ (.finish _ (ev 1) [] rfl) rfl) <|
    .cons (.mon _ _ _ (.enter _ 1 (ev 2) rfl (by decide)) rfl) <|
    .cons (.mon _ _ _ (.send _ 1 (ev 2) rfl (by decide) (by decide)) rfl) <|
    .cons (.mon _ _ _ (.take _ (ev 2) [] none rfl rfl rfl) rfl) <|
    .cons (.mon _ _ _ (.enter _ 2 (ev 3) rfl (by decide)) rfl) <|
    .cons (.mon _ _ _ (.send _ 2 (ev 3) rfl (by decide) (by decide)) rfl) <|
    .cons (.mon _ _ _ (.enter _ 3 (ev 4) rfl (by decide)) rfl) <|
    .cons (.mon _ _ _ (.full _ 3 (ev 4) rfl (by decide) (by decide)) rfl) <|
    .cons (.mon _ _ _ (.pick _ (ev 2) [0] [] 0 rfl (by decide)) rfl) <|
    .cons (.mon _ _ _ (.kill _ 3 (ev 4) (ev 2) [] 0 [] rfl rfl) rfl) <|
    .cons (.mon _ _ _ (.finish _ (ev 2) [0] rfl) rfl) <|
    .cons (.writeOk _ (ev 1) rfl (by decide)) <|
    .cons (.killed _ true rfl rfl) <|
    .cons (.unsubClosed _ _ rfl (.unsubClosed _ 0 (by decide) rfl rfl rfl)) <| .nil _⟩, rfl, rfl, rfl, rfl⟩

/-- The hypotheses of `all_sent` and `ended_unsubscribed` are met. -/
example : ∃ t, Reachable 0 1 (fun _ => 0) t ∧ t.frames = .state :: (since 0 t).map .event ∧ (since 0 t).length = 2 := by
  obtain ⟨t, h, h1, h2, h3, -, -, h6⟩ := run_example
  have h' := all_sent h h1 h2 h3
  refine ⟨t, h, h', ?_⟩
  rw [h6] at h'
  have := congrArg List.length h'
  simpa using this.symm

example : ∃ t, Reachable 0 1 (fun _ => 0) t ∧ t.phase = .ended ∧ 0 ∉ t.mon.subs := by
  obtain ⟨t, h, h1, h2, h3, -⟩ := slow_example
  exact ⟨t, h, h1, ended_unsubscribed h h1 h2 h3⟩

example : checkOrigin (some [[1, 2]]) [[1, 2], [3]] = true ∧ checkOrigin (some [[1, 2]]) [[3], [1, 2]] = false ∧
    checkOrigin (some [[1, 2]]) [] = false ∧ checkOrigin none [] = true := by decide

end Gate.WebMon
