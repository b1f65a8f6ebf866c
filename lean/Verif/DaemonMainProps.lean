import Verif.DaemonMain
import Verif.ShutdownProps

namespace Gate.DaemonMain

theorem held_append (a b : List Ev) : ∀ st, held st (a ++ b) = (held st a).bind (fun s => held s b) := by
  induction a with
  | nil => intro st; simp [held]
  | cons v l ih =>
    intro st
    cases v <;> simp only [List.cons_append, held, ih]
    rename_i r
    cases st with
    | nil => simp [held]
    | cons r' st => simp only [held]; split <;> simp [ih]

/-- `k` leaves the stack as it found it. -/
def Keeps (k : M) : Prop := ∀ l st, held [] l = some st → held [] (k l).1 = some st

theorem keeps_step (e : Env) (s : Step) (k : M) (h : Keeps k) : Keeps (step e s k) := by
  intro l st hl
  unfold step
  split
  · simp [held_append, hl, held]
  · exact h _ _ (by simp [held_append, hl, held])

theorem keeps_acquire (r : Res) (k : M) (h : Keeps k) : Keeps (acquire r k) := by
  intro l st hl
  have := h (l ++ [.acquire r]) (r :: st) (by simp [held_append, hl, held])
  simp [acquire, held_append, this, held]

theorem keeps_event (v : Ev) (hv : v = .listening ∨ v = .given ∨ v = .ready ∨ v = .stopping) (k : M) (h : Keeps k) : Keeps (event v k) := by
  intro l st hl
  apply h
  rcases hv with rfl | rfl | rfl | rfl <;> simp [held_append, hl, held]

theorem keeps_ret (o : Out) : Keeps (ret o) := fun _ _ h => h

theorem keeps_ite {c : Bool} {a b : M} (ha : Keeps a) (hb : Keeps b) : Keeps (if c then a else b) := by cases c <;> simpa

theorem keeps_serve (e : Env) : Keeps (serve e) :=
  keeps_event _ (by simp) _ (keeps_step _ _ _ (keeps_event _ (by simp) _ (keeps_ite (keeps_ret _) (keeps_event _ (by simp) _ (keeps_ret _)))))

theorem keeps_serverPart (e : Env) : Keeps (serverPart e) :=
  keeps_step _ _ _ (keeps_acquire _ _ (keeps_ite (keeps_step _ _ _ (keeps_event _ (by simp) _ (keeps_serve e))) (keeps_serve e)))

theorem keeps_busPart (e : Env) : Keeps (busPart e) := by
  refine keeps_step _ _ _ (keeps_acquire _ _ (keeps_step _ _ _ (keeps_step _ _ _ (keeps_acquire _ _ (keeps_step _ _ _ (keeps_step _ _ _ ?_))))))
  cases e.reply
  · exact keeps_serverPart e
  · exact keeps_ret _
  · exact keeps_ret _

/-- Whatever fails, what has been acquired is released: each thing once, what was acquired last first (the server is shut down before the bus connection, the storage and the executor are closed). -/
theorem released (e : Env) : held [] (main e).1 = some [] :=
  keeps_step _ _ _ (keeps_step _ _ _ (keeps_acquire _ _ (keeps_step _ _ _ (keeps_ite (keeps_step _ _ _ (keeps_step _ _ _ (keeps_acquire _ _ (keeps_busPart e)))) (keeps_busPart e))))) [] [] rfl

/-- The steps until the daemon has the name; those after it. -/
def early (e : Env) : List Step := [.services, .executor, .clearCaps] ++ (if e.varDir then [.mkdir, .filesystem] else []) ++ [.bus, .auth, .hello, .export_, .name]
def late (e : Env) : List Step := .server :: (if e.http then [.webConfig] else [])

/-- A property of what `main` does which doesn't hold when a step fails, and doesn't depend on releases. -/
structure Lens (P : List Ev × Out → Prop) (Pre : List Ev → Prop) : Prop where
  fail : ∀ l s, Pre l → ¬ P (l ++ [.failed s], .error)
  rel : ∀ x r, P (x.1 ++ [.release r], x.2) ↔ P x
  done : ∀ l s, Pre l → Pre (l ++ [.done s])
  acq : ∀ l r, Pre l → Pre (l ++ [.acquire r])
  listening : ∀ l, Pre l → Pre (l ++ [.listening])

def Says (P : List Ev × Out → Prop) (Pre : List Ev → Prop) (k : M) (c : Prop) : Prop := ∀ l, Pre l → (P (k l) ↔ c)

section
variable {P : List Ev × Out → Prop} {Pre : List Ev → Prop} (L : Lens P Pre) {k : M} {c : Prop}
include L

theorem says_step (e : Env) (s : Step) (h : Says P Pre k c) : Says P Pre (step e s k) (e.fails s = false ∧ c) := by
  intro l hl
  unfold step
  cases hf : e.fails s with
  | true => simp [L.fail l s hl]
  | false => simpa using h _ (L.done l s hl)

theorem says_acquire (r : Res) (h : Says P Pre k c) : Says P Pre (acquire r k) c := fun l hl => (L.rel _ r).trans (h _ (L.acq l r hl))

theorem says_listening (h : Says P Pre k c) : Says P Pre (event .listening k) c := fun l hl => h _ (L.listening l hl)

/-- All paths through `mainResult`. -/
theorem says_main (e : Env) (hp : Pre []) {cs c3 c4 : Prop} (hs : Says P Pre (serve e) cs) (h3 : Says P Pre (ret (.code 3)) c3) (h4 : Says P Pre (ret .crash) c4) :
    P (mainResult e []) ↔ (∀ s ∈ early e, e.fails s = false) ∧
      ((e.reply = .primaryOwner ∧ (∀ s ∈ late e, e.fails s = false) ∧ cs) ∨ (e.reply = .exists_ ∧ c3) ∨ (e.reply = .other ∧ c4)) := by
  have hserver : Says P Pre (serverPart e) ((∀ s ∈ late e, e.fails s = false) ∧ cs) := by
    cases hh : e.http with
    | true =>
      have := says_step L e .server (says_acquire L .server (says_step L e .webConfig (says_listening L hs)))
      intro l hl
      have := this l hl
      simpa [serverPart, late, hh, and_assoc] using this
    | false =>
      have := says_step L e .server (says_acquire L .server hs)
      intro l hl
      have := this l hl
      simpa [serverPart, late, hh, and_assoc] using this
  have hbus : Says P Pre (busPart e) ((∀ s ∈ [Step.bus, .auth, .hello, .export_, .name], e.fails s = false) ∧
      ((e.reply = .primaryOwner ∧ (∀ s ∈ late e, e.fails s = false) ∧ cs) ∨ (e.reply = .exists_ ∧ c3) ∨ (e.reply = .other ∧ c4))) := by
    have key : ∀ {kk cc}, Says P Pre kk cc → Says P Pre (step e .bus <| acquire .bus <| step e .auth <| step e .hello <| acquire .inited <| step e .export_ <| step e .name kk) _ :=
      fun h => says_step L e .bus (says_acquire L .bus (says_step L e .auth (says_step L e .hello (says_acquire L .inited (says_step L e .export_ (says_step L e .name h))))))
    intro l hl
    cases hr : e.reply with
    | primaryOwner => have := key hserver l hl; simpa [busPart, hr, and_assoc] using this
    | exists_ => have := key h3 l hl; simpa [busPart, hr, and_assoc] using this
    | other => have := key h4 l hl; simpa [busPart, hr, and_assoc] using this
  cases hv : e.varDir with
  | true =>
    have := says_step L e .services (says_step L e .executor (says_acquire L .executor (says_step L e .clearCaps
      (says_step L e .mkdir (says_step L e .filesystem (says_acquire L .filesystem hbus)))))) [] hp
    simpa [mainResult, early, hv, and_assoc] using this
  | false =>
    have := says_step L e .services (says_step L e .executor (says_acquire L .executor (says_step L e .clearCaps hbus))) [] hp
    simpa [mainResult, early, hv, and_assoc] using this

end

/-- Nothing fails. -/
def Fine (e : Env) : Prop := (∀ s ∈ early e, e.fails s = false) ∧ e.reply = .primaryOwner ∧ ∀ s ∈ late e, e.fails s = false

/-- systemd is told that the daemon is ready exactly if all's been done and the name is the daemon's. -/
theorem ready_iff (e : Env) : Ev.ready ∈ (main e).1 ↔ Fine e ∧ e.fails .notify = false := by
  have := says_main (P := fun x => Ev.ready ∈ x.1) (Pre := fun l => Ev.ready ∉ l) ⟨by simp, by simp, by simp, by simp, by simp⟩ e (by simp) (cs := e.fails .notify = false) (c3 := False) (c4 := False)
    (by intro l _; cases hh : e.http <;> cases hx : e.httpEnds <;> cases hn : e.fails .notify <;> simp [serve, event, ret, step, hh, hx, hn] <;> assumption) (by intro l hl; simpa [ret] using hl) (by intro l hl; simpa [ret] using hl)
  simpa [main, Fine, and_assoc] using this

/-- So with the bus methods: they get the server. -/
theorem given_iff (e : Env) : Ev.given ∈ (main e).1 ↔ Fine e := by
  have := says_main (P := fun x => Ev.given ∈ x.1) (Pre := fun l => Ev.given ∉ l) ⟨by simp, by simp, by simp, by simp, by simp⟩ e (by simp) (cs := True) (c3 := False) (c4 := False)
    (by intro l _; cases hh : e.http <;> cases hx : e.httpEnds <;> cases hn : e.fails .notify <;> simp [serve, event, ret, step, hh, hx, hn]) (by intro l hl; simpa [ret] using hl) (by intro l hl; simpa [ret] using hl)
  simpa [main, Fine] using this

/-- The server is created only by the owner of the name: a second daemon doesn't get that far. -/
theorem server_iff (e : Env) : Ev.acquire .server ∈ (main e).1 ↔ (∀ s ∈ early e, e.fails s = false) ∧ e.reply = .primaryOwner ∧ e.fails .server = false := by
  simp only [main]
  have h0 : ∀ l, Ev.acquire .server ∈ l → ∀ k : M, (∀ l', ∃ m, (k l').1 = l' ++ m) → Ev.acquire .server ∈ (k l).1 := by
    intro l hl k hk; obtain ⟨m, hm⟩ := hk l; simp [hm, hl]
  have app : ∀ l', ∃ m, ((if e.http then step e .webConfig <| event .listening <| serve e else serve e) l').1 = l' ++ m := by
    intro l'
    cases hh : e.http <;> cases hw : e.fails .webConfig <;> cases hx : e.httpEnds <;> cases hn : e.fails .notify <;> simp [serve, event, ret, step, hh, hw, hx, hn]
  have hserver : ∀ l, Ev.acquire .server ∉ l → (Ev.acquire .server ∈ (serverPart e l).1 ↔ e.fails .server = false) := by
    intro l hl
    unfold serverPart step
    cases hf : e.fails .server with
    | true => simp [hl]
    | false =>
      simp only [Bool.false_eq_true, if_false, acquire, List.mem_append, iff_true]
      exact .inl (h0 _ (by simp) _ app)
  have S : ∀ s (k : M) c, (∀ l, Ev.acquire .server ∉ l → (Ev.acquire .server ∈ (k l).1 ↔ c)) → ∀ l, Ev.acquire .server ∉ l → (Ev.acquire .server ∈ (step e s k l).1 ↔ e.fails s = false ∧ c) := by
    intro s k c h l hl
    unfold step
    cases hf : e.fails s with
    | true => simp [hl]
    | false => simpa using h _ (by simp [hl])
  have A : ∀ r, r ≠ .server → ∀ (k : M) c, (∀ l, Ev.acquire .server ∉ l → (Ev.acquire .server ∈ (k l).1 ↔ c)) → ∀ l, Ev.acquire .server ∉ l → (Ev.acquire .server ∈ (acquire r k l).1 ↔ c) := by
    intro r hr k c h l hl
    have := h (l ++ [.acquire r]) (by simp [hl, Ne.symm hr])
    simpa [acquire] using this
  have hbus : ∀ l, Ev.acquire .server ∉ l → (Ev.acquire .server ∈ (busPart e l).1 ↔ (∀ s ∈ [Step.bus, .auth, .hello, .export_, .name], e.fails s = false) ∧ e.reply = .primaryOwner ∧ e.fails .server = false) := by
    have key := fun kk cc h => S .bus _ _ (A .bus (by decide) _ _ (S .auth _ _ (S .hello _ _ (A .inited (by decide) _ _ (S .export_ _ _ (S .name kk cc h))))))
    intro l hl
    cases hr : e.reply with
    | primaryOwner => have := key _ _ hserver l hl; simpa [busPart, hr, and_assoc] using this
    | exists_ => have := key (ret (.code 3)) False (by intro l hl; simpa [ret] using hl) l hl; simpa [busPart, hr, and_assoc] using this
    | other => have := key (ret .crash) False (by intro l hl; simpa [ret] using hl) l hl; simpa [busPart, hr, and_assoc] using this
  cases hv : e.varDir with
  | true =>
    have := S .services _ _ (S .executor _ _ (A .executor (by decide) _ _ (S .clearCaps _ _ (S .mkdir _ _ (S .filesystem _ _ (A .filesystem (by decide) _ _ hbus)))))) [] (by simp)
    simpa [mainResult, early, hv, and_assoc] using this
  | false =>
    have := S .services _ _ (S .executor _ _ (A .executor (by decide) _ _ (S .clearCaps _ _ hbus))) [] (by simp)
    simpa [mainResult, early, hv, and_assoc] using this

theorem out_iff (e : Env) (o : Out) (ho : o ≠ .error) : (mainResult e []).2 = o ↔ (∀ s ∈ early e, e.fails s = false) ∧
    ((e.reply = .primaryOwner ∧ (∀ s ∈ late e, e.fails s = false) ∧ e.fails .notify = false ∧ (e.http && e.httpEnds) = false ∧ o = .code 0) ∨ (e.reply = .exists_ ∧ o = .code 3) ∨ (e.reply = .other ∧ o = .crash)) := by
  have := says_main (P := fun x => x.2 = o) (Pre := fun _ => True) ⟨by intro _ _ _ h; exact ho h.symm, by simp, by simp, by simp, by simp⟩ e trivial (cs := e.fails .notify = false ∧ (e.http && e.httpEnds) = false ∧ o = .code 0) (c3 := o = .code 3) (c4 := o = .crash)
    (by intro l _; cases hh : e.http <;> cases hx : e.httpEnds <;> cases hn : e.fails .notify <;> simp [serve, event, ret, step, hh, hx, hn] <;> first | exact eq_comm | exact Ne.symm ho) (by intro l _; simpa [ret] using eq_comm) (by intro l _; simpa [ret] using eq_comm)
  exact this

/-- The exit status: 0 when a signal has stopped the daemon, 3 when there's a daemon already, 2 after a strange answer of the bus, otherwise 1. -/
theorem status (e : Env) : (main e).2 =
    if ∀ s ∈ early e, e.fails s = false then
      match e.reply with
      | .primaryOwner => if (∀ s ∈ late e, e.fails s = false) ∧ e.fails .notify = false ∧ (e.http && e.httpEnds) = false then 0 else 1
      | .exists_ => 3
      | .other => 2
    else 1 := by
  have h0 := out_iff e (.code 0) (by simp); have h3 := out_iff e (.code 3) (by simp); have h4 := out_iff e .crash (by simp)
  have hn := fun n => out_iff e (.code n) (by simp)
  by_cases he : ∀ s ∈ early e, e.fails s = false
  · cases hr : e.reply with
    | primaryOwner =>
      by_cases hl : (∀ s ∈ late e, e.fails s = false) ∧ e.fails .notify = false ∧ (e.http && e.httpEnds) = false
      · have : (mainResult e []).2 = .code 0 := h0.2 ⟨he, .inl ⟨hr, hl.1, hl.2.1, hl.2.2, rfl⟩⟩
        simp only [main, this, if_pos he, if_pos hl]
      · have : (mainResult e []).2 = .error := by
          cases ho : (mainResult e []).2 with
          | error => rfl
          | crash => have := h4.1 ho; simp [hr] at this
          | code n => have := (hn n).1 ho; simp only [hr, true_and, reduceCtorEq, false_and, or_false] at this; exact absurd ⟨this.2.1, this.2.2.1, this.2.2.2.1⟩ hl
        simp only [main, this, if_pos he, if_neg hl]
    | exists_ =>
      have : (mainResult e []).2 = .code 3 := h3.2 ⟨he, .inr (.inl ⟨hr, rfl⟩)⟩
      simp only [main, this, if_pos he]
    | other =>
      have : (mainResult e []).2 = .crash := h4.2 ⟨he, .inr (.inr ⟨hr, rfl⟩)⟩
      simp only [main, this, if_pos he]
  · have : (mainResult e []).2 = .error := by
      cases ho : (mainResult e []).2 with
      | error => rfl
      | crash => exact absurd (h4.1 ho).1 he
      | code n => exact absurd ((hn n).1 ho).1 he
    simp only [main, this, if_neg he]

/-- A second daemon: it ends with its own status, has no server and isn't ready; but it has opened the storage, if that's configured. -/
theorem second (e : Env) (h : ∀ s ∈ early e, e.fails s = false) (hr : e.reply = .exists_) :
    (main e).2 = 3 ∧ Ev.acquire .server ∉ (main e).1 ∧ Ev.given ∉ (main e).1 ∧ Ev.ready ∉ (main e).1 ∧ (Ev.acquire .filesystem ∈ (main e).1 ↔ e.varDir = true) := by
  refine ⟨by rw [status, if_pos h, hr], ?_, ?_, ?_, ?_⟩
  · rw [server_iff]; simp [hr]
  · rw [given_iff]; simp [Fine, hr]
  · rw [ready_iff]; simp [Fine, hr]
  · cases hv : e.varDir <;> simp [early, hv] at h <;> simp [main, mainResult, busPart, step, acquire, ret, hv, h, hr]

def fine : Env := { fails := fun _ => false, varDir := true, http := true, reply := .primaryOwner, httpEnds := false, busLost := false }

/-- A run of it. -/
theorem run : main fine = ([.done .services, .done .executor, .acquire .executor, .done .clearCaps, .done .mkdir, .done .filesystem, .acquire .filesystem,
    .done .bus, .acquire .bus, .done .auth, .done .hello, .acquire .inited, .done .export_, .done .name, .done .server, .acquire .server, .done .webConfig,
    .listening, .given, .done .notify, .ready, .stopping, .release .server, .release .inited, .release .bus, .release .filesystem, .release .executor], 0) := by decide

example : Fine fine ∧ fine.fails .notify = false := by refine ⟨⟨?_, ?_, ?_⟩, ?_⟩ <;> decide

example : let e := { fine with reply := .exists_ }; (∀ s ∈ early e, e.fails s = false) ∧ e.reply = .exists_ := by refine ⟨?_, ?_⟩ <;> decide

/-- "When systemd is told that the daemon is ready, the web interface listens": no. The address may be in use, and the daemon ends after having said that it's ready. -/
theorem ready_unheard : ∃ e, Ev.ready ∈ (main e).1 ∧ e.http = true ∧ (main e).2 = 1 ∧ Ev.stopping ∉ (main e).1 :=
  ⟨{ fine with httpEnds := true }, by decide, rfl, by decide, by decide⟩

/-- systemd is told that the daemon is stopping exactly when it's a signal which stops it. -/
theorem stopping_iff (e : Env) : Ev.stopping ∈ (main e).1 ↔ (main e).2 = 0 := by
  have h := says_main (P := fun x => Ev.stopping ∈ x.1) (Pre := fun l => Ev.stopping ∉ l) ⟨by simp, by simp, by simp, by simp, by simp⟩ e (by simp) (cs := e.fails .notify = false ∧ (e.http && e.httpEnds) = false) (c3 := False) (c4 := False)
    (by intro l _; cases hh : e.http <;> cases hx : e.httpEnds <;> cases hn : e.fails .notify <;> simp [serve, event, ret, step, hh, hx, hn] <;> assumption) (by intro l hl; simpa [ret] using hl) (by intro l hl; simpa [ret] using hl)
  have h : Ev.stopping ∈ (main e).1 ↔ _ := h
  rw [h, status]
  split
  · rename_i he
    cases hr : e.reply <;> simp only [hr, reduceCtorEq, false_and, and_false, or_false, false_or, true_and, he, implies_true, and_true] <;> grind
  · rename_i he; simp [he]

/-- The status doesn't depend on the bus connection, which nobody watches: a daemon which has lost it is running, and can't be reached. -/
theorem bus_unwatched (e : Env) (b : Bool) : main { e with busLost := b } = main e := rfl

/-- "When the daemon ends, no instance runs": not if the connection has been lost: the server is shut down with a context which is canceled, and what's done then needn't have stopped the instances. -/
theorem lost_running : ∃ e, (main e).2 = 0 ∧ shutdownCanceled e = true ∧ ∃ w, Shutdown.Steps {} w ∧ w.returned = some true ∧ (w.inst 0).phase = .running :=
  ⟨{ fine with busLost := true }, by decide, rfl, Shutdown.canceled_error⟩

/-- Nothing but the services and the executor is set up with the capabilities which the process has been given. -/
theorem caps_first (e : Env) (r : Res) (hr : r ≠ .executor) : Ev.acquire r ∈ (main e).1 → e.fails .services = false ∧ e.fails .executor = false ∧ e.fails .clearCaps = false := by
  intro h
  cases h1 : e.fails .services <;> cases h2 : e.fails .executor <;> cases h3 : e.fails .clearCaps <;>
    simp [main, mainResult, step, acquire, h1, h2, h3, hr] at h ⊢

end Gate.DaemonMain
