import Verif.Respond
import Verif.Resolver
/-
C110: error responses of the web server. Model: Respond.lean.
-/
namespace Gate.Respond
open Gate.Auth (str)

/-! ### Specification -/

/-- Two errors which differ only in what isn't for the client: internal details of a denial (access.go:110),
cause of a failed request (failrequest.go:37), private text of a module error (badmodule.go:14), text of an internal error. -/
inductive SameFace : Err → Err → Prop where
  | refl (e) : SameFace e e
  | forbidden (a b) : SameFace (.forbidden a) (.forbidden b)
  | wrapped (t a b p) : SameFace (.wrapped t a p) (.wrapped t b p)
  | badModule (a b p) : SameFace (.badModule a p) (.badModule b p)
  | internal (a b s) : SameFace (.runtime a s) (.other b)
  | internal' (a b) : SameFace (.other a) (.other b)
  | internal'' (a b s r) : SameFace (.runtime a s) (.runtime b r)

/-- The status code of each kind of failure. -/
def expected : Err → Nat
  | .unauthorized _ => 401
  | .forbidden _ | .resourceLimit _ => 403
  | .rateLimited _ _ => 429
  | .functionNotFound _ | .moduleNotFound | .instanceNotFound => 404
  | .failRequest _ _ | .wrapped _ _ _ | .badProgram _ | .badModule _ _ => 400
  | .publicErr _ | .runtime _ _ | .other _ => 500

/-! ### What the client sees -/

/-- C110: the response (over HTTP and over websocket) does not depend on internal details, causes, private texts, or texts of internal errors. -/
theorem no_leak (identity : Bytes) (e e' : Err) (h : SameFace e e') (acceptsText : Bool) :
    http acceptsText (respond identity e) = http acceptsText (respond identity e') ∧ closeFrame (respond identity e) = closeFrame (respond identity e') := by
  cases h <;> exact ⟨rfl, rfl⟩

/-- C110: the text of an internal error (anything which isn't declared public) is always the same. -/
theorem internal_text (identity t : Bytes) : (respond identity (.other t)).text = str "internal server error" := rfl

/-- C110: the text of a denied access is always the same, the reason of a rejected authentication is shown as it is. -/
theorem denied_text (identity d : Bytes) : (respond identity (.forbidden d)).text = str "access denied" ∧ (respond identity (.unauthorized d)).text = d := ⟨rfl, rfl⟩

example : SameFace (.forbidden (str "uid 12 isn't in the database")) (.forbidden (str "")) := .forbidden _ _

/-- C110: the status code of every kind of error. -/
theorem status_exact (identity : Bytes) (e : Err) : (respond identity e).status = expected e := by cases e <;> rfl

/-- C110: whatever methods an error has (authorizers may come from outside), the status is one of six, and it's 500 if and only if the error has none of the marker methods. -/
theorem status_500_iff (identity : Bytes) (x : Methods) :
    (respondMethods identity x).status ∈ [400, 401, 403, 404, 429, 500] ∧
    ((respondMethods identity x).status = 500 ↔ x.unauthorized = false ∧ x.resourceLimit = false ∧ x.forbidden = false ∧ x.retryAfter = none ∧ x.notFound = false ∧ x.failRequest = none ∧ x.programError = false ∧ x.moduleError = false) := by
  obtain ⟨t, p, u, rl, f, ra, nf, mn, fn, i, fr, pe, me, su⟩ := x
  cases u <;> cases rl <;> cases f <;> rcases ra with _ | ⟨a, b⟩ <;> cases nf <;> cases mn <;> cases fn <;> cases i <;> cases fr <;> cases pe <;> cases me <;> simp [respondMethods, classify]

/-- C110: the kind of monitoring event agrees with the status: an internal error event if and only if the status is 500; and the monitor always gets the whole error. -/
theorem event_exact (identity : Bytes) (x : Methods) :
    ((respondMethods identity x).request = none ↔ (respondMethods identity x).status = 500) ∧ (respondMethods identity x).logged = x.text := by
  refine ⟨?_, rfl⟩
  obtain ⟨t, p, u, rl, f, ra, nf, mn, fn, i, fr, pe, me, su⟩ := x
  cases u <;> cases rl <;> cases f <;> rcases ra with _ | ⟨a, b⟩ <;> cases nf <;> cases mn <;> cases fn <;> cases i <;> cases fr <;> cases pe <;> cases me <;> simp [respondMethods, classify]

/-- C110: an authentication challenge is in the response if and only if the status is 401. -/
theorem challenge_iff (identity : Bytes) (x : Methods) :
    ("Www-Authenticate", wwwAuthenticate identity) ∈ (respondMethods identity x).headers ↔ (respondMethods identity x).status = 401 := by
  obtain ⟨t, p, u, rl, f, ra, nf, mn, fn, i, fr, pe, me, su⟩ := x
  cases u <;> cases rl <;> cases f <;> rcases ra with _ | ⟨a, b⟩ <;> cases nf <;> cases mn <;> cases fn <;> cases i <;> cases fr <;> cases pe <;> cases me <;> simp [respondMethods, classify]
  all_goals (split <;> simp)

/-! ### Retry-After -/

theorem digits_decimal (f n : Nat) (h : n < f) : Resolver.decimal (digits f n) = n := by
  induction f generalizing n with
  | zero => omega
  | succ f ih =>
    unfold digits
    split
    · rename_i h10
      have : (UInt8.ofNat (48 + n)).toNat = 48 + n := by simp only [UInt8.toNat_ofNat']; omega
      simp only [Resolver.decimal, List.foldl, this]; omega
    · have e := ih (n / 10) (by omega)
      unfold Resolver.decimal at e ⊢
      rw [List.foldl_append, e]
      have : (UInt8.ofNat (48 + n % 10)).toNat = 48 + n % 10 := by simp only [UInt8.toNat_ofNat']; omega
      simp only [List.foldl, this]; omega

/-- The number in the header, when `left` nanoseconds remain. -/
def told (left : Int) : Nat := if (if left < 1 then 1 else left).tdiv second = 0 then 1 else ((if left < 1 then 1 else left).tdiv second).toNat

theorem told_eq (left : Int) : told left = max 1 ((max left 1) / 1000000000).toNat := by
  unfold told
  have e : (if left < 1 then (1 : Int) else left) = max left 1 := by split <;> omega
  rw [e, Int.tdiv_eq_ediv_of_nonneg (by omega)]
  show (if max left 1 / 1000000000 = 0 then 1 else (max left 1 / 1000000000).toNat) = _
  split <;> omega

/-- C110: a rate limited request gets a Retry-After header with a decimal number of seconds: at least one, and more than the remaining time by at most a second. -/
theorem retry_after (identity : Bytes) (d1 d2 : Int) :
    ∃ v, (respond identity (.rateLimited d1 d2)).headers = [("Retry-After", v)] ∧ Resolver.decimal v = told d2 ∧ 1 ≤ told d2 ∧ (told d2 : Int) * 1000000000 ≤ max d2 0 + 1000000000 := by
  have hd1 : (if d1 < 1 then (1 : Int) else d1) ≠ 0 := by split <;> omega
  refine ⟨itoa (told d2), ?_, ?_, ?_, ?_⟩
  · simp only [respond, respondMethods, methods, classify, Bool.false_eq_true, ↓reduceIte, hd1, ne_eq, not_false_iff]
    have : (if (if d2 < 1 then (1 : Int) else d2).tdiv second = 0 then (1 : Int) else (if d2 < 1 then (1 : Int) else d2).tdiv second) = (told d2 : Int) := by
      have h0 : 0 ≤ (if d2 < 1 then (1 : Int) else d2).tdiv second := Int.tdiv_nonneg (by split <;> omega) (by decide)
      unfold told
      by_cases hz : (if d2 < 1 then (1 : Int) else d2).tdiv second = 0
      · rw [if_pos hz, if_pos hz]; rfl
      · rw [if_neg hz, if_neg hz]; exact (Int.toNat_of_nonneg h0).symm
    rw [this]
  · rw [itoa, if_neg (by omega)]
    exact digits_decimal _ _ (by omega)
  · rw [told_eq]; omega
  · rw [told_eq]; omega

/-- C110, refuted: a client which waits for as long as the response says may be too early: whenever more than a second remains, and it's not a whole number of seconds, the number is rounded down. -/
theorem retry_too_early_refuted (d2 : Int) : (told d2 : Int) * 1000000000 < d2 ↔ 1000000000 < d2 ∧ d2 % 1000000000 ≠ 0 := by
  rw [told_eq]; omega

example : told 1900000000 = 1 := by decide

/-! ### Client faults reported as server failures -/

/-- Failures which are caused by the client's request, with the texts of the code: an entry function for a suspended launch (server.go:1357),
a debug request in conflict with another (1000), an unsupported debug operation (instance.go:542), too many breakpoints (560, 577).
The values are constants of the source. -/
def clientFaults : List Err :=
  [.publicErr (str "function cannot be specified for suspended instance"), .publicErr (str "conflict"), .publicErr (str "unsupported debug op"), .publicErr (str "too many breakpoints")]

/-- C110, refuted: these requests get status 500 and are reported as internal failures of the server, although the text tells the client about the fault. -/
theorem client_faults_500_refuted (identity : Bytes) (e : Err) (h : e ∈ clientFaults) :
    (respond identity e).status = 500 ∧ (respond identity e).request = none ∧ (respond identity e).text ≠ str "internal server error" ∧
    ∃ text, closeFrame (respond identity e) = some (1011, text) := by
  have key : ∀ s : Bytes, s ≠ str "internal server error" → s.length ≤ 123 → (respond identity (.publicErr s)).status = 500 ∧ (respond identity (.publicErr s)).request = none ∧
      (respond identity (.publicErr s)).text ≠ str "internal server error" ∧ ∃ text, closeFrame (respond identity (.publicErr s)) = some (1011, text) := by
    intro s h1 h2
    refine ⟨rfl, (event_exact identity (methods _)).1.mpr rfl, h1, s, ?_⟩
    show (if 2 + s.length ≤ 125 then some (1011, s) else none) = _
    exact if_pos (by omega)
  simp only [clientFaults, List.mem_cons, List.not_mem_nil, or_false] at h
  rcases h with rfl | rfl | rfl | rfl <;> exact key _ (by decide +kernel) (by decide +kernel)

/-! ### Websocket -/

/-- C110: the close code says whose fault it was, the same way as the HTTP status. -/
theorem close_code (o : Out) (c : Nat) (t : Bytes) (h : closeFrame o = some (c, t)) : t = o.text ∧ (c = 1008 ↔ 400 ≤ o.status ∧ o.status < 500) ∧ (c = 1008 ∨ c = 1011) := by
  simp only [closeFrame] at h
  split at h
  · simp only [Option.some.injEq, Prod.mk.injEq] at h
    obtain ⟨rfl, rfl⟩ := h
    refine ⟨rfl, ?_, ?_⟩ <;> split <;> simp_all
  · exact absurd h (by simp)

/-- C110: an error is delivered over websocket if and only if its text is at most 123 bytes. -/
theorem close_iff (o : Out) : (∃ f, closeFrame o = some f) ↔ o.text.length ≤ 123 := by
  simp only [closeFrame]
  split
  · exact ⟨fun _ => by omega, fun _ => ⟨_, rfl⟩⟩
  · exact ⟨fun ⟨_, h⟩ => absurd h (by simp), fun _ => by omega⟩

/-- C110, refuted: an error with a longer public text is not delivered at all: no close message, whatever the type. -/
theorem close_missing_refuted (identity reason : Bytes) (h : 123 < reason.length) :
    closeFrame (respond identity (.unauthorized reason)) = none ∧ closeFrame (respond identity (.badProgram reason)) = none ∧ closeFrame (respond identity (.resourceLimit reason)) = none := by
  have : ∀ e : Err, (respond identity e).text = reason → closeFrame (respond identity e) = none := by
    intro e he; simp only [closeFrame, he]; exact if_neg (by omega)
  exact ⟨this _ rfl, this _ rfl, this _ rfl⟩

/-- C110: the errors with constant texts are short enough to be delivered. -/
theorem constants_delivered (identity t : Bytes) (d1 d2 : Int) :
    (∀ e ∈ [Err.forbidden t, .moduleNotFound, .instanceNotFound, .other t, .rateLimited d1 d2], ∃ f, closeFrame (respond identity e) = some f) := by
  intro e he
  rw [close_iff]
  simp only [List.mem_cons, List.not_mem_nil, or_false] at he
  rcases he with rfl | rfl | rfl | rfl | rfl
  · show (str "access denied").length ≤ 123; decide
  · show (str "module not found").length ≤ 123; decide
  · show (str "instance not found").length ≤ 123; decide
  · show (str "internal server error").length ≤ 123; decide
  · show (str "request rate limit exceeded").length ≤ 123; decide

/-- C110: over HTTP the text is in the body if and only if the client accepts text; status and challenge don't depend on that. -/
theorem http_exact (a : Bool) (o : Out) : (http a o).status = o.status ∧ (∀ h ∈ o.headers, h ∈ (http a o).headers) ∧ (http a o).body = if a then o.text ++ [10] else [] := by
  cases a <;> simp [http] 
  intro x b h; exact .inl h

example : http true (respond (str "\"gate\"") (.badModule (str "section 3 at 0x11: unexpected EOF") (str "invalid module content"))) =
    ⟨400, [("Content-Type", str "text/plain; charset=utf-8")], str "invalid module content\n"⟩ := by decide +kernel

end Gate.Respond
