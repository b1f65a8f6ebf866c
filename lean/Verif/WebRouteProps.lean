import Verif.WebRoute
import Verif.WebActionsProps
/-
C130 (cross-origin requests) and C131 (paths and methods of the web API) about the model in `WebRoute`.
-/
namespace Gate.WebRoute
open Gate.Auth (str)
open Gate.Web (Effect)

/-! ## Specification -/

/-- A field of a header: a maximal sequence of other characters than white space. -/
def Field (header o : Bytes) : Prop :=
  ∃ a b : Bytes, header = a ++ o ++ b ∧ o ≠ [] ∧ (∀ c ∈ o, isSpace c = false) ∧
    (∀ c, a.getLast? = some c → isSpace c = true) ∧ (∀ c, b.head? = some c → isSpace c = true)

/-- An origin which has been configured. -/
def Configured (config : List Bytes) (o : Bytes) : Prop := o ≠ [] ∧ o ≠ str "*" ∧ ∃ x ∈ config, trim x = o

/-- The origin check has been disabled by configuration. -/
def AnyOrigin (config : List Bytes) : Prop := ∃ x ∈ config, trim x = str "*"

/-- The resources of the API by their paths (relative to the API's prefix). -/
inductive Named (pre : Bytes) (srcs : List Bytes) : Bytes → Resource → Prop
  | features : Named pre srcs (str "/gate-0/") .features
  | moduleDir : Named pre srcs (str "/gate-0/module") (.redirect (pre ++ str "/gate-0/module/"))
  | sources : Named pre srcs (str "/gate-0/module/") .sources
  | knownDir : Named pre srcs (str "/gate-0/module/sha256") (.redirect (pre ++ str "/gate-0/module/sha256/"))
  | modules : Named pre srcs (str "/gate-0/module/sha256/") .modules
  | module_ (k : Bytes) : k ≠ [] → Named pre srcs (str "/gate-0/module/sha256/" ++ k) (.module_ k)
  | instanceDir : Named pre srcs (str "/gate-0/instance") (.redirect (pre ++ str "/gate-0/instance/"))
  | instances : Named pre srcs (str "/gate-0/instance/") .instances
  | instance_ (k : Bytes) : k ≠ [] → Named pre srcs (str "/gate-0/instance/" ++ k) (.instance_ k)
  | source0 (s : Bytes) : s ∈ srcs → Named pre srcs (str "/gate-0/module" ++ s) (.redirect (pre ++ str "/gate-0/module" ++ s ++ str "/"))
  | sourceDir (s : Bytes) : s ∈ srcs → Named pre srcs (str "/gate-0/module" ++ s ++ str "/") (.sourceDir s)
  | source (s k : Bytes) : s ∈ srcs → k ≠ [] →
      Named pre srcs (str "/gate-0/module" ++ s ++ str "/" ++ k) (.source s (s ++ str "/" ++ k))

/-- Module sources as they are configured by the programs: a slash and a name. -/
def Proper (srcs : List Bytes) : Prop := ∀ s ∈ srcs, ∃ n : Bytes, s = 47 :: n ∧ n ≠ [] ∧ (47 : UInt8) ∉ n ∧ n ≠ str "sha256"

/-- A method is supported if the answer isn't "method not allowed". -/
def Supported (r : Resource) (m : String) : Prop := act r m ≠ .notAllowed

/-! ## Origins -/

theorem origins_spec_aux (config : List Bytes) : ∀ c : Conf,
    ((origins config c).any = true ↔ c.any = true ∨ AnyOrigin config) ∧
    (∀ o, o ∈ (origins config c).origins ↔ o ∈ c.origins ∨ Configured config o) := by
  induction config with
  | nil => intro c; simp [origins, AnyOrigin, Configured]
  | cons x xs ih =>
    intro c
    simp only [origins]
    constructor
    · rw [(ih _).1]
      have star : str "*" ≠ [] := by decide
      simp only [AnyOrigin, List.mem_cons, exists_eq_or_imp]
      by_cases h0 : trim x = []
      · simp [h0, star.symm]
      · by_cases h1 : trim x = str "*"
        · simp [h1, star]
        · simp [h0, h1]
    · intro o
      rw [(ih _).2]
      simp only [Configured, List.mem_cons, exists_eq_or_imp]
      by_cases h0 : trim x = []
      · simp only [h0, if_true]
        constructor
        · rintro (h | ⟨a, b, h⟩)
          · exact .inl h
          · exact .inr ⟨a, b, .inr h⟩
        · rintro (h | ⟨a, b, h | h⟩)
          · exact .inl h
          · exact absurd h.symm a
          · exact .inr ⟨a, b, h⟩
      · by_cases h1 : trim x = str "*"
        · rw [if_neg h0, if_pos h1]
          constructor
          · rintro (h | ⟨a, b, h⟩)
            · exact .inl h
            · exact .inr ⟨a, b, .inr h⟩
          · rintro (h | ⟨a, b, h | h⟩)
            · exact .inl h
            · exact absurd (h.symm.trans h1) b
            · exact .inr ⟨a, b, h⟩
        · rw [if_neg h0, if_neg h1]
          simp only [List.mem_append, List.mem_singleton]
          constructor
          · rintro ((h | h) | ⟨a, b, h⟩)
            · exact .inl h
            · subst h; exact .inr ⟨h0, h1, .inl rfl⟩
            · exact .inr ⟨a, b, .inr h⟩
          · rintro (h | ⟨a, b, h | h⟩)
            · exact .inl (.inl h)
            · exact .inl (.inr h.symm)
            · exact .inr ⟨a, b, h⟩

/-- C130: the configured origins are those which are checked against. -/
theorem origins_spec {config : List Bytes} {c : Conf} (h : newHandler config = some c) :
    (c.any = true ↔ AnyOrigin config) ∧ ∀ o, o ∈ c.origins ↔ Configured config o := by
  unfold newHandler at h
  split at h
  · cases h
  · cases h
    have := origins_spec_aux config ⟨false, []⟩
    simpa using this

/-- C130: a handler which trusts local clients never disables the origin check. -/
theorem local_checks {config : List Bytes} {c : Conf} (h : newLocalHandler config = some c) : c.any = false := by
  unfold newLocalHandler at h
  split at h
  · cases h
  next hs =>
    have := origins_spec h
    cases hc : c.any with
    | false => rfl
    | true =>
      obtain ⟨x, hx, ht⟩ := this.1.1 hc
      exfalso
      apply hs
      rw [List.any_eq_true]
      refine ⟨x, hx, ?_⟩
      have hm : (42 : UInt8) ∈ trim x := by rw [ht]; decide
      have hsub : ∀ y ∈ trim x, y ∈ x := by
        intro y hy
        unfold trim at hy
        rw [List.mem_reverse] at hy
        have := List.dropWhile_suffix isSpace |>.subset hy
        rw [List.mem_reverse] at this
        exact (List.dropWhile_suffix isSpace).subset this
      exact List.contains_iff_mem.2 (hsub _ hm)

example : newLocalHandler [str "https://a.example", str " * "] = none := by decide
example : (newLocalHandler [str " https://a.example "]).isSome = true ∧
    newLocalHandler [] = none := by decide

/-! ### Fields -/

theorem fieldsLoop_mem (cs : Bytes) : ∀ cur : Bytes, (∀ c ∈ cur, isSpace c = false) → ∀ o : Bytes,
    o ∈ fieldsLoop cur cs ↔
      (o ≠ [] ∧ (∃ t b : Bytes, cs = t ++ b ∧ o = cur ++ t ∧ (∀ c ∈ t, isSpace c = false) ∧ (∀ c, b.head? = some c → isSpace c = true))) ∨
      (∃ a b : Bytes, cs = a ++ o ++ b ∧ o ≠ [] ∧ (∀ c ∈ o, isSpace c = false) ∧ (∃ c, a.getLast? = some c ∧ isSpace c = true) ∧
        (∀ c, b.head? = some c → isSpace c = true)) := by
  induction cs with
  | nil =>
    intro cur hcur o
    constructor
    · intro h
      simp only [fieldsLoop] at h
      split at h
      · cases h
      · next hne =>
        simp only [List.mem_singleton] at h
        subst h
        exact .inl ⟨hne, [], [], rfl, by simp, by simp, by simp⟩
    · rintro (⟨ho, t, b, h, h1, -, -⟩ | ⟨a, b, h, ho, -⟩)
      · have := List.append_eq_nil_iff.1 h.symm
        rw [this.1, List.append_nil] at h1
        subst h1
        simp [fieldsLoop, ho]
      · exfalso
        have := congrArg List.length h
        simp at this
        exact ho (by simpa using List.length_eq_zero_iff.1 (by omega : o.length = 0))
  | cons x xs ih =>
    intro cur hcur o
    simp only [fieldsLoop]
    by_cases hx : isSpace x = true
    · rw [if_pos hx]
      -- membership in the rest, starting afresh
      have key : o ∈ fieldsLoop [] xs ↔ (∃ a b : Bytes, x :: xs = a ++ o ++ b ∧ o ≠ [] ∧ (∀ c ∈ o, isSpace c = false) ∧
          (∃ c, a.getLast? = some c ∧ isSpace c = true) ∧ (∀ c, b.head? = some c → isSpace c = true)) := by
        rw [ih [] (by simp)]
        constructor
        · rintro (⟨ho, t, b, h, h1, h2, h3⟩ | ⟨a, b, h, ho, h2, ⟨c, h3, h3'⟩, h4⟩)
          · simp only [List.nil_append] at h1
            subst h1
            exact ⟨[x], b, by rw [h]; rfl, ho, h2, ⟨x, rfl, hx⟩, h3⟩
          · refine ⟨x :: a, b, by rw [h]; rfl, ho, h2, ⟨c, ?_, h3'⟩, h4⟩
            cases a with
            | nil => cases h3
            | cons y ys => simpa using h3
        · rintro ⟨a, b, h, ho, h2, ⟨c, h3, h3'⟩, h4⟩
          cases a with
          | nil => cases h3
          | cons y ys =>
            simp only [List.cons_append, List.cons.injEq] at h
            obtain ⟨rfl, h⟩ := h
            cases ys with
            | nil => exact .inl ⟨ho, o, b, by simpa using h, rfl, h2, h4⟩
            | cons z zs => exact .inr ⟨z :: zs, b, h, ho, h2, ⟨c, by simpa using h3, h3'⟩, h4⟩
      have first : (o ≠ [] ∧ (∃ t b : Bytes, x :: xs = t ++ b ∧ o = cur ++ t ∧ (∀ c ∈ t, isSpace c = false) ∧
          (∀ c, b.head? = some c → isSpace c = true))) ↔ (cur ≠ [] ∧ o = cur) := by
        constructor
        · rintro ⟨ho, t, b, h, h1, h2, -⟩
          cases t with
          | nil => rw [List.append_nil] at h1; subst h1; exact ⟨ho, rfl⟩
          | cons y ys =>
            simp only [List.cons_append, List.cons.injEq] at h
            have := h2 y (by simp)
            rw [← h.1, hx] at this
            cases this
        · rintro ⟨h, rfl⟩
          exact ⟨h, [], x :: xs, rfl, by simp, by simp, by simpa using hx⟩
      rw [first]
      by_cases hc : cur = []
      · rw [if_pos hc, key]
        simp [hc]
      · rw [if_neg hc, List.mem_cons, key]
        simp [hc]
    · rw [if_neg hx]
      have hx' : isSpace x = false := by simpa using hx
      rw [ih (cur ++ [x]) (by intro c hc; rcases List.mem_append.1 hc with h | h; exact hcur c h; simp at h; subst h; exact hx')]
      constructor
      · rintro (⟨ho, t, b, h, h1, h2, h3⟩ | ⟨a, b, h, ho, h2, ⟨c, h3, h3'⟩, h4⟩)
        · refine .inl ⟨ho, x :: t, b, by rw [h]; rfl, by rw [h1]; simp, ?_, h3⟩
          intro c hc
          rcases List.mem_cons.1 hc with rfl | hc
          · exact hx'
          · exact h2 c hc
        · refine .inr ⟨x :: a, b, by rw [h]; rfl, ho, h2, ⟨c, ?_, h3'⟩, h4⟩
          cases a with
          | nil => cases h3
          | cons y ys => simpa using h3
      · rintro (⟨ho, t, b, h, h1, h2, h3⟩ | ⟨a, b, h, ho, h2, ⟨c, h3, h3'⟩, h4⟩)
        · cases t with
          | nil =>
            rw [List.nil_append] at h
            have := h3 x (by rw [← h]; rfl)
            rw [hx'] at this
            cases this
          | cons y ys =>
            simp only [List.cons_append, List.cons.injEq] at h
            obtain ⟨rfl, h⟩ := h
            exact .inl ⟨ho, ys, b, h, by rw [h1]; simp, fun c hc => h2 c (by simp [hc]), h3⟩
        · cases a with
          | nil => cases h3
          | cons y ys =>
            simp only [List.cons_append, List.cons.injEq] at h
            obtain ⟨rfl, h⟩ := h
            cases ys with
            | nil =>
              simp only [List.getLast?_singleton, Option.some.injEq] at h3
              subst h3
              rw [hx'] at h3'
              cases h3'
            | cons z zs => exact .inr ⟨z :: zs, b, h, ho, h2, ⟨c, by simpa using h3, h3'⟩, h4⟩

theorem mem_fields_iff (header o : Bytes) : o ∈ fields header ↔ Field header o := by
  unfold fields
  rw [fieldsLoop_mem header [] (by simp)]
  constructor
  · rintro (⟨ho, t, b, h, h1, h2, h3⟩ | ⟨a, b, h, ho, h2, ⟨c, h3, h3'⟩, h4⟩)
    · simp only [List.nil_append] at h1
      subst h1
      exact ⟨[], b, by simpa using h, ho, h2, by simp, h3⟩
    · refine ⟨a, b, h, ho, h2, ?_, h4⟩
      intro c' hc'
      rw [h3] at hc'
      cases hc'
      exact h3'
  · rintro ⟨a, b, h, ho, h2, h3, h4⟩
    cases a with
    | nil => exact .inl ⟨ho, o, b, by simpa using h, rfl, h2, h4⟩
    | cons y ys =>
      cases hl : (y :: ys).getLast? with
      | none => simp at hl
      | some c => exact .inr ⟨y :: ys, b, h, ho, h2, ⟨c, hl, h3 c hl⟩, h4⟩

theorem allowed_iff {config : List Bytes} {c : Conf} (h : newHandler config = some c) (header : Bytes) :
    allowed c header = true ↔ ∀ o, Field header o → Configured config o := by
  unfold allowed
  simp only [List.all_eq_true, List.any_eq_true, beq_iff_eq]
  constructor
  · intro hf o ho
    obtain ⟨a, ha, rfl⟩ := hf o ((mem_fields_iff _ _).2 ho)
    exact ((origins_spec h).2 a).1 ha
  · intro hf o ho
    exact ⟨o, ((origins_spec h).2 o).2 (hf o ((mem_fields_iff _ _).1 ho)), rfl⟩

theorem forbidden_iff_aux (c : Conf) (pre : Bytes) (srcs : List Bytes) (r : Request) :
    (serve c pre srcs r).body = .forbidden ↔
      c.any = false ∧ ∃ o ∈ r.originHdrs.head?, o ≠ [] ∧ allowed c o = false := by
  unfold serve
  split
  · next h => simp only [true_iff]; exact h
  · next h =>
    simp only [h, iff_false]
    cases route pre srcs r.path with
    | none => intro hc; cases hc
    | some res =>
      intro hc
      simp only [respond] at hc
      split at hc <;> try cases hc
      · split at hc
        · cases hc
        · split at hc <;> cases hc
      · split at hc <;> cases hc

/-- C130: a request is refused because of its origin exactly if no configuration has disabled the check,
and a field of its (first) Origin header isn't a configured origin. -/
theorem forbidden_iff {config : List Bytes} {c : Conf} (h : newHandler config = some c) (pre : Bytes) (srcs : List Bytes) (r : Request) :
    (serve c pre srcs r).body = .forbidden ↔
      ¬ AnyOrigin config ∧ ∃ header rest, r.originHdrs = header :: rest ∧ ∃ o, Field header o ∧ ¬ Configured config o := by
  rw [forbidden_iff_aux]
  have ha : c.any = false ↔ ¬ AnyOrigin config := by
    rw [← (origins_spec h).1]; simp
  rw [ha]
  constructor
  · rintro ⟨h1, header, hm, -, h3⟩
    refine ⟨h1, ?_⟩
    cases ho : r.originHdrs with
    | nil => rw [ho] at hm; cases hm
    | cons x xs =>
      rw [ho] at hm
      simp only [List.head?_cons, Option.mem_def, Option.some.injEq] at hm
      subst hm
      refine ⟨x, xs, rfl, ?_⟩
      have hn : ¬ ∀ o, Field x o → Configured config o := by
        rw [← allowed_iff h]; simp [h3]
      exact Classical.byContradiction fun hc => hn fun o hf => Classical.byContradiction fun hc' => hc ⟨o, hf, hc'⟩
  · rintro ⟨h1, header, rest, ho, o, hf, hn⟩
    refine ⟨h1, header, by simp [ho], ?_, ?_⟩
    · rintro rfl
      obtain ⟨a, b, he, hne, -⟩ := hf
      have := congrArg List.length he
      simp at this
      exact hne (List.length_eq_zero_iff.1 (by omega))
    · cases hal : allowed c header with
      | false => rfl
      | true => exact absurd ((allowed_iff h header).1 hal o hf) hn

/-- What is done for a request besides answering it. -/
def operations : Reply → List Effect
  | ⟨_, _, .effects es⟩ => es.filter fun e => match e with | .op _ => true | _ => false
  | _ => []

/-- C130 (for requests with at most one Origin header, as clients send them): if anything is done for a
request, or any content is given to it, then its origins are configured ones, or the check has been disabled. -/
theorem foreign_refused_partial {config : List Bytes} {c : Conf} (h : newHandler config = some c) (pre : Bytes) (srcs : List Bytes)
    (r : Request) (header : Bytes) (h1 : r.originHdrs = [header]) (hany : ¬ AnyOrigin config)
    (o : Bytes) (hf : Field header o) (hn : ¬ Configured config o) :
    serve c pre srcs r = ⟨none, false, .forbidden⟩ ∧ operations (serve c pre srcs r) = [] := by
  have hb := (forbidden_iff h pre srcs r).2 ⟨hany, header, [], h1, o, hf, hn⟩
  have h2 := (forbidden_iff_aux c pre srcs r).1 hb
  have : serve c pre srcs r = ⟨none, false, .forbidden⟩ := by unfold serve; exact if_pos h2
  exact ⟨this, by rw [this]; rfl⟩

/-- Requests without an Origin header (other clients than browsers) aren't refused because of their origin. -/
theorem no_origin_served (c : Conf) (pre : Bytes) (srcs : List Bytes) (r : Request) (h : r.originHdrs = []) :
    (serve c pre srcs r).body ≠ .forbidden ∧ (serve c pre srcs r).cors = none := by
  refine ⟨?_, ?_⟩
  · rw [Ne, forbidden_iff_aux]; simp [h]
  · unfold serve
    split
    · rfl
    · cases route pre srcs r.path with
      | none => rfl
      | some res => simp [accessControl, h]

/-- C130: permission is given to a browser only for an origin which has passed the check. -/
theorem cors_origin {config : List Bytes} {c : Conf} (h : newHandler config = some c) (pre : Bytes) (srcs : List Bytes) (r : Request)
    (k : Cors) (hk : (serve c pre srcs r).cors = some k) :
    ∃ header rest, r.originHdrs = header :: rest ∧
      ((AnyOrigin config ∧ k.origin = str "*") ∨
       (¬ AnyOrigin config ∧ k.origin = header ∧ ∀ o, Field header o → Configured config o)) := by
  have hb : ¬ (serve c pre srcs r).body = .forbidden := by
    intro hb
    have h2 := (forbidden_iff_aux c pre srcs r).1 hb
    have : serve c pre srcs r = ⟨none, false, .forbidden⟩ := by unfold serve; exact if_pos h2
    rw [this] at hk; cases hk
  have hb' := hb
  rw [forbidden_iff h] at hb
  unfold serve at hk
  rw [forbidden_iff_aux] at hb'
  rw [if_neg hb'] at hk
  cases hr : route pre srcs r.path with
  | none => rw [hr] at hk; cases hk
  | some res =>
    rw [hr] at hk
    simp only [accessControl] at hk
    cases ho : r.originHdrs with
    | nil => rw [ho] at hk; cases hk
    | cons header rest =>
      rw [ho] at hk
      simp only [Option.some.injEq] at hk
      subst hk
      refine ⟨header, rest, rfl, ?_⟩
      by_cases ha : AnyOrigin config
      · left
        exact ⟨ha, by simp [(origins_spec h).1.2 ha]⟩
      · right
        refine ⟨ha, ?_, ?_⟩
        · have : c.any = false := by
            cases hc : c.any with
            | false => rfl
            | true => exact absurd ((origins_spec h).1.1 hc) ha
          simp [this]
        · intro o hf
          exact Classical.byContradiction fun hn => hb ⟨ha, header, rest, ho, o, hf, hn⟩

/-- C130 is false of a request with several Origin headers: only the first one is checked.  Whatever
the origins and the rest of the request are, the answer is the same as without the other headers. -/
theorem second_origin_refuted (c : Conf) (pre : Bytes) (srcs : List Bytes) (r : Request) (header evil : Bytes) (rest : List Bytes)
    (h : r.originHdrs = header :: evil :: rest) :
    serve c pre srcs r = serve c pre srcs { r with originHdrs := [header] } := by
  simp [serve, h, accessControl, respond]

/-- The request of a page of an allowed origin. -/
def pageRequest (origin : Bytes) : Request :=
  ⟨"GET", str "/gate-0/", [origin], ⟨true, false, true, [], [], 0, true, true⟩⟩

/-- C130 is false with a shared cache between (no Vary header): with two configured origins, the answers
to the same public, cacheable request name the one or the other, so that the one which was stored is of
no use to pages of the other.  For all configurations. -/
theorem cache_refuted {config : List Bytes} {c : Conf} (h : newHandler config = some c) (hany : ¬ AnyOrigin config)
    (a b : Bytes) (hab : a ≠ b) (ha : Configured config a) (hb : Configured config b)
    (fa : ∀ o, Field a o → o = a) (fb : ∀ o, Field b o → o = b) :
    (serve c [] [] (pageRequest a)).cached = true ∧ (serve c [] [] (pageRequest b)).cached = true ∧
    (∃ k k', (serve c [] [] (pageRequest a)).cors = some k ∧ (serve c [] [] (pageRequest b)).cors = some k' ∧
      k.origin = a ∧ k'.origin = b ∧ k.origin ≠ k'.origin) := by
  have hr : ∀ o : Bytes, route [] [] (pageRequest o).path = some .features := by intro o; show route [] [] (str "/gate-0/") = some .features; decide +kernel
  have key : ∀ o, Configured config o → (∀ o', Field o o' → o' = o) →
      (serve c [] [] (pageRequest o)) = ⟨some ⟨o, corsMethods .features, []⟩, true, .static 0⟩ := by
    intro o ho hf
    have hn : ¬ (c.any = false ∧ ∃ x ∈ (pageRequest o).originHdrs.head?, x ≠ [] ∧ allowed c x = false) := by
      rw [← forbidden_iff_aux c [] [] (pageRequest o), forbidden_iff h]
      rintro ⟨-, header, rest, h1, x, hx, hnx⟩
      simp only [pageRequest, List.cons.injEq] at h1
      rw [← h1.1] at hx
      rw [hf x hx] at hnx
      exact hnx ho
    have hc : c.any = false := by
      cases hc : c.any with
      | false => rfl
      | true => exact absurd ((origins_spec h).1.1 hc) hany
    unfold serve
    rw [if_neg hn, hr]
    simp [accessControl, pageRequest, hc, respond, act, getFeatures, Web.parseOptionalQuery, Web.M.pure, Web.noParams, Web.values, Web.del, featureLevel, corsHeaders]
  rw [key a ha fa, key b hb fb]
  exact ⟨rfl, rfl, _, _, rfl, rfl, rfl, rfl, hab⟩

/-- A configuration with two origins: a page of one is served, one of another isn't. -/
example : ∃ c, newHandler [str "https://a", str " https://b "] = some c ∧
    (serve c [] [] (pageRequest (str "https://b"))).cors.isSome = true ∧
    operations (serve c [] [] { pageRequest (str "https://c") with method := "POST", path := str "/gate-0/instance/" }) = [] ∧
    operations (serve c [] [] { pageRequest (str "https://a") with method := "POST", path := str "/gate-0/instance/" }) = [.op .instanceList] := by
  refine ⟨_, rfl, ?_, ?_, ?_⟩ <;> decide +kernel

/-! ## Paths -/

theorem longer_some (x y : Option (Bytes × Handler)) (e) (h : longer x y = some e) : x = some e ∨ y = some e := by
  unfold longer at h
  split at h
  · exact .inr h
  · exact .inl h
  · split at h
    · exact .inr h
    · exact .inl h

theorem foldl_longer_mem (l : List (Bytes × Handler)) : ∀ (x : Option (Bytes × Handler)) (e : Bytes × Handler),
    (l.map some).foldl longer x = some e → x = some e ∨ e ∈ l := by
  induction l with
  | nil => intro x e h; exact .inl h
  | cons y ys ih =>
    intro x e h
    simp only [List.map_cons, List.foldl_cons] at h
    rcases ih _ _ h with h | h
    · rcases longer_some _ _ _ h with h | h
      · exact .inl h
      · simp only [Option.some.injEq] at h; subst h; exact .inr (by simp)
    · exact .inr (by simp [h])

/-- What a match of the mux is. -/
theorem mux_some {ps : List (Bytes × Handler)} {path : Bytes} {e : Bytes × Handler} (h : mux ps path = some e) :
    e ∈ ps ∧ (e.1 = path ∨ (e.1 <+: path ∧ e.1.getLast? = some 47)) := by
  unfold mux at h
  split at h
  · next e' hf =>
    cases h
    have h1 := List.find?_some hf
    exact ⟨List.mem_of_find?_eq_some hf, .inl (by simpa using h1)⟩
  · rcases foldl_longer_mem _ _ _ h with h | h
    · cases h
    · simp only [List.mem_filter, Bool.and_eq_true, beq_iff_eq, List.isPrefixOf_iff_prefix] at h
      exact ⟨h.1, .inr ⟨h.2.2, h.2.1⟩⟩

theorem mux_exact {ps : List (Bytes × Handler)} {path : Bytes} {h : Handler} (hm : (path, h) ∈ ps)
    (hu : ∀ e ∈ ps, e.1 = path → e.2 = h) : ∃ e, mux ps path = some e ∧ e.2 = h := by
  unfold mux
  cases hf : ps.find? fun e => e.1 == path with
  | none =>
    have := List.find?_eq_none.1 hf _ hm
    simp at this
  | some e =>
    have h1 := List.find?_some hf
    exact ⟨e, rfl, hu e (List.mem_of_find?_eq_some hf) (by simpa using h1)⟩

theorem foldl_longer_max (l : List (Bytes × Handler)) (p : Bytes) (h : Handler) :
    ∀ x : Option (Bytes × Handler),
    (∀ e ∈ l, e.1.length ≤ p.length) → (∀ e ∈ l, e.1.length = p.length → e.2 = h) →
    (∀ e, x = some e → e.1.length ≤ p.length ∧ (e.1.length = p.length → e.2 = h)) →
    (p, h) ∈ l ∨ (∃ e, x = some e ∧ e.1.length = p.length) →
    ∃ e, (l.map some).foldl longer x = some e ∧ e.2 = h := by
  induction l with
  | nil =>
    intro x _ _ hx hm
    rcases hm with hm | ⟨e, rfl, hl⟩
    · cases hm
    · exact ⟨e, rfl, (hx e rfl).2 hl⟩
  | cons y ys ih =>
    intro x hl hu hx hm
    simp only [List.map_cons, List.foldl_cons]
    apply ih
    · intro e he; exact hl e (by simp [he])
    · intro e he; exact hu e (by simp [he])
    · intro e he
      rcases longer_some _ _ _ he with h1 | h1
      · exact hx e h1
      · simp only [Option.some.injEq] at h1; subst h1
        exact ⟨hl _ (by simp), hu _ (by simp)⟩
    · have hy := hl y (by simp)
      rcases hm with hm | ⟨e, rfl, he⟩
      · rcases List.mem_cons.1 hm with rfl | hm
        · right
          cases x with
          | none => exact ⟨_, rfl, rfl⟩
          | some e =>
            have := (hx e rfl).1
            simp only [longer]
            split
            · exact ⟨_, rfl, rfl⟩
            · next hlt => exact ⟨_, rfl, by omega⟩
        · exact .inl hm
      · right
        refine ⟨e, ?_, he⟩
        simp only [longer]
        exact if_neg (by omega)

theorem mux_longest {ps : List (Bytes × Handler)} {path p : Bytes} {h : Handler} (hm : (p, h) ∈ ps)
    (hx : ∀ e ∈ ps, e.1 ≠ path) (hp : p <+: path) (hl : p.getLast? = some 47)
    (hmax : ∀ e ∈ ps, e.1.getLast? = some 47 → e.1 <+: path → e.1.length < p.length ∨ e.2 = h ∧ e.1 = p) :
    ∃ e, mux ps path = some e ∧ e.2 = h := by
  unfold mux
  have hf : (ps.find? fun e => e.1 == path) = none := by
    rw [List.find?_eq_none]; intro e he; simpa using hx e he
  rw [hf]
  simp only
  apply foldl_longer_max _ p h none
  · intro e he
    simp only [List.mem_filter, Bool.and_eq_true, beq_iff_eq, List.isPrefixOf_iff_prefix] at he
    rcases hmax e he.1 he.2.1 he.2.2 with h1 | h1
    · omega
    · rw [h1.2]; exact Nat.le_refl _
  · intro e he hlen
    simp only [List.mem_filter, Bool.and_eq_true, beq_iff_eq, List.isPrefixOf_iff_prefix] at he
    rcases hmax e he.1 he.2.1 he.2.2 with h1 | h1
    · omega
    · exact h1.1
  · intro e he; cases he
  · left
    simp only [List.mem_filter, Bool.and_eq_true, beq_iff_eq, List.isPrefixOf_iff_prefix]
    exact ⟨hm, hl, hp⟩

/-- Two names before a slash, at the same place, are the same. -/
theorem slash_unique {a b : Bytes} {x y : Bytes} (ha : (47 : UInt8) ∉ a) (hb : (47 : UInt8) ∉ b) (h : a ++ 47 :: x = b ++ 47 :: y) : a = b ∧ x = y := by
  induction a generalizing b with
  | nil =>
    cases b with
    | nil => simpa using h
    | cons c cs =>
      simp only [List.nil_append, List.cons_append, List.cons.injEq] at h
      exact absurd (by simp [h.1]) hb
  | cons d ds ih =>
    cases b with
    | nil =>
      simp only [List.nil_append, List.cons_append, List.cons.injEq] at h
      exact absurd (by simp [h.1]) ha
    | cons c cs =>
      simp only [List.cons_append, List.cons.injEq] at h
      have := ih (b := cs) (fun hc => ha (by simp [hc])) (fun hc => hb (by simp [hc])) h.2
      exact ⟨by rw [h.1, this.1], this.2⟩

theorem take_instances (pre : Bytes) : (pre ++ pathInstances).take ((pre ++ pathInstances).length - 1) = pre ++ str "/gate-0/instance" := by
  have : (pre ++ pathInstances).length - 1 = pre.length + 16 := by
    rw [List.length_append]; simp only [pathInstances, pathAPI]; rw [show (str "/gate-0/" ++ str "instance/").length = 17 by decide]; omega
  rw [this, List.take_length_add_append]
  rfl

theorem mem_patterns (pre : Bytes) (srcs : List Bytes) (e : Bytes × Handler) : e ∈ patterns pre srcs ↔
    e = (pre ++ str "/gate-0/", .feature (pre ++ str "/gate-0/")) ∨
    e = (pre ++ str "/gate-0/module", .redirect (pre ++ str "/gate-0/module")) ∨
    e = (pre ++ str "/gate-0/instance", .redirect (pre ++ str "/gate-0/instance")) ∨
    e = (pre ++ str "/gate-0/instance/", .instance_ (pre ++ str "/gate-0/instance/")) ∨
    e = (pre ++ str "/gate-0/module/sha256", .redirect (pre ++ str "/gate-0/module/sha256")) ∨
    e = (pre ++ str "/gate-0/module/sha256/", .knownModule (pre ++ str "/gate-0/module/sha256/")) ∨
    e = (pre ++ str "/gate-0/module/", .static (pre ++ str "/gate-0/module/")) ∨
    (∃ s ∈ srcs, e = (pre ++ (str "/gate-0/module" ++ s), .redirect (pre ++ (str "/gate-0/module" ++ s))) ∨
      e = (pre ++ (str "/gate-0/module" ++ s ++ [47]), .moduleSource (pre ++ str "/gate-0/module") (pre ++ (str "/gate-0/module" ++ s ++ [47])) s)) := by
  unfold patterns
  rw [take_instances]
  rw [show pathModule = str "/gate-0/module" by decide, show pathAPI = str "/gate-0/" by decide,
    show pathInstances = str "/gate-0/instance/" by decide, show pathKnownModules = str "/gate-0/module/sha256/" by decide,
    List.append_assoc pre pathModuleSources, show pathModuleSources ++ knownModuleSource = str "/gate-0/module/sha256" by decide,
    show pathModuleSources = str "/gate-0/module/" by decide, show str "/" = [47] by decide]
  simp only [List.mem_append, List.mem_cons, List.mem_flatMap, List.not_mem_nil, or_false, List.append_assoc, or_assoc]
  exact or_congr Iff.rfl (or_congr Iff.rfl (or_congr Iff.rfl (or_congr Iff.rfl (or_congr Iff.rfl (or_congr Iff.rfl or_comm)))))

theorem slash_str : str "/" = [47] := by decide

/-- C131: a resource which is found is the one which the path names. -/
theorem route_sound (pre : Bytes) (srcs : List Bytes) (path : Bytes) (res : Resource) (h : route pre srcs path = some res) :
    ∃ rel, path = pre ++ rel ∧ Named pre srcs rel res := by
  unfold route at h
  split at h
  · cases h
  next e hm =>
  obtain ⟨hmem, hp⟩ := mux_some hm
  have item : ∀ (k : Bytes) (F : Bytes → Resource) (D : Resource), e.1 = pre ++ k →
      (if path.length = (pre ++ k).length then some D else some (F (path.drop (pre ++ k).length))) = some res →
      (path = pre ++ k ∧ res = D) ∨ ∃ x, x ≠ [] ∧ path = pre ++ (k ++ x) ∧ res = F x := by
    intro k F D hk hl
    have hpre : pre ++ k <+: path := by
      rcases hp with hp | hp
      · rw [← hk, hp]; exact List.prefix_refl _
      · rw [← hk]; exact hp.1
    obtain ⟨t, rfl⟩ := hpre
    split at hl
    · next hlen =>
      simp only [List.length_append] at hlen
      have : t = [] := List.length_eq_zero_iff.1 (by omega)
      subst this
      cases hl
      exact .inl ⟨by simp, rfl⟩
    · next hlen =>
      rw [List.drop_left] at hl
      cases hl
      refine .inr ⟨t, ?_, by simp, rfl⟩
      rintro rfl
      simp at hlen
  rw [mem_patterns] at hmem
  rcases hmem with rfl | rfl | rfl | rfl | rfl | rfl | rfl | ⟨s, hs, rfl | rfl⟩
  · simp only [locate] at h
    split at h
    · cases h
    · next hpath => cases h; exact ⟨_, Classical.not_not.1 hpath, .features⟩
  · simp only [locate] at h
    split at h
    · cases h
    · next hpath =>
      cases h
      rw [slash_str, List.append_assoc, show str "/gate-0/module" ++ [47] = str "/gate-0/module/" by decide]
      exact ⟨_, Classical.not_not.1 hpath, .moduleDir⟩
  · simp only [locate] at h
    split at h
    · cases h
    · next hpath =>
      cases h
      rw [slash_str, List.append_assoc, show str "/gate-0/instance" ++ [47] = str "/gate-0/instance/" by decide]
      exact ⟨_, Classical.not_not.1 hpath, .instanceDir⟩
  · simp only [locate] at h
    rcases item _ .instance_ .instances rfl h with ⟨h1, h2⟩ | ⟨x, hx, h1, h2⟩
    · subst h2; exact ⟨_, h1, .instances⟩
    · subst h2; exact ⟨_, h1, .instance_ x hx⟩
  · simp only [locate] at h
    split at h
    · cases h
    · next hpath =>
      cases h
      rw [slash_str, List.append_assoc, show str "/gate-0/module/sha256" ++ [47] = str "/gate-0/module/sha256/" by decide]
      exact ⟨_, Classical.not_not.1 hpath, .knownDir⟩
  · simp only [locate] at h
    rcases item _ .module_ .modules rfl h with ⟨h1, h2⟩ | ⟨x, hx, h1, h2⟩
    · subst h2; exact ⟨_, h1, .modules⟩
    · subst h2; exact ⟨_, h1, .module_ x hx⟩
  · simp only [locate] at h
    split at h
    · cases h
    · next hpath => cases h; exact ⟨_, Classical.not_not.1 hpath, .sources⟩
  · simp only [locate] at h
    split at h
    · cases h
    · next hpath =>
      cases h
      rw [show pre ++ (str "/gate-0/module" ++ s) ++ str "/" = pre ++ str "/gate-0/module" ++ s ++ str "/" by simp]
      exact ⟨_, Classical.not_not.1 hpath, .source0 s hs⟩
  · simp only [locate] at h
    have h' : (if path.length = (pre ++ (str "/gate-0/module" ++ s ++ [47])).length then some (.sourceDir s) else
        some (.source s (path.drop (pre ++ str "/gate-0/module").length))) = some res := h
    have hpre : pre ++ (str "/gate-0/module" ++ s ++ [47]) <+: path := by
      rcases hp with hp | hp
      · simp only at hp; rw [hp]; exact List.prefix_refl _
      · exact hp.1
    obtain ⟨t, rfl⟩ := hpre
    rw [← slash_str] at h' ⊢
    split at h'
    · next hlen =>
      simp only [List.length_append] at hlen
      have : t = [] := List.length_eq_zero_iff.1 (by omega)
      subst this
      cases h'
      exact ⟨_, by simp only [List.append_nil], .sourceDir s hs⟩
    · next hlen =>
      have ht : t ≠ [] := by rintro rfl; simp at hlen
      rw [show pre ++ (str "/gate-0/module" ++ s ++ str "/") ++ t = (pre ++ str "/gate-0/module") ++ (s ++ str "/" ++ t) by simp [List.append_assoc],
        List.drop_left] at h'
      cases h'
      exact ⟨str "/gate-0/module" ++ s ++ str "/" ++ t, by simp [List.append_assoc], .source s t hs ht⟩

theorem lit_A : str "/gate-0/" = [47, 103, 97, 116, 101, 45, 48, 47] := by decide
theorem lit_M : str "/gate-0/module" = [47, 103, 97, 116, 101, 45, 48, 47, 109, 111, 100, 117, 108, 101] := by decide
theorem lit_MS : str "/gate-0/module/" = [47, 103, 97, 116, 101, 45, 48, 47, 109, 111, 100, 117, 108, 101, 47] := by decide
theorem lit_K : str "/gate-0/module/sha256" = [47, 103, 97, 116, 101, 45, 48, 47, 109, 111, 100, 117, 108, 101, 47, 115, 104, 97, 50, 53, 54] := by decide
theorem lit_KS : str "/gate-0/module/sha256/" = [47, 103, 97, 116, 101, 45, 48, 47, 109, 111, 100, 117, 108, 101, 47, 115, 104, 97, 50, 53, 54, 47] := by decide
theorem lit_I : str "/gate-0/instance" = [47, 103, 97, 116, 101, 45, 48, 47, 105, 110, 115, 116, 97, 110, 99, 101] := by decide
theorem lit_IS : str "/gate-0/instance/" = [47, 103, 97, 116, 101, 45, 48, 47, 105, 110, 115, 116, 97, 110, 99, 101, 47] := by decide
theorem lit_H : str "sha256" = [115, 104, 97, 50, 53, 54] := by decide

def ProperName (s : Bytes) : Prop := ∃ n : Bytes, s = 47 :: n ∧ n ≠ [] ∧ (47 : UInt8) ∉ n ∧ n ≠ str "sha256"

theorem src_const {s : Bytes} (h : ProperName s) :
    str "/gate-0/module" ++ s ≠ str "/gate-0/" ∧ str "/gate-0/module" ++ s ≠ str "/gate-0/module" ∧
    str "/gate-0/module" ++ s ≠ str "/gate-0/instance" ∧ str "/gate-0/module" ++ s ≠ str "/gate-0/instance/" ∧
    str "/gate-0/module" ++ s ≠ str "/gate-0/module/sha256" ∧ str "/gate-0/module" ++ s ≠ str "/gate-0/module/sha256/" ∧
    str "/gate-0/module" ++ s ≠ str "/gate-0/module/" := by
  obtain ⟨n, rfl, hn, h47, hsh⟩ := h
  rw [lit_H] at hsh
  rw [lit_A, lit_M, lit_MS, lit_K, lit_KS, lit_I, lit_IS]
  simp only [List.cons_append, List.nil_append, ne_eq, List.cons.injEq, reduceCtorEq, and_false, not_false_iff, true_and]
  refine ⟨?_, ?_, hsh, ?_, hn⟩
  · simp
  · simp
  · rintro rfl; exact h47 (by decide)

theorem dir_const {s : Bytes} (h : ProperName s) :
    str "/gate-0/module" ++ s ++ [47] ≠ str "/gate-0/" ∧ str "/gate-0/module" ++ s ++ [47] ≠ str "/gate-0/module" ∧
    str "/gate-0/module" ++ s ++ [47] ≠ str "/gate-0/instance" ∧ str "/gate-0/module" ++ s ++ [47] ≠ str "/gate-0/instance/" ∧
    str "/gate-0/module" ++ s ++ [47] ≠ str "/gate-0/module/sha256" ∧ str "/gate-0/module" ++ s ++ [47] ≠ str "/gate-0/module/sha256/" ∧
    str "/gate-0/module" ++ s ++ [47] ≠ str "/gate-0/module/" := by
  obtain ⟨n, rfl, hn, h47, hsh⟩ := h
  rw [lit_H] at hsh
  rw [lit_A, lit_M, lit_MS, lit_K, lit_KS, lit_I, lit_IS]
  simp only [List.cons_append, List.nil_append, ne_eq, List.cons.injEq, reduceCtorEq, and_false, not_false_iff, true_and]
  refine ⟨?_, ?_, ?_, ?_, ?_⟩
  · simp
  · simp
  · intro h; have := congrArg (fun l : Bytes => l.getLast?) h; simp at this
  · intro h
    exact hsh (slash_unique (y := []) h47 (b := [115, 104, 97, 50, 53, 54]) (by decide) h).1
  · simp

theorem src_dir {s t : Bytes} (h : ProperName s) (ht : ProperName t) : str "/gate-0/module" ++ s ≠ str "/gate-0/module" ++ t ++ [47] := by
  obtain ⟨n, rfl, hn, h47, hsh⟩ := h
  obtain ⟨m, rfl, -⟩ := ht
  rw [List.append_assoc]
  simp only [ne_eq, List.append_cancel_left_eq, List.cons_append, List.cons.injEq, true_and]
  rintro rfl
  exact h47 (by simp)

set_option maxHeartbeats 1000000 in
/-- Uniqueness of the mux's patterns. -/
theorem patterns_unique {pre : Bytes} {srcs : List Bytes} (hs : Proper srcs) {e f : Bytes × Handler}
    (he : e ∈ patterns pre srcs) (hf : f ∈ patterns pre srcs) (h : e.1 = f.1) : e.2 = f.2 := by
  have hp : ∀ s ∈ srcs, ProperName s := hs
  rw [mem_patterns] at he hf
  rcases he with rfl | rfl | rfl | rfl | rfl | rfl | rfl | ⟨s, hm, rfl | rfl⟩ <;>
  rcases hf with rfl | rfl | rfl | rfl | rfl | rfl | rfl | ⟨s', hm', rfl | rfl⟩ <;>
  simp only [List.append_cancel_left_eq] at h <;>
  first
  | rfl
  | (exact absurd h (by decide))
  | (have h1 := src_const (hp _ hm); have h2 := dir_const (hp _ hm); simp only [h1, h2] at h; done)
  | (have h1 := src_const (hp _ hm'); have h2 := dir_const (hp _ hm'); have := h.symm; simp only [h1, h2] at this; done)
  | (exact absurd h (src_dir (hp _ hm) (hp _ hm')))
  | (exact absurd h.symm (src_dir (hp _ hm') (hp _ hm)))
  | (subst h; rfl)
  | (have := List.append_cancel_left (List.append_cancel_right h); subst this; rfl)

theorem slashfree_prefix {n a t k : Bytes} (hn : (47 : UInt8) ∉ n) (h : n ++ t = a ++ 47 :: k) : n.length ≤ a.length := by
  induction n generalizing a with
  | nil => simp
  | cons x xs ih =>
    cases a with
    | nil =>
      simp only [List.cons_append, List.nil_append, List.cons.injEq] at h
      exact absurd (by simp [h.1]) hn
    | cons y ys =>
      simp only [List.cons_append, List.cons.injEq] at h
      have := ih (fun hc => hn (by simp [hc])) h.2
      simp only [List.length_cons]; omega

/-- The handler of a path which isn't a pattern. -/
theorem route_item {pre : Bytes} {srcs : List Bytes} {path p : Bytes} {h : Handler} (hm : (p, h) ∈ patterns pre srcs)
    (hp : p <+: path) (hlt : p.length < path.length) (hl : p.getLast? = some 47)
    (hall : ∀ e ∈ patterns pre srcs, e.1 <+: path → e.1.length < p.length ∨ e.2 = h ∧ e.1 = p) :
    route pre srcs path = locate path h := by
  obtain ⟨e, he, hh⟩ := mux_longest hm (path := path) (by
    intro e he hc
    rcases hall e he (by rw [hc]; exact List.prefix_refl _) with h1 | h1
    · rw [hc] at h1; omega
    · rw [← h1.2, hc] at hlt; omega) hp hl (fun e he _ hpre => hall e he hpre)
  unfold route
  rw [he]
  simp only [hh]

theorem route_exact {pre : Bytes} {srcs : List Bytes} (hs : Proper srcs) {path : Bytes} {h : Handler} (hm : (path, h) ∈ patterns pre srcs) :
    route pre srcs path = locate path h := by
  obtain ⟨e, he, hh⟩ := mux_exact hm (fun e he hp => patterns_unique hs he hm hp)
  unfold route
  rw [he]
  simp only [hh]

theorem prefix_pre {pre a b : Bytes} (h : pre ++ a <+: pre ++ b) : ∃ t, a ++ t = b := by
  obtain ⟨t, ht⟩ := h
  exact ⟨t, by rw [List.append_assoc] at ht; exact List.append_cancel_left ht⟩

theorem last_append (a b : Bytes) (h : b.getLast? = some 47) : (a ++ b).getLast? = some 47 := by
  cases b with
  | nil => cases h
  | cons x xs => rw [List.getLast?_append, h]; rfl

theorem route_module (pre : Bytes) (srcs : List Bytes) (hs : Proper srcs) (k : Bytes) (hk : k ≠ []) :
    route pre srcs (pre ++ (str "/gate-0/module/sha256/" ++ k)) = some (.module_ k) := by
  have hkl : 0 < k.length := List.length_pos_iff.2 hk
  rw [route_item (p := pre ++ str "/gate-0/module/sha256/") (h := .knownModule (pre ++ str "/gate-0/module/sha256/"))
    ((mem_patterns _ _ _).2 (by simp)) ⟨k, by simp⟩ (by simp; omega) (last_append _ _ (by decide))]
  · simp only [locate]
    rw [if_neg (by simp [hk]), ← List.append_assoc, List.drop_left]
  · intro e he hpre
    rw [mem_patterns] at he
    rcases he with rfl | rfl | rfl | rfl | rfl | rfl | rfl | ⟨s, hm, rfl | rfl⟩ <;>
      simp only [List.length_append] <;> obtain ⟨t, ht⟩ := prefix_pre hpre
    · left; have : (str "/gate-0/").length < (str "/gate-0/module/sha256/").length := by decide
      omega
    · left; have : (str "/gate-0/module").length < (str "/gate-0/module/sha256/").length := by decide
      omega
    · rw [lit_I, lit_KS] at ht; simp at ht
    · rw [lit_IS, lit_KS] at ht; simp at ht
    · left; have : (str "/gate-0/module/sha256").length < (str "/gate-0/module/sha256/").length := by decide
      omega
    · right; exact ⟨trivial, trivial⟩
    · left; have : (str "/gate-0/module/").length < (str "/gate-0/module/sha256/").length := by decide
      omega
    · left
      obtain ⟨n, rfl, -, h47, -⟩ := hs s hm
      have : n ++ t = [115, 104, 97, 50, 53, 54] ++ 47 :: k := by
        rw [lit_M, lit_KS] at ht; simpa using ht
      have := slashfree_prefix h47 this
      rw [lit_M, lit_KS]; simp only [List.length_cons, List.length_nil] at this ⊢; omega
    · exfalso
      obtain ⟨n, rfl, -, h47, hsh⟩ := hs s hm
      have : n ++ 47 :: t = [115, 104, 97, 50, 53, 54] ++ 47 :: k := by
        rw [lit_M, lit_KS] at ht; simpa using ht
      rw [lit_H] at hsh
      exact hsh (slash_unique h47 (by decide) this).1

theorem route_instance (pre : Bytes) (srcs : List Bytes) (hs : Proper srcs) (k : Bytes) (hk : k ≠ []) :
    route pre srcs (pre ++ (str "/gate-0/instance/" ++ k)) = some (.instance_ k) := by
  have hkl : 0 < k.length := List.length_pos_iff.2 hk
  rw [route_item (p := pre ++ str "/gate-0/instance/") (h := .instance_ (pre ++ str "/gate-0/instance/"))
    ((mem_patterns _ _ _).2 (by simp)) ⟨k, by simp⟩ (by simp; omega) (last_append _ _ (by decide))]
  · simp only [locate]
    rw [if_neg (by simp [hk]), ← List.append_assoc, List.drop_left]
  · intro e he hpre
    rw [mem_patterns] at he
    rcases he with rfl | rfl | rfl | rfl | rfl | rfl | rfl | ⟨s, hm, rfl | rfl⟩ <;>
      simp only [List.length_append] <;> obtain ⟨t, ht⟩ := prefix_pre hpre
    · left; have : (str "/gate-0/").length < (str "/gate-0/instance/").length := by decide
      omega
    · rw [lit_IS, lit_M] at ht; simp at ht
    · left; have : (str "/gate-0/instance").length < (str "/gate-0/instance/").length := by decide
      omega
    · right; exact ⟨trivial, trivial⟩
    · rw [lit_IS, lit_K] at ht; simp at ht
    · rw [lit_IS, lit_KS] at ht; simp at ht
    · rw [lit_IS, lit_MS] at ht; simp at ht
    · rw [lit_IS, lit_M] at ht; simp at ht
    · rw [lit_IS, lit_M] at ht; simp at ht

theorem route_source (pre : Bytes) (srcs : List Bytes) (hs : Proper srcs) (s k : Bytes) (hm : s ∈ srcs) (hk : k ≠ []) :
    route pre srcs (pre ++ (str "/gate-0/module" ++ s ++ str "/" ++ k)) = some (.source s (s ++ str "/" ++ k)) := by
  have hkl : 0 < k.length := List.length_pos_iff.2 hk
  rw [slash_str]
  obtain ⟨n, rfl, hn, h47, hsh⟩ := hs s hm
  rw [lit_H] at hsh
  rw [route_item (p := pre ++ (str "/gate-0/module" ++ 47 :: n ++ [47]))
    (h := .moduleSource (pre ++ str "/gate-0/module") (pre ++ (str "/gate-0/module" ++ 47 :: n ++ [47])) (47 :: n))
    ((mem_patterns _ _ _).2 (by
      iterate 7 right
      exact ⟨_, hm, .inr rfl⟩)) ⟨k, by simp⟩ (by simp; omega) (last_append _ _ (last_append _ _ rfl))]
  · simp only [locate]
    rw [if_neg (by simp only [List.length_append]; omega)]
    rw [show pre ++ (str "/gate-0/module" ++ 47 :: n ++ [47] ++ k) = (pre ++ str "/gate-0/module") ++ (47 :: n ++ [47] ++ k) by simp, List.drop_left]
  · intro e he hpre
    rw [mem_patterns] at he
    rcases he with rfl | rfl | rfl | rfl | rfl | rfl | rfl | ⟨s', hm', rfl | rfl⟩ <;>
      simp only [List.length_append] <;> obtain ⟨t, ht⟩ := prefix_pre hpre
    · left; have : (str "/gate-0/").length < (str "/gate-0/module").length := by decide
      omega
    · left; simp only [List.length_cons]; omega
    · rw [lit_I, lit_M] at ht; simp at ht
    · rw [lit_IS, lit_M] at ht; simp at ht
    · left
      have : [115, 104, 97, 50, 53, 54] ++ t = n ++ 47 :: k := by
        rw [lit_M, lit_K] at ht; simpa using ht
      have := slashfree_prefix (by decide) this
      rw [lit_M, lit_K]; simp only [List.length_cons, List.length_nil] at this ⊢; omega
    · exfalso
      have : n ++ 47 :: k = [115, 104, 97, 50, 53, 54] ++ 47 :: t := by
        rw [lit_M, lit_KS] at ht; simpa using ht.symm
      exact hsh (slash_unique h47 (by decide) this).1
    · left; have : (str "/gate-0/module/").length = (str "/gate-0/module").length + 1 := by decide
      simp only [List.length_cons, List.length_nil]; omega
    · left
      obtain ⟨n', rfl, -, h47', -⟩ := hs s' hm'
      have : n' ++ t = n ++ 47 :: k := by simpa using ht
      have := slashfree_prefix h47' this
      simp only [List.length_cons, List.length_nil]; omega
    · right
      obtain ⟨n', rfl, -, h47', -⟩ := hs s' hm'
      have : n' ++ 47 :: t = n ++ 47 :: k := by simpa using ht
      have := (slash_unique h47' h47 this).1
      subst this
      exact ⟨rfl, rfl⟩

/-- C131: a path which names a resource leads to it. -/
theorem route_complete (pre : Bytes) (srcs : List Bytes) (hs : Proper srcs) (rel : Bytes) (res : Resource) (h : Named pre srcs rel res) :
    route pre srcs (pre ++ rel) = some res := by
  have redir : ∀ k : Bytes, (pre ++ k, Handler.redirect (pre ++ k)) ∈ patterns pre srcs →
      route pre srcs (pre ++ k) = some (.redirect (pre ++ (k ++ [47]))) := by
    intro k hm
    rw [route_exact hs hm]
    simp [locate, slash_str]
  cases h with
  | features => rw [route_exact hs ((mem_patterns _ _ _).2 (.inl rfl))]; simp [locate]
  | moduleDir => rw [redir _ ((mem_patterns _ _ _).2 (by simp))]; rfl
  | sources => rw [route_exact hs ((mem_patterns _ _ (_, .static _)).2 (.inr (.inr (.inr (.inr (.inr (.inr (.inl rfl))))))))]; simp [locate]
  | knownDir => rw [redir _ ((mem_patterns _ _ _).2 (by simp))]; rfl
  | modules => rw [route_exact hs ((mem_patterns _ _ (_, .knownModule _)).2 (.inr (.inr (.inr (.inr (.inr (.inl rfl)))))))]; simp [locate]
  | module_ k hk => exact route_module pre srcs hs k hk
  | instanceDir => rw [redir _ ((mem_patterns _ _ _).2 (by simp))]; rfl
  | instances => rw [route_exact hs ((mem_patterns _ _ (_, .instance_ _)).2 (.inr (.inr (.inr (.inl rfl)))))]; simp [locate]
  | instance_ k hk => exact route_instance pre srcs hs k hk
  | source0 s hm =>
    rw [redir _ ((mem_patterns _ _ _).2 (.inr (.inr (.inr (.inr (.inr (.inr (.inr ⟨s, hm, .inl rfl⟩)))))))), slash_str]
    simp only [List.append_assoc]
  | sourceDir s hm =>
    rw [slash_str]
    rw [route_exact hs ((mem_patterns _ _ (_, .moduleSource _ _ s)).2 (.inr (.inr (.inr (.inr (.inr (.inr (.inr ⟨s, hm, .inr rfl⟩))))))))]
    simp [locate]
  | source s k hm hk => exact route_source pre srcs hs s k hm hk

/-- C131: the whole of routing. -/
theorem route_iff (pre : Bytes) (srcs : List Bytes) (hs : Proper srcs) (path : Bytes) (res : Resource) :
    route pre srcs path = some res ↔ ∃ rel, path = pre ++ rel ∧ Named pre srcs rel res := by
  constructor
  · exact route_sound pre srcs path res
  · rintro ⟨rel, rfl, h⟩; exact route_complete pre srcs hs rel res h

example : Proper [str "/http", str "/ipfs"] := by
  intro s hs
  simp only [List.mem_cons, List.not_mem_nil, or_false] at hs
  rcases hs with rfl | rfl
  · exact ⟨str "http", by decide, by decide, by decide, by decide⟩
  · exact ⟨str "ipfs", by decide, by decide, by decide, by decide⟩

example : route (str "/p") [str "/http", str "/ipfs"] (str "/p/gate-0/module/http/a.example/x") =
    some (.source (str "/http") (str "/http/a.example/x")) := by decide +kernel

/-! ## Methods -/

/-- The methods which a resource has, by what the API documents about it. -/
def methodsOf : Resource → List String
  | .features | .redirect _ | .sources | .sourceDir _ => ["GET", "HEAD", "OPTIONS"]
  | .modules | .source _ _ | .instances | .instance_ _ => ["GET", "HEAD", "OPTIONS", "POST"]
  | .module_ _ => ["GET", "HEAD", "OPTIONS", "POST", "PUT"]

/-- C131: every other method is answered with "method not allowed". -/
theorem supported_iff (r : Resource) (m : String) : Supported r m ↔ m ∈ methodsOf r := by
  unfold Supported act methodsOf
  by_cases h1 : m = "GET" <;> by_cases h2 : m = "HEAD" <;> by_cases h3 : m = "OPTIONS" <;> by_cases h4 : m = "POST" <;> by_cases h5 : m = "PUT" <;>
    cases r <;> simp_all

/-- Requests with other methods than the resource's, requests for other paths than those of resources, and
OPTIONS requests do nothing. -/
theorem no_effect (c : Conf) (pre : Bytes) (srcs : List Bytes) (r : Request)
    (h : ∀ res, route pre srcs r.path = some res → r.method = "OPTIONS" ∨ r.method ∉ methodsOf res) :
    operations (serve c pre srcs r) = [] := by
  unfold serve
  split
  · rfl
  · cases hr : route pre srcs r.path with
    | none => rfl
    | some res =>
      rcases h res hr with h | h
      · simp only [respond, h, operations]
        cases res <;> simp [act]
      · rw [← supported_iff, Supported, Classical.not_not] at h
        simp [respond, h, operations]

/-- C131: what a browser is told about methods is right, for all resources but the instance directory. -/
theorem cors_methods_partial (r : Resource) (h : r ≠ .instances) (m : String) : m ∈ corsMethods r ↔ Supported r m := by
  rw [supported_iff]
  unfold corsMethods allowHeader methodsOf
  cases r <;> simp at h ⊢

/-- C131 is false of the instance directory: listing the instances needs a POST request, which no browser
makes for a page of another origin, as the answer to its OPTIONS request doesn't name POST.  For all
configurations and allowed origins. -/
theorem instance_list_cors_refuted (c : Conf) (pre : Bytes) (srcs : List Bytes) (hs : Proper srcs) (r : Request) (k : Cors)
    (hp : r.path = pre ++ str "/gate-0/instance/") (hk : (serve c pre srcs r).cors = some k) :
    Supported .instances "POST" ∧ "POST" ∉ k.methods := by
  refine ⟨by simp [supported_iff, methodsOf], ?_⟩
  have hr : route pre srcs r.path = some .instances := by rw [hp]; exact route_complete pre srcs hs _ _ .instances
  unfold serve at hk
  split at hk
  · cases hk
  · rw [hr] at hk
    simp only [accessControl] at hk
    split at hk
    · cases hk
    · cases hk
      simp [corsMethods, allowHeader]

/-- C131: the Allow header names supported methods only, -/
theorem allow_sound (r : Resource) (m : String) (h : m ∈ allowHeader r) : Supported r m := by
  rw [supported_iff]
  revert h
  unfold allowHeader methodsOf
  cases r <;> simp <;> intro h <;> simp [h] <;> rcases h with h | h <;> simp [h]

/-- but never GET and HEAD, which all resources support (C131 is false of it). -/
theorem allow_refuted (r : Resource) : Supported r "GET" ∧ "GET" ∉ allowHeader r ∧ Supported r "HEAD" ∧ "HEAD" ∉ allowHeader r := by
  rw [supported_iff, supported_iff]
  unfold allowHeader methodsOf
  cases r <;> simp

/-- C131: the answers to feature queries: all is given if "*" is asked for, else scopes if they are asked
for; an unknown feature or another parameter is an error. -/
theorem featureLevel_spec (fs : List String) : ∀ l : Nat, l ≤ 2 →
    featureLevel fs l =
      if ∃ f ∈ fs, f ≠ "scope" ∧ f ≠ "*" then none
      else some (if l = 2 ∨ "*" ∈ fs then 2 else if l = 1 ∨ "scope" ∈ fs then 1 else 0) := by
  induction fs with
  | nil => intro l hl; simp only [featureLevel]; have : l = 0 ∨ l = 1 ∨ l = 2 := by omega
           rcases this with rfl | rfl | rfl <;> simp
  | cons f fs ih =>
    intro l hl
    simp only [featureLevel]
    by_cases h1 : f = "scope"
    · subst h1
      rw [if_pos rfl, ih _ (by split <;> omega)]
      have : l = 0 ∨ l = 1 ∨ l = 2 := by omega
      rcases this with rfl | rfl | rfl <;> simp
    · rw [if_neg h1]
      by_cases h2 : f = "*"
      · subst h2
        rw [if_pos rfl, ih _ (by omega)]
        simp
      · rw [if_neg h2, if_pos ⟨f, by simp, h1, h2⟩]

theorem features_answer (r : Web.Req) (hraw : r.raw = true) (hp : r.parses = true) (l : Nat) :
    getFeatures r = ([], some l) ↔
      (∀ kv ∈ r.query, kv.1 = "feature" ∧ (kv.2 = "scope" ∨ kv.2 = "*")) ∧ (r.query ≠ [] → r.acceptJSON = true) ∧
      l = (if ("feature", "*") ∈ r.query then 2 else if ("feature", "scope") ∈ r.query then 1 else 0) := by
  have hv : ∀ v : String, v ∈ Web.values r.query "feature" ↔ ("feature", v) ∈ r.query := fun v => Web.mem_values _ _ _
  unfold getFeatures
  simp only [Web.parseOptionalQuery, hraw, if_true, Web.parseQuery, hp, Web.M.pure, Web.noParams]
  by_cases hd : Web.del r.query "feature" = []
  · have hall : ∀ kv ∈ r.query, kv.1 = "feature" := by
      intro kv hkv
      have := List.filter_eq_nil_iff.1 hd kv hkv
      simpa using this
    rw [hd]
    simp only [List.length_nil, Nat.lt_irrefl, if_false]
    rw [featureLevel_spec _ 0 (by omega)]
    have hlen : 0 < (Web.values r.query "feature").length ↔ r.query ≠ [] := by
      rw [List.length_pos_iff]
      apply not_congr
      constructor
      · intro h
        cases hq : r.query with
        | nil => rfl
        | cons kv rest =>
          have : kv.2 ∈ Web.values r.query "feature" := (hv kv.2).2 (by
            have := hall kv (by simp [hq]); rw [← this, hq]; simp)
          rw [h] at this; cases this
      · intro h; rw [h]; rfl
    simp only [hlen, hv, show ¬ (0 = 1) by omega, show ¬ (0 = 2) by omega, false_or]
    by_cases ha : r.query ≠ [] ∧ r.acceptJSON = false
    · rw [if_pos ha]
      simp only [Prod.mk.injEq, reduceCtorEq, and_false, List.cons_ne_nil, false_iff]
      rintro ⟨-, h2, -⟩
      rw [h2 ha.1] at ha; cases ha.2
    · rw [if_neg ha]
      by_cases hf : ∃ f ∈ Web.values r.query "feature", f ≠ "scope" ∧ f ≠ "*"
      · rw [if_pos hf]
        simp only [Prod.mk.injEq, reduceCtorEq, and_false, List.cons_ne_nil, false_iff]
        rintro ⟨h1, -⟩
        obtain ⟨f, hf, h2, h3⟩ := hf
        rcases (h1 _ ((hv f).1 hf)).2 with h | h
        · exact h2 h
        · exact h3 h
      · rw [if_neg hf]
        simp only [Prod.mk.injEq, true_and, Option.some.injEq]
        constructor
        · intro h
          refine ⟨?_, ?_, h.symm⟩
          · rintro ⟨k, v⟩ hkv
            have hk := hall _ hkv
            simp only at hk
            subst hk
            refine ⟨rfl, Classical.byContradiction fun hc => hf ⟨v, (hv v).2 hkv, fun h => hc (.inl h), fun h => hc (.inr h)⟩⟩
          · intro hq
            cases hj : r.acceptJSON with
            | true => rfl
            | false => exact absurd ⟨hq, hj⟩ ha
        · rintro ⟨-, -, h⟩; exact h.symm
  · rw [if_pos (List.length_pos_iff.2 hd)]
    simp only [Web.fail, Prod.mk.injEq, reduceCtorEq, and_false, List.cons_ne_nil, false_iff]
    rintro ⟨h1, -⟩
    apply hd
    apply List.filter_eq_nil_iff.2
    intro kv hkv
    simp [(h1 kv hkv).1]

example : getFeatures ⟨true, true, true, [("feature", "scope"), ("feature", "*")], [], 0, true, true⟩ = ([], some 2) := by decide

/-- C131: wherever operations are done for requests, browsers are told that requests of other origins may be authorized;
and where content is sent (modules, debug requests, input of calls), that they may tell its type. -/
theorem cors_headers (res : Resource) (m : String) (h) (ha : act res m = .handle h) :
    "Authorization" ∈ corsHeaders res ∧
    (∀ k, res = .module_ k → "Content-Type" ∈ corsHeaders res) ∧ ∀ i, res = .instance_ i → "Content-Type" ∈ corsHeaders res := by
  cases res <;> simp [act, corsHeaders] at ha ⊢
  all_goals (repeat' split at ha) <;> simp at ha

/-- C131: the listings which have no content are given without doing anything, and the static one isn't given for a query
or to those who don't accept it. -/
theorem listing (c : Conf) (pre : Bytes) (srcs : List Bytes) (r : Request) (res : Resource) (hr : route pre srcs r.path = some res)
    (hm : r.method = "GET" ∨ r.method = "HEAD") (hf : (serve c pre srcs r).body ≠ .forbidden) :
    ((res = .modules ∨ res = .instances ∨ ∃ s, res = .sourceDir s) →
      (serve c pre srcs r).body = .noContent ∧ operations (serve c pre srcs r) = []) ∧
    (res = .sources → ((serve c pre srcs r).body = .static 0 ↔ r.parts.raw = false ∧ r.parts.acceptJSON = true) ∧
      operations (serve c pre srcs r) = []) := by
  have hs : serve c pre srcs r = ⟨accessControl c r res, (respond res r).1, (respond res r).2⟩ := by
    unfold serve at hf ⊢
    split
    · rename_i h; rw [if_pos h] at hf; exact absurd rfl hf
    · rw [hr]
  rw [hs]
  refine ⟨?_, ?_⟩
  · rintro (rfl | rfl | ⟨s, rfl⟩) <;> simp [respond, act, hm, operations]
  · rintro rfl
    simp only [respond, act, hm, if_true]
    cases r.parts.raw <;> cases r.parts.acceptJSON <;> simp [operations]

end Gate.WebRoute
