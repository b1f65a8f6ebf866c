import Verif.Client
import Verif.WebRouteProps
/-
C148: the commands of the `gate` program do at the server what they say.
-/
namespace Gate.Client
open Gate.Auth (str)
open Gate.Web (Op Effect)
open Gate.WebRoute (Resource)

/-! ## Escaping: what is sent is what is received -/

theorem unhex_hexDigit : ∀ n : Fin 16, unhex (hexDigit n.val) = some n.val := by decide

theorem hexDigit_alnum : ∀ n : Fin 16, alnum (hexDigit n.val) = true := by decide

theorem byte_split (c : UInt8) : (16 * (c.toNat / 16) + c.toNat % 16).toUInt8 = c := by
  have : 16 * (c.toNat / 16) + c.toNat % 16 = c.toNat := by omega
  rw [this]
  exact UInt8.ofNat_toNat

theorem percent_escaped (m : Mode) : shouldEscape m 37 = true := by cases m <;> decide
theorem plus_escaped : shouldEscape .query 43 = true := by decide

theorem unescape_plain (m : Mode) (c : UInt8) (cs : Bytes) (h : c ≠ 37) :
    unescape m (c :: cs) = (unescape m cs).map ((if m = .query ∧ c = 43 then 32 else c) :: ·) := by
  rw [unescape]
  · intro a b cs' h1; exact fun _ => h h1
  · exact h

/-- C148: percent-encoding loses nothing. -/
theorem unescape_escape (m : Mode) (b : Bytes) : unescape m (escape m b) = some b := by
  induction b with
  | nil => rfl
  | cons c cs ih =>
    simp only [escape]
    by_cases h1 : m = .query ∧ c = 32
    · rw [if_pos h1, List.singleton_append, unescape_plain _ _ _ (by decide), ih]
      simp [h1.1, h1.2]
    · rw [if_neg h1]
      by_cases h2 : shouldEscape m c = true
      · rw [if_pos h2]
        simp only [List.cons_append, List.nil_append, unescape]
        have e1 := unhex_hexDigit ⟨c.toNat / 16, by have := c.toNat_lt; omega⟩
        have e2 := unhex_hexDigit ⟨c.toNat % 16, by omega⟩
        simp only at e1 e2
        rw [e1, e2]
        simp only
        rw [ih, byte_split]
        rfl
      · rw [if_neg h2, List.singleton_append, unescape_plain, ih]
        · have : ¬ (m = .query ∧ c = 43) := by
            rintro ⟨rfl, rfl⟩; exact h2 plus_escaped
          rw [if_neg this]; rfl
        · rintro rfl; exact h2 (percent_escaped m)

/-- Bytes which `escape` puts out. -/
def Safe (m : Mode) (c : UInt8) : Prop := c = 37 ∨ alnum c = true ∨ (m = .query ∧ c = 43) ∨ shouldEscape m c = false

theorem escape_safe (m : Mode) (b : Bytes) : ∀ c ∈ escape m b, Safe m c := by
  induction b with
  | nil => intro c h; cases h
  | cons x xs ih =>
    intro c h
    simp only [escape, List.mem_append] at h
    rcases h with h | h
    · split at h
      · next h1 => simp at h; subst h; exact .inr (.inr (.inl ⟨h1.1, rfl⟩))
      · split at h
        · simp only [List.mem_cons, List.not_mem_nil, or_false] at h
          rcases h with rfl | rfl | rfl
          · exact .inl rfl
          · exact .inr (.inl (hexDigit_alnum ⟨x.toNat / 16, by have := x.toNat_lt; omega⟩))
          · exact .inr (.inl (hexDigit_alnum ⟨x.toNat % 16, by omega⟩))
        · next h2 => simp at h; subst h; exact .inr (.inr (.inr (by simpa using h2)))
    · exact ih c h

theorem safe_query_byte : ∀ n : Fin 256, (alnum n.val.toUInt8 = true ∨ n.val = 37 ∨ n.val = 43 ∨ shouldEscape .query n.val.toUInt8 = false) →
    n.val ≠ 38 ∧ n.val ≠ 59 ∧ n.val ≠ 61 ∧ n.val ≠ 32 ∧ n.val ≠ 127 ∧ 32 ≤ n.val ∧ n.val ≠ 35 ∧ n.val ≠ 63 := by decide +kernel

theorem safe_path_byte : ∀ n : Fin 256, (alnum n.val.toUInt8 = true ∨ n.val = 37 ∨ shouldEscape .path n.val.toUInt8 = false ∨
      [33, 36, 38, 39, 40, 41, 42, 43, 44, 59, 61, 58, 64, 91, 93, 37].contains n.val) →
    n.val ≠ 32 ∧ n.val ≠ 127 ∧ 32 ≤ n.val ∧ n.val ≠ 35 ∧ n.val ≠ 63 := by decide +kernel

theorem safe_query {c : UInt8} (h : Safe .query c) : c ≠ 38 ∧ c ≠ 59 ∧ c ≠ 61 ∧ c ≠ 32 ∧ c ≠ 127 ∧ ¬ c < 32 := by
  have hc : c.toNat.toUInt8 = c := UInt8.ofNat_toNat
  have := safe_query_byte ⟨c.toNat, c.toNat_lt⟩ (by
    simp only [hc]
    rcases h with rfl | h | ⟨-, rfl⟩ | h
    · exact .inr (.inl rfl)
    · exact .inl h
    · exact .inr (.inr (.inl rfl))
    · exact .inr (.inr (.inr h)))
  simp only at this
  refine ⟨?_, ?_, ?_, ?_, ?_, ?_⟩
  · rintro rfl; exact this.1 rfl
  · rintro rfl; exact this.2.1 rfl
  · rintro rfl; exact this.2.2.1 rfl
  · rintro rfl; exact this.2.2.2.1 rfl
  · rintro rfl; exact this.2.2.2.2.1 rfl
  · intro h; have : c.toNat < 32 := h; omega

theorem safe_path {c : UInt8} (h : Safe .path c ∨ c ∈ ([33, 36, 38, 39, 40, 41, 42, 43, 44, 59, 61, 58, 64, 91, 93, 37] : Bytes)) :
    c ≠ 63 ∧ c ≠ 32 ∧ c ≠ 127 ∧ ¬ c < 32 := by
  have hc : c.toNat.toUInt8 = c := UInt8.ofNat_toNat
  have := safe_path_byte ⟨c.toNat, c.toNat_lt⟩ (by
    simp only [hc]
    rcases h with (rfl | h | ⟨h, -⟩ | h) | h
    · exact .inr (.inl rfl)
    · exact .inl h
    · cases h
    · exact .inr (.inr (.inl h))
    · right; right; right
      simp only [List.mem_cons, List.not_mem_nil, or_false] at h
      rcases h with rfl | rfl | rfl | rfl | rfl | rfl | rfl | rfl | rfl | rfl | rfl | rfl | rfl | rfl | rfl | rfl <;> decide)
  simp only at this
  refine ⟨?_, ?_, ?_, ?_⟩
  · rintro rfl; exact this.2.2.2.2 rfl
  · rintro rfl; exact this.1 rfl
  · rintro rfl; exact this.2.1 rfl
  · intro h; have : c.toNat < 32 := h; omega

theorem cut_of_not_mem (sep : UInt8) (a b : Bytes) (h : sep ∉ a) : cut sep (a ++ sep :: b) = (a, b) := by
  induction a with
  | nil => simp [cut]
  | cons x xs ih =>
    have hx : x ≠ sep := fun e => h (by simp [e])
    simp only [List.cons_append, cut, hx, if_false]
    rw [ih fun hm => h (by simp [hm])]

theorem cut_none (sep : UInt8) (a : Bytes) (h : sep ∉ a) : cut sep a = (a, []) := by
  induction a with
  | nil => rfl
  | cons x xs ih =>
    have hx : x ≠ sep := fun e => h (by simp [e])
    simp only [cut, hx, if_false]
    rw [ih fun hm => h (by simp [hm])]

theorem split_ne_nil (sep : UInt8 → Bool) (b : Bytes) : split sep b ≠ [] := by
  cases b with
  | nil => simp [split]
  | cons c cs =>
    simp only [split]
    split
    · simp
    · split <;> simp

theorem split_none (sep : UInt8 → Bool) (a : Bytes) (h : ∀ c ∈ a, sep c = false) : split sep a = [a] := by
  induction a with
  | nil => rfl
  | cons x xs ih =>
    simp only [split]
    rw [ih fun c hc => h c (by simp [hc])]
    simp [h x (by simp)]

theorem split_cons (sep : UInt8 → Bool) (a b : Bytes) (x : UInt8) (h : ∀ c ∈ a, sep c = false) (hx : sep x = true) :
    split sep (a ++ x :: b) = a :: split sep b := by
  induction a with
  | nil =>
    simp only [List.nil_append, split]
    split
    · next hs => exact absurd hs (split_ne_nil sep b)
    · next hs => rw [if_pos hx, hs]
  | cons y ys ih =>
    simp only [List.cons_append, split]
    rw [ih fun c hc => h c (by simp [hc])]
    simp [h y (by simp)]

theorem pair_safe (kv : Bytes × Bytes) : ∀ c ∈ escape .query kv.1 ++ 61 :: escape .query kv.2, c = 61 ∨ Safe .query c := by
  intro c hc
  simp only [List.mem_append, List.mem_cons] at hc
  rcases hc with h | h | h
  · exact .inr (escape_safe _ _ c h)
  · exact .inl h
  · exact .inr (escape_safe _ _ c h)

theorem parsePair_encode (kv : Bytes × Bytes) : parsePair (escape .query kv.1 ++ 61 :: escape .query kv.2) = some kv := by
  unfold parsePair
  rw [cut_of_not_mem _ _ _ (fun h => (safe_query (escape_safe _ _ _ h)).2.2.1 rfl)]
  simp [unescape_escape]

theorem pair_nosep (kv : Bytes × Bytes) : ∀ c ∈ escape .query kv.1 ++ 61 :: escape .query kv.2, (c == 38 || c == 59) = false := by
  intro c hc
  rcases pair_safe kv c hc with rfl | h
  · decide
  · have := safe_query h; simp [this.1, this.2.1]

/-- C148: the server gets the parameters as the client has them, for all keys and values. -/
theorem parseQuery_encode (ps : List (Bytes × Bytes)) : parseQuery (encode ps) = (ps, true) := by
  unfold parseQuery
  induction ps with
  | nil => rfl
  | cons kv rest ih =>
    have hne : escape .query kv.1 ++ 61 :: escape .query kv.2 ≠ [] := by simp
    cases rest with
    | nil =>
      simp only [encode]
      rw [split_none _ _ (pair_nosep kv)]
      simp only [parsePairs, hne, if_false, parsePair_encode]
    | cons kv' rest' =>
      simp only [encode]
      rw [split_cons _ _ _ 38 (pair_nosep kv) rfl]
      simp only [parsePairs, hne, if_false, parsePair_encode]
      rw [ih]

theorem encode_ok (ps : List (Bytes × Bytes)) : ∀ c ∈ encode ps, c ≠ 32 ∧ c ≠ 127 ∧ ¬ c < 32 := by
  have pair : ∀ kv : Bytes × Bytes, ∀ c ∈ escape .query kv.1 ++ 61 :: escape .query kv.2, c ≠ 32 ∧ c ≠ 127 ∧ ¬ c < 32 := by
    intro kv c hc
    rcases pair_safe kv c hc with rfl | h
    · decide
    · exact (safe_query h).2.2.2
  induction ps with
  | nil => intro c h; cases h
  | cons kv rest ih =>
    cases rest with
    | nil => exact pair kv
    | cons kv' rest' =>
      intro c hc
      simp only [encode] at hc
      rcases List.mem_append.1 hc with h | h
      · exact pair kv c h
      · rcases List.mem_cons.1 h with rfl | h
        · decide
        · exact ih c h

theorem encode_nonempty (ps : List (Bytes × Bytes)) (h : ps ≠ []) : encode ps ≠ [] := by
  cases ps with
  | nil => exact absurd rfl h
  | cons kv rest => cases rest <;> simp [encode]

/-- A URL as `makeURL` makes them. -/
def Good (u : URL) : Prop := ∀ c ∈ u.rawQuery, c ≠ 32 ∧ c ≠ 127 ∧ ¬ c < 32

theorem escapedPath_ok (u : URL) : unescape .path (escapedPath u) = some u.path ∧
    ∀ c ∈ escapedPath u, c ≠ 63 ∧ c ≠ 32 ∧ c ≠ 127 ∧ ¬ c < 32 := by
  unfold escapedPath
  split
  · next h =>
    refine ⟨h.2.2, fun c hc => ?_⟩
    have := List.all_eq_true.1 h.2.1 c hc
    simp only [Bool.or_eq_true, Bool.not_eq_true', List.contains_iff_mem] at this
    rcases this with h | h
    · exact safe_path (.inr h)
    · exact safe_path (.inl (.inr (.inr (.inr h))))
  · exact ⟨unescape_escape _ _, fun c hc => safe_path (.inl (escape_safe _ _ c hc))⟩

/-- C148: the server sees the path and the query of the client's URL. -/
theorem arrives (u : URL) (h : Good u) : (requestURI u).contains 32 = false ∧
    ∃ rp, parseRest (requestURI u) = some ⟨u.path, rp, u.rawQuery⟩ := by
  obtain ⟨h1, h2⟩ := escapedPath_ok u
  have hq : (63 : UInt8) ∉ escapedPath u := fun hm => (h2 _ hm).1 rfl
  have hall : ∀ c ∈ requestURI u, c ≠ 32 ∧ c ≠ 127 ∧ ¬ c < 32 := by
    intro c hc
    unfold requestURI at hc
    split at hc
    · exact (h2 c hc).2
    · simp only [List.mem_append, List.mem_cons] at hc
      rcases hc with hc | rfl | hc
      · exact (h2 c hc).2
      · decide
      · exact h c hc
  constructor
  · rw [Bool.eq_false_iff]
    intro hc
    exact (hall 32 (List.contains_iff_mem.1 hc)).1 rfl
  · unfold parseRest
    rw [if_neg]
    · have hcut : cut 63 (requestURI u) = (escapedPath u, u.rawQuery) := by
        unfold requestURI
        split
        · next he => rw [cut_none _ _ hq, he]
        · rw [cut_of_not_mem _ _ _ hq]
      rw [hcut]
      simp only [setPath, h1]
      exact ⟨_, rfl⟩
    · simp only [List.any_eq_true, not_exists, not_and]
      intro c hc
      have := hall c hc
      simp [this.2.1, this.2.2]

/-! ## Plain arguments -/

/-- Bytes which have no meaning in URLs, and aren't control characters. -/
def Plain (b : Bytes) : Prop := ∀ c ∈ b, c ≠ 35 ∧ c ≠ 37 ∧ c ≠ 63 ∧ c ≠ 127 ∧ ¬ c < 32

theorem unescape_of_plain (b : Bytes) (h : (37 : UInt8) ∉ b) : unescape .path b = some b := by
  induction b with
  | nil => rfl
  | cons c cs ih =>
    rw [unescape_plain _ _ _ (fun e => h (by simp [e])), ih fun hm => h (by simp [hm])]
    simp

theorem parse_plain (b : Bytes) (h : Plain b) : ∃ rp, parse b = some ⟨b, rp, []⟩ := by
  unfold parse
  rw [cut_none _ _ (fun hm => (h _ hm).1 rfl)]
  unfold parseRest
  rw [if_neg]
  · rw [cut_none _ _ (fun hm => (h _ hm).2.2.1 rfl)]
    simp only [setPath, unescape_of_plain b (fun hm => (h _ hm).2.1 rfl)]
    exact ⟨_, rfl⟩
  · simp only [List.any_eq_true, not_exists, not_and]
    intro c hc
    have := h c hc
    simp [this.2.2.2.1, this.2.2.2.2]

def pairText (kv : Bytes × Bytes) : String × String := (text kv.1, text kv.2)

/-- The request which the server gets for `s`. -/
def wire (pre : Bytes) (s : Sent) : WebRoute.Request :=
  ⟨s.method, pre ++ s.uri, [],
    ⟨s.method == "GET", decide (s.params ≠ []), true, (sorted s.params).map pairText, s.types, s.length, true, !s.onlyJSON⟩⟩

theorem delivered (pre : Bytes) (s : Sent) (h : s.located = true ∨ Plain (pre ++ s.uri)) (hu : ∃ k, s.uri = WebRoute.pathAPI ++ k)
    (hk : sorted s.params = [] → s.params = []) :
    ∃ u, makeURL pre s = some u ∧ receive s (requestURI u) = some (wire pre s) := by
  have base : ∃ rp, (if s.located then some (⟨(pre ++ WebRoute.pathAPI) ++ replaceAPI s.uri, [], []⟩ : URL) else parse (pre ++ s.uri)) =
      some ⟨pre ++ s.uri, rp, []⟩ := by
    by_cases hl : s.located = true
    · obtain ⟨k, hk⟩ := hu
      refine ⟨[], ?_⟩
      rw [if_pos hl, hk]
      simp only [replaceAPI, List.drop_left, List.append_assoc]
    · rw [if_neg hl]
      rcases h with h | h
      · exact absurd h hl
      · exact parse_plain _ h
  obtain ⟨rp, hb⟩ := base
  by_cases hp : s.params = []
  · refine ⟨⟨pre ++ s.uri, rp, []⟩, by simp only [makeURL, hb, hp]; rfl, ?_⟩
    obtain ⟨h1, rp', h2⟩ := arrives ⟨pre ++ s.uri, rp, []⟩ (fun c hc => by cases hc)
    unfold receive
    rw [h1, h2]
    simp [wire, hp, sorted, sortedKeys, parseQuery, split, parsePairs]
  · refine ⟨⟨pre ++ s.uri, rp, encode (sorted s.params)⟩, ?_, ?_⟩
    · simp only [makeURL, hb, Option.map_some]
      rw [if_pos (List.length_pos_iff.2 hp)]
    · obtain ⟨h1, rp', h2⟩ := arrives ⟨pre ++ s.uri, rp, encode (sorted s.params)⟩ (encode_ok _)
      unfold receive
      rw [h1, h2]
      simp only [parseQuery_encode]
      have hne := encode_nonempty _ (fun e => hp (hk e))
      simp only [Bool.false_eq_true, if_false, wire, Option.some.injEq]
      simp [hne, hp]
      intros; rfl

/-! ## Specification -/

/-- Names of modules and instances: digits, letters, hyphens and underscores. -/
def Name (b : Bytes) : Prop := b ≠ [] ∧ ∀ c ∈ b, alnum c = true ∨ c = 45 ∨ c = 95

/-- The tags or function given as arguments, or else the configured ones. -/
def effective {α} (args conf : List α) : List α := if args = [] then conf else args

def effectiveFunction (c : Conf) (fn : Option Bytes) : Bytes := fn.getD c.function

/-- What a command means: the resource that it's about, and the operation. -/
inductive Wanted (c : Conf) : Cmd → Resource → Op → Prop
  | callKnown (m fn key size) : Name m →
      Wanted c (.call m fn key size) (.module_ m) (.call false true (text (effectiveFunction c fn)) [] (c.instanceTags.map text))
  | callSource (k fn key size) : k ≠ [] →
      Wanted c (.call (str "/ipfs/" ++ k) fn key size) (.source (str "/ipfs") (str "/ipfs/" ++ k))
        (.call c.pin c.pin (text (effectiveFunction c fn)) (if c.pin then c.moduleTags.map text else []) (c.instanceTags.map text))
  | callFile (file fn key size) : (47 ∈ file ∨ 46 ∈ file) → ¬ str "/ipfs/" <+: file → Name key →
      Wanted c (.call file fn key size) (.module_ key)
        (.call c.pin c.pin (text (effectiveFunction c fn)) (if c.pin then c.moduleTags.map text else []) (c.instanceTags.map text))
  | delete (id) : Name id → Wanted c (.delete id) (.instance_ id) .delete
  | export_ (m) : Name m → Wanted c (.export_ m) (.module_ m) .moduleDownload
  | import_ (tags key size) : Name key →
      Wanted c (.import_ tags key size) (.module_ key) (.moduleUpload ((effective tags c.moduleTags).map text))
  | instances : Wanted c .instances .instances .instanceList
  | io (id) : Name id → Wanted c (.io id) (.instance_ id) .instanceIO
  | kill (id) : Name id → Wanted c (.kill id) (.instance_ id) (.kill c.wait)
  | launchKnown (m fn tags key size) : Name m → (fn = none → tags = []) →
      Wanted c (.launch m fn tags key size) (.module_ m)
        (.launch false c.suspend (text (effectiveFunction c fn)) (text c.instance_) [] ((effective tags c.instanceTags).map text))
  | launchFile (file fn tags key size) : (47 ∈ file ∨ 46 ∈ file) → ¬ str "/ipfs/" <+: file → Name key → (fn = none → tags = []) →
      Wanted c (.launch file fn tags key size) (.module_ key)
        (.launch c.pin c.suspend (text (effectiveFunction c fn)) (text c.instance_) (if c.pin then c.moduleTags.map text else [])
          ((effective tags c.instanceTags).map text))
  | launchSource (k fn tags key size) : k ≠ [] → (fn = none → tags = []) →
      Wanted c (.launch (str "/ipfs/" ++ k) fn tags key size) (.source (str "/ipfs") (str "/ipfs/" ++ k))
        (.launch c.pin c.suspend (text (effectiveFunction c fn)) (text c.instance_) (if c.pin then c.moduleTags.map text else [])
          ((effective tags c.instanceTags).map text))
  | modules : Wanted c .modules .modules .moduleList
  | pin (m tags) : Name m → Wanted c (.pin m tags) (.module_ m) (.modulePin ((effective tags c.moduleTags).map text))
  | push (m size) : Name m → Wanted c (.push m size) (.module_ m) (.moduleUpload [])
  | repl (id) : Name id → Wanted c (.repl id) (.instance_ id) .instanceIO
  | resume (id) : Name id → Wanted c (.resume id) (.instance_ id) (.resume "")
  | show_ (m) : Name m → Wanted c (.show_ m) (.module_ m) .moduleInfo
  | snapshot (id tags) : Name id → Wanted c (.snapshot id tags) (.instance_ id) (.snapshot ((effective tags c.moduleTags).map text))
  | status (id) : Name id → Wanted c (.status id) (.instance_ id) .instanceInfo
  | suspend (id) : Name id → Wanted c (.suspend id) (.instance_ id) (.suspend c.wait)
  | unpin (m) : Name m → Wanted c (.unpin m) (.module_ m) .moduleUnpin
  | update (id tags) : Name id → effective tags c.instanceTags ≠ [] → Wanted c (.update id tags) (.instance_ id) .update
  | wait (id) : Name id → Wanted c (.wait id) (.instance_ id) .wait

/-- The function of a command is a valid one, or the default one. -/
def FunctionOk (c : Conf) : Cmd → Prop
  | .call _ fn _ _ | .launch _ fn _ _ _ => effectiveFunction c fn = [] ∨ Web.validFunction (text (effectiveFunction c fn)) = true
  | _ => True

/-! ## Queries -/

def setText (key v : String) : Web.Query := if v = "" then [] else [(key, v)]

/-- The server's view of the query. -/
def Q (acts : List String) (f i : String) (its : List String) (lg : Bool) (mts : List String) : Web.Query :=
  acts.map (fun a => ("action", a)) ++ setText "function" f ++ setText "instance" i ++ its.map (fun t => ("instance.tag", t)) ++
    (if lg then [("log", "*")] else []) ++ mts.map (fun t => ("module.tag", t))

theorem text_str : text (str "action") = "action" ∧ text (str "function") = "function" ∧ text (str "instance") = "instance" ∧
    text (str "instance.tag") = "instance.tag" ∧ text (str "log") = "log" ∧ text (str "module.tag") = "module.tag" ∧ text (str "*") = "*" := by
  decide +kernel

theorem text_empty (b : Bytes) : text b = "" ↔ b = [] := by
  unfold text
  rw [show ("" : String) = String.ofList [] from rfl, String.ofList_inj]
  simp

theorem filter_const {α β} (p : α → Bool) (f : β → α) (b : Bool) (l : List β) (h : ∀ x, p (f x) = b) :
    (l.map f).filter p = if b then l.map f else [] := by
  induction l with
  | nil => cases b <;> rfl
  | cons x xs ih => simp only [List.map_cons, List.filter_cons, h, ih]; cases b <;> simp

theorem values_append (a b : Web.Query) (k : String) : Web.values (a ++ b) k = Web.values a k ++ Web.values b k := by
  simp [Web.values]
theorem del_append (a b : Web.Query) (k : String) : Web.del (a ++ b) k = Web.del a k ++ Web.del b k := by
  simp [Web.del]
theorem values_tags (key k : String) (ts : List String) : Web.values (ts.map fun t => (key, t)) k = if key = k then ts else [] := by
  unfold Web.values
  rw [filter_const (fun p : String × String => p.1 == k) (fun t => (key, t)) (key == k) _ (fun _ => rfl)]
  by_cases h : key = k
  · subst h; simp [Function.comp_def]
  · simp [h]
theorem del_tags (key k : String) (ts : List String) : Web.del (ts.map fun t => (key, t)) k = if key = k then [] else ts.map fun t => (key, t) := by
  unfold Web.del
  rw [filter_const (fun p : String × String => p.1 != k) (fun t => (key, t)) (key != k) _ (fun _ => rfl)]
  by_cases h : key = k <;> simp [h]
theorem values_set (key k v : String) : Web.values (setText key v) k = if key = k ∧ v ≠ "" then [v] else [] := by
  unfold setText Web.values
  by_cases h : v = "" <;> by_cases h' : key = k <;> simp [h, h']
theorem del_set (key k v : String) : Web.del (setText key v) k = if key = k then [] else setText key v := by
  unfold setText Web.del
  by_cases h : v = "" <;> by_cases h' : key = k <;> simp [h, h']
theorem values_log (lg : Bool) (k : String) : Web.values (if lg then [("log", "*")] else []) k = if lg ∧ k = "log" then ["*"] else [] := by
  unfold Web.values
  by_cases h' : k = "log"
  · cases lg <;> simp [h']
  · have : "log" ≠ k := fun e => h' e.symm
    cases lg <;> simp [h', this]
theorem del_log (lg : Bool) (k : String) : Web.del (if lg then [("log", "*")] else []) k = if lg ∧ k ≠ "log" then [("log", "*")] else [] := by
  unfold Web.del
  by_cases h' : k = "log"
  · cases lg <;> simp [h']
  · have : "log" ≠ k := fun e => h' e.symm
    cases lg <;> simp [h', this]

variable (acts : List String) (f i : String) (its : List String) (lg : Bool) (mts : List String)

theorem Q_action : Web.values (Q acts f i its lg mts) "action" = acts ∧ Web.del (Q acts f i its lg mts) "action" = Q [] f i its lg mts := by
  constructor
  · simp [Q, values_append, values_tags, values_set, values_log]
  · simp only [Q, del_append, del_tags, del_set, del_log]; simp
theorem Q_function : Web.values (Q [] f i its lg mts) "function" = (if f = "" then [] else [f]) ∧
    Web.del (Q [] f i its lg mts) "function" = Q [] "" i its lg mts := by
  constructor
  · simp [Q, values_append, values_tags, values_set, values_log]
  · simp only [Q, del_append, del_tags, del_set, del_log]; simp [setText]
theorem Q_instance : Web.values (Q [] "" i its lg mts) "instance" = (if i = "" then [] else [i]) ∧
    Web.del (Q [] "" i its lg mts) "instance" = Q [] "" "" its lg mts := by
  constructor
  · simp [Q, values_append, values_tags, values_set, values_log]
  · simp only [Q, del_append, del_tags, del_set, del_log]; simp [setText]
theorem Q_instanceTag : Web.values (Q [] "" "" its lg mts) "instance.tag" = its ∧
    Web.del (Q [] "" "" its lg mts) "instance.tag" = Q [] "" "" [] lg mts := by
  constructor
  · simp [Q, values_append, values_tags, values_set, values_log]
  · simp only [Q, del_append, del_tags, del_set, del_log]; simp [setText]
theorem Q_log : Web.values (Q [] "" "" [] lg []) "log" = (if lg then ["*"] else []) ∧
    Web.del (Q [] "" "" [] lg []) "log" = [] := by
  constructor
  · simp [Q, values_append, values_tags, values_set, values_log]
  · simp only [Q, del_append, del_tags, del_set, del_log]; simp [setText]
theorem Q_moduleTag : Web.values (Q acts f i its lg mts) "module.tag" = mts ∧
    Web.del (Q acts f i its lg mts) "module.tag" = Q acts f i its lg [] := by
  constructor
  · simp [Q, values_append, values_tags, values_set, values_log]
  · simp only [Q, del_append, del_tags, del_set, del_log]; simp [setText]

theorem popFunction_Q (hf : f = "" ∨ Web.validFunction f = true) :
    Web.popFunction (Q [] f i its lg mts) = Web.M.pure (f, Q [] "" i its lg mts) := by
  have h := Q_function f i its lg mts
  unfold Web.popFunction Web.popOptional
  rw [h.1]
  by_cases he : f = ""
  · subst he; simp [Web.M.pure, bind, Web.M.bind]
  · rw [if_neg he]
    have hv := hf.resolve_left he
    simp [Web.M.pure, bind, Web.M.bind, hv, h.2]

theorem popInstance_Q : Web.popOptional (Q [] "" i its lg mts) "instance" = Web.M.pure (i, Q [] "" "" its lg mts) := by
  have h := Q_instance i its lg mts
  unfold Web.popOptional
  rw [h.1]
  by_cases he : i = ""
  · subst he; rfl
  · rw [if_neg he]; simp only [h.2]

theorem popLog_Q : Web.popLog (Q [] "" "" [] lg []) = Web.M.pure [] := by
  have h := Q_log lg
  unfold Web.popLog Web.popOptional
  rw [h.1]
  cases lg
  · simp [Web.M.pure, bind, Web.M.bind, Q, setText]
  · simp [Web.M.pure, bind, Web.M.bind, h.2]

theorem popAction_yes (a : String) (pre post : List String) (h : a ∉ pre) :
    Web.popAction (Q (pre ++ a :: post) f i its lg mts) a = (true, Q (pre ++ post) f i its lg mts) := by
  have : ("action", a) ∈ Q (pre ++ a :: post) f i its lg mts := by simp [Q]
  unfold Web.popAction
  rw [if_pos this]
  congr 1
  unfold Q
  simp only [List.append_assoc, List.map_append, List.map_cons, List.cons_append]
  rw [List.erase_append_right _ (by simp [h]), List.erase_cons_head]

theorem popAction_no (a : String) (h : a ∉ acts) :
    Web.popAction (Q acts f i its lg mts) a = (false, Q acts f i its lg mts) := by
  have : ("action", a) ∉ Q acts f i its lg mts := by
    unfold Q setText
    intro hm
    simp only [List.mem_append, List.mem_map] at hm
    rcases hm with ((((⟨x, hx, he⟩ | hm) | hm) | ⟨x, hx, he⟩) | hm) | ⟨x, hx, he⟩
    · simp at he; subst he; exact h hx
    · split at hm <;> simp at hm
    · split at hm <;> simp at hm
    · simp at he
    · split at hm <;> simp at hm
    · simp at he
  unfold Web.popAction
  rw [if_neg this]

theorem pure_bind' {α β} (a : α) (g : α → Web.M β) : (Web.M.pure a >>= g) = g a := rfl

theorem parseQuery_ok {r : Web.Req} (h : r.parses = true) : Web.parseQuery r = Web.M.pure r.query := by simp [Web.parseQuery, h]
theorem parseOptional_ok {r : Web.Req} (h : r.parses = true) (h2 : r.raw = false → r.query = []) : Web.parseOptionalQuery r = Web.M.pure r.query := by
  unfold Web.parseOptionalQuery
  cases hr : r.raw
  · simp [h2 hr]
  · simp [parseQuery_ok h]

theorem popLast_Q (r : Web.Req) (a : String) : Web.popLast r (Q [a] f i its lg mts) "action" = Web.M.pure (a, Q [] f i its lg mts) := by
  unfold Web.popLast
  rw [(Q_action _ _ _ _ _ _).1]
  simp only [(Q_action _ _ _ _ _ _).2]

theorem Q_empty : Q [] "" "" [] false [] = [] := by simp [Q, setText]
theorem noParams_empty : Web.noParams [] = Web.M.pure () := rfl

/-- Call of a known module. -/
theorem post_call (r : Web.Req) (hp : r.parses = true) (hq : r.query = Q ["call"] f "" its lg [])
    (hf : f = "" ∨ Web.validFunction f = true) :
    (Web.postKnownModule r).1 = [.op (.call false true f [] its)] := by
  unfold Web.postKnownModule
  rw [parseQuery_ok hp, hq, pure_bind', if_neg (by rw [(Q_action _ _ _ _ _ _).1]; simp), popAction_no _ _ _ _ _ _ _ (by simp)]
  simp only []
  rw [popLast_Q, pure_bind']
  simp only [if_true]
  rw [popFunction_Q _ _ _ _ _ hf, pure_bind']
  simp only [Web.popAll, (Q_instanceTag _ _ _).1, (Q_instanceTag _ _ _).2]
  rw [popLog_Q, pure_bind', noParams_empty, pure_bind']
  rfl

theorem put_call_or_ws (r : Web.Req) (pin : Bool) (hp : r.parses = true) (hraw : r.raw = true)
    (hq : r.query = Q ("call" :: if pin then ["pin"] else []) f "" its lg (if pin then mts else []))
    (hf : f = "" ∨ Web.validFunction f = true) :
    (Web.getKnownModule r).1 = [.op (.call pin pin f (if pin then mts else []) its)] := by
  unfold Web.getKnownModule
  rw [parseOptional_ok hp (by simp [hraw]), hq, pure_bind']
  cases pin
  · rw [popAction_no _ _ _ _ _ _ _ (by simp)]
    simp only [Bool.false_eq_true, if_false]
    rw [if_pos (by rw [(Q_action _ _ _ _ _ _).1]; simp), popLast_Q, pure_bind']
    simp only [if_true]
    rw [popFunction_Q _ _ _ _ _ hf, pure_bind']
    simp only [Web.popAll, (Q_instanceTag _ _ _).1, (Q_instanceTag _ _ _).2]
    rw [popLog_Q, pure_bind', noParams_empty, pure_bind']
    rfl
  · rw [show (("call" :: if true = true then ["pin"] else []) : List String) = ["call"] ++ "pin" :: [] from rfl,
      popAction_yes _ _ _ _ _ _ _ _ (by simp)]
    simp only [if_true, Web.popAll, (Q_moduleTag _ _ _ _ _ _).1, (Q_moduleTag _ _ _ _ _ _).2, List.append_nil]
    rw [if_pos (by rw [(Q_action _ _ _ _ _ _).1]; simp), popLast_Q, pure_bind']
    simp only [if_true]
    rw [popFunction_Q _ _ _ _ _ hf, pure_bind']
    simp only [(Q_instanceTag _ _ _).1, (Q_instanceTag _ _ _).2]
    rw [popLog_Q, pure_bind', noParams_empty, pure_bind']
    rfl

theorem source_call (r : Web.Req) (pin : Bool) (hp : r.parses = true)
    (hq : r.query = Q ("call" :: if pin then ["pin"] else []) f "" its lg (if pin then mts else []))
    (hf : f = "" ∨ Web.validFunction f = true) :
    (Web.postModuleSource r).1 = [.op (.call pin pin f (if pin then mts else []) its)] := by
  unfold Web.postModuleSource
  rw [parseQuery_ok hp, hq, pure_bind']
  cases pin
  · rw [popAction_no _ _ _ _ _ _ _ (by simp)]
    simp only [Bool.false_eq_true, if_false]
    rw [if_pos (by rw [(Q_action _ _ _ _ _ _).1]; simp), popAction_no _ _ _ _ _ _ _ (by simp), popLast_Q, pure_bind']
    simp only [if_true, Bool.false_eq_true, if_false]
    rw [pure_bind', popFunction_Q _ _ _ _ _ hf, pure_bind']
    simp only [Web.popAll, (Q_instanceTag _ _ _).1, (Q_instanceTag _ _ _).2]
    rw [popLog_Q, pure_bind', noParams_empty, pure_bind']
    rfl
  · rw [show (("call" :: if true = true then ["pin"] else []) : List String) = ["call"] ++ "pin" :: [] from rfl,
      popAction_yes _ _ _ _ _ _ _ _ (by simp)]
    simp only [if_true, Web.popAll, (Q_moduleTag _ _ _ _ _ _).1, (Q_moduleTag _ _ _ _ _ _).2, List.append_nil]
    rw [if_pos (by rw [(Q_action _ _ _ _ _ _).1]; simp), popAction_no _ _ _ _ _ _ _ (by simp), popLast_Q, pure_bind']
    simp only [if_true, Bool.false_eq_true, if_false]
    rw [pure_bind', popFunction_Q _ _ _ _ _ hf, pure_bind']
    simp only [(Q_instanceTag _ _ _).1, (Q_instanceTag _ _ _).2]
    rw [popLog_Q, pure_bind', noParams_empty, pure_bind']
    rfl

/-- Launch of a known module. -/
theorem post_launch (r : Web.Req) (sus : Bool) (hp : r.parses = true) (ht : r.types = []) (hl : r.length = 0)
    (hq : r.query = Q ("launch" :: if sus then ["suspend"] else []) f i its lg [])
    (hf : f = "" ∨ Web.validFunction f = true) :
    (Web.postKnownModule r).1 = [.op (.launch false sus f i [] its)] := by
  unfold Web.postKnownModule
  rw [parseQuery_ok hp, hq, pure_bind', if_neg (by rw [(Q_action _ _ _ _ _ _).1]; simp)]
  have key : Web.popAction (Q ("launch" :: if sus then ["suspend"] else []) f i its lg []) "suspend" = (sus, Q ["launch"] f i its lg []) := by
    cases sus
    · rw [popAction_no _ _ _ _ _ _ _ (by simp)]; simp
    · rw [show (("launch" :: if true = true then ["suspend"] else []) : List String) = ["launch"] ++ "suspend" :: [] from rfl,
        popAction_yes _ _ _ _ _ _ _ _ (by simp)]; simp
  rw [key]
  simp only []
  rw [popLast_Q, pure_bind']
  simp only [if_true, show ("launch" = "call") = False by decide, if_false]
  rw [popFunction_Q _ _ _ _ _ hf, pure_bind']
  simp only []
  rw [popInstance_Q, pure_bind']
  simp only [Web.popAll, (Q_instanceTag _ _ _).1, (Q_instanceTag _ _ _).2]
  rw [popLog_Q, pure_bind', noParams_empty, pure_bind']
  simp [Web.noType, Web.noBody, ht, hl, pure_bind']
  rfl

/-- Upload and launch. -/
theorem put_launch (r : Web.Req) (sus pin : Bool) (hp : r.parses = true) (hraw : r.raw = true) (ht : r.types = ["application/wasm"]) (hl : 0 ≤ r.length)
    (hq : r.query = Q ("launch" :: ((if sus then ["suspend"] else []) ++ if pin then ["pin"] else [])) f i its lg (if pin then mts else []))
    (hf : f = "" ∨ Web.validFunction f = true) :
    (Web.putKnownModule r).1 = [.op (.launch pin sus f i (if pin then mts else []) its)] := by
  unfold Web.putKnownModule
  rw [show Web.haveType r "application/wasm" = Web.M.pure () by simp [Web.haveType, ht], pure_bind',
    show Web.haveLength r = Web.M.pure () by unfold Web.haveLength; rw [if_neg (by omega)], pure_bind',
    parseOptional_ok hp (by simp [hraw]), hq, pure_bind']
  have k1 : ∀ mts, Web.popAction (Q ("launch" :: ((if sus then ["suspend"] else []) ++ if pin then ["pin"] else [])) f i its lg mts) "pin" =
      (pin, Q ("launch" :: if sus then ["suspend"] else []) f i its lg mts) := by
    intro mts
    cases pin
    · rw [popAction_no _ _ _ _ _ _ _ (by cases sus <;> simp)]; simp
    · rw [show (("launch" :: ((if sus then ["suspend"] else []) ++ if true = true then ["pin"] else [])) : List String) =
        ("launch" :: if sus then ["suspend"] else []) ++ "pin" :: [] by simp,
        popAction_yes _ _ _ _ _ _ _ _ (by cases sus <;> simp)]; simp
  have k2 : ∀ mts, Web.popAction (Q ("launch" :: if sus then ["suspend"] else []) f i its lg mts) "suspend" = (sus, Q ["launch"] f i its lg mts) := by
    intro mts
    cases sus
    · rw [popAction_no _ _ _ _ _ _ _ (by simp)]; simp
    · rw [show (("launch" :: if true = true then ["suspend"] else []) : List String) = ["launch"] ++ "suspend" :: [] from rfl,
        popAction_yes _ _ _ _ _ _ _ _ (by simp)]; simp
  rw [k1]
  simp only []
  rw [k2]
  simp only []
  have k3 : (if pin then Web.popAll (Q ["launch"] f i its lg (if pin then mts else [])) "module.tag"
      else ([], Q ["launch"] f i its lg (if pin then mts else []))) = (if pin then mts else [], Q ["launch"] f i its lg []) := by
    cases pin <;> simp [Web.popAll, Q_moduleTag]
  simp only [k3]
  rw [if_pos (by rw [(Q_action _ _ _ _ _ _).1]; simp), popLast_Q, pure_bind']
  simp only [if_true, show ("launch" = "call") = False by decide, if_false]
  rw [popFunction_Q _ _ _ _ _ hf, pure_bind']
  simp only []
  rw [popInstance_Q, pure_bind']
  simp only [Web.popAll, (Q_instanceTag _ _ _).1, (Q_instanceTag _ _ _).2]
  rw [popLog_Q, pure_bind', noParams_empty, pure_bind']
  rfl

theorem put_pin (r : Web.Req) (hp : r.parses = true) (hraw : r.raw = true) (ht : r.types = ["application/wasm"]) (hl : 0 ≤ r.length)
    (hq : r.query = Q ["pin"] "" "" [] false mts) :
    (Web.putKnownModule r).1 = [.op (.moduleUpload mts)] := by
  unfold Web.putKnownModule
  rw [show Web.haveType r "application/wasm" = Web.M.pure () by simp [Web.haveType, ht], pure_bind',
    show Web.haveLength r = Web.M.pure () by unfold Web.haveLength; rw [if_neg (by omega)], pure_bind',
    parseOptional_ok hp (by simp [hraw]), hq, pure_bind',
    show (["pin"] : List String) = [] ++ "pin" :: [] from rfl, popAction_yes _ _ _ _ _ _ _ _ (by simp)]
  simp only [List.append_nil]
  rw [popAction_no _ _ _ _ _ _ _ (by simp)]
  simp only [if_true, Web.popAll, (Q_moduleTag _ _ _ _ _ _).1, (Q_moduleTag _ _ _ _ _ _).2]
  rw [if_neg (by rw [(Q_action _ _ _ _ _ _).1]; simp), Q_empty, noParams_empty, pure_bind']
  rfl

theorem post_pin (r : Web.Req) (hp : r.parses = true) (ht : r.types = []) (hl : r.length = 0) (hq : r.query = Q ["pin"] "" "" [] false mts) :
    (Web.postKnownModule r).1 = [.op (.modulePin mts)] := by
  unfold Web.postKnownModule
  rw [parseQuery_ok hp, hq, pure_bind', if_neg (by rw [(Q_action _ _ _ _ _ _).1]; simp), popAction_no _ _ _ _ _ _ _ (by simp)]
  simp only []
  rw [popLast_Q, pure_bind']
  simp only [if_true, show ("pin" = "call") = False by decide, show ("pin" = "launch") = False by decide, if_false]
  simp only [Web.popAll, (Q_moduleTag _ _ _ _ _ _).1, (Q_moduleTag _ _ _ _ _ _).2]
  rw [Q_empty, noParams_empty, pure_bind']
  simp [Web.noType, Web.noBody, ht, hl, pure_bind']
  rfl

theorem post_unpin (r : Web.Req) (hp : r.parses = true) (ht : r.types = []) (hl : r.length = 0) (hq : r.query = Q ["unpin"] "" "" [] false []) :
    (Web.postKnownModule r).1 = [.op .moduleUnpin] := by
  unfold Web.postKnownModule
  rw [parseQuery_ok hp, hq, pure_bind', if_neg (by rw [(Q_action _ _ _ _ _ _).1]; simp), popAction_no _ _ _ _ _ _ _ (by simp)]
  simp only []
  rw [popLast_Q, pure_bind']
  simp only [if_true, show ("unpin" = "call") = False by decide, show ("unpin" = "launch") = False by decide,
    show ("unpin" = "pin") = False by decide, if_false]
  rw [Q_empty, noParams_empty, pure_bind']
  simp [Web.noType, Web.noBody, ht, hl, pure_bind']
  rfl

theorem post_info (r : Web.Req) (hp : r.parses = true) (hj : r.acceptJSON = true) (hq : r.query = []) :
    (Web.postKnownModule r).1 = [.op .moduleInfo] ∧ (Web.postInstance r).1 = [.op .instanceInfo] := by
  constructor
  · unfold Web.postKnownModule
    rw [parseQuery_ok hp, hq, pure_bind']
    simp [Web.values, Web.noParams, Web.acceptsJSON, hj, pure_bind']
    rfl
  · unfold Web.postInstance
    rw [parseQuery_ok hp, hq, pure_bind']
    simp [Web.popAll, Web.del, Web.values, Web.noParams, Web.acceptsJSON, hj, pure_bind']
    rfl

theorem get_download (r : Web.Req) (hp : r.parses = true) (hj : r.acceptWasm = true) (hq : r.query = []) :
    (Web.getKnownModule r).1 = [.op .moduleDownload] := by
  unfold Web.getKnownModule
  rw [parseOptional_ok hp (by simp [hq]), hq, pure_bind']
  simp [Web.popAction, Web.values, Web.noParams, Web.acceptsWasm, hj, pure_bind']
  rfl

theorem post_instance (r : Web.Req) (hp : r.parses = true) (a : List String) (o : Op)
    (h : (a = ["io"] ∧ o = .instanceIO) ∨ (a = ["delete"] ∧ o = .delete) ∨ (a = ["update"] ∧ o = .update) ∨
      (a = ["kill"] ∧ o = .kill false) ∨ (a = ["kill", "wait"] ∧ o = .kill true) ∨ (a = ["suspend"] ∧ o = .suspend false) ∨
      (a = ["suspend", "wait"] ∧ o = .suspend true) ∨ (a = ["wait"] ∧ o = .wait)) (hq : r.query = Q a "" "" [] false []) :
    (Web.postInstance r).1 = [.op o] := by
  unfold Web.postInstance
  rw [parseQuery_ok hp, hq, pure_bind']
  simp only [Web.popAll, (Q_action _ _ _ _ _ _).1, (Q_action _ _ _ _ _ _).2, Q_empty]
  rcases h with ⟨rfl, rfl⟩ | ⟨rfl, rfl⟩ | ⟨rfl, rfl⟩ | ⟨rfl, rfl⟩ | ⟨rfl, rfl⟩ | ⟨rfl, rfl⟩ | ⟨rfl, rfl⟩ | ⟨rfl, rfl⟩ <;> rfl

theorem post_resume (r : Web.Req) (hp : r.parses = true) (hq : r.query = Q ["resume"] "" "" [] lg []) :
    (Web.postInstance r).1 = [.op (.resume "")] := by
  unfold Web.postInstance
  rw [parseQuery_ok hp, hq, pure_bind']
  simp only [Web.popAll, (Q_action _ _ _ _ _ _).1, (Q_action _ _ _ _ _ _).2]
  cases lg <;> rfl

theorem post_snapshot (r : Web.Req) (hp : r.parses = true) (hq : r.query = Q ["snapshot"] "" "" [] false mts) :
    (Web.postInstance r).1 = [.op (.snapshot mts)] := by
  unfold Web.postInstance
  rw [parseQuery_ok hp, hq, pure_bind']
  simp only [Web.popAll, (Q_action _ _ _ _ _ _).1, (Q_action _ _ _ _ _ _).2, show ("snapshot" = "io") = False by decide,
    show ("snapshot" = "resume") = False by decide, if_false, if_true, (Q_moduleTag _ _ _ _ _ _).1, (Q_moduleTag _ _ _ _ _ _).2, Q_empty]
  rfl

theorem get_io (r : Web.Req) (hp : r.parses = true) (hq : r.query = Q ["io"] "" "" [] false []) :
    (Web.getInstance r).1 = [.op .instanceIO] := by
  unfold Web.getInstance
  rw [parseQuery_ok hp, hq, pure_bind', popLast_Q, pure_bind']
  simp only [if_true, Q_empty]
  rfl

/-! ## Commands -/

theorem sorted_Q (acts : List String) (hacts : acts.all (fun a => text (str a) == a) = true) (ps : List (Bytes × Bytes)) (f i : Bytes) (its : List Bytes) (lg : Bool) (mts : List Bytes)
    (h : sorted ps = acts.map act ++ optional "function" f ++ optional "instance" i ++ tagsOf "instance.tag" its ++
      (if lg then [(str "log", str "*")] else []) ++ tagsOf "module.tag" mts) :
    (sorted ps).map pairText = Q acts (text f) (text i) (its.map text) lg (mts.map text) := by
  rw [h]
  unfold Q
  obtain ⟨t1, t2, t3, t4, t5, t6, t7⟩ := text_str
  simp only [List.map_append, List.map_map]
  have e1 : List.map (pairText ∘ act) acts = List.map (fun a => ("action", a)) acts := by
    apply List.map_congr_left
    intro a ha
    have := List.all_eq_true.1 hacts a ha
    simp only [beq_iff_eq] at this
    simp [pairText, act, t1, this]
  have e2 : ∀ (k : String) (v : Bytes), text (str k) = k → List.map pairText (optional k v) = setText k (text v) := by
    intro k v hk
    unfold optional setText
    by_cases hv : v = []
    · rw [if_pos hv, if_pos ((text_empty v).2 hv)]; rfl
    · rw [if_neg hv, if_neg (fun e => hv ((text_empty v).1 e))]; simp [pairText, hk]
  have e3 : ∀ (k : String) (ts : List Bytes), text (str k) = k → List.map pairText (tagsOf k ts) = List.map (fun t => (k, t)) (ts.map text) := by
    intro k ts hk
    simp [tagsOf, pairText, Function.comp_def, hk]
  rw [e1, e2 _ _ t2, e2 _ _ t3, e3 _ _ t4, e3 _ _ t6]
  cases lg <;> simp [pairText, t5, t7]

theorem key_ne : str "action" ≠ str "function" ∧ str "action" ≠ str "instance" ∧ str "action" ≠ str "instance.tag" ∧ str "action" ≠ str "log" ∧
    str "action" ≠ str "module.tag" ∧ str "function" ≠ str "instance" ∧ str "function" ≠ str "instance.tag" ∧ str "function" ≠ str "log" ∧
    str "function" ≠ str "module.tag" ∧ str "instance" ≠ str "instance.tag" ∧ str "instance" ≠ str "log" ∧ str "instance" ≠ str "module.tag" ∧
    str "instance.tag" ≠ str "log" ∧ str "instance.tag" ≠ str "module.tag" ∧ str "log" ≠ str "module.tag" := by decide +kernel

theorem filter_tagsOf (k : Bytes) (key : String) (ts : List Bytes) : (tagsOf key ts).filter (fun p => p.1 == k) = if str key = k then tagsOf key ts else [] := by
  unfold tagsOf
  rw [filter_const (fun p : Bytes × Bytes => p.1 == k) (fun t => (str key, t)) (str key == k) _ (fun _ => rfl)]
  by_cases h : str key = k <;> simp [h]
theorem filter_optional (k : Bytes) (key : String) (v : Bytes) : (optional key v).filter (fun p => p.1 == k) = if str key = k then optional key v else [] := by
  unfold optional
  by_cases h : str key = k <;> by_cases hv : v = [] <;> simp [h, hv]

/-- All the commands' parameters, sorted. -/
theorem sorted_params (acts1 acts2 acts3 : List String) (f i : Bytes) (its : List Bytes) (lg : Bool) (mts : List Bytes) :
    sorted (acts1.map act ++ (acts2.map act ++ optional "function" f ++ optional "instance" i ++ tagsOf "instance.tag" its ++
      (if lg then [(str "log", str "*")] else []) ++ (acts3.map act ++ tagsOf "module.tag" mts))) =
    (acts1 ++ acts2 ++ acts3).map act ++ optional "function" f ++ optional "instance" i ++ tagsOf "instance.tag" its ++
      (if lg then [(str "log", str "*")] else []) ++ tagsOf "module.tag" mts := by
  obtain ⟨n1, n2, n3, n4, n5, n6, n7, n8, n9, n10, n11, n12, n13, n14, n15⟩ := key_ne
  have fa : ∀ (k : Bytes) (as : List String), (as.map act).filter (fun p => p.1 == k) = if str "action" = k then as.map act else [] := by
    intro k as
    rw [filter_const (fun p : Bytes × Bytes => p.1 == k) act (str "action" == k) _ (fun _ => rfl)]
    by_cases h : str "action" = k <;> simp [h]
  have fl : ∀ k : Bytes, ((if lg then [(str "log", str "*")] else []) : List (Bytes × Bytes)).filter (fun p => p.1 == k) =
      if str "log" = k then (if lg then [(str "log", str "*")] else []) else [] := by
    intro k
    by_cases h : str "log" = k <;> cases lg <;> simp [h]
  simp only [sorted, sortedKeys, List.flatMap_cons, List.flatMap_nil, List.filter_append, fa, fl, filter_tagsOf, filter_optional,
    n1, n2, n3, n4, n5, n6, n7, n8, n9, n10, n11, n12, n13, n14, n15, n1.symm, n2.symm, n3.symm, n4.symm, n5.symm, n6.symm, n7.symm,
    n8.symm, n9.symm, n10.symm, n11.symm, n12.symm, n13.symm, n14.symm, n15.symm, if_true, if_false]
  simp only [List.append_nil, List.nil_append, List.map_append, List.append_assoc]

/-- What the server does for a command's request. -/
def Performs (sc : WebRoute.Conf) (pre : Bytes) (srcs : List Bytes) (c : Conf) (cmd : Cmd) (res : Resource) (o : Op) : Prop :=
  ∃ r, run pre c cmd = .request r ∧ WebRoute.route pre srcs r.path = some res ∧
    WebRoute.serve sc pre srcs r = ⟨none, false, .effects [.op o]⟩

theorem performs_of {sc : WebRoute.Conf} {pre : Bytes} {srcs : List Bytes} {c : Conf} {cmd : Cmd} {res : Resource} {o : Op} {s : Sent} {h}
    (hs : send c cmd = some s) (hl : s.located = true ∨ Plain (pre ++ s.uri)) (hu : ∃ k, s.uri = WebRoute.pathAPI ++ k)
    (hk : sorted s.params = [] → s.params = []) (hr : WebRoute.route pre srcs (pre ++ s.uri) = some res)
    (ha : WebRoute.act res s.method = .handle h) (he : (h (wire pre s).parts).1 = [.op o]) : Performs sc pre srcs c cmd res o := by
  obtain ⟨u, hu1, hu2⟩ := delivered pre s hl hu hk
  refine ⟨wire pre s, ?_, hr, ?_⟩
  · simp only [run, hs, hu1, hu2]
  · unfold WebRoute.serve
    rw [if_neg (by rintro ⟨-, o, ho, -⟩; cases ho)]
    rw [show (wire pre s).path = pre ++ s.uri from rfl, hr]
    simp only [WebRoute.respond, show (wire pre s).method = s.method from rfl, ha, he]
    rfl

theorem name_plain {b : Bytes} (h : Name b) : Plain b := by
  intro c hc
  have := h.2 c hc
  have hall : ∀ n : Fin 256, (alnum n.val.toUInt8 = true ∨ n.val = 45 ∨ n.val = 95) →
    n.val ≠ 35 ∧ n.val ≠ 37 ∧ n.val ≠ 63 ∧ n.val ≠ 127 ∧ 32 ≤ n.val := by decide +kernel
  have hc' : c.toNat.toUInt8 = c := UInt8.ofNat_toNat
  have := hall ⟨c.toNat, c.toNat_lt⟩ (by
    simp only [hc']
    rcases this with h | rfl | rfl
    · exact .inl h
    · exact .inr (.inl rfl)
    · exact .inr (.inr rfl))
  simp only at this
  refine ⟨?_, ?_, ?_, ?_, ?_⟩
  · rintro rfl; exact this.1 rfl
  · rintro rfl; exact this.2.1 rfl
  · rintro rfl; exact this.2.2.1 rfl
  · rintro rfl; exact this.2.2.2.1 rfl
  · intro h; have : c.toNat < 32 := h; omega

theorem name_isKey {b : Bytes} (h : Name b) : isKey b = true := by
  unfold isKey
  rw [Bool.not_eq_true', Bool.or_eq_false_iff, Bool.eq_false_iff, Bool.eq_false_iff]
  constructor
  · intro hm
    rcases h.2 _ (List.contains_iff_mem.1 hm) with h | h | h <;> revert h <;> decide
  · intro hm
    rcases h.2 _ (List.contains_iff_mem.1 hm) with h | h | h <;> revert h <;> decide

theorem plain_append {a b : Bytes} (h1 : Plain a) (h2 : Plain b) : Plain (a ++ b) := by
  intro c hc
  rcases List.mem_append.1 hc with h | h
  · exact h1 c h
  · exact h2 c h

theorem plain_known : Plain WebRoute.pathKnownModules ∧ Plain WebRoute.pathInstances ∧ Plain WebRoute.pathModule := by
  refine ⟨?_, ?_, ?_⟩ <;> intro c hc <;> revert c <;> decide +kernel

theorem api_known (k : Bytes) : (∃ x, WebRoute.pathKnownModules ++ k = WebRoute.pathAPI ++ x) ∧ (∃ x, WebRoute.pathInstances ++ k = WebRoute.pathAPI ++ x) ∧
    ∃ x, WebRoute.pathModule ++ k = WebRoute.pathAPI ++ x :=
  ⟨⟨_, List.append_assoc _ _ _⟩, ⟨_, List.append_assoc _ _ _⟩, ⟨_, List.append_assoc _ _ _⟩⟩

theorem api_paths : WebRoute.pathKnownModules = str "/gate-0/module/sha256/" ∧ WebRoute.pathInstances = str "/gate-0/instance/" ∧
    WebRoute.pathModule = str "/gate-0/module" := by decide +kernel

theorem effective_orTail (a b : List Bytes) : orTail a b = effective a b := by
  unfold orTail effective
  cases a <;> simp

/-- Parameters as the commands make them. -/
def P (a : String) (a2 : List String) (f i : Bytes) (its : List Bytes) (lg : Bool) (a3 : List String) (mts : List Bytes) : List (Bytes × Bytes) :=
  [a].map act ++ (a2.map act ++ optional "function" f ++ optional "instance" i ++ tagsOf "instance.tag" its ++
    (if lg then [(str "log", str "*")] else []) ++ (a3.map act ++ tagsOf "module.tag" mts))

theorem performs_P {sc : WebRoute.Conf} {pre : Bytes} {srcs : List Bytes} {c : Conf} {cmd : Cmd} {res : Resource} {o : Op}
    {me : String} {ty : List String} {oj lo : Bool} {le : Int} {uri : Bytes} {a : String} {a2 : List String} {f i : Bytes} {its : List Bytes}
    {lg : Bool} {a3 : List String} {mts : List Bytes} {h : Web.Req → Web.M Unit}
    (hs : send c cmd = some ⟨me, ty, oj, lo, le, uri, P a a2 f i its lg a3 mts⟩) (hl : lo = true ∨ Plain (pre ++ uri))
    (hu : ∃ k, uri = WebRoute.pathAPI ++ k) (hr : WebRoute.route pre srcs (pre ++ uri) = some res)
    (hacts : ([a] ++ a2 ++ a3).all (fun a => text (str a) == a) = true)
    (ha : WebRoute.act res me = .handle h)
    (he : ∀ r : Web.Req, r.parses = true → r.raw = true → r.types = ty → r.length = le →
      r.query = Q (a :: (a2 ++ a3)) (text f) (text i) (its.map text) lg (mts.map text) → (h r).1 = [.op o]) :
    Performs sc pre srcs c cmd res o := by
  have hsort := sorted_params [a] a2 a3 f i its lg mts
  refine performs_of hs hl hu ?_ hr ha (he _ rfl ?_ rfl rfl ?_)
  · intro hn
    have : sorted (P a a2 f i its lg a3 mts) = _ := hsort
    simp only at hn
    rw [hn] at this
    simp at this
  · simp [wire, P]
  · exact sorted_Q ([a] ++ a2 ++ a3) hacts _ f i its lg mts hsort

theorem performs_0 {sc : WebRoute.Conf} {pre : Bytes} {srcs : List Bytes} {c : Conf} {cmd : Cmd} {res : Resource} {o : Op}
    {me : String} {ty : List String} {oj lo : Bool} {le : Int} {uri : Bytes} {h : Web.Req → Web.M Unit}
    (hs : send c cmd = some ⟨me, ty, oj, lo, le, uri, []⟩) (hl : lo = true ∨ Plain (pre ++ uri))
    (hu : ∃ k, uri = WebRoute.pathAPI ++ k) (hr : WebRoute.route pre srcs (pre ++ uri) = some res)
    (ha : WebRoute.act res me = .handle h)
    (he : ∀ r : Web.Req, r.parses = true → r.raw = false → r.types = ty → r.length = le → r.acceptJSON = true → r.acceptWasm = !oj →
      r.query = [] → (h r).1 = [.op o]) :
    Performs sc pre srcs c cmd res o := by
  refine performs_of hs hl hu (fun _ => rfl) hr ha (he _ rfl ?_ rfl rfl rfl rfl ?_)
  · simp [wire]
  · simp [wire, sorted, sortedKeys]

theorem list_ok (r : Web.Req) (hraw : r.raw = false) (ht : r.types = []) (hl : r.length = 0) (hj : r.acceptJSON = true) :
    (Web.postKnownModules r).1 = [.op .moduleList] ∧ (Web.postInstances r).1 = [.op .instanceList] := by
  constructor
  · unfold Web.postKnownModules
    simp [Web.noQuery, Web.noType, Web.noBody, Web.acceptsJSON, hraw, ht, hl, hj, pure_bind']
    rfl
  · unfold Web.postInstances
    simp [Web.noQuery, Web.noType, Web.noBody, Web.acceptsJSON, hraw, ht, hl, hj, pure_bind']
    rfl

theorem all_bool (c : Bool) (a b : String) (h1 : (text (str a) == a) = true) (h2 : (text (str b) == b) = true) :
    ([a] ++ [] ++ (if c then [b] else [])).all (fun a => text (str a) == a) = true := by
  cases c <;> simp_all

/-- C148: for all configurations and arguments, what the server does for a command is the operation which
the command means, on the resource that it names, and nothing else.  Missing: the launch command with a
module source (`launch_source_refuted`), the debug command (`remote_debug_refuted`), and arguments which
aren't names (`show_unpins_refuted`). -/
theorem performs_partial (sc : WebRoute.Conf) (pre : Bytes) (srcs : List Bytes) (hs : WebRoute.Proper srcs) (hi : str "/ipfs" ∈ srcs) (hpre : Plain pre)
    (c : Conf) (cmd : Cmd) (res : Resource) (o : Op) (hw : Wanted c cmd res o) (hf : FunctionOk c cmd)
    (hn : ∀ k fn tags key size, cmd ≠ .launch (str "/ipfs/" ++ k) fn tags key size) : Performs sc pre srcs c cmd res o := by
  have rm : ∀ k : Bytes, k ≠ [] → WebRoute.route pre srcs (pre ++ (WebRoute.pathKnownModules ++ k)) = some (.module_ k) := by
    intro k hk; rw [api_paths.1]; exact WebRoute.route_complete pre srcs hs _ _ (.module_ k hk)
  have ri : ∀ k : Bytes, k ≠ [] → WebRoute.route pre srcs (pre ++ (WebRoute.pathInstances ++ k)) = some (.instance_ k) := by
    intro k hk; rw [api_paths.2.1]; exact WebRoute.route_complete pre srcs hs _ _ (.instance_ k hk)
  have pm : ∀ k : Bytes, Name k → Plain (pre ++ (WebRoute.pathKnownModules ++ k)) := fun k hk =>
    plain_append hpre (plain_append plain_known.1 (name_plain hk))
  have pi : ∀ k : Bytes, Name k → Plain (pre ++ (WebRoute.pathInstances ++ k)) := fun k hk =>
    plain_append hpre (plain_append plain_known.2.1 (name_plain hk))
  have fileArg : ∀ file : Bytes, (47 ∈ file ∨ 46 ∈ file) → ¬ str "/ipfs/" <+: file → isKey file = false ∧ (str "/ipfs/").isPrefixOf file = false := by
    intro file h1 h2
    constructor
    · unfold isKey
      rcases h1 with h | h <;> simp [h]
    · rw [Bool.eq_false_iff]; intro h; exact h2 (List.isPrefixOf_iff_prefix.1 h)
  have srcArg : ∀ k : Bytes, isKey (str "/ipfs/" ++ k) = false ∧ (str "/ipfs/").isPrefixOf (str "/ipfs/" ++ k) = true := by
    intro k
    constructor
    · unfold isKey
      have : (47 : UInt8) ∈ str "/ipfs/" ++ k := List.mem_append_left _ (by decide)
      simp [this]
    · exact List.isPrefixOf_iff_prefix.2 ⟨k, rfl⟩
  have fok : ∀ fn : Option Bytes, (effectiveFunction c fn = [] ∨ Web.validFunction (text (effectiveFunction c fn)) = true) →
      (text (effectiveFunction c fn) = "" ∨ Web.validFunction (text (effectiveFunction c fn)) = true) := by
    intro fn h
    rcases h with h | h
    · exact .inl ((text_empty _).2 h)
    · exact .inr h
  have efn : ∀ fn : Option Bytes, functionArg c fn = effectiveFunction c fn := by
    intro fn; cases fn <;> rfl
  have etags : ∀ (fn : Option Bytes) (tags : List Bytes), (fn = none → tags = []) →
      launchTags c fn tags = effective tags c.instanceTags := by
    intro fn tags h
    cases fn with
    | none => simp [h rfl, effective, launchTags]
    | some f => exact effective_orTail _ _
  have m1 : ∀ (b : Bool) (l : List Bytes), (if b then l else []).map text = if b then l.map text else [] := by
    intro b l; cases b <;> rfl
  cases hw with
  | callKnown m fn key size hm =>
    refine performs_P (h := Web.postKnownModule) (me := "POST") (ty := []) (oj := false) (lo := true) (le := -1) (a := "call") (a2 := [])
      (f := effectiveFunction c fn) (i := []) (its := c.instanceTags) (lg := c.debugLog) (a3 := []) (mts := [])
      ?_ (.inl rfl) (api_known m).1 (rm m hm.1) (by decide +kernel) rfl ?_
    · simp only [send, name_isKey hm, if_true, efn, P, logParam, optional]
      simp [tagsOf]
    · intro r h1 _ _ _ h5
      exact post_call _ _ _ r h1 h5 (fok fn hf)
  | callSource k fn key size hk =>
    refine performs_P (h := Web.postModuleSource) (me := "POST") (ty := []) (oj := false) (lo := true) (le := -1) (a := "call") (a2 := [])
      (f := effectiveFunction c fn) (i := []) (its := c.instanceTags) (lg := c.debugLog) (a3 := if c.pin then ["pin"] else [])
      (mts := if c.pin then c.moduleTags else []) (uri := WebRoute.pathModule ++ (str "/ipfs/" ++ k))
      ?_ (.inl rfl) (api_known _).2.2 ?_ (all_bool _ _ _ (by decide +kernel) (by decide +kernel)) rfl ?_
    · simp only [send, (srcArg k).1, (srcArg k).2, Bool.false_eq_true, if_false, if_true, efn, P, logParam, optional, pinParams]
      cases c.pin <;> simp [tagsOf]
    · rw [api_paths.2.2]
      have := WebRoute.route_complete pre srcs hs _ _ (.source (str "/ipfs") k hi hk)
      have e : str "/ipfs/" = str "/ipfs" ++ str "/" := by decide
      rw [e]
      simpa only [List.append_assoc] using this
    · intro r h1 _ _ _ h5
      rw [m1] at h5
      exact source_call _ _ _ _ r c.pin h1 h5 (fok fn hf)
  | callFile file fn key size h1 h2 hk =>
    refine performs_P (h := Web.getKnownModule) (me := "GET") (ty := []) (oj := false) (lo := true) (le := 0) (a := "call") (a2 := [])
      (f := effectiveFunction c fn) (i := []) (its := c.instanceTags) (lg := c.debugLog) (a3 := if c.pin then ["pin"] else [])
      (mts := if c.pin then c.moduleTags else []) (uri := WebRoute.pathKnownModules ++ key)
      ?_ (.inl rfl) (api_known _).1 (rm key hk.1) (all_bool _ _ _ (by decide +kernel) (by decide +kernel)) rfl ?_
    · simp only [send, (fileArg file h1 h2).1, (fileArg file h1 h2).2, Bool.false_eq_true, if_false, efn, P, logParam, optional, pinParams]
      cases c.pin <;> simp [tagsOf]
    · intro r h1 h2 _ _ h5
      rw [m1] at h5
      exact put_call_or_ws _ _ _ _ r c.pin h1 h2 h5 (fok fn hf)
  | launchKnown m fn tags key size hm ht =>
    refine performs_P (h := Web.postKnownModule) (me := "POST") (ty := []) (oj := false) (lo := false) (le := 0) (a := "launch")
      (a2 := if c.suspend then ["suspend"] else [])
      (f := effectiveFunction c fn) (i := c.instance_) (its := effective tags c.instanceTags) (lg := c.debugLog) (a3 := []) (mts := [])
      ?_ (.inr (pm m hm)) (api_known m).1 (rm m hm.1) (by cases c.suspend <;> decide +kernel) rfl ?_
    · simp only [send, name_isKey hm, if_true, efn, etags fn tags ht, P, logParam, post]
      cases c.suspend <;> simp [tagsOf]
    · intro r h1 _ h3 h4 h5
      rw [List.append_nil] at h5
      exact post_launch _ _ _ _ r c.suspend h1 h3 h4 h5 (fok fn hf)
  | launchFile file fn tags key size h1 h2 hk ht =>
    refine performs_P (h := Web.putKnownModule) (me := "PUT") (ty := ["application/wasm"]) (oj := false) (lo := true) (le := size) (a := "launch")
      (a2 := if c.suspend then ["suspend"] else [])
      (f := effectiveFunction c fn) (i := c.instance_) (its := effective tags c.instanceTags) (lg := c.debugLog) (a3 := if c.pin then ["pin"] else [])
      (mts := if c.pin then c.moduleTags else []) (uri := WebRoute.pathKnownModules ++ key)
      ?_ (.inl rfl) (api_known key).1 (rm key hk.1) (by cases c.suspend <;> cases c.pin <;> decide +kernel) rfl ?_
    · simp only [send, (fileArg file h1 h2).1, (fileArg file h1 h2).2, Bool.false_eq_true, if_false, efn, etags fn tags ht, P, logParam, pinParams]
      cases c.suspend <;> cases c.pin <;> simp [tagsOf]
    · intro r h1 h2 h3 h4 h5
      rw [m1] at h5
      exact put_launch _ _ _ _ _ r c.suspend c.pin h1 h2 h3 (by omega) h5 (fok fn hf)
  | launchSource k fn tags key size => exact absurd rfl (hn k fn tags key size)
  | import_ tags key size hk =>
    refine performs_P (h := Web.putKnownModule) (me := "PUT") (ty := ["application/wasm"]) (oj := false) (lo := true) (le := size) (a := "pin") (a2 := [])
      (f := []) (i := []) (its := []) (lg := false) (a3 := []) (mts := effective tags c.moduleTags)
      ?_ (.inl rfl) (api_known key).1 (rm key hk.1) (by decide +kernel) rfl ?_
    · simp [send, effective_orTail, P, optional, tagsOf]
    · intro r h1 h2 h3 h4 h5
      exact put_pin _ r h1 h2 h3 (by omega) h5
  | push m size hk =>
    refine performs_P (h := Web.putKnownModule) (me := "PUT") (ty := ["application/wasm"]) (oj := false) (lo := true) (le := size) (a := "pin") (a2 := [])
      (f := []) (i := []) (its := []) (lg := false) (a3 := []) (mts := [])
      ?_ (.inl rfl) (api_known m).1 (rm m hk.1) (by decide +kernel) rfl ?_
    · simp [send, P, optional, tagsOf]
    · intro r h1 h2 h3 h4 h5
      exact put_pin _ r h1 h2 h3 (by omega) h5
  | pin m tags hm =>
    refine performs_P (h := Web.postKnownModule) (me := "POST") (ty := []) (oj := false) (lo := false) (le := 0) (a := "pin") (a2 := [])
      (f := []) (i := []) (its := []) (lg := false) (a3 := []) (mts := effective tags c.moduleTags)
      ?_ (.inr (pm m hm)) (api_known m).1 (rm m hm.1) (by decide +kernel) rfl ?_
    · simp [send, post, effective_orTail, P, optional, tagsOf]
    · intro r h1 h2 h3 h4 h5
      exact post_pin _ r h1 h3 h4 h5
  | unpin m hm =>
    refine performs_P (h := Web.postKnownModule) (me := "POST") (ty := []) (oj := false) (lo := false) (le := 0) (a := "unpin") (a2 := [])
      (f := []) (i := []) (its := []) (lg := false) (a3 := []) (mts := [])
      ?_ (.inr (pm m hm)) (api_known m).1 (rm m hm.1) (by decide +kernel) rfl ?_
    · simp [send, post, P, optional, tagsOf]
    · intro r h1 h2 h3 h4 h5
      exact post_unpin r h1 h3 h4 h5
  | export_ m hm =>
    exact performs_0 (h := Web.getKnownModule) rfl (.inr (pm m hm)) (api_known m).1 (rm m hm.1) rfl
      (fun r h1 _ _ _ _ h6 h7 => get_download r h1 h6 h7)
  | show_ m hm =>
    exact performs_0 (h := Web.postKnownModule) rfl (.inr (pm m hm)) (api_known m).1 (rm m hm.1) rfl
      (fun r h1 _ _ _ h5 _ h7 => (post_info r h1 h5 h7).1)
  | status id hi' =>
    exact performs_0 (h := Web.postInstance) rfl (.inr (pi id hi')) (api_known id).2.1 (ri id hi'.1) rfl
      (fun r h1 _ _ _ h5 _ h7 => (post_info r h1 h5 h7).2)
  | modules =>
    refine performs_0 (h := Web.postKnownModules) rfl (.inr (plain_append hpre plain_known.1)) ⟨_, rfl⟩ ?_ rfl
      (fun r _ h2 h3 h4 h5 _ _ => (list_ok r h2 h3 h4 h5).1)
    rw [api_paths.1]; exact WebRoute.route_complete pre srcs hs _ _ .modules
  | instances =>
    refine performs_0 (h := Web.postInstances) rfl (.inr (plain_append hpre plain_known.2.1)) ⟨_, rfl⟩ ?_ rfl
      (fun r _ h2 h3 h4 h5 _ _ => (list_ok r h2 h3 h4 h5).2)
    rw [api_paths.2.1]; exact WebRoute.route_complete pre srcs hs _ _ .instances
  | io id hi' =>
    refine performs_P (h := Web.postInstance) (me := "POST") (ty := []) (oj := false) (lo := true) (le := -1) (a := "io") (a2 := [])
      (f := []) (i := []) (its := []) (lg := false) (a3 := []) (mts := [])
      ?_ (.inl rfl) (api_known id).2.1 (ri id hi'.1) (by decide +kernel) rfl ?_
    · simp [send, P, optional, tagsOf]
    · intro r h1 _ _ _ h5
      exact post_instance r h1 ["io"] _ (by simp) h5
  | repl id hi' =>
    refine performs_P (h := Web.getInstance) (me := "GET") (ty := []) (oj := false) (lo := true) (le := 0) (a := "io") (a2 := [])
      (f := []) (i := []) (its := []) (lg := false) (a3 := []) (mts := [])
      ?_ (.inl rfl) (api_known id).2.1 (ri id hi'.1) (by decide +kernel) rfl ?_
    · simp [send, P, optional, tagsOf]
    · intro r h1 _ _ _ h5
      exact get_io r h1 h5
  | delete id hi' =>
    refine performs_P (h := Web.postInstance) (me := "POST") (ty := []) (oj := false) (lo := false) (le := 0) (a := "delete") (a2 := [])
      (f := []) (i := []) (its := []) (lg := false) (a3 := []) (mts := [])
      ?_ (.inr (pi id hi')) (api_known id).2.1 (ri id hi'.1) (by decide +kernel) rfl ?_
    · simp [send, post, P, optional, tagsOf]
    · intro r h1 _ _ _ h5
      exact post_instance r h1 ["delete"] _ (by simp) h5
  | wait id hi' =>
    refine performs_P (h := Web.postInstance) (me := "POST") (ty := []) (oj := false) (lo := false) (le := 0) (a := "wait") (a2 := [])
      (f := []) (i := []) (its := []) (lg := false) (a3 := []) (mts := [])
      ?_ (.inr (pi id hi')) (api_known id).2.1 (ri id hi'.1) (by decide +kernel) rfl ?_
    · simp [send, post, P, optional, tagsOf]
    · intro r h1 _ _ _ h5
      exact post_instance r h1 ["wait"] _ (by simp) h5
  | kill id hi' =>
    refine performs_P (h := Web.postInstance) (me := "POST") (ty := []) (oj := false) (lo := false) (le := 0) (a := "kill") (a2 := [])
      (f := []) (i := []) (its := []) (lg := false) (a3 := if c.wait then ["wait"] else []) (mts := [])
      ?_ (.inr (pi id hi')) (api_known id).2.1 (ri id hi'.1) (all_bool _ _ _ (by decide +kernel) (by decide +kernel)) rfl ?_
    · cases hc : c.wait <;> simp [send, post, P, optional, tagsOf, hc]
    · intro r h1 _ _ _ h5
      cases hc : c.wait
      · rw [hc] at h5; exact post_instance r h1 ["kill"] _ (by simp) h5
      · rw [hc] at h5; exact post_instance r h1 ["kill", "wait"] _ (by simp) h5
  | suspend id hi' =>
    refine performs_P (h := Web.postInstance) (me := "POST") (ty := []) (oj := false) (lo := false) (le := 0) (a := "suspend") (a2 := [])
      (f := []) (i := []) (its := []) (lg := false) (a3 := if c.wait then ["wait"] else []) (mts := [])
      ?_ (.inr (pi id hi')) (api_known id).2.1 (ri id hi'.1) (all_bool _ _ _ (by decide +kernel) (by decide +kernel)) rfl ?_
    · cases hc : c.wait <;> simp [send, post, P, optional, tagsOf, hc]
    · intro r h1 _ _ _ h5
      cases hc : c.wait
      · rw [hc] at h5; exact post_instance r h1 ["suspend"] _ (by simp) h5
      · rw [hc] at h5; exact post_instance r h1 ["suspend", "wait"] _ (by simp) h5
  | resume id hi' =>
    refine performs_P (h := Web.postInstance) (me := "POST") (ty := []) (oj := false) (lo := false) (le := 0) (a := "resume") (a2 := [])
      (f := []) (i := []) (its := []) (lg := c.debugLog) (a3 := []) (mts := [])
      ?_ (.inr (pi id hi')) (api_known id).2.1 (ri id hi'.1) (by decide +kernel) rfl ?_
    · simp [send, post, P, optional, tagsOf, logParam]
    · intro r h1 _ _ _ h5
      exact post_resume _ r h1 h5
  | snapshot id tags hi' =>
    refine performs_P (h := Web.postInstance) (me := "POST") (ty := []) (oj := false) (lo := false) (le := 0) (a := "snapshot") (a2 := [])
      (f := []) (i := []) (its := []) (lg := false) (a3 := []) (mts := effective tags c.moduleTags)
      ?_ (.inr (pi id hi')) (api_known id).2.1 (ri id hi'.1) (by decide +kernel) rfl ?_
    · simp [send, post, effective_orTail, P, optional, tagsOf]
    · intro r h1 _ _ _ h5
      exact post_snapshot _ r h1 h5
  | update id tags hi' ht =>
    refine performs_P (h := Web.postInstance) (me := "POST") (ty := ["application/json"]) (oj := false) (lo := true) (le := 1) (a := "update") (a2 := [])
      (f := []) (i := []) (its := []) (lg := false) (a3 := []) (mts := [])
      ?_ (.inl rfl) (api_known id).2.1 (ri id hi'.1) (by decide +kernel) rfl ?_
    · simp [send, effective_orTail, P, optional, tagsOf, ht]
    · intro r h1 _ _ _ h5
      exact post_instance r h1 ["update"] _ (by simp) h5

/-! ## What is false -/

/-- C148 is false of launching a module of a source: its method is PUT, which the server doesn't allow there.
For all configurations and (plain) module paths. -/
theorem launch_source_refuted (sc : WebRoute.Conf) (pre : Bytes) (srcs : List Bytes) (hs : WebRoute.Proper srcs) (hi : str "/ipfs" ∈ srcs) (hpre : Plain pre)
    (c : Conf) (k : Bytes) (hk : k ≠ []) (hkp : Plain k) (fn : Option Bytes) (tags : List Bytes) (key : Bytes) (size : Nat) :
    ∃ r, run pre c (.launch (str "/ipfs/" ++ k) fn tags key size) = .request r ∧
      (WebRoute.serve sc pre srcs r).body = .notAllowed ["OPTIONS", "POST"] ∧ WebRoute.operations (WebRoute.serve sc pre srcs r) = [] := by
  have h1 : isKey (str "/ipfs/" ++ k) = false := by
    unfold isKey
    have : (47 : UInt8) ∈ str "/ipfs/" ++ k := List.mem_append_left _ (by decide)
    simp [this]
  have h2 : (str "/ipfs/").isPrefixOf (str "/ipfs/" ++ k) = true := List.isPrefixOf_iff_prefix.2 ⟨k, rfl⟩
  have hr : WebRoute.route pre srcs (pre ++ (WebRoute.pathModule ++ (str "/ipfs/" ++ k))) = some (.source (str "/ipfs") (str "/ipfs/" ++ k)) := by
    rw [api_paths.2.2]
    have := WebRoute.route_complete pre srcs hs _ _ (.source (str "/ipfs") k hi hk)
    have e : str "/ipfs/" = str "/ipfs" ++ str "/" := by decide
    rw [e]
    simpa only [List.append_assoc] using this
  have hsend : ∃ f i its lg a2 a3 mts, send c (.launch (str "/ipfs/" ++ k) fn tags key size) =
      some ⟨"PUT", [], false, false, 0, WebRoute.pathModule ++ (str "/ipfs/" ++ k), P "launch" a2 f i its lg a3 mts⟩ := by
    refine ⟨functionArg c fn, c.instance_, launchTags c fn tags, c.debugLog, if c.suspend then ["suspend"] else [],
      if c.pin then ["pin"] else [], if c.pin then c.moduleTags else [], ?_⟩
    simp only [send, h1, h2, Bool.false_eq_true, if_false, if_true, P, logParam, pinParams]
    cases c.suspend <;> cases c.pin <;> simp [tagsOf]
  obtain ⟨f, i, its, lg, a2, a3, mts, hsend⟩ := hsend
  have hpl : Plain (pre ++ (WebRoute.pathModule ++ (str "/ipfs/" ++ k))) :=
    plain_append hpre (plain_append plain_known.2.2 (plain_append (by intro c hc; revert c; decide +kernel) hkp))
  obtain ⟨u, hu1, hu2⟩ := delivered pre ⟨"PUT", [], false, false, 0, WebRoute.pathModule ++ (str "/ipfs/" ++ k), P "launch" a2 f i its lg a3 mts⟩
    (.inr hpl) (api_known _).2.2 (by
      intro hn
      have : sorted (P "launch" a2 f i its lg a3 mts) = _ := sorted_params ["launch"] a2 a3 f i its lg mts
      simp only at hn
      rw [hn] at this
      simp at this)
  have hrun : run pre c (.launch (str "/ipfs/" ++ k) fn tags key size) = .request (wire pre
      ⟨"PUT", [], false, false, 0, WebRoute.pathModule ++ (str "/ipfs/" ++ k), P "launch" a2 f i its lg a3 mts⟩) := by
    unfold run
    rw [hsend]
    simp only [hu1, hu2]
  refine ⟨_, hrun, ?_⟩
  unfold WebRoute.serve
  rw [if_neg (by rintro ⟨-, o, ho, -⟩; cases ho)]
  simp only [wire, hr, WebRoute.respond, WebRoute.act]
  exact ⟨rfl, rfl⟩

theorem cut_append_of_not_mem (sep : UInt8) (a b : Bytes) (h : sep ∉ a) : cut sep (a ++ b) = (a ++ (cut sep b).1, (cut sep b).2) := by
  induction a with
  | nil => rfl
  | cons x xs ih =>
    have hx : x ≠ sep := fun e => h (by simp [e])
    simp only [List.cons_append, cut, hx, if_false]
    rw [ih fun hm => h (by simp [hm])]

/-- C148 is false of arguments which aren't names: `gate ADDRESS show MODULE?action=unpin` unpins the module. -/
theorem show_unpins_refuted (sc : WebRoute.Conf) (pre : Bytes) (srcs : List Bytes) (hs : WebRoute.Proper srcs) (hpre : Plain pre) (c : Conf) (m : Bytes) (hm : Name m) :
    Performs sc pre srcs c (.show_ (m ++ str "?action=unpin")) (.module_ m) .moduleUnpin := by
  have hb : Plain (pre ++ (WebRoute.pathKnownModules ++ m)) := plain_append hpre (plain_append plain_known.1 (name_plain hm))
  have e : str "?action=unpin" = 63 :: str "action=unpin" := by decide
  have hparse : ∃ rp, parse (pre ++ (WebRoute.pathKnownModules ++ (m ++ str "?action=unpin"))) =
      some ⟨pre ++ (WebRoute.pathKnownModules ++ m), rp, str "action=unpin"⟩ := by
    have e2 : pre ++ (WebRoute.pathKnownModules ++ (m ++ str "?action=unpin")) = (pre ++ (WebRoute.pathKnownModules ++ m)) ++ 63 :: str "action=unpin" := by
      rw [e]; simp only [List.append_assoc]
    rw [e2]
    unfold parse
    rw [cut_none 35 _ (by
      intro h
      rcases List.mem_append.1 h with h | h
      · exact (hb _ h).1 rfl
      · revert h; decide)]
    unfold parseRest
    rw [if_neg]
    · rw [cut_of_not_mem 63 _ _ (fun h => (hb _ h).2.2.1 rfl)]
      simp only [setPath, unescape_of_plain _ (fun h => (hb _ h).2.1 rfl)]
      exact ⟨_, rfl⟩
    · simp only [List.any_eq_true, not_exists, not_and]
      intro c hc
      rcases List.mem_append.1 hc with h | h
      · have := hb c h
        simp [this.2.2.2.1, this.2.2.2.2]
      · exact (by decide : ∀ c ∈ (63 :: str "action=unpin" : Bytes), ¬(decide (c < 32) || c == 127) = true) c h
  obtain ⟨rp, hparse⟩ := hparse
  obtain ⟨h1, rp', h2⟩ := arrives ⟨pre ++ (WebRoute.pathKnownModules ++ m), rp, str "action=unpin"⟩ (fun c hc =>
    (by decide : ∀ c ∈ str "action=unpin", c ≠ 32 ∧ c ≠ 127 ∧ ¬ c < 32) c hc)
  have hr : WebRoute.route pre srcs (pre ++ (WebRoute.pathKnownModules ++ m)) = some (.module_ m) := by
    rw [api_paths.1]; exact WebRoute.route_complete pre srcs hs _ _ (.module_ m hm.1)
  have hq : parseQuery (str "action=unpin") = ([(str "action", str "unpin")], true) := by decide +kernel
  have hrun : run pre c (.show_ (m ++ str "?action=unpin")) = .request ⟨"POST", pre ++ (WebRoute.pathKnownModules ++ m), [],
      ⟨"POST" == "GET", decide (str "action=unpin" ≠ []), true, [("action", "unpin")], [], 0, true, true⟩⟩ := by
    simp only [run, send, post, makeURL, Bool.false_eq_true, if_false, hparse, Option.map_some, List.length_nil, Nat.lt_irrefl, receive, h1, h2, hq]
    have : [(str "action", str "unpin")].map (fun kv => (text kv.1, text kv.2)) = [("action", "unpin")] := by decide +kernel
    rw [this]
    rfl
  refine ⟨_, hrun, hr, ?_⟩
  unfold WebRoute.serve
  rw [if_neg (by rintro ⟨-, o, ho, -⟩; cases ho)]
  simp only [hr, WebRoute.respond, WebRoute.act]
  have := post_unpin ⟨"POST" == "GET", decide (str "action=unpin" ≠ []), true, [("action", "unpin")], [], 0, true, true⟩ rfl rfl rfl rfl
  simp only [show ("POST" = "GET") = False by decide, show ("POST" = "HEAD") = False by decide, show ("POST" = "PUT") = False by decide, or_self, if_false, if_true]
  rw [this]
  rfl

/-- An argument which isn't a URL path makes the program dereference a nil pointer. -/
theorem bad_argument_refuted (pre : Bytes) (hpre : Plain pre) (c : Conf) (m : Bytes) (hm : Name m) :
    run pre c (.show_ (m ++ str "%")) = .crash ∧ run pre c (.unpin (m ++ str "%")) = .crash := by
  have hb : Plain (pre ++ (WebRoute.pathKnownModules ++ m)) := plain_append hpre (plain_append plain_known.1 (name_plain hm))
  have hu : ∀ b : Bytes, (37 : UInt8) ∉ b → unescape .path (b ++ [37]) = none := by
    intro b hb
    induction b with
    | nil => rfl
    | cons x xs ih =>
      rw [List.cons_append, unescape_plain _ _ _ (fun e => hb (by simp [e])), ih fun hm => hb (by simp [hm])]
      rfl
  have hparse : parse (pre ++ (WebRoute.pathKnownModules ++ (m ++ str "%"))) = none := by
    have e2 : pre ++ (WebRoute.pathKnownModules ++ (m ++ str "%")) = (pre ++ (WebRoute.pathKnownModules ++ m)) ++ [37] := by
      rw [show str "%" = [37] by decide]; simp only [List.append_assoc]
    rw [e2]
    unfold parse
    rw [cut_none 35 _ (by
      intro h
      rcases List.mem_append.1 h with h | h
      · exact (hb _ h).1 rfl
      · revert h; decide)]
    unfold parseRest
    rw [cut_none 63 _ (by
      intro h
      rcases List.mem_append.1 h with h | h
      · exact (hb _ h).2.2.1 rfl
      · revert h; decide)]
    simp only [setPath, hu _ (fun h => (hb _ h).2.1 rfl)]
    split <;> rfl
  constructor <;> simp only [run, send, post, makeURL, Bool.false_eq_true, if_false, hparse, Option.map_none]

/-- C148 is false of the debug command for a remote server: whatever it sends is refused, because it isn't
JSON.  For all subcommands, whatever else the server's decoder demands. -/
theorem remote_debug_refuted (cmd : DebugCmd) (offsets : Bool) (rest : Bytes → Bool) (b : Bytes) (h : debugBody cmd offsets = .body b) :
    acceptsMessage rest b = false := by
  cases cmd <;> cases offsets <;> simp only [debugBody] at h <;> cases h <;> rfl

/-- Setting a breakpoint, and deleting one, crashes the program (locally as well). -/
theorem debug_break_refuted : (∀ offsets, debugBody .break_ offsets = .crash) ∧ debugBody .delete true = .crash := ⟨fun _ => rfl, rfl⟩

/-! ## Examples -/

def exampleConf : Conf := ⟨true, [str "a b", str "c&d=e"], true, [], [], [str "x/y?"], true, true⟩

example : Wanted exampleConf (.launch (str "hello.wasm") (some (str "main")) [str "t"] (str "00ff") 1000) (.module_ (str "00ff"))
    (.launch true true "main" "" ["a b", "c&d=e"] ["t"]) := by
  have := Wanted.launchFile (c := exampleConf) (str "hello.wasm") (some (str "main")) [str "t"] (str "00ff") 1000
    (.inr (by decide)) (by rw [← List.isPrefixOf_iff_prefix]; decide) ⟨by decide, by decide⟩ (by simp)
  have e : (Op.launch exampleConf.pin exampleConf.suspend (text (effectiveFunction exampleConf (some (str "main")))) (text exampleConf.instance_)
      (if exampleConf.pin then exampleConf.moduleTags.map text else []) ((effective [str "t"] exampleConf.instanceTags).map text)) =
      .launch true true "main" "" ["a b", "c&d=e"] ["t"] := by decide +kernel
  rw [← e]
  exact this
example : FunctionOk exampleConf (.launch (str "hello.wasm") (some (str "main")) [str "t"] (str "00ff") 1000) := .inr (by decide +kernel)
example : Plain (str "/prefix") := by intro c hc; revert c; decide
example : encode [(str "a", str "b c&=/" ++ [0xc3])] = str "a=b+c%26%3D%2F%C3" := by decide +kernel

end Gate.Client
