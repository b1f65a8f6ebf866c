import Verif.Accept

/-!
# C152: Content negotiation

The specification: which media types an Accept header names, by decomposition of the header's bytes (`Names`), and what
RFC 7231 section 5.3.2 says about the acceptability of a type for well-formed headers (`rfc`).
-/

namespace Gate.Accept
open Gate.Auth (str)

/-! ### Specification -/

/-- The header `h` has `t` as the media type of one of its comma-separated fields: a field is white space, the type,
white space, and possibly parameters which begin with a semicolon. -/
def Names (h t : Bytes) : Prop :=
  ∃ pre ws1 ws2 params post,
    h = pre ++ (ws1 ++ t ++ ws2 ++ params) ++ post ∧
    (pre = [] ∨ ∃ p, pre = p ++ [44]) ∧ (post = [] ∨ ∃ p, post = 44 :: p) ∧
    (44 : UInt8) ∉ ws1 ++ t ++ ws2 ++ params ∧
    (∀ c ∈ ws1, isSpace c = true) ∧ (∀ c ∈ ws2, isSpace c = true) ∧
    (params = [] ∨ ∃ p, params = 59 :: p)

/-- A type without surrounding white space, commas and semicolons. -/
structure Plain (t : Bytes) : Prop where
  comma : (44 : UInt8) ∉ t
  semi : (59 : UInt8) ∉ t
  first : ∀ c, t.head? = some c → isSpace c = false
  last : ∀ c, t.getLast? = some c → isSpace c = false

/-- An element of an Accept header: optional white space, media range, optional white space, and the weight in
thousandths. -/
structure Range where
  ws1 : Bytes
  ty : Bytes
  ws2 : Bytes
  q : Nat

def digit (n : Nat) : UInt8 := UInt8.ofNat (48 + n % 10)
/-- A weight of 1 is left out. -/
def Range.weight (r : Range) : Bytes :=
  if r.q ≥ 1000 then [] else str ";q=0." ++ [digit (r.q / 100), digit (r.q / 10), digit r.q]
def Range.bytes (r : Range) : Bytes := r.ws1 ++ r.ty ++ r.ws2 ++ r.weight
def join : List Bytes → Bytes
  | [] => []
  | [x] => x
  | x :: xs => x ++ 44 :: join xs
structure Range.Ok (r : Range) : Prop where
  plain : Plain r.ty
  ws1 : ∀ c ∈ r.ws1, c = 32 ∨ c = 9
  ws2 : ∀ c ∈ r.ws2, c = 32 ∨ c = 9

/-- RFC 7231 section 5.3.2 for a response of type `top/sub`: of the ranges which match, the most specific ones decide,
and the weight 0 means not acceptable. Media types are compared case-insensitively. -/
def rfc (rs : List Range) (top sub : Bytes) : Prop :=
  let sel (t : Bytes) := rs.filter fun r => lower r.ty == lower t
  let ok (l : List Range) := ∃ r ∈ l, 0 < r.q
  if sel (top ++ 47 :: sub) ≠ [] then ok (sel (top ++ 47 :: sub))
  else if sel (top ++ str "/*") ≠ [] then ok (sel (top ++ str "/*"))
  else ok (sel (str "*/*"))

/-! ### Lemmas -/

theorem not_mem_split (b f : Bytes) (h : f ∈ split b) : (44 : UInt8) ∉ f := by
  induction b generalizing f with
  | nil => simp [split] at h; subst h; simp
  | cons c cs ih =>
    rw [split] at h
    split at h
    · rcases List.mem_cons.mp h with rfl | h
      · simp
      · exact ih _ h
    · rename_i hc
      split at h
      · simp only [List.mem_singleton] at h; subst h; simp; exact fun e => hc e.symm
      · rename_i t ts e
        rw [e] at ih
        rcases List.mem_cons.mp h with rfl | h
        · have := ih t (by simp)
          simp only [List.mem_cons, not_or]
          exact ⟨fun e => hc e.symm, this⟩
        · exact ih _ (by simp [h])

theorem split_ne_nil (b : Bytes) : split b ≠ [] := by
  cases b with
  | nil => simp [split]
  | cons c cs => rw [split]; split; · simp
                 · split <;> simp

theorem split_nocomma (b : Bytes) (h : (44 : UInt8) ∉ b) : split b = [b] := by
  induction b with
  | nil => rfl
  | cons c cs ih =>
    simp only [List.mem_cons, not_or] at h
    rw [split, if_neg (fun e => h.1 e.symm), ih h.2]

theorem split_append (a b : Bytes) (h : (44 : UInt8) ∉ a) : split (a ++ 44 :: b) = a :: split b := by
  induction a with
  | nil => simp [split]
  | cons c cs ih =>
    simp only [List.mem_cons, not_or] at h
    rw [List.cons_append, split, if_neg (fun e => h.1 e.symm), ih h.2]

theorem split_comma (a b : Bytes) : split (a ++ 44 :: b) = split a ++ split b := by
  induction a with
  | nil => simp [split]
  | cons c cs ih =>
    rw [List.cons_append, split, split, ih]
    split
    · simp
    · cases e : split cs with
      | nil => exact absurd e (split_ne_nil cs)
      | cons t ts => simp

theorem join_split (h : Bytes) : join (split h) = h := by
  induction h with
  | nil => rfl
  | cons c cs ih =>
    rw [split]
    split
    · rename_i hc
      cases e : split cs with
      | nil => exact absurd e (split_ne_nil cs)
      | cons t ts => rw [e] at ih; simp only [join, ih, hc, List.nil_append]
    · cases e : split cs with
      | nil => exact absurd e (split_ne_nil cs)
      | cons t ts =>
        rw [e] at ih
        cases ts with
        | nil => simp only [join] at ih ⊢; rw [ih]
        | cons u us => simp only [join] at ih ⊢; rw [List.cons_append, ih]

theorem join_append (a : List Bytes) (f : Bytes) (b : List Bytes) :
    ∃ pre post, join (a ++ f :: b) = pre ++ f ++ post ∧ (pre = [] ∨ ∃ p, pre = p ++ [44]) ∧ (post = [] ∨ ∃ p, post = 44 :: p) := by
  induction a with
  | nil =>
    cases b with
    | nil => exact ⟨[], [], by simp [join], .inl rfl, .inl rfl⟩
    | cons x xs => exact ⟨[], 44 :: join (x :: xs), by simp [join], .inl rfl, .inr ⟨_, rfl⟩⟩
  | cons x xs ih =>
    obtain ⟨pre, post, e, h1, h2⟩ := ih
    have hj : join (x :: xs ++ f :: b) = x ++ 44 :: join (xs ++ f :: b) := by
      cases xs <;> simp [join]
    refine ⟨x ++ 44 :: pre, post, by rw [hj, e]; simp, .inr ?_, h2⟩
    rcases h1 with rfl | ⟨p, rfl⟩
    · exact ⟨x, rfl⟩
    · exact ⟨x ++ 44 :: p, by simp⟩

/-- The fields of a header are exactly its comma-delimited parts. -/
theorem mem_split (h f : Bytes) : f ∈ split h ↔
    (44 : UInt8) ∉ f ∧ ∃ pre post, h = pre ++ f ++ post ∧ (pre = [] ∨ ∃ p, pre = p ++ [44]) ∧ (post = [] ∨ ∃ p, post = 44 :: p) := by
  constructor
  · intro hf
    refine ⟨not_mem_split h f hf, ?_⟩
    obtain ⟨a, b, e⟩ := List.append_of_mem hf
    have := join_append a f b
    rw [← e, join_split] at this
    exact this
  · rintro ⟨hf, pre, post, rfl, h1, h2⟩
    have hp : f ∈ split (f ++ post) := by
      rcases h2 with rfl | ⟨p, rfl⟩
      · rw [List.append_nil, split_nocomma f hf]; simp
      · rw [split_append f p hf]; simp
    rcases h1 with rfl | ⟨p, rfl⟩
    · simpa using hp
    · have : p ++ [44] ++ f ++ post = p ++ 44 :: (f ++ post) := by simp
      rw [this, split_comma]
      exact List.mem_append_right _ hp

theorem dropWhile_append_all {p : UInt8 → Bool} (a b : Bytes) (h : ∀ c ∈ a, p c = true) :
    (a ++ b).dropWhile p = b.dropWhile p := by
  induction a with
  | nil => rfl
  | cons c cs ih =>
    rw [List.cons_append, List.dropWhile_cons, if_pos (h c (by simp))]
    exact ih fun d hd => h d (by simp [hd])

theorem dropWhile_head {p : UInt8 → Bool} (b : Bytes) (h : ∀ c, b.head? = some c → p c = false) : b.dropWhile p = b := by
  cases b with
  | nil => rfl
  | cons c cs => rw [List.dropWhile_cons, if_neg]; rw [h c rfl]; simp

theorem trim_spaces (a t b : Bytes) (ha : ∀ c ∈ a, isSpace c = true) (hb : ∀ c ∈ b, isSpace c = true)
    (h1 : ∀ c, t.head? = some c → isSpace c = false) (h2 : ∀ c, t.getLast? = some c → isSpace c = false) :
    trim (a ++ t ++ b) = t := by
  unfold trim
  rw [List.append_assoc, dropWhile_append_all a _ ha]
  by_cases ht : t = []
  · subst ht
    have : (([] : Bytes) ++ b).dropWhile isSpace = [] := by
      have := dropWhile_append_all (p := isSpace) b [] hb
      simpa using this
    rw [this]; rfl
  · rw [dropWhile_head (t ++ b)]
    · rw [List.reverse_append, dropWhile_append_all _ _ (by simpa using hb), dropWhile_head, List.reverse_reverse]
      intro c hc; rw [List.head?_reverse] at hc; exact h2 c hc
    · intro c hc
      cases t with
      | nil => exact absurd rfl ht
      | cons x xs => exact h1 c hc

theorem dropWhile_split (p : UInt8 → Bool) (b : Bytes) : ∃ a, b = a ++ b.dropWhile p ∧ (∀ c ∈ a, p c = true) := by
  refine ⟨b.takeWhile p, (List.takeWhile_append_dropWhile).symm, ?_⟩
  intro c hc
  induction b with
  | nil => simp at hc
  | cons x xs ih =>
    rw [List.takeWhile_cons] at hc
    split at hc
    · rcases List.mem_cons.mp hc with rfl | h
      · assumption
      · exact ih h
    · simp at hc

/-- What is trimmed is white space. -/
theorem trim_eq (b : Bytes) : ∃ a c, b = a ++ trim b ++ c ∧ (∀ x ∈ a, isSpace x = true) ∧ (∀ x ∈ c, isSpace x = true) := by
  obtain ⟨a, ha, hs⟩ := dropWhile_split isSpace b
  obtain ⟨c, hc, hs'⟩ := dropWhile_split isSpace (b.dropWhile isSpace).reverse
  refine ⟨a, c.reverse, ?_, hs, by simpa using hs'⟩
  have := congrArg List.reverse hc
  rw [List.reverse_reverse, List.reverse_append] at this
  unfold trim
  rw [List.append_assoc, ← this, ← ha]

theorem before_split (b : Bytes) : ∃ rest, b = beforeSemicolon b ++ rest ∧ (rest = [] ∨ ∃ p, rest = 59 :: p) := by
  refine ⟨b.dropWhile (· != 59), (List.takeWhile_append_dropWhile).symm, ?_⟩
  cases e : b.dropWhile (· != 59) with
  | nil => exact .inl rfl
  | cons c cs =>
    refine .inr ⟨cs, ?_⟩
    have := List.head?_dropWhile_not (· != 59) b
    rw [e] at this
    simp at this
    rw [this]

theorem before_append (a rest : Bytes) (h : (59 : UInt8) ∉ a) (hr : rest = [] ∨ ∃ p, rest = 59 :: p) :
    beforeSemicolon (a ++ rest) = a := by
  unfold beforeSemicolon
  induction a with
  | nil => rcases hr with rfl | ⟨p, rfl⟩ <;> simp
  | cons c cs ih =>
    simp only [List.mem_cons, not_or] at h
    rw [List.cons_append, List.takeWhile_cons, if_pos (by simpa using fun e => h.1 e.symm), ih h.2]

theorem space_not_semi (a : Bytes) (h : ∀ c ∈ a, isSpace c = true) : (59 : UInt8) ∉ a := by
  intro hm; have := h _ hm; exact absurd this (by decide)

/-- A field's media type. -/
theorem mediaType_iff (f t : Bytes) (hp : Plain t) : mediaType f = t ↔
    ∃ ws1 ws2 params, f = ws1 ++ t ++ ws2 ++ params ∧ (∀ c ∈ ws1, isSpace c = true) ∧ (∀ c ∈ ws2, isSpace c = true) ∧
      (params = [] ∨ ∃ p, params = 59 :: p) := by
  constructor
  · rintro rfl
    obtain ⟨rest, e, hr⟩ := before_split f
    obtain ⟨a, c, e', ha, hc⟩ := trim_eq (beforeSemicolon f)
    exact ⟨a, c, rest, by rw [mediaType, ← e', ← e], ha, hc, hr⟩
  · rintro ⟨ws1, ws2, params, rfl, h1, h2, hr⟩
    unfold mediaType
    rw [before_append _ _ _ hr]
    · exact trim_spaces _ _ _ h1 h2 hp.first hp.last
    · simp only [List.mem_append, not_or]
      exact ⟨⟨space_not_semi _ h1, hp.semi⟩, space_not_semi _ h2⟩

theorem names_iff (h t : Bytes) (hp : Plain t) : Names h t ↔ ∃ f ∈ split h, mediaType f = t := by
  constructor
  · rintro ⟨pre, ws1, ws2, params, post, e, h1, h2, h3, h4, h5, h6⟩
    refine ⟨_, (mem_split h _).mpr ⟨h3, pre, post, e, h1, h2⟩, (mediaType_iff _ t hp).mpr ⟨ws1, ws2, params, rfl, h4, h5, h6⟩⟩
  · rintro ⟨f, hf, hm⟩
    obtain ⟨h3, pre, post, e, h1, h2⟩ := (mem_split h f).mp hf
    obtain ⟨ws1, ws2, params, rfl, h4, h5, h6⟩ := (mediaType_iff f t hp).mp hm
    exact ⟨pre, ws1, ws2, params, post, e, h1, h2, h3, h4, h5, h6⟩

theorem accepts_iff_names (types headers : List Bytes) (hp : ∀ t ∈ types, Plain t) :
    accepts types headers = true ↔ headers = [] ∨ ∃ h ∈ headers, ∃ t ∈ types, Names h t := by
  simp only [accepts, Bool.or_eq_true, List.isEmpty_iff, List.any_eq_true, List.contains_iff_mem]
  refine or_congr Iff.rfl ⟨?_, ?_⟩
  · rintro ⟨h, hh, f, hf, ht⟩
    exact ⟨h, hh, _, ht, (names_iff h _ (hp _ ht)).mpr ⟨f, hf, rfl⟩⟩
  · rintro ⟨h, hh, t, ht, hn⟩
    obtain ⟨f, hf, rfl⟩ := (names_iff h t (hp t ht)).mp hn
    exact ⟨h, hh, f, hf, ht⟩

def plainB (t : Bytes) : Bool :=
  !t.contains 44 && !t.contains 59 && (t.head?.all fun c => !isSpace c) && (t.getLast?.all fun c => !isSpace c)

theorem plain_of (t : Bytes) (h : plainB t = true) : Plain t := by
  simp only [plainB, Bool.and_eq_true, Bool.not_eq_true', List.contains_eq_mem, decide_eq_false_iff_not] at h
  obtain ⟨⟨⟨h1, h2⟩, h3⟩, h4⟩ := h
  refine ⟨h1, h2, fun c hc => ?_, fun c hc => ?_⟩
  · rw [hc] at h3; simpa using h3
  · rw [hc] at h4; simpa using h4

/-! ### C152 -/

/-- C152: error messages are sent to those who accept plain text. -/
theorem acceptsText_iff (headers : List Bytes) : acceptsText headers = true ↔
    headers = [] ∨ ∃ h ∈ headers, Names h (str "text/plain") ∨ Names h (str "text/*") ∨ Names h (str "*/*") := by
  rw [acceptsText, accepts_iff_names _ _ (by intro t ht; apply plain_of; revert t; decide)]
  refine or_congr Iff.rfl ⟨?_, ?_⟩
  · rintro ⟨h, hh, t, ht, hn⟩
    simp only [List.mem_cons, List.not_mem_nil, or_false] at ht
    rcases ht with rfl | rfl | rfl
    · exact ⟨h, hh, .inr (.inr hn)⟩
    · exact ⟨h, hh, .inl hn⟩
    · exact ⟨h, hh, .inr (.inl hn)⟩
  · rintro ⟨h, hh, hn | hn | hn⟩
    · exact ⟨h, hh, _, by simp, hn⟩
    · exact ⟨h, hh, _, by simp, hn⟩
    · exact ⟨h, hh, _, by simp, hn⟩

/-- C152: JSON and WebAssembly are sent to those who accept them, any application type or anything. -/
theorem acceptsApplication_iff (sub : Bytes) (hs : plainB (str "application/" ++ sub) = true) (headers : List Bytes) :
    acceptsApplication (str "application/" ++ sub) headers = true ↔
      headers = [] ∨ ∃ h ∈ headers,
        Names h (str "application/" ++ sub) ∨ Names h (str "application/*") ∨ Names h (str "*/*") := by
  rw [acceptsApplication, accepts_iff_names]
  · refine or_congr Iff.rfl ⟨?_, ?_⟩
    · rintro ⟨h, hh, t, ht, hn⟩
      simp only [List.mem_cons, List.not_mem_nil, or_false] at ht
      rcases ht with rfl | rfl | rfl
      · exact ⟨h, hh, .inl hn⟩
      · exact ⟨h, hh, .inr (.inr hn)⟩
      · exact ⟨h, hh, .inr (.inl hn)⟩
    · rintro ⟨h, hh, hn | hn | hn⟩
      · exact ⟨h, hh, _, by simp, hn⟩
      · exact ⟨h, hh, _, by simp, hn⟩
      · exact ⟨h, hh, _, by simp, hn⟩
  · intro t ht
    simp only [List.mem_cons, List.not_mem_nil, or_false] at ht
    rcases ht with rfl | rfl | rfl
    · exact plain_of _ hs
    · exact plain_of _ (by decide)
    · exact plain_of _ (by decide)

theorem uint8_all {p : UInt8 → Prop} (h : ∀ n : Fin 256, p (UInt8.ofNat n.val)) (c : UInt8) : p c := by
  have := h ⟨c.toNat, c.toNat_lt⟩
  simpa using this

def low (c : UInt8) : UInt8 := if 65 ≤ c.toNat ∧ c.toNat ≤ 90 then c + 32 else c

theorem low_comma (c : UInt8) : low c = 44 ↔ c = 44 := by
  revert c; apply uint8_all; decide +kernel
theorem low_space (c : UInt8) : isSpace (low c) = isSpace c := by
  revert c; apply uint8_all; decide +kernel

theorem lower_eq (b : Bytes) : lower b = b.map low := rfl

theorem split_lower (b : Bytes) : split (lower b) = (split b).map lower := by
  induction b with
  | nil => rfl
  | cons c cs ih =>
    rw [lower_eq, List.map_cons, split, split, ← lower_eq, ih]
    by_cases hc : c = 44
    · rw [if_pos hc, if_pos ((low_comma c).mpr hc)]; rfl
    · rw [if_neg hc, if_neg (fun e => hc ((low_comma c).mp e))]
      cases split cs <;> rfl

theorem dropWhile_lower (b : Bytes) : (lower b).dropWhile isSpace = lower (b.dropWhile isSpace) := by
  induction b with
  | nil => rfl
  | cons c cs ih =>
    rw [lower_eq, List.map_cons, List.dropWhile_cons, List.dropWhile_cons, low_space, ← lower_eq, ih]
    split <;> rfl

theorem trim_lower (b : Bytes) : trim (lower b) = lower (trim b) := by
  unfold trim
  rw [dropWhile_lower, lower_eq, ← List.map_reverse, ← lower_eq, dropWhile_lower, lower_eq, ← List.map_reverse]
  rfl

/-- The header `h` has `t`, in any case, as one of its comma-separated fields. -/
def NamesAnyCase (h t : Bytes) : Prop :=
  ∃ pre ws1 w ws2 post,
    h = pre ++ (ws1 ++ w ++ ws2) ++ post ∧
    (pre = [] ∨ ∃ p, pre = p ++ [44]) ∧ (post = [] ∨ ∃ p, post = 44 :: p) ∧
    (44 : UInt8) ∉ ws1 ++ w ++ ws2 ∧
    (∀ c ∈ ws1, isSpace c = true) ∧ (∀ c ∈ ws2, isSpace c = true) ∧ lower w = t

theorem trim_head (b : Bytes) : ∀ c, (trim b).getLast? = some c → isSpace c = false := by
  intro c hc
  unfold trim at hc
  rw [List.getLast?_reverse] at hc
  have := List.head?_dropWhile_not isSpace (b.dropWhile isSpace).reverse
  rw [hc] at this
  simpa using this

/-- C152: the trailing status is sent to those, and only to those, who ask for trailers. -/
theorem trailer_iff (te : List Bytes) : trailer te = true ↔ ∃ h ∈ te, NamesAnyCase h (str "trailers") := by
  have hlist : Plain (str "trailers") := plain_of _ (by decide)
  simp only [trailer, acceptsTrailers, List.any_eq_true, split_lower, List.mem_map, beq_iff_eq]
  constructor
  · rintro ⟨h, hh, f', ⟨f, hf, rfl⟩, ht⟩
    rw [trim_lower] at ht
    obtain ⟨hc, pre, post, e, h1, h2⟩ := (mem_split h f).mp hf
    obtain ⟨a, c, e', ha, hcs⟩ := trim_eq f
    exact ⟨h, hh, pre, a, trim f, c, post, by rw [← e']; exact e, h1, h2, by rw [← e']; exact hc, ha, hcs, ht⟩
  · rintro ⟨h, hh, pre, ws1, w, ws2, post, e, h1, h2, h3, h4, h5, h6⟩
    refine ⟨h, hh, _, ⟨_, (mem_split h _).mpr ⟨h3, pre, post, e, h1, h2⟩, rfl⟩, ?_⟩
    rw [trim_lower, trim_spaces _ _ _ h4 h5, h6]
    · intro c hc
      have h7 : (lower w).head? = some (low c) := by rw [lower_eq, List.head?_map, hc]; rfl
      rw [h6] at h7
      rw [← low_space]; exact hlist.first _ h7
    · intro c hc
      have h7 : (lower w).getLast? = some (low c) := by rw [lower_eq, List.getLast?_map, hc]; rfl
      rw [h6] at h7
      rw [← low_space]; exact hlist.last _ h7

/-! ### RFC 7231 -/

theorem split_join (fs : List Bytes) (hne : fs ≠ []) (h : ∀ f ∈ fs, (44 : UInt8) ∉ f) : split (join fs) = fs := by
  induction fs with
  | nil => exact absurd rfl hne
  | cons f fs ih =>
    cases fs with
    | nil => exact split_nocomma f (h f (by simp))
    | cons g gs =>
      rw [join, split_append f _ (h f (by simp)), ih (by simp) (fun x hx => h x (by simp [hx]))]
      · simp

theorem digit_ne (n : Nat) : digit n ≠ 44 := by
  have : n % 10 < 10 := Nat.mod_lt _ (by decide)
  unfold digit
  generalize n % 10 = k at this
  exact (by decide : ∀ k : Fin 10, UInt8.ofNat (48 + k.val) ≠ 44) ⟨k, this⟩

theorem weight_nocomma (r : Range) : (44 : UInt8) ∉ r.weight := by
  unfold Range.weight
  split
  · simp
  · simp only [List.mem_append, List.mem_cons, List.not_mem_nil, or_false, not_or]
    exact ⟨by decide, fun e => digit_ne _ e.symm, fun e => digit_ne _ e.symm, fun e => digit_ne _ e.symm⟩

theorem weight_semi (r : Range) : r.weight = [] ∨ ∃ p, r.weight = 59 :: p := by
  unfold Range.weight
  split
  · exact .inl rfl
  · exact .inr ⟨_, rfl⟩

theorem Range.Ok.space1 {r : Range} (h : r.Ok) : ∀ c ∈ r.ws1, isSpace c = true := by
  intro c hc; rcases h.ws1 c hc with rfl | rfl <;> decide
theorem Range.Ok.space2 {r : Range} (h : r.Ok) : ∀ c ∈ r.ws2, isSpace c = true := by
  intro c hc; rcases h.ws2 c hc with rfl | rfl <;> decide

theorem bytes_nocomma {r : Range} (h : r.Ok) : (44 : UInt8) ∉ r.bytes := by
  unfold Range.bytes
  simp only [List.mem_append, not_or]
  refine ⟨⟨⟨?_, h.plain.comma⟩, ?_⟩, weight_nocomma r⟩
  · intro hm; have := h.space1 _ hm; exact absurd this (by decide)
  · intro hm; have := h.space2 _ hm; exact absurd this (by decide)

theorem bytes_type {r : Range} (h : r.Ok) : mediaType r.bytes = r.ty :=
  (mediaType_iff _ _ h.plain).mpr ⟨r.ws1, r.ws2, r.weight, rfl, h.space1, h.space2, weight_semi r⟩

/-- The check looks for the type in the list, whatever the weights. -/
theorem accepts_ranges (types : List Bytes) (rs : List Range) (hne : rs ≠ []) (hok : ∀ r ∈ rs, r.Ok) :
    accepts types [join (rs.map Range.bytes)] = true ↔ ∃ r ∈ rs, r.ty ∈ types := by
  have hs : split (join (rs.map Range.bytes)) = rs.map Range.bytes := by
    apply split_join
    · simpa using hne
    · intro f hf
      obtain ⟨r, hr, rfl⟩ := List.mem_map.mp hf
      exact bytes_nocomma (hok r hr)
  simp only [accepts, List.isEmpty_cons, Bool.false_or, List.any_cons, List.any_nil, Bool.or_false, hs, List.any_eq_true,
    List.contains_iff_mem, List.mem_map]
  constructor
  · rintro ⟨f, ⟨r, hr, rfl⟩, ht⟩
    rw [bytes_type (hok r hr)] at ht
    exact ⟨r, hr, ht⟩
  · rintro ⟨r, hr, ht⟩
    exact ⟨_, ⟨r, hr, rfl⟩, by rw [bytes_type (hok r hr)]; exact ht⟩

theorem rfc_positive (rs : List Range) (top sub : Bytes) (hq : ∀ r ∈ rs, 0 < r.q) : rfc rs top sub ↔
    ∃ r ∈ rs, lower r.ty = lower (top ++ 47 :: sub) ∨ lower r.ty = lower (top ++ str "/*") ∨ lower r.ty = lower (str "*/*") := by
  have hsel : ∀ t, (rs.filter fun r => lower r.ty == lower t) ≠ [] ↔ ∃ r ∈ rs, lower r.ty = lower t := by
    intro t
    rw [Ne, List.filter_eq_nil_iff]
    simp
  have hokay : ∀ t, (∃ r ∈ rs.filter (fun r => lower r.ty == lower t), 0 < r.q) ↔ ∃ r ∈ rs, lower r.ty = lower t := by
    intro t
    constructor
    · rintro ⟨r, hr, -⟩
      have := List.mem_filter.mp hr
      exact ⟨r, this.1, by simpa using this.2⟩
    · rintro ⟨r, hr, e⟩
      exact ⟨r, List.mem_filter.mpr ⟨hr, by simpa using e⟩, hq r hr⟩
  unfold rfc
  simp only [hsel, hokay]
  constructor
  · intro h
    split at h
    · obtain ⟨r, hr, e⟩ := h; exact ⟨r, hr, .inl e⟩
    · split at h
      · obtain ⟨r, hr, e⟩ := h; exact ⟨r, hr, .inr (.inl e)⟩
      · obtain ⟨r, hr, e⟩ := h; exact ⟨r, hr, .inr (.inr e)⟩
  · rintro ⟨r, hr, h⟩
    split
    · assumption
    · rename_i h1
      split
      · assumption
      · rename_i h2
        rcases h with h | h | h
        · exact absurd ⟨r, hr, h⟩ h1
        · exact absurd ⟨r, hr, h⟩ h2
        · exact ⟨r, hr, h⟩

/-- C152: the check does what RFC 7231 says if the client's types are written in lower case, and no weight is zero. -/
theorem rfc_partial (top sub : Bytes) (rs : List Range) (hne : rs ≠ []) (hok : ∀ r ∈ rs, r.Ok)
    (hq : ∀ r ∈ rs, 0 < r.q) (hl : ∀ r ∈ rs, lower r.ty = r.ty) (ht : lower (top ++ 47 :: sub) = top ++ 47 :: sub)
    (ht' : lower (top ++ str "/*") = top ++ str "/*") :
    accepts [top ++ 47 :: sub, str "*/*", top ++ str "/*"] [join (rs.map Range.bytes)] = true ↔ rfc rs top sub := by
  rw [accepts_ranges _ _ hne hok, rfc_positive _ _ _ hq, ht, ht', show lower (str "*/*") = str "*/*" by decide]
  constructor
  · rintro ⟨r, hr, h⟩
    simp only [List.mem_cons, List.not_mem_nil, or_false] at h
    refine ⟨r, hr, ?_⟩
    rw [hl r hr]
    rcases h with h | h | h
    · exact .inl h
    · exact .inr (.inr h)
    · exact .inr (.inl h)
  · rintro ⟨r, hr, h⟩
    rw [hl r hr] at h
    refine ⟨r, hr, ?_⟩
    simp only [List.mem_cons, List.not_mem_nil, or_false]
    rcases h with h | h | h
    · exact .inl h
    · exact .inr (.inr h)
    · exact .inr (.inl h)

/-- The hypotheses can be met: `text/html, application/json;q=0.500`. -/
def sample : List Range := [⟨[], str "text/html", [], 1000⟩, ⟨[32], str "application/json", [], 500⟩]
example : join (sample.map Range.bytes) = str "text/html, application/json;q=0.500" := by decide
example : ∀ r ∈ sample, r.Ok := by
  intro r hr
  simp only [sample, List.mem_cons, List.not_mem_nil, or_false] at hr
  rcases hr with rfl | rfl
  · exact ⟨plain_of _ (by decide), by simp, by simp⟩
  · exact ⟨plain_of _ (by decide), by simp, by simp⟩
example : acceptsJSON [join (sample.map Range.bytes)] = true ∧ acceptsText [join (sample.map Range.bytes)] = false := by
  decide

/-- C152 refuted: whatever the weight, also zero which means "not acceptable", the type is taken as acceptable. -/
theorem weight_refuted (ws : Bytes) (hw : ∀ c ∈ ws, c = 32 ∨ c = 9) (q : Nat) :
    acceptsJSON [Range.bytes ⟨ws, str "application/json", [], q⟩] = true ∧
      (q = 0 → ¬ rfc [⟨ws, str "application/json", [], q⟩] (str "application") (str "json")) := by
  refine ⟨?_, ?_⟩
  · have := accepts_ranges [str "*/*", str "application/json", str "application/*"] [⟨ws, str "application/json", [], q⟩] (by simp)
      (by intro r hr; rw [List.mem_singleton] at hr; subst hr; exact ⟨plain_of (str "application/json") (by decide), hw, by simp⟩)
    exact this.mpr ⟨⟨ws, str "application/json", [], q⟩, by simp, by simp⟩
  · rintro rfl h
    unfold rfc at h
    have e : (lower (str "application/json") == lower (str "application" ++ 47 :: str "json")) = true := by decide
    simp only [List.filter_cons, e, if_true, List.filter_nil] at h
    simp at h

/-- C152 refuted: media types are case-insensitive, but a type in upper case is not recognized. -/
theorem case_refuted : let r : Range := ⟨[], str "Application/JSON", [], 1000⟩
    acceptsJSON [r.bytes] = false ∧ acceptsApplication (str "application/json") [r.bytes] = false ∧
      rfc [r] (str "application") (str "json") := by
  refine ⟨by decide, by decide, ?_⟩
  unfold rfc
  have e : (lower (str "Application/JSON") == lower (str "application" ++ 47 :: str "json")) = true := by decide
  simp only [List.filter_cons, e, if_true, List.filter_nil]
  simp

/-- C152 refuted: a comma in a quoted parameter is taken as a separator; `text/html;x="a,text/plain"` accepts HTML only. -/
theorem quoted_refuted : acceptsText [str "text/html;x=\"a," ++ str "text/plain;b\""] = true := by decide

/-! ### Content type and coding -/

/-- C152: content of the required type, with or without parameters, is taken; everything else is refused. -/
theorem contentType_iff (t : Bytes) (hp : Plain t) (headers : List Bytes) : haveContentType t headers = .ok ↔
    ∃ ws1 ws2 params, headers = [ws1 ++ t ++ ws2 ++ params] ∧ (∀ c ∈ ws1, isSpace c = true) ∧
      (∀ c ∈ ws2, isSpace c = true) ∧ (params = [] ∨ ∃ p, params = 59 :: p) := by
  match headers with
  | [] => simp [haveContentType]
  | [v] =>
    have := mediaType_iff v t hp
    unfold mediaType at this
    simp only [haveContentType]
    constructor
    · intro h
      split at h
      · exact absurd h (by decide)
      · rename_i hn
        obtain ⟨ws1, ws2, params, e, h1⟩ := this.mp (Classical.not_not.mp hn)
        exact ⟨ws1, ws2, params, by rw [e], h1⟩
    · rintro ⟨ws1, ws2, params, e, h1⟩
      rw [if_neg (Classical.not_not.mpr (this.mpr ⟨ws1, ws2, params, by simpa using e, h1⟩))]
  | _ :: _ :: _ => simp [haveContentType]

/-- Several headers are a bad request. -/
theorem contentType_duplicate (t : Bytes) (headers : List Bytes) : haveContentType t headers = .duplicate ↔ 2 ≤ headers.length := by
  match headers with
  | [] => simp [haveContentType]
  | [v] => simp only [haveContentType]; split <;> simp
  | _ :: _ :: _ => simp [haveContentType]

/-- C152: exact condition for the content codings. -/
theorem decode_iff (headers : List Bytes) :
    (decodeContent headers = .gzip ↔ headers = [str "gzip"]) ∧
    (decodeContent headers = .identity ↔ headers = [] ∨ headers = [[]] ∨ headers = [str "identity"]) := by
  have hne : str "gzip" ≠ str "identity" ∧ str "gzip" ≠ [] := by decide
  match headers with
  | [] => simp [decodeContent]
  | [v] =>
    simp only [decodeContent]
    split
    · rename_i h
      simp only [reduceCtorEq, List.cons.injEq, and_true, false_iff, true_iff]
      refine ⟨?_, .inr h⟩
      rintro rfl
      rcases h with h | h
      · exact hne.2 h
      · exact hne.1 h
    · rename_i h
      split
      · rename_i h'; subst h'; simp [hne]
      · rename_i h'
        simp only [reduceCtorEq, List.cons.injEq, and_true, false_iff, not_or]
        exact ⟨h', by simp, fun e => h (.inl e), fun e => h (.inr e)⟩
  | _ :: _ :: _ => simp [decodeContent]

/-- C152 refuted: content codings are case-insensitive and may be listed (RFC 7231 section 3.1.2), but only these spellings
are known. -/
theorem coding_refuted : decodeContent [str "GZIP"] = .unsupported ∧ decodeContent [str "identity, gzip"] = .unsupported ∧
    decodeContent [str "x-gzip"] = .unsupported := by decide

/-! ### Handlers -/

/-- The client takes a body of this type. -/
def Wants (accept : List Bytes) (top sub : Bytes) : Prop :=
  accept = [] ∨ ∃ h ∈ accept, Names h (top ++ 47 :: sub) ∨ Names h (top ++ str "/*") ∨ Names h (str "*/*")

def Takes (accept : List Bytes) : Body → Prop
  | .text => Wants accept (str "text") (str "plain")
  | .json => Wants accept (str "application") (str "json")
  | .wasm => Wants accept (str "application") (str "wasm")

theorem text_takes (accept : List Bytes) : acceptsText accept = true ↔ Takes accept .text := by
  rw [acceptsText_iff]; rfl
theorem json_takes (accept : List Bytes) : acceptsApplication (str "application/json") accept = true ↔ Takes accept .json :=
  acceptsApplication_iff (str "json") (by decide) accept
theorem wasm_takes (accept : List Bytes) : acceptsApplication (str "application/wasm") accept = true ↔ Takes accept .wasm :=
  acceptsApplication_iff (str "wasm") (by decide) accept
theorem acceptsJSON_eq (accept : List Bytes) : acceptsJSON accept = acceptsApplication (str "application/json") accept := by
  unfold acceptsJSON acceptsApplication accepts
  congr 2
  funext h
  congr 1
  funext f
  simp only [List.contains_cons, List.contains_nil, Bool.or_false, ← Bool.or_assoc]
  rw [Bool.or_comm (mediaType f == str "*/*")]

/-- The type of the body which a request gets on success. -/
def kind : Request → Body
  | .download => .wasm
  | _ => .json

/-- C152: no client gets a body of a type which it doesn't accept, other than the answers of the debug action and of the
feature query without parameters. -/
theorem takes_partial (accept : List Bytes) (performed : Bool) (status : Nat) (r : Request) (hr : r ≠ .debug)
    (hf : r ≠ .features []) (b : Body) (hb : (handle accept performed status r).body = some b) : Takes accept b := by
  have hresp : ∀ s, (respond accept s).body = some b → Takes accept b := by
    intro s h
    simp only [respond] at h
    split at h
    · rename_i ht; simp only [Option.some.injEq] at h; subst h; exact (text_takes accept).mp ht
    · simp at h
  have hmust : ∀ (req : Bytes) (rest : Response), (acceptsApplication req accept = true → rest.body = some b → Takes accept b) →
      (must accept req rest).body = some b → Takes accept b := by
    intro req rest h1 h
    unfold must at h
    split at h
    · rename_i ha; exact h1 ha h
    · exact hresp _ h
  have hj : acceptsApplication (str "application/json") accept = true → ∀ d, (Response.mk 200 (some Body.json) d).body = some b → Takes accept b := by
    intro ha d h
    simp only [Option.some.injEq] at h; subst h; exact (json_takes accept).mp ha
  cases r with
  | debug => exact absurd rfl hr
  | static => exact hmust _ _ (fun ha h => hj ha _ h) hb
  | features ps =>
    cases ps with
    | nil => exact absurd rfl hf
    | cons p ps =>
      simp only [handle, List.isEmpty_cons, if_false, Bool.false_eq_true] at hb
      refine hmust _ _ (fun ha h => ?_) hb
      split at h
      · exact hj ha _ h
      · exact hresp _ h
  | download =>
    refine hmust _ _ (fun ha h => ?_) hb
    split at h
    · simp only [Option.some.injEq] at h; subst h; exact (wasm_takes accept).mp ha
    · exact hresp _ h
  | update =>
    simp only [handle] at hb
    split at hb
    · split at hb
      · rename_i ha; rw [acceptsJSON_eq] at ha; exact hj ha _ hb
      · simp at hb
    · exact hresp _ hb
  | listModules | moduleInfo | listInstances | instanceInfo =>
    refine hmust _ _ (fun ha h => ?_) hb
    split at h
    · exact hj ha _ h
    · exact hresp _ h

/-- C152: a request which isn't performed because of its Accept header is answered with the status 406, and it's only those
which are; the server's method isn't called then. -/
theorem refused_iff (accept : List Bytes) (performed : Bool) (status : Nat) (hs : status ≠ 406) (r : Request) :
    (handle accept performed status r).status = 406 ↔
      (r ≠ .debug ∧ r ≠ .features [] ∧ r ≠ .update) ∧ ¬ Takes accept (kind r) := by
  have h406 : ∀ (req : Bytes) (rest : Response), rest.status ≠ 406 →
      ((must accept req rest).status = 406 ↔ ¬ acceptsApplication req accept = true) := by
    intro req rest h
    unfold must
    split
    · rename_i ha; simp [h, ha]
    · rename_i ha; simp [respond]; simpa using ha
  have hrest : ∀ b, (if performed = true then (⟨200, some b, true⟩ : Response) else respond accept status).status ≠ 406 := by
    intro b; split <;> simp [respond, hs]
  cases r with
  | debug => simp [handle]; split <;> simp [respond, hs]
  | static => rw [handle, h406 _ _ (by simp), json_takes]; simp [kind]
  | features ps =>
    cases ps with
    | nil => simp [handle]
    | cons p ps =>
      have : (handle accept performed status (.features (p :: ps))) = must accept (str "application/json")
          (if (p :: ps).all fun p => p == str "scope" || p == str "*" then ⟨200, some .json, true⟩ else respond accept 501) := rfl
      rw [this, h406 _ _ (by split <;> simp [respond]), json_takes]; simp [kind]
  | download => rw [handle, h406 _ _ (hrest _), wasm_takes]; simp [kind]
  | update => simp [handle]; split <;> (try split) <;> simp [respond, hs]
  | listModules | moduleInfo | listInstances | instanceInfo =>
    rw [handle, h406 _ _ (hrest _), json_takes]; simp [kind]

/-- C152: who accepts the type gets the content. -/
theorem served (accept : List Bytes) (status : Nat) (r : Request) (ht : Takes accept (kind r))
    (hf : ∀ ps, r = .features ps → ∀ p ∈ ps, p = str "scope" ∨ p = str "*") :
    handle accept true status r = ⟨200, some (kind r), true⟩ := by
  have hm : ∀ (req : Bytes) (rest : Response), acceptsApplication req accept = true → must accept req rest = rest := by
    intro req rest h; unfold must; rw [if_pos h]
  cases r with
  | debug => rfl
  | static => rw [handle, hm _ _ ((json_takes accept).mpr ht)]; rfl
  | features ps =>
    have hall : (ps.all fun p => p == str "scope" || p == str "*") = true := by
      rw [List.all_eq_true]; intro p hp
      rcases hf ps rfl p hp with h | h <;> simp [h]
    simp only [handle, hall, if_true]
    split
    · rfl
    · rw [hm _ _ ((json_takes accept).mpr ht)]; rfl
  | download => rw [handle, hm _ _ ((wasm_takes accept).mpr ht)]; rfl
  | update => simp only [handle, if_true]; rw [acceptsJSON_eq, if_pos ((json_takes accept).mpr ht)]; rfl
  | listModules | moduleInfo | listInstances | instanceInfo => rw [handle, hm _ _ ((json_takes accept).mpr ht)]; rfl

/-- C152 refuted: the answers of debug requests, and of feature queries without parameters, are JSON for everyone. -/
theorem unasked_refuted (accept : List Bytes) (status : Nat) :
    (handle accept true status .debug).body = some .json ∧ (handle accept true status (.features [])).body = some .json :=
  ⟨rfl, rfl⟩
/-- Such as a client which only wants plain text. -/
example : ¬ Takes [str "text/plain"] .json := by rw [← json_takes]; decide
example : Takes [str "text/html", str "x/y; q=0.3 ,\tapplication/* ;q=1"] .json := by rw [← json_takes]; decide

end Gate.Accept
