import Verif.Auth
/-
Properties C38, C39, C41, C42, C66: see properties.jsonl.
-/
namespace Gate.Auth

/-! ### C38 -/

/-- C38: with every 64-bit expiry time, and every clock value before the year 146 billion, the
token is accepted with respect to time exactly if it has no expiry and the server is local, or it
has not expired and expires within 15 minutes. -/
theorem expiration_window (s : Server) (exp now : Int) (h1 : -9223372036854775808 ≤ exp) (h2 : exp < 9223372036854775808)
    (h3 : 0 ≤ now) (h4 : now < 4611686018427387904) :
    verifyExpiration s exp now = .ok () ↔ (exp = 0 ∧ s.loc = true) ∨ (now ≤ exp ∧ exp ≤ now + 15 * 60) := by
  have key : sub64 exp now = exp - now ∨ (sub64 exp now = exp - now + 18446744073709551616 ∧ exp - now < -9223372036854775808) := by
    unfold sub64 toSigned toUnsigned
    have e1 : (2 ^ 64 : Nat) = 18446744073709551616 := by decide
    have e2 : (2 ^ (64 - 1) : Nat) = 9223372036854775808 := by decide
    rw [e1, e2]
    obtain ⟨d, hd⟩ : ∃ d, d = exp - now := ⟨_, rfl⟩
    rw [← hd]
    split <;> omega
  unfold verifyExpiration
  split
  · rename_i h; simp [h]
  · rename_i h
    split
    · constructor
      · intro h; cases h
      · rintro (h' | h')
        · exact absurd h' h
        · exfalso; omega
    · split
      · constructor
        · intro h; cases h
        · rintro (h' | h')
          · exact absurd h' h
          · exfalso; omega
      · constructor
        · intro _; right; omega
        · intro _; rfl

/-- The wrong reason is given only for expiry times more than 2^62 seconds ago: they are called too far in the future. -/
theorem expiration_reason (s : Server) (exp now : Int) (h1 : -4611686018427387904 ≤ exp) (h2 : exp < 9223372036854775808)
    (h3 : 0 ≤ now) (h4 : now < 4611686018427387904) :
    (verifyExpiration s exp now = .err "token has expired" ↔ exp < now ∧ ¬ (exp = 0 ∧ s.loc = true)) := by
  have key : sub64 exp now = exp - now := by
    unfold sub64 toSigned toUnsigned
    have e1 : (2 ^ 64 : Nat) = 18446744073709551616 := by decide
    have e2 : (2 ^ (64 - 1) : Nat) = 9223372036854775808 := by decide
    rw [e1, e2]
    obtain ⟨d, hd⟩ : ∃ d, d = exp - now := ⟨_, rfl⟩
    rw [← hd]
    split <;> omega
  unfold verifyExpiration
  rw [key]
  split
  · rename_i h; simp [h]
  · rename_i h
    split
    · simp [h]; omega
    · split
      · constructor
        · intro h'; simp at h'
        · intro h'; exfalso; omega
      · constructor
        · intro h'; simp at h'
        · intro h'; exfalso; omega

/-! ### Splitting -/

theorem splitN_cons (sep : UInt8) (n : Nat) (hn : 1 < n) (p rest : Bytes) (hp : sep ∉ p) (cur : Bytes) :
    splitN sep n cur (p ++ sep :: rest) = (cur.reverse ++ p) :: splitN sep (n - 1) [] rest := by
  induction p generalizing cur with
  | nil => simp [splitN, hn]
  | cons c cs ih =>
    simp only [List.mem_cons, not_or] at hp
    simp only [List.cons_append, splitN]
    rw [if_neg (by rintro ⟨h, _⟩; exact hp.1 h.symm), ih hp.2]
    simp

theorem splitN_last (sep : UInt8) (n : Nat) (p : Bytes) (hp : sep ∉ p ∨ n ≤ 1) (cur : Bytes) :
    splitN sep n cur p = [cur.reverse ++ p] := by
  induction p generalizing cur with
  | nil => simp [splitN]
  | cons c cs ih =>
    simp only [splitN]
    rw [if_neg, ih]
    · simp
    · rcases hp with hp | hp
      · simp only [List.mem_cons, not_or] at hp; exact .inl hp.2
      · exact .inr hp
    · rintro ⟨h, h'⟩
      rcases hp with hp | hp
      · exact hp (by simp [h])
      · omega

theorem splitAt_first (sep : UInt8) (s : Bytes) : sep ∉ s ∨ ∃ p rest, s = p ++ sep :: rest ∧ sep ∉ p := by
  induction s with
  | nil => left; simp
  | cons c cs ih =>
    by_cases h : c = sep
    · right; exact ⟨[], cs, by simp [h], by simp⟩
    · rcases ih with h' | ⟨p, rest, h1, h2⟩
      · left; simp only [List.mem_cons, not_or]; exact ⟨fun e => h e.symm, h'⟩
      · right; exact ⟨c :: p, rest, by simp [h1], by simp only [List.mem_cons, not_or]; exact ⟨fun e => h e.symm, h2⟩⟩

/-- Tokens of a string: the pieces between separators. This is the specification of splitting. -/
def Tokens (sep : UInt8) (s : Bytes) (l : List Bytes) : Prop :=
  l ≠ [] ∧ (∀ t ∈ l, sep ∉ t) ∧ List.intercalate [sep] l = s

theorem tokens_cons {sep : UInt8} {p rest : Bytes} {l : List Bytes} (hp : sep ∉ p) (h : Tokens sep rest l) :
    Tokens sep (p ++ sep :: rest) (p :: l) := by
  obtain ⟨h1, h2, h3⟩ := h
  refine ⟨by simp, ?_, ?_⟩
  · intro t ht
    rcases List.mem_cons.mp ht with rfl | ht
    · exact hp
    · exact h2 t ht
  · cases l with
    | nil => exact absurd rfl h1
    | cons b bs => simp [List.intercalate, List.intersperse] at h3 ⊢; exact h3

theorem tokens_unique {sep : UInt8} : ∀ (l : List Bytes) {s : Bytes} {m : List Bytes}, Tokens sep s l → Tokens sep s m → l = m := by
  intro l
  induction l with
  | nil => intro s m h; exact absurd rfl h.1
  | cons p ps ih =>
    intro s m hl hm
    have pre : ∀ (a b x y : Bytes), sep ∉ a → sep ∉ b → a ++ sep :: x = b ++ sep :: y → a = b ∧ x = y := by
      intro a
      induction a with
      | nil =>
        intro b x y _ hb h
        cases b with
        | nil => simp at h; exact ⟨rfl, h⟩
        | cons c cs => simp at h; exact absurd h.1 (by intro e; exact hb (by simp [e]))
      | cons d ds ihd =>
        intro b x y ha hb h
        cases b with
        | nil => simp at h; exact absurd h.1 (by intro e; exact ha (by simp [e]))
        | cons c cs =>
          simp only [List.cons_append, List.cons.injEq] at h
          obtain ⟨e1, e2⟩ := ihd cs x y (by simp at ha; exact ha.2) (by simp at hb; exact hb.2) h.2
          exact ⟨by rw [h.1, e1], e2⟩
    have inter : ∀ (a b : Bytes) (bs : List Bytes), List.intercalate [sep] (a :: b :: bs) = a ++ sep :: List.intercalate [sep] (b :: bs) := by
      intro a b bs; simp [List.intercalate, List.intersperse]
    cases m with
    | nil => exact absurd rfl hm.1
    | cons q qs =>
      have hp := hl.2.1 p (by simp)
      have hq := hm.2.1 q (by simp)
      cases ps with
      | nil =>
        cases qs with
        | nil =>
          have h1 := hl.2.2; have h2 := hm.2.2
          simp [List.intercalate] at h1 h2
          rw [h1, h2]
        | cons r rs =>
          have h1 := hl.2.2; have h2 := hm.2.2
          rw [inter] at h2
          simp [List.intercalate] at h1
          rw [← h1] at h2
          exact absurd (by rw [← h2]; simp) hp
      | cons r rs =>
        cases qs with
        | nil =>
          have h1 := hl.2.2; have h2 := hm.2.2
          rw [inter] at h1
          simp [List.intercalate] at h2
          rw [← h2] at h1
          exact absurd (by rw [← h1]; simp) hq
        | cons r' rs' =>
          have h1 := hl.2.2; have h2 := hm.2.2
          rw [inter] at h1 h2
          obtain ⟨e1, e2⟩ := pre _ _ _ _ hp hq (h1.trans h2.symm)
          rw [e1]
          congr 1
          refine ih (s := List.intercalate [sep] (r :: rs)) ⟨by simp, fun t ht => hl.2.1 t (List.mem_cons_of_mem _ ht), rfl⟩ ?_
          exact ⟨by simp, fun t ht => hm.2.1 t (List.mem_cons_of_mem _ ht), e2.symm⟩

theorem splitN_few (sep : UInt8) : ∀ (n : Nat) (s : Bytes), s.count sep < n → Tokens sep s (splitN sep n [] s) := by
  intro n
  induction n with
  | zero => intro s h; omega
  | succ n ih =>
    intro s h
    rcases splitAt_first sep s with hs | ⟨p, rest, hs, hp⟩
    · rw [splitN_last sep _ s (.inl hs)]
      refine ⟨by simp, ?_, by simp [List.intercalate]⟩
      intro t ht; simp at ht; subst ht; exact hs
    · subst hs
      have hc : List.count sep p = 0 := List.count_eq_zero.mpr hp
      simp only [List.count_append, List.count_cons_self] at h
      rw [splitN_cons sep (n + 1) (by omega) p rest hp]
      simp only [List.reverse_nil, List.nil_append, Nat.add_sub_cancel]
      exact tokens_cons hp (ih rest (by omega))

theorem splitN_many (sep : UInt8) : ∀ (n : Nat) (s : Bytes), 0 < n → n ≤ s.count sep →
    (splitN sep n [] s).length = n ∧ sep ∈ (splitN sep n [] s).getD (n - 1) [] := by
  intro n
  induction n with
  | zero => intro s h; omega
  | succ n ih =>
    intro s _ h
    have hm : sep ∈ s := List.count_pos_iff.mp (by omega)
    by_cases hn : n = 0
    · subst hn
      rw [splitN_last sep _ s (.inr (by omega))]
      simpa using hm
    · rcases splitAt_first sep s with hs | ⟨p, rest, hs, hp⟩
      · exact absurd hm hs
      · subst hs
        have hc : List.count sep p = 0 := List.count_eq_zero.mpr hp
        simp only [List.count_append, List.count_cons_self] at h
        rw [splitN_cons sep (n + 1) (by omega) p rest hp]
        obtain ⟨e1, e2⟩ := ih rest (by omega) (by omega)
        obtain ⟨k, rfl⟩ : ∃ k, n = k + 1 := ⟨n - 1, by omega⟩
        simp only [Nat.add_sub_cancel] at e2 ⊢
        refine ⟨by simp [e1], ?_⟩
        simpa using e2

/-- C41, first half: a scope string is accepted exactly if it has at most ten tokens, and the
result is its tokens. -/
theorem scope_accepted (s : Bytes) (l : List Bytes) :
    validateScope s = some l ↔ Tokens 32 s l ∧ s.count 32 + 1 ≤ 10 := by
  unfold validateScope
  by_cases h : s.count 32 < 10
  · have ht := splitN_few 32 10 s h
    simp only
    rw [if_neg]
    · constructor
      · intro e; simp only [Option.some.injEq] at e; subst e; exact ⟨ht, by omega⟩
      · rintro ⟨e, _⟩; rw [tokens_unique _ ht e]
    · rintro ⟨hl, hm⟩
      have hlt : 9 < (splitN 32 10 [] s).length := by omega
      have : (splitN 32 10 [] s).getD 9 [] ∈ splitN 32 10 [] s := by
        rw [List.getD_eq_getElem?_getD, List.getElem?_eq_getElem hlt]
        exact List.getElem_mem hlt
      exact ht.2.1 _ this hm
  · obtain ⟨h1, h2⟩ := splitN_many 32 10 s (by omega) (by omega)
    simp only
    rw [if_pos ⟨h1, h2⟩]
    constructor
    · intro e; cases e
    · rintro ⟨_, e⟩; omega

example : validateScope (str "a b  c") = some [str "a", str "b", [], str "c"] := by decide
example : validateScope (str "1 2 3 4 5 6 7 8 9 10") ≠ none ∧ validateScope (str "1 2 3 4 5 6 7 8 9 10 ") = none := by decide

/-! ### Aliases -/

/-- A position between two parts of a string is a word boundary. -/
def Boundary (prev : Bool) (p a : Bytes) : Prop :=
  (match p.getLast? with | some c => isWord c | none => prev) ≠ (match a with | c :: _ => isWord c | [] => false)

/-- The specification of the alias regular expression: `a` is a nonempty suffix of alias characters
after a word boundary, and no shorter suffix is. -/
def AliasOf (prev : Bool) (s a : Bytes) : Prop :=
  a ≠ [] ∧ (∃ p, s = p ++ a ∧ Boundary prev p a) ∧ a.all isAlias = true ∧
    ∀ p b, s = p ++ b → b.length < a.length → b ≠ [] → b.all isAlias = true → ¬ Boundary prev p b

theorem boundary_cons (prev : Bool) (c : UInt8) (p a : Bytes) : Boundary prev (c :: p) a ↔ Boundary (isWord c) p a := by
  unfold Boundary
  cases p with
  | nil => simp
  | cons d ds => simp [List.getLast?_cons_cons, List.getLast?_eq_some_getLast]

theorem lastAlias_spec : ∀ (s : Bytes) (prev : Bool),
    (lastAlias prev s ≠ [] → AliasOf prev s (lastAlias prev s)) ∧
    (lastAlias prev s = [] → ∀ p b, s = p ++ b → b ≠ [] → b.all isAlias = true → ¬ Boundary prev p b) := by
  intro s
  induction s with
  | nil =>
    intro prev
    refine ⟨fun h => absurd rfl h, fun _ p b h hb => ?_⟩
    have : b = [] := by
      have := congrArg List.length h; simp at this
      exact List.eq_nil_of_length_eq_zero (by omega)
    exact absurd this hb
  | cons c cs ih =>
    intro prev
    obtain ⟨i1, i2⟩ := ih (isWord c)
    simp only [lastAlias]
    cases hl : lastAlias (isWord c) cs with
    | nil =>
      rw [hl] at i1 i2
      have i2 := i2 rfl
      simp only
      have below : ∀ p b, c :: cs = p ++ b → b.length < (c :: cs).length → b ≠ [] → b.all isAlias = true → ¬ Boundary prev p b := by
        intro p b h hlt hb hall hbd
        cases p with
        | nil => simp at h; rw [← h] at hlt; omega
        | cons d ds =>
          simp only [List.cons_append, List.cons.injEq] at h
          rw [← h.1, boundary_cons] at hbd
          exact i2 ds b h.2 hb hall hbd
      split
      · rename_i hc
        simp only [Bool.and_eq_true, bne_iff_ne, ne_eq] at hc
        refine ⟨fun _ => ⟨by simp, ⟨[], rfl, ?_⟩, hc.2, below⟩, fun h => by simp at h⟩
        unfold Boundary; simpa using hc.1
      · rename_i hc
        simp only [Bool.and_eq_true, bne_iff_ne, ne_eq, not_and] at hc
        refine ⟨fun h => absurd rfl h, fun _ p b h hb hall hbd => ?_⟩
        cases p with
        | nil =>
          simp only [List.nil_append] at h
          subst h
          unfold Boundary at hbd
          exact hc (by simpa using hbd) hall
        | cons d ds =>
          exact below _ _ h (by rw [h]; simp; omega) hb hall hbd
    | cons a as =>
      rw [hl] at i1
      obtain ⟨j1, ⟨p, j2, j3⟩, j4, j5⟩ := i1 (by simp)
      simp only
      refine ⟨fun _ => ⟨by simp, ⟨c :: p, by rw [j2]; rfl, (boundary_cons ..).mpr j3⟩, j4, ?_⟩, fun h => by simp at h⟩
      intro q b h hlt hb hall hbd
      cases q with
      | nil =>
        simp only [List.nil_append] at h
        rw [← h, j2] at hlt
        simp at hlt; omega
      | cons d ds =>
        simp only [List.cons_append, List.cons.injEq] at h
        rw [← h.1, boundary_cons] at hbd
        exact j5 ds b h.2 hlt hb hall hbd

/-- The alias of a scope name is what the regular expression says. -/
theorem matchAlias_spec (s a : Bytes) (ha : a ≠ []) : matchAlias s = a ↔ AliasOf false s a := by
  obtain ⟨h1, h2⟩ := lastAlias_spec s false
  constructor
  · intro h; rw [← h]; exact h1 (by rw [show lastAlias false s = a from h]; exact ha)
  · intro h
    obtain ⟨_, ⟨p, k2, k3⟩, k4, k5⟩ := h
    by_cases hn : lastAlias false s = []
    · exact absurd k3 (h2 hn p a k2 ha k4)
    · obtain ⟨_, ⟨q, m2, m3⟩, m4, m5⟩ := h1 hn
      show lastAlias false s = a
      rcases Nat.lt_trichotomy (lastAlias false s).length a.length with hlt | heq | hgt
      · exact absurd m3 (k5 q _ m2 hlt hn m4)
      · exact (List.append_inj' (m2.symm.trans k2) heq).2
      · exact absurd k3 (m5 p a k2 hgt ha k4)

example : matchAlias (str "program:system") = str "system" := by decide

/-- `names` has exactly one element with alias `a`, namely `n`. -/
def Only (names : List Bytes) (a n : Bytes) : Prop :=
  n ∈ names ∧ matchAlias n = a ∧ ∀ m ∈ names, matchAlias m = a → m = n

theorem aliasLoop_spec : ∀ (names : List Bytes) (al : Map) (un : List Bytes) (a : Bytes),
    (aliasLoop names (al, un)).1 a = (match al a with
      | some n => some n
      | none => if a = [] then none else names.find? fun n => matchAlias n == a) ∧
    (a ∈ (aliasLoop names (al, un)).2 ↔ a ∈ un ∨ (a ≠ [] ∧
      (match al a with | some _ => 1 | none => 0) + names.countP (fun n => matchAlias n == a) ≥ 2 ∧
      0 < names.countP (fun n => matchAlias n == a))) := by
  intro names
  induction names with
  | nil =>
    intro al un a
    simp only [aliasLoop]
    refine ⟨?_, ?_⟩
    · cases al a <;> simp
    · simp
  | cons s ss ih =>
    intro al un a
    simp only [aliasLoop]
    by_cases hs : matchAlias s = []
    · rw [if_neg (by simp [hs])]
      obtain ⟨i1, i2⟩ := ih al un a
      refine ⟨?_, ?_⟩
      · rw [i1]
        cases al a with
        | some n => rfl
        | none =>
          by_cases ha : a = []
          · simp [ha]
          · simp only [ha, if_false]
            rw [List.find?_cons_of_neg]
            simp only [hs, beq_iff_eq]; exact fun e => ha e.symm
      · rw [i2]
        by_cases ha : a = []
        · simp [ha]
        · have : ((matchAlias s == a) = true) ↔ False := by
            simp only [hs, beq_iff_eq, iff_false]; exact fun e => ha e.symm
          simp [List.countP_cons, this]
    · rw [if_pos hs]
      cases hal : al (matchAlias s) with
      | some n =>
        simp only
        obtain ⟨i1, i2⟩ := ih al (matchAlias s :: un) a
        refine ⟨?_, ?_⟩
        · rw [i1]
          cases h : al a with
          | some n => rfl
          | none =>
            have : matchAlias s ≠ a := by intro e; rw [e, h] at hal; cases hal
            by_cases ha : a = []
            · simp [ha]
            · simp only [ha, if_false]
              rw [List.find?_cons_of_neg]; simpa using this
        · rw [i2]
          by_cases e : matchAlias s = a
          · subst e
            simp [List.countP_cons, hal, hs]
            omega
          · have e' : a ≠ matchAlias s := fun h => e h.symm
            have : (matchAlias s == a) = false := by simpa using e
            simp [List.countP_cons, this, e']
      | none =>
        simp only
        obtain ⟨i1, i2⟩ := ih (fun b => if b = matchAlias s then some s else al b) un a
        by_cases e : a = matchAlias s
        · refine ⟨?_, ?_⟩
          · rw [i1]; simp only [e, if_true, hal]; simp [hs]
          · rw [i2]
            simp only [e, if_true, hal, List.countP_cons, beq_self_eq_true]
            have : ∀ k : Nat, (1 + k ≥ 2 ∧ 0 < k) ↔ (0 + (k + 1) ≥ 2 ∧ 0 < k + 1) := by omega
            rw [this]
        · have e' : (matchAlias s == a) = false := by
            simp only [beq_eq_false_iff_ne, ne_eq]; exact fun h => e h.symm
          refine ⟨?_, ?_⟩
          · rw [i1]; simp only [e, if_false]
            cases h : al a with
            | some n => rfl
            | none => simp [List.find?_cons, e']
          · rw [i2]; simp [e, List.countP_cons, e']

theorem unaliasLoop_spec (un : List Bytes) : ∀ (names : List Bytes) (al : Map) (a : Bytes),
    unaliasLoop un names al a = if a ∈ un ∧ ∃ n ∈ names, matchAlias n = a then none else al a := by
  intro names
  induction names with
  | nil => intro al a; simp [unaliasLoop]
  | cons s ss ih =>
    intro al a
    simp only [unaliasLoop]
    split
    · rename_i hu
      rw [ih]
      by_cases e : a = matchAlias s
      · subst e
        simp [hu]
      · have e' : ¬ matchAlias s = a := fun h => e h.symm
        simp [e, e']
    · rename_i hu
      rw [ih]
      by_cases e : a = matchAlias s
      · subst e; simp [hu]
      · have e' : ¬ matchAlias s = a := fun h => e h.symm
        simp [e']

theorem countP_unique {l : List Bytes} {q : Bytes → Bool} (hn : l.Nodup) (h : l.countP q ≤ 1) {x y : Bytes} (hx : x ∈ l) (hy : y ∈ l)
    (qx : q x = true) (qy : q y = true) : x = y := by
  induction l with
  | nil => cases hx
  | cons z zs ih =>
    rw [List.countP_cons] at h
    simp only [List.nodup_cons] at hn
    rcases List.mem_cons.mp hx with rfl | hx' <;> rcases List.mem_cons.mp hy with rfl | hy'
    · rfl
    · have : 0 < zs.countP q := List.countP_pos_iff.mpr ⟨y, hy', qy⟩
      rw [if_pos qx] at h; omega
    · have : 0 < zs.countP q := List.countP_pos_iff.mpr ⟨x, hx', qx⟩
      rw [if_pos qy] at h; omega
    · exact ih hn.2 (by omega) hx' hy'

/-- C41: an alias stands for a registered name exactly if that is the only registered name with
the alias. -/
theorem alias_unique (names : List Bytes) (hn : names.Nodup) (a n : Bytes) :
    computeAliases names a = some n ↔ a ≠ [] ∧ Only names a n := by
  unfold computeAliases
  obtain ⟨h1, h2⟩ := aliasLoop_spec names (fun _ => none) [] a
  simp only at h1 h2 ⊢
  rw [unaliasLoop_spec]
  simp only [List.not_mem_nil, false_or] at h2
  by_cases ha : a = []
  · subst ha
    simp only [ne_eq, not_true, false_and, iff_false] at h2 ⊢
    rw [if_neg (by rintro ⟨h, _⟩; exact h2 h), h1]
    simp
  · by_cases hm : a ∈ (aliasLoop names (fun _ => none, [])).2 ∧ ∃ n ∈ names, matchAlias n = a
    · rw [if_pos hm]
      constructor
      · intro e; cases e
      · rintro ⟨_, e1, e2, e3⟩
        exfalso
        have hge := (h2.mp hm.1).2.1
        have hle : names.countP (fun m => matchAlias m == a) ≤ 1 := by
          have : names.countP (fun m => matchAlias m == a) ≤ names.countP (fun m => m == n) := by
            apply List.countP_mono_left
            intro m hmem he
            simp only [beq_iff_eq] at he ⊢
            exact e3 m hmem he
          have hc : names.count n ≤ 1 := List.nodup_iff_count.mp hn n
          rw [List.count] at hc
          omega
        omega
    · rw [if_neg hm, h1]
      simp only [ha, if_false]
      constructor
      · intro e
        refine ⟨ha, List.mem_of_find?_eq_some e, by simpa using List.find?_some e, ?_⟩
        intro m hmem he
        have hmem' := List.mem_of_find?_eq_some e
        have he' : matchAlias n = a := by simpa using List.find?_some e
        have hnot : a ∉ (aliasLoop names (fun _ => none, [])).2 := fun h => hm ⟨h, n, hmem', he'⟩
        rw [h2] at hnot
        have hpos : 0 < names.countP (fun n => matchAlias n == a) := List.countP_pos_iff.mpr ⟨n, hmem', by simpa using he'⟩
        refine countP_unique hn (q := fun n => matchAlias n == a) ?_ hmem hmem' (by simpa using he) (by simpa using he')
        have : ¬ (0 + names.countP (fun n => matchAlias n == a) ≥ 2) := fun h => hnot ⟨ha, h, hpos⟩
        omega
      · rintro ⟨_, e1, e2, e3⟩
        cases hf : names.find? (fun n => matchAlias n == a) with
        | none =>
          have := List.find?_eq_none.mp hf n e1
          simp [e2] at this
        | some m =>
          have hmem := List.mem_of_find?_eq_some hf
          have he : matchAlias m = a := by simpa using List.find?_some hf
          rw [e3 m hmem he]

/-- C41, second half: a request may use a scope exactly if one of the tokens is the scope itself
and not the alias of another, or is an alias which belongs to that scope only. -/
theorem scope_granted (names : List Bytes) (hn : names.Nodup) (s : Bytes) (l : List Bytes) (h : validateScope s = some l) (g : Bytes) :
    contextContains (context names none l) g = true ↔
      ∃ t, (∃ m, Tokens 32 s m ∧ t ∈ m) ∧ ((t ≠ [] ∧ Only names t g) ∨ (t = g ∧ ∀ n, t ≠ [] → ¬ Only names t n)) := by
  obtain ⟨ht, _⟩ := (scope_accepted s l).mp h
  have hl : l.length ≠ 0 := by
    intro e; exact ht.1 (List.eq_nil_of_length_eq_zero e)
  have step : contextContains (context names none l) g = true ↔ ∃ t ∈ l, resolve names t = g := by
    unfold context contextContains
    rw [if_neg (by rintro ⟨e, _⟩; exact hl e)]
    simp [List.any_map]
  rw [step]
  constructor
  · rintro ⟨t, htl, hr⟩
    refine ⟨t, ⟨l, ht, htl⟩, ?_⟩
    unfold resolve at hr
    cases hc : computeAliases names t with
    | some n =>
      rw [hc] at hr
      simp only [Option.getD_some] at hr
      subst hr
      exact .inl ((alias_unique names hn t n).mp hc)
    | none =>
      rw [hc] at hr
      right
      refine ⟨by simpa using hr, fun n h1 h2 => ?_⟩
      rw [(alias_unique names hn t n).mpr ⟨h1, h2⟩] at hc
      cases hc
  · rintro ⟨t, ⟨m, hm, htm⟩, h⟩
    rw [← tokens_unique _ ht hm] at htm
    refine ⟨t, htm, ?_⟩
    unfold resolve
    rcases h with ⟨h1, h2⟩ | ⟨h1, h2⟩
    · rw [(alias_unique names hn t g).mpr ⟨h1, h2⟩]; rfl
    · cases hc : computeAliases names t with
      | none => simpa using h1
      | some n =>
        obtain ⟨e1, e2⟩ := (alias_unique names hn t n).mp hc
        exact absurd e2 (h2 n e1)

/-- The names registered by any sequence of registrations are distinct. -/
theorem register_nodup (names : List Bytes) (n : Bytes) (m : List Bytes) (hn : names.Nodup) (h : register names n = some m) : m.Nodup := by
  unfold register at h
  split at h
  · cases h
  · simp only [Option.some.injEq] at h; subst h
    rename_i hm
    rw [List.nodup_append]
    refine ⟨hn, by simp, ?_⟩
    intro a ha b hb
    simp at hb; subst hb
    intro e; subst e; exact hm ha

/-- A registered name which ends in a letter, digit or underscore always stands for itself. -/
theorem own_name (names : List Bytes) (hn : names.Nodup) (n p : Bytes) (c : UInt8) (hm : n ∈ names) (hc : n = p ++ [c]) (hw : isWord c = true) :
    resolve names n = n := by
  unfold resolve
  cases h : computeAliases names n with
  | none => rfl
  | some s =>
    obtain ⟨h0, h1, h2, h3⟩ := (alias_unique names hn n s).mp h
    have hnn : matchAlias n = n := by
      rw [matchAlias_spec n n h0]
      obtain ⟨_, ⟨q, k2, k3⟩, k4, k5⟩ := (matchAlias_spec s n h0).mp h2
      -- no boundary inside n
      have inside : ∀ a b, n = a ++ b → a ≠ [] → b ≠ [] → ¬ Boundary false a b := by
        intro a b hab ha hb hbd
        refine k5 (q ++ a) b (by rw [k2, hab]; simp) (by rw [hab]; simp; exact List.length_pos_iff.mpr ha) hb ?_ ?_
        · rw [hab, List.all_append, Bool.and_eq_true] at k4; exact k4.2
        · unfold Boundary at hbd ⊢
          rw [List.getLast?_append]
          cases hg : a.getLast? with
          | none => exact absurd (List.getLast?_eq_none_iff.mp hg) ha
          | some d => rw [hg] at hbd; simpa using hbd
      -- hence all its characters are word characters
      have all : ∀ b a, n = a ++ b → b ≠ [] → (match b with | d :: _ => isWord d | [] => false) = true := by
        intro b
        induction b with
        | nil => intro a _ hb; exact absurd rfl hb
        | cons d ds ih =>
          intro a hab _
          simp only
          cases ds with
          | nil =>
            have := hc.symm.trans hab
            have := (List.append_inj' this rfl).2
            simp at this
            rw [← this]; exact hw
          | cons e es =>
            have hn' : n = (a ++ [d]) ++ e :: es := by rw [hab]; simp
            have hb := inside (a ++ [d]) (e :: es) hn' (by simp) (by simp)
            have hall := ih (a ++ [d]) hn' (by simp)
            unfold Boundary at hb
            simp only [List.getLast?_append, List.getLast?_singleton, Option.some_or, ne_eq, Decidable.not_not] at hb hall
            rw [hb, hall]
      refine ⟨h0, ⟨[], rfl, ?_⟩, k4, ?_⟩
      · have := all n [] rfl h0
        unfold Boundary
        simp only [List.getLast?_nil]
        rw [this]; simp
      · intro a b hab hlt hb _
        exact inside a b hab (by intro e; subst e; simp at hab; rw [hab] at hlt; omega) hb
    rw [h3 n hm hnn]
    rfl

/-- Otherwise not: of these two registered names, the token "-" grants the other one. -/
theorem own_name_counterexample :
    contextContains (context [str "-", str "foo-"] none [str "-"]) (str "-") = false ∧
    contextContains (context [str "-", str "foo-"] none [str "-"]) (str "foo-") = true := by decide

example : contextContains (context [str "program:system"] none [str "x", str "system"]) (str "program:system") = true := by decide

end Gate.Auth
