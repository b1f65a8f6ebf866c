import Verif.ScopeAlias
/-
C116: scope names and aliases. Model: ScopeAlias.lean.
-/
namespace Gate.ScopeAlias
open Gate.Auth (str)

/-! ### Specification -/

/-- Whether the last character is a word character (none: no). -/
def endsInWord (u : Bytes) : Bool := match u.getLast? with | some c => isWord c | none => false

/-- Whether the first character is. -/
def startsWithWord (u : Bytes) : Bool := match u.head? with | some c => isWord c | none => false

/-- `u ++ a` can be split here: after the word boundary, only class characters, at least one. -/
def Split (u a : Bytes) : Prop := a ≠ [] ∧ (∀ c ∈ a, inClass c = true) ∧ endsInWord u ≠ startsWithWord a

/-- The alias of a name: what follows the last word boundary which is followed by class characters only. -/
def IsAlias (s a : Bytes) : Prop := ∃ u, s = u ++ a ∧ Split u a ∧ ∀ v b, s = v ++ b → Split v b → b.length ≥ a.length

theorem ends_cons (c : UInt8) (v : Bytes) : endsInWord (c :: v) = if v = [] then isWord c else endsInWord v := by
  by_cases hv : v = []
  · subst hv; rfl
  · rw [if_neg hv]
    unfold endsInWord
    rw [List.getLast?_cons]
    cases hg : v.getLast? with
    | none => simp at hg; exact absurd hg hv
    | some x => rfl

theorem matchFrom_ne_none (q : Bool) (v b : Bytes) (hb : b ≠ []) (hcl : ∀ c ∈ b, inClass c = true) (hs : (if v = [] then q else endsInWord v) ≠ startsWithWord b) : matchFrom q (v ++ b) ≠ none := by
  induction v generalizing q with
  | nil =>
    rw [if_pos rfl] at hs
    cases b with
    | nil => exact absurd rfl hb
    | cons x b =>
      intro h
      unfold matchFrom at h
      simp only [List.nil_append] at h
      cases hm : matchFrom (isWord x) b with
      | some a => rw [hm] at h; cases h
      | none =>
        rw [hm] at h
        simp only at h
        rw [if_pos ⟨hs, List.all_eq_true.mpr hcl⟩] at h
        cases h
  | cons x v ih =>
    intro h
    unfold matchFrom at h
    simp only [List.cons_append] at h
    cases hm : matchFrom (isWord x) (v ++ b) with
    | some a => rw [hm] at h; cases h
    | none =>
      rw [if_neg (by simp), ends_cons] at hs
      exact ih (isWord x) hs hm

theorem matchFrom_some (prev : Bool) (s a : Bytes) (h : matchFrom prev s = some a) :
    ∃ u, s = u ++ a ∧ a ≠ [] ∧ (∀ c ∈ a, inClass c = true) ∧ (if u = [] then prev else endsInWord u) ≠ startsWithWord a ∧
      ∀ v b, s = v ++ b → b ≠ [] → (∀ c ∈ b, inClass c = true) → (if v = [] then prev else endsInWord v) ≠ startsWithWord b → b.length ≥ a.length := by
  induction s generalizing prev with
  | nil => cases h
  | cons c r ih =>
    unfold matchFrom at h
    cases hm : matchFrom (isWord c) r with
    | some a' =>
      rw [hm] at h
      cases h
      obtain ⟨u, h1, h2, h3, h4, h5⟩ := ih _ hm
      refine ⟨c :: u, by rw [h1]; rfl, h2, h3, ?_, ?_⟩
      · rw [if_neg (by simp)]
        rw [ends_cons]; exact h4
      · intro v b e hb hc hs
        cases v with
        | nil =>
          simp only [List.nil_append] at e
          subst e
          simp only [List.length_cons]
          have := congrArg List.length h1
          simp at this; omega
        | cons d v =>
          simp only [List.cons_append, List.cons.injEq] at e
          obtain ⟨rfl, e⟩ := e
          refine h5 v b e hb hc ?_
          rw [if_neg (by simp), ends_cons] at hs
          exact hs
    | none =>
      rw [hm] at h
      simp only at h
      split at h
      · rename_i hc
        cases h
        refine ⟨[], rfl, by simp, ?_, ?_, ?_⟩
        · have := hc.2; rw [List.all_eq_true] at this; exact this
        · rw [if_pos rfl]; exact hc.1
        · intro v b e hb hcl hs
          cases v with
          | nil => simp only [List.nil_append] at e; rw [e]; exact Nat.le_refl _
          | cons d v =>
            exfalso
            simp only [List.cons_append, List.cons.injEq] at e
            obtain ⟨rfl, e⟩ := e
            refine matchFrom_ne_none (isWord c) v b hb hcl ?_ (e ▸ hm)
            rw [if_neg (by simp), ends_cons] at hs
            exact hs
      · cases h

theorem ends_if (u : Bytes) : (if u = [] then false else endsInWord u) = endsInWord u := by
  split
  · rename_i h; subst h; rfl
  · rfl

theorem isAlias_unique (s a b : Bytes) (ha : IsAlias s a) (hb : IsAlias s b) : a = b := by
  obtain ⟨u, e1, h1, m1⟩ := ha
  obtain ⟨v, e2, h2, m2⟩ := hb
  have l1 := m1 v b e2 h2
  have l2 := m2 u a e1 h1
  have := e1.symm.trans e2
  exact (List.append_inj' this (by omega)).2

/-- C116: MatchAlias gives the alias of a name, or nothing if it doesn't have one. -/
theorem matchAlias_iff (s a : Bytes) (ha : a ≠ []) : matchAlias s = a ↔ IsAlias s a := by
  have fwd : ∀ a, matchFrom false s = some a → IsAlias s a := by
    intro a hm
    obtain ⟨u, h1, h2, h3, h4, h5⟩ := matchFrom_some false s a hm
    refine ⟨u, h1, ⟨h2, h3, ends_if u ▸ h4⟩, ?_⟩
    intro v b e hs
    exact h5 v b e hs.1 hs.2.1 (by rw [ends_if]; exact hs.2.2)
  unfold matchAlias
  cases hm : matchFrom false s with
  | some x =>
    simp only [Option.getD]
    constructor
    · rintro rfl; exact fwd x hm
    · intro h; exact isAlias_unique s x a (fwd x hm) h
  | none =>
    simp only [Option.getD]
    constructor
    · intro h; exact absurd h.symm ha
    · rintro ⟨u, h1, h2, _⟩
      exact absurd (h1 ▸ hm) (matchFrom_ne_none false u a h2.1 h2.2.1 (by rw [ends_if]; exact h2.2.2))

/-- All characters of an alias are word characters, or none of them are. -/
theorem alias_uniform (s a : Bytes) (h : IsAlias s a) : ∀ c ∈ a, isWord c = startsWithWord a := by
  obtain ⟨u, e, hs, hm⟩ := h
  -- a later boundary would have been chosen
  have key : ∀ (x y : Bytes) (c d : UInt8), a = x ++ c :: d :: y → isWord c = isWord d := by
    intro x y c d ha
    by_cases hne : isWord c = isWord d
    · exact hne
    · exfalso
      have := hm (u ++ x ++ [c]) (d :: y) (by rw [e, ha]; simp) ⟨by simp, ?_, ?_⟩
      · rw [ha] at this; simp at this; omega
      · intro k hk; exact hs.2.1 k (by rw [ha]; simp at hk ⊢; rcases hk with h | h <;> simp [h])
      · unfold endsInWord startsWithWord; simpa using hne
  have gen : ∀ (y x : Bytes) (c : UInt8), a = x ++ c :: y → ∀ d ∈ y, isWord d = isWord c := by
    intro y
    induction y with
    | nil => intro x c _ d hd; cases hd
    | cons z y ih =>
      intro x c ha d hd
      have h1 := key x y c z ha
      rw [List.mem_cons] at hd
      rcases hd with hd | hd
      · subst hd; exact h1.symm
      · rw [h1]; exact ih (x ++ [c]) z (by rw [ha]; simp) d hd
  cases a with
  | nil => intro c hc; cases hc
  | cons c r =>
    intro d hd
    rw [List.mem_cons] at hd
    rcases hd with hd | hd
    · subst hd; rfl
    · exact gen r [] c rfl d hd

/-- An alias made of word characters is its own alias. -/
theorem alias_self (s a : Bytes) (h : IsAlias s a) (hw : startsWithWord a = true) : IsAlias a a := by
  have hu := alias_uniform s a h
  obtain ⟨u, e, hs, hm⟩ := h
  refine ⟨[], rfl, ⟨hs.1, hs.2.1, ?_⟩, ?_⟩
  · rw [hw]; simp [endsInWord]
  · intro v b eb hb
    cases v with
    | nil => rw [List.nil_append] at eb; rw [eb]; exact Nat.le_refl _
    | cons c v =>
      exfalso
      apply hb.2.2
      have e1 : endsInWord (c :: v) = true := by
        have : endsInWord (c :: v) = isWord ((c :: v).getLast (by simp)) := by
          unfold endsInWord; rw [List.getLast?_eq_some_getLast (by simp)]
        rw [this, hu _ (by rw [eb]; exact List.mem_append_left _ (List.getLast_mem _)), hw]
      have e2 : startsWithWord b = true := by
        cases b with
        | nil => exact absurd rfl hb.1
        | cons d b => unfold startsWithWord; simp only [List.head?]; rw [hu d (by rw [eb]; simp), hw]
      rw [e1, e2]

/-- An alias without word characters doesn't have an alias. -/
theorem alias_none (s a b : Bytes) (h : IsAlias s a) (hw : startsWithWord a = false) : ¬ IsAlias a b := by
  have hu := alias_uniform s a h
  rintro ⟨v, e, hb, _⟩
  apply hb.2.2
  have e1 : endsInWord v = false := by
    unfold endsInWord
    cases hg : v.getLast? with
    | none => rfl
    | some c =>
      simp only
      rw [hu c (by rw [e]; exact List.mem_append_left _ (List.mem_of_getLast? hg)), hw]
  have e2 : startsWithWord b = false := by
    cases b with
    | nil => rfl
    | cons d b => unfold startsWithWord; simp only [List.head?]; rw [hu d (by rw [e]; simp), hw]
  rw [e1, e2]

/-! ### ComputeAliases -/

/-- How many of the names have this alias. -/
def holders (scope : List Bytes) (a : Bytes) : List Bytes := scope.filter (fun s => matchAlias s = a)

theorem collect_spec (l done : List Bytes) (m : Bytes → Option Bytes) (u : List Bytes)
    (h : ∀ a, a ≠ [] → (m a = (holders done a).head?) ∧ (a ∈ u ↔ 2 ≤ (holders done a).length)) (he : m [] = none ∧ [] ∉ u) :
    (∀ a, a ≠ [] → ((collect l (m, u)).1 a = (holders (done ++ l) a).head?) ∧ (a ∈ (collect l (m, u)).2 ↔ 2 ≤ (holders (done ++ l) a).length)) ∧ (collect l (m, u)).1 [] = none ∧ [] ∉ (collect l (m, u)).2 := by
  induction l generalizing done m u with
  | nil => rw [List.append_nil]; exact ⟨h, he⟩
  | cons s r ih =>
    unfold collect
    have app : ∀ a, holders (done ++ [s]) a = holders done a ++ (if matchAlias s = a then [s] else []) := by
      intro a
      unfold holders
      rw [List.filter_append, List.filter_cons]
      by_cases e : matchAlias s = a <;> simp [e]
    have assoc : done ++ s :: r = (done ++ [s]) ++ r := by simp
    rw [assoc]
    simp only
    split
    · rename_i hne
      split
      · rename_i x hx
        apply ih
        · intro a ha
          rw [app]
          obtain ⟨h1, h2⟩ := h a ha
          by_cases e : matchAlias s = a
          · rw [if_pos e]
            rw [e] at hx
            rw [hx] at h1
            refine ⟨?_, ?_⟩
            · rw [hx, h1]
              cases hh : holders done a with
              | nil => rw [hh] at h1; cases h1
              | cons y ys => rfl
            · rw [e]
              simp only [List.mem_cons, true_or, List.length_append, List.length_singleton, true_iff]
              cases hh : holders done a with
              | nil => rw [hh] at h1; cases h1
              | cons y ys => simp
          · rw [if_neg e, List.append_nil]
            refine ⟨h1, ?_⟩
            rw [List.mem_cons]
            exact ⟨fun hh => h2.mp (hh.resolve_left (fun e' => e e'.symm)), fun hh => Or.inr (h2.mpr hh)⟩
        · refine ⟨he.1, ?_⟩
          rw [List.mem_cons]
          rintro (e | e)
          · exact hne e.symm
          · exact he.2 e
      · rename_i hx
        apply ih
        · intro a ha
          rw [app]
          obtain ⟨h1, h2⟩ := h a ha
          by_cases e : matchAlias s = a
          · rw [if_pos e, if_pos e.symm]
            rw [e] at hx
            rw [hx] at h1
            have hn : holders done a = [] := by
              cases hh : holders done a with
              | nil => rfl
              | cons y ys => rw [hh] at h1; cases h1
            refine ⟨by rw [hn]; rfl, ?_⟩
            rw [h2, hn]; simp
          · rw [if_neg e, List.append_nil, if_neg (fun e' => e e'.symm)]
            exact ⟨h1, h2⟩
        · refine ⟨?_, he.2⟩
          rw [if_neg (fun e => hne e.symm)]; exact he.1
    · rename_i hne
      have hem : matchAlias s = [] := Classical.not_not.mp hne
      apply ih
      · intro a ha
        rw [app, if_neg (by rw [hem]; exact fun e => ha e.symm), List.append_nil]
        exact h a ha
      · exact he

theorem remove_spec (u l : List Bytes) (m : Bytes → Option Bytes) (a : Bytes) :
    remove u l m a = if a ∈ u ∧ (∃ s ∈ l, matchAlias s = a) then none else m a := by
  induction l generalizing m with
  | nil => unfold remove; rw [if_neg]; rintro ⟨_, s, hs, _⟩; cases hs
  | cons s r ih =>
    unfold remove
    rw [ih]
    by_cases hr : a ∈ u ∧ ∃ s ∈ r, matchAlias s = a
    · rw [if_pos hr, if_pos ⟨hr.1, hr.2.choose, List.mem_cons_of_mem _ hr.2.choose_spec.1, hr.2.choose_spec.2⟩]
    · rw [if_neg hr]
      by_cases hs : matchAlias s ∈ u
      · rw [if_pos hs]
        by_cases e : a = matchAlias s
        · rw [if_pos e, if_pos ⟨e ▸ hs, s, List.mem_cons_self, e.symm⟩]
        · rw [if_neg e, if_neg]
          rintro ⟨h1, x, hx, h2⟩
          rw [List.mem_cons] at hx
          rcases hx with hx | hx
          · subst hx; exact e h2.symm
          · exact hr ⟨h1, x, hx, h2⟩
      · rw [if_neg hs, if_neg]
        rintro ⟨h1, x, hx, h2⟩
        rw [List.mem_cons] at hx
        rcases hx with hx | hx
        · subst hx; exact hs (h2 ▸ h1)
        · exact hr ⟨h1, x, hx, h2⟩

theorem compute_spec (scope : List Bytes) (a : Bytes) : computeAliases scope a = if a ≠ [] ∧ (holders scope a).length = 1 then (holders scope a).head? else none := by
  have hc := collect_spec scope [] (fun _ => none) [] (by intro a _; exact ⟨rfl, by simp [holders]⟩) ⟨rfl, by simp⟩
  rw [List.nil_append] at hc
  unfold computeAliases
  cases hcol : collect scope (fun _ => none, []) with
  | mk m u =>
    rw [hcol] at hc
    simp only at hc ⊢
    rw [remove_spec]
    by_cases ha : a = []
    · subst ha
      rw [if_neg (fun h => hc.2.2 h.1), hc.2.1, if_neg (by simp)]
    · obtain ⟨h1, h2⟩ := hc.1 a ha
      by_cases h1' : (holders scope a).length = 1
      · have hx : ¬ (a ∈ u ∧ ∃ s ∈ scope, matchAlias s = a) := by
          rintro ⟨h, _⟩
          have := h2.mp h; omega
        rw [if_neg hx, if_pos (show a ≠ [] ∧ (holders scope a).length = 1 from ⟨ha, h1'⟩), h1]
      · rw [if_neg (show ¬ (a ≠ [] ∧ (holders scope a).length = 1) from fun h => h1' h.2)]
        by_cases h0 : (holders scope a).length = 0
        · have hn := List.eq_nil_of_length_eq_zero h0
          rw [hn] at h1
          split
          · rfl
          · rw [h1]; rfl
        · have hx : a ∈ u ∧ ∃ s ∈ scope, matchAlias s = a := by
            refine ⟨h2.mpr (by omega), ?_⟩
            cases hh : holders scope a with
            | nil => rw [hh] at h0; exact absurd rfl h0
            | cons x xs =>
              have : x ∈ holders scope a := by rw [hh]; exact List.mem_cons_self
              unfold holders at this
              rw [List.mem_filter] at this
              exact ⟨x, this.1, of_decide_eq_true this.2⟩
          rw [if_pos hx]

/-- C116: a word is an alias of a name exactly if it's the alias of that name, and of no other. -/
theorem compute_iff (scope : List Bytes) (hd : scope.Nodup) (a n : Bytes) :
    computeAliases scope a = some n ↔ n ∈ scope ∧ IsAlias n a ∧ ∀ m ∈ scope, IsAlias m a → m = n := by
  rw [compute_spec]
  have hh : ∀ x, x ∈ holders scope a ↔ x ∈ scope ∧ matchAlias x = a := by
    intro x; unfold holders; rw [List.mem_filter]; simp
  constructor
  · intro h
    split at h
    · rename_i hc
      cases hl : holders scope a with
      | nil => rw [hl] at h; cases h
      | cons x xs =>
        rw [hl] at h hc
        cases h
        cases xs with
        | cons y ys => simp at hc
        | nil =>
          have hn := (hh n).mp (by rw [hl]; exact List.mem_cons_self)
          refine ⟨hn.1, (matchAlias_iff n a hc.1).mp hn.2, ?_⟩
          intro m hm hma
          have := (hh m).mpr ⟨hm, (matchAlias_iff m a hc.1).mpr hma⟩
          rw [hl, List.mem_singleton] at this
          exact this
    · cases h
  · rintro ⟨h1, h2, h3⟩
    have ha : a ≠ [] := by obtain ⟨u, _, hs, _⟩ := h2; exact hs.1
    have hn : n ∈ holders scope a := (hh n).mpr ⟨h1, (matchAlias_iff n a ha).mpr h2⟩
    have hall : ∀ x ∈ holders scope a, x = n := fun x hx => h3 x ((hh x).mp hx).1 ((matchAlias_iff x a ha).mp ((hh x).mp hx).2)
    have hnd : (holders scope a).Nodup := hd.filter _
    cases hl : holders scope a with
    | nil => rw [hl] at hn; cases hn
    | cons x xs =>
      have hx : x = n := hall x (by rw [hl]; exact List.mem_cons_self)
      cases xs with
      | nil => rw [if_pos ⟨ha, rfl⟩, hx]; rfl
      | cons y ys =>
        have hy : y = n := hall y (by rw [hl]; simp)
        rw [hl, hx, hy] at hnd
        simp at hnd

/-! ### Registration and resolution -/

theorem insert_perm (x : Bytes) (l : List Bytes) : (insert x l).Perm (x :: l) := by
  induction l with
  | nil => exact .refl _
  | cons y l ih =>
    unfold insert
    split
    · exact .refl _
    · exact (ih.cons y).trans (.swap x y l)

theorem sort_perm (l : List Bytes) : (sortStrings l).Perm l := by
  induction l with
  | nil => exact .refl _
  | cons x l ih => exact (insert_perm x _).trans (ih.cons x)

theorem le_total (a b : Bytes) : le a b = true ∨ le b a = true := by
  induction a generalizing b with
  | nil => left; rfl
  | cons x a ih =>
    cases b with
    | nil => right; rfl
    | cons y b =>
      simp only [le, Bool.or_eq_true, Bool.and_eq_true, decide_eq_true_eq]
      rcases ih b with h | h
      · by_cases e : x = y
        · left; right; exact ⟨e, h⟩
        · rcases UInt8.lt_or_lt_of_ne e with h' | h'
          · left; left; exact h'
          · right; left; exact h'
      · by_cases e : x = y
        · right; right; exact ⟨e.symm, h⟩
        · rcases UInt8.lt_or_lt_of_ne e with h' | h'
          · left; left; exact h'
          · right; left; exact h'

theorem le_trans (a b c : Bytes) (h1 : le a b = true) (h2 : le b c = true) : le a c = true := by
  induction a generalizing b c with
  | nil => rfl
  | cons x a ih =>
    cases b with
    | nil => cases h1
    | cons y b =>
      cases c with
      | nil => cases h2
      | cons z c =>
        simp only [le, Bool.or_eq_true, Bool.and_eq_true, decide_eq_true_eq] at h1 h2 ⊢
        rcases h1 with h1 | ⟨e1, h1⟩
        · rcases h2 with h2 | ⟨e2, h2⟩
          · left; exact UInt8.lt_trans h1 h2
          · left; exact e2 ▸ h1
        · rcases h2 with h2 | ⟨e2, h2⟩
          · left; exact e1 ▸ h2
          · right; exact ⟨e1.trans e2, ih b c h1 h2⟩

theorem insert_sorted (x : Bytes) (l : List Bytes) (h : l.Pairwise (fun a b => le a b = true)) : (insert x l).Pairwise (fun a b => le a b = true) := by
  induction l with
  | nil => exact List.pairwise_singleton _ _
  | cons y l ih =>
    unfold insert
    rw [List.pairwise_cons] at h
    split
    · rename_i hle
      rw [List.pairwise_cons]
      refine ⟨?_, List.pairwise_cons.mpr h⟩
      intro z hz
      rw [List.mem_cons] at hz
      rcases hz with hz | hz
      · rw [hz]; exact hle
      · exact le_trans x y z hle (h.1 z hz)
    · rename_i hle
      rw [List.pairwise_cons]
      refine ⟨?_, ih h.2⟩
      intro z hz
      rw [(insert_perm x l).mem_iff, List.mem_cons] at hz
      rcases hz with hz | hz
      · rw [hz]; exact (le_total x y).resolve_left hle
      · exact h.1 z hz

theorem sort_sorted (l : List Bytes) : (sortStrings l).Pairwise (fun a b => le a b = true) := by
  induction l with
  | nil => exact List.Pairwise.nil
  | cons x l ih => exact insert_sorted x _ ih

/-- A package state made by registrations. -/
def Registered (p : Pkg) : Prop := ∃ l, registerAll {} l = some p

structure Good (p : Pkg) : Prop where
  nodup : p.names.Nodup
  aliases : ∀ a n, p.aliases a = some n ↔ n ∈ p.names ∧ IsAlias n a ∧ ∀ m ∈ p.names, IsAlias m a → m = n

theorem register_good (p q : Pkg) (name : Bytes) (hp : p.names.Nodup) (h : register p name = some q) : Good q ∧ ∀ x, x ∈ q.names ↔ x ∈ p.names ∨ x = name := by
  unfold register at h
  split at h
  · cases h
  · rename_i hn
    cases h
    have hperm : (sortStrings (p.names ++ [name])).Perm (p.names ++ [name]) := sort_perm _
    have hnd : (sortStrings (p.names ++ [name])).Nodup := by
      rw [hperm.nodup_iff, List.nodup_append]
      refine ⟨hp, by simp, ?_⟩
      intro x hx y hy e
      rw [List.mem_singleton] at hy
      subst hy; subst e; exact hn hx
    refine ⟨⟨hnd, fun a n => compute_iff _ hnd a n⟩, ?_⟩
    intro x
    simp only
    rw [hperm.mem_iff, List.mem_append, List.mem_singleton]

theorem registerAll_names (l : List Bytes) (p q : Pkg) (hp : Good p) (h : registerAll p l = some q) : Good q ∧ ∀ x, x ∈ q.names ↔ x ∈ p.names ∨ x ∈ l := by
  induction l generalizing p with
  | nil => cases h; exact ⟨hp, fun x => by simp⟩
  | cons n r ih =>
    unfold registerAll at h
    cases hr : register p n with
    | none => rw [hr] at h; cases h
    | some p' =>
      rw [hr] at h
      obtain ⟨g, hm⟩ := register_good p p' n hp.nodup hr
      obtain ⟨g', hm'⟩ := ih p' g h
      refine ⟨g', fun x => ?_⟩
      rw [hm', hm, List.mem_cons, or_assoc]

theorem empty_good : Good {} := ⟨List.nodup_nil, fun a n => ⟨fun h => (by cases h), fun h => (by cases h.1)⟩⟩

theorem good (p : Pkg) (h : Registered p) : Good p := by
  obtain ⟨l, h⟩ := h
  exact (registerAll_names l {} p empty_good h).1

/-- C116: the names reported to clients are those registered, each once. -/
theorem names_registered (l : List Bytes) (p : Pkg) (h : registerAll {} l = some p) : p.names.Nodup ∧ ∀ x, x ∈ p.names ↔ x ∈ l := by
  obtain ⟨g, hm⟩ := registerAll_names l {} p empty_good h
  exact ⟨g.nodup, fun x => by rw [hm]; simp⟩

/-- C116: and they are in order. -/
theorem names_sorted (l : List Bytes) (p : Pkg) (h : registerAll {} l = some p) : p.names.Pairwise (fun a b => le a b = true) := by
  have : ∀ (l : List Bytes) (p q : Pkg), p.names.Pairwise (fun a b => le a b = true) → registerAll p l = some q → q.names.Pairwise (fun a b => le a b = true) := by
    intro l
    induction l with
    | nil => intro p q hp hq; cases hq; exact hp
    | cons n r ih =>
      intro p q hp hq
      unfold registerAll at hq
      cases hr : register p n with
      | none => rw [hr] at hq; cases hq
      | some p' =>
        rw [hr] at hq
        refine ih p' q ?_ hq
        unfold register at hr
        split at hr
        · cases hr
        · cases hr; exact sort_sorted _
  exact this l {} p List.Pairwise.nil h

/-- C116: Resolve gives the scope string itself, or the one registered name which has it as its alias. -/
theorem resolve_cases (p : Pkg) (h : Registered p) (s : Bytes) :
    resolve p s = s ∨ (resolve p s ∈ p.names ∧ IsAlias (resolve p s) s ∧ ∀ m ∈ p.names, IsAlias m s → m = resolve p s) := by
  unfold resolve
  cases ha : p.aliases s with
  | none => exact Or.inl rfl
  | some n => exact Or.inr (((good p h).aliases s n).mp ha)

/-- C116: an unambiguous alias is resolved. -/
theorem resolve_alias (p : Pkg) (h : Registered p) (s n : Bytes) (hn : n ∈ p.names) (ha : IsAlias n s) (hu : ∀ m ∈ p.names, IsAlias m s → m = n) : resolve p s = n := by
  unfold resolve
  rw [((good p h).aliases s n).mpr ⟨hn, ha, hu⟩]

/-- C116: an ambiguous alias is left as it is. -/
theorem resolve_ambiguous (p : Pkg) (h : Registered p) (s m n : Bytes) (hm : m ∈ p.names) (hn : n ∈ p.names) (ham : IsAlias m s) (han : IsAlias n s) (hne : m ≠ n) : resolve p s = s := by
  unfold resolve
  cases ha : p.aliases s with
  | none => rfl
  | some k =>
    have := (((good p h).aliases s k).mp ha).2.2
    exact absurd ((this m hm ham).trans (this n hn han).symm) hne

/-- C116: resolving is idempotent: what has been resolved means the same when it's given again. -/
theorem resolve_idem (p : Pkg) (h : Registered p) (s : Bytes) : resolve p (resolve p s) = resolve p s := by
  rcases resolve_cases p h s with e | ⟨hn, ha, hu⟩
  · rw [e]; exact e
  · rcases resolve_cases p h (resolve p s) with e | ⟨hn', ha', hu'⟩
    · exact e
    · cases hw : startsWithWord (resolve p s) with
      | true =>
        have := alias_self _ _ ha' hw
        exact (hu' _ hn this).symm
      | false => exact absurd ha (alias_none _ _ _ ha' hw)

/-- C116: a registered name means itself, if there is a word character in it. -/
theorem name_itself (p : Pkg) (h : Registered p) (n : Bytes) (hn : n ∈ p.names) (c : UInt8) (hc : c ∈ n) (hw : isWord c = true) : resolve p n = n := by
  rcases resolve_cases p h n with e | ⟨hn', ha, hu⟩
  · exact e
  · have hs : startsWithWord n = true := by rw [← alias_uniform _ _ ha c hc]; exact hw
    exact (hu n hn (alias_self _ _ ha hs)).symm

/-- C116, refuted for other names: a name made of punctuation may be taken for another. -/
theorem punctuation_refuted : (registerAll {} [str "-", str "a-"]).map (fun p => (p.names, resolve p (str "-"))) = some ([str "-", str "a-"], str "a-") := by
  decide +kernel

/-- C116: further registrations never give an alias to another name: what was resolved to some name is resolved to that name, or left as it is. -/
theorem resolve_stable (p q : Pkg) (h : Registered p) (l : List Bytes) (hq : registerAll p l = some q) (s : Bytes) (hr : resolve p s ≠ s) :
    resolve q s = resolve p s ∨ resolve q s = s := by
  obtain ⟨g, hm⟩ := registerAll_names l p q (good p h) hq
  rcases resolve_cases p h s with e | ⟨hn, ha, hu⟩
  · exact absurd e hr
  · cases hqa : q.aliases s with
    | none => right; unfold resolve; rw [hqa]
    | some k =>
      left
      have hk := (g.aliases s k).mp hqa
      have : resolve p s = k := hk.2.2 _ ((hm _).mpr (Or.inl hn)) ha
      show (match q.aliases s with | some n => n | none => s) = resolve p s
      rw [hqa, this]

/-- C116: which names a token's scope grants: a registered name (with a word character in it) is in the context iff it, or its alias (if it isn't ambiguous), was given. -/
theorem grants_iff (p : Pkg) (h : Registered p) (ctx : Option (List Bytes)) (scope : List Bytes) (hne : scope ≠ [] ∨ ctx ≠ none) (n : Bytes) (hn : n ∈ p.names) (c : UInt8) (hc : c ∈ n) (hw : isWord c = true) :
    contains (context p ctx scope) n = true ↔ n ∈ scope ∨ ∃ a ∈ scope, IsAlias n a ∧ ∀ m ∈ p.names, IsAlias m a → m = n := by
  have e : context p ctx scope = some (scope.map (resolve p)) := by
    unfold context
    rw [if_neg]
    · rfl
    · rintro ⟨h1, h2⟩
      rcases hne with h | h
      · exact h h1
      · exact h h2
  rw [e]
  unfold contains
  simp only [List.any_map, List.any_eq_true, Function.comp, decide_eq_true_eq]
  constructor
  · rintro ⟨s, hs, hr⟩
    rcases resolve_cases p h s with e | ⟨h1, h2, h3⟩
    · left; rw [← hr, e]; exact hs
    · right; rw [hr] at h2 h3; exact ⟨s, hs, h2, h3⟩
  · rintro (hs | ⟨a, hs, h1, h2⟩)
    · exact ⟨n, hs, name_itself p h n hn c hc hw⟩
    · exact ⟨a, hs, resolve_alias p h a n hn h1 h2⟩

/-- C116: an empty scope grants nothing, also if a scope was set before. -/
theorem empty_grants_nothing (p : Pkg) (ctx : Option (List Bytes)) (n : Bytes) : contains (context p ctx []) n = false := by
  unfold context contains
  by_cases hc : ctx = none
  · rw [if_pos ⟨rfl, hc⟩, hc]
  · rw [if_neg (fun x => hc x.2)]; rfl

/-- The hypotheses are met by the name which the program registers (system.go:13-17). -/
example : ∃ p, registerAll {} [str "program:system"] = some p ∧ IsAlias (str "program:system") (str "system") ∧ resolve p (str "system") = str "program:system" ∧ contains (context p none [str "system"]) (str "program:system") = true :=
  ⟨_, rfl, (matchAlias_iff _ _ (by decide +kernel)).mp (by decide +kernel), by decide +kernel, by decide +kernel⟩

example : (registerAll {} [str "program:system", str "other:system"]).map (fun p => (p.names, resolve p (str "system"))) = some ([str "other:system", str "program:system"], str "system") := by decide +kernel

theorem fin_isAlias : ∀ n : Fin 256, Auth.isAlias (UInt8.ofNat n.val) = true ↔ UInt8.ofNat n.val ∈ Auth.str "abcdefghijklmnopqrstuvwxyz0123456789-._" := by
  decide +kernel

/-- C116: the characters which an alias may have. -/
theorem alias_chars (c : UInt8) : Auth.isAlias c = true ↔ c ∈ Auth.str "abcdefghijklmnopqrstuvwxyz0123456789-._" := by
  have := fin_isAlias ⟨c.toNat, c.toNat_lt⟩
  simpa using this

theorem fin_isWord : ∀ n : Fin 256, Auth.isWord (UInt8.ofNat n.val) = true ↔
    UInt8.ofNat n.val ∈ Auth.str "ABCDEFGHIJKLMNOPQRSTUVWXYZabcdefghijklmnopqrstuvwxyz0123456789_" := by
  decide +kernel

/-- C116: the word characters, between which and others a boundary is. -/
theorem word_chars (c : UInt8) : Auth.isWord c = true ↔ c ∈ Auth.str "ABCDEFGHIJKLMNOPQRSTUVWXYZabcdefghijklmnopqrstuvwxyz0123456789_" := by
  have := fin_isWord ⟨c.toNat, c.toNat_lt⟩
  simpa using this

end Gate.ScopeAlias
