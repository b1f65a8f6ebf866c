import Verif.Breakpoints
import Verif.DaemonWebProps
import Verif.AcceptProps
import Verif.LocalCmdProps
/-
C178: the offsets which break expressions mean.
-/
namespace Gate.Breakpoints
open Gate.DaemonWeb (slash walk parts elems isSlash join Plain)

/-! ## Numbers -/

/-- The value of a number written with digits of a base. -/
def value (base : Nat) (ds : List Nat) : Nat := ds.foldl (fun n d => n * base + d) 0

theorem foldl_ge (base : Nat) (hb : 1 ≤ base) : ∀ (ds : List Nat) (n : Nat), n ≤ ds.foldl (fun n d => n * base + d) n
  | [], n => Nat.le_refl _
  | d :: ds, n => by
    have h := foldl_ge base hb ds (n * base + d)
    have : n * 1 ≤ n * base := Nat.mul_le_mul_left _ hb
    simp only [List.foldl_cons]; omega

/-- The digits are those of the base, and the value is theirs; anything else than digits and underscores is refused. -/
theorem digits_iff (base : Nat) (hb : 2 ≤ base) : ∀ (s : Bytes) (n m : Nat), n ≤ maxUint64 →
    (digits base n s = some m ↔ ∃ ds : List Nat, (s.filter (· != 95)).map digit = ds.map some ∧ (∀ d ∈ ds, d < base) ∧ m = ds.foldl (fun n d => n * base + d) n ∧ m ≤ maxUint64)
  | [], n, m, hn => by
    simp only [digits, List.filter_nil, List.map_nil, Option.some.injEq]
    constructor
    · rintro rfl; exact ⟨[], by simp, by simp, by simp, hn⟩
    · rintro ⟨ds, h, _, e, _⟩
      cases ds with
      | nil => exact e.symm
      | cons d ds => simp at h
  | c :: s, n, m, hn => by
    by_cases hc : c = 95
    · subst hc
      simp only [digits, if_true]
      rw [digits_iff base hb s n m hn]
      simp
    · simp only [digits, if_neg hc]
      have hf : (c :: s).filter (· != 95) = c :: s.filter (· != 95) := by simp [hc]
      rw [hf, List.map_cons]
      cases hd : digit c with
      | none =>
        simp only [reduceCtorEq, false_iff]
        rintro ⟨ds, h, _⟩
        cases ds <;> simp at h
      | some d =>
        simp only
        split
        · rename_i hlt
          simp only [reduceCtorEq, false_iff]
          rintro ⟨ds, h, h2, _⟩
          cases ds with
          | nil => simp at h
          | cons x ds =>
            simp only [List.map_cons, List.cons.injEq, Option.some.injEq] at h
            have := h2 x (by simp)
            omega
        · rename_i hlt
          have big : maxUint64 < n * base + d → ¬ ∃ ds : List Nat, some d :: (s.filter (· != 95)).map digit = ds.map some ∧ (∀ d ∈ ds, d < base) ∧ m = ds.foldl (fun n d => n * base + d) n ∧ m ≤ maxUint64 := by
            rintro hb2 ⟨ds, h, _, e, hm⟩
            cases ds with
            | nil => simp at h
            | cons x ds =>
              simp only [List.map_cons, List.cons.injEq, Option.some.injEq] at h
              have := foldl_ge base (by omega) ds (n * base + x)
              simp only [List.foldl_cons] at e
              omega
          split
          · rename_i hcut
            simp only [reduceCtorEq, false_iff]
            apply big
            have h1 : (maxUint64 / base + 1) * base ≤ n * base := Nat.mul_le_mul_right _ hcut
            have h2 : maxUint64 < (maxUint64 / base + 1) * base := by
              have := Nat.div_add_mod maxUint64 base
              have h3 := Nat.mod_lt maxUint64 (show 0 < base by omega)
              rw [Nat.add_mul, Nat.one_mul, Nat.mul_comm (maxUint64 / base)]
              omega
            omega
          · split
            · rename_i hmax
              simp only [reduceCtorEq, false_iff]
              exact big hmax
            · rename_i hmax
              rw [digits_iff base hb s (n * base + d) m (by omega)]
              constructor
              · rintro ⟨ds, h, h2, e, hm⟩
                exact ⟨d :: ds, by simp [h], by intro x hx; rcases List.mem_cons.1 hx with rfl | hx; omega; exact h2 x hx, by simpa using e, hm⟩
              · rintro ⟨ds, h, h2, e, hm⟩
                cases ds with
                | nil => simp at h
                | cons x ds =>
                  simp only [List.map_cons, List.cons.injEq, Option.some.injEq] at h
                  obtain ⟨rfl, h⟩ := h
                  exact ⟨ds, h, fun y hy => h2 y (by simp [hy]), by simpa using e, hm⟩

theorem prefixed_base (s : Bytes) : (prefixed s).1 = 2 ∨ (prefixed s).1 = 8 ∨ (prefixed s).1 = 10 ∨ (prefixed s).1 = 16 := by
  unfold prefixed
  split
  · split
    · rename_i h
      unfold base? at h
      repeat' split at h
      all_goals simp at h
      all_goals subst h; simp
    · simp
  · simp
  · simp

/-- A number's notation: a prefix and digits (at least one) of the base which it says; otherwise octal if there's a leading zero, or decimal. -/
inductive Notation : Bytes → Nat → Bytes → Prop where
  | binary (c : UInt8) (s : Bytes) : c = 98 ∨ c = 66 → s ≠ [] → Notation (48 :: c :: s) 2 s
  | octal (c : UInt8) (s : Bytes) : c = 111 ∨ c = 79 → s ≠ [] → Notation (48 :: c :: s) 8 s
  | hexadecimal (c : UInt8) (s : Bytes) : c = 120 ∨ c = 88 → s ≠ [] → Notation (48 :: c :: s) 16 s
  | zero (s : Bytes) : (∀ c t, s = c :: t → c ∈ [98, 66, 111, 79, 120, 88] → t = []) → Notation (48 :: s) 8 s
  | decimal (s : Bytes) : (∀ t, s ≠ 48 :: t) → Notation s 10 s

theorem base_iff (c : UInt8) : base? c = (if c = 98 ∨ c = 66 then some 2 else if c = 111 ∨ c = 79 then some 8 else if c = 120 ∨ c = 88 then some 16 else none) := by
  revert c
  exact Accept.uint8_all (by decide +kernel)

/-- The base and the digits are those of the notation. -/
theorem prefixed_notation (s : Bytes) : Notation s (prefixed s).1 (prefixed s).2 := by
  unfold prefixed
  split
  · rename_i c d s
    rw [base_iff]
    by_cases h1 : c = 98 ∨ c = 66
    · simp only [if_pos h1]; exact .binary c _ h1 (by simp)
    · by_cases h2 : c = 111 ∨ c = 79
      · simp only [if_neg h1, if_pos h2]; exact .octal c _ h2 (by simp)
      · by_cases h3 : c = 120 ∨ c = 88
        · simp only [if_neg h1, if_neg h2, if_pos h3]; exact .hexadecimal c _ h3 (by simp)
        · simp only [if_neg h1, if_neg h2, if_neg h3]
          refine .zero _ fun c' t e hm => ?_
          cases e
          simp only [List.mem_cons, List.not_mem_nil, or_false] at hm
          grind
  · rename_i s h
    refine .zero _ fun c t e _ => ?_
    subst e
    cases t with
    | nil => rfl
    | cons d t => exact absurd rfl (h c d t)
  · rename_i h
    exact .decimal _ fun t e => h t e

/-- A number is written in only one notation. -/
theorem notation_unique {s : Bytes} {b b' : Nat} {d d' : Bytes} (h : Notation s b d) (h' : Notation s b' d') : b = b' ∧ d = d' := by
  cases h <;> cases h' <;> simp_all <;> grind

/-- A number is the value of its digits (underscores are ignored), in the base which its prefix says. -/
theorem number_value {s : Bytes} {n : Nat} (h : parseUint s = some n) :
    s ≠ [] ∧ n ≤ maxUint64 ∧ ∃ ds : List Nat, ((prefixed s).2.filter (· != 95)).map digit = ds.map some ∧ (∀ d ∈ ds, d < (prefixed s).1) ∧ n = value (prefixed s).1 ds := by
  unfold parseUint at h
  split at h
  · cases h
  · rename_i hs
    split at h
    · cases h
    · rename_i m hm
      split at h
      · cases h
      · cases h
        have hb := prefixed_base s
        obtain ⟨ds, a, b, c, d⟩ := (digits_iff (prefixed s).1 (by omega) (prefixed s).2 0 n (by simp)).1 hm
        exact ⟨hs, d, ds, a, b, c⟩

/-- Numbers without underscores, with any prefix, are understood if they fit. -/
theorem number_read {s : Bytes} {ds : List Nat} (hs : s ≠ []) (hu : (95 : UInt8) ∉ (prefixed s).2) (hd : (prefixed s).2.map digit = ds.map some) (hb : ∀ d ∈ ds, d < (prefixed s).1)
    (hm : value (prefixed s).1 ds ≤ maxUint64) : parseUint s = some (value (prefixed s).1 ds) := by
  have hf : (prefixed s).2.filter (· != 95) = (prefixed s).2 := List.filter_eq_self.2 fun a ha => by
    simp only [bne_iff_ne]; rintro rfl; exact hu ha
  have hbb := prefixed_base s
  have := (digits_iff (prefixed s).1 (by omega) (prefixed s).2 0 (value (prefixed s).1 ds) (by simp)).2 ⟨ds, by rw [hf]; exact hd, hb, rfl, hm⟩
  have hc : (prefixed s).2.contains 95 = false := by simpa using hu
  simp only [parseUint, if_neg hs, this, hc, Bool.false_and, Bool.false_eq_true, if_false]

/-- A number is in some notation, and is the value of its digits (underscores are ignored) in the notation's base. -/
theorem number_means {s : Bytes} {n : Nat} (h : parseUint s = some n) :
    ∃ (b : Nat) (t : Bytes) (ds : List Nat), Notation s b t ∧ (t.filter (· != 95)).map digit = ds.map some ∧ (∀ d ∈ ds, d < b) ∧ n = value b ds ∧ n ≤ maxUint64 :=
  have ⟨_, a, ds, b, c, d⟩ := number_value h
  ⟨_, _, ds, prefixed_notation s, b, c, d, a⟩

/-- Whatever is in a notation without underscores is understood if it fits. -/
theorem number_understood {s t : Bytes} {b : Nat} {ds : List Nat} (hs : s ≠ []) (hn : Notation s b t) (hu : (95 : UInt8) ∉ t) (hd : t.map digit = ds.map some) (hb : ∀ d ∈ ds, d < b)
    (hm : value b ds ≤ maxUint64) : parseUint s = some (value b ds) := by
  obtain ⟨rfl, rfl⟩ := notation_unique hn (prefixed_notation s)
  exact number_read hs hu hd hb hm

/-- The values of digits and letters. -/
theorem digit_iff (c : UInt8) (d : Nat) : digit c = some d ↔ (c.toNat = 48 + d ∧ d < 10) ∨ ((c.toNat = 87 + d ∨ c.toNat = 55 + d) ∧ 10 ≤ d ∧ d < 36) := by
  have h : ∀ c : UInt8, (∀ d : Fin 36, digit c = some d.val ↔ (c.toNat = 48 + d.val ∧ d.val < 10) ∨ ((c.toNat = 87 + d.val ∨ c.toNat = 55 + d.val) ∧ 10 ≤ d.val ∧ d.val < 36)) ∧ ∀ x ∈ digit c, x < 36 := by
    intro c; revert c
    exact Accept.uint8_all (by decide +kernel)
  obtain ⟨h1, h2⟩ := h c
  by_cases hd : d < 36
  · exact h1 ⟨d, hd⟩
  · constructor
    · intro e; exact absurd (h2 d e) hd
    · intro e; omega

theorem decimal_iff : ∀ (s : Bytes) (n m : Nat), decimal n s = some m ↔ ∃ ds : List Nat, s.map (·.toNat) = ds.map (48 + ·) ∧ (∀ d ∈ ds, d < 10) ∧ m = ds.foldl (fun n d => n * 10 + d) n
  | [], n, m => by
    simp only [decimal, Option.some.injEq, List.map_nil]
    constructor
    · rintro rfl; exact ⟨[], rfl, by simp, rfl⟩
    · rintro ⟨ds, h, _, e⟩
      have : ds = [] := by cases ds <;> simp_all
      subst this; exact e.symm
  | c :: s, n, m => by
    simp only [decimal]
    have hc : (48 ≤ c ∧ c ≤ 57) ↔ (48 ≤ c.toNat ∧ c.toNat ≤ 57) := by
      simp only [UInt8.le_iff_toNat_le]; rfl
    by_cases h : 48 ≤ c ∧ c ≤ 57
    · rw [if_pos h, decimal_iff s]
      have h' := hc.1 h
      constructor
      · rintro ⟨ds, a, b, e⟩
        refine ⟨(c.toNat - 48) :: ds, ?_, ?_, e⟩
        · simp only [List.map_cons, a, List.cons.injEq, and_true]; omega
        · intro d hd; rcases List.mem_cons.1 hd with rfl | hd
          · omega
          · exact b d hd
      · rintro ⟨ds, a, b, e⟩
        cases ds with
        | nil => simp at a
        | cons d ds =>
          simp only [List.map_cons, List.cons.injEq] at a
          refine ⟨ds, a.2, fun x hx => b x (by simp [hx]), ?_⟩
          rw [a.1, Nat.add_sub_cancel_left]; exact e
    · rw [if_neg h]
      constructor
      · intro e; cases e
      · rintro ⟨ds, a, b, _⟩
        cases ds with
        | nil => simp at a
        | cons d ds =>
          simp only [List.map_cons, List.cons.injEq] at a
          have := b d (by simp)
          exact absurd (hc.2 (by omega)) h

/-- The number of a line: decimal digits with an optional sign. -/
theorem line_means (s : Bytes) (i : Int) : atoi s = some i ↔ ∃ (sign t : Bytes) (ds : List Nat),
    s = sign ++ t ∧ (sign = [] ∨ sign = Auth.str "+" ∨ sign = Auth.str "-") ∧ t ≠ [] ∧ t.map (·.toNat) = ds.map (48 + ·) ∧ (∀ d ∈ ds, d < 10) ∧
      i = (if sign = Auth.str "-" then -(value 10 ds : Int) else value 10 ds) ∧ -9223372036854775808 ≤ i ∧ i < 9223372036854775808 := by
  have hp : Auth.str "+" = [43] := by decide
  have hm : Auth.str "-" = [45] := by decide
  rw [hp, hm]
  have head : ∀ (c : UInt8) (t : Bytes) (ds : List Nat), (c :: t).map (·.toNat) = ds.map (48 + ·) → (∀ d ∈ ds, d < 10) → c ≠ 45 ∧ c ≠ 43 := by
    intro c t ds a b
    cases ds with
    | nil => simp at a
    | cons d ds =>
      simp only [List.map_cons, List.cons.injEq] at a
      constructor <;> rintro rfl <;> simp at a <;> omega
  constructor
  · intro h
    unfold atoi at h
    split at h
    · rename_i t
      split at h
      · cases h
      · rename_i ht
        split at h
        · rename_i n hn
          split at h
          · cases h
            obtain ⟨ds, a, b, e⟩ := (decimal_iff t 0 n).1 hn
            refine ⟨[45], t, ds, rfl, by simp, ht, a, b, by simp [value, e], ?_, ?_⟩ <;> omega
          · cases h
        · cases h
    · rename_i t
      split at h
      · cases h
      · rename_i ht
        split at h
        · rename_i n hn
          split at h
          · cases h
            obtain ⟨ds, a, b, e⟩ := (decimal_iff t 0 n).1 hn
            refine ⟨[43], t, ds, rfl, by simp, ht, a, b, by simp [value, e], ?_, ?_⟩ <;> omega
          · cases h
        · cases h
    · split at h
      · cases h
      · rename_i ht
        split at h
        · rename_i n hn
          split at h
          · cases h
            obtain ⟨ds, a, b, e⟩ := (decimal_iff s 0 n).1 hn
            refine ⟨[], s, ds, rfl, by simp, ht, a, b, by simp [value, e], ?_, ?_⟩ <;> omega
          · cases h
        · cases h
  · rintro ⟨sign, t, ds, rfl, hs, ht, a, b, e, l1, l2⟩
    have hd : decimal 0 t = some (value 10 ds) := (decimal_iff t 0 _).2 ⟨ds, a, b, rfl⟩
    rcases hs with rfl | rfl | rfl
    · rw [if_neg (by simp)] at e
      have e2 : atoi t = (if t = [] then none else match decimal 0 t with | some n => if n < 9223372036854775808 then some (n : Int) else none | none => none) := by
        cases t with
        | nil => rfl
        | cons c t =>
          obtain ⟨h1, h2⟩ := head c t ds a b
          unfold atoi
          split
          · rename_i h; cases h; exact absurd rfl h1
          · rename_i h; cases h; exact absurd rfl h2
          · rfl
      rw [List.nil_append, e2, if_neg ht, hd]
      simp only
      rw [if_pos (by omega), e]
    · rw [if_neg (by simp)] at e
      simp only [List.cons_append, List.nil_append, atoi, if_neg ht, hd]
      rw [if_pos (by omega), e]
    · rw [if_pos rfl] at e
      simp only [List.cons_append, List.nil_append, atoi, if_neg ht, hd]
      rw [if_pos (by omega), e]

/-! ## Files -/

/-- The components of a file's path, with what `.` and `..` mean taken into account. -/
abbrev comps (file : Bytes) : List Bytes := walk [] (parts file)

theorem comps_plain (file : Bytes) : ∀ e ∈ comps file, Plain e := Gate.DaemonWeb.walk_plain _ _ (Gate.DaemonWeb.elems_noSlash file) (by simp)

theorem rooted_join {file : Bytes} (h : comps file ≠ []) : rooted file = join (comps file) := by
  unfold rooted; rw [if_neg h]; rfl

theorem rooted_parts {file : Bytes} (h : comps file ≠ []) : parts (rooted file) = [] :: comps file := by
  rw [rooted_join h]; exact Gate.DaemonWeb.parts_join _ (comps_plain file)

theorem join_cons {es : List Bytes} (h : es ≠ []) : ∃ r, join es = slash :: r := by
  cases es with
  | nil => exact absurd rfl h
  | cons e es => exact ⟨e ++ join es, by simp [join]⟩

/-- A file of the debug information fits if its last components are those of the expression's. -/
theorem fits_iff {name file : Bytes} (h : comps file ≠ []) : fits name file = true ↔ comps file <:+ comps name := by
  unfold fits
  rw [List.isSuffixOf_iff_suffix]
  constructor
  · rintro ⟨t, e⟩
    have hn : comps name ≠ [] := by
      intro hn
      have e2 : rooted name = [slash] := by unfold rooted; rw [if_pos hn]
      have p1 := rooted_parts h
      obtain ⟨r, hr⟩ := join_cons h
      rw [rooted_join h] at p1 e
      rw [e2] at e
      rw [hr] at e p1
      have : t = [] ∧ r = [] := by
        cases t with
        | nil => simp at e; exact ⟨rfl, e⟩
        | cons a t => simp at e
      rw [this.2, parts, Gate.DaemonWeb.elems_cons_sep (by rfl)] at p1
      have hpl := comps_plain file
      simp only [elems, List.cons.injEq, true_and] at p1
      have := hpl [] (by rw [← p1]; simp)
      exact this.1 rfl
    obtain ⟨r, hr⟩ := join_cons h
    have p1 := rooted_parts hn
    have p2 := rooted_parts h
    rw [← e, rooted_join h, hr, parts, Gate.DaemonWeb.elems_append isSlash (c := slash) rfl] at p1
    rw [rooted_join h, hr, parts, Gate.DaemonWeb.elems_cons_sep (by rfl)] at p2
    simp only [List.cons.injEq, true_and] at p2
    rw [p2] at p1
    cases ht : elems isSlash t with
    | nil => exact absurd ht (Gate.DaemonWeb.elems_ne isSlash t)
    | cons a as =>
      rw [ht] at p1
      simp only [List.cons_append, List.cons.injEq] at p1
      exact ⟨as, p1.2⟩
  · rintro ⟨t, e⟩
    have hn : comps name ≠ [] := by
      rw [← e]; simp [h]
    refine ⟨join t, ?_⟩
    rw [rooted_join h, rooted_join hn, ← e]
    simp [join]

/-! ## Locations -/

theorem mem_insert {e x : Entry} : ∀ {l : List Entry}, x ∈ insert e l ↔ x = e ∨ x ∈ l
  | [] => by simp [insert]
  | y :: l => by
    unfold insert
    split
    · simp only [List.mem_cons, mem_insert (l := l)]; grind
    · simp

theorem mem_sort {x : Entry} : ∀ {l : List Entry}, x ∈ sort l ↔ x ∈ l
  | [] => by simp [sort]
  | y :: l => by simp [sort, mem_insert, mem_sort (l := l)]

/-- In order of lines and addresses. -/
def Le (a b : Entry) : Prop := a.line < b.line ∨ a.line = b.line ∧ a.addr ≤ b.addr

theorem insert_sorted {e : Entry} : ∀ {l : List Entry}, l.Pairwise Le → (insert e l).Pairwise Le
  | [], _ => by simp [insert]
  | y :: l, h => by
    rw [List.pairwise_cons] at h
    unfold insert
    split
    · rename_i hl
      rw [List.pairwise_cons]
      refine ⟨fun x hx => ?_, insert_sorted h.2⟩
      rcases mem_insert.1 hx with rfl | hx
      · simp only [less] at hl; simp only [Le]; grind
      · exact h.1 x hx
    · rename_i hl
      rw [List.pairwise_cons]
      have hy : Le e y := by simp only [less] at hl; simp only [Le]; grind
      refine ⟨fun x hx => ?_, List.pairwise_cons.2 h⟩
      rcases List.mem_cons.1 hx with rfl | hx
      · exact hy
      · have := h.1 x hx; simp only [Le] at *; omega

theorem sort_sorted : ∀ (l : List Entry), (sort l).Pairwise Le
  | [] => by simp [sort]
  | e :: l => insert_sorted (sort_sorted l)

theorem find_first {p : Entry → Bool} : ∀ {l : List Entry} {e : Entry}, l.Pairwise Le → l.find? p = some e → e ∈ l ∧ p e = true ∧ ∀ x ∈ l, p x = true → x = e ∨ Le e x
  | [], e, _, h => by simp at h
  | y :: l, e, hs, h => by
    rw [List.pairwise_cons] at hs
    rw [List.find?_cons] at h
    split at h
    · rename_i hp
      cases h
      exact ⟨by simp, hp, fun x hx _ => (List.mem_cons.1 hx).imp_right fun hx => hs.1 x hx⟩
    · rename_i hp
      obtain ⟨a, b, c⟩ := find_first hs.2 h
      refine ⟨by simp [a], b, fun x hx hpx => ?_⟩
      rcases List.mem_cons.1 hx with rfl | hx
      · rw [hpx] at hp; cases hp
      · exact c x hx hpx

/-- The offset is the first address of the line in a file that fits. -/
def LineAddr (info : Info) (name : Bytes) (line : Int) (x : Nat) : Prop :=
  (∃ e ∈ info.entries, e.file = name ∧ (e.line : Int) = line ∧ e.addr = x) ∧ ∀ e ∈ info.entries, e.file = name → (e.line : Int) = line → x ≤ e.addr

theorem locate_one {info : Info} {name : Bytes} {line : Int} {x : Nat} :
    (∃ e, (sort (info.entries.filter (·.file == name))).find? (fun e => (e.line : Int) == line) = some e ∧ e.addr = x) ↔ LineAddr info name line x := by
  have hs := sort_sorted (info.entries.filter (·.file == name))
  constructor
  · rintro ⟨e, he, rfl⟩
    obtain ⟨a, b, c⟩ := find_first hs he
    rw [mem_sort, List.mem_filter] at a
    refine ⟨⟨e, a.1, by simpa using a.2, by simpa using b, rfl⟩, fun y hy hf hl => ?_⟩
    rcases c y (by rw [mem_sort, List.mem_filter]; exact ⟨hy, by simpa using hf⟩) (by simpa using hl) with rfl | hle
    · exact Nat.le_refl _
    · simp only [beq_iff_eq] at b
      simp only [Le] at hle
      omega
  · rintro ⟨⟨e, he, hf, hl, rfl⟩, hmin⟩
    cases h : (sort (info.entries.filter (·.file == name))).find? (fun e => (e.line : Int) == line) with
    | none =>
      have := List.find?_eq_none.1 h e (by rw [mem_sort, List.mem_filter]; exact ⟨he, by simpa using hf⟩)
      simp [hl] at this
    | some y =>
      refine ⟨y, rfl, ?_⟩
      obtain ⟨a, b, c⟩ := find_first hs h
      rw [mem_sort, List.mem_filter] at a
      have h1 := hmin y a.1 (by simpa using a.2) (by simpa using b)
      rcases c e (by rw [mem_sort, List.mem_filter]; exact ⟨he, by simpa using hf⟩) (by simpa using hl) with rfl | hle
      · rfl
      · simp only [beq_iff_eq] at b
        simp only [Le] at hle
        omega

theorem mem_locate {info : Info} {file : Bytes} {line : Int} {x : Nat} : ∀ {order : List Bytes},
    x ∈ locate info file line order ↔ ∃ name ∈ order, fits name file = true ∧ LineAddr info name line x
  | [] => by simp [locate]
  | name :: rest => by
    have ih := mem_locate (info := info) (file := file) (line := line) (x := x) (order := rest)
    have h1 := locate_one (info := info) (name := name) (line := line) (x := x)
    unfold locate
    by_cases hf : fits name file = true
    · simp only [hf, if_true]
      cases h : (sort (info.entries.filter (·.file == name))).find? (fun e => (e.line : Int) == line) with
      | none =>
        rw [h] at h1
        simp only [ih, List.mem_cons, exists_eq_or_imp, hf, true_and]
        simp only [reduceCtorEq, false_and, exists_false, false_iff] at h1
        simp [h1]
      | some e =>
        rw [h] at h1
        simp only [Option.some.injEq, exists_eq_left'] at h1
        simp only [List.mem_cons, ih, exists_eq_or_imp, hf, true_and, ← h1, @eq_comm _ x]
    · simp only [hf]
      simp [ih, hf]

/-! ## Functions -/

theorem search_spec (f : Nat → Bool) (hf : ∀ i j, i ≤ j → f i = true → f j = true) : ∀ (fuel i j : Nat), j - i ≤ fuel → i ≤ j → (∀ k, k < i → f k = false) →
    i ≤ search f fuel i j ∧ search f fuel i j ≤ j ∧ (∀ k, k < search f fuel i j → f k = false) ∧ (search f fuel i j < j → f (search f fuel i j) = true)
  | 0, i, j, h, hij, hlow => by
    simp only [search]
    exact ⟨Nat.le_refl _, hij, hlow, fun h => by omega⟩
  | fuel + 1, i, j, h, hij, hlow => by
    unfold search
    split
    · rename_i hlt
      split
      · rename_i ht
        obtain ⟨a, b, c, d⟩ := search_spec f hf fuel i ((i + j) / 2) (by omega) (by omega) hlow
        refine ⟨a, by omega, c, fun _ => ?_⟩
        by_cases e : search f fuel i ((i + j) / 2) < (i + j) / 2
        · exact d e
        · rw [show search f fuel i ((i + j) / 2) = (i + j) / 2 by omega]; exact ht
      · rename_i ht
        have hl : ∀ k, k < (i + j) / 2 + 1 → f k = false := by
          intro k hk
          cases hfk : f k with
          | false => rfl
          | true => exact absurd (hf k _ (by omega) hfk) ht
        obtain ⟨a, b, c, d⟩ := search_spec f hf fuel ((i + j) / 2 + 1) j (by omega) (by omega) hl
        exact ⟨by omega, b, c, d⟩
    · exact ⟨Nat.le_refl _, hij, hlow, fun h => by omega⟩

theorem getD_lt (l : List Nat) (d : Nat) {i : Nat} (h : i < l.length) : l.getD i d = l[i] := by
  simp [List.getD, List.getElem?_eq_getElem h]

/-- The first instruction at or after an address. -/
theorem atOrAfter_iff {offs : List Nat} (hs : offs.Pairwise (· ≤ ·)) (low x : Nat) :
    atOrAfter offs low = some x ↔ x ∈ offs ∧ low ≤ x ∧ ∀ y ∈ offs, low ≤ y → x ≤ y := by
  have hget : ∀ i j, i ≤ j → j < offs.length → offs.getD i 0 ≤ offs.getD j 0 := by
    intro i j hij hj
    rw [getD_lt _ _ (by omega), getD_lt _ _ hj]
    rcases Nat.lt_or_eq_of_le hij with h | rfl
    · exact List.pairwise_iff_getElem.1 hs i j (by omega) hj h
    · exact Nat.le_refl _
  -- a monotone function that agrees inside of the list
  have hsearch : ∀ (g f : Nat → Bool) (n : Nat), (∀ i, i < n → g i = f i) → ∀ fuel i j, j ≤ n → search g fuel i j = search f fuel i j := by
    intro g f n hgf fuel
    induction fuel with
    | zero => intro i j _; rfl
    | succ k ih =>
      intro i j hj
      unfold search
      split
      · rename_i hlt
        rw [hgf _ (by omega)]
        split
        · exact ih _ _ (by omega)
        · exact ih _ _ hj
      · rfl
  have hmono := search_spec (fun i => decide (offs.length ≤ i ∨ low ≤ offs.getD i 0)) (by
    intro i j hij h
    simp only [decide_eq_true_eq] at *
    by_cases hj : offs.length ≤ j
    · exact .inl hj
    · rcases h with h | h
      · omega
      · exact .inr (Nat.le_trans h (hget i j hij (by omega)))) offs.length 0 offs.length (by omega) (by omega) (by omega)
  have heq := hsearch (fun i => decide (low ≤ offs.getD i 0)) (fun i => decide (offs.length ≤ i ∨ low ≤ offs.getD i 0)) offs.length (by
    intro i hi
    simp only [decide_eq_decide]
    constructor
    · exact .inr
    · rintro (h | h)
      · omega
      · exact h) offs.length 0 offs.length (Nat.le_refl _)
  unfold atOrAfter
  rw [heq]
  obtain ⟨_, hle, hbefore, hat⟩ := hmono
  generalize search (fun i => decide (offs.length ≤ i ∨ low ≤ offs.getD i 0)) offs.length 0 offs.length = r at *
  simp only [decide_eq_false_iff_not, decide_eq_true_eq] at hbefore hat
  constructor
  · intro h
    obtain ⟨hr, rfl⟩ := List.getElem?_eq_some_iff.1 h
    refine ⟨List.getElem_mem _, ?_, fun y hy hly => ?_⟩
    · have := hat hr
      rw [getD_lt _ _ hr] at this
      omega
    · obtain ⟨k, hk, rfl⟩ := List.getElem_of_mem hy
      by_cases hkr : k < r
      · have := hbefore k hkr
        rw [getD_lt _ _ hk] at this
        omega
      · have := hget r k (by omega) hk
        rwa [getD_lt _ _ hr, getD_lt _ _ hk] at this
  · rintro ⟨hx, hlx, hmin⟩
    obtain ⟨k, hk, rfl⟩ := List.getElem_of_mem hx
    have hkr : r ≤ k := by
      refine Nat.le_of_not_lt fun h => ?_
      have := hbefore k h
      rw [getD_lt _ _ hk] at this
      omega
    have hr : r < offs.length := by omega
    rw [List.getElem?_eq_getElem hr]
    have h1 := hat hr
    rw [getD_lt _ _ hr] at h1
    have h2 := hmin _ (List.getElem_mem hr) (by omega)
    have h3 := hget r k hkr hk
    rw [getD_lt _ _ hr, getD_lt _ _ hk] at h3
    congr 1
    omega

/-! ## Expressions -/

theorem split_none {s : Bytes} (h : (58 : UInt8) ∉ s) : split s = (s, none) := by
  induction s with
  | nil => rfl
  | cons c s ih =>
    have hc : c ≠ 58 := fun e => h (by simp [e])
    simp [split, hc, ih fun e => h (by simp [e])]

theorem split_some {a b : Bytes} (h : (58 : UInt8) ∉ a) : split (a ++ 58 :: b) = (a, some b) := by
  induction a with
  | nil => simp [split]
  | cons c s ih =>
    have hc : c ≠ 58 := fun e => h (by simp [e])
    simp [split, hc, ih fun e => h (by simp [e])]

/-- `FILE:LINE`: what is before the first colon, and the number after it. -/
theorem expr_loc {uni : Bytes → Bool} {a b : Bytes} (h : (58 : UInt8) ∉ a) : expr uni (a ++ 58 :: b) = (atoi b).map (.loc a) := by
  simp only [expr, split_some h]

/-- Otherwise a number or a name, according to the first character. -/
theorem expr_other {uni : Bytes → Bool} {s : Bytes} (h : (58 : UInt8) ∉ s) (hs : s ≠ []) :
    expr uni s = if startsWithNumber uni s then (parseUint s).map .offset else some (.func s) := by
  simp only [expr, split_none h, if_neg hs]

theorem expr_empty (uni : Bytes → Bool) : expr uni [] = none := rfl

theorem mem_exprs {uni : Bytes → Bool} : ∀ {args : List Bytes} {es : List Expr}, exprs uni args = some es → ∀ e, e ∈ es ↔ ∃ a ∈ args, expr uni a = some e
  | [], es, h, e => by simp [exprs] at h; subst h; simp
  | a :: args, es, h, e => by
    unfold exprs at h
    split at h
    · cases h
    · rename_i x hx
      split at h
      · cases h
      · rename_i xs hxs
        cases h
        simp only [List.mem_cons, mem_exprs hxs e, exists_eq_or_imp, hx, Option.some.injEq, @eq_comm _ x]

theorem exprs_none {uni : Bytes → Bool} : ∀ {args : List Bytes}, exprs uni args = none ↔ ∃ a ∈ args, expr uni a = none
  | [] => by simp [exprs]
  | a :: args => by
    have ih := exprs_none (uni := uni) (args := args)
    unfold exprs
    cases hx : expr uni a with
    | none => simp [hx]
    | some x =>
      cases hxs : exprs uni args with
      | none => simp only [true_iff]; obtain ⟨y, hy, e⟩ := ih.1 hxs; exact ⟨y, by simp [hy], e⟩
      | some xs =>
        rw [hxs] at ih
        simp only [reduceCtorEq, false_iff] at ih ⊢
        rintro ⟨y, hy, e⟩
        rcases List.mem_cons.1 hy with rfl | hy
        · rw [hx] at e; cases e
        · exact ih ⟨y, hy, e⟩

/-! ## Theorems -/

/-- What an argument means. -/
inductive Means (uni : Bytes → Bool) (info : Option Info) (arg : Bytes) (x : Nat) : Prop where
  /-- A number is the offset. -/
  | offset : expr uni arg = some (.offset x) → Means uni info arg x
  /-- A location is the line's first address in every source file that fits. -/
  | loc (i : Info) (file name : Bytes) (line : Int) : info = some i → expr uni arg = some (.loc file line) → fits name file = true → LineAddr i name line x → Means uni info arg x
  /-- A name is the first instruction at or after the beginning of every function which has the name. -/
  | func (i : Info) (name : Bytes) (low : Nat) : info = some i → expr uni arg = some (.func name) → name ≠ [] → low ≠ 0 → (some name, some low) ∈ i.subprograms →
      x ∈ i.insns → x ≠ 0 → low ≤ x → (∀ y ∈ i.insns, y ≠ 0 → low ≤ y → x ≤ y) → Means uni info arg x

/-- The iteration order of the map of files. -/
def Order (info : Option Info) (order : List Bytes) : Prop := ∀ i, info = some i → ∀ f, f ∈ order ↔ ∃ e ∈ i.entries, e.file = f

/-- Instructions are in the order of the source. -/
def InOrder (info : Option Info) : Prop := ∀ i, info = some i → (i.insns.filter (· != 0)).Pairwise (· ≤ ·)

theorem mem_lows {i : Info} {name : Bytes} {low : Nat} : low ∈ lows i name ↔ name ≠ [] ∧ low ≠ 0 ∧ (some name, some low) ∈ i.subprograms := by
  simp only [lows, List.mem_filterMap]
  constructor
  · rintro ⟨⟨n, l⟩, hm, h⟩
    split at h
    · rename_i n' l' heq
      split at h
      · rename_i hc
        cases h
        cases heq
        obtain ⟨rfl, h1, h2⟩ := hc
        exact ⟨h1, h2, hm⟩
      · cases h
    · cases h
  · rintro ⟨h1, h2, hm⟩
    exact ⟨_, hm, by simp [h1, h2]⟩

theorem mem_resolve {uni : Bytes → Bool} {i : Info} {order : List Bytes} (ho : Order (some i) order) (hi : InOrder (some i)) {e : Expr} {arg : Bytes} (he : expr uni arg = some e)
    (hk : isLoc e = true ∨ isFunc e = true) {x : Nat} : x ∈ resolve i order e ↔ Means uni (some i) arg x := by
  cases e with
  | offset n => simp [isLoc, isFunc] at hk
  | loc file line =>
    simp only [resolve, mem_locate]
    constructor
    · rintro ⟨name, _, hf, hl⟩; exact .loc i file name line rfl he hf hl
    · intro h
      cases h with
      | offset h => rw [he] at h; cases h
      | loc i' file' name line' h1 h2 h3 h4 =>
        cases h1
        rw [he] at h2; cases h2
        obtain ⟨e, hem, hef, _⟩ := h4.1
        exact ⟨name, (ho i rfl name).2 ⟨e, hem, hef⟩, h3, h4⟩
      | func i' name low h1 h2 => rw [he] at h2; cases h2
  | func name =>
    simp only [resolve, List.mem_filterMap, mem_lows, insnOffs]
    have hs := hi i rfl
    constructor
    · rintro ⟨low, ⟨h1, h2, h3⟩, h4⟩
      rw [atOrAfter_iff hs] at h4
      simp only [List.mem_filter, bne_iff_ne, and_imp] at h4
      exact .func i name low rfl he h1 h2 h3 h4.1.1 h4.1.2 h4.2.1 fun y a b c => h4.2.2 y a b c
    · intro h
      cases h with
      | offset h => rw [he] at h; cases h
      | loc i' file' name line' h1 h2 => rw [he] at h2; cases h2
      | func i' name' low h1 h2 h3 h4 h5 h6 h7 h8 h9 =>
        cases h1
        rw [he] at h2; cases h2
        refine ⟨low, ⟨h3, h4, h5⟩, (atOrAfter_iff hs _ _).2 ⟨by simp [h6, h7], h8, fun y hy hl => ?_⟩⟩
        simp only [List.mem_filter, bne_iff_ne] at hy
        exact h9 y hy.1 hy.2 hl

/-- The offsets which the command sets or removes are exactly what its arguments mean. -/
theorem means {uni : Bytes → Bool} {info : Option Info} {order : List Bytes} (ho : Order info order) (hi : InOrder info) {args : List Bytes} {l : List Nat}
    (h : parseBreakpoints uni info order args = .offsets l) (x : Nat) : x ∈ l ↔ ∃ a ∈ args, Means uni info a x := by
  unfold parseBreakpoints at h
  split at h
  · cases h
  · rename_i es hes
    have hmem := mem_exprs hes
    have hnum : ∀ x, x ∈ numbers es ↔ ∃ a ∈ args, expr uni a = some (.offset x) := by
      intro x
      simp only [numbers, List.mem_filterMap]
      constructor
      · rintro ⟨e, he, h⟩
        split at h
        · cases h; exact (hmem _).1 he
        · cases h
      · intro h; exact ⟨_, (hmem _).2 h, rfl⟩
    split at h
    · rename_i hany
      split at h
      · cases h
      · rename_i i
        split at h
        · cases h
        · cases h
          simp only [List.mem_append, List.mem_flatMap, List.mem_filter, hnum]
          constructor
          · rintro ((⟨a, ha, he⟩ | ⟨e, ⟨he, hk⟩, hx⟩) | ⟨e, ⟨he, hk⟩, hx⟩)
            · exact ⟨a, ha, .offset he⟩
            · obtain ⟨a, ha, hae⟩ := (hmem e).1 he
              exact ⟨a, ha, (mem_resolve ho hi hae (.inl hk)).1 hx⟩
            · obtain ⟨a, ha, hae⟩ := (hmem e).1 he
              exact ⟨a, ha, (mem_resolve ho hi hae (.inr hk)).1 hx⟩
          · rintro ⟨a, ha, hx⟩
            cases hx with
            | offset h => exact .inl (.inl ⟨a, ha, h⟩)
            | loc i' file name line h1 h2 h3 h4 =>
              exact .inl (.inr ⟨_, ⟨(hmem _).2 ⟨a, ha, h2⟩, rfl⟩, (mem_resolve ho hi h2 (.inl rfl)).2 (.loc i' file name line h1 h2 h3 h4)⟩)
            | func i' name low h1 h2 h3 h4 h5 h6 h7 h8 h9 =>
              exact .inr ⟨_, ⟨(hmem _).2 ⟨a, ha, h2⟩, rfl⟩, (mem_resolve ho hi h2 (.inr rfl)).2 (.func i' name low h1 h2 h3 h4 h5 h6 h7 h8 h9)⟩
    · rename_i hany
      cases h
      rw [hnum]
      constructor
      · rintro ⟨a, ha, he⟩; exact ⟨a, ha, .offset he⟩
      · rintro ⟨a, ha, hx⟩
        simp only [Bool.or_eq_true, List.any_eq_true, not_or, not_exists, not_and] at hany
        cases hx with
        | offset h => exact ⟨a, ha, h⟩
        | loc i' file name line h1 h2 => exact absurd rfl (hany.1 _ ((hmem _).2 ⟨a, ha, h2⟩))
        | func i' name low h1 h2 => exact absurd rfl (hany.2 _ ((hmem _).2 ⟨a, ha, h2⟩))

/-- The command fails, without having changed anything, exactly if some argument means nothing. -/
theorem fails_iff {uni : Bytes → Bool} {info : Option Info} {order : List Bytes} (ho : Order info order) (hi : InOrder info) {args : List Bytes} :
    parseBreakpoints uni info order args = .fatal ↔ ∃ a ∈ args, ∀ x, ¬ Means uni info a x := by
  unfold parseBreakpoints
  cases hes : exprs uni args with
  | none =>
    simp only [true_iff]
    obtain ⟨a, ha, he⟩ := exprs_none.1 hes
    refine ⟨a, ha, fun x hx => ?_⟩
    cases hx with
    | offset h => rw [he] at h; cases h
    | loc _ _ _ _ _ h => rw [he] at h; cases h
    | func _ _ _ _ h => rw [he] at h; cases h
  | some es =>
    have hmem := mem_exprs hes
    have hsome : ∀ a ∈ args, ∃ e, expr uni a = some e := by
      intro a ha
      cases he : expr uni a with
      | some e => exact ⟨e, rfl⟩
      | none => have := exprs_none.2 ⟨a, ha, he⟩; rw [hes] at this; cases this
    have hoff : ∀ a ∈ args, (∀ x, ¬ Means uni info a x) → ∃ e ∈ es, expr uni a = some e ∧ (isLoc e = true ∨ isFunc e = true) := by
      intro a ha hn
      obtain ⟨e, he⟩ := hsome a ha
      refine ⟨e, (hmem e).2 ⟨a, ha, he⟩, he, ?_⟩
      cases e with
      | offset n => exact absurd (.offset he) (hn n)
      | loc _ _ => exact .inl rfl
      | func _ => exact .inr rfl
    simp only
    split
    · rename_i hany
      cases info with
      | none =>
        simp only [true_iff]
        have : ∃ e ∈ es, isLoc e = true ∨ isFunc e = true := by
          simp only [Bool.or_eq_true, List.any_eq_true] at hany
          rcases hany with ⟨e, h1, h2⟩ | ⟨e, h1, h2⟩
          · exact ⟨e, h1, .inl h2⟩
          · exact ⟨e, h1, .inr h2⟩
        obtain ⟨e, h1, h2⟩ := this
        obtain ⟨a, ha, he⟩ := (hmem e).1 h1
        refine ⟨a, ha, fun x hx => ?_⟩
        cases hx with
        | offset h => rw [he] at h; cases h; simp [isLoc, isFunc] at h2
        | loc _ _ _ _ h => cases h
        | func _ _ _ h => cases h
      | some i =>
        simp only
        split
        · rename_i hemp
          simp only [true_iff]
          simp only [List.any_eq_true, List.mem_filter, Bool.or_eq_true, List.isEmpty_iff] at hemp
          obtain ⟨e, ⟨h1, h2⟩, h3⟩ := hemp
          obtain ⟨a, ha, he⟩ := (hmem e).1 h1
          refine ⟨a, ha, fun x hx => ?_⟩
          have := (mem_resolve ho hi he h2).2 hx
          rw [h3] at this
          simp at this
        · rename_i hemp
          simp only [reduceCtorEq, false_iff]
          rintro ⟨a, ha, hn⟩
          obtain ⟨e, h1, he, h2⟩ := hoff a ha hn
          apply hemp
          simp only [List.any_eq_true, List.mem_filter, Bool.or_eq_true, List.isEmpty_iff]
          refine ⟨e, ⟨h1, h2⟩, ?_⟩
          exact List.eq_nil_iff_forall_not_mem.2 fun x hx => hn x ((mem_resolve ho hi he h2).1 hx)
    · rename_i hany
      simp only [reduceCtorEq, false_iff]
      rintro ⟨a, ha, hn⟩
      obtain ⟨e, h1, _, h2⟩ := hoff a ha hn
      apply hany
      simp only [Bool.or_eq_true, List.any_eq_true]
      exact h2.imp (fun h => ⟨e, h1, h⟩) fun h => ⟨e, h1, h⟩

/-! ## Examples -/

def noUni : Bytes → Bool := fun _ => false

/-- `empty` has no instructions of its own; `gone` has been removed by a linker, and its lines have the address 0. -/
def exInfo : Info where
  entries := [⟨Auth.str "src/a.c", 7, 120⟩, ⟨Auth.str "src/a.c", 7, 100⟩, ⟨Auth.str "lib/a.c", 7, 300⟩, ⟨Auth.str "src/gone.c", 3, 0⟩, ⟨Auth.str "src/ba.c", 7, 400⟩]
  subprograms := [(some (Auth.str "main"), some 99), (some (Auth.str "empty"), some 150), (none, some 5), (some (Auth.str "gone"), some 0)]
  insns := [0, 100, 101, 120, 300, 400]

def exOrder : List Bytes := [Auth.str "lib/a.c", Auth.str "src/gone.c", Auth.str "src/ba.c", Auth.str "src/a.c"]

theorem ex_order : Order (some exInfo) exOrder := by
  intro i h f
  cases h
  simp only [exOrder, exInfo, List.mem_cons, List.not_mem_nil, or_false]
  grind

theorem ex_inOrder : InOrder (some exInfo) := by
  intro i h
  cases h
  decide +kernel

theorem ex_break : parseBreakpoints noUni (some exInfo) exOrder [Auth.str "main", Auth.str "a.c:7", Auth.str "0x1F", Auth.str "src/../src/a.c:7", Auth.str "1_000"] = .offsets [31, 1000, 300, 100, 100, 100] := by decide +kernel

theorem ex_fatal : parseBreakpoints noUni (some exInfo) exOrder [Auth.str "12", Auth.str "a.c:8"] = .fatal ∧ parseBreakpoints noUni (some exInfo) exOrder [Auth.str "gone"] = .fatal ∧
    parseBreakpoints noUni none exOrder [Auth.str "main"] = .fatal ∧ parseBreakpoints noUni none exOrder [Auth.str "0x1", Auth.str "2"] = .offsets [1, 2] ∧
    parseBreakpoints noUni none exOrder [Auth.str "12x"] = .fatal ∧ parseBreakpoints noUni none exOrder [Auth.str "1__0"] = .fatal ∧ parseBreakpoints noUni none exOrder [Auth.str "08"] = .fatal ∧
    parseBreakpoints noUni none exOrder [Auth.str "18446744073709551616"] = .fatal ∧ parseBreakpoints noUni none exOrder [Auth.str "18446744073709551615"] = .offsets [18446744073709551615] := by decide +kernel

/-- Refuted: a function's offset is in the function; a line's offset is in the code. -/
theorem inside_refuted : parseBreakpoints noUni (some exInfo) exOrder [Auth.str "empty"] = .offsets [300] ∧ parseBreakpoints noUni (some exInfo) exOrder [Auth.str "gone.c:3"] = .offsets [0] := by decide +kernel

/-- What the daemon gives when the command asks for the module with a bus call: nothing unless it has such a method. -/
def fetched (call : String × List LocalCmd.Val) (served : Info) : Option Info := if (LocalCmd.dispatch call.1 call.2).isSome then some served else none

/-- Refuted: locations and functions can be used. The daemon doesn't have the method which the module is asked for with, so only numbers are understood. -/
theorem names_refuted {uni : Bytes → Bool} {served : Info} {order : List Bytes} {modkey : Bytes} {args : List Bytes} {l : List Nat}
    (h : parseBreakpoints uni (fetched (LocalCmd.buildCall modkey) served) order args = .offsets l) : ∀ a ∈ args, ∃ n, expr uni a = some (.offset n) := by
  have hn : fetched (LocalCmd.buildCall modkey) served = none := by simp [fetched, LocalCmd.buildCall, LocalCmd.dispatch]
  rw [hn] at h
  intro a ha
  have ho : Order none order := by intro i e; cases e
  have hi : InOrder none := by intro i e; cases e
  have hf : ¬ ∃ a ∈ args, ∀ x, ¬ Means uni none a x := by
    rw [← fails_iff ho hi, h]; simp
  by_cases hm : ∃ x, Means uni none a x
  · obtain ⟨x, hx⟩ := hm
    cases hx with
    | offset h => exact ⟨x, h⟩
    | loc i _ _ _ h => cases h
    | func i _ _ h => cases h
  · exact absurd ⟨a, ha, fun x hx => hm ⟨x, hx⟩⟩ hf

/-- With the method that the daemon does have, they would be what they mean. -/
theorem names_fixed (served : Info) (modkey : Bytes) : fetched ("DownloadModule", (LocalCmd.buildCall modkey).2) served = some served := by
  simp [fetched, LocalCmd.buildCall, LocalCmd.dispatch]

end Gate.Breakpoints
