import Verif.Creds

namespace Gate.Creds
open Gate.Auth (str)

theorem parse_grants {lines : List Bytes} {user : Bytes} {rs : List Int} {m : IdMap}
    (h : parse lines user rs = some m) : ∃ base count, Grants user base count lines ∧
      m = ⟨rs, base + 1, base + count⟩ := by
  induction lines with
  | nil => simp [parse] at h
  | cons l ls ih =>
    rw [parse] at h
    split at h
    · rename_i name a c rest hs
      split at h
      · rename_i hn
        subst hn
        split at h
        · rename_i base count ha hc
          simp only [Option.some.injEq] at h
          exact ⟨base, count, .here l ls a c rest hs ha hc, h.symm⟩
        · simp at h
      · rename_i hn
        obtain ⟨base, count, g, e⟩ := ih h
        refine ⟨base, count, .there l ls ?_ g, e⟩
        intro a' c' r' he
        rw [hs] at he
        simp only [List.cons.injEq] at he
        exact hn he.1
    · rename_i hs
      obtain ⟨base, count, g, e⟩ := ih h
      exact ⟨base, count, .there l ls (fun a c r he => hs user a c r he) g, e⟩

theorem grants_parse {lines : List Bytes} {user : Bytes} {base count : Int}
    (g : Grants user base count lines) (rs : List Int) :
    parse lines user rs = some ⟨rs, base + 1, base + count⟩ := by
  induction g with
  | here l ls a c rest hs ha hc => simp [parse, hs, ha, hc]
  | there l ls hs g ih =>
    rw [parse]
    split
    · rename_i name a c rest he
      have : name ≠ user := by
        intro e; subst e; exact hs a c rest he
      simp [this, ih]
    · exact ih

theorem getLoop_some {k : Nat} {m m' : IdMap} {id : Int} (h : getLoop k m = some (id, m')) :
    m.next ≤ id ∧ id < m.stop ∧ isReserved m.reserved id = false ∧
      m' = { m with next := id + 1 } := by
  induction k generalizing m with
  | zero => simp [getLoop] at h
  | succ k ih =>
    rw [getLoop] at h
    split at h
    · rename_i hr
      split at h
      · obtain ⟨h1, h2, h3, h4⟩ := ih h
        simp only at h1 h2 h3 h4
        exact ⟨by omega, h2, h3, h4⟩
      · rename_i hf
        simp only [Option.some.injEq, Prod.mk.injEq] at h
        obtain ⟨rfl, rfl⟩ := h
        exact ⟨by omega, hr.1, by simpa using hf, rfl⟩
    · simp at h

theorem getID_some {m m' : IdMap} {id : Int} (h : getID m = some (id, m')) :
    m.next ≤ id ∧ id < m.stop ∧ isReserved m.reserved id = false ∧
      m' = { m with next := id + 1 } := getLoop_some h

/-- The id given is the lowest one which isn't reserved. -/
theorem getLoop_lowest {k : Nat} {m m' : IdMap} {id : Int} (h : getLoop k m = some (id, m'))
    (x : Int) (h1 : m.next ≤ x) (h2 : x < id) : isReserved m.reserved x = true := by
  induction k generalizing m with
  | zero => simp [getLoop] at h
  | succ k ih =>
    rw [getLoop] at h
    split at h
    · split at h
      · rename_i hres
        by_cases e : x = m.next
        · rw [e]; exact hres
        · exact ih (m := { m with next := m.next + 1 }) h (by simp only; omega)
      · simp only [Option.some.injEq, Prod.mk.injEq] at h
        omega
    · simp at h

theorem getLoop_none {k : Nat} {m : IdMap} (hk : (m.stop - m.next).toNat < k)
    (hx : m.stop ≤ 0x100000000) (h : getLoop k m = none) (id : Int) (h1 : m.next ≤ id)
    (h2 : id < m.stop) : isReserved m.reserved id = true := by
  induction k generalizing m with
  | zero => omega
  | succ k ih =>
    rw [getLoop] at h
    split at h
    · rename_i hr
      split at h
      · rename_i hres
        by_cases e : id = m.next
        · rw [e]; exact hres
        · have := ih (m := { m with next := m.next + 1 }) (by simp only; omega) hx h
            (by simp only; omega) h2
          exact this
      · simp at h
    · omega

/-- `getID` gives up only when every id of the range is reserved (or has been given). -/
theorem getID_none {m : IdMap} (hx : m.stop ≤ 0x100000000) (h : getID m = none) (id : Int)
    (h1 : m.next ≤ id) (h2 : id < m.stop) : isReserved m.reserved id = true :=
  getLoop_none (by omega) hx h id h1 h2

theorem not_reserved {rs : List Int} {id : Int} (h : isReserved rs id = false) (r : Int)
    (hr : r ∈ rs) (hp : r > 0) : id ≠ r := by
  intro e
  have : isReserved rs id = true := by
    rw [isReserved, List.any_eq_true]
    exact ⟨r, hr, by simp [hp, e]⟩
  simp [this] at h

/-! ## C126 -/

/-- What is known about successfully allocated ids: configured ids are kept; the others are in the
range which the file gives to the user, without its first id; they differ from the server's own id
and from each other and from the configured id. -/
theorem alloc_spec {lines : List Bytes} {user : Bytes} {own : Int} {p q : Pair}
    (h : alloc lines user own p = some q) :
    (p.container ≠ 0 → q.container = p.container) ∧
    (p.executor ≠ 0 → q.executor = p.executor) ∧
    (p.container = 0 ∨ p.executor = 0 → ∃ base count, Grants user base count lines ∧
      (p.container = 0 → base < q.container ∧ q.container < base + count ∧
        (own > 0 → q.container ≠ own)) ∧
      (p.executor = 0 → base < q.executor ∧ q.executor < base + count ∧
        (own > 0 → q.executor ≠ own)) ∧
      (p.container ≥ 0 → p.executor ≥ 0 → q.container ≠ q.executor)) := by
  rw [alloc] at h
  split at h
  · rename_i hz
    split at h
    · simp at h
    · rename_i m hm
      obtain ⟨base, count, g, em⟩ := parse_grants hm
      split at h
      · simp at h
      · rename_i c m' hc
        split at h
        · simp at h
        · rename_i e m'' he
          simp only [Option.some.injEq] at h
          subst h
          simp only
          by_cases zc : p.container = 0
          · rw [if_pos zc] at hc
            obtain ⟨c1, c2, c3, c4⟩ := getID_some hc
            subst em
            simp only at c1 c2 c3 c4
            subst c4
            by_cases ze : p.executor = 0
            · rw [if_pos ze] at he
              obtain ⟨e1, e2, e3, _⟩ := getID_some he
              simp only at e1 e2 e3
              refine ⟨fun x => absurd zc x, fun x => absurd ze x, fun _ => ⟨base, count, g, ?_, ?_, ?_⟩⟩
              · exact fun _ => ⟨by omega, c2, fun o => not_reserved c3 own (by simp) o⟩
              · exact fun _ => ⟨by omega, e2, fun o => not_reserved e3 own (by simp) o⟩
              · intro _ _; omega
            · rw [if_neg ze] at he
              simp only [Option.some.injEq, Prod.mk.injEq] at he
              obtain ⟨rfl, _⟩ := he
              refine ⟨fun x => absurd zc x, fun _ => rfl, fun _ => ⟨base, count, g, ?_, ?_, ?_⟩⟩
              · exact fun _ => ⟨by omega, c2, fun o => not_reserved c3 own (by simp) o⟩
              · exact fun x => absurd x ze
              · intro _ hp
                exact not_reserved c3 p.executor (by simp) (by omega)
          · rw [if_neg zc] at hc
            simp only [Option.some.injEq, Prod.mk.injEq] at hc
            obtain ⟨rfl, rfl⟩ := hc
            have ze : p.executor = 0 := by rcases hz with x | x; exact absurd x zc; exact x
            rw [if_pos ze] at he
            obtain ⟨e1, e2, e3, _⟩ := getID_some he
            subst em
            simp only at e1 e2 e3
            refine ⟨fun _ => rfl, fun x => absurd ze x, fun _ => ⟨base, count, g, ?_, ?_, ?_⟩⟩
            · exact fun x => absurd x zc
            · exact fun _ => ⟨by omega, e2, fun o => not_reserved e3 own (by simp) o⟩
            · intro hp _ x
              exact not_reserved e3 p.container (by simp) (by omega) x.symm
  · rename_i hz
    simp only [Option.some.injEq] at h
    subst h
    exact ⟨fun _ => rfl, fun _ => rfl, fun x => absurd x hz⟩

/-- Ids which the operator hasn't configured are never root's, if the file's range starts at or
after zero. -/
theorem not_root_partial {lines : List Bytes} {user : Bytes} {own : Int} {p q : Pair}
    (h : alloc lines user own p = some q)
    (hb : ∀ base count, Grants user base count lines → base ≥ 0) :
    q.container ≠ 0 ∧ q.executor ≠ 0 := by
  obtain ⟨h1, h2, h3⟩ := alloc_spec h
  by_cases zc : p.container = 0 <;> by_cases ze : p.executor = 0
  · obtain ⟨base, count, g, a, b, _⟩ := h3 (.inl zc)
    have := hb _ _ g
    have := (a zc).1
    have := (b ze).1
    omega
  · obtain ⟨base, count, g, a, b, _⟩ := h3 (.inl zc)
    have := hb _ _ g
    have := (a zc).1
    have := h2 ze
    omega
  · obtain ⟨base, count, g, a, b, _⟩ := h3 (.inr ze)
    have := hb _ _ g
    have := (b ze).1
    have := h1 zc
    omega
  · have := h1 zc
    have := h2 ze
    omega

/-- The full property is false: a file whose range starts at -1 makes the container root's. -/
theorem root_refuted : alloc [str "www:-1:3"] (str "www") 33 ⟨0, 0⟩ = some ⟨0, 1⟩ := by
  decide +kernel

/-- The ids are distinct only if they aren't configured to be equal. -/
theorem same_ids_refuted (lines : List Bytes) (user : Bytes) (own x : Int) (hx : x ≠ 0) :
    alloc lines user own ⟨x, x⟩ = some ⟨x, x⟩ := by
  simp [alloc, hx]

/-- Nobody is locked out of a container because of other reserved ids: if the user's range has
two ids which aren't in use by the server or by the configuration, allocation succeeds. -/
theorem alloc_complete {lines : List Bytes} {user : Bytes} {own : Int} {p : Pair}
    {base count : Int} (g : Grants user base count lines) (hc : base + count ≤ 0x100000000)
    (a b : Int) (ha : base < a) (hab : a < b) (hb : b < base + count)
    (ra : a ≠ own ∧ a ≠ p.container ∧ a ≠ p.executor)
    (rb : b ≠ own ∧ b ≠ p.container ∧ b ≠ p.executor) : ∃ q, alloc lines user own p = some q := by
  have free : ∀ x, (x ≠ own ∧ x ≠ p.container ∧ x ≠ p.executor) →
      isReserved [own, p.container, p.executor] x = false := by
    rintro x ⟨h1, h2, h3⟩
    simp [isReserved, h1, h2, h3]
  rw [alloc]
  split
  · rw [grants_parse g]
    simp only
    -- The first id
    have first : ∀ (m : IdMap), m.reserved = [own, p.container, p.executor] →
        m.stop = base + count → m.next ≤ b → ∃ id m', getID m = some (id, m') := by
      intro m h1 h2 h3
      cases e : getID m with
      | some x => exact ⟨x.1, x.2, rfl⟩
      | none =>
        have := getID_none (by omega) e b h3 (by omega)
        rw [h1, free b rb] at this
        simp at this
    by_cases zc : p.container = 0
    · rw [if_pos zc]
      cases e : getID ⟨[own, p.container, p.executor], base + 1, base + count⟩ with
      | none =>
        have := getID_none (by simp only; omega) e a (by simp only; omega) (by simp only; omega)
        simp only at this
        rw [free a ra] at this
        simp at this
      | some x =>
        obtain ⟨id, m'⟩ := x
        obtain ⟨h1, h2, h3, h4⟩ := getID_some e
        simp only at h1 h2 h3 h4
        -- it's at most a, because a is free
        have hle : id ≤ a := by
          apply Int.not_lt.1
          intro hlt
          have := getLoop_lowest e a (by simp only; omega) hlt
          simp only at this
          rw [free a ra] at this
          simp at this
        simp only
        by_cases ze : p.executor = 0
        · rw [if_pos ze]
          obtain ⟨i, m'', he⟩ := first m' (by rw [h4]) (by rw [h4]) (by rw [h4]; simp only; omega)
          rw [he]
          exact ⟨_, rfl⟩
        · rw [if_neg ze]; exact ⟨_, rfl⟩
    · rw [if_neg zc]
      simp only
      by_cases ze : p.executor = 0
      · rw [if_pos ze]
        obtain ⟨i, m'', he⟩ := first ⟨[own, p.container, p.executor], base + 1, base + count⟩ rfl rfl
          (by simp only; omega)
        rw [he]
        exact ⟨_, rfl⟩
      · rw [if_neg ze]; exact ⟨_, rfl⟩
  · exact ⟨_, rfl⟩

/-- The host ids which processes in the container have: with a namespace of several ids they're
what `alloc_spec` tells; with a namespace of one id they're the server's own; without a namespace
there are no mappings. -/
theorem start_mappings {h : Host} {c : Config} {r : Option (Mapping × Mapping)}
    (e : start h c = some r) : ∃ u g, alloc h.subuid h.user h.uid c.uid = some u ∧
      alloc h.subgid h.user h.gid c.gid = some g ∧
      (c.disabled = true → r = none) ∧
      (c.disabled = false → c.singleUID = true → r = some ([(1, h.uid)], [(1, h.gid)])) ∧
      (c.disabled = false → c.singleUID = false →
        r = some ([(1, u.container), (2, u.executor)], [(1, g.container), (2, g.executor)])) := by
  rw [start, parseCreds] at e
  cases hu : alloc h.subuid h.user h.uid c.uid with
  | none => simp [hu] at e
  | some u =>
    cases hg : alloc h.subgid h.user h.gid c.gid with
    | none => simp [hu, hg] at e
    | some g =>
      simp only [hu, hg, Option.some.injEq] at e
      refine ⟨u, g, rfl, rfl, ?_, ?_, ?_⟩
      · intro hd; rw [← e, mappings, hd]; rfl
      · intro hd hs; rw [← e, mappings, hd, hs]; rfl
      · intro hd hs; rw [← e, mappings, hd, hs]; rfl

/-- With several ids, no process of the container has the server's own user id on the host, and the
container's resources belong to another user than its processes. -/
theorem isolated_uid_partial {h : Host} {c : Config} {um gm : Mapping}
    (e : start h c = some (some (um, gm))) (hs : c.singleUID = false) (hz : c.uid = ⟨0, 0⟩)
    (ho : h.uid > 0) : ∃ x y, um = [(1, x), (2, y)] ∧ x ≠ h.uid ∧ y ≠ h.uid ∧ x ≠ y := by
  obtain ⟨u, g, hu, hg, h1, h2, h3⟩ := start_mappings e
  have hd : c.disabled = false := by
    cases hd : c.disabled with
    | false => rfl
    | true => simpa using h1 hd
  have := h3 hd hs
  simp only [Option.some.injEq, Prod.mk.injEq] at this
  obtain ⟨_, _, a⟩ := alloc_spec hu
  obtain ⟨base, count, _, a1, a2, a3⟩ := a (.inl (by rw [hz]))
  exact ⟨u.container, u.executor, this.1, (a1 (by rw [hz])).2.2 ho, (a2 (by rw [hz])).2.2 ho,
    a3 (by rw [hz]; decide) (by rw [hz]; decide)⟩

/-- A container which needs no subordinate ids (no namespaces at all, or one id only) can't be
started without them: a server whose user has none fails to start, unless all four unused ids have
been configured. -/
theorem needless_ids_refuted (h : Host) (c : Config) (hu : h.subuid = []) (hz : c.uid.executor = 0) :
    start h c = none := by
  simp [start, parseCreds, alloc, hz, hu, parse]

example : alloc [str "root:1:2", str " www:100000:65536 "] (str "www") 33 ⟨0, 0⟩
    = some ⟨100001, 100002⟩ := by decide +kernel

example : alloc [str "www:32:10"] (str "www") 33 ⟨0, 34⟩ = some ⟨35, 34⟩ := by decide +kernel

example : alloc [str "www:32:1"] (str "www") 33 ⟨0, 0⟩ = none := by decide +kernel

example : Grants (str "www") 100000 65536 [str "root:1:2", str " www:100000:65536 "] :=
  .there _ _ (by
    intro a c r
    have : split (trim (str "root:1:2")) = [str "root", str "1", str "2"] := by decide +kernel
    rw [this]
    intro e
    have : str "root" = str "www" := by
      have := congrArg List.head? e
      simpa using this
    revert this; decide +kernel)
    (.here _ _ (str "100000") (str "65536") [] (by decide +kernel) (by decide +kernel)
      (by decide +kernel))

/-! ### Numbers -/

/-- The value of a decimal numeral. -/
def value : Bytes → Nat
  | [] => 0
  | c :: cs => (c.toNat - 48) * 10 ^ cs.length + value cs

def Numeral (ds : Bytes) : Prop := ds ≠ [] ∧ ∀ c ∈ ds, 48 ≤ c.toNat ∧ c.toNat ≤ 57

theorem digits_iff (ds : Bytes) : ∀ (a n : Nat), digits ds a = some n ↔ (∀ c ∈ ds, 48 ≤ c.toNat ∧ c.toNat ≤ 57) ∧ n = a * 10 ^ ds.length + value ds := by
  induction ds with
  | nil => intro a n; simp [digits, value, eq_comm]
  | cons c cs ih =>
    intro a n
    simp only [digits]
    split
    · next hc =>
      rw [ih]
      simp only [List.mem_cons, forall_eq_or_imp, hc, and_self, true_and, value, List.length_cons, Nat.pow_succ]
      have : (a * 10 + (c.toNat - 48)) * 10 ^ cs.length + value cs = a * (10 ^ cs.length * 10) + ((c.toNat - 48) * 10 ^ cs.length + value cs) := by
        rw [Nat.add_mul, Nat.mul_assoc, Nat.mul_comm 10 (10 ^ cs.length)]; omega
      rw [this]
    · next hc =>
      simp only [reduceCtorEq, false_iff]
      rintro ⟨h, -⟩
      exact hc (h c (by simp))

/-- C126: which numbers are read from the files: decimal numerals with an optional sign, within 32 bits. -/
theorem parseInt_iff (s : Bytes) (i : Int) : parseInt s = some i ↔
    ∃ ds, Numeral ds ∧ ((s = 45 :: ds ∧ i = -(value ds : Int)) ∨ ((s = ds ∨ s = 43 :: ds) ∧ i = value ds)) ∧
      -2147483648 ≤ i ∧ i ≤ 2147483647 := by
  have nodig : ∀ ds : Bytes, Numeral ds → ds.head? ≠ some 45 ∧ ds.head? ≠ some 43 := by
    intro ds h
    cases ds with
    | nil => simp
    | cons c cs =>
      have := h.2 c (by simp)
      constructor
      · intro hc; simp only [List.head?_cons, Option.some.injEq] at hc; subst hc; revert this; decide
      · intro hc; simp only [List.head?_cons, Option.some.injEq] at hc; subst hc; revert this; decide
  have dv : ∀ ds : Bytes, ∀ n : Nat, digits ds 0 = some n ↔ (∀ c ∈ ds, 48 ≤ c.toNat ∧ c.toNat ≤ 57) ∧ n = value ds := by
    intro ds n; rw [digits_iff]; simp
  unfold parseInt
  simp only
  constructor
  · intro h
    generalize hD : (if s.head? = some 45 ∨ s.head? = some 43 then s.drop 1 else s) = D at h
    split at h
    · cases h
    next hne =>
    split at h
    · cases h
    next n hd =>
    rw [dv] at hd
    obtain ⟨hall, rfl⟩ := hd
    refine ⟨D, ⟨hne, hall⟩, ?_⟩
    by_cases h45 : s.head? = some 45
    · rw [if_pos h45] at h
      have hs : ∃ ds, s = 45 :: ds := by
        cases s with
        | nil => cases h45
        | cons x xs => simp only [List.head?_cons, Option.some.injEq] at h45; subst h45; exact ⟨xs, rfl⟩
      obtain ⟨ds, rfl⟩ := hs
      simp only [List.head?_cons, true_or, if_true, List.drop_succ_cons, List.drop_zero] at hD
      subst hD
      split at h
      · cases h
        exact ⟨.inl ⟨rfl, rfl⟩, by omega, by omega⟩
      · cases h
    · rw [if_neg h45] at h
      split at h
      · cases h
        refine ⟨.inr ⟨?_, rfl⟩, by omega, by omega⟩
        by_cases h43 : s.head? = some 43
        · right
          rw [if_pos (.inr h43)] at hD
          subst hD
          cases s with
          | nil => cases h43
          | cons x xs => simp only [List.head?_cons, Option.some.injEq] at h43; subst h43; rfl
        · left
          rw [if_neg (by rintro (h | h); exact h45 h; exact h43 h)] at hD
          exact hD
      · cases h
  · rintro ⟨ds, hn, (⟨rfl, rfl⟩ | ⟨rfl | rfl, rfl⟩), h1, h2⟩
    · simp only [List.head?_cons, true_or, if_true, List.drop_succ_cons, List.drop_zero]
      rw [if_neg hn.1, (dv ds (value ds)).2 ⟨hn.2, rfl⟩]
      simp only
      rw [if_pos (by omega)]
    · have := nodig s hn
      simp only [this.1, this.2, or_self, if_false]
      rw [if_neg hn.1, (dv s (value s)).2 ⟨hn.2, rfl⟩]
      simp only
      rw [if_pos (by omega)]
    · simp only [List.head?_cons, or_true, if_true, List.drop_succ_cons, List.drop_zero, show ¬ (some (43 : UInt8) = some 45) by decide, if_false]
      rw [if_neg hn.1, (dv ds (value ds)).2 ⟨hn.2, rfl⟩]
      simp only
      rw [if_pos (by omega)]

example : parseInt (Auth.str "-2147483648") = some (-2147483648) ∧ parseInt (Auth.str "2147483648") = none ∧
    parseInt (Auth.str "+100000") = some 100000 ∧ parseInt (Auth.str "1 ") = none := by decide

end Gate.Creds
