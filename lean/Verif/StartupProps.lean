import Verif.Startup

/-! # Properties of starting and stopping the gate-server program (C154) -/

namespace Gate.Startup
open Gate.Auth (str)

/-! ### Host names -/

theorem cutLast_none {s : Bytes} : cutLast s = none ↔ (58 : UInt8) ∉ s := by
  induction s with
  | nil => simp [cutLast]
  | cons c cs ih =>
    simp only [cutLast]
    cases h : cutLast cs with
    | some x =>
      have : (58 : UInt8) ∈ cs := by
        cases Decidable.em ((58 : UInt8) ∈ cs) with
        | inl h => exact h
        | inr h' => rw [ih.2 h'] at h; cases h
      simp [this]
    | none =>
      have := ih.1 h
      by_cases hc : c = 58
      · simp [hc]
      · have hc' : (58 : UInt8) ≠ c := fun h => hc h.symm
        simp [hc, hc', this]

theorem cutLast_some {s h p : Bytes} : cutLast s = some (h, p) ↔ s = h ++ 58 :: p ∧ (58 : UInt8) ∉ p := by
  induction s generalizing h p with
  | nil => simp [cutLast]
  | cons c cs ih =>
    simp only [cutLast]
    cases hq : cutLast cs with
    | some x =>
      obtain ⟨h', p'⟩ := x
      have h1 := ih.1 hq
      constructor
      · intro e
        simp only [Option.some.injEq, Prod.mk.injEq] at e
        obtain ⟨rfl, rfl⟩ := e
        exact ⟨by rw [h1.1]; rfl, h1.2⟩
      · rintro ⟨e, hp⟩
        cases h with
        | nil =>
          simp only [List.nil_append, List.cons.injEq] at e
          rw [e.2] at h1
          exact absurd (by rw [h1.1]; simp) hp
        | cons d ds =>
          simp only [List.cons_append, List.cons.injEq] at e
          have h2 := ih.2 ⟨e.2, hp⟩
          rw [hq] at h2
          simp only [Option.some.injEq, Prod.mk.injEq] at h2
          rw [e.1, h2.1, h2.2]
    | none =>
      have hn := cutLast_none.1 hq
      by_cases hc : c = 58
      · subst hc
        simp only [if_true, Option.some.injEq, Prod.mk.injEq]
        constructor
        · rintro ⟨rfl, rfl⟩; exact ⟨rfl, hn⟩
        · rintro ⟨e, hp⟩
          cases h with
          | nil => simpa using e
          | cons d ds =>
            simp only [List.cons_append, List.cons.injEq] at e
            exact absurd (by rw [e.2]; simp) hn
      · simp only [hc, if_false]
        constructor
        · intro e; cases e
        · rintro ⟨e, hp⟩
          cases h with
          | nil => simp only [List.nil_append, List.cons.injEq] at e; exact absurd e.1 hc
          | cons d ds =>
            simp only [List.cons_append, List.cons.injEq] at e
            exact absurd (by rw [e.2]; simp) hn

/-- No colons nor brackets. -/
def Plain (b : Bytes) : Prop := ∀ c ∈ b, c ≠ 58 ∧ c ≠ 91 ∧ c ≠ 93

theorem takeWhile_stop {b r : Bytes} {x : UInt8} (h : ∀ c ∈ b, c ≠ x) : (b ++ x :: r).takeWhile (· ≠ x) = b := by
  induction b with
  | nil => simp
  | cons c cs ih =>
    have hc := h c (by simp)
    have := ih fun d hd => h d (List.mem_cons_of_mem _ hd)
    simp [hc] at this ⊢
    exact this

theorem dropWhile_stop {b r : Bytes} {x : UInt8} (h : ∀ c ∈ b, c ≠ x) : (b ++ x :: r).dropWhile (· ≠ x) = x :: r := by
  induction b with
  | nil => simp
  | cons c cs ih =>
    have hc := h c (by simp)
    have := ih fun d hd => h d (List.mem_cons_of_mem _ hd)
    simp [hc] at this ⊢
    exact this

theorem takeWhile_ne (b : Bytes) (x : UInt8) : ∀ c ∈ b.takeWhile (· ≠ x), c ≠ x := by
  induction b with
  | nil => simp
  | cons d ds ih =>
    intro c hc
    by_cases hd : d = x
    · simp [hd] at hc
    · simp only [ne_eq, hd, not_false_eq_true, decide_true, List.takeWhile_cons_of_pos, List.mem_cons] at hc
      rcases hc with rfl | hc
      · exact hd
      · exact ih c (by simpa using hc)

theorem dropWhile_head {b r : Bytes} {x y : UInt8} (h : b.dropWhile (· ≠ x) = y :: r) : y = x := by
  induction b with
  | nil => cases h
  | cons d ds ih =>
    by_cases hd : d = x
    · simp only [ne_eq, hd, not_true_eq_false, decide_false, Bool.false_eq_true, not_false_eq_true,
        List.dropWhile_cons_of_neg, List.cons.injEq] at h
      exact h.1.symm
    · exact ih (by simpa [hd] using h)

/-- C154: the host of an address, by which the server's authority is inferred. -/
theorem splitHost_iff (s h : Bytes) : splitHost s = some h ↔
    ∃ p, Plain p ∧ ((s = h ++ 58 :: p ∧ Plain h) ∨ (s = 91 :: (h ++ 93 :: 58 :: p) ∧ ∀ c ∈ h, c ≠ 91 ∧ c ≠ 93)) := by
  unfold splitHost
  constructor
  · intro e
    cases hc : cutLast s with
    | none => rw [hc] at e; cases e
    | some x =>
      obtain ⟨g, p⟩ := x
      rw [hc] at e
      have hs := cutLast_some.1 hc
      simp only at e
      by_cases hb : s.head? = some 91
      · simp only [hb, if_true] at e
        obtain ⟨t, rfl⟩ : ∃ t, s = 91 :: t := by
          cases s with
          | nil => simp at hb
          | cons a as => simp at hb; exact ⟨as, by rw [hb]⟩
        simp only [List.drop_succ_cons, List.drop_zero] at e
        have hsplit := List.takeWhile_append_dropWhile (p := fun c => decide (c ≠ (93 : UInt8))) (l := t)
        cases hr : t.dropWhile (· ≠ 93) with
        | nil => simp only [hr, if_true] at e; cases e
        | cons y r =>
          have hy := dropWhile_head hr
          subst hy
          have hin := takeWhile_ne t 93
          rw [hr] at hsplit
          generalize t.takeWhile (fun c => decide (c ≠ (93 : UInt8))) = inner at *
          subst hsplit
          simp only [hr, reduceCtorEq, if_false] at e
          split at e
          · cases e
          · rename_i hlen
            split at e
            · cases e
            · rename_i h91
              split at e
              · cases e
              · rename_i h93
                simp only [Option.some.injEq] at e
                subst e
                -- g = 91 :: inner ++ [93]
                have hg : g ++ 58 :: p = (91 :: inner ++ [93]) ++ r := by rw [← hs.1]; simp
                have hgl : g.length = (91 :: inner ++ [93]).length := by simp; omega
                have := List.append_inj hg hgl
                obtain ⟨rfl, rfl⟩ := this
                refine ⟨p, ?_, .inr ⟨by simp, ?_⟩⟩
                · intro c hcp
                  refine ⟨fun h => hs.2 (h ▸ hcp), fun h => h91 ?_, fun h => h93 ?_⟩
                  · subst h; simp [hcp]
                  · subst h
                    have : (inner ++ 93 :: 58 :: p).drop (inner.length + 1) = 58 :: p := by
                      rw [List.drop_append]; simp
                    simp only [this]
                    simp [hcp]
                · intro c hci
                  refine ⟨fun h => h91 ?_, hin c hci⟩
                  subst h; simp [hci]
      · simp only [hb, if_false] at e
        split at e
        · cases e
        · rename_i h1
          split at e
          · cases e
          · rename_i h2
            split at e
            · cases e
            · rename_i h3
              simp only [Option.some.injEq] at e
              subst e
              obtain ⟨rfl, hp⟩ := hs
              simp only [List.contains_eq_mem, List.mem_append, List.mem_cons, decide_eq_true_eq, not_or] at h1 h2 h3
              refine ⟨p, ?_, .inl ⟨rfl, ?_⟩⟩
              · intro c hcp
                exact ⟨fun h => hp (h ▸ hcp), fun h => h2.2.2 (h ▸ hcp), fun h => h3.2.2 (h ▸ hcp)⟩
              · intro c hcp
                exact ⟨fun h => h1 (h ▸ hcp), fun h => h2.1 (h ▸ hcp), fun h => h3.1 (h ▸ hcp)⟩
  · rintro ⟨p, hp, h⟩
    have hp58 : (58 : UInt8) ∉ p := fun h => (hp _ h).1 rfl
    have hp91 : (91 : UInt8) ∉ p := fun h => (hp _ h).2.1 rfl
    have hp93 : (93 : UInt8) ∉ p := fun h => (hp _ h).2.2 rfl
    rcases h with ⟨rfl, hh⟩ | ⟨rfl, hh⟩
    · rw [cutLast_some.2 ⟨rfl, hp58⟩]
      have h58 : (58 : UInt8) ∉ h := fun q => (hh _ q).1 rfl
      have h91 : (91 : UInt8) ∉ h := fun q => (hh _ q).2.1 rfl
      have h93 : (93 : UInt8) ∉ h := fun q => (hh _ q).2.2 rfl
      have hhead : (h ++ 58 :: p).head? ≠ some 91 := by
        cases h with
        | nil => simp
        | cons a as => simp only [List.cons_append, List.head?_cons, ne_eq, Option.some.injEq]; exact (hh a (by simp)).2.1
      simp only [hhead, if_false]
      simp [h58, h91, h93, hp91, hp93]
    · rw [cutLast_some.2 (show _ = (91 :: (h ++ [93])) ++ 58 :: p ∧ _ from ⟨by simp, hp58⟩)]
      have h91 : (91 : UInt8) ∉ h := fun q => (hh _ q).1 rfl
      have htw := takeWhile_stop (r := 58 :: p) fun c hc => (hh c hc).2
      have hdw := dropWhile_stop (r := 58 :: p) fun c hc => (hh c hc).2
      have hdrop : (h ++ 93 :: 58 :: p).drop (h.length + 1) = 58 :: p := by rw [List.drop_append]; simp
      simp only [List.head?_cons, if_true, List.drop_succ_cons, List.drop_zero, htw, hdw]
      simp [hdrop, h91, hp91, hp93]

example : splitHost (str "example.com:8080") = some (str "example.com") := by decide
example : splitHost (str "[::1]:80") = some (str "::1") := by decide
example : splitHost (str "example.com") = none := by decide
example : splitHost (str ":8080") = some [] := by decide

/-! ### Names of sources -/

/-- A path component which is a name. -/
def Name (d : Bytes) : Prop := d ≠ [] ∧ (47 : UInt8) ∉ d ∧ d ≠ str "." ∧ d ≠ str ".."

theorem components_slash (s : Bytes) : ∀ d ∈ components s, (47 : UInt8) ∉ d := by
  induction s with
  | nil => simp [components]
  | cons c cs ih =>
    simp only [components]
    split
    · intro d hd
      simp only [List.mem_cons] at hd
      rcases hd with rfl | hd
      · simp
      · exact ih d hd
    · rename_i hc
      cases h : components cs with
      | nil => simp only [List.mem_cons, List.not_mem_nil, or_false, forall_eq]; intro h; exact hc h.symm
      | cons d ds =>
        simp only
        intro x hx
        simp only [List.mem_cons] at hx
        rcases hx with rfl | hx
        · have := ih d (by rw [h]; simp)
          simp only [List.mem_cons, not_or]
          exact ⟨fun h => hc h.symm, this⟩
        · exact ih x (by rw [h]; simp [hx])

theorem clean_names (up ds : List Bytes) (hu : ∀ d ∈ up, Name d) (hd : ∀ d ∈ ds, (47 : UInt8) ∉ d) :
    ∀ d ∈ clean up ds, Name d := by
  induction ds generalizing up with
  | nil => simpa [clean] using hu
  | cons d ds ih =>
    have hd' : ∀ x ∈ ds, (47 : UInt8) ∉ x := fun x hx => hd x (List.mem_cons_of_mem _ hx)
    simp only [clean]
    split
    · exact ih up hu hd'
    · rename_i h1
      split
      · exact ih _ (fun x hx => hu x (List.mem_of_mem_tail hx)) hd'
      · rename_i h2
        refine ih _ ?_ hd'
        intro x hx
        simp only [List.mem_cons] at hx
        rcases hx with rfl | hx
        · exact ⟨fun h => h1 (.inl h), hd x (by simp), fun h => h1 (.inr h), h2⟩
        · exact hu x hx

/-- C154: the path of a source is a clean one: `/`, or a sequence of names with a slash before each. -/
theorem joinRoot_clean (name : Bytes) : joinRoot name = str "/" ∨
    ∃ ds, ds ≠ [] ∧ (∀ d ∈ ds, Name d) ∧ joinRoot name = ds.flatMap fun d => 47 :: d := by
  unfold joinRoot
  have h := clean_names [] (components name) (by simp) (components_slash name)
  cases hc : clean [] (components name) with
  | nil => exact .inl rfl
  | cons d ds => exact .inr ⟨d :: ds, by simp, by rw [hc] at h; exact h, rfl⟩

theorem components_plain {s : Bytes} (h : (47 : UInt8) ∉ s) : components s = [s] := by
  induction s with
  | nil => rfl
  | cons c cs ih =>
    simp only [List.mem_cons, not_or] at h
    have hc : c ≠ 47 := fun e => h.1 e.symm
    simp [components, hc, ih h.2]

/-- C154: the path of a source with an ordinary name. -/
theorem joinRoot_name {s : Bytes} (h : Name s) : joinRoot s = 47 :: s := by
  unfold joinRoot
  have h1 : ¬(s = [] ∨ s = str ".") := fun e => e.elim h.1 h.2.2.1
  rw [components_plain h.2.1]
  simp [clean, h1, h.2.2.2]

/-- C154 (why it's partial): these names are not kept apart. -/
theorem joinRoot_refuted : joinRoot (str "a") = joinRoot (str "x/../a") ∧ joinRoot (str "..") = str "/" := by decide

theorem getLast?_append_right (a : Bytes) {b : Bytes} (h : b ≠ []) : (a ++ b).getLast? = b.getLast? := by
  rw [List.getLast?_append]
  cases hb : b.getLast? with
  | none => exact absurd (List.getLast?_eq_none_iff.1 hb) h
  | some x => rfl

/-- How the sources' paths look like. -/
def CleanPath (s : Bytes) : Prop := s ≠ [] ∧ (s = str "/" ∨ s.getLast? ≠ some 47)

theorem joinRoot_path (name : Bytes) : CleanPath (joinRoot name) := by
  rcases joinRoot_clean name with h | ⟨ds, h0, h, e⟩
  · rw [h]; exact ⟨by decide, .inl rfl⟩
  · rw [e]
    obtain ⟨d, rfl⟩ | ⟨x, d, rfl⟩ : (∃ d, ds = [d]) ∨ ∃ x d, ds = x ++ [d] := by
      have := List.dropLast_concat_getLast h0
      exact .inr ⟨_, _, this.symm⟩
    · have hn := h d (by simp)
      refine ⟨by simp, .inr ?_⟩
      simp only [List.flatMap_cons, List.flatMap_nil, List.append_nil]
      rw [List.getLast?_cons_of_ne_nil hn.1]
      intro hl
      exact hn.2.1 (List.mem_of_getLast? hl)
    · have hn := h d (by simp)
      refine ⟨by simp, .inr ?_⟩
      simp only [List.flatMap_append, List.flatMap_cons, List.flatMap_nil, List.append_nil]
      rw [getLast?_append_right _ (by simp), List.getLast?_cons_of_ne_nil hn.1]
      intro hl
      exact hn.2.1 (List.mem_of_getLast? hl)

theorem mem_insert {l : List Bytes} {k x : Bytes} : x ∈ insert l k ↔ x ∈ l ∨ x = k := by
  unfold insert; split
  · rename_i h; constructor
    · exact .inl
    · rintro (h' | rfl)
      · exact h'
      · exact h
  · simp

theorem nodup_insert {l : List Bytes} {k : Bytes} (h : l.Nodup) : (insert l k).Nodup := by
  unfold insert; split
  · exact h
  · rename_i hk
    rw [List.nodup_append]
    refine ⟨h, by simp, ?_⟩
    intro a ha b hb
    simp only [List.mem_cons, List.not_mem_nil, or_false] at hb
    subst hb
    rintro rfl
    exact hk ha

theorem foldl_insert (ks l : List Bytes) (h : l.Nodup) :
    (ks.foldl insert l).Nodup ∧ ∀ x, x ∈ ks.foldl insert l ↔ x ∈ l ∨ x ∈ ks := by
  induction ks generalizing l with
  | nil => simp [h]
  | cons k ks ih =>
    have := ih (insert l k) (nodup_insert h)
    refine ⟨this.1, fun x => ?_⟩
    simp only [List.foldl_cons, this.2, mem_insert, List.mem_cons]
    rw [or_assoc]

/-- C154: the module sources are those with a name and an address, and IPFS if it has an address. -/
theorem mem_sources (c : Conf) (s : Bytes) : s ∈ sources c ↔
    (∃ x ∈ c.httpSources, x.1 ≠ [] ∧ x.2 ≠ [] ∧ s = joinRoot x.1) ∨ (c.ipfsAddr ≠ [] ∧ s = str "/ipfs") := by
  have h := (foldl_insert ((c.httpSources.filter fun x => x.1 ≠ [] ∧ x.2 ≠ []).map fun x => joinRoot x.1) [] List.nodup_nil).2
  have h1 : (s ∈ ((c.httpSources.filter fun x => x.1 ≠ [] ∧ x.2 ≠ []).map fun x => joinRoot x.1).foldl insert []) ↔
      ∃ x ∈ c.httpSources, x.1 ≠ [] ∧ x.2 ≠ [] ∧ s = joinRoot x.1 := by
    rw [h]
    simp only [List.not_mem_nil, false_or, List.mem_map, List.mem_filter, decide_eq_true_eq]
    constructor
    · rintro ⟨x, ⟨hx, h2, h3⟩, e⟩; exact ⟨x, hx, h2, h3, e.symm⟩
    · rintro ⟨x, hx, h2, h3, e⟩; exact ⟨x, ⟨hx, h2, h3⟩, e.symm⟩
  unfold sources
  by_cases hi : c.ipfsAddr = []
  · simp only [hi, ne_eq, not_true_eq_false, if_false, false_and, or_false]; exact h1
  · simp only [hi, ne_eq, not_false_eq_true, if_true, true_and, mem_insert]; rw [← h1]

theorem nodup_sources (c : Conf) : (sources c).Nodup := by
  have h := (foldl_insert ((c.httpSources.filter fun x => x.1 ≠ [] ∧ x.2 ≠ []).map fun x => joinRoot x.1) [] List.nodup_nil).1
  unfold sources
  split
  · exact nodup_insert h
  · exact h

theorem sources_path (c : Conf) : ∀ s ∈ sources c, CleanPath s := by
  intro s hs
  rcases (mem_sources c s).1 hs with ⟨x, _, _, _, rfl⟩ | ⟨_, rfl⟩
  · exact joinRoot_path _
  · exact ⟨by decide, .inr (by decide)⟩

theorem duplicates_iff (l : List Bytes) : duplicates l = false ↔ l.Nodup := by
  induction l with
  | nil => simp [duplicates]
  | cons a as ih => simp [duplicates, ih, List.nodup_cons]

def both (ss : List Bytes) : List Bytes := ss.flatMap fun s => [s, s ++ str "/"]

theorem both_nodup {ss : List Bytes} (h : ss.Nodup) (hp : ∀ s ∈ ss, CleanPath s) : (both ss).Nodup := by
  induction ss with
  | nil => simp [both]
  | cons s ss ih =>
    have ih' := ih (List.nodup_cons.1 h).2 fun x hx => hp x (List.mem_cons_of_mem _ hx)
    have hs := hp s (by simp)
    have hmem : ∀ x, x ∈ both ss → ∃ t ∈ ss, x = t ∨ x = t ++ str "/" := by
      intro x hx
      simp only [both, List.mem_flatMap, List.mem_cons, List.not_mem_nil, or_false] at hx
      exact hx
    have hsl : ∀ a b : Bytes, CleanPath a → CleanPath b → a ≠ b ++ str "/" := by
      intro a b ha hb e
      have hl : a.getLast? = some 47 := by rw [e, getLast?_append_right _ (by decide)]; rfl
      rcases ha.2 with h' | h'
      · rw [h'] at e
        have := congrArg List.length e
        simp [str] at this
        exact hb.1 this
      · exact h' hl
    show (s :: (s ++ str "/") :: both ss).Nodup
    rw [List.nodup_cons, List.nodup_cons]
    refine ⟨?_, ?_, ih'⟩
    · simp only [List.mem_cons, not_or]
      refine ⟨hsl s s hs hs, fun hm => ?_⟩
      obtain ⟨t, ht, e | e⟩ := hmem _ hm
      · exact (List.nodup_cons.1 h).1 (e ▸ ht)
      · exact hsl s t hs (hp t (List.mem_cons_of_mem _ ht)) e
    · intro hm
      obtain ⟨t, ht, e | e⟩ := hmem _ hm
      · exact hsl t s (hp t (List.mem_cons_of_mem _ ht)) hs e.symm
      · exact (List.nodup_cons.1 h).1 ((List.append_cancel_right e) ▸ ht)

def fixed : List Bytes :=
  [str "/gate-0/", str "/gate-0/module", str "/gate-0/instance", str "/gate-0/instance/", str "/gate-0/module/sha256",
    str "/gate-0/module/sha256/"]

theorem patterns_eq (ss : List Bytes) : (WebRoute.patterns [] ss).map (·.1) =
    fixed ++ (both ss).map (str "/gate-0/module" ++ ·) ++ [str "/gate-0/module/"] := by
  unfold WebRoute.patterns
  simp only [List.map_append, List.map_cons, List.map_nil]
  congr 2
  induction ss with
  | nil => rfl
  | cons s ss ih =>
    simp only [both, List.flatMap_cons, List.map_append, List.map_cons, List.map_nil] at ih ⊢
    rw [ih]
    rfl

theorem module_fixed (x : Bytes) : str "/gate-0/module" ++ x ∈ fixed ↔
    x = [] ∨ x = str "/sha256" ∨ x = str "/sha256/" := by
  simp [fixed, str]

theorem module_dir (x : Bytes) : str "/gate-0/module" ++ x = str "/gate-0/module/" ↔ x = str "/" := by
  simp [str]

/-- Which sources' patterns collide. -/
theorem patterns_nodup {ss : List Bytes} (h : ss.Nodup) (hp : ∀ s ∈ ss, CleanPath s) :
    duplicates ((WebRoute.patterns [] ss).map (·.1)) = false ↔ str "/" ∉ ss ∧ str "/sha256" ∉ ss := by
  rw [duplicates_iff, patterns_eq, List.nodup_append, List.nodup_append]
  have hmem : ∀ x, x ∈ both ss ↔ ∃ t ∈ ss, x = t ∨ x = t ++ str "/" := by
    intro x
    simp only [both, List.mem_flatMap, List.mem_cons, List.not_mem_nil, or_false]
  constructor
  · rintro ⟨⟨_, _, h1⟩, _, h2⟩
    refine ⟨fun hs => ?_, fun hs => ?_⟩
    · exact h2 (str "/gate-0/module" ++ str "/")
        (List.mem_append.2 (.inr (List.mem_map.2 ⟨str "/", (hmem _).2 ⟨_, hs, .inl rfl⟩, rfl⟩))) _
        (List.mem_singleton.2 rfl) (by decide)
    · exact h1 (str "/gate-0/module" ++ str "/sha256") (by decide) _
        (List.mem_map.2 ⟨str "/sha256", (hmem _).2 ⟨_, hs, .inl rfl⟩, rfl⟩) rfl
  · rintro ⟨h1, h2⟩
    have hnf : ∀ x ∈ both ss, x ≠ [] ∧ x ≠ str "/sha256" ∧ x ≠ str "/sha256/" ∧ x ≠ str "/" := by
      intro x hx
      obtain ⟨t, ht, rfl | rfl⟩ := (hmem x).1 hx
      · have hc := hp x ht
        refine ⟨hc.1, fun e => h2 (e ▸ ht), fun e => ?_, fun e => h1 (e ▸ ht)⟩
        rcases hc.2 with e' | e'
        · rw [e'] at e; revert e; decide
        · exact e' (by rw [e]; decide)
      · have hc := hp t ht
        refine ⟨by simp [str], fun e => ?_, fun e => ?_, fun e => ?_⟩
        · have hl : (t ++ str "/").getLast? = some 47 := by rw [getLast?_append_right _ (by decide)]; rfl
          rw [e] at hl; revert hl; decide
        · have e' : t ++ str "/" = str "/sha256" ++ str "/" := e
          exact h2 ((List.append_cancel_right e') ▸ ht)
        · have e' : t ++ str "/" = [] ++ str "/" := e
          exact hc.1 (List.append_cancel_right e')
    refine ⟨⟨by decide, ?_, ?_⟩, by simp, ?_⟩
    · have := both_nodup h hp
      rw [List.Nodup, List.pairwise_map]
      exact this.imp fun hab e => hab (List.append_cancel_left e)
    · intro a ha b hb e
      obtain ⟨x, hx, rfl⟩ := List.mem_map.1 hb
      have := hnf x hx
      rw [e, module_fixed] at ha
      rcases ha with h' | h' | h'
      · exact this.1 h'
      · exact this.2.1 h'
      · exact this.2.2.1 h'
    · intro a ha b hb e
      simp only [List.mem_cons, List.not_mem_nil, or_false] at hb
      subst hb
      rcases List.mem_append.1 ha with ha | ha
      · rw [e] at ha; revert ha; decide
      · obtain ⟨x, hx, rfl⟩ := List.mem_map.1 ha
        exact (hnf x hx).2.2.2 ((module_dir x).1 e)

end Gate.Startup
