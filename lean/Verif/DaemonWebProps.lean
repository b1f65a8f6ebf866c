import Verif.DaemonWeb
/-
C176: the daemon's web interface is local, and its static files are those which are configured.
-/
namespace Gate.DaemonWeb
open Gate Gate.Auth

/-! ## Paths -/

/-- A path's directories. -/
abbrev parts (p : Bytes) : List Bytes := elems isSlash p

theorem elems_ne (sep : UInt8 → Bool) : ∀ p, elems sep p ≠ []
  | [] => by simp [elems]
  | c :: t => by
    unfold elems
    split
    · simp
    · split <;> simp

theorem elems_cons_sep {sep : UInt8 → Bool} {c : UInt8} (h : sep c = true) (t : Bytes) : elems sep (c :: t) = [] :: elems sep t := by
  conv => lhs; unfold elems
  simp [h]

theorem elems_cons {sep : UInt8 → Bool} {c : UInt8} (h : sep c = false) (t : Bytes) : ∃ e es, elems sep t = e :: es ∧ elems sep (c :: t) = (c :: e) :: es := by
  cases ht : elems sep t with
  | nil => exact absurd ht (elems_ne _ _)
  | cons e es => exact ⟨e, es, rfl, by conv => lhs; unfold elems
                                       simp [h, ht]⟩

/-- A path which goes on after a slash. -/
theorem elems_append (sep : UInt8 → Bool) {c : UInt8} (h : sep c = true) : ∀ (a b : Bytes), elems sep (a ++ c :: b) = elems sep a ++ elems sep b
  | [], b => by rw [List.nil_append, elems_cons_sep h]; rfl
  | x :: a, b => by
    have ih := elems_append sep h a b
    cases hx : sep x with
    | true => rw [List.cons_append, elems_cons_sep hx, elems_cons_sep hx, ih]; rfl
    | false =>
      obtain ⟨e, es, h1, h2⟩ := elems_cons hx (a ++ c :: b)
      obtain ⟨e', es', h1', h2'⟩ := elems_cons hx a
      rw [List.cons_append, h2, h2']
      rw [ih, h1'] at h1
      simp at h1
      obtain ⟨rfl, rfl⟩ := h1
      rfl

/-- An element for one set of separators is one for a larger set, unless it contains any. -/
theorem elems_more {s1 s2 : UInt8 → Bool} (hs : ∀ c, s1 c = true → s2 c = true) {e : Bytes} (he : ∀ c ∈ e, s2 c = false) : ∀ p : Bytes,
    ((elems s1 p).head? = some e → (elems s2 p).head? = some e) ∧ (e ∈ (elems s1 p).tail → e ∈ (elems s2 p).tail)
  | [] => by simp [elems]
  | c :: t => by
    have ih : ∀ e : Bytes, (∀ c ∈ e, s2 c = false) → ((elems s1 t).head? = some e → (elems s2 t).head? = some e) ∧ (e ∈ (elems s1 t).tail → e ∈ (elems s2 t).tail) :=
      fun e he => elems_more hs he t
    have mem : e ∈ elems s1 t → e ∈ elems s2 t := by
      intro h
      cases h1 : elems s1 t with
      | nil => exact absurd h1 (elems_ne _ _)
      | cons x xs =>
        rw [h1] at h
        have i := ih e he
        rw [h1] at i
        cases h2 : elems s2 t with
        | nil => exact absurd h2 (elems_ne _ _)
        | cons y ys =>
          rw [h2] at i
          simp only [List.head?_cons, Option.some.injEq, List.tail_cons] at i
          rcases List.mem_cons.1 h with rfl | h
          · simp [i.1 rfl]
          · exact List.mem_cons_of_mem _ (i.2 h)
    cases h1 : s1 c with
    | true => rw [elems_cons_sep h1, elems_cons_sep (hs c h1)]; exact ⟨id, mem⟩
    | false =>
      obtain ⟨x, xs, e1, e2⟩ := elems_cons h1 t
      cases h2 : s2 c with
      | true =>
        rw [elems_cons_sep h2, e2]
        refine ⟨?_, fun h => mem (by rw [e1]; exact List.mem_cons_of_mem _ h)⟩
        intro h
        simp at h
        subst h
        have := he c (by simp)
        rw [h2] at this; cases this
      | false =>
        obtain ⟨y, ys, e3, e4⟩ := elems_cons h2 t
        rw [e2, e4]
        refine ⟨?_, fun h => ?_⟩
        · intro h
          simp at h
          subst h
          have i := (ih x (fun d hd => he d (by simp [hd]))).1
          rw [e1, e3] at i
          simpa using i
        · have i := (ih e he).2
          rw [e1, e3] at i
          exact i h

/-- A request with a path which goes upwards isn't served. -/
theorem up_refused {p : Bytes} (h : dotDot ∈ parts p) : containsDotDot p = true := by
  unfold containsDotDot
  rw [List.contains_iff_mem]
  have i := elems_more (s1 := isSlash) (s2 := isSlashRune) (by intro c; simp [isSlash, isSlashRune]; exact .inl) (e := dotDot) (by decide) p
  cases h1 : elems isSlash p with
  | nil => exact absurd h1 (elems_ne _ _)
  | cons x xs =>
    cases h2 : elems isSlashRune p with
    | nil => exact absurd h2 (elems_ne _ _)
    | cons y ys =>
      rw [h1, h2] at i
      rw [show parts p = _ from h1] at h
      simp only [List.head?_cons, Option.some.injEq, List.tail_cons] at i
      rcases List.mem_cons.1 h with rfl | h
      · simp [i.1 rfl]
      · exact List.mem_cons_of_mem _ (i.2 h)

theorem walk_append : ∀ (a st b : List Bytes), walk st (a ++ b) = walk (walk st a) b
  | [], _, _ => rfl
  | e :: a, st, b => by
    simp only [List.cons_append, walk]
    split
    · exact walk_append a _ b
    · split
      · exact walk_append a _ b
      · exact walk_append a _ b

/-- Without going upwards one stays where one is, or under it. -/
theorem walk_down : ∀ (a st : List Bytes), dotDot ∉ a → st <+: walk st a
  | [], st, _ => List.prefix_refl _
  | e :: a, st, h => by
    simp only [walk]
    split
    · exact walk_down a st (by simp_all)
    · split
      · rename_i h2; simp [h2] at h
      · exact List.IsPrefix.trans (List.prefix_append _ _) (walk_down a _ (by simp_all))

theorem endsSlash_eq {b : Bytes} (h : endsSlash b = true) : ∃ a, b = a ++ [slash] := by
  simp only [endsSlash, beq_iff_eq] at h
  obtain ⟨a, ha⟩ := List.getLast?_eq_some_iff.1 h
  exact ⟨a, ha⟩

/-- What is under a directory. -/
theorem under {dir rest : Bytes} (hd : endsSlash dir = true) (hr : dotDot ∉ parts rest) : walk [] (parts dir) <+: walk [] (parts (dir ++ rest)) := by
  obtain ⟨a, rfl⟩ := endsSlash_eq hd
  have e : a ++ [slash] ++ rest = a ++ slash :: rest := by simp
  have e1 : elems isSlash (a ++ [slash]) = elems isSlash a ++ [[]] := elems_append isSlash (c := slash) rfl a []
  have e2 : elems isSlash (a ++ slash :: rest) = elems isSlash a ++ elems isSlash rest := elems_append isSlash (c := slash) rfl a rest
  rw [e, parts, parts, e1, e2, walk_append, walk_append]
  simp only [walk, true_or, if_true]
  exact walk_down _ _ hr

/-! ## Registration -/

theorem register_ok : ∀ (ss : List Static) (seen : List Bytes), register ss seen = none →
    (∀ s ∈ ss, s.check = none ∧ s.uri ∉ seen ∧ s.uri ≠ [slash]) ∧ (ss.map (·.uri)).Nodup ∧ [slash] ∉ seen
  | [], seen, h => by
    simp only [register] at h
    split at h
    · cases h
    · rename_i hs; simp at hs; simpa using hs
  | s :: ss, seen, h => by
    unfold register at h
    split at h
    · cases h
    · rename_i hc
      split at h
      · cases h
      · rename_i hs
        obtain ⟨h1, h2, h3⟩ := register_ok ss _ h
        simp only [List.mem_cons, not_or] at h3
        have hs' : s.uri ∉ seen := by simpa using hs
        refine ⟨?_, ?_, h3.2⟩
        · intro t ht
          rcases List.mem_cons.1 ht with rfl | ht
          · exact ⟨hc, hs', fun h => h3.1 h.symm⟩
          · have := h1 t ht
            simp only [List.mem_cons, not_or] at this
            exact ⟨this.1, this.2.1.2, this.2.2⟩
        · simp only [List.map_cons, List.nodup_cons, List.mem_map, not_exists, not_and]
          refine ⟨fun t ht e => ?_, h2⟩
          have := (h1 t ht).2.1
          simp [e] at this

/-- What a configured static URI has to be. -/
structure GoodStatic (s : Static) : Prop where
  abs : s.uri.head? = some slash
  path : s.path ≠ []
  ends : endsSlash s.uri = endsSlash s.path

theorem check_good {s : Static} (h : s.check = none) : GoodStatic s := by
  unfold Static.check at h
  split at h
  · cases h
  · split at h
    · cases h
    · split at h
      · cases h
      · rename_i a b c
        exact ⟨Decidable.of_not_not a, b, Decidable.of_not_not c⟩

theorem longest_mem : ∀ {ss : List Static} {s : Static}, longest ss = some s → s ∈ ss ∧ ∀ t ∈ ss, t.uri.length ≤ s.uri.length
  | [], s, h => by cases h
  | a :: ss, s, h => by
    unfold longest at h
    split at h
    · rename_i hn
      cases h
      have : ss = [] := by
        cases ss with
        | nil => rfl
        | cons b bs =>
          exfalso
          unfold longest at hn
          split at hn
          · cases hn
          · split at hn <;> cases hn
      subst this; simp
    · rename_i t ht
      obtain ⟨h1, h2⟩ := longest_mem ht
      split at h
      · cases h
        exact ⟨List.mem_cons_of_mem _ h1, fun x hx => by
          rcases List.mem_cons.1 hx with rfl | hx
          · omega
          · exact h2 x hx⟩
      · cases h
        exact ⟨List.mem_cons_self .., fun x hx => by
          rcases List.mem_cons.1 hx with rfl | hx
          · omega
          · have := h2 x hx; omega⟩

theorem longest_none {ss : List Static} (h : longest ss = none) : ss = [] := by
  cases ss with
  | nil => rfl
  | cons b bs =>
    unfold longest at h
    split at h
    · cases h
    · split at h <;> cases h

/-- A URI stands for a path. -/
def Stands (s : Static) (path : Bytes) : Prop := path = s.uri ∨ (endsSlash s.uri = true ∧ s.uri <+: path)

theorem match_some {ss : List Static} {path : Bytes} {s : Static} (h : match_ ss path = some s) : s ∈ ss ∧ Stands s path := by
  unfold match_ at h
  split at h
  · rename_i t ht
    cases h
    have := List.find?_some ht
    exact ⟨List.mem_of_find?_eq_some ht, .inl (beq_iff_eq.1 this).symm⟩
  · obtain ⟨h1, _⟩ := longest_mem h
    simp only [List.mem_filter, Bool.and_eq_true, List.isPrefixOf_iff_prefix] at h1
    exact ⟨h1.1, .inr h1.2⟩

theorem match_none {ss : List Static} {path : Bytes} : match_ ss path = none ↔ ∀ s ∈ ss, ¬ Stands s path := by
  constructor
  · intro h s hs hst
    unfold match_ at h
    split at h
    · cases h
    · rename_i hf
      rcases hst with e | ⟨e1, e2⟩
      · rw [List.find?_eq_none] at hf
        exact hf s hs (by simp [e])
      · have := longest_none h
        have hm : s ∈ ss.filter fun s => endsSlash s.uri && s.uri.isPrefixOf path := by
          simp only [List.mem_filter, Bool.and_eq_true, List.isPrefixOf_iff_prefix]; exact ⟨hs, e1, e2⟩
        rw [this] at hm; cases hm
  · intro h
    cases hm : match_ ss path with
    | none => rfl
    | some s => exact absurd (match_some hm).2 (h s (match_some hm).1)

/-! ## Properties -/

theorem serve_cases (origin : Bytes) (ss : List Static) (r : Request) :
    (∃ p, serve origin ss r = ⟨.redirect p, none⟩) ∨ (serve origin ss r = ⟨.api, none⟩ ∧ match_ ss r.path = none) ∨
      ∃ s, match_ ss r.path = some s ∧ serve origin ss r = serveStatic origin s r := by
  have hd : ((match match_ ss r.path with | none => (⟨.api, none⟩ : Response) | some s => serveStatic origin s r) = ⟨.api, none⟩ ∧ match_ ss r.path = none) ∨
      ∃ s, match_ ss r.path = some s ∧ (match match_ ss r.path with | none => (⟨.api, none⟩ : Response) | some s => serveStatic origin s r) = serveStatic origin s r := by
    cases h : match_ ss r.path with
    | none => exact .inl ⟨rfl, rfl⟩
    | some s => exact .inr ⟨s, rfl, rfl⟩
  unfold serve
  simp only
  split
  · split
    · exact .inl ⟨_, rfl⟩
    · exact .inr hd
  · split
    · exact .inl ⟨_, rfl⟩
    · split
      · exact .inl ⟨_, rfl⟩
      · exact .inr hd

/-- Whatever is requested, the files which are opened are the configured ones and those under the configured directories; only by a program or page without an origin, or of the
daemon's own, with a method that reads. -/
theorem confined {ss : List Static} (hss : register ss [] = none) {origin : Bytes} {r : Request} {name : Bytes} (h : (serve origin ss r).reply = .file name) :
    (r.method = str "GET" ∨ r.method = str "HEAD") ∧ (r.origin = [] ∨ r.origin = origin) ∧
    ∃ s ∈ ss, (endsSlash s.uri = false ∧ r.path = s.uri ∧ name = s.path) ∨
      (endsSlash s.path = true ∧ walk [] (parts s.path) <+: walk [] (parts name) ∧
        ∃ rest, r.path = s.uri ++ rest ∧ name = s.path ++ rest ++ (if endsSlash (s.path ++ rest) = true then str "index.html" else [])) := by
  rcases serve_cases origin ss r with ⟨p, e⟩ | ⟨e, _⟩ | ⟨s, hm, e⟩
  · rw [e] at h; cases h
  · rw [e] at h; cases h
  obtain ⟨hs, _⟩ := match_some hm
  have hg := check_good ((register_ok ss [] hss).1 s hs).1
  rw [e] at h
  unfold serveStatic at h
  split at h
  · cases h
  · rename_i ho
    simp only at h
    split at h
    · cases h
    · rename_i hme
      refine ⟨?_, ?_, s, hs, ?_⟩
      · by_cases h1 : r.method = str "GET"
        · exact .inl h1
        · by_cases h2 : r.method = str "HEAD"
          · exact .inr h2
          · exact absurd ⟨h1, h2⟩ hme
      · by_cases h1 : r.origin = []
        · exact .inl h1
        · by_cases h2 : r.origin = origin
          · exact .inr h2
          · exact absurd ⟨h1, h2⟩ ho
      · split at h
        · cases h
        · rename_i f hf
          simp only [serveFile] at h
          split at h
          · cases h
          · rename_i hdd
            simp only [Reply.file.injEq] at h
            subst h
            unfold staticFile at hf
            split at hf
            · rename_i hu
              right
              split at hf
              · rename_i hp
                obtain ⟨rest, hr⟩ := List.isPrefixOf_iff_prefix.1 hp
                have hpath : endsSlash s.path = true := by rw [← hg.ends]; exact hu
                simp only [← hr, List.drop_left, Option.some.injEq] at hf
                have hnd : dotDot ∉ parts rest := by
                  intro hin
                  apply hdd
                  apply up_refused
                  obtain ⟨a, ha⟩ := endsSlash_eq hu
                  rw [← hr, ha]
                  have e : a ++ [slash] ++ rest = a ++ slash :: rest := by simp
                  rw [e, parts, elems_append isSlash (c := slash) rfl]
                  exact List.mem_append_right _ hin
                refine ⟨hpath, ?_, rest, hr.symm, ?_⟩
                · rw [← hf]
                  split
                  · rename_i hi
                    obtain ⟨a, ha⟩ := endsSlash_eq hi
                    have h1 := under (dir := s.path) hpath hnd
                    have h2 := under (dir := s.path ++ rest) (rest := str "index.html") hi (by decide +kernel)
                    exact h1.trans h2
                  · exact under hpath hnd
                · rw [← hf]; split <;> simp
              · cases hf
            · rename_i hu
              left
              split at hf
              · cases hf
              · rename_i hp
                simp only [Option.some.injEq] at hf
                exact ⟨by simpa using hu, Decidable.of_not_not hp, hf.symm⟩

/-- A page of another origin gets nothing from the static files: neither contents nor permission to read any. -/
theorem foreign {origin : Bytes} {ss : List Static} {r : Request} (h : r.origin ≠ []) (h' : r.origin ≠ origin) :
    (serve origin ss r).allow = none ∧ ((serve origin ss r).reply = .api ∨ (serve origin ss r).reply = .forbidden ∨ ∃ p, (serve origin ss r).reply = .redirect p) := by
  rcases serve_cases origin ss r with ⟨p, e⟩ | ⟨e, _⟩ | ⟨s, _, e⟩
  · rw [e]; exact ⟨rfl, .inr (.inr ⟨p, rfl⟩)⟩
  · rw [e]; exact ⟨rfl, .inl rfl⟩
  · rw [e, serveStatic, if_pos ⟨h, h'⟩]; exact ⟨rfl, .inr (.inl rfl)⟩

/-- Only the daemon's own origin is ever allowed. -/
theorem allowed {origin : Bytes} {ss : List Static} {r : Request} {o : Bytes} (h : (serve origin ss r).allow = some o) : o = origin ∧ r.origin = origin := by
  by_cases h1 : r.origin = []
  · exfalso
    rcases serve_cases origin ss r with ⟨p, e⟩ | ⟨e, _⟩ | ⟨s, _, e⟩
    · rw [e] at h; cases h
    · rw [e] at h; cases h
    · rw [e, serveStatic, if_neg (by simp [h1])] at h
      simp only [h1, if_true] at h
      split at h
      · cases h
      · split at h <;> cases h
  · by_cases h2 : r.origin = origin
    · rcases serve_cases origin ss r with ⟨p, e⟩ | ⟨e, _⟩ | ⟨s, _, e⟩
      · rw [e] at h; cases h
      · rw [e] at h; cases h
      · rw [e, serveStatic, if_neg (by simp [h2])] at h
        simp only [if_neg h1] at h
        split at h
        · cases h; exact ⟨h2, h2⟩
        · split at h <;> (cases h; exact ⟨h2, h2⟩)
    · rw [(foreign (ss := ss) h1 h2).1] at h; cases h

/-- The API's paths are the API's: a static URI takes only itself, or what is under it. -/
theorem api_reached {origin : Bytes} {ss : List Static} {r : Request} (hc : cleanPath r.path = r.path) (hw : wantsSlash ss r.path = false) (h : ∀ s ∈ ss, ¬ Stands s r.path) :
    serve origin ss r = ⟨.api, none⟩ := by
  have := match_none.2 h
  simp [serve, hc, hw, this]

/-- Every configured file can be read, with the path that stands for it, and so can the files of the configured directories. -/
theorem served {origin : Bytes} {ss : List Static} {r : Request} (hc : cleanPath r.path = r.path) (hd : containsDotDot r.path = false)
    (hm : r.method = str "GET" ∨ r.method = str "HEAD") (ho : r.origin = [] ∨ r.origin = origin) {s : Static} (hs : s ∈ ss) (hn : (ss.map (·.uri)).Nodup) :
    (r.path = s.uri → endsSlash s.uri = false → (serve origin ss r).reply = .file s.path) ∧
    (∀ rest, r.path = s.uri ++ rest → endsSlash s.uri = true → (∀ t ∈ ss, Stands t r.path → t.uri.length ≤ s.uri.length ∧ t.uri ≠ r.path ∨ t = s) → wantsSlash ss r.path = false →
      (serve origin ss r).reply = .file (if endsSlash (s.path ++ rest) = true then s.path ++ rest ++ str "index.html" else s.path ++ rest)) := by
  have hconn : r.method ≠ str "CONNECT" := by rcases hm with h | h <;> rw [h] <;> decide +kernel
  have hmm : ¬ (r.method ≠ str "GET" ∧ r.method ≠ str "HEAD") := by rcases hm with h | h <;> simp [h]
  have hoo : ¬ (r.origin ≠ [] ∧ r.origin ≠ origin) := by rcases ho with h | h <;> simp [h]
  have hmem : ∀ t ∈ ss, t.uri = s.uri → t = s := by
    intro t ht e
    clear hoo hmm hconn ho hm hd hc
    induction ss with
    | nil => cases ht
    | cons a as ih =>
      simp only [List.map_cons, List.nodup_cons, List.mem_map, not_exists, not_and] at hn
      rcases List.mem_cons.1 hs with rfl | hs' <;> rcases List.mem_cons.1 ht with rfl | ht'
      · rfl
      · exact absurd e (hn.1 t ht')
      · exact absurd e.symm (hn.1 s hs')
      · exact ih hs' hn.2 ht'
  constructor
  · intro hp hu
    have hw : wantsSlash ss r.path = false := by
      have : (ss.any fun s => s.uri == r.path) = true := List.any_eq_true.2 ⟨s, hs, by simp [hp]⟩
      simp [wantsSlash, this]
    have hma : match_ ss r.path = some s := by
      unfold match_
      have : (ss.find? fun s => s.uri == r.path) = some s := by
        cases hf : ss.find? fun s => s.uri == r.path with
        | none => rw [List.find?_eq_none] at hf; exact absurd (by simp [hp]) (hf s hs)
        | some t =>
          have h1 := List.find?_some hf
          rw [hmem t (List.mem_of_find?_eq_some hf) (by simpa [hp] using h1)]
      rw [this]
    simp only [serve, if_neg hconn, hc, hw, hma, serveStatic, if_neg hoo, if_neg hmm, staticFile, hu]
    simp only [← hp]
    simp [serveFile, hd]
  · intro rest hp hu hl hw
    have hst : Stands s r.path := .inr ⟨hu, rest, hp.symm⟩
    have hma : match_ ss r.path = some s := by
      cases hm' : match_ ss r.path with
      | none => exact absurd hst (match_none.1 hm' s hs)
      | some t =>
        obtain ⟨ht, hst'⟩ := match_some hm'
        rcases hl t ht hst' with ⟨h1, h2⟩ | h
        · unfold match_ at hm'
          split at hm'
          · rename_i u hf
            cases hm'
            have := List.find?_some hf
            exact absurd (by simpa using this) h2
          · obtain ⟨_, hmax⟩ := longest_mem hm'
            have h3 := hmax s (by simp only [List.mem_filter, Bool.and_eq_true, List.isPrefixOf_iff_prefix]; exact ⟨hs, hu, rest, hp.symm⟩)
            have h4 : t.uri.length = s.uri.length := by omega
            have h5 : t.uri = s.uri := by
              rcases hst' with h | ⟨_, x, hx⟩
              · exact absurd h.symm h2
              · have : t.uri ++ x = s.uri ++ rest := by rw [hx, hp]
                exact (List.append_inj this h4).1
            rw [hmem t ht h5]
        · rw [h]
    have hip : s.uri.isPrefixOf r.path = true := List.isPrefixOf_iff_prefix.2 ⟨rest, hp.symm⟩
    have hdr : r.path.drop s.uri.length = rest := by rw [hp, List.drop_left]
    simp only [serve, if_neg hconn, hc, hw, hma, serveStatic, if_neg hoo, if_neg hmm, staticFile, hu, hip, hdr]
    simp [serveFile, hd]

/-! ## Clean paths -/

/-- An element of a clean path. -/
def Plain (e : Bytes) : Prop := e ≠ [] ∧ e ≠ dot ∧ e ≠ dotDot ∧ slash ∉ e

theorem elems_noSlash : ∀ (p : Bytes), ∀ e ∈ parts p, slash ∉ e
  | [], e, h => by simp [elems] at h; subst h; simp
  | c :: t, e, h => by
    cases hc : isSlash c with
    | true =>
      rw [parts, elems_cons_sep hc] at h
      rcases List.mem_cons.1 h with rfl | h
      · simp
      · exact elems_noSlash t e h
    | false =>
      obtain ⟨x, xs, h1, h2⟩ := elems_cons hc t
      rw [parts, h2] at h
      have ih := elems_noSlash t
      rw [parts, h1] at ih
      rcases List.mem_cons.1 h with rfl | h
      · intro hm
        rcases List.mem_cons.1 hm with h3 | h3
        · subst h3; simp [isSlash] at hc
        · exact ih x (by simp) h3
      · exact ih e (List.mem_cons_of_mem _ h)

theorem walk_plain : ∀ (es st : List Bytes), (∀ e ∈ es, slash ∉ e) → (∀ e ∈ st, Plain e) → ∀ e ∈ walk st es, Plain e
  | [], st, _, h => h
  | x :: es, st, hx, h => by
    simp only [walk]
    split
    · exact walk_plain es st (fun e he => hx e (by simp [he])) h
    · split
      · exact walk_plain es _ (fun e he => hx e (by simp [he])) fun e he => h e (List.dropLast_subset _ he)
      · rename_i h1 h2
        refine walk_plain es _ (fun e he => hx e (by simp [he])) fun e he => ?_
        rcases List.mem_append.1 he with he | he
        · exact h e he
        · simp at he; subst he
          simp only [not_or] at h1
          exact ⟨h1.1, h1.2, h2, hx _ (by simp)⟩

theorem walk_id : ∀ (es st : List Bytes), (∀ e ∈ es, Plain e) → walk st es = st ++ es
  | [], st, _ => by simp [walk]
  | x :: es, st, h => by
    have hx := h x (by simp)
    simp only [walk]
    rw [if_neg (by simp [hx.1, hx.2.1]), if_neg hx.2.2.1, walk_id es _ fun e he => h e (by simp [he])]
    simp

theorem elems_plain : ∀ (e : Bytes), slash ∉ e → parts e = [e]
  | [], _ => rfl
  | c :: t, h => by
    have hc : isSlash c = false := by
      cases hh : isSlash c
      · rfl
      · simp [isSlash] at hh; subst hh; simp at h
    have ht := elems_plain t (by simp at h; exact h.2)
    obtain ⟨x, xs, h1, h2⟩ := elems_cons hc t
    rw [parts] at ht
    rw [ht] at h1
    cases h1
    exact h2

/-- A slash before each element. -/
def join (es : List Bytes) : Bytes := es.flatMap fun e => slash :: e

theorem parts_join : ∀ (es : List Bytes), (∀ e ∈ es, Plain e) → parts (join es) = [] :: es
  | [], _ => rfl
  | x :: es, h => by
    have ih := parts_join es fun e he => h e (by simp [he])
    have hx := h x (by simp)
    have e : join (x :: es) = slash :: (x ++ join es) := by simp [join]
    rw [e, parts, elems_cons_sep (by rfl)]
    congr 1
    cases es with
    | nil => simpa [join] using elems_plain x hx.2.2.2
    | cons y ys =>
      have e2 : join (y :: ys) = slash :: (y ++ join ys) := by simp [join]
      rw [parts, e2, elems_cons_sep (by rfl)] at ih
      rw [e2, elems_append isSlash (c := slash) rfl, show elems isSlash x = [x] from elems_plain x hx.2.2.2]
      simp only [List.cons.injEq, true_and] at ih
      rw [ih]; rfl

theorem join_last {es : List Bytes} (h : ∀ e ∈ es, Plain e) (hne : es ≠ []) : (join es).getLast? ≠ some slash := by
  rcases List.eq_nil_or_concat es with h0 | ⟨a, x, rfl⟩
  · exact absurd h0 hne
  · have hx := h x (by simp)
    have e : join (a ++ [x]) = join a ++ slash :: x := by simp [join]
    rw [List.concat_eq_append, e]
    intro hl
    obtain ⟨b, hb⟩ := List.getLast?_eq_some_iff.1 hl
    rcases List.eq_nil_or_concat x with h0 | ⟨y, z, hz⟩
    · exact hx.1 h0
    · rw [hz] at hb
      have h3 : join a ++ slash :: (y ++ [z]) = (join a ++ slash :: y) ++ [z] := by simp
      simp only [List.concat_eq_append] at hb
      rw [h3] at hb
      have := (List.append_inj' hb rfl).2
      simp at this
      apply hx.2.2.2
      rw [hz, this]; simp

/-- The path to which the mux redirects is clean. -/
theorem clean_clean (p : Bytes) : cleanPath (cleanPath p) = cleanPath p := by
  have hp : ∀ e ∈ walk [] (parts p), Plain e := walk_plain _ _ (elems_noSlash p) (by simp)
  have key : ∀ es : List Bytes, (∀ e ∈ es, Plain e) → es ≠ [] → ∀ t : Bool, cleanPath (join es ++ (if t then [slash] else [])) = join es ++ (if t then [slash] else []) := by
    intro es he hne t
    have hw : walk [] (parts (join es ++ (if t then [slash] else []))) = es := by
      cases t with
      | false =>
        simp only [Bool.false_eq_true, if_false, List.append_nil, parts_join es he, walk, true_or, if_true]
        simpa using walk_id es [] he
      | true =>
        have := elems_append isSlash (c := slash) rfl (join es) []
        simp only [if_true]
        rw [parts, this, show elems isSlash (join es) = [] :: es from parts_join es he, walk_append]
        simp only [walk, true_or, if_true, elems]
        simpa using walk_id es [] he
    have hl : (join es ++ (if t then [slash] else [])).getLast? = some slash ↔ t = true := by
      cases t with
      | false => simpa using join_last he hne
      | true => simp
    unfold cleanPath
    rw [show elems isSlash (join es ++ (if t = true then [slash] else [])) = parts (join es ++ (if t = true then [slash] else [])) from rfl, hw]
    simp only [hne, if_false]
    cases t with
    | false =>
      have : ¬ (join es ++ (if false = true then [slash] else [])).getLast? = some slash := by rw [hl]; simp
      rw [if_neg this]; simp [join]
    | true =>
      rw [if_pos (hl.2 rfl)]; simp [join]
  by_cases h : walk [] (parts p) = []
  · have e : cleanPath p = [slash] := by simp [cleanPath, h]
    rw [e]; decide +kernel
  · have e : cleanPath p = join (walk [] (parts p)) ++ (if decide (p.getLast? = some slash) = true then [slash] else []) := by
      simp [cleanPath, h, join]
    rw [e]; exact key _ hp h _

theorem clean_no_up (p : Bytes) : dotDot ∉ parts (cleanPath p) := by
  intro hin
  have hp : ∀ e ∈ walk [] (parts p), Plain e := walk_plain _ _ (elems_noSlash p) (by simp)
  by_cases h : walk [] (parts p) = []
  · have e : cleanPath p = [slash] := by simp [cleanPath, h]
    rw [e] at hin; revert hin; decide +kernel
  · have e : cleanPath p = join (walk [] (parts p)) ++ (if p.getLast? = some slash then [slash] else []) := by simp [cleanPath, h, join]
    have : ∀ x ∈ parts (cleanPath p), x = [] ∨ x ∈ walk [] (parts p) := by
      intro x hx
      rw [e] at hx
      split at hx
      · have h2 := elems_append isSlash (c := slash) rfl (join (walk [] (parts p))) []
        rw [parts, h2, show elems isSlash (join (walk [] (parts p))) = _ from parts_join _ hp] at hx
        simp [elems] at hx
        rcases hx with h | h | h
        · exact .inl h
        · exact .inr h
        · exact .inl h
      · rw [List.append_nil, parts_join _ hp] at hx
        simpa using hx
    rcases this _ hin with h | h
    · cases h
    · exact (hp _ h).2.2.1 rfl

/-- A client which follows a redirection isn't redirected to where it already is, and gets there. -/
theorem redirects {origin : Bytes} {ss : List Static} {r : Request} {p : Bytes} (hm : r.method ≠ str "CONNECT") (h : (serve origin ss r).reply = .redirect p) :
    p ≠ r.path ∧ cleanPath p = p ∧ ∀ q, (serve origin ss { r with path := p }).reply = .redirect q → q = p ++ [slash] := by
  have hred : ∀ q, (match match_ ss r.path with | none => (⟨.api, none⟩ : Response) | some s => serveStatic origin s r).reply ≠ .redirect q := by
    intro q hq
    split at hq
    · cases hq
    · simp only [serveStatic] at hq
      split at hq
      · cases hq
      · split at hq
        · cases hq
        · split at hq
          · cases hq
          · simp only [serveFile] at hq
            split at hq <;> cases hq
  have tail : ∀ p, cleanPath p = p → ∀ q, (serve origin ss { r with path := p }).reply = .redirect q → q = p ++ [slash] := by
    intro p hc q hq
    have hred2 : ∀ q, (match match_ ss p with | none => (⟨.api, none⟩ : Response) | some s => serveStatic origin s { r with path := p }).reply ≠ .redirect q := by
      intro q hq
      split at hq
      · cases hq
      · simp only [serveStatic] at hq
        split at hq
        · cases hq
        · split at hq
          · cases hq
          · split at hq
            · cases hq
            · simp only [serveFile] at hq
              split at hq <;> cases hq
    simp only [serve, if_neg hm, hc] at hq
    split at hq
    · cases hq; rfl
    · rename_i h1 h2
      simp only [ne_eq, not_true_eq_false, if_false] at hq
      exact absurd hq (hred2 q)
  simp only [serve, if_neg hm] at h
  split at h
  · rename_i hw
    cases h
    have hc : cleanPath (cleanPath r.path ++ [slash]) = cleanPath r.path ++ [slash] := by
      have hp : ∀ e ∈ walk [] (parts r.path), Plain e := walk_plain _ _ (elems_noSlash _) (by simp)
      have hne : endsSlash (cleanPath r.path) = false := by
        cases hh : endsSlash (cleanPath r.path)
        · rfl
        · simp [wantsSlash, hh] at hw
      by_cases h : walk [] (parts r.path) = []
      · have e : cleanPath r.path = [slash] := by simp [cleanPath, h]
        rw [e] at hne; cases hne
      · have e : cleanPath r.path = join (walk [] (parts r.path)) := by
          have : cleanPath r.path = join (walk [] (parts r.path)) ++ (if r.path.getLast? = some slash then [slash] else []) := by simp [cleanPath, h, join]
          rw [this] at hne ⊢
          split
          · rename_i hx; rw [if_pos hx] at hne; simp [endsSlash] at hne
          · simp
        have h2 : cleanPath (join (walk [] (parts r.path)) ++ [slash]) = cleanPath (cleanPath (join (walk [] (parts r.path)) ++ [slash])) := (clean_clean _).symm
        rw [e]
        have hw2 : walk [] (parts (join (walk [] (parts r.path)) ++ [slash])) = walk [] (parts r.path) := by
          have h2 := elems_append isSlash (c := slash) rfl (join (walk [] (parts r.path))) []
          rw [show parts (join (walk [] (parts r.path)) ++ [slash]) = _ from h2, show elems isSlash (join (walk [] (parts r.path))) = _ from parts_join _ hp, walk_append]
          simp only [walk, true_or, if_true, elems]
          simpa using walk_id _ [] hp
        unfold cleanPath
        rw [show elems isSlash (join (walk [] (parts r.path)) ++ [slash]) = parts (join (walk [] (parts r.path)) ++ [slash]) from rfl, hw2]
        simp [h, join]
    refine ⟨?_, hc, tail _ hc⟩
    intro e
    have h1 : cleanPath r.path = r.path := by
      have := hc; rw [e] at this; exact this
    rw [h1] at e
    have := congrArg List.length e
    simp at this
  · split at h
    · rename_i hne
      cases h
      exact ⟨hne, clean_clean _, tail _ (clean_clean _)⟩
    · exact absurd h (hred p)

/-! ## Startup -/

theorem verifyOrigins_ok {env : Env} : ∀ (os : List Bytes) (n : Nat), verifyOrigins env n os = none →
    ∀ o ∈ os, o = [] ∨ o = str "null" ∨ ∃ h k ips, env.hostname o = some h ∧ env.lookup k h = some ips ∧ ∀ ip ∈ ips, ip.2 = true
  | [], _, _, _, hm => by cases hm
  | o :: os, n, h, x, hm => by
    unfold verifyOrigins at h
    split at h
    · split at h
      · cases h
      · rename_i host hh
        split at h
        · cases h
        · rename_i hv
          rcases List.mem_cons.1 hm with rfl | hm
          · right; right
            unfold verifyLoopbackHost at hv
            split at hv
            · cases hv
            · rename_i ips hl
              split at hv
              · rename_i ha
                exact ⟨host, n, ips, hh, hl, by simpa using ha⟩
              · cases hv
          · exact verifyOrigins_ok os _ h x hm
    · rename_i hn
      rcases List.mem_cons.1 hm with rfl | hm
      · by_cases h1 : x = []
        · exact .inl h1
        · by_cases h2 : x = str "null"
          · exact .inr (.inl h2)
          · exact absurd ⟨h1, h2⟩ hn
      · exact verifyOrigins_ok os _ h x hm

/-- The daemon serves HTTP, which gives its user's rights to anyone, only at an address which is looked up, when it starts, to be local; the origins which it trusts are local, too; the
static files are configured consistently. -/
theorem started_local_partial {env : Env} {c : Config} {origin : Bytes} (h : start env c = .on origin) :
    (∃ host port ips, env.splitHostPort c.addr = some (host, port) ∧ host ≠ [] ∧ env.lookup 0 host = some ips ∧ (∀ ip ∈ ips, ip.2 = true) ∧ origin = ownOrigin c host port) ∧
    c.origins ≠ [] ∧
    (∀ o ∈ c.origins, o = [] ∨ o = str "null" ∨ ∃ h k ips, env.hostname o = some h ∧ env.lookup k h = some ips ∧ ∀ ip ∈ ips, ip.2 = true) ∧
    register c.statics [] = none ∧ (∀ s ∈ c.statics, GoodStatic s ∧ s.uri ≠ [slash]) ∧ (c.statics.map (·.uri)).Nodup := by
  unfold start at h
  split at h
  · cases h
  · split at h
    · cases h
    · rename_i host port hs
      split at h
      · cases h
      · rename_i hh
        split at h
        · cases h
        · rename_i hv
          split at h
          · cases h
          · rename_i ho
            split at h
            · cases h
            · rename_i hvo
              split at h
              · cases h
              · rename_i hr
                cases h
                obtain ⟨r1, r2, _⟩ := register_ok _ _ hr
                refine ⟨⟨host, port, ?_⟩, ho, verifyOrigins_ok _ _ hvo, hr, fun s hs => ⟨check_good (r1 s hs).1, (r1 s hs).2.2⟩, r2⟩
                unfold verifyLoopbackHost at hv
                split at hv
                · cases hv
                · rename_i ips hl
                  split at hv
                  · rename_i ha; exact ⟨ips, hs, hh, hl, by simpa using ha, rfl⟩
                  · cases hv

/-! ## Examples -/

def exStatics : List Static := [⟨str "/app/", str "/srv/app/"⟩, ⟨str "/app/doc/", str "/srv/doc/"⟩, ⟨str "/favicon.ico", str "/srv/icon"⟩]

def exEnv : Env where
  splitHostPort a := if a = str "localhost:8080" then some (str "localhost", str "8080") else none
  hostname o := if o = str "http://localhost:8080" then some (str "localhost") else if o = str "http://example.com" then some (str "example.com") else none
  lookup n h := if h = str "localhost" then (if n < 9 then some [(str "127.0.0.1", true), (str "::1", true)] else some [(str "10.0.0.1", false)])
    else if h = str "example.com" then some [(str "127.0.0.1", true), (str "93.184.216.34", false)] else none

def exConfig : Config := ⟨str "localhost:8080", [], [[], str "http://localhost:8080"], exStatics⟩

theorem ex_started : start exEnv exConfig = .on (str "http://localhost:8080") := by decide +kernel

theorem ex_foreign_origin : start exEnv { exConfig with origins := [str "http://example.com"] } = .error "hostname resolves to non-loopback IP address" := by decide +kernel

theorem ex_root : start exEnv { exConfig with statics := ⟨str "/", str "/srv/"⟩ :: exStatics } = .error "http: multiple registrations" := by decide +kernel

/-- Refuted: the address to listen at is looked up again, and needn't be local then. -/
theorem listening_refuted : ∃ (env : Env) (c : Config) (o host port : Bytes) (n : Nat), start env c = .on o ∧ env.splitHostPort c.addr = some (host, port) ∧
    env.lookup n host = some [(str "10.0.0.1", false)] :=
  ⟨exEnv, exConfig, _, str "localhost", str "8080", 9, ex_started, by decide +kernel, by decide +kernel⟩

theorem ex_requests :
    serve (str "http://localhost:8080") exStatics ⟨str "GET", str "/app/x/y.js", []⟩ = ⟨.file (str "/srv/app/x/y.js"), none⟩ ∧
    serve (str "http://localhost:8080") exStatics ⟨str "GET", str "/app/", str "http://localhost:8080"⟩ = ⟨.file (str "/srv/app/index.html"), some (str "http://localhost:8080")⟩ ∧
    serve (str "http://localhost:8080") exStatics ⟨str "GET", str "/app/doc/a", []⟩ = ⟨.file (str "/srv/doc/a"), none⟩ ∧
    serve (str "http://localhost:8080") exStatics ⟨str "GET", str "/app", []⟩ = ⟨.redirect (str "/app/"), none⟩ ∧
    serve (str "http://localhost:8080") exStatics ⟨str "GET", str "/app/../../etc/passwd", []⟩ = ⟨.redirect (str "/etc/passwd"), none⟩ ∧
    serve (str "http://localhost:8080") exStatics ⟨str "GET", str "/app/..\\x", []⟩ = ⟨.badRequest, none⟩ ∧
    serve (str "http://localhost:8080") exStatics ⟨str "CONNECT", str "/app/../x", []⟩ = ⟨.methodNotAllowed, none⟩ ∧
    serve (str "http://localhost:8080") exStatics ⟨str "GET", str "/app/x", str "http://example.com"⟩ = ⟨.forbidden, none⟩ ∧
    serve (str "http://localhost:8080") exStatics ⟨str "POST", str "/gate-0/instance/", []⟩ = ⟨.api, none⟩ := by decide +kernel

theorem ex_registered : register exStatics [] = none := by decide +kernel

end Gate.DaemonWeb
