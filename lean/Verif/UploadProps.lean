import Verif.Upload
/-
C111: uploading and downloading modules. Model: Upload.lean.
-/
namespace Gate.Upload
open Gate.Auth (str)
open Gate.Respond (Err Fail)

/-! ### Hexadecimal -/

theorem hex_digit (n : Nat) (h : n < 16) : Restart.hex (digit n) = some n := by
  have : ∀ m : Fin 16, Restart.hex (digit m.val) = some m.val := by decide
  exact this ⟨n, h⟩

theorem decode_encode (d : Bytes) : hexDecode (hexEncode d) = some d := by
  induction d with
  | nil => rfl
  | cons b r ih =>
    have hb := b.toNat_lt
    simp only [hexEncode, hexDecode, hex_digit _ (show b.toNat / 16 < 16 by omega), hex_digit _ (show b.toNat % 16 < 16 by omega), ih]
    have : b.toNat / 16 * 16 + b.toNat % 16 = b.toNat := by omega
    rw [this, UInt8.ofNat_toNat]

theorem encode_inj (a b : Bytes) (h : hexEncode a = hexEncode b) : a = b := by
  have := decode_encode a
  rw [h, decode_encode] at this
  exact (Option.some.inj this).symm

theorem validateHash_none (hash digest : Bytes) : validateHash hash digest = none ↔ hexDecode hash = some digest := by
  unfold validateHash
  cases hexDecode hash with
  | none => simp
  | some d => simp only [Option.some.injEq]; split <;> simp_all

/-! ### Specification -/

/-- A program which was made of a module with this content: it has the content's hash as its id, and the content followed by zeros as its stored module. -/
def MadeOf (E : Env) (p : Prog) (c : Bytes) : Prop :=
  E.valid c = true ∧ p.id = hexEncode (E.H c) ∧ c.length ≤ p.size ∧ p.stored = c ++ List.replicate (p.size - c.length) 0 ∧ p.text = E.textSize c

/-- The requests of a history which started. -/
def uploadsOf : List Op → List Upload
  | [] => []
  | .start _ _ _ _ _ up _ :: r => up :: uploadsOf r
  | _ :: r => uploadsOf r

/-- Content has the declared length. -/
def Exact (up : Upload) : Prop := up.length = (up.content.length : Int)

/-- Invariant: `P c n` holds of the content and the declared length of everything which was accepted. -/
structure Ok (E : Env) (P : Bytes → Nat → Prop) (s : St) : Prop where
  programs : ∀ id p, s.programs id = some p → p.id = id ∧ ∃ c, MadeOf E p c ∧ P c p.size
  pending : ∀ q ∈ s.pending, q.ret = q.prog.id ∧ q.ret = hexEncode (E.H q.up.content) ∧ (∃ c, MadeOf E q.prog c ∧ P c q.prog.size)

theorem build_ok (E : Env) (pol : Policy) (up : Upload) (p : Prog) (h : build E pol up = .ok p) :
    MadeOf E p up.content ∧ p.size = up.length.toNat ∧ up.content.length ≤ up.length.toNat ∧ p.text ≤ pol.maxText ∧ up.fails = false ∧ (up.hash ≠ [] → hexDecode up.hash = some (E.H up.content)) := by
  unfold build at h
  split at h
  · rename_i hc
    obtain ⟨h1, h2, h3, h4⟩ := hc
    split at h
    · cases h
    · rename_i hv
      cases h
      refine ⟨⟨h3, rfl, h2, rfl, rfl⟩, rfl, h2, h4, h1, ?_⟩
      intro hh
      rw [if_neg hh] at hv
      exact (validateHash_none _ _).mp hv
  · cases h

theorem known_ok (E : Env) (pol : Policy) (s : St) (up : Upload) (p : Prog) (h : known E pol s up = some (.ok p)) :
    s.programs up.hash = some p ∧ up.length = (p.size : Int) ∧ hexDecode up.hash = some (E.H up.content) ∧ p.text ≤ pol.maxText ∧ up.fails = false := by
  unfold known at h
  split at h
  · cases h
  · rename_i q hq
    split at h
    · cases h
    · rename_i hl
      split at h
      · cases h
      · rename_i hf
        split at h
        · cases h
        · rename_i hv
          split at h
          · cases h
          · rename_i ht
            cases h
            exact ⟨hq, by omega, (validateHash_none _ _).mp hv, by omega, by simpa using hf⟩

/-- What a request has to satisfy to pass the checks. -/
theorem check_ok (E : Env) (pol : Policy) (s : St) (src : Bool) (up : Upload) (p : Prog) (ret : Bytes) (h : check E pol s src up = .ok (p, ret)) :
    (src = false → up.length ≤ pol.maxModule) ∧ p.text ≤ pol.maxText ∧ up.fails = false ∧
    ((s.programs up.hash = some p ∧ up.length = (p.size : Int) ∧ ret = up.hash ∧ hexDecode up.hash = some (E.H up.content)) ∨
     (MadeOf E p up.content ∧ p.size = up.length.toNat ∧ up.content.length ≤ up.length.toNat ∧ ret = p.id ∧ (src = false → up.hash ≠ [] → hexDecode up.hash = some (E.H up.content)))) := by
  unfold check at h
  split at h
  · cases h
  · rename_i hm
    have hmax : src = false → up.length ≤ pol.maxModule := fun hs => by
      apply Classical.byContradiction; intro hc; exact hm ⟨hs, by omega⟩
    split at h
    · rename_i hs
      split at h
      · cases h
      · rename_i q hq
        cases h
        obtain ⟨h1, h2, h3, h4, h5⟩ := known_ok E pol s up _ hq
        exact ⟨hmax, h4, h5, .inl ⟨h1, h2, rfl, h3⟩⟩
      · rename_i hn
        cases hb : build E pol up with
        | error e => rw [hb] at h; cases h
        | ok q =>
          rw [hb] at h
          simp only [Except.map, Except.ok.injEq, Prod.mk.injEq] at h
          obtain ⟨rfl, rfl⟩ := h
          obtain ⟨h1, h2, h3, h4, h5, h6⟩ := build_ok E pol up _ hb
          exact ⟨hmax, h4, h5, .inr ⟨h1, h2, h3, rfl, fun _ => h6⟩⟩
    · rename_i hs
      cases hb : build E pol { up with hash := [] } with
      | error e => rw [hb] at h; cases h
      | ok q =>
        rw [hb] at h
        simp only [Except.map, Except.ok.injEq, Prod.mk.injEq] at h
        obtain ⟨rfl, rfl⟩ := h
        obtain ⟨h1, h2, h3, h4, h5, h6⟩ := build_ok E pol _ _ hb
        exact ⟨hmax, h4, h5, .inr ⟨h1, h2, h3, rfl, fun a b => absurd ⟨a, b⟩ hs⟩⟩

theorem start_ok (E : Env) (s : St) (pri : Option Nat) (pin inst src : Bool) (pol : Policy) (up : Upload) (extra : Option Err) (q : Pend) (h : start E s pri pin inst src pol up extra = .ok q) :
    ∃ p ret, check E pol s src up = .ok (p, ret) ∧ q = ⟨pri, pin, inst, p, ret, up⟩ ∧ extra = none ∧ (pin = true → pri ≠ none) := by
  unfold start at h
  split at h
  · cases h
  · rename_i p ret hc
    split at h
    · cases h
    · split at h
      · cases h
      · rename_i hp
        cases h
        exact ⟨p, ret, hc, rfl, rfl, fun a b => hp ⟨a, b⟩⟩

theorem ok_init (E : Env) (P : Bytes → Nat → Prop) : Ok E P {} := ⟨by intro id p h; simp at h, by intro q h; simp at h⟩

theorem merge_some (s : St) (p : Prog) (id : Bytes) (r : Prog) (h : merge s p id = some r) : s.programs id = some r ∨ (r = p ∧ id = p.id ∧ s.programs id = none) := by
  unfold merge at h
  split at h
  · rename_i e
    subst e
    split at h
    · rename_i q hq; left; rw [hq]; exact h
    · rename_i hq; right; exact ⟨(Option.some.inj h).symm, rfl, hq⟩
  · exact .inl h

theorem step_ok (E : Env) (P : Bytes → Nat → Prop) (s : St) (h : Ok E P s) (op : Op)
    (hop : ∀ up ∈ uploadsOf [op], up.content.length ≤ up.length.toNat → P up.content up.length.toNat) : Ok E P (step E s op) := by
  cases op with
  | start pri pin inst src pol up extra =>
    simp only [step]
    cases hs : start E s pri pin inst src pol up extra with
    | error e => exact h
    | ok q =>
      obtain ⟨p, ret, hc, rfl, _, _⟩ := start_ok E s pri pin inst src pol up extra q hs
      refine ⟨h.programs, ?_⟩
      intro q hq
      rcases List.mem_append.mp hq with hq | hq
      · exact h.pending q hq
      · rw [List.mem_singleton] at hq; subst hq
        rcases (check_ok E pol s src up p ret hc).2.2.2 with ⟨a, b, rfl, d⟩ | ⟨a, b, c, rfl, d⟩
        · obtain ⟨e1, c, e2, e3⟩ := h.programs _ _ a
          refine ⟨e1.symm, ?_, c, e2, e3⟩
          show up.hash = _
          rw [← e1, e2.2.1] at d ⊢
          rw [decode_encode] at d
          rw [Option.some.inj d]
        · refine ⟨rfl, a.2.1, up.content, a, ?_⟩
          show P up.content p.size
          rw [b]
          exact hop up (by simp [uploadsOf]) c
  | finish i late =>
    simp only [step]
    cases hq : s.pending[i]? with
    | none => exact h
    | some q =>
      have hqm := List.mem_of_getElem? hq
      have key : Ok E P (register { s with pending := s.pending.eraseIdx i } q) := by
        refine ⟨?_, ?_⟩
        · intro id p hp
          rcases merge_some _ _ _ _ hp with hp | ⟨rfl, rfl, _⟩
          · exact h.programs id p hp
          · exact ⟨rfl, (h.pending q hqm).2.2⟩
        · intro q' hq'
          exact h.pending q' ((List.eraseIdx_sublist s.pending i).subset hq')
      show Ok E P (if _ then _ else _)
      split
      · exact ⟨key.programs, key.pending⟩
      · exact key
  | pin a id => simp only [step]; split; exact ⟨h.programs, h.pending⟩; exact h
  | unpin a id => exact ⟨h.programs, h.pending⟩
  | ends a id => exact ⟨h.programs, h.pending⟩

theorem run_ok (E : Env) (P : Bytes → Nat → Prop) (s : St) (h : Ok E P s) (ops : List Op)
    (hop : ∀ up ∈ uploadsOf ops, up.content.length ≤ up.length.toNat → P up.content up.length.toNat) : Ok E P (run E s ops) := by
  induction ops generalizing s with
  | nil => exact h
  | cons op r ih =>
    have h1 : uploadsOf (op :: r) = uploadsOf [op] ++ uploadsOf r := by cases op <;> rfl
    rw [h1] at hop
    exact ih _ (step_ok E P s h op (fun up hu => hop up (List.mem_append_left _ hu))) (fun up hu => hop up (List.mem_append_right _ hu))

/-! ### Positive properties -/

/-- C111: whatever happened before and concurrently, when a request is accepted: its content was received completely, the module's hash (if one was declared) is the hash of the content,
the id which is returned is the content's hash, and the size limits were respected. -/
theorem accepted (E : Env) (ops : List Op) (pri : Option Nat) (pin inst src : Bool) (pol : Policy) (up : Upload) (extra : Option Err) (q : Pend)
    (h : start E (run E {} ops) pri pin inst src pol up extra = .ok q) :
    q.ret = hexEncode (E.H up.content) ∧ q.ret = q.prog.id ∧ up.fails = false ∧ q.prog.text ≤ pol.maxText ∧
    (src = false → up.length ≤ pol.maxModule ∧ (up.hash ≠ [] → hexDecode up.hash = some (E.H up.content))) := by
  have hi := run_ok E (fun _ _ => True) {} (ok_init E _) ops (fun _ _ _ => trivial)
  have hi' := step_ok E (fun _ _ => True) _ hi (.start pri pin inst src pol up extra) (fun _ _ _ => trivial)
  simp only [step, h] at hi'
  have hq := hi'.pending q (by simp)
  obtain ⟨p, ret, hc, rfl, _, _⟩ := start_ok E _ pri pin inst src pol up extra q h
  obtain ⟨c1, c2, c3, c4⟩ := check_ok E pol _ src up p ret hc
  refine ⟨hq.2.1, hq.1, c3, c2, fun hs => ⟨c1 hs, fun hh => ?_⟩⟩
  rcases c4 with ⟨_, _, _, d⟩ | ⟨_, _, _, _, d⟩
  · exact d
  · exact d hs hh

/-- C111: a request which fails its checks doesn't change anything. -/
theorem rejected (E : Env) (s : St) (pri : Option Nat) (pin inst src : Bool) (pol : Policy) (up : Upload) (extra : Option Err) (e : Err)
    (h : start E s pri pin inst src pol up extra = .error e) : step E s (.start pri pin inst src pol up extra) = s := by
  simp only [step, h]

/-- C111: a content with a hash other than the declared one is rejected, by the error which says so (or an earlier one), and an account of the wrong content is never made. -/
theorem wrong_hash (E : Env) (s : St) (pri : Option Nat) (pin inst : Bool) (pol : Policy) (up : Upload) (extra : Option Err)
    (hh : up.hash ≠ []) (h : hexDecode up.hash ≠ some (E.H up.content)) : ∃ e, start E s pri pin inst false pol up extra = .error e := by
  cases hs : start E s pri pin inst false pol up extra with
  | error e => exact ⟨e, rfl⟩
  | ok q =>
    obtain ⟨p, ret, hc, rfl, _, _⟩ := start_ok E _ pri pin inst false pol up extra q hs
    rcases (check_ok E pol _ false up p ret hc).2.2.2 with ⟨_, _, _, d⟩ | ⟨_, _, _, _, d⟩
    · exact absurd d h
    · exact absurd (d rfl hh) h

/-- C111: every program of the server, after any history with any interleaving, has as its id the hash of a valid module, of which its stored module is a zero-padded copy. -/
theorem programs_sound (E : Env) (ops : List Op) (id : Bytes) (p : Prog) (h : (run E {} ops).programs id = some p) :
    ∃ c, E.valid c = true ∧ id = hexEncode (E.H c) ∧ p.stored = c ++ List.replicate (p.size - c.length) 0 ∧ p.stored.length = p.size ∧ p.text = E.textSize c := by
  obtain ⟨h1, c, h2, _⟩ := (run_ok E (fun _ _ => True) {} (ok_init E _) ops (fun _ _ _ => trivial)).programs id p h
  exact ⟨c, h2.1, h1 ▸ h2.2.1, h2.2.2.2.1, by rw [h2.2.2.2.1, List.length_append, List.length_replicate]; have := h2.2.2.1; omega, h2.2.2.2.2⟩

/-- C111: if everybody declares the length of the content, then every download is a valid module with the requested hash, and has the length which was announced. -/
theorem download_exact_partial (E : Env) (ops : List Op) (hops : ∀ up ∈ uploadsOf ops, Exact up) (a : Nat) (id bytes : Bytes) (n : Nat)
    (h : download (run E {} ops) a id = some (bytes, n)) : hexEncode (E.H bytes) = id ∧ E.valid bytes = true ∧ bytes.length = n := by
  have hi := run_ok E (fun c n => n = c.length) {} (ok_init E _) ops (fun up hu _ => by have := hops up hu; unfold Exact at this; omega)
  unfold download at h
  split at h
  · cases hp : (run E {} ops).programs id with
    | none => rw [hp] at h; cases h
    | some p =>
      rw [hp] at h
      simp only [Option.map_some, Option.some.injEq, Prod.mk.injEq] at h
      obtain ⟨rfl, rfl⟩ := h
      obtain ⟨h1, c, h2, h3⟩ := hi.programs id p hp
      have : p.stored = c := by rw [h2.2.2.2.1, h3]; simp
      rw [this]
      exact ⟨h1 ▸ h2.2.1.symm, h2.1, h3.symm⟩
  · cases h

/-- C111: if everybody declares the length of the content and there are no collisions, then an uploaded and pinned module can be downloaded as it was, after any history. -/
theorem roundtrip_partial (E : Env) (hinj : ∀ c d, E.valid c = true → E.valid d = true → E.H c = E.H d → c = d) (ops : List Op) (hops : ∀ up ∈ uploadsOf ops, Exact up)
    (c : Bytes) (hv : E.valid c = true) (a : Nat) (bytes : Bytes) (n : Nat) (h : download (run E {} ops) a (hexEncode (E.H c)) = some (bytes, n)) : bytes = c ∧ n = c.length := by
  obtain ⟨h1, h2, h3⟩ := download_exact_partial E ops hops a _ bytes n h
  have := hinj bytes c h2 hv (encode_inj _ _ h1)
  subst this
  exact ⟨rfl, h3.symm⟩

/-- A registered program stays, whatever is requested later: the server never removes a program. -/
theorem step_keeps (E : Env) (s : St) (op : Op) (id : Bytes) (p : Prog) (h : s.programs id = some p) : (step E s op).programs id = some p := by
  cases op with
  | start pri pin inst src pol up extra => simp only [step]; split <;> exact h
  | finish i late =>
    simp only [step]
    cases hq : s.pending[i]? with
    | none => exact h
    | some q =>
      have key : (register { s with pending := s.pending.eraseIdx i } q).programs id = some p := by
        show merge _ _ _ = _
        unfold merge
        split
        · rename_i e; subst e
          show (match s.programs q.prog.id with | some q => some q | none => some q.prog) = _
          rw [h]
        · exact h
      show St.programs (if _ then _ else _) id = _
      split <;> exact key
  | pin a id => simp only [step]; split <;> exact h
  | unpin a id => exact h
  | ends a id => exact h

theorem run_keeps (E : Env) (s : St) (ops : List Op) (id : Bytes) (p : Prog) (h : s.programs id = some p) : (run E s ops).programs id = some p := by
  induction ops generalizing s with
  | nil => exact h
  | cons op r ih => exact ih _ (step_keeps E s op id p h)

/-- C111, refuted (a program without users goes away): unpinning a module and ending its instances doesn't remove its program; it stays until the server shuts down. -/
theorem never_removed_refuted (E : Env) (s : St) (id : Bytes) (p : Prog) (h : s.programs id = some p) (ops : List Op) : (run E s ops).programs id = some p :=
  run_keeps E s ops id p h

/-- C111: if everybody declares the length of the content and there are no collisions, then uploading a known module again succeeds for everyone (within the limits). -/
theorem again_partial (E : Env) (hinj : ∀ c d, E.valid c = true → E.valid d = true → E.H c = E.H d → c = d) (ops : List Op) (hops : ∀ up ∈ uploadsOf ops, Exact up)
    (c : Bytes) (hv : E.valid c = true) (pri : Option Nat) (pin inst : Bool) (pol : Policy) (h1 : (c.length : Int) ≤ pol.maxModule) (h2 : E.textSize c ≤ pol.maxText) (hp : pin = true → pri ≠ none) :
    ∃ q, start E (run E {} ops) pri pin inst false pol { content := c, length := c.length, hash := hexEncode (E.H c) } none = .ok q ∧ q.ret = hexEncode (E.H c) := by
  have hi := run_ok E (fun c n => n = c.length) {} (ok_init E _) ops (fun up hu _ => by have := hops up hu; unfold Exact at this; omega)
  have hval : validateHash (hexEncode (E.H c)) (E.H c) = none := (validateHash_none _ _).mpr (decode_encode _)
  have hbuild : ∀ hash, hash = [] ∨ hash = hexEncode (E.H c) → build E pol { content := c, length := c.length, hash := hash } = .ok ⟨hexEncode (E.H c), c.length, c ++ List.replicate (c.length - c.length) 0, E.textSize c⟩ := by
    intro hash hh
    unfold build
    rw [if_pos ⟨rfl, by simp, hv, h2⟩]
    have : (if hash = [] then none else validateHash hash (E.H c)) = none := by
      split
      · rfl
      · rename_i hne; rcases hh with rfl | rfl
        · exact absurd rfl hne
        · exact hval
    simp only [this, Int.toNat_natCast]
  have hcheck : ∃ p, check E pol (run E {} ops) false { content := c, length := c.length, hash := hexEncode (E.H c) } = .ok (p, hexEncode (E.H c)) := by
    unfold check
    rw [if_neg (by simp only; omega)]
    split
    · unfold known
      cases hk : (run E {} ops).programs (hexEncode (E.H c)) with
      | none =>
        simp only
        rw [hbuild _ (.inr rfl)]
        exact ⟨_, rfl⟩
      | some p =>
        obtain ⟨e1, c', e2, e3⟩ := hi.programs _ _ hk
        have hcc : c' = c := hinj _ _ e2.1 hv (encode_inj _ _ (e2.2.1.symm.trans e1))
        subst hcc
        refine ⟨p, ?_⟩
        simp only
        rw [if_neg (by omega), if_neg (by simp), hval]
        simp only
        rw [if_neg (by rw [e2.2.2.2.2]; omega)]
    · rename_i hne
      have he : hexEncode (E.H c) = [] := by
        apply Classical.byContradiction; intro hc; exact hne ⟨rfl, hc⟩
      have := hbuild [] (.inl rfl)
      simp only at this ⊢
      rw [this]
      exact ⟨_, rfl⟩
  obtain ⟨p, hp'⟩ := hcheck
  refine ⟨⟨pri, pin, inst, p, hexEncode (E.H c), { content := c, length := c.length, hash := hexEncode (E.H c) }⟩, ?_, rfl⟩
  unfold start
  rw [hp']
  simp only
  rw [if_neg (fun ⟨a, b⟩ => hp a b)]

/-! ### Declared length -/

/-- Uploading a module with a declared length that is too long. -/
def padded (pri : Option Nat) (pin inst : Bool) (pol : Policy) (c : Bytes) (k : Nat) (hash : Bytes) : List Op :=
  [.start pri pin inst false pol { content := c, length := (c.length + k : Nat), hash := hash } none, .finish 0 none]

theorem padded_run (E : Env) (pri : Option Nat) (pin inst : Bool) (pol : Policy) (c : Bytes) (k : Nat) (hp : pin = true → pri ≠ none)
    (hv : E.valid c = true) (ht : E.textSize c ≤ pol.maxText) (hm : ((c.length + k : Nat) : Int) ≤ pol.maxModule) :
    (run E {} (padded pri pin inst pol c k (hexEncode (E.H c)))).programs (hexEncode (E.H c)) = some ⟨hexEncode (E.H c), c.length + k, c ++ List.replicate k 0, E.textSize c⟩ ∧
    (∀ a, pri = some a → pin = true → (a, hexEncode (E.H c)) ∈ (run E {} (padded pri pin inst pol c k (hexEncode (E.H c)))).pins) := by
  have hval : validateHash (hexEncode (E.H c)) (E.H c) = none := (validateHash_none _ _).mpr (decode_encode _)
  have hb : ∀ hash, hash = [] ∨ hash = hexEncode (E.H c) → build E pol { content := c, length := (c.length + k : Nat), hash := hash } = .ok ⟨hexEncode (E.H c), c.length + k, c ++ List.replicate k 0, E.textSize c⟩ := by
    intro hash hh
    unfold build
    rw [if_pos ⟨rfl, by simp only [Int.toNat_natCast]; omega, hv, ht⟩]
    have : (if hash = [] then none else validateHash hash (E.H c)) = none := by
      split
      · rfl
      · rename_i hne; rcases hh with rfl | rfl
        · exact absurd rfl hne
        · exact hval
    simp only [this, Int.toNat_natCast]
    have : c.length + k - c.length = k := by omega
    rw [this]
  have hs : start E {} pri pin inst false pol { content := c, length := (c.length + k : Nat), hash := hexEncode (E.H c) } none =
      .ok ⟨pri, pin, inst, ⟨hexEncode (E.H c), c.length + k, c ++ List.replicate k 0, E.textSize c⟩, hexEncode (E.H c), { content := c, length := (c.length + k : Nat), hash := hexEncode (E.H c) }⟩ := by
    have hc : check E pol {} false { content := c, length := (c.length + k : Nat), hash := hexEncode (E.H c) } =
        .ok (⟨hexEncode (E.H c), c.length + k, c ++ List.replicate k 0, E.textSize c⟩, hexEncode (E.H c)) := by
      unfold check
      rw [if_neg (by simp only; omega)]
      split
      · simp only [known]
        rw [hb _ (.inr rfl)]; rfl
      · have := hb [] (.inl rfl)
        simp only at this ⊢
        rw [this]; rfl
    unfold start
    rw [hc]
    simp only
    rw [if_neg (fun ⟨a, b⟩ => hp a b)]
  refine ⟨?_, ?_⟩
  · simp only [padded, run, List.foldl, step, hs, List.nil_append, List.getElem?_cons_zero, Option.isSome_none, Bool.false_eq_true, false_and, ↓reduceIte, register, merge]
  · intro a ha hpin
    subst ha hpin
    simp only [padded, run, List.foldl, step, hs, List.nil_append, List.getElem?_cons_zero, Option.isSome_none, Bool.false_eq_true, false_and, ↓reduceIte, register, newPins]
    exact List.mem_cons_self

/-- C111, refuted: the declared length isn't checked against the content. After anyone (an anonymous caller too) has uploaded a module with a declared length which is too long,
no one can upload the module with its hash and length any more, whatever happens in between: the server says that the module content is invalid. -/
theorem poisoned_refuted (E : Env) (pri : Option Nat) (pin inst : Bool) (pol : Policy) (c : Bytes) (k : Nat) (hk : 0 < k) (hp : pin = true → pri ≠ none)
    (hne : E.H c ≠ []) (hv : E.valid c = true) (ht : E.textSize c ≤ pol.maxText) (hm : ((c.length + k : Nat) : Int) ≤ pol.maxModule) (later : List Op)
    (pri' : Option Nat) (pin' inst' : Bool) (pol' : Policy) (hm' : (c.length : Int) ≤ pol'.maxModule) (extra : Option Err) :
    start E (run E (run E {} (padded pri pin inst pol c k (hexEncode (E.H c)))) later) pri' pin' inst' false pol' { content := c, length := c.length, hash := hexEncode (E.H c) } extra = .error sizeMismatch := by
  have h1 := (padded_run E pri pin inst pol c k hp hv ht hm).1
  have h2 := run_keeps E _ later _ _ h1
  have hne' : hexEncode (E.H c) ≠ [] := fun h => hne (encode_inj _ [] h)
  unfold start check known
  rw [if_neg (by simp only; omega), if_pos ⟨rfl, hne'⟩]
  simp only [h2]
  rw [if_pos (by omega)]

/-- C111, refuted: the account which uploaded it gets something else back when it downloads the module by its hash: trailing zeros are added. -/
theorem download_padded_refuted (E : Env) (a : Nat) (inst : Bool) (pol : Policy) (c : Bytes) (k : Nat) 
    (hv : E.valid c = true) (ht : E.textSize c ≤ pol.maxText) (hm : ((c.length + k : Nat) : Int) ≤ pol.maxModule) :
    download (run E {} (padded (some a) true inst pol c k (hexEncode (E.H c)))) a (hexEncode (E.H c)) = some (c ++ List.replicate k 0, c.length + k) := by
  obtain ⟨h1, h2⟩ := padded_run E (some a) true inst pol c k (by simp) hv ht hm
  unfold download
  rw [if_pos (h2 a rfl rfl), h1]; rfl

/-- C111: too short a declared length is always an error (a length which isn't positive, too). -/
theorem too_short (E : Env) (pol : Policy) (up : Upload) (h : up.length < up.content.length) (hne : up.content ≠ []) : ∃ e, build E pol up = .error e := by
  have := List.length_pos_iff.mpr hne
  unfold build
  rw [if_neg (by rintro ⟨_, h2, _⟩; omega)]
  exact ⟨_, rfl⟩

/-! ### Compressed content -/

/-- C111, refuted: a compressed upload of a new module is rejected whenever compression made it smaller. -/
theorem gzip_refuted (E : Env) (s : St) (pri : Option Nat) (pin inst : Bool) (pol : Policy) (decoded hash : Bytes) (n : Nat) (h : n < decoded.length) (extra : Option Err) :
    ∃ e, start E s pri pin inst false pol (gzipUpload decoded n hash) extra = .error e := by
  cases hs : start E s pri pin inst false pol (gzipUpload decoded n hash) extra with
  | error e => exact ⟨e, rfl⟩
  | ok q =>
    obtain ⟨p, ret, hc, rfl, _, _⟩ := start_ok E _ pri pin inst false pol _ extra q hs
    have := (check_ok E pol _ false _ p ret hc).2.2.1
    simp [gzipUpload, h] at this

/-- C111, refuted: and if it's accepted although its compressed size is larger, then it's stored with zeros after it, as in `poisoned_refuted`: content and declared length are the same upload. -/
theorem gzip_padded_refuted (decoded hash : Bytes) (n : Nat) (h : decoded.length < n) :
    gzipUpload decoded n hash = { content := decoded, length := (decoded.length + (n - decoded.length) : Nat), hash := hash } ∧ 0 < n - decoded.length := by
  unfold gzipUpload
  have h1 : decoded.take n = decoded := List.take_of_length_le (by omega)
  have h2 : decide (n < decoded.length) = false := decide_eq_false (by omega)
  have h3 : decoded.length + (n - decoded.length) = n := by omega
  rw [h1, h2, h3]
  exact ⟨rfl, by omega⟩

/-! ### Spelling of hashes -/

/-- C111, refuted: a hash may be declared with upper case digits. The upload succeeds, but the module can't be found by that hash: not by the same account, not after any history. -/
theorem upper_case_refuted (E : Env) (pol : Policy) (c hash : Bytes) (h : hexDecode hash = some (E.H c)) (hne : hash ≠ hexEncode (E.H c)) (hv : E.valid c = true) (ht : E.textSize c ≤ pol.maxText)
    (hm : (c.length : Int) ≤ pol.maxModule) (a : Nat) (ops : List Op) :
    (∃ q, start E (run E {} ops) (some a) true false false pol { content := c, length := c.length, hash := hash } none = .ok q) ∧ ∀ b, download (run E {} ops) b hash = none := by
  have hi := run_ok E (fun _ _ => True) {} (ok_init E _) ops (fun _ _ _ => trivial)
  have hnone : (run E {} ops).programs hash = none := by
    cases hp : (run E {} ops).programs hash with
    | none => rfl
    | some p =>
      obtain ⟨e1, c', e2, _⟩ := hi.programs _ _ hp
      exfalso
      rw [← e1, e2.2.1, decode_encode] at h
      rw [← Option.some.inj h] at hne
      exact hne (e1.symm.trans e2.2.1)
  refine ⟨?_, ?_⟩
  · have hval : validateHash hash (E.H c) = none := (validateHash_none _ _).mpr h
    have hb : ∀ x, x = [] ∨ x = hash → ∃ p, build E pol { content := c, length := c.length, hash := x } = .ok p := by
      intro x hx
      unfold build
      rw [if_pos ⟨rfl, by simp, hv, ht⟩]
      have : (if x = [] then none else validateHash x (E.H c)) = none := by
        split
        · rfl
        · rename_i hn; rcases hx with rfl | rfl
          · exact absurd rfl hn
          · exact hval
      simp only [this]
      exact ⟨_, rfl⟩
    have hc : ∃ r, check E pol (run E {} ops) false { content := c, length := c.length, hash := hash } = .ok r := by
      unfold check
      rw [if_neg (by simp only; omega)]
      split
      · simp only [known, hnone]
        obtain ⟨p, hp⟩ := hb hash (.inr rfl)
        rw [hp]; exact ⟨_, rfl⟩
      · obtain ⟨p, hp⟩ := hb [] (.inl rfl)
        simp only at hp ⊢
        rw [hp]; exact ⟨_, rfl⟩
    obtain ⟨⟨p, ret⟩, hc⟩ := hc
    unfold start
    rw [hc]
    simp only
    rw [if_neg (by simp)]
    exact ⟨_, rfl⟩
  · intro b
    unfold download
    split
    · rw [hnone]; rfl
    · rfl

/-- C111, refuted: a declared hash which isn't hexadecimal is reported as a failure of the server: the error of the new content's build has no type. -/
theorem bad_hash_500_refuted (E : Env) (pol : Policy) (s : St) (up : Upload) (identity : Bytes) (hs : s.programs up.hash = none) (hne : up.hash ≠ []) (h : hexDecode up.hash = none)
    (hf : up.fails = false) (hl : up.content.length ≤ up.length.toNat) (hv : E.valid up.content = true) (ht : E.textSize up.content ≤ pol.maxText) (hm : up.length ≤ pol.maxModule) :
    ∃ e, check E pol s false up = .error e ∧ (Respond.respond identity e).status = 500 := by
  refine ⟨.other (str "encoding/hex: invalid byte"), ?_, rfl⟩
  unfold check
  rw [if_neg (by omega), if_pos ⟨rfl, hne⟩]
  simp only [known, hs]
  unfold build
  rw [if_pos ⟨hf, hl, hv, ht⟩, if_neg hne]
  simp only [validateHash, h]
  rfl

/-! ### Concrete case -/

/-- A toy instance: the hash of a content is its first byte and its length. -/
def toy : Env := { H := fun c => c.take 1 ++ [UInt8.ofNat c.length], valid := fun c => c.head? == some 171, textSize := fun c => c.length, buildErr := fun _ => .badModule [] [] }

example : hexEncode (toy.H [171, 1, 2]) = str "ab03" := by decide +kernel
example : hexDecode (str "AB03") = some (toy.H [171, 1, 2]) ∧ str "AB03" ≠ hexEncode (toy.H [171, 1, 2]) := by decide +kernel
example : download (run toy {} [.start (some 7) true false false ⟨10, 10⟩ { content := [171, 1, 2], length := 3, hash := str "AB03" } none, .finish 0 none]) 7 (str "ab03") = some ([171, 1, 2], 3) := by decide +kernel
example : download (run toy {} (padded (some 7) true false ⟨10, 10⟩ [171, 1, 2] 4 (str "ab03"))) 7 (str "ab03") = some ([171, 1, 2, 0, 0, 0, 0], 7) := by decide +kernel

end Gate.Upload
