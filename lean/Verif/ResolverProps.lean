import Verif.Resolver
/-
C103: which imports a program may have. Proofs about Resolver.lean.
-/
namespace Gate.Resolver
open Gate.Auth (str)

/-! ### The size suffix -/

theorem digit_some (c : UInt8) (d : Nat) : digit c = some d ↔ 48 ≤ c.toNat ∧ c.toNat ≤ 57 ∧ d = c.toNat - 48 := by
  unfold digit
  split
  · rename_i h
    simp only [Option.some.injEq]
    constructor
    · rintro rfl; exact ⟨h.1, h.2, rfl⟩
    · rintro ⟨_, _, rfl⟩; rfl
  · rename_i h
    simp only [reduceCtorEq, false_iff]
    rintro ⟨h1, h2, _⟩
    exact h ⟨h1, h2⟩

theorem digit_isSome (c : UInt8) : (digit c).isSome = true ↔ 48 ≤ c.toNat ∧ c.toNat ≤ 57 := by
  unfold digit
  split <;> simp_all

theorem foldl_mono (s : Bytes) (n : Nat) : n ≤ s.foldl (fun n c => n * 10 + (c.toNat - 48)) n := by
  induction s generalizing n with
  | nil => simp
  | cons c s ih =>
    rw [List.foldl_cons]
    have := ih (n * 10 + (c.toNat - 48))
    omega

/-- The loop on digits. -/
theorem parseLoop_digits (s : Bytes) (n : Nat) (hs : ∀ c ∈ s, 48 ≤ c.toNat ∧ c.toNat ≤ 57) (hn : n < 2 ^ 32) :
    (s.foldl (fun n c => n * 10 + (c.toNat - 48)) n < 2 ^ 32 ∧ parseLoop n s = .val (s.foldl (fun n c => n * 10 + (c.toNat - 48)) n)) ∨
      (2 ^ 32 ≤ s.foldl (fun n c => n * 10 + (c.toNat - 48)) n ∧ parseLoop n s = .range) := by
  induction s generalizing n with
  | nil => exact .inl ⟨hn, rfl⟩
  | cons c s ih =>
    have hd : digit c = some (c.toNat - 48) := (digit_some c _).mpr ⟨(hs c (by simp)).1, (hs c (by simp)).2, rfl⟩
    rw [List.foldl_cons]
    simp only [parseLoop, hd]
    by_cases h : 2 ^ 32 ≤ n * 10 + (c.toNat - 48)
    · rw [if_pos h]
      have := foldl_mono s (n * 10 + (c.toNat - 48))
      exact .inr ⟨by omega, rfl⟩
    · rw [if_neg h]
      exact ih _ (fun x hx => hs x (by simp [hx])) (by omega)

/-- The loop on other strings. -/
theorem parseLoop_other (s : Bytes) (n : Nat) (hs : ¬ ∀ c ∈ s, 48 ≤ c.toNat ∧ c.toNat ≤ 57) : parseLoop n s = .syntax ∨ parseLoop n s = .range := by
  induction s generalizing n with
  | nil => simp at hs
  | cons c s ih =>
    simp only [parseLoop]
    cases hd : digit c with
    | none => left; rfl
    | some d =>
      simp only
      have h1 := (digit_some c d).mp hd
      split
      · right; rfl
      · refine ih _ fun h => hs ?_
        intro x hx
        rcases List.mem_cons.mp hx with rfl | hx
        · exact ⟨h1.1, h1.2.1⟩
        · exact h x hx

theorem allDigits_iff (s : Bytes) : allDigits s = true ↔ ∀ c ∈ s, 48 ≤ c.toNat ∧ c.toNat ≤ 57 := by
  simp only [allDigits, List.all_eq_true, digit_isSome]

/-- The size is accepted if and only if it's a decimal number without leading zeros, and at least the maximum packet size. There's no upper limit. -/
theorem sizeOk_iff (s : Bytes) : sizeOk s = true ↔ Decimal s ∧ 65536 ≤ decimal s := by
  have h0 : str "0" = [48] := by decide +kernel
  cases s with
  | nil => simp [sizeOk, h0, parseUint, Decimal]
  | cons c cs =>
    have hp : (str "0" <+: c :: cs) ↔ c = 48 := by
      rw [h0]
      constructor
      · intro h; obtain ⟨t, ht⟩ := h; simp at ht; exact ht.1.symm
      · rintro rfl; exact ⟨cs, rfl⟩
    unfold sizeOk
    by_cases hc : c = 48
    · rw [if_pos (hp.mpr hc)]
      simp [Decimal, hc]
    · rw [if_neg (fun h => hc (hp.mp h))]
      by_cases hd : ∀ x ∈ c :: cs, 48 ≤ x.toNat ∧ x.toNat ≤ 57
      · have hD : Decimal (c :: cs) := ⟨by simp, hd, by simpa using hc⟩
        have e : List.foldl (fun n (c : UInt8) => n * 10 + (c.toNat - 48)) 0 (c :: cs) = decimal (c :: cs) := rfl
        simp only [parseUint]
        rcases parseLoop_digits _ 0 hd (by decide) with ⟨h1, h2⟩ | ⟨h1, h2⟩
        · rw [h2, e]
          simp [hD]
        · rw [h2]
          rw [e] at h1
          simp only [(allDigits_iff _).mpr hd, true_iff]
          exact ⟨hD, by omega⟩
      · have hD : ¬ Decimal (c :: cs) := fun h => hd h.2.1
        have ha : allDigits (c :: cs) = false := by
          cases h : allDigits (c :: cs) with
          | false => rfl
          | true => exact absurd ((allDigits_iff _).mp h) hd
        simp only [parseUint]
        rcases parseLoop_other _ 0 hd with h | h <;> rw [h] <;> simp [hD, ha]

/-! ### Names -/

/-- What the names of an import mean: modules may be spelled out, or be prefixes of "env" functions' names. -/
inductive Denotes : Bytes → Bytes → Bytes → Bytes → Prop where
  | plain (m f) (h : m ≠ str "env") : Denotes m f m f
  | gate (f) : Denotes (str "env") (str "__gate_" ++ f) (str "gate") f
  | wasi (f) : Denotes (str "env") (str "__wasi_" ++ f) (str "wasi_snapshot_preview1") f

theorem cut_append (p s : Bytes) : cut p (p ++ s) = some s := by
  simp [cut]

theorem cut_some {p s r : Bytes} (h : cut p s = some r) : s = p ++ r := by
  unfold cut at h
  split at h
  · rename_i hp
    obtain ⟨t, rfl⟩ := hp
    simp at h
    rw [h]
  · cases h

theorem gate_wasi (f : Bytes) : cut (str "__gate_") (str "__wasi_" ++ f) = none := by
  have h1 : str "__gate_" = [95, 95, 103, 97, 116, 101, 95] := by decide +kernel
  have h2 : str "__wasi_" = [95, 95, 119, 97, 115, 105, 95] := by decide +kernel
  unfold cut
  rw [if_neg]
  rw [h1, h2]
  intro h
  obtain ⟨t, ht⟩ := h
  simp at ht

theorem env_denotes {m f M F : Bytes} (h : Denotes m f M F) : env m f = (M, F) := by
  cases h with
  | plain _ _ h => unfold env; rw [if_neg h]
  | gate f => unfold env; rw [if_pos rfl, cut_append]
  | wasi f => unfold env; rw [if_pos rfl, gate_wasi, cut_append]

/-- Otherwise it's an "env" function without any meaning. -/
theorem denotes_or (m f : Bytes) : (∃ M F, Denotes m f M F) ∨ (m = str "env" ∧ env m f = (m, f)) := by
  by_cases hm : m = str "env"
  · subst hm
    cases h1 : cut (str "__gate_") f with
    | some r => left; rw [cut_some h1]; exact ⟨_, _, .gate r⟩
    | none =>
      cases h2 : cut (str "__wasi_") f with
      | some r => left; rw [cut_some h2]; exact ⟨_, _, .wasi r⟩
      | none => right; refine ⟨rfl, ?_⟩; unfold env; rw [if_pos rfl, h1]; simp only; rw [h2]
  · exact .inl ⟨m, f, .plain m f hm⟩

theorem cutLast_some (c : UInt8) (s a b : Bytes) : cutLast c s = some (a, b) ↔ s = a ++ c :: b ∧ c ∉ b := by
  induction s generalizing a b with
  | nil => simp [cutLast]
  | cons x xs ih =>
    unfold cutLast
    cases h : cutLast c xs with
    | some p =>
      obtain ⟨a', b'⟩ := p
      have := (ih a' b').mp h
      simp only [Option.some.injEq, Prod.mk.injEq]
      constructor
      · rintro ⟨rfl, rfl⟩
        exact ⟨by rw [this.1]; rfl, this.2⟩
      · rintro ⟨h1, h2⟩
        cases a with
        | nil =>
          simp only [List.nil_append, List.cons.injEq] at h1
          obtain ⟨rfl, rfl⟩ := h1
          rw [this.1] at h2
          simp at h2
        | cons y a =>
          simp only [List.cons_append, List.cons.injEq] at h1
          obtain ⟨rfl, h1⟩ := h1
          have := (ih a b).mpr ⟨h1, h2⟩
          rw [h] at this
          simp at this
          exact ⟨by rw [this.1], this.2⟩
    | none =>
      simp only
      split
      · rename_i hx
        subst hx
        simp only [Option.some.injEq, Prod.mk.injEq]
        constructor
        · rintro ⟨rfl, rfl⟩
          refine ⟨rfl, fun hm => ?_⟩
          obtain ⟨l, r, hlr⟩ := List.append_of_mem hm
          -- the last one of them would have been found
          have : ∀ (xs : Bytes), x ∈ xs → cutLast x xs ≠ none := by
            intro xs
            induction xs with
            | nil => simp
            | cons y ys ih2 =>
              intro hm
              unfold cutLast
              cases hy : cutLast x ys with
              | some p => simp
              | none =>
                rcases List.mem_cons.mp hm with rfl | hm
                · simp
                · exact absurd hy (ih2 hm)
          exact this xs hm h
        · rintro ⟨h1, h2⟩
          cases a with
          | nil => simp at h1; exact ⟨rfl, h1⟩
          | cons y a =>
            simp only [List.cons_append, List.cons.injEq] at h1
            have := (ih a b).mpr ⟨h1.2, h2⟩
            rw [h] at this
            cases this
      · rename_i hx
        simp only [reduceCtorEq, false_iff]
        rintro ⟨h1, h2⟩
        cases a with
        | nil => simp at h1; exact hx h1.1
        | cons y a =>
          simp only [List.cons_append, List.cons.injEq] at h1
          have := (ih a b).mpr ⟨h1.2, h2⟩
          rw [h] at this
          cases this

theorem cutLast_none (c : UInt8) (s : Bytes) : cutLast c s = none ↔ c ∉ s := by
  constructor
  · intro h hm
    induction s with
    | nil => simp at hm
    | cons y ys ih =>
      unfold cutLast at h
      cases hy : cutLast c ys with
      | some p => rw [hy] at h; cases h
      | none =>
        rw [hy] at h
        simp only at h
        split at h
        · cases h
        · rename_i hne
          rcases List.mem_cons.mp hm with rfl | hm
          · exact hne rfl
          · exact ih hy hm
  · intro h
    cases hc : cutLast c s with
    | none => rfl
    | some p =>
      have := (cutLast_some c s p.1 p.2).mp (by rw [hc])
      exact absurd (by rw [this.1]; simp) h

/-! ### Tables -/

/-- The library has a function with the name and the type at the index. -/
def Exported (i : Nat) (name : Bytes) (sig : Sig) : Prop := numImports ≤ i ∧ exports[i - numImports]? = some (name, sig)

theorem exportFunc_exported {name : Bytes} {i : Nat} {sig : Sig} (h : exportFunc name = some (i, sig)) : Exported i name sig := by
  unfold exportFunc at h
  cases hf : exports.zipIdx.find? (fun e => e.1.1 = name) with
  | none => rw [hf] at h; cases h
  | some e =>
    rw [hf] at h
    simp only [Option.map_some, Option.some.injEq, Prod.mk.injEq] at h
    have h1 := List.find?_some hf
    have h2 := List.mem_of_find?_eq_some hf
    simp only [decide_eq_true_eq] at h1
    have h3 := List.mem_zipIdx_iff_getElem?.mp h2
    obtain ⟨rfl, rfl⟩ := h
    refine ⟨by omega, ?_⟩
    rw [show numImports + e.2 - numImports = e.2 by omega, h3, ← h1]

/-- The name of a function of which there's only a stub. -/
def Stub (field name : Bytes) : Prop :=
  (str "fd_" <+: field ∧ str "fd_stub_" <+: name) ∨ (str "path_" <+: field ∧ str "path_stub_" <+: name)

instance (f n : Bytes) : Decidable (Stub f n) := inferInstanceAs (Decidable (_ ∨ _))

theorem wasi_table : ∀ e ∈ wasi, e.1 ≠ "fd_allocate" → ∃ a i, lookup wasiFunctions (str e.1) = some a ∧ exportFunc a.name = some (i, e.2) ∧
    a.random = (e.1 == "random_get") ∧ (a.name = str e.1 ∨ Stub (str e.1) a.name) := by
  have h : wasi.all (fun e => e.1 == "fd_allocate" || (match lookup wasiFunctions (str e.1) with
      | some a => (match exportFunc a.name with
        | some (_, s) => decide (s = e.2) && (a.random == (e.1 == "random_get")) && decide (a.name = str e.1 ∨ Stub (str e.1) a.name)
        | none => false)
      | none => false)) = true := by decide +kernel
  intro e he hn
  have := List.all_eq_true.mp h e he
  rw [show (e.1 == "fd_allocate") = false by simpa using hn, Bool.false_or] at this
  cases h1 : lookup wasiFunctions (str e.1) with
  | none => rw [h1] at this; cases this
  | some a =>
    rw [h1] at this
    simp only at this
    cases h2 : exportFunc a.name with
    | none => rw [h2] at this; cases this
    | some p =>
      obtain ⟨i, s⟩ := p
      rw [h2] at this
      simp only [Bool.and_eq_true, decide_eq_true_eq, beq_iff_eq] at this
      obtain ⟨⟨rfl, h4⟩, h5⟩ := this
      exact ⟨a, i, rfl, h2, h4, h5⟩

theorem wasi_table_none (f : Bytes) (h : ∀ e ∈ wasi, f ≠ str e.1) : lookup wasiFunctions f = none := by
  have hk : wasiFunctions.all (fun e => wasi.any fun w => decide (e.1 = str w.1)) = true := by decide +kernel
  unfold lookup
  cases hf : wasiFunctions.find? (fun e => e.1 = f) with
  | none => rfl
  | some e =>
    have h1 := List.find?_some hf
    have h2 := List.mem_of_find?_eq_some hf
    simp only [decide_eq_true_eq] at h1
    obtain ⟨w, hw, he⟩ := List.any_eq_true.mp (List.all_eq_true.mp hk e h2)
    simp only [decide_eq_true_eq] at he
    exact absurd (h1.symm.trans he) (h w hw)

theorem gate_table (p : Bytes) (a : AbiFunction) : lookup gateFunctions p = some a ↔ (p = str "fd" ∧ a = ⟨str "fd", false⟩) ∨ (p = str "io" ∧ a = ⟨str "io", false⟩) := by
  unfold lookup gateFunctions
  by_cases h1 : str "fd" = p
  · subst h1
    have hne : ¬ (str "fd" = str "io") := by decide +kernel
    simp [List.find?, hne, eq_comm]
  · by_cases h2 : str "io" = p
    · subst h2
      have hne : ¬ (str "io" = str "fd") := by decide +kernel
      simp [List.find?, h1, hne, eq_comm]
    · simp [List.find?, h1, h2, Ne.symm h1, Ne.symm h2]

theorem gate_fd : ∃ i, exportFunc (str "fd") = some (i, sg []) :=
  ⟨15, by decide +kernel⟩

theorem gate_io : ∃ i, exportFunc (str "io") = some (i, ⟨[.i32, .i32, .i32, .i32, .i32, .i32, .i32], none⟩) :=
  ⟨14, by decide +kernel⟩

theorem alloc_lookup : lookup wasiFunctions (str "fd_allocate") = some ⟨str "fs_stub_i64i64", false⟩ := by decide +kernel
theorem alloc_missing : exportFunc (str "fs_stub_i64i64") = none := by decide +kernel

/-! ### What becomes of an import -/

/-- The two names of the WASI module. -/
def Wasi (m : Bytes) : Prop := m = str "wasi_snapshot_preview1" ∨ m = str "wasi_unstable"

theorem find_wasi (m f : Bytes) (h : Wasi m) : find m f = some (lookup wasiFunctions f) := by
  unfold find
  have : m ≠ str "gate" := by
    rcases h with rfl | rfl <;> decide +kernel
  rw [if_neg this]
  exact if_pos h

theorem find_gate (p suffix : Bytes) (hs : 95 ∉ suffix) (hp : p ≠ []) : find (str "gate") (p ++ 95 :: suffix) =
    (match lookup gateFunctions p with | none => some none | some a => if sizeOk suffix then some (some a) else none) := by
  unfold find
  rw [if_pos rfl, (cutLast_some 95 _ p suffix).mpr ⟨rfl, hs⟩]
  cases p with
  | nil => exact absurd rfl hp
  | cons x p => rfl

theorem find_gate_none (f : Bytes) (h : ∀ p suffix, p ≠ [] → f = p ++ 95 :: suffix → 95 ∉ suffix → p ≠ str "fd" ∧ p ≠ str "io") : find (str "gate") f = some none := by
  cases hc : cutLast 95 f with
  | none => unfold find; rw [if_pos rfl, hc]
  | some q =>
    obtain ⟨p, suffix⟩ := q
    obtain ⟨rfl, hs⟩ := (cutLast_some 95 f p suffix).mp hc
    by_cases hp : p = []
    · subst hp
      unfold find; rw [if_pos rfl, hc]
    · rw [find_gate p suffix hs hp]
      have := h p suffix hp rfl hs
      cases hl : lookup gateFunctions p with
      | none => rfl
      | some a =>
        rcases (gate_table p a).mp hl with ⟨h1, _⟩ | ⟨h1, _⟩
        · exact absurd h1 this.1
        · exact absurd h1 this.2

theorem find_other (m f : Bytes) (h1 : m ≠ str "gate") (h2 : ¬ Wasi m) : find m f = some none := by
  unfold find
  rw [if_neg h1]
  exact if_neg h2

theorem resolve_denotes {m f M F : Bytes} (h : Denotes m f M F) (r : Bool) (s : Sig) : resolveFunc r m f s =
    (match find M F with
      | none => (.panic, r)
      | some none => (.unsupported, r)
      | some (some a) =>
        match exportFunc a.name with
        | none => (.panic, r)
        | some (index, libsig) => if s ≠ libsig then (.wrongSignature, r) else (.ok index, r || a.random)) := by
  unfold resolveFunc
  rw [env_denotes h]
  rfl

/-- C103: a program may import any function of WASI other than fd_allocate, with its own type, and it gets bound to the library's function of that name (or a stub for file descriptors or paths) and
of that type; with any other type it's an error. Only random_get makes the program get random numbers. -/
theorem wasi_resolves_partial (e : String × Sig) (he : e ∈ wasi) (hn : e.1 ≠ "fd_allocate") (m f M : Bytes) (hM : Wasi M) (hd : Denotes m f M (str e.1)) (r : Bool) :
    (∃ i name, Exported i name e.2 ∧ (name = str e.1 ∨ Stub (str e.1) name) ∧ resolveFunc r m f e.2 = (.ok i, r || (e.1 == "random_get"))) ∧
    ∀ s, s ≠ e.2 → resolveFunc r m f s = (.wrongSignature, r) := by
  obtain ⟨a, i, h1, h2, h3, h4⟩ := wasi_table e he hn
  constructor
  · refine ⟨i, a.name, exportFunc_exported h2, h4, ?_⟩
    rw [resolve_denotes hd, find_wasi _ _ hM, h1]
    simp only [h2, ne_eq, not_true, if_false, h3]
  · intro s hs
    rw [resolve_denotes hd, find_wasi _ _ hM, h1]
    simp only [h2]
    rw [if_pos hs]

/-- C103 refuted for fd_allocate: whatever the type, the resolver panics (with a value which isn't an error, so it's not turned into one). -/
theorem fd_allocate_panics_refuted (m f M : Bytes) (hM : Wasi M) (hd : Denotes m f M (str "fd_allocate")) (r : Bool) (s : Sig) : resolveFunc r m f s = (.panic, r) := by
  rw [resolve_denotes hd, find_wasi _ _ hM, alloc_lookup]
  simp only [alloc_missing]

/-- Other names in WASI modules are unsupported. -/
theorem wasi_unsupported (m f M F : Bytes) (hM : Wasi M) (hd : Denotes m f M F) (h : ∀ e ∈ wasi, F ≠ str e.1) (r : Bool) (s : Sig) : resolveFunc r m f s = (.unsupported, r) := by
  rw [resolve_denotes hd, find_wasi _ _ hM, wasi_table_none F h]

/-- Gate's own functions: the name and the type of each. -/
def gateApi : List (String × Sig) := [("fd", sg []), ("io", ⟨[.i32, .i32, .i32, .i32, .i32, .i32, .i32], none⟩)]

theorem gateApi_table (e : String × Sig) (he : e ∈ gateApi) : str e.1 ≠ [] ∧ lookup gateFunctions (str e.1) = some ⟨str e.1, false⟩ ∧ ∃ i, exportFunc (str e.1) = some (i, e.2) := by
  simp only [gateApi, List.mem_cons, List.not_mem_nil, or_false] at he
  rcases he with rfl | rfl
  · exact ⟨by decide +kernel, by decide +kernel, gate_fd⟩
  · exact ⟨by decide +kernel, by decide +kernel, gate_io⟩

/-- C103: a gate function with a maximum receive size which is a decimal number without leading zeros, and not less than the maximum packet size, gets bound to the library's function. -/
theorem gate_resolves (e : String × Sig) (he : e ∈ gateApi) (suffix : Bytes) (h1 : Decimal suffix) (h2 : 65536 ≤ decimal suffix) (m f : Bytes)
    (hd : Denotes m f (str "gate") (str e.1 ++ 95 :: suffix)) (r : Bool) :
    (∃ i, Exported i (str e.1) e.2 ∧ resolveFunc r m f e.2 = (.ok i, r)) ∧ ∀ s, s ≠ e.2 → resolveFunc r m f s = (.wrongSignature, r) := by
  obtain ⟨t1, t2, i, t3⟩ := gateApi_table e he
  have hs : 95 ∉ suffix := fun hm => by
    have := h1.2.1 _ hm
    revert this
    decide
  have hf : find (str "gate") (str e.1 ++ 95 :: suffix) = some (some ⟨str e.1, false⟩) := by
    rw [find_gate _ _ hs t1, t2]
    simp only [(sizeOk_iff suffix).mpr ⟨h1, h2⟩, if_true]
  constructor
  · refine ⟨i, exportFunc_exported t3, ?_⟩
    rw [resolve_denotes hd, hf]
    simp only [t3, ne_eq, not_true, if_false, Bool.or_false]
  · intro s hs
    rw [resolve_denotes hd, hf]
    simp only [t3]
    rw [if_pos hs]

/-- C103 refuted: with any other suffix after the last underscore (also an empty one), the resolver panics. -/
theorem gate_panics_refuted (e : String × Sig) (he : e ∈ gateApi) (suffix : Bytes) (hs : 95 ∉ suffix) (h : ¬ (Decimal suffix ∧ 65536 ≤ decimal suffix)) (m f : Bytes)
    (hd : Denotes m f (str "gate") (str e.1 ++ 95 :: suffix)) (r : Bool) (s : Sig) : resolveFunc r m f s = (.panic, r) := by
  obtain ⟨t1, t2, i, t3⟩ := gateApi_table e he
  have hz : sizeOk suffix = false := by
    cases hz : sizeOk suffix with
    | false => rfl
    | true => exact absurd ((sizeOk_iff suffix).mp hz) h
  rw [resolve_denotes hd, find_gate _ _ hs t1, t2]
  simp [hz]

/-- Other names of the gate module are unsupported. -/
theorem gate_unsupported (m f F : Bytes) (hd : Denotes m f (str "gate") F) (h : ∀ e ∈ gateApi, ∀ suffix, 95 ∉ suffix → F ≠ str e.1 ++ 95 :: suffix) (r : Bool) (s : Sig) :
    resolveFunc r m f s = (.unsupported, r) := by
  have hf : find (str "gate") F = some none := by
    refine find_gate_none F fun p suffix hp hF hs => ⟨?_, ?_⟩
    · rintro rfl
      exact h ("fd", sg []) (by simp [gateApi]) suffix hs hF
    · rintro rfl
      exact h ("io", ⟨[.i32, .i32, .i32, .i32, .i32, .i32, .i32], none⟩) (by simp [gateApi]) suffix hs hF
  rw [resolve_denotes hd, hf]

/-- Other modules are unsupported, as are functions of "env" without a known prefix. -/
theorem module_unsupported (m f : Bytes) (h : ∀ M F, Denotes m f M F → M ≠ str "gate" ∧ ¬ Wasi M) (r : Bool) (s : Sig) : resolveFunc r m f s = (.unsupported, r) := by
  rcases denotes_or m f with ⟨M, F, hd⟩ | ⟨rfl, he⟩
  · rw [resolve_denotes hd, find_other M F (h M F hd).1 (h M F hd).2]
  · unfold resolveFunc
    rw [he, find_other]
    · exact (by decide +kernel : str "env" ≠ str "gate")
    · intro hw
      rcases hw with hw | hw
      · exact (by decide +kernel : str "env" ≠ str "wasi_snapshot_preview1") hw
      · exact (by decide +kernel : str "env" ≠ str "wasi_unstable") hw

/-- The above, taken together: what a panic means. -/
theorem panic_iff (m f : Bytes) (r : Bool) (s : Sig) : (resolveFunc r m f s).1 = .panic ↔
    (∃ M, Wasi M ∧ Denotes m f M (str "fd_allocate")) ∨
    (∃ e ∈ gateApi, ∃ suffix, 95 ∉ suffix ∧ ¬ (Decimal suffix ∧ 65536 ≤ decimal suffix) ∧ Denotes m f (str "gate") (str e.1 ++ 95 :: suffix)) := by
  constructor
  · intro hp
    by_cases hx : ∀ M F, Denotes m f M F → M ≠ str "gate" ∧ ¬ Wasi M
    · rw [module_unsupported m f hx] at hp; cases hp
    · obtain ⟨M, F, hd, hM⟩ : ∃ M F, Denotes m f M F ∧ (M = str "gate" ∨ Wasi M) := by
        refine Classical.byContradiction fun hn => hx fun M F hd => ⟨fun hg => hn ⟨M, F, hd, .inl hg⟩, fun hw => hn ⟨M, F, hd, .inr hw⟩⟩
      rcases hM with rfl | hM
      · right
        by_cases hu : ∀ e ∈ gateApi, ∀ suffix, 95 ∉ suffix → F ≠ str e.1 ++ 95 :: suffix
        · rw [gate_unsupported m f F hd hu] at hp; cases hp
        · obtain ⟨e, he, suffix, hs, hF⟩ : ∃ e ∈ gateApi, ∃ suffix, 95 ∉ suffix ∧ F = str e.1 ++ 95 :: suffix := by
            refine Classical.byContradiction fun hn => hu fun e he suffix hs hF => hn ⟨e, he, suffix, hs, hF⟩
          subst hF
          refine ⟨e, he, suffix, hs, fun hz => ?_, hd⟩
          obtain ⟨⟨i, _, h1⟩, h2⟩ := gate_resolves e he suffix hz.1 hz.2 m f hd r
          by_cases hs' : s = e.2
          · subst hs'; rw [h1] at hp; cases hp
          · rw [h2 s hs'] at hp; cases hp
      · left
        by_cases hu : ∀ e ∈ wasi, F ≠ str e.1
        · rw [wasi_unsupported m f M F hM hd hu] at hp; cases hp
        · obtain ⟨e, he, hF⟩ : ∃ e ∈ wasi, F = str e.1 := by
            refine Classical.byContradiction fun hn => hu fun e he hF => hn ⟨e, he, hF⟩
          subst hF
          by_cases hn : e.1 = "fd_allocate"
          · rw [hn] at hd
            exact ⟨M, hM, hd⟩
          · obtain ⟨⟨i, _, _, _, h1⟩, h2⟩ := wasi_resolves_partial e he hn m f M hM hd r
            by_cases hs' : s = e.2
            · subst hs'; rw [h1] at hp; cases hp
            · rw [h2 s hs'] at hp; cases hp
  · rintro (⟨M, hM, hd⟩ | ⟨e, he, suffix, hs, h, hd⟩)
    · rw [fd_allocate_panics_refuted m f M hM hd]
    · rw [gate_panics_refuted e he suffix hs h m f hd]

/-- Whatever the import, the function it's bound to has the type which it was imported with. -/
theorem type_sound (r : Bool) (m f : Bytes) (s : Sig) (i : Nat) (r' : Bool) (h : resolveFunc r m f s = (.ok i, r')) : ∃ name, Exported i name s := by
  unfold resolveFunc at h
  split at h
  · cases h
  · cases h
  · rename_i a _
    split at h
    · cases h
    · rename_i index libsig hx
      split at h
      · cases h
      · rename_i hs
        simp only [ne_eq, Decidable.not_not] at hs
        simp only [Prod.mk.injEq, Out.ok.injEq] at h
        obtain ⟨rfl, _⟩ := h
        subst hs
        exact ⟨_, exportFunc_exported hx⟩

/-- The import of random_get. -/
def Random (i : Import) : Prop := ∃ M, Wasi M ∧ Denotes i.module i.field M (str "random_get")

theorem random_table (f : Bytes) (a : AbiFunction) (h : lookup wasiFunctions f = some a) (hr : a.random = true) : f = str "random_get" := by
  have hk : wasiFunctions.all (fun e => !e.2.random || decide (e.1 = str "random_get")) = true := by decide +kernel
  unfold lookup at h
  cases hf : wasiFunctions.find? (fun e => e.1 = f) with
  | none => rw [hf] at h; cases h
  | some e =>
    rw [hf] at h
    simp only [Option.map_some, Option.some.injEq] at h
    have h1 := List.find?_some hf
    simp only [decide_eq_true_eq] at h1
    have := List.all_eq_true.mp hk e (List.mem_of_find?_eq_some hf)
    rw [h, hr] at this
    simp only [Bool.not_true, Bool.false_or, decide_eq_true_eq] at this
    rw [← h1, this]

theorem ok_random (r : Bool) (im : Import) (i : Nat) (r' : Bool) (h : resolveFunc r im.module im.field im.sig = (.ok i, r')) : r' = true ↔ r = true ∨ Random im := by
  rcases denotes_or im.module im.field with ⟨M, F, hd⟩ | ⟨hm, he⟩
  · constructor
    · intro hr
      rw [resolve_denotes hd] at h
      cases r with
      | true => exact .inl rfl
      | false =>
        right
        cases hf : find M F with
        | none => rw [hf] at h; cases h
        | some o =>
          cases o with
          | none => rw [hf] at h; cases h
          | some a =>
            rw [hf] at h
            simp only at h
            split at h
            · cases h
            · split at h
              · cases h
              · simp only [Prod.mk.injEq, Bool.false_or] at h
                have ha : a.random = true := h.2.trans hr
                by_cases hw : Wasi M
                · rw [find_wasi M F hw] at hf
                  have := random_table F a (by simpa using hf) ha
                  subst this
                  exact ⟨M, hw, hd⟩
                · by_cases hg : M = str "gate"
                  · exfalso
                    subst hg
                    by_cases hp : ∀ p suffix, p ≠ [] → F = p ++ 95 :: suffix → 95 ∉ suffix → p ≠ str "fd" ∧ p ≠ str "io"
                    · rw [find_gate_none F hp] at hf; cases hf
                    · cases hc : cutLast 95 F with
                      | none => unfold find at hf; rw [if_pos rfl, hc] at hf; cases hf
                      | some q =>
                        obtain ⟨p, suffix⟩ := q
                        obtain ⟨hF, hs⟩ := (cutLast_some 95 F p suffix).mp hc
                        by_cases hp0 : p = []
                        · subst hp0; unfold find at hf; rw [if_pos rfl, hc] at hf; cases hf
                        · rw [hF, find_gate p suffix hs hp0] at hf
                          cases hl : lookup gateFunctions p with
                          | none => rw [hl] at hf; cases hf
                          | some b =>
                            rw [hl] at hf
                            simp only at hf
                            split at hf
                            · simp only [Option.some.injEq] at hf
                              subst hf
                              rcases (gate_table p b).mp hl with ⟨_, rfl⟩ | ⟨_, rfl⟩ <;> cases ha
                            · cases hf
                  · rw [find_other M F hg hw] at hf; cases hf
    · rintro (rfl | ⟨M', hM', hd'⟩)
      · rw [resolve_denotes hd] at h
        split at h
        · cases h
        · cases h
        · split at h
          · cases h
          · split at h
            · cases h
            · simp only [Prod.mk.injEq, Bool.true_or] at h
              exact h.2.symm
      · have he : ("random_get", sg [.i32, .i32]) ∈ wasi := by simp [wasi]
        obtain ⟨⟨j, _, _, _, h1⟩, h2⟩ := wasi_resolves_partial _ he (by decide) _ _ M' hM' hd' r
        by_cases hs : im.sig = sg [.i32, .i32]
        · rw [hs, h1] at h
          simp only [Prod.mk.injEq, beq_self_eq_true, Bool.or_true] at h
          exact h.2.symm
        · rw [h2 _ hs] at h; cases h
  · exfalso
    unfold resolveFunc at h
    rw [he, hm, find_other] at h
    · cases h
    · exact (by decide +kernel : str "env" ≠ str "gate")
    · intro hw
      rcases hw with hw | hw
      · exact (by decide +kernel : str "env" ≠ str "wasi_snapshot_preview1") hw
      · exact (by decide +kernel : str "env" ≠ str "wasi_unstable") hw

/-- C103: a program which gets built has random numbers provided for it if and only if it imports random_get; every one of its imports is bound to a function of the right type. -/
theorem build_imports (is : List Import) (r : Bool) (xs : List Nat) (r' : Bool) (h : bindImports r is = (xs, none, r')) :
    xs.length = is.length ∧ (∀ (k : Nat) (i : Import), is[k]? = some i → ∃ x name, xs[k]? = some x ∧ Exported x name i.sig) ∧ (r' = true ↔ r = true ∨ ∃ i ∈ is, Random i) := by
  induction is generalizing r xs with
  | nil =>
    simp only [bindImports, Prod.mk.injEq, true_and] at h
    obtain ⟨rfl, rfl⟩ := h
    exact ⟨rfl, by simp, by simp⟩
  | cons im is ih =>
    unfold bindImports at h
    split at h
    · rename_i x r1 hx
      simp only [Prod.mk.injEq] at h
      obtain ⟨rfl, h2, h3⟩ := h
      obtain ⟨ih0, ih1, ih2⟩ := ih r1 (bindImports r1 is).1 (by rw [← h2, ← h3])
      refine ⟨by simp [ih0], ?_, ?_⟩
      · intro k i hk
        cases k with
        | zero =>
          simp only [List.getElem?_cons_zero, Option.some.injEq] at hk
          subst hk
          obtain ⟨name, hn⟩ := type_sound _ _ _ _ _ _ hx
          exact ⟨x, name, rfl, hn⟩
        | succ k => exact ih1 k i (by simpa using hk)
      · rw [ih2, ok_random r im x r1 hx]
        simp [or_assoc]
    · simp at h

/-- The library calls the runtime's functions: the vector has them in the slots where the library expects them, except for the reserved one (of which there's no call). -/
theorem vector_matches (e : Bytes × Int) (he : e ∈ rtFunctions) (hn : e.1 ≠ str "nop") : slot e.2 = some (.rt e.1) := by
  have hk : rtFunctions.all (fun e => decide (e.1 = str "nop") || decide (slot e.2 = some (.rt e.1))) = true := by decide +kernel
  have := List.all_eq_true.mp hk e he
  simpa [hn] using this

/-- A call of the reserved function would be a jump to the number of memory pages. -/
theorem nop_mismatch_refuted : (str "nop", -5) ∈ rtFunctions ∧ slot (-5) = some .growPages := by
  constructor <;> decide +kernel

/-! ### Examples -/

theorem ex_env (f : String) : Denotes (str "env") (str "__wasi_" ++ str f) (str "wasi_snapshot_preview1") (str f) := .wasi _

/-- The hypotheses of wasi_resolves_partial are met by both modules' names and by "env". -/
example : ("fd_write", sg [.i32, .i32, .i32, .i32]) ∈ wasi ∧ Denotes (str "wasi_unstable") (str "fd_write") (str "wasi_unstable") (str "fd_write") ∧ Wasi (str "wasi_unstable") :=
  ⟨by simp [wasi], .plain _ _ (by decide +kernel), .inr rfl⟩

/-- Some sizes. -/
example : sizeOk (str "65536") = true ∧ sizeOk (str "65535") = false ∧ sizeOk (str "065536") = false ∧ sizeOk (str "99999999999999999999999") = true ∧ sizeOk (str "99999999999999999999999x") = false ∧
    sizeOk (str "") = false ∧ sizeOk (str "+65536") = false := by
  refine ⟨?_, ?_, ?_, ?_, ?_, ?_, ?_⟩ <;> decide +kernel

/-- A program with imports of each kind. -/
def exImports : List Import :=
  [⟨str "gate", str "io_65536", ⟨[.i32, .i32, .i32, .i32, .i32, .i32, .i32], none⟩⟩, ⟨str "env", str "__gate_fd_70000", sg []⟩, ⟨str "wasi_snapshot_preview1", str "random_get", sg [.i32, .i32]⟩,
   ⟨str "env", str "__wasi_proc_exit", ⟨[.i32], none⟩⟩]

example : bindImports false exImports = ([14, 15, 41, 39], none, true) := by decide +kernel
example : bindImports false (exImports.take 2) = ([14, 15], none, false) := by decide +kernel
example : bindImports false (exImports.take 1 ++ [⟨str "gate", str "fd_1024", sg []⟩]) = ([14], some .panic, false) := by decide +kernel

end Gate.Resolver
