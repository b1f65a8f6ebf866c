import Verif.Restart
import Verif.ResolverProps
/-
C105 and C106: proofs about Restart.lean.
-/
namespace Gate.Restart
open Gate.Auth (str ID parseID)

/-! ### Storage keys -/

theorem hexBytes_hex : ∀ (l : Bytes) (v : List Nat), hexBytes l = some v → ∀ c ∈ l, (hex c).isSome
  | [], _, _, c, hc => by simp at hc
  | [_], v, h, _, _ => by simp [hexBytes] at h
  | a :: b :: r, v, h, c, hc => by
    simp only [hexBytes] at h
    cases ha : hex a with
    | none => rw [ha] at h; cases h
    | some x =>
      cases hb : hex b with
      | none => rw [ha, hb] at h; cases h
      | some y =>
        cases hr : hexBytes r with
        | none => rw [ha, hb, hr] at h; cases h
        | some w =>
          rcases List.mem_cons.mp hc with rfl | hc
          · rw [ha]; rfl
          · rcases List.mem_cons.mp hc with rfl | hc
            · rw [hb]; rfl
            · exact hexBytes_hex r w hr c hc

theorem mem_slice (b : Bytes) (a n i : Nat) (hi : a ≤ i) (hn : i < a + n) (h : i < b.length) : b[i] ∈ (b.drop a).take n := by
  apply List.mem_iff_getElem.mpr
  refine ⟨i - a, by simp; omega, ?_⟩
  rw [List.getElem_take, List.getElem_drop]
  congr 1
  omega

/-- A parsed UUID consists of hexadecimal digits and dashes, and maybe a prefix. -/
theorem uuid_chars (s : Bytes) (u : List Nat) (h : uuidParse s = some u) : ∀ c ∈ s, (hex c).isSome ∨ c = 45 ∨ lower c ∈ str "urn:uuid:" := by
  have key : ∀ (b : Bytes), b.length = 36 → b[8]? = some 45 ∧ b[13]? = some 45 ∧ b[18]? = some 45 ∧ b[23]? = some 45 →
      hexBytes (b.take 8 ++ (b.drop 9).take 4 ++ (b.drop 14).take 4 ++ (b.drop 19).take 4 ++ (b.drop 24).take 12) = some u →
      ∀ c ∈ b, (hex c).isSome ∨ c = 45 := by
    intro b hb hd hh c hc
    obtain ⟨i, hi, rfl⟩ := List.mem_iff_getElem.mp hc
    have hx := hexBytes_hex _ _ hh
    have g : ∀ k, b[k]? = some 45 → i = k → b[i] = 45 := by
      intro k hk hik
      subst hik
      rw [List.getElem?_eq_getElem hi] at hk
      simpa using hk
    by_cases h1 : i < 8
    · left; exact hx _ (by simp only [List.mem_append]; exact .inl (.inl (.inl (.inl (by simpa using mem_slice b 0 8 i (by omega) (by omega) hi)))))
    by_cases h2 : i = 8
    · exact .inr (g 8 hd.1 h2)
    by_cases h3 : i < 13
    · left; exact hx _ (by simp only [List.mem_append]; exact .inl (.inl (.inl (.inr (mem_slice b 9 4 i (by omega) (by omega) hi)))))
    by_cases h4 : i = 13
    · exact .inr (g 13 hd.2.1 h4)
    by_cases h5 : i < 18
    · left; exact hx _ (by simp only [List.mem_append]; exact .inl (.inl (.inr (mem_slice b 14 4 i (by omega) (by omega) hi))))
    by_cases h6 : i = 18
    · exact .inr (g 18 hd.2.2.1 h6)
    by_cases h7 : i < 23
    · left; exact hx _ (by simp only [List.mem_append]; exact .inl (.inr (mem_slice b 19 4 i (by omega) (by omega) hi)))
    by_cases h8 : i = 23
    · exact .inr (g 23 hd.2.2.2 h8)
    · left; exact hx _ (by simp only [List.mem_append]; exact .inr (mem_slice b 24 12 i (by omega) (by omega) hi))
  intro c hc
  unfold uuidParse at h
  by_cases h36 : s.length = 36
  · simp only [h36, if_true] at h
    split at h
    · rename_i hd
      rcases key s h36 hd h c hc with h | h
      · exact .inl h
      · exact .inr (.inl h)
    · cases h
  · by_cases h45 : s.length = 45 ∧ (s.take 9).map lower = str "urn:uuid:"
    · have hb : (if s.length = 36 then some s else if s.length = 45 ∧ (s.take 9).map lower = str "urn:uuid:" then some (s.drop 9) else none) = some (s.drop 9) := by
        rw [if_neg h36, if_pos h45]
      simp only [hb] at h
      split at h
      · rename_i hd
        have hcs : c ∈ s.take 9 ++ s.drop 9 := by rw [List.take_append_drop]; exact hc
        rcases List.mem_append.mp hcs with hp | hb
        · right; right
          rw [← h45.2]
          exact List.mem_map_of_mem hp
        · rcases key (s.drop 9) (by simp [h45.1]) hd h c hb with h | h
          · exact .inl h
          · exact .inr (.inl h)
      · cases h
    · simp only [h36, if_false, h45] at h
      cases h

/-- An acceptable instance id has no dots. -/
theorem validID_nodot (s : Bytes) (h : validID s = true) : 46 ∉ s := by
  intro hm
  unfold validID at h
  cases hu : uuidParse s with
  | none => rw [hu] at h; cases h
  | some u =>
    have := uuid_chars s u hu 46 hm
    revert this
    decide +kernel

/-- C105: the storage key of an instance tells its owner and its id. -/
theorem key_roundtrip (pri : ID) (inst : Bytes) (hp : parseID pri.s = some pri) (hi : validID inst = true) : parseKey (storageKey pri inst) = some (pri, inst) := by
  unfold parseKey storageKey
  rw [(Resolver.cutLast_some 46 _ pri.s inst).mpr ⟨rfl, validID_nodot inst hi⟩]
  simp only [hp, hi, if_true]

theorem parseID_s (s : Bytes) (id : ID) (h : parseID s = some id) : id.s = s := by
  unfold parseID at h
  split at h
  · split at h
    · simp only [Option.some.injEq] at h; rw [← h]
    · cases h
  · split at h
    · rename_i hs
      simp only [Option.some.injEq] at h
      rw [← h, hs]; rfl
    · cases h

/-- C105: a file's name which is accepted as a key is the key of that very instance. -/
theorem key_unique (key : Bytes) (pri : ID) (inst : Bytes) (h : parseKey key = some (pri, inst)) : key = storageKey pri inst ∧ validID inst = true ∧ parseID pri.s = some pri := by
  unfold parseKey at h
  cases hc : Resolver.cutLast 46 key with
  | none => rw [hc] at h; cases h
  | some q =>
    obtain ⟨p, i⟩ := q
    rw [hc] at h
    simp only at h
    cases hp : parseID p with
    | none => rw [hp] at h; cases h
    | some id =>
      rw [hp] at h
      simp only at h
      split at h
      · rename_i hv
        simp only [Option.some.injEq, Prod.mk.injEq] at h
        obtain ⟨rfl, rfl⟩ := h
        have hs := parseID_s p id hp
        refine ⟨?_, hv, by rw [hs]; exact hp⟩
        rw [((Resolver.cutLast_some 46 key p i).mp hc).1, storageKey, hs]
      · cases h

/-- C105: different instances (whosever they are) have different keys. -/
theorem key_injective (p q : ID) (i j : Bytes) (hi : validID i = true) (hj : validID j = true) (h : storageKey p i = storageKey q j) : p.s = q.s ∧ i = j := by
  have h1 := (Resolver.cutLast_some 46 (storageKey p i) p.s i).mpr ⟨rfl, validID_nodot i hi⟩
  have h2 := (Resolver.cutLast_some 46 (storageKey q j) q.s j).mpr ⟨rfl, validID_nodot j hj⟩
  rw [h] at h1
  rw [h1] at h2
  simp only [Option.some.injEq, Prod.mk.injEq] at h2
  exact h2

/-- C105: a key isn't a path out of the directory: there's no slash in it, and it isn't "." or "..". -/
theorem key_file_name (p : ID) (i : Bytes) (hp : parseID p.s = some p) (hi : validID i = true) : 47 ∉ storageKey p i ∧ storageKey p i ≠ [46] ∧ storageKey p i ≠ [46, 46] := by
  have h0 : i.length = 36 ∨ i.length = 45 := by
    unfold validID at hi
    cases hu : uuidParse i with
    | none => rw [hu] at hi; cases hi
    | some u =>
      unfold uuidParse at hu
      by_cases h36 : i.length = 36
      · exact .inl h36
      · by_cases h45 : i.length = 45 ∧ (i.take 9).map lower = str "urn:uuid:"
        · exact .inr h45.1
        · simp only [h36, if_false, h45] at hu
          cases hu
  have hlen : 36 < (storageKey p i).length := by
    simp only [storageKey, List.length_append, List.length_cons]
    omega
  refine ⟨?_, ?_, ?_⟩
  · intro hm
    simp only [storageKey, List.mem_append, List.mem_cons] at hm
    rcases hm with hm | hm | hm
    · -- a principal's string
      unfold parseID at hp
      split at hp
      · rename_i hk
        have hs : p.s = str "ed25519:" ++ p.s.drop 8 := by rw [← hk.1, List.take_append_drop]
        rw [hs] at hm
        rcases List.mem_append.mp hm with hm | hm
        · exact (by decide +kernel : ¬ (47 : UInt8) ∈ str "ed25519:") hm
        · cases hpk : Auth.parseKey (p.s.drop 8) with
          | none => rw [hpk] at hk; cases hk.2
          | some k =>
            unfold Auth.parseKey at hpk
            split at hpk
            · cases hpk
            · cases hd : Auth.decode64 (p.s.drop 8) with
              | none => rw [hd] at hpk; cases hpk
              | some k' =>
                unfold Auth.decode64 at hd
                cases hx : Auth.sextets ((p.s.drop 8).filter fun c => c != 10 && c != 13) with
                | none => rw [hx] at hd; cases hd
                | some vs =>
                  have gen : ∀ (l : Bytes) (vs : List Nat), Auth.sextets l = some vs → ∀ c ∈ l, (Auth.sextet c).isSome := by
                    intro l
                    induction l with
                    | nil => intro _ _ c hc; simp at hc
                    | cons a l ih =>
                      intro vs hv c hc
                      simp only [Auth.sextets] at hv
                      split at hv
                      · rename_i x ys hxa hys
                        rcases List.mem_cons.mp hc with rfl | hc
                        · rw [hxa]; rfl
                        · exact ih ys hys c hc
                      · cases hv
                  have := gen _ vs hx 47 (List.mem_filter.mpr ⟨hm, by decide⟩)
                  revert this
                  decide
      · split at hp
        · rename_i hs
          rw [hs] at hm
          exact (by decide +kernel : ¬ (47 : UInt8) ∈ str "local") hm
        · cases hp
    · revert hm; decide
    · unfold validID at hi
      cases hu : uuidParse i with
      | none => rw [hu] at hi; cases hi
      | some u =>
        have := uuid_chars i u hu 47 hm
        revert this
        decide +kernel
  · intro h; rw [h] at hlen; simp at hlen
  · intro h; rw [h] at hlen; simp at hlen

/-- Instances' UUIDs aren't unique though ids are: the same UUID can be spelled differently, so an account can have two instances with it. -/
theorem uuid_alias_refuted (s : Bytes) (hs : s.length = 36) (h : validID s = true) :
    validID (str "urn:uuid:" ++ s) = true ∧ uuidParse (str "urn:uuid:" ++ s) = uuidParse s ∧ str "urn:uuid:" ++ s ≠ s := by
  have hl : (str "urn:uuid:").length = 9 := by decide +kernel
  have hu : uuidParse (str "urn:uuid:" ++ s) = uuidParse s := by
    unfold uuidParse
    have h1 : (str "urn:uuid:" ++ s).length = 45 := by rw [List.length_append, hl, hs]
    have h2 : (str "urn:uuid:" ++ s).take 9 = str "urn:uuid:" := by rw [← hl, List.take_left]
    have h3 : (str "urn:uuid:" ++ s).drop 9 = s := by rw [← hl, List.drop_left]
    have h4 : (str "urn:uuid:").map lower = str "urn:uuid:" := by decide +kernel
    simp only [h1, h2, h3, h4, hs, and_self, if_true]
    rfl
  refine ⟨?_, hu, ?_⟩
  · unfold validID at h ⊢
    rw [hu]; exact h
  · intro he
    have := congrArg List.length he
    rw [List.length_append, hl] at this
    omega

/-! ### Starting -/

/-- A program file which can be loaded (or which isn't there any more). -/
def ProgFile.Fine (f : ProgFile) : Prop := f.load = .missing ∨ (f.load = .ok ∧ f.buffers = true)

/-- An instance file which can be loaded, and has an instance's key as its name. -/
def InstFile.Fine (persistent : Bool) (f : InstFile) : Prop := (f.load = .missing ∧ persistent = false) ∨ (f.load = .ok ∧ ∃ x, parseKey f.name = some x)

theorem loadProgram_ok (owner : Option Bytes) (s : Server) (f : ProgFile) : (∃ s', loadProgram owner s f = .ok s') ↔ f.Fine := by
  unfold loadProgram ProgFile.Fine
  cases hl : f.load with
  | missing => simp
  | bad => simp
  | ok =>
    cases hb : f.buffers with
    | false => simp
    | true => cases owner <;> simp

theorem loadPrograms_ok (owner : Option Bytes) (fs : List ProgFile) (s : Server) : (loadPrograms owner s fs).2 = true ↔ ∀ f ∈ fs, f.Fine := by
  induction fs generalizing s with
  | nil => simp [loadPrograms]
  | cons f fs ih =>
    unfold loadPrograms
    have := loadProgram_ok owner s f
    cases h : loadProgram owner s f with
    | error e =>
      rw [h] at this
      simp only [Bool.false_eq_true, false_iff]
      intro hf
      obtain ⟨s', hs'⟩ := this.mpr (hf f (by simp))
      cases hs'
    | ok s' =>
      simp only [ih]
      have hf : f.Fine := this.mp ⟨s', h⟩
      simp [hf]

theorem loadInstance_ok (p : Bool) (s : Server) (f : InstFile) : (∃ s', loadInstance p s f = .ok s') ↔ f.Fine p := by
  unfold loadInstance InstFile.Fine
  cases hl : f.load with
  | missing => cases p <;> simp
  | bad => simp
  | ok =>
    cases hk : parseKey f.name with
    | none => simp
    | some x => simp

theorem loadInstances_ok (p : Bool) (fs : List InstFile) (s : Server) : (loadInstances p s fs).2 = none ↔ ∀ f ∈ fs, f.Fine p := by
  induction fs generalizing s with
  | nil => simp [loadInstances]
  | cons f fs ih =>
    unfold loadInstances
    have := loadInstance_ok p s f
    cases h : loadInstance p s f with
    | error e =>
      rw [h] at this
      simp only [reduceCtorEq, false_iff]
      intro hf
      obtain ⟨s', hs'⟩ := this.mpr (hf f (by simp))
      cases hs'
    | ok s' =>
      simp only [ih]
      have hf : f.Fine p := this.mp ⟨s', h⟩
      simp [hf]

/-- C106: when a server starts. -/
theorem starts_iff (configured listed : Bool) (owner : Option ID) (st : Storage) : (∃ s, new configured listed owner st = .started s) ↔
    configured = true ∧ listed = true ∧ (∀ f ∈ st.progs, f.Fine) ∧ (∀ f ∈ st.insts, f.Fine st.persistent) := by
  cases configured with
  | false => simp [new]
  | true =>
    cases listed with
    | false => simp [new]
    | true =>
      simp only [new, Bool.not_true, Bool.false_eq_true, if_false, true_and]
      generalize hs0 : initial owner = s0
      rw [← loadPrograms_ok (owner.map (·.key)) st.progs s0]
      cases h1 : loadPrograms (owner.map (·.key)) s0 st.progs with
      | mk s1 b =>
        cases b with
        | false => simp
        | true =>
          simp only [true_and]
          rw [← loadInstances_ok st.persistent st.insts s1]
          cases h2 : loadInstances st.persistent s1 st.insts with
          | mk s2 o =>
            cases o with
            | none => simp
            | some b => cases b <;> simp

/-- A server can be started with everything it has stored itself: names are storage keys, and files can be loaded. -/
theorem own_storage_starts (owner : Option ID) (st : Storage) (hp : ∀ f ∈ st.progs, f.load = .ok ∧ f.buffers = true)
    (hi : ∀ f ∈ st.insts, f.load = .ok ∧ ∃ pri inst, parseID pri.s = some pri ∧ validID inst = true ∧ f.name = storageKey pri inst) : ∃ s, new true true owner st = .started s := by
  refine (starts_iff true true owner st).mpr ⟨rfl, rfl, fun f hf => .inr (hp f hf), fun f hf => .inr ⟨(hi f hf).1, ?_⟩⟩
  obtain ⟨pri, inst, h1, h2, h3⟩ := (hi f hf).2
  exact ⟨(pri, inst), by rw [h3, key_roundtrip pri inst h1 h2]⟩

/-- C106 refuted for damaged files: a single program or instance which can't be loaded makes the whole server unavailable, whatever else there is. -/
theorem one_bad_file_refuted (owner : Option ID) (st : Storage) (h : (∃ f ∈ st.progs, f.load = .bad ∨ (f.load = .ok ∧ f.buffers = false)) ∨ (∃ f ∈ st.insts, f.load = .bad)) :
    ∀ s, new true true owner st ≠ .started s := by
  intro s hs
  obtain ⟨_, _, h1, h2⟩ := (starts_iff true true owner st).mp ⟨s, hs⟩
  rcases h with ⟨f, hf, h⟩ | ⟨f, hf, h⟩
  · rcases h1 f hf with g | ⟨g1, g2⟩
    · rcases h with h | ⟨h, _⟩ <;> rw [g] at h <;> cases h
    · rcases h with h | ⟨_, h⟩
      · rw [g1] at h; cases h
      · rw [g2] at h; cases h
  · rcases h2 f hf with ⟨g, _⟩ | ⟨g, _⟩ <;> rw [g] at h <;> cases h

/-- Whether a program's buffers can be loaded, by the model of image/program.go:83-107. -/
def buffersLoad (file : Bytes) (off len headerLen : Nat) : Bool :=
  match Sections.loadBuffers file off len headerLen with
  | .ok _ => true
  | _ => false

/-- C106 refuted for programs which are snapshots with buffers: the server doesn't start after one has been stored. -/
theorem stored_buffers_refuted (owner : Option ID) (st : Storage) (f : ProgFile) (hf : f ∈ st.progs) (hl : f.load = .ok) (file sec rest payload : Bytes) (off headerLen : Nat)
    (hfile : file.drop off = sec ++ rest) (hsec : Sections.wasmSection sec = some (0, payload, [])) (hlen : sec.length < 2 ^ 32)
    (hb : f.buffers = buffersLoad file off sec.length headerLen) : ∀ s, new true true owner st ≠ .started s := by
  obtain ⟨m, hm⟩ := Sections.load_stored_buffers_fails file sec rest payload off headerLen hfile hsec hlen
  refine one_bad_file_refuted owner st (.inl ⟨f, hf, .inr ⟨hl, ?_⟩⟩)
  rw [hb, buffersLoad, hm]

/-! ### What the server has after it -/

/-- The files of programs which are there. -/
def present (fs : List ProgFile) : List Bytes := (fs.filter fun f => f.load = .ok && f.buffers).map (·.name)

theorem loadProgram_spec (owner : Option Bytes) (f : ProgFile) (s s1 : Server) (h : loadProgram owner s f = .ok s1) :
    s1.programs = s.programs ++ (present [f]).map (fun n => ⟨n, if owner.isSome then 2 else 1, true⟩) ∧
      s1.accounts = (s.accounts.map fun a => if some a.1 = owner then (a.1, a.2 ++ present [f]) else a) ∧ s1.instances = s.instances ∧ s1.leaked = s.leaked := by
  unfold loadProgram at h
  cases hl : f.load with
  | bad => rw [hl] at h; cases h
  | missing =>
    rw [hl] at h
    simp only [Except.ok.injEq] at h
    subst h
    simp [present, hl]
  | ok =>
    rw [hl] at h
    cases hb : f.buffers with
    | false => rw [hb] at h; simp at h
    | true =>
      rw [hb] at h
      cases owner with
      | none =>
        simp only [if_true, Except.ok.injEq] at h
        subst h
        simp [present, hl, hb]
      | some o =>
        simp only [if_true, Except.ok.injEq] at h
        subst h
        simp [present, hl, hb]

theorem present_cons (f : ProgFile) (fs : List ProgFile) : present (f :: fs) = present [f] ++ present fs := by
  unfold present
  rw [← List.map_append, ← List.filter_append]; rfl

theorem loadPrograms_spec (owner : Option Bytes) (fs : List ProgFile) (s s' : Server) (b : Bool) (h : loadPrograms owner s fs = (s', b)) :
    ∃ k, k ≤ fs.length ∧ (b = true → k = fs.length) ∧ s'.programs = s.programs ++ (present (fs.take k)).map (fun n => ⟨n, if owner.isSome then 2 else 1, true⟩) ∧
      s'.accounts = (s.accounts.map fun a => if some a.1 = owner then (a.1, a.2 ++ present (fs.take k)) else a) ∧ s'.instances = s.instances ∧ s'.leaked = s.leaked := by
  induction fs generalizing s with
  | nil =>
    simp only [loadPrograms, Prod.mk.injEq] at h
    obtain ⟨rfl, _⟩ := h
    exact ⟨0, by simp, by simp, by simp [present], by simp [present], rfl, rfl⟩
  | cons f fs ih =>
    unfold loadPrograms at h
    cases hf : loadProgram owner s f with
    | error e =>
      rw [hf] at h
      simp only [Prod.mk.injEq] at h
      obtain ⟨rfl, rfl⟩ := h
      exact ⟨0, by simp, by simp, by simp [present], by simp [present], rfl, rfl⟩
    | ok s1 =>
      rw [hf] at h
      obtain ⟨k, hk, hb, h1, h2, h3, h4⟩ := ih s1 h
      obtain ⟨g1, g2, g3, g4⟩ := loadProgram_spec owner f s s1 hf
      refine ⟨k + 1, by simp; omega, by simpa using hb, ?_, ?_, h3.trans g3, h4.trans g4⟩
      · rw [h1, g1, List.take_succ_cons, present_cons f (fs.take k), List.map_append, List.append_assoc]
      · rw [h2, g2, List.take_succ_cons, present_cons f (fs.take k), List.map_map]
        refine List.map_congr_left fun a _ => ?_
        by_cases ha : some a.1 = owner
        · simp [ha]
        · simp [ha]

/-- Loading of instances affects accounts only: it may add empty ones. -/
theorem loadInstances_spec (p : Bool) (fs : List InstFile) (s s' : Server) (o : Option Bool) (h : loadInstances p s fs = (s', o)) :
    s'.programs = s.programs ∧ s'.instances = s.instances ∧ s'.leaked = s.leaked ∧ ∃ l : List Bytes, s'.accounts = s.accounts ++ l.map fun k => (k, []) := by
  induction fs generalizing s with
  | nil =>
    simp only [loadInstances, Prod.mk.injEq] at h
    obtain ⟨rfl, _⟩ := h
    exact ⟨rfl, rfl, rfl, [], by simp⟩
  | cons f fs ih =>
    unfold loadInstances at h
    cases hf : loadInstance p s f with
    | error e =>
      rw [hf] at h
      simp only [Prod.mk.injEq] at h
      obtain ⟨rfl, _⟩ := h
      exact ⟨rfl, rfl, rfl, [], by simp⟩
    | ok s1 =>
      rw [hf] at h
      obtain ⟨h1, h2, h3, l, h4⟩ := ih s1 h
      have hs : s1.programs = s.programs ∧ s1.instances = s.instances ∧ s1.leaked = s.leaked ∧ ∃ l : List Bytes, s1.accounts = s.accounts ++ l.map fun k => (k, ([] : List Bytes)) := by
        unfold loadInstance at hf
        cases hl : f.load with
        | bad => rw [hl] at hf; cases hf
        | missing =>
          rw [hl] at hf
          cases p with
          | true => simp at hf
          | false =>
            simp at hf
            subst hf
            exact ⟨rfl, rfl, rfl, [], by simp⟩
        | ok =>
          rw [hl] at hf
          cases hk : parseKey f.name with
          | none => rw [hk] at hf; cases hf
          | some x =>
            rw [hk] at hf
            simp only [Except.ok.injEq] at hf
            subst hf
            unfold ensureAccount
            split
            · exact ⟨rfl, rfl, rfl, [], by simp⟩
            · exact ⟨rfl, rfl, rfl, [x.1.key], rfl⟩
      obtain ⟨g1, g2, g3, l', g4⟩ := hs
      exact ⟨h1.trans g1, h2.trans g2, h3.trans g3, l' ++ l, by rw [h4, g4]; simp⟩

/-- C106: a started server has all of the stored programs, open; they belong to the given account if there's one (and to no other). None of the stored instances has been restored. -/
theorem started_state (owner : Option ID) (st : Storage) (s : Server) (h : new true true owner st = .started s) :
    s.programs = (present st.progs).map (fun n => ⟨n, if owner.isSome then 2 else 1, true⟩) ∧
    (∀ o, owner = some o → (o.key, present st.progs) ∈ s.accounts) ∧ (∀ a ∈ s.accounts, a.2 ≠ [] → ∃ o, owner = some o ∧ a = (o.key, present st.progs)) ∧ s.instances = [] := by
  simp only [new, Bool.not_true, Bool.false_eq_true, if_false] at h
  generalize hs0 : initial owner = s0 at h
  cases h1 : loadPrograms (owner.map (·.key)) s0 st.progs with
  | mk s1 b =>
    rw [h1] at h
    cases b with
    | false => simp at h
    | true =>
      simp only at h
      cases h2 : loadInstances st.persistent s1 st.insts with
      | mk s2 o =>
        rw [h2] at h
        cases o with
        | some b => cases b <;> simp at h
        | none =>
          simp only [Out.started.injEq] at h
          subst h
          obtain ⟨k, _, hk, g1, g2, g3, _⟩ := loadPrograms_spec _ _ _ _ _ h1
          obtain ⟨i1, i2, _, l, i4⟩ := loadInstances_spec _ _ _ _ _ h2
          have hk := hk rfl
          subst hk
          rw [List.take_length] at g1 g2
          subst hs0
          simp only [initial] at g1 g2 g3
          refine ⟨by rw [i1, g1]; simp, ?_, ?_, by rw [i2, g3]⟩
          · rintro o rfl
            rw [i4, g2]
            simp
          · intro a ha hne
            rw [i4, g2] at ha
            rcases List.mem_append.mp ha with ha | ha
            · cases owner with
              | none => simp at ha
              | some o =>
                simp at ha
                exact ⟨o, rfl, ha⟩
            · obtain ⟨x, _, rfl⟩ := List.mem_map.mp ha
              exact absurd rfl hne

/-- C106: if it isn't started, every program which had been opened is closed again. Names of stored programs are different (they're in a directory). -/
theorem failure_closes (owner : Option ID) (st : Storage) (s : Server) (h : new true true owner st = .error s) : (∀ p ∈ s.programs, p.refs = 0 ∧ p.isOpen = false) ∧ s.leaked = 0 := by
  have main : ∀ (s1 s2 : Server) (b : Bool) (l : List Bytes), loadPrograms (owner.map (·.key)) (initial owner) st.progs = (s1, b) →
      s2.programs = s1.programs → s2.leaked = s1.leaked → s2.accounts = s1.accounts ++ l.map (fun k => (k, [])) → (∀ p ∈ (shutdown s2).programs, p.refs = 0 ∧ p.isOpen = false) ∧ (shutdown s2).leaked = 0 := by
    intro s1 s2 b l h1 e1 e2 e3
    obtain ⟨k, _, _, g1, g2, _, g4⟩ := loadPrograms_spec _ _ _ _ _ h1
    simp only [initial] at g1 g2 g4
    refine ⟨?_, by simp only [shutdown]; rw [e2, g4]⟩
    intro p hp
    simp only [shutdown] at hp
    obtain ⟨q, hq, rfl⟩ := List.mem_map.mp hp
    rw [e1, g1] at hq
    simp only [List.nil_append] at hq
    obtain ⟨n, hn, rfl⟩ := List.mem_map.mp hq
    have hc : (s2.accounts.filter fun a => a.2.contains n).length = if owner.isSome then 1 else 0 := by
      rw [e3, g2, List.filter_append]
      have : (l.map fun k => (k, ([] : List Bytes))).filter (fun a => a.2.contains n) = [] := by
        apply List.filter_eq_nil_iff.mpr
        intro a ha
        obtain ⟨x, _, rfl⟩ := List.mem_map.mp ha
        simp
      rw [this]
      cases owner with
      | none => simp
      | some o => simp [hn]
    unfold unref
    cases owner with
    | none => simp
    | some o => simp only [hc]; simp
  simp only [new, Bool.not_true, Bool.false_eq_true, if_false] at h
  cases h1 : loadPrograms (owner.map (·.key)) (initial owner) st.progs with
  | mk s1 b =>
    rw [h1] at h
    cases b with
    | false =>
      simp only [Out.error.injEq] at h
      subst h
      exact main s1 s1 false [] h1 rfl rfl (by simp)
    | true =>
      simp only at h
      cases h2 : loadInstances st.persistent s1 st.insts with
      | mk s2 o =>
        rw [h2] at h
        cases o with
        | none => simp at h
        | some b =>
          cases b with
          | true => simp at h
          | false =>
            simp only [Out.error.injEq] at h
            subst h
            obtain ⟨i1, _, i3, l, i4⟩ := loadInstances_spec _ _ _ _ _ h2
            exact main s1 s2 true l h1 i1 i3 i4

/-- C106 refuted for PersistentMemory: an instance's file which disappears between listing and loading crashes the server. -/
theorem missing_panics_refuted (owner : Option ID) (st : Storage) (hp : st.persistent = true) (hprogs : ∀ f ∈ st.progs, f.Fine) (f : InstFile) (fs : List InstFile) (hi : st.insts = f :: fs)
    (hf : f.load = .missing) : new true true owner st = .panic := by
  simp only [new, Bool.not_true, Bool.false_eq_true, if_false]
  generalize initial owner = s0
  have h1 := (loadPrograms_ok (owner.map (·.key)) st.progs s0).mpr hprogs
  cases h : loadPrograms (owner.map (·.key)) s0 st.progs with
  | mk s1 b =>
    rw [h] at h1
    simp only at h1
    subst h1
    simp only [hi, loadInstances, loadInstance, hf, hp, if_true]

/-! ### Examples -/

def exID : Bytes := str "01234567-89ab-4cde-8f01-23456789abcd"
def exKey : Bytes := storageKey Auth.localID exID

example : validID exID = true ∧ exID.length = 36 ∧ validID (str "01234567-89ab-1cde-8f01-23456789abcd") = false ∧ validID (str "01234567-89AB-4CDE-8F01-23456789ABCD") = true ∧
    validID (str "URN:uuid:01234567-89ab-4cde-bf01-23456789abcd") = true ∧ validID (str "0123456789ab4cde8f0123456789abcd") = false := by decide +kernel
example : parseID Auth.localID.s = some Auth.localID ∧ parseKey exKey = some (Auth.localID, exID) ∧ parseKey (str "local") = none := by decide +kernel

def exStorage : Storage := ⟨[⟨str "a", .ok, true⟩, ⟨str "b", .missing, true⟩, ⟨str "c", .ok, true⟩], [⟨exKey, .ok⟩], true⟩
def exBad : Storage := { exStorage with insts := [⟨str "x", .ok⟩] }

example : new true true (some Auth.localID) exStorage = .started ⟨[⟨str "a", 2, true⟩, ⟨str "c", 2, true⟩], [(Auth.localID.key, [str "a", str "c"])], [], 0⟩ := by decide +kernel
example : new true true none exStorage = .started ⟨[⟨str "a", 1, true⟩, ⟨str "c", 1, true⟩], [(Auth.localID.key, [])], [], 0⟩ := by decide +kernel
example : new true true (some Auth.localID) exBad = .error ⟨[⟨str "a", 0, false⟩, ⟨str "c", 0, false⟩], [], [], 0⟩ := by decide +kernel

end Gate.Restart
