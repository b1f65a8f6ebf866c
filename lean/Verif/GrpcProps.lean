import Verif.Grpc
import Verif.PacketProps
/-
C119: process keys of gRPC services. C120: messages between programs and gRPC services.
-/
namespace Gate.Grpc
open Gate.Packet

/-! ### C119 -/

/-- The instances of a process which have a key. -/
def users (s : Keys) (o : Nat) : Nat := s.holders.countP (fun x => x.1 = o) + s.leaked.countP (fun x => x.1 = o)

structure KGood (s : Keys) : Prop where
  held : ∀ o k, (o, k) ∈ s.holders ∨ (o, k) ∈ s.leaked → ∃ n, s.entry o = some (k, n)
  count : ∀ o k n, s.entry o = some (k, n) → n = users s o ∧ k < s.made ∧ 0 < n
  inj : ∀ o o' k n n', s.entry o = some (k, n) → s.entry o' = some (k, n') → o = o'

theorem kgood_init : KGood {} := ⟨fun o k h => (by simp at h), fun o k n h => (by cases h), fun o o' k n n' h => (by cases h)⟩

theorem setEntry_same (f : Nat → Option (Nat × Int)) (o : Nat) (v : Option (Nat × Int)) : setEntry f o v o = v := if_pos rfl
theorem setEntry_other (f : Nat → Option (Nat × Int)) (o o' : Nat) (v : Option (Nat × Int)) (h : o' ≠ o) : setEntry f o v o' = f o' := if_neg h

theorem countP_cons_proc (o o' k : Nat) (l : List (Nat × Nat)) : ((o, k) :: l).countP (fun x => x.1 = o') = l.countP (fun x => x.1 = o') + if o = o' then 1 else 0 := by
  simp [List.countP_cons]

theorem countP_erase_proc (o o' k : Nat) (l : List (Nat × Nat)) (h : (o, k) ∈ l) : (l.erase (o, k)).countP (fun x => x.1 = o') + (if o = o' then 1 else 0) = l.countP (fun x => x.1 = o') := by
  have := (List.perm_cons_erase h).countP_eq (fun x => decide (x.1 = o'))
  rw [this, countP_cons_proc]

theorem countP_pos_mem (o : Nat) (l : List (Nat × Nat)) (h : 0 < l.countP (fun x => x.1 = o)) : ∃ k, (o, k) ∈ l := by
  obtain ⟨⟨a, k⟩, h1, h2⟩ := List.countP_pos_iff.mp h
  simp at h2
  exact ⟨k, h2 ▸ h1⟩

theorem mem_countP_pos (o k : Nat) (l : List (Nat × Nat)) (h : (o, k) ∈ l) : 0 < l.countP (fun x => x.1 = o) :=
  List.countP_pos_iff.mpr ⟨_, h, by simp⟩

/-- One more user of a process' existing entry. -/
theorem kgood_add (s : Keys) (o k : Nat) (n : Int) (m : List Nat) (d : Nat) (he : s.entry o = some (k, n)) (g : KGood s) :
    KGood { s with entry := setEntry s.entry o (some (k, n + 1)), holders := (o, k) :: s.holders, missed := m, made := s.made + d } := by
  obtain ⟨hn, hk, hp⟩ := g.count o k n he
  refine ⟨?_, ?_, ?_⟩
  · intro o' k' h
    by_cases ho : o' = o
    · subst ho
      refine ⟨n + 1, ?_⟩
      have : k' = k := by
        rcases h with h | h
        · rcases List.mem_cons.mp h with h | h
          · cases h; rfl
          · obtain ⟨n', e⟩ := g.held o' k' (Or.inl h); rw [he] at e; cases e; rfl
        · obtain ⟨n', e⟩ := g.held o' k' (Or.inr h); rw [he] at e; cases e; rfl
      rw [this]; exact setEntry_same _ _ _
    · have : (o', k') ∈ s.holders ∨ (o', k') ∈ s.leaked := by
        rcases h with h | h
        · rcases List.mem_cons.mp h with h | h
          · cases h; exact absurd rfl ho
          · exact Or.inl h
        · exact Or.inr h
      obtain ⟨n', e⟩ := g.held o' k' this
      exact ⟨n', (setEntry_other _ _ _ _ ho).trans e⟩
  · intro o' k' n' h
    by_cases ho : o' = o
    · subst ho
      have h : some (k, n + 1) = some (k', n') := (setEntry_same s.entry o' _).symm.trans h
      cases h
      simp only [users, countP_cons_proc, if_true] at hn ⊢
      refine ⟨?_, ?_, ?_⟩ <;> omega
    · have h : s.entry o' = some (k', n') := (setEntry_other s.entry o o' _ ho).symm.trans h
      obtain ⟨a, b, c⟩ := g.count o' k' n' h
      simp only [users, countP_cons_proc] at a ⊢
      rw [if_neg (fun e => ho e.symm)]
      refine ⟨?_, ?_, c⟩ <;> omega
  · intro o1 o2 k' n1 n2 h1 h2
    have f : ∀ o', ∀ n', setEntry s.entry o (some (k, n + 1)) o' = some (k', n') → ∃ n', s.entry o' = some (k', n') := by
      intro o' n' h
      by_cases ho : o' = o
      · subst ho; rw [setEntry_same] at h; cases h; exact ⟨n, he⟩
      · rw [setEntry_other _ _ _ _ ho] at h; exact ⟨n', h⟩
    obtain ⟨a, ha⟩ := f o1 n1 h1
    obtain ⟨b, hb⟩ := f o2 n2 h2
    exact g.inj o1 o2 k' a b ha hb

theorem no_users (s : Keys) (g : KGood s) (o : Nat) (he : s.entry o = none) : (∀ k, (o, k) ∉ s.holders) ∧ (∀ k, (o, k) ∉ s.leaked) := by
  constructor
  · intro k h; obtain ⟨n, e⟩ := g.held o k (Or.inl h); rw [he] at e; cases e
  · intro k h; obtain ⟨n, e⟩ := g.held o k (Or.inr h); rw [he] at e; cases e

theorem countP_zero (o : Nat) (l : List (Nat × Nat)) (h : ∀ k, (o, k) ∉ l) : l.countP (fun x => x.1 = o) = 0 := by
  apply List.countP_eq_zero.mpr
  rintro ⟨a, k⟩ hm he
  simp at he
  exact h k (he ▸ hm)

/-- The first user of a process. -/
theorem kgood_new (s : Keys) (o : Nat) (m : List Nat) (he : s.entry o = none) (g : KGood s) :
    KGood { s with missed := m, made := s.made + 1, entry := setEntry s.entry o (some (s.made, 1)), holders := (o, s.made) :: s.holders } := by
  obtain ⟨nh, nl⟩ := no_users s g o he
  refine ⟨?_, ?_, ?_⟩
  · intro o' k' h
    by_cases ho : o' = o
    · subst ho
      refine ⟨1, ?_⟩
      have : k' = s.made := by
        rcases h with h | h
        · rcases List.mem_cons.mp h with h | h
          · cases h; rfl
          · exact absurd h (nh k')
        · exact absurd h (nl k')
      rw [this]; exact setEntry_same _ _ _
    · have : (o', k') ∈ s.holders ∨ (o', k') ∈ s.leaked := by
        rcases h with h | h
        · rcases List.mem_cons.mp h with h | h
          · cases h; exact absurd rfl ho
          · exact Or.inl h
        · exact Or.inr h
      obtain ⟨n', e⟩ := g.held o' k' this
      exact ⟨n', (setEntry_other _ _ _ _ ho).trans e⟩
  · intro o' k' n' h
    by_cases ho : o' = o
    · subst ho
      have h : some (s.made, (1 : Int)) = some (k', n') := (setEntry_same s.entry o' _).symm.trans h
      cases h
      have a := countP_zero o' s.holders nh
      have b := countP_zero o' s.leaked nl
      simp only [users, countP_cons_proc, if_true]
      refine ⟨?_, ?_, ?_⟩ <;> omega
    · have h : s.entry o' = some (k', n') := (setEntry_other s.entry o o' _ ho).symm.trans h
      obtain ⟨a, b, c⟩ := g.count o' k' n' h
      simp only [users, countP_cons_proc] at a ⊢
      rw [if_neg (fun e => ho e.symm)]
      refine ⟨?_, ?_, c⟩ <;> omega
  · intro o1 o2 k' n1 n2 h1 h2
    simp only [setEntry] at h1 h2
    split at h1 <;> split at h2
    · rename_i a b; exact a.trans b.symm
    · cases h1; have := (g.count _ _ _ h2).2.1; omega
    · cases h2; have := (g.count _ _ _ h1).2.1; omega
    · exact g.inj _ _ _ _ _ h1 h2

theorem kgood_step (s u : Keys) (l : KLabel) (h : kstep s l = some u) (g : KGood s) : KGood u := by
  cases l with
  | hit o =>
    simp only [kstep] at h
    split at h
    · rename_i k n he; cases h; exact kgood_add s o k n s.missed 0 he g
    · cases h
  | miss o =>
    simp only [kstep] at h
    split at h
    · cases h
    · cases h; exact ⟨g.held, g.count, g.inj⟩
  | insert o =>
    simp only [kstep] at h
    split at h
    · split at h
      · rename_i k n he; cases h; exact kgood_add s o k n _ 1 he g
      · rename_i he; cases h; exact kgood_new s o _ he g
    · cases h
  | put o k =>
    simp only [kstep] at h
    split at h
    · rename_i hm
      obtain ⟨n, he⟩ := g.held o k (Or.inl hm)
      obtain ⟨hn, hk, hp⟩ := g.count o k n he
      rw [he] at h
      simp only [Option.getD_some] at h
      cases h
      have ce := fun o' => countP_erase_proc o o' k s.holders hm
      have keep : ∀ o' k', (o', k') ∈ s.holders.erase (o, k) ∨ (o', k') ∈ s.leaked → (o', k') ∈ s.holders ∨ (o', k') ∈ s.leaked :=
        fun o' k' h => h.imp List.mem_of_mem_erase id
      refine ⟨?_, ?_, ?_⟩
      · intro o' k' h
        obtain ⟨n', e⟩ := g.held o' k' (keep o' k' h)
        by_cases ho : o' = o
        · subst ho
          rw [he] at e; cases e
          have : n - 1 ≠ 0 := by
            have c1 := ce o'
            rw [if_pos rfl] at c1
            have : 0 < (s.holders.erase (o', k)).countP (fun x => x.1 = o') + s.leaked.countP (fun x => x.1 = o') := by
              rcases h with h | h
              · exact Nat.add_pos_left (mem_countP_pos _ _ _ h) _
              · exact Nat.add_pos_right _ (mem_countP_pos _ _ _ h)
            simp only [users] at hn
            omega
          refine ⟨n - 1, ?_⟩
          exact (setEntry_same _ _ _).trans (if_neg this)
        · exact ⟨n', (setEntry_other _ _ _ _ ho).trans e⟩
      · intro o' k' n' h
        by_cases ho : o' = o
        · subst ho
          have h : (if n - 1 = 0 then none else some (k, n - 1)) = some (k', n') := (setEntry_same s.entry o' _).symm.trans h
          split at h
          · cases h
          · cases h
            have c1 := ce o'
            rw [if_pos rfl] at c1
            simp only [users] at hn ⊢
            refine ⟨?_, hk, ?_⟩ <;> omega
        · have h : s.entry o' = some (k', n') := (setEntry_other s.entry o o' _ ho).symm.trans h
          obtain ⟨a, b, c⟩ := g.count o' k' n' h
          have c1 := ce o'
          rw [if_neg (fun e => ho e.symm)] at c1
          simp only [users] at a ⊢
          refine ⟨?_, b, c⟩
          omega
      · intro o1 o2 k' n1 n2 h1 h2
        have f : ∀ o', ∀ n', setEntry s.entry o (if n - 1 = 0 then none else some (k, n - 1)) o' = some (k', n') → ∃ n', s.entry o' = some (k', n') := by
          intro o' n' h
          by_cases ho : o' = o
          · subst ho
            rw [setEntry_same] at h
            split at h
            · cases h
            · cases h; exact ⟨n, he⟩
          · rw [setEntry_other _ _ _ _ ho] at h; exact ⟨n', h⟩
        obtain ⟨a, ha⟩ := f o1 n1 h1
        obtain ⟨b, hb⟩ := f o2 n2 h2
        exact g.inj o1 o2 k' a b ha hb
    · cases h
  | leak o k =>
    simp only [kstep] at h
    split at h
    · rename_i hm
      cases h
      have ce := fun o' => countP_erase_proc o o' k s.holders hm
      refine ⟨?_, ?_, g.inj⟩
      · intro o' k' h
        apply g.held o' k'
        rcases h with h | h
        · exact Or.inl (List.mem_of_mem_erase h)
        · rcases List.mem_cons.mp h with h | h
          · cases h; exact Or.inl hm
          · exact Or.inr h
      · intro o' k' n' h
        obtain ⟨a, b, c⟩ := g.count o' k' n' h
        refine ⟨?_, b, c⟩
        have c1 := ce o'
        simp only [users, countP_cons_proc] at a ⊢
        omega
    · cases h

theorem krun_good (ls : List KLabel) (s u : Keys) (h : krun s ls = some u) (g : KGood s) : KGood u := by
  induction ls generalizing s with
  | nil => cases h; exact g
  | cons l ls ih =>
    simp only [krun] at h
    cases hs : kstep s l with
    | none => rw [hs] at h; cases h
    | some v => rw [hs] at h; exact ih v h (kgood_step s v l hs g)

/-- C119: all services' instances of a process are told the same key. -/
theorem same_process_same_key (ls : List KLabel) (s : Keys) (h : krun {} ls = some s) (o k k' : Nat) (h1 : (o, k) ∈ s.holders) (h2 : (o, k') ∈ s.holders) : k = k' := by
  have g := krun_good ls {} s h kgood_init
  obtain ⟨n, e⟩ := g.held o k (Or.inl h1)
  obtain ⟨n', e'⟩ := g.held o k' (Or.inl h2)
  rw [e] at e'; cases e'; rfl

/-- C119: and instances of different processes are told different keys. -/
theorem other_process_other_key (ls : List KLabel) (s : Keys) (h : krun {} ls = some s) (o o' k k' : Nat) (h1 : (o, k) ∈ s.holders) (h2 : (o', k') ∈ s.holders) (ho : o ≠ o') : k ≠ k' := by
  have g := krun_good ls {} s h kgood_init
  obtain ⟨n, e⟩ := g.held o k (Or.inl h1)
  obtain ⟨n', e'⟩ := g.held o' k' (Or.inl h2)
  intro hk
  subst hk
  exact ho (g.inj o o' k n n' e e')

/-- C119: a process' key is remembered exactly as long as it has such instances - provided that none has been abandoned by a failed start. -/
theorem remembered_iff_partial (ls : List KLabel) (s : Keys) (h : krun {} ls = some s) (hl : s.leaked = []) (o : Nat) : s.entry o ≠ none ↔ ∃ k, (o, k) ∈ s.holders := by
  have g := krun_good ls {} s h kgood_init
  constructor
  · intro he
    cases e : s.entry o with
    | none => exact absurd e he
    | some x =>
      obtain ⟨k, n⟩ := x
      obtain ⟨a, _, c⟩ := g.count o k n e
      simp only [users, hl, List.countP_nil] at a
      exact countP_pos_mem o s.holders (by omega)
  · rintro ⟨k, hk⟩ he
    obtain ⟨n, e⟩ := g.held o k (Or.inl hk)
    rw [e] at he; cases he

theorem leaked_stays (ls : List KLabel) (s u : Keys) (h : krun s ls = some u) (x : Nat × Nat) (hx : x ∈ s.leaked) : x ∈ u.leaked := by
  induction ls generalizing s with
  | nil => cases h; exact hx
  | cons l ls ih =>
    simp only [krun] at h
    cases hs : kstep s l with
    | none => rw [hs] at h; cases h
    | some v =>
      rw [hs] at h
      refine ih v h ?_
      cases l <;> simp only [kstep] at hs
      · split at hs <;> cases hs; exact hx
      · split at hs <;> cases hs; exact hx
      · split at hs
        · split at hs <;> cases hs <;> exact hx
        · cases hs
      · split at hs <;> cases hs; exact hx
      · split at hs <;> cases hs; exact List.mem_cons_of_mem _ hx

theorem krun_append (a b : List KLabel) (s : Keys) : krun s (a ++ b) = (krun s a).bind (krun · b) := by
  induction a generalizing s with
  | nil => rfl
  | cons l a ih =>
    simp only [List.cons_append, krun]
    cases kstep s l with
    | none => rfl
    | some v => exact ih v

/-- C119, refuted: once a start of services has failed after an instance had been created, the process' key is remembered forever. -/
theorem leaked_refuted (ls ls' : List KLabel) (s u : Keys) (h : krun {} ls = some s) (o k : Nat) (hx : (o, k) ∈ s.leaked) (h' : krun s ls' = some u) : ∃ n, u.entry o = some (k, n) := by
  have hr : krun {} (ls ++ ls') = some u := by rw [krun_append, h]; exact h'
  exact (krun_good _ _ _ hr kgood_init).held o k (Or.inr (leaked_stays ls' s u h' _ hx))

example : ∃ s, krun {} [.miss 0, .insert 0, .leak 0 0] = some s ∧ (0, 0) ∈ s.leaked := ⟨_, rfl, by simp⟩

/-- Two instances of one process, created at the same time, and one of another process. -/
example : (krun {} [.miss 0, .miss 0, .insert 0, .insert 0, .miss 7, .insert 7, .put 0 0]).map (fun s => (s.holders, s.entry 0, s.entry 7)) = some ([(7, 2), (0, 0)], some (0, 1), some (2, 1)) := by decide +kernel

/-! ### C120: specification -/

/-- A packet with its code field (bytes 4 and 5) set. -/
def coded (code : Int) (p : Bytes) : Bytes := p.take 4 ++ le 2 (toUnsigned 16 code) ++ p.drop 6

/-- A packet with its size field (the first four bytes) set. -/
def sized (p : Bytes) : Bytes := le 4 p.length ++ p.drop 4

/-- A buffer consists of these packets, one after the other, each with its length in its size field. -/
inductive Framed : Bytes → List Bytes → Prop where
  | nil : Framed [] []
  | cons (p b : Bytes) (ps : List Bytes) : 8 ≤ p.length → unle (p.take 4) = p.length → Framed b ps → Framed (p ++ b) (p :: ps)

/-- That tells what the packets are. -/
theorem framed_unique (b : Bytes) (ps qs : List Bytes) (h1 : Framed b ps) (h2 : Framed b qs) : ps = qs := by
  induction h1 generalizing qs with
  | nil =>
    generalize hb : ([] : Bytes) = b at h2
    cases h2 with
    | nil => rfl
    | cons p b' ps' hl _ _ =>
      have := congrArg List.length hb
      simp only [List.length_nil, List.length_append] at this; omega
  | cons p b ps hl hs _ ih =>
    generalize hb : p ++ b = c at h2
    cases h2 with
    | nil =>
      have := congrArg List.length hb
      simp only [List.length_nil, List.length_append] at this; omega
    | cons q d qs hl' hs' h' =>
      have ht : p.take 4 = q.take 4 := by
        have := congrArg (List.take 4) hb
        rwa [List.take_append_of_le_length (by omega), List.take_append_of_le_length (by omega)] at this
      have e : p.length = q.length := by rw [← hs, ← hs', ht]
      obtain ⟨h3, h4⟩ := List.append_inj hb e
      subst h3; subst h4
      rw [ih qs h']

theorem framed_one (p : Bytes) (h1 : 8 ≤ p.length) (h2 : unle (p.take 4) = p.length) : Framed p [p] := by
  have := Framed.cons p [] [] h1 h2 .nil
  rwa [List.append_nil] at this

theorem framed_snoc (b p : Bytes) (ps : List Bytes) (h : Framed b ps) (h1 : 8 ≤ p.length) (h2 : unle (p.take 4) = p.length) : Framed (b ++ p) (ps ++ [p]) := by
  induction h with
  | nil => exact framed_one p h1 h2
  | cons q b ps hl hs _ ih => rw [List.append_assoc]; exact .cons q _ _ hl hs ih

/-! ### C120: from the service to the program -/

theorem setCode_eq (p : Bytes) (code : Int) (h : 6 ≤ p.length) : setCode p code = .ok (coded code p) := by
  refine (if_pos h).trans ?_
  simp [putAt, coded]

theorem setCode_short (p : Bytes) (code : Int) (h : p.length < 6) : setCode p code = .panic := if_neg (by omega)

theorem setSize_eq (p : Bytes) (h : 4 ≤ p.length) (h' : p.length < 2 ^ 32) : setSize p = .ok (sized p) := by
  refine (if_neg (by omega)).trans ((if_pos (by omega)).trans ?_)
  simp [putAt, sized]

theorem coded_length (p : Bytes) (code : Int) (h : 6 ≤ p.length) : (coded code p).length = p.length := by
  simp [coded]; omega

theorem sized_length (p : Bytes) (h : 4 ≤ p.length) : (sized p).length = p.length := by simp [sized]; omega

theorem sized_size (p : Bytes) (h : p.length < 2 ^ 32) : unle ((sized p).take 4) = p.length := by
  have : (sized p).take 4 = le 4 p.length := by simp [sized]
  rw [this, unle_le_of_lt (by simpa using h)]

/-- Packets within the limits. -/
def Fine (p : Bytes) : Prop := 8 ≤ p.length ∧ p.length ≤ Framing.maxPacketSize

theorem fine_framed (p : Bytes) (h : Fine p) : 8 ≤ (sized p).length ∧ unle ((sized p).take 4) = (sized p).length := by
  obtain ⟨h1, h2⟩ := h
  simp only [Framing.maxPacketSize] at h2
  rw [sized_size p (by omega), sized_length p (by omega)]
  exact ⟨h1, rfl⟩

/-- What's in the buffer: the packet at hand, with its code, and those received after that, all with their sizes. -/
structure Buffered (code : Int) (recvd out : List Bytes) (b : Bytes) : Prop where
  parts : ∃ ps p qs, recvd = ps ++ p :: qs ∧ out = ps.map (coded code) ∧ Framed b (sized (coded code p) :: qs.map sized)

/-- As long as all is well. -/
structure Good (code : Int) (t : St) : Prop where
  all : t.sent = t.recvd ++ t.stream
  fine : (∀ p ∈ t.sent, Fine p) → t.crashed = false ∧ (t.canceled = false → t.aborted = false)
  fwd : (∀ p ∈ t.sent, Fine p) → match t.fwd with
    | .recv => t.out = t.recvd.map (coded code)
    | .holding q => ∃ ps p, t.recvd = ps ++ [p] ∧ q = coded code p ∧ t.out = ps.map (coded code)
    | .buffering b => t.inner = true ∧ Buffered code t.recvd t.out b
    | .done none => (t.aborted = true ∨ t.stream = []) ∧ t.out = t.recvd.map (coded code)
    | .done (some b) => (t.aborted = true ∨ t.stream = []) ∧ Buffered code t.recvd t.out b
  ended : ∀ l, t.fwd = .done l → t.closed = true ∨ t.aborted = true

theorem good_init (code : Int) : Good code {} := ⟨rfl, fun _ => ⟨rfl, fun _ => rfl⟩, fun _ => rfl, fun _ h => (by cases h)⟩

theorem good_step (code : Int) (t u : St) (l : Label) (h : step code t l = some u) (g : Good code t) : Good code u := by
  cases l with
  | send p =>
    simp only [step] at h
    split at h
    · rename_i hc
      cases h
      have sub : (∀ q ∈ t.sent ++ [p], Fine q) → ∀ q ∈ t.sent, Fine q := fun hf q hq => hf q (List.mem_append_left _ hq)
      refine ⟨by simp only [g.all, List.append_assoc], fun hf => g.fine (sub hf), fun hf => ?_, g.ended⟩
      have := g.fwd (sub hf)
      have he := g.ended
      revert this he
      simp only
      cases t.fwd with
      | done l =>
        intro this he
        have ha : t.aborted = true := (he l rfl).resolve_left (by rw [hc.1]; decide)
        cases l with
        | none => exact ⟨Or.inl ha, this.2⟩
        | some b => exact ⟨Or.inl ha, this.2⟩
      | _ => exact fun this _ => this
    · cases h
  | close =>
    simp only [step] at h
    split at h
    · cases h
      exact ⟨g.all, g.fine, g.fwd, fun l hl => Or.inl rfl⟩
    · cases h
  | cancel =>
    simp only [step] at h
    split at h
    · cases h
      refine ⟨g.all, fun hf => ⟨(g.fine hf).1, fun e => (by cases e)⟩, fun hf => ?_, g.ended⟩
      have := g.fwd hf
      revert this
      simp only
      cases t.fwd with
      | done l => cases l <;> exact fun this => this
      | buffering b => exact fun this => ⟨trivial, this.2⟩
      | _ => exact fun this => this
    · cases h
  | stop =>
    simp only [step] at h
    split at h
    · cases h
      refine ⟨g.all, g.fine, fun hf => ?_, g.ended⟩
      have := g.fwd hf
      revert this
      simp only
      cases t.fwd with
      | done l => cases l <;> exact fun this => this
      | buffering b => exact fun this => ⟨trivial, this.2⟩
      | _ => exact fun this => this
    · cases h
  | recv =>
    simp only [step] at h
    split at h
    · rename_i p rest hw hs
      have mem : p ∈ t.sent := by rw [g.all, hs]; simp
      split at h
      · cases h
      · split at h
        · rename_i q hq
          cases h
          refine ⟨by rw [g.all, hs]; simp, fun hf => ?_, fun hf => ?_, fun l hl => (by cases hl)⟩
          · refine ⟨(g.fine hf).1, fun hc => ?_⟩
            have := (hf p mem).1
            simp only [(g.fine hf).2 hc, tooShort, headerSize, Bool.false_or]; exact decide_eq_false (by omega)
          · have := (hf p mem).1
            rw [setCode_eq p code (by omega)] at hq
            cases hq
            have i := g.fwd hf
            rw [hw] at i
            exact ⟨t.recvd, p, rfl, rfl, i⟩
        · rename_i hq
          cases h
          refine ⟨by rw [g.all, hs]; simp, fun hf => ?_, fun hf => ?_, ?_⟩
          · have := (hf p mem).1
            exact absurd (setCode_eq p code (by omega)) (hq _)
          · have := (hf p mem).1
            exact absurd (setCode_eq p code (by omega)) (hq _)
          · intro l hl; simp only at hl; rw [hw] at hl; cases hl
    · cases h
  | forward =>
    simp only [step] at h
    split at h
    · rename_i q hw
      split at h
      · cases h
      · split at h
        · rename_i hl
          cases h
          have bad : ¬ ∀ p ∈ t.sent, Fine p := by
            intro hf
            have i := g.fwd hf
            rw [hw] at i
            obtain ⟨ps, p, e1, e2, _⟩ := i
            have f := hf p (by rw [g.all, e1]; simp)
            rw [e2, coded_length p code (by have := f.1; omega)] at hl
            have f1 := f.1
            have f2 := f.2
            simp only [headerSize] at hl
            omega
          exact ⟨g.all, fun hf => absurd hf bad, fun hf => absurd hf bad, fun l hl => (by cases hl)⟩
        · cases h
          refine ⟨g.all, g.fine, fun hf => ?_, fun l hl => (by cases hl)⟩
          have i := g.fwd hf
          rw [hw] at i
          obtain ⟨ps, p, e1, e2, e3⟩ := i
          simp only [e1, e2, e3, List.map_append, List.map_cons, List.map_nil]
    · cases h
  | leave =>
    simp only [step] at h
    split at h
    · rename_i q hw
      split at h
      · cases h
      · rename_i hin
        have hin : t.inner = true := by
          cases hi : t.inner with
          | true => rfl
          | false => exact absurd (Or.inr hi) hin
        have sz : (∀ p ∈ t.sent, Fine p) → ∃ ps p, t.recvd = ps ++ [p] ∧ q = coded code p ∧ t.out = ps.map (coded code) ∧ Fine p ∧ Fine q ∧ setSize q = .ok (sized q) := by
          intro hf
          have i := g.fwd hf
          rw [hw] at i
          obtain ⟨ps, p, e1, e2, e3⟩ := i
          have f := hf p (by rw [g.all, e1]; simp)
          have f1 := f.1
          have f2 := f.2
          have el : q.length = p.length := by rw [e2, coded_length p code (by omega)]
          have fq : Fine q := ⟨by omega, by omega⟩
          simp only [Framing.maxPacketSize] at f2
          exact ⟨ps, p, e1, e2, e3, f, fq, setSize_eq q (by omega) (by omega)⟩
        split at h
        · rename_i r hr
          cases h
          refine ⟨g.all, g.fine, fun hf => ?_, fun l hl => (by cases hl)⟩
          obtain ⟨ps, p, e1, e2, e3, _, fq, e4⟩ := sz hf
          rw [e4] at hr
          cases hr
          refine ⟨hin, ⟨ps, p, [], e1, e3, ?_⟩⟩
          rw [← e2]
          have := fine_framed q fq
          exact framed_one _ this.1 this.2
        · rename_i hr
          cases h
          refine ⟨g.all, fun hf => ?_, fun hf => ?_, ?_⟩
          · obtain ⟨_, _, _, _, _, _, _, e4⟩ := sz hf; exact absurd e4 (hr _)
          · obtain ⟨_, _, _, _, _, _, _, e4⟩ := sz hf; exact absurd e4 (hr _)
          · intro l hl; simp only at hl; rw [hw] at hl; cases hl
    · cases h
  | buffer =>
    simp only [step] at h
    split at h
    · rename_i b p rest hw hs
      have mem : p ∈ t.sent := by rw [g.all, hs]; simp
      have sz : (∀ p ∈ t.sent, Fine p) → setSize p = .ok (sized p) := by
        intro hf
        have f1 := (hf p mem).1
        have f2 := (hf p mem).2
        simp only [Framing.maxPacketSize] at f2
        exact setSize_eq p (by omega) (by omega)
      split at h
      · cases h
      · split at h
        · rename_i r hr
          cases h
          refine ⟨by rw [g.all, hs]; simp, fun hf => ?_, fun hf => ?_, fun l hl => (by cases hl)⟩
          · refine ⟨(g.fine hf).1, fun hc => ?_⟩
            have := (hf p mem).1
            simp only [(g.fine hf).2 hc, tooShort, headerSize, Bool.false_or]; exact decide_eq_false (by omega)
          · rw [sz hf] at hr
            cases hr
            have i := g.fwd hf
            rw [hw] at i
            obtain ⟨hi, ps, p0, qs, e1, e2, e3⟩ := i
            have ff := fine_framed p (hf p mem)
            refine ⟨hi, ⟨ps, p0, qs ++ [p], by rw [e1]; simp, e2, ?_⟩⟩
            rw [List.map_append, ← List.cons_append]
            exact framed_snoc b (sized p) _ e3 ff.1 ff.2
        · rename_i hr
          cases h
          refine ⟨by rw [g.all, hs]; simp, fun hf => absurd (sz hf) (hr _), fun hf => absurd (sz hf) (hr _), ?_⟩
          intro l hl; simp only at hl; rw [hw] at hl; cases hl
    · cases h
  | eof =>
    simp only [step] at h
    split at h
    · rename_i hc
      split at h
      · rename_i hw
        cases h
        refine ⟨g.all, g.fine, fun hf => ?_, fun l hl => Or.inl hc.2.1⟩
        have i := g.fwd hf
        rw [hw] at i
        exact ⟨Or.inr hc.2.2, i⟩
      · rename_i b hw
        cases h
        refine ⟨g.all, g.fine, fun hf => ?_, fun l hl => Or.inl hc.2.1⟩
        have i := g.fwd hf
        rw [hw] at i
        exact ⟨Or.inr hc.2.2, i.2⟩
      · cases h
    · cases h
  | fail =>
    simp only [step] at h
    split at h
    · rename_i hc
      split at h
      · rename_i hw
        cases h
        refine ⟨g.all, fun hf => ⟨(g.fine hf).1, fun e => absurd (hc.2.symm.trans e) (by decide)⟩, fun hf => ?_, fun l hl => Or.inr rfl⟩
        have i := g.fwd hf
        rw [hw] at i
        exact ⟨Or.inl rfl, i⟩
      · rename_i b hw
        cases h
        refine ⟨g.all, fun hf => ⟨(g.fine hf).1, fun e => absurd (hc.2.symm.trans e) (by decide)⟩, fun hf => ?_, fun l hl => Or.inr rfl⟩
        have i := g.fwd hf
        rw [hw] at i
        exact ⟨Or.inl rfl, i.2⟩
      · cases h
    · cases h

theorem good (code : Int) (ls : List Label) (t : St) (h : Reachable code ls t) : Good code t := by
  have : ∀ (ls : List Label) (s : St), run code s ls = some t → Good code s → Good code t := by
    intro ls
    induction ls with
    | nil => intro s h g; cases h; exact g
    | cons l ls ih =>
      intro s h g
      simp only [run] at h
      cases hs : step code s l with
      | none => rw [hs] at h; cases h
      | some v => rw [hs] at h; exact ih v h (good_step code s v l hs g)
  exact this ls {} h (good_init code)

/-- C120: a service which sends packets within the limits doesn't harm the server, and isn't the reason for aborting. -/
theorem no_crash_partial (code : Int) (ls : List Label) (t : St) (h : Reachable code ls t) (hf : ∀ p ∈ t.sent, Fine p) : t.crashed = false ∧ (t.canceled = false → t.aborted = false) :=
  (good code ls t h).fine hf

/-- C120: the program is given the beginning of what the service has sent: in order, once each, with the service's code in them, otherwise unchanged. -/
theorem given_in_order (code : Int) (ls : List Label) (t : St) (h : Reachable code ls t) (hf : ∀ p ∈ t.sent, Fine p) : ∃ ps qs, t.sent = ps ++ qs ∧ t.out = ps.map (coded code) := by
  have g := good code ls t h
  have i := g.fwd hf
  have a := g.all
  revert i
  cases t.fwd with
  | recv => intro i; exact ⟨_, _, a, i⟩
  | holding q => rintro ⟨ps, p, e1, _, e3⟩; exact ⟨ps, p :: t.stream, by rw [a, e1]; simp, e3⟩
  | buffering b => rintro ⟨_, ps, p, qs, e1, e2, _⟩; exact ⟨ps, p :: qs ++ t.stream, by rw [a, e1]; simp, e2⟩
  | done l =>
    cases l with
    | none => rintro ⟨_, i⟩; exact ⟨_, _, a, i⟩
    | some b => rintro ⟨_, ps, p, qs, e1, e2, _⟩; exact ⟨ps, p :: qs ++ t.stream, by rw [a, e1]; simp, e2⟩

/-- C120: when the service has been suspended (it has closed the stream, and nothing was canceled from outside), everything it has sent has been given to the program, or is in the `outgoing` buffer which becomes part of the service's snapshot;
the buffer's packets can be told apart. -/
theorem nothing_lost_partial (code : Int) (ls : List Label) (t : St) (h : Reachable code ls t) (hf : ∀ p ∈ t.sent, Fine p) (hc : t.canceled = false) (left : Option Bytes) (hd : t.fwd = .done left) :
    (left = none ∧ t.out = t.sent.map (coded code)) ∨
    ∃ b ps p qs, left = some b ∧ t.sent = ps ++ p :: qs ∧ t.out = ps.map (coded code) ∧ Framed b (sized (coded code p) :: qs.map sized) := by
  have g := good code ls t h
  have na := (g.fine hf).2 hc
  have i := g.fwd hf
  rw [hd] at i
  cases left with
  | none =>
    obtain ⟨h1, h2⟩ := i
    have h1 := h1.resolve_left (by rw [na]; decide)
    refine Or.inl ⟨rfl, ?_⟩
    rw [h2, g.all, h1, List.append_nil]
  | some b =>
    obtain ⟨h1, ps, p, qs, e1, e2, e3⟩ := i
    have h1 := h1.resolve_left (by rw [na]; decide)
    exact Or.inr ⟨b, ps, p, qs, rfl, by rw [g.all, h1, List.append_nil, e1], e2, e3⟩

/-- How many steps the goroutine has to make. -/
def togo (t : St) : Nat :=
  match t.fwd with
  | .recv => 2 * t.stream.length + 2
  | .holding _ => 2 * t.stream.length + 3
  | .buffering _ => 2 * t.stream.length + 1
  | .done _ => 0

/-- C120: once the services have been told to stop and the stream has been closed, the goroutine finishes (Suspend doesn't wait forever), in a bounded number of steps, or the process crashes. -/
theorem finishes (code : Int) (t : St) (hi : t.inner = true) (hc : t.closed = true) (hcr : t.crashed = false) (hd : ∀ l, t.fwd ≠ .done l) :
    (∃ l u, (l = .recv ∨ l = .leave ∨ l = .buffer ∨ l = .eof) ∧ step code t l = some u) ∧
    ∀ l u, step code t l = some u → l ≠ .close → l ≠ .cancel → l ≠ .stop → (togo u < togo t ∨ u.crashed = true) := by
  constructor
  · cases hw : t.fwd with
    | recv =>
      cases hs : t.stream with
      | nil => exact ⟨.eof, _, by simp, by simp only [step, hw]; exact if_pos ⟨hcr, hc, hs⟩⟩
      | cons p r =>
        refine ⟨.recv, ?_⟩
        simp only [step, hw, hs, hcr]
        cases setCode p code <;> exact ⟨_, by simp, rfl⟩
    | holding q =>
      refine ⟨.leave, ?_⟩
      simp only [step, hw, hcr, hi]
      cases setSize q <;> exact ⟨_, by simp, rfl⟩
    | buffering b =>
      cases hs : t.stream with
      | nil => exact ⟨.eof, _, by simp, by simp only [step, hw]; exact if_pos ⟨hcr, hc, hs⟩⟩
      | cons p r =>
        refine ⟨.buffer, ?_⟩
        simp only [step, hw, hs, hcr]
        cases setSize p <;> exact ⟨_, by simp, rfl⟩
    | done l => exact absurd hw (hd l)
  · intro l u h h1 h2 h3
    cases l with
    | close => exact absurd rfl h1
    | cancel => exact absurd rfl h2
    | stop => exact absurd rfl h3
    | send p => simp [step, hc] at h
    | recv =>
      simp only [step] at h
      split at h
      · rename_i p rest hw hs
        split at h
        · cases h
        · split at h <;> cases h
          · left; simp only [togo, hw, hs, List.length_cons]; omega
          · exact Or.inr rfl
      · cases h
    | forward =>
      simp only [step] at h
      split at h
      · rename_i q hw
        split at h
        · cases h
        · split at h <;> cases h
          · exact Or.inr rfl
          · left; simp only [togo, hw]; omega
      · cases h
    | leave =>
      simp only [step] at h
      split at h
      · rename_i q hw
        split at h
        · cases h
        · split at h <;> cases h
          · left; simp only [togo, hw]; omega
          · exact Or.inr rfl
      · cases h
    | buffer =>
      simp only [step] at h
      split at h
      · rename_i b p rest hw hs
        split at h
        · cases h
        · split at h <;> cases h
          · left; simp only [togo, hw, hs, List.length_cons]; omega
          · exact Or.inr rfl
      · cases h
    | eof =>
      simp only [step] at h
      split at h
      · split at h
        · rename_i hw; cases h; left; simp only [togo, hw]; omega
        · rename_i hw; cases h; left; simp only [togo, hw]; omega
        · cases h
      · cases h
    | fail =>
      simp only [step] at h
      split at h
      · split at h
        · rename_i hw; cases h; left; simp only [togo, hw]; omega
        · rename_i hw; cases h; left; simp only [togo, hw]; omega
        · cases h
      · cases h

/-- C120, refuted: a service which sends a packet of less than six bytes crashes the server: the length is checked, and reported, but the packet is used nevertheless. -/
theorem short_crashes_refuted (code : Int) (p : Bytes) (h : p.length < 6) : ∃ t, Reachable code [.send p, .recv] t ∧ t.crashed = true := by
  refine ⟨{ sent := [p], recvd := [p], aborted := true, crashed := true }, ?_, rfl⟩
  have : tooShort p = true := decide_eq_true (show p.length < 8 by omega)
  simp [Reachable, run, step, setCode_short p code h, this]

/-- C120, refuted: so does one of six or seven bytes, or one longer than what a program may be sent, when the I/O loop receives it. -/
theorem length_crashes_refuted (code : Int) (p : Bytes) (h : p.length = 6 ∨ p.length = 7 ∨ 65536 < p.length) : ∃ t, Reachable code [.send p, .recv, .forward] t ∧ t.crashed = true := by
  have h6 : 6 ≤ p.length := by omega
  have hl := coded_length p code h6
  refine ⟨{ sent := [p], recvd := [p], aborted := tooShort p, crashed := true }, ?_, rfl⟩
  have : (coded code p).length < headerSize ∨ (coded code p).length > Framing.maxPacketSize := by simp only [headerSize, Framing.maxPacketSize]; omega
  simp [Reachable, run, step, setCode_eq p code h6, this]

/-- C120, refuted: when the context is canceled from outside (the client disconnects), which should suspend the program, the stream may fail: packets are lost, and abort is called, which ends the program's run with an error instead. -/
theorem canceled_refuted (code : Int) (p q : Bytes) : ∃ t, Reachable code [.send p, .send q, .cancel, .fail] t ∧ t.fwd = .done none ∧ t.out = [] ∧ t.aborted = true :=
  ⟨{ sent := [p, q], stream := [p, q], canceled := true, inner := true, fwd := .done none, aborted := true }, by simp [Reachable, run, step], rfl, rfl, rfl⟩

example : ∃ t, Reachable 3 [.send (List.replicate 8 0), .recv, .forward, .send (List.replicate 9 1), .send (List.replicate 10 2), .recv, .stop, .leave, .close, .buffer, .eof] t ∧
    t.out = [[0, 0, 0, 0, 3, 0, 0, 0]] ∧ t.fwd = .done (some [9, 0, 0, 0, 3, 0, 1, 1, 1, 10, 0, 0, 0, 2, 2, 2, 2, 2, 2]) ∧ t.canceled = false :=
  ⟨_, rfl, by decide +kernel, by decide +kernel, rfl⟩

/-! ### C120: from the program to the service -/

theorem handleAll_spec (l : List (Bytes × Rpc)) (s u : In) (qs : List Bytes) (hp : ∀ x ∈ l, 8 ≤ x.1.length ∧ unle (x.1.take 4) = x.1.length) (ha : ∀ x ∈ l, x.2 ≠ .ambiguous)
    (hs : Framed s.incoming qs) (h : handleAll s l = .ok u) : ∃ rs ws, u.remote = s.remote ++ rs ∧ Framed u.incoming (qs ++ ws) ∧ rs ++ ws = l.map (·.1) ∧ (qs ≠ [] → rs = []) := by
  induction l generalizing s qs with
  | nil => cases h; exact ⟨[], [], by simp, by simpa using hs, rfl, fun _ => rfl⟩
  | cons x l ih =>
    obtain ⟨p, r⟩ := x
    have hp1 := hp (p, r) List.mem_cons_self
    have ha1 := ha (p, r) List.mem_cons_self
    have hp2 := fun x hx => hp x (List.mem_cons_of_mem _ hx)
    have ha2 := fun x hx => ha x (List.mem_cons_of_mem _ hx)
    simp only [handleAll] at h
    have buf : ∀ v : In, v.remote = s.remote → v.incoming = s.incoming ++ p → handleAll v l = .ok u → ∃ rs ws, u.remote = s.remote ++ rs ∧ Framed u.incoming (qs ++ ws) ∧ rs ++ ws = ((p, r) :: l).map (·.1) ∧ (qs ≠ [] → rs = []) := by
      intro v e1 e2 hv
      obtain ⟨rs, ws, f1, f2, f3, f4⟩ := ih v (qs ++ [p]) hp2 ha2 (e2 ▸ framed_snoc _ _ _ hs hp1.1 hp1.2) hv
      have : rs = [] := f4 (by simp)
      subst this
      refine ⟨[], p :: ws, by rw [f1, e1], by simpa using f2, ?_, fun _ => rfl⟩
      simpa using f3
    unfold handle at h
    split at h
    · rename_i hz
      have hz := List.length_eq_zero_iff.mp hz
      have hq : qs = [] := by rw [hz] at hs; exact framed_unique _ _ _ hs .nil
      cases r with
      | ok =>
        obtain ⟨rs, ws, f1, f2, f3, _⟩ := ih { s with remote := s.remote ++ [p] } qs hp2 ha2 hs h
        exact ⟨p :: rs, ws, by rw [f1]; simp, f2, by simp [← f3], fun hn => absurd hq hn⟩
      | ambiguous => exact absurd rfl ha1
      | lost => exact buf { s with incoming := s.incoming ++ p } rfl rfl h
      | failed => cases h
    · exact buf { s with incoming := s.incoming ++ p } rfl rfl h

/-- C120: the packets which a program sends to the service are handled by it, or are in the `incoming` buffer which becomes part of its snapshot: in order, once each - unless the context is canceled when the service has handled a packet, but its answer hasn't arrived. -/
theorem handled_once_partial (l : List (Bytes × Rpc)) (u : In) (hp : ∀ x ∈ l, 8 ≤ x.1.length ∧ unle (x.1.take 4) = x.1.length) (ha : ∀ x ∈ l, x.2 ≠ .ambiguous) (h : handleAll {} l = .ok u) :
    ∃ ws, Framed u.incoming ws ∧ u.remote ++ ws = l.map (·.1) := by
  obtain ⟨rs, ws, h1, h2, h3, _⟩ := handleAll_spec l {} u [] hp ha .nil h
  refine ⟨ws, h2, ?_⟩
  rw [h1]; exact h3

/-- C120, refuted: in that case a packet is handled, and is in the buffer as well. -/
theorem handled_twice_refuted (p : Bytes) : handleAll {} [(p, .ambiguous)] = .ok { remote := [p], incoming := p } := rfl

example : handleAll {} [([8, 0, 0, 0, 0, 0, 0, 0], .ok), ([9, 0, 0, 0, 0, 0, 0, 0, 1], .lost), ([8, 0, 0, 0, 0, 0, 0, 2], .ok)] = .ok { remote := [[8, 0, 0, 0, 0, 0, 0, 0]], incoming := [9, 0, 0, 0, 0, 0, 0, 0, 1, 8, 0, 0, 0, 0, 0, 0, 2] } := rfl

end Gate.Grpc
