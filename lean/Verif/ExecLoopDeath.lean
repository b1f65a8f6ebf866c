import Verif.ExecLoopBudget
/-
C134: what the executor dies of.
-/
namespace Gate.ExecLoop

/-! ### Specification -/

/-- A request which the peer must not make, or can't be carried out, in a history; with the executor's exit status.  The
number of descriptors is at most three in the requests of `asked`. -/
inductive Bad (asked : List Req) (log : List Act) (r : Req) : Nat → Prop
  | range : 16384 ≤ r.id → Bad asked log r 34
  | op : r.op = .other → Bad asked log r 33
  | noFds : r.op = .create → r.fds = 0 → Bad asked log r 35
  | fds : (r.op = .kill ∨ r.op = .suspend) → r.fds ≠ 0 → Bad asked log r 35
  | fdNum : r.op = .create → r.fds ≠ 2 → r.fds ≠ 3 → Bad asked log r 38
  | exists (n : Nat) : r.op = .create → (r.id, n) ∈ alive log → Bad asked log r 40
  | crowd (c : Nat) : (c = 16 ∨ c = 32 ∨ c = 50) → ((∀ q ∈ asked, q.fds ≤ 3) → 16005 ≤ (alive log).length) → Bad asked log r c

/-- A request of the sender in runtime/executor.go:206-246. -/
def Proper (r : Req) : Prop := r.id < 16384 ∧ ((r.op = .create ∧ (r.fds = 2 ∨ r.fds = 3)) ∨ ((r.op = .kill ∨ r.op = .suspend) ∧ r.fds = 0))

/-! ### Proof -/

theorem fds_sum_le (l : List Req) (h : ∀ q ∈ l, q.fds ≤ 3) : (l.map (·.fds)).sum ≤ 3 * l.length := by
  induction l with
  | nil => simp
  | cons a l ih =>
    have h1 := h a (by simp)
    have h2 := ih fun q hq => h q (by simp [hq])
    simp only [List.map_cons, List.sum_cons, List.length_cons]
    omega

theorem reqs_length (l : List Msg) : (reqs l).length ≤ l.length := List.length_filterMap_le _ _

/-- If a message has been truncated, there are many processes. -/
structure Crowd (s : St) : Prop where
  many : (∀ q ∈ s.asked, q.fds ≤ 3) → (∃ m ∈ batchOf s.phase, m.trunc = true) → 16006 ≤ s.procs.length

theorem Crowd.init : Crowd {} := ⟨by simp [batchOf]⟩

theorem Crowd.step {s t : St} {b : Bool} (hf : Flow s) (hi : Hist s) (hp : Procs s) (h : Crowd s) (e : Tr s b t) : Crowd t := by
  obtain ⟨g⟩ := h
  constructor
  cases e
  case recv k h1 h2 h3 h4 h5 =>
    simp only [batchOf]
    intro hq ht
    have ho := hp.fds (by simp [h1, Phase.final]) (by simp [h1, batchOf])
    rw [h1] at ho
    simp only [batchOf, fdsOf, reqs_nil, List.map_nil, List.sum_nil] at ho
    have hs : s.shutdown = false := by cases hs : s.shutdown with | false => rfl | true => have := (hf.shut hs).1; simp [h2] at this
    have ha := hi.all (by simp [h1, Phase.final]) hs
    have hsum := fds_sum_le (s.sock.take k) (fun q hq' => hq q (by rw [ha]; simp [List.mem_of_mem_take hq']))
    have hlen : (s.sock.take k).length ≤ 128 := by simp; omega
    have := install_fits s.opened (s.sock.take k)
    simp only [nofile] at this
    by_cases hc : s.opened + ((s.sock.take k).map (·.fds)).sum ≤ 3 + 4 + 1 + 3 + 2 + 16384
    · obtain ⟨m, hm, hm'⟩ := ht
      rw [this hc m hm] at hm'
      cases hm'
    · omega
  case create m r rest h1 h2 h3 h4 h5 h6 h7 h8 =>
    simp only [batchOf, List.length_append, List.length_cons, List.length_nil]
    rintro hq ⟨m', hm, ht⟩
    have := g hq ⟨m', by rw [h1]; simp [batchOf, hm], ht⟩
    omega
  case signal m r rest h1 h2 h3 h4 h5 h6 =>
    simp only [batchOf]
    rintro hq ⟨m', hm, ht⟩
    exact g hq ⟨m', by rw [h1]; simp [batchOf, hm], ht⟩
  case recvEof => simp [batchOf]
  case evErr i o hh rest h1 h2 => subst h2; simp [batchOf]
  case exit id p h1 h2 => simp only [List.length_map]; exact g
  case ask r h1 h2 =>
    simp only
    intro hq
    exact g fun q hq' => hq q (by simp [hq'])
  case flush => exact g
  case again => exact g
  case spurious => exact g
  case closeWrite => exact g
  case close => exact g
  case peerRead => exact g
  all_goals simp [batchOf]

theorem Reach.crowd {s : St} (h : Reach s) : Crowd s := by
  induction h with
  | init => exact Crowd.init
  | step l h e ih => exact ih.step h.flow h.hist h.procs (step_tr e)

theorem cause_bad {s : St} (h : Reach s) (m : Msg) (r : Req) (rest : List Msg) (c : Nat) (h1 : s.phase = .handle (m :: rest)) (h2 : m.req = some r) (hc : Cause s m r c) :
    s.handled ++ [r] <+: s.asked ∧ Bad s.asked s.log r c := by
  have hs : s.shutdown = false := by cases hs : s.shutdown with | false => rfl | true => have := (h.flow.shut hs).2.1; simp [h1, isHandle] at this
  have ha := h.hist.all (by simp [h1, Phase.final]) hs
  rw [h1] at ha
  simp only [batchOf, reqs_cons_some m r rest h2] at ha
  refine ⟨⟨reqs rest ++ s.sock, by rw [ha]; simp⟩, ?_⟩
  have hlen : (alive s.log).length = s.procs.length := by rw [h.procs.tbl, List.length_map]
  have crowded : 16397 ≤ s.opened → (∀ q ∈ s.asked, q.fds ≤ 3) → 16005 ≤ (alive s.log).length := by
    intro ho hq
    by_cases ht : ∃ m' ∈ batchOf s.phase, m'.trunc = true
    · have := h.crowd.many hq ht; omega
    · have := h.procs.fds (by simp [h1, Phase.final]) (by
        intro m' hm'
        cases hb : m'.trunc with
        | false => rfl
        | true => exact absurd ⟨m', hm', hb⟩ ht)
      have hb := h.hist.batch
      have h3 := reqs_length (batchOf s.phase)
      have h4 := fds_sum_le (reqs (batchOf s.phase)) (fun q hq' => hq q (by rw [ha]; rw [h1] at hq'; simp only [batchOf, reqs_cons_some m r rest h2] at hq'; rcases List.mem_cons.1 hq' with e | e <;> simp [e]))
      simp only [fdsOf] at this
      omega
  cases hc with
  | trunc ht => exact .crowd _ (.inr (.inl rfl)) (fun hq => by have := h.crowd.many hq ⟨m, by rw [h1]; simp [batchOf], ht⟩; omega)
  | range hi => exact .range hi
  | none ho hf => exact .noFds ho hf
  | state p ho hp =>
    obtain ⟨hp1, hp2⟩ := find_some hp
    exact .exists p.num ho (by rw [h.procs.tbl]; exact List.mem_map.2 ⟨p, hp1, by rw [hp2]⟩)
  | len ho h2 h3 => exact .fdNum ho h2 h3
  | clone ho hn => exact .crowd _ (.inl rfl) (crowded hn)
  | some ho hf => exact .fds ho hf
  | stat ho hn => exact .crowd _ (.inr (.inr rfl)) (crowded hn)
  | other ho => exact .op ho

/-- C134: If the executor has died although the peer has not closed the connection, the next request after the ones which it
has handled was a bad one. -/
theorem deaths {s : St} (h : Reach s) (c : Nat) (hd : s.phase = .dead c) (hh : s.hup = false) :
    ∃ r, s.handled ++ [r] <+: s.asked ∧ Bad s.asked s.log r c := by
  cases h with
  | init => cases hd
  | @step s' _ l h e =>
    have htr := step_tr e
    generalize l.internal = b at htr
    cases htr
    case reqDead m r rest c' h1 h2 h3 =>
      cases hd
      exact ⟨r, cause_bad h m r rest _ h1 h2 h3⟩
    case recvErr h1 h2 h3 h4 => have := h.flow.errHup h4; simp [this] at hh
    case einval h1 h2 => have := (h.hist.room (.inr (.inr h1))).1; omega
    case evBad id rest h1 h2 =>
      obtain ⟨p, hp1, hp2, _⟩ := h.procs.evp id (by simp [h1, eventsOf])
      exact absurd hp2 (find_none h2 p hp1)
    case evErr i o hh' rest h1 h2 =>
      subst h2
      have := h.flow.errHup (h.flow.errEv (by rw [h1]; simp [eventsOf]))
      cases hh' <;> simp [this, St.controlEvent, St.startShutdown] at hh
    all_goals simp_all [Phase.final]

/-- C134: If all requests are as Go's sender makes them, the executor dies only if a process is created with the identifier
of an existing process, or if there are more than 16000 processes. -/
theorem deaths_proper {s : St} (h : Reach s) (c : Nat) (hd : s.phase = .dead c) (hh : s.hup = false) (hq : ∀ r ∈ s.asked, Proper r) :
    (c = 40 ∧ ∃ r n, s.handled ++ [r] <+: s.asked ∧ r.op = .create ∧ (r.id, n) ∈ alive s.log) ∨
    ((c = 16 ∨ c = 32 ∨ c = 50) ∧ 16005 ≤ (alive s.log).length) := by
  obtain ⟨r, hr, hb⟩ := deaths h c hd hh
  have hp := hq r (hr.subset (by simp))
  have h3 : ∀ q ∈ s.asked, q.fds ≤ 3 := by
    intro q hq'
    rcases (hq q hq').2 with ⟨_, h | h⟩ | ⟨_, h⟩ <;> omega
  cases hb with
  | range hi => exact absurd hp.1 (by omega)
  | op ho => rcases hp.2 with ⟨h, _⟩ | ⟨h | h, _⟩ <;> rw [ho] at h <;> cases h
  | noFds ho hf => rcases hp.2 with ⟨_, h | h⟩ | ⟨h | h, _⟩ <;> first | omega | (rw [ho] at h; cases h)
  | fds ho hf => rcases hp.2 with ⟨h, _⟩ | ⟨_, h⟩ <;> first | omega | (rw [h] at ho; simp at ho)
  | fdNum ho h2 h3 => rcases hp.2 with ⟨_, h | h⟩ | ⟨h | h, _⟩ <;> first | omega | (rw [ho] at h; cases h)
  | «exists» n ho hm => exact .inl ⟨rfl, r, n, hr, ho, hm⟩
  | crowd _ hc hl => exact .inr ⟨hc, hl h3⟩

/-- C134: With identifiers less than 16004, all requests as Go's sender makes them and no identifier reused while its
process exists, the executor doesn't die. -/
theorem survives {s : St} (h : Reach s) (c : Nat) (hh : s.hup = false) (hq : ∀ r ∈ s.asked, Proper r) (hid : ∀ r ∈ s.asked, r.id < 16004)
    (hu : ∀ r, s.handled ++ [r] <+: s.asked → r.op = .create → ∀ n, (r.id, n) ∉ alive s.log) : s.phase ≠ .dead c := by
  intro hd
  rcases deaths_proper h c hd hh hq with ⟨_, r, n, h1, h2, h3⟩ | ⟨_, hl⟩
  · exact hu r h1 h2 n h3
  · have ids : ∀ l : List Act, (∀ a ∈ answers l, a.2 < 16004) → ∀ e ∈ alive l, e.1 < 16004 := by
      intro l
      induction l using rev_ind with
      | h0 => intro _ e he; simp [alive] at he
      | h1 l a ih =>
        intro hl e he
        rw [answers_snoc] at hl
        have ih := ih fun a ha => hl a (by simp [ha])
        rw [alive_snoc] at he
        cases a with
        | created id n =>
          rcases List.mem_append.1 he with he | he
          · exact ih e he
          · simp only [List.mem_singleton] at he
            subst he
            exact hl (.create, id) (by simp)
        | reaped id n => exact ih e (List.mem_filter.1 he).1
        | signalled op id n => exact ih e he
        | missed op id => exact ih e he
    have h2 := ids s.log (by
      rw [h.procs.ans]
      intro a ha
      obtain ⟨r, hr, e⟩ := List.mem_map.1 ha
      obtain ⟨x, hx⟩ := h.hist.pre
      rw [← e]
      exact hid r (by rw [hx]; simp [hr]))
    have h3 := nodup_subset_length ((alive s.log).map (·.1)) (List.range 16004) (alive_nodup _ h.procs.valid) (by
      intro x hx
      obtain ⟨e, he, rfl⟩ := List.mem_map.1 hx
      exact List.mem_range.2 (h2 e he))
    rw [List.length_map, List.length_range] at h3
    omega

end Gate.ExecLoop
