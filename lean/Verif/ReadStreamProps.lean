import Verif.ReadStream
import Verif.StreamStateProps
/-
C07: inbound stream flow control.  C08: end-of-file is signalled exactly once.
C51: packets fit the maximum send size.  C52: finishing a subscription.
-/
namespace Gate.ReadStream
open Gate Gate.StreamState

/-! ### Specification vocabulary: what a schedule grants and reads -/

/-- Total subscription granted by the channel side in a schedule. -/
def grants : List Label → Nat
  | [] => 0
  | .subscribe inc :: ls => inc + grants ls
  | _ :: ls => grants ls

/-- All the bytes that the reader returned in a schedule, in order. -/
def reads : List Label → Bytes
  | [] => []
  | .readRet d _ :: ls => d ++ reads ls
  | _ :: ls => reads ls

/-- Data held for the program but not sent yet. -/
def held (s : St) : Bytes := s.pkt.getD []

/-! ### Invariant -/

/-- Per-location part of the invariant. -/
def PcInv (m : Nat) (s : St) : Prop :=
  match s.pc with
  | .top => True
  | .check sending =>
    (sending = true → s.pkt ≠ none ∧ s.send = true) ∧
    (sending = false → s.send = true → held s = [] ∧ s.r = true)
  | .selBlock sending =>
    (sending = true → s.pkt ≠ none ∧ s.send = true) ∧
    (sending = false → s.send = true → held s = [] ∧ s.r = true)
  | .selPoll => held s = [] ∧ s.r = true
  | .body => s.r = true → held s = []
  | .bodyFlags => held s = [] ∧ s.r = true
  | .reading n => held s = [] ∧ s.r = true ∧ n ≤ m - 16 ∧ s.readLog.length + n ≤ s.totalSub
  | .stopped => True
  | .finished => True

/-- Global invariant.  `d0` is the restored data. -/
structure Inv (m : Nat) (d0 : Bytes) (s : St) : Prop where
  bytes : s.sent.flatten ++ held s = d0 ++ s.readLog
  credit : s.readLog.length ≤ s.totalSub
  sub : s.subscribed = s.totalSub % 2 ^ 32
  pos : s.readpos = s.readLog.length % 2 ^ 32
  sendr : s.send = false → s.r = false
  size : ∀ d ∈ s.sent, d.length ≤ max (m - 16) d0.length
  hsize : (held s).length ≤ max (m - 16) d0.length
  pcInv : PcInv m s

theorem subs_le {s : St} {m d0} (h : Inv m d0 s) : s.subs ≤ s.totalSub - s.readLog.length := by
  have h1 := h.sub; have h2 := h.pos; have h3 := h.credit
  unfold St.subs
  rw [h1, h2]
  omega

theorem inv_start {m : Nat} {st : State} {hr : Bool} {s : St}
    (hs : st.subscribed < 2 ^ 32) (h : start st hr = some s) : Inv m st.data s := by
  unfold start at h
  simp only at h
  split at h
  · simp at h
  · rename_i hc
    simp only [Option.some.injEq] at h
    subst h
    have hheld : held ({
        flagSub := hasFlag st.flags flagSubscribing, subscribed := st.subscribed,
        r := hr && hasFlag st.flags flagReadWriting, send := hasFlag st.flags flagSendReceiving,
        pkt := if st.data = [] then none else some st.data, totalSub := st.subscribed } : St) = st.data := by
      unfold held; simp only; split <;> simp_all
    refine ⟨?_, ?_, ?_, ?_, ?_, ?_, ?_, trivial⟩
    · rw [hheld]; simp
    · simp
    · exact (Nat.mod_eq_of_lt hs).symm
    · simp
    · intro h1
      simp only at h1 ⊢
      cases h2 : (hr && hasFlag st.flags flagReadWriting)
      · rfl
      · rw [h1, h2] at hc; simp at hc
    · simp
    · rw [hheld]; omega

theorem inv_step {m : Nat} {d0 : Bytes} {s s' : St} {l : Label}
    (hi : Inv m d0 s) (h : step m s l = some s') : Inv m d0 s' := by
  have hsubs := subs_le hi
  obtain ⟨hb, hc, hsub, hpos, hsr, hsz, hhs, hpc⟩ := hi
  cases l with
  | subscribe inc =>
    simp only [step] at h
    split at h
    · simp only [Option.some.injEq] at h
      subst h
      refine ⟨hb, by simp only; omega, by simp only; rw [hsub]; omega, hpos, hsr, hsz, hhs, ?_⟩
      unfold PcInv at hpc ⊢
      revert hpc
      cases s.pc <;> simp only [held] <;> intro hpc <;> first | exact hpc | skip
      exact ⟨hpc.1, hpc.2.1, hpc.2.2.1, by omega⟩
    · simp at h
  | finishSub =>
    simp only [step] at h
    split at h
    · simp only [Option.some.injEq] at h
      subst h
      exact ⟨hb, hc, hsub, hpos, hsr, hsz, hhs, hpc⟩
    · simp at h
  | stop =>
    simp only [step] at h
    split at h
    · simp only [Option.some.injEq] at h
      subst h
      exact ⟨hb, hc, hsub, hpos, hsr, hsz, hhs, hpc⟩
    · simp at h
  | cancel =>
    simp only [step, Option.some.injEq] at h
    subst h
    exact ⟨hb, hc, hsub, hpos, hsr, hsz, hhs, hpc⟩
  | tau =>
    simp only [step] at h
    split at h
    · -- top
      split at h
      · split at h
        · rename_i hsend
          split at h
          · rename_i hp
            simp only [Option.some.injEq] at h; subst h
            exact ⟨hb, hc, hsub, hpos, hsr, hsz, hhs, by simp [PcInv, hp, hsend]⟩
          · rename_i hp
            split at h
            · rename_i hr
              simp only [Option.some.injEq] at h; subst h
              exact ⟨hb, hc, hsub, hpos, hsr, hsz, hhs, by simp [PcInv, held, hp, hr]⟩
            · simp only [Option.some.injEq] at h; subst h
              exact ⟨hb, hc, hsub, hpos, hsr, hsz, hhs, by simp [PcInv, hp, hsend]⟩
          · rename_i hp
            split at h
            · rename_i hr
              simp only [Option.some.injEq] at h; subst h
              exact ⟨hb, hc, hsub, hpos, hsr, hsz, hhs, by simp [PcInv, held, hp, hr]⟩
            · simp only [Option.some.injEq] at h; subst h
              refine ⟨?_, hc, hsub, hpos, hsr, hsz, ?_, by simp [PcInv, hsend]⟩
              · simpa [held, hp] using hb
              · simp [held]
        · rename_i hsend
          simp only [Option.some.injEq] at h; subst h
          exact ⟨hb, hc, hsub, hpos, hsr, hsz, hhs, by simp [PcInv, hsend]⟩
      · simp only [Option.some.injEq] at h; subst h
        exact ⟨hb, hc, hsub, hpos, hsr, hsz, hhs, trivial⟩
    · -- check
      rename_i sending hpceq
      simp only [PcInv, hpceq] at hpc
      split at h
      · simp only [Option.some.injEq] at h; subst h
        exact ⟨hb, hc, hsub, hpos, hsr, hsz, hhs, hpc⟩
      · rename_i hcond
        simp only [Option.some.injEq] at h; subst h
        refine ⟨hb, hc, hsub, hpos, hsr, hsz, hhs, ?_⟩
        simp only [not_or, Bool.not_eq_true, Bool.not_eq_false] at hcond
        obtain ⟨hs1, hr1, _⟩ := hcond
        have hsend : s.send = true := by
          cases hx : s.send
          · have := hsr hx; simp [this] at hr1
          · rfl
        exact ⟨(hpc.2 hs1 hsend).1, by simpa using hr1⟩
    · -- body
      rename_i hpceq
      simp only [PcInv, hpceq] at hpc
      split at h
      · rename_i hr
        split at h
        · simp only [Option.some.injEq] at h; subst h
          refine ⟨hb, hc, hsub, hpos, hsr, hsz, hhs, hpc hr, hr, ?_, ?_⟩
          · unfold readSize Packet.dataHeaderSize; split <;> omega
          · have : readSize m s.subs ≤ s.subs := by unfold readSize; split <;> omega
            simp only; omega
        · simp only [Option.some.injEq] at h; subst h
          exact ⟨hb, hc, hsub, hpos, hsr, hsz, hhs, hpc hr, hr⟩
      · simp only [Option.some.injEq] at h; subst h
        exact ⟨hb, hc, hsub, hpos, hsr, hsz, hhs, trivial⟩
    · -- bodyFlags
      split at h
      · simp only [Option.some.injEq] at h; subst h
        exact ⟨hb, hc, hsub, hpos, hsr, hsz, hhs, trivial⟩
      · simp only [Option.some.injEq] at h; subst h
        exact ⟨hb, hc, hsub, hpos, fun _ => rfl, hsz, hhs, trivial⟩
    · -- stopped
      simp only [Option.some.injEq] at h; subst h
      exact ⟨hb, hc, hsub, hpos, hsr, hsz, hhs, trivial⟩
    · simp at h
  | sendPkt =>
    simp only [step] at h
    split at h
    · rename_i d hpceq hp
      simp only [Option.some.injEq] at h; subst h
      refine ⟨?_, hc, hsub, hpos, ?_, ?_, ?_, ?_⟩
      · simp only [List.flatten_append, List.flatten_cons, List.flatten_nil, List.append_nil, held,
          Option.getD_none]
        simpa [held, hp] using hb
      · intro h1
        simp only at h1 ⊢
        cases hr : s.r
        · rfl
        · rw [hr] at h1; simp only [Bool.true_and] at h1
          have := hsr h1; simp [hr] at this
      · intro d' hd'
        simp only [List.mem_append, List.mem_singleton] at hd'
        rcases hd' with hd' | rfl
        · exact hsz d' hd'
        · simpa [held, hp] using hhs
      · simp [held]
      · simp [PcInv, held]
    · simp at h
  | wakeup =>
    simp only [step] at h
    split at h
    · rename_i sending hpceq
      simp only [PcInv, hpceq] at hpc
      split at h
      · simp only [Option.some.injEq] at h; subst h
        refine ⟨hb, hc, hsub, hpos, hsr, hsz, hhs, ?_⟩
        by_cases hcond : sending = true ∧ s.pkt ≠ none
        · rw [if_pos hcond]; trivial
        · rw [if_neg hcond]
          intro hr
          cases hsd : sending
          · have hsend : s.send = true := by
              cases hx : s.send
              · have := hsr hx; simp [this] at hr
              · rfl
            exact (hpc.2 hsd hsend).1
          · exact absurd ⟨hsd, (hpc.1 hsd).1⟩ hcond
      · split at h
        · simp only [Option.some.injEq] at h; subst h
          exact ⟨hb, hc, hsub, hpos, hsr, hsz, hhs, trivial⟩
        · simp at h
    · rename_i hpceq
      simp only [PcInv, hpceq] at hpc
      split at h
      · simp only [Option.some.injEq] at h; subst h
        exact ⟨hb, hc, hsub, hpos, hsr, hsz, hhs, fun _ => hpc.1⟩
      · split at h
        · simp only [Option.some.injEq] at h; subst h
          exact ⟨hb, hc, hsub, hpos, hsr, hsz, hhs, trivial⟩
        · simp at h
    · simp at h
  | ctxDone =>
    simp only [step] at h
    split at h
    · split at h
      · simp only [Option.some.injEq] at h; subst h
        refine ⟨hb, hc, hsub, hpos, fun _ => rfl, hsz, hhs, ?_⟩
        simp only [PcInv]
        split <;> (rename_i hpc2; split at hpc2 <;> simp_all)
      · simp only [Option.some.injEq] at h; subst h
        refine ⟨hb, hc, hsub, hpos, fun _ => rfl, hsz, hhs, ?_⟩
        simp [PcInv]
      · simp at h
    · simp at h
  | dflt =>
    simp only [step] at h
    split at h
    · rename_i hpceq
      simp only [PcInv, hpceq] at hpc
      split at h
      · simp at h
      · simp only [Option.some.injEq] at h; subst h
        exact ⟨hb, hc, hsub, hpos, hsr, hsz, hhs, fun _ => hpc.1⟩
    · simp at h
  | readRet data e =>
    simp only [step] at h
    split at h
    · rename_i n hpceq
      simp only [PcInv, hpceq] at hpc
      split at h
      · simp only [Option.some.injEq] at h; subst h
        refine ⟨?_, ?_, hsub, ?_, ?_, hsz, ?_, trivial⟩
        · have h0 := hpc.1
          rw [h0, List.append_nil] at hb
          simp [held, ← List.append_assoc, hb]
        · simp only [List.length_append]; omega
        · simp only [List.length_append]; rw [hpos]; omega
        · intro hs
          have := hsr hs; simp [hpc.2.1] at this
        · simp [held]; omega
      · simp at h
    · simp at h

theorem inv_run {m : Nat} {d0 : Bytes} {ls : List Label} : ∀ {s s' : St},
    Inv m d0 s → run m s ls = some s' → Inv m d0 s' := by
  induction ls with
  | nil => intro s s' hi h; simp [run] at h; subst h; exact hi
  | cons l ls ih =>
    intro s s' hi h
    simp only [run] at h
    cases hs : step m s l with
    | none => rw [hs] at h; simp at h
    | some s1 =>
      rw [hs] at h
      exact ih (inv_step hi hs) h

/-- The ghost variables of the model are the schedule's grants and reads. -/
theorem ghost_step {m : Nat} {s s' : St} {l : Label} (h : step m s l = some s') :
    s'.totalSub = s.totalSub + grants [l] ∧ s'.readLog = s.readLog ++ reads [l] := by
  cases l <;> simp only [step] at h <;> (repeat' split at h) <;>
    simp_all only [Option.some.injEq, reduceCtorEq] <;> (subst h; simp [grants, reads])

theorem ghost_run {m : Nat} {ls : List Label} : ∀ {s s' : St}, run m s ls = some s' →
    s'.totalSub = s.totalSub + grants ls ∧ s'.readLog = s.readLog ++ reads ls := by
  induction ls with
  | nil => intro s s' h; simp [run] at h; subst h; simp [grants, reads]
  | cons l ls ih =>
    intro s s' h
    simp only [run] at h
    cases hs : step m s l with
    | none => rw [hs] at h; simp at h
    | some s1 =>
      rw [hs] at h
      have h1 := ghost_step hs
      have h2 := ih h
      have g : grants (l :: ls) = grants [l] + grants ls := by cases l <;> simp [grants]
      have r : reads (l :: ls) = reads [l] ++ reads ls := by cases l <;> simp [reads]
      rw [g, r]
      constructor
      · omega
      · rw [h2.2, h1.2, List.append_assoc]

theorem start_facts {st : State} {hr : Bool} {s : St} (h : start st hr = some s) :
    s.totalSub = st.subscribed ∧ s.readLog = [] ∧ s.sent = [] := by
  unfold start at h; simp only at h
  split at h
  · simp at h
  · simp only [Option.some.injEq] at h; subst h; simp

/-! ### C07 -/

/-- C07.  Start `Transfer` on any stream state (initial or restored), and let the
two sides, the reader and cancellation act in any order (any schedule `ls`, of any
length).  At every point:

* the bytes sent to the program followed by the bytes held for it are exactly the
  restored data followed by the bytes the reader returned, in order;
* the bytes read never exceed the open subscription at start plus everything
  subscribed since, hence neither do the bytes sent beyond the restored data;
* no packet is larger than the send size allows or the restored data was. -/
theorem flow_control (m : Nat) (st : State) (hasReader : Bool) (s0 s : St) (ls : List Label)
    (hst : st.subscribed < 2 ^ 32) (h0 : start st hasReader = some s0) (h : run m s0 ls = some s) :
    s.sent.flatten ++ held s = st.data ++ reads ls ∧
    (reads ls).length ≤ st.subscribed + grants ls ∧
    s.sent.flatten.length ≤ st.data.length + st.subscribed + grants ls ∧
    (∀ d ∈ s.sent, d.length ≤ max (m - 16) st.data.length) := by
  have hi := inv_run (inv_start (m := m) hst h0) h
  have hg := ghost_run h
  obtain ⟨f1, f2, f3⟩ := start_facts h0
  have hlog : s.readLog = reads ls := by rw [hg.2, f2]; rfl
  have htot : s.totalSub = st.subscribed + grants ls := by rw [hg.1, f1]
  have hcr := hi.credit
  have hb := hi.bytes
  rw [hlog, htot] at hcr
  rw [hlog] at hb
  refine ⟨hb, hcr, ?_, hi.size⟩
  have := congrArg List.length hb
  simp only [List.length_append] at this
  omega

/-- C07 (suspension).  When `Transfer` has returned, the state left for the
snapshot holds exactly the unsent bytes and, as long as less than 4 GiB was
granted in the session, exactly the unused subscription. -/
theorem suspend_state (m : Nat) (st : State) (hasReader : Bool) (s0 s : St) (ls : List Label)
    (hst : st.subscribed < 2 ^ 32) (h0 : start st hasReader = some s0) (h : run m s0 ls = some s) :
    s.sent.flatten ++ (result s).data = st.data ++ reads ls ∧
    (st.subscribed + grants ls < 2 ^ 32 →
      (result s).subscribed + (reads ls).length = st.subscribed + grants ls) := by
  have hi := inv_run (inv_start (m := m) hst h0) h
  have hg := ghost_run h
  obtain ⟨f1, f2, f3⟩ := start_facts h0
  have hlog : s.readLog = reads ls := by rw [hg.2, f2]; rfl
  have htot : s.totalSub = st.subscribed + grants ls := by rw [hg.1, f1]
  have hb := hi.bytes
  rw [hlog] at hb
  refine ⟨hb, ?_⟩
  intro hlt
  have h1 := hi.sub; have h2 := hi.pos; have h3 := hi.credit
  rw [hlog, htot] at h3
  rw [hlog] at h2
  rw [htot] at h1
  simp only [result, St.subs]
  rw [h1, h2]
  omega

/-- C06/C07: a consistent state never triggers the "reading without sending" panic. -/
theorem start_no_panic (st : State) (hasReader : Bool) (hc : Consistent st) :
    (start st hasReader).isSome := by
  unfold start
  simp only
  split
  · rename_i h
    simp only [Bool.and_eq_true, Bool.not_eq_true'] at h
    have := (hc h.1).1
    simp [this] at h
  · rfl

/-- A concrete schedule: 5 bytes subscribed, the reader returns 3 and then 2 bytes. -/
def demo : List Label :=
  [.subscribe 5, .tau, .tau, .wakeup, .tau, .readRet [1, 2, 3] false, .tau, .tau, .sendPkt,
   .tau, .readRet [4, 5] false]

example : (start (initialState 0) true).bind (fun s => (run 65536 s demo).map
    (fun s => (s.sent, held s, s.readLog))) = some ([[1, 2, 3]], [4, 5], [1, 2, 3, 4, 5]) := by decide

/-! ### C08 -/

/-- The packets sent so far end with an end-of-file packet (a data packet
without data). -/
def EofSent (s : St) : Prop := [] ∈ s.sent

/-- Invariant: end-of-file packets are last and unique. -/
structure EofInv (s : St) : Prop where
  atMost : s.sent.count [] ≤ 1
  last : [] ∈ s.sent → s.sent.getLast? = some [] ∧ s.send = false
  pcs : ∀ b, (s.pc = .check b ∨ s.pc = .selBlock b) → (b = true → s.send = true) ∧
    (b = true → s.pkt = some [] → s.r = false)

theorem eofInv_start {st : State} {hr : Bool} {s : St} (h : start st hr = some s) : EofInv s := by
  unfold start at h; simp only at h
  split at h
  · simp at h
  · simp only [Option.some.injEq] at h; subst h
    exact ⟨by simp, by simp, by simp⟩

theorem eofInv_step {m : Nat} {s s' : St} {l : Label} (hi : EofInv s) (h : step m s l = some s') :
    EofInv s' := by
  obtain ⟨ha, hl, hp⟩ := hi
  cases l with
  | sendPkt =>
    simp only [step] at h
    split at h
    · rename_i d hpceq hpk
      simp only [Option.some.injEq] at h; subst h
      have hsend := (hp true (Or.inr hpceq)).1 rfl
      have hno : ([] : Bytes) ∉ s.sent := by
        intro hm; have := (hl hm).2; simp [hsend] at this
      refine ⟨?_, ?_, by simp⟩
      · simp only [List.count_append, List.count_eq_zero.mpr hno, List.count_singleton]
        split <;> omega
      · intro hm
        simp only [List.mem_append, List.mem_singleton, hno, false_or] at hm
        subst hm
        have hr := (hp true (Or.inr hpceq)).2 rfl hpk
        simp [hr]
    · simp at h
  | subscribe inc =>
    simp only [step] at h
    split at h
    · simp only [Option.some.injEq] at h; subst h; exact ⟨ha, hl, hp⟩
    · simp at h
  | finishSub =>
    simp only [step] at h
    split at h
    · simp only [Option.some.injEq] at h; subst h; exact ⟨ha, hl, hp⟩
    · simp at h
  | stop =>
    simp only [step] at h
    split at h
    · simp only [Option.some.injEq] at h; subst h; exact ⟨ha, hl, hp⟩
    · simp at h
  | cancel =>
    simp only [step, Option.some.injEq] at h; subst h; exact ⟨ha, hl, hp⟩
  | tau =>
    simp only [step] at h
    split at h
    · split at h
      · split at h
        · split at h <;> (try split at h) <;> simp only [Option.some.injEq] at h <;> subst h <;>
            exact ⟨ha, hl, by simp_all⟩
        · simp only [Option.some.injEq] at h; subst h; exact ⟨ha, hl, by simp_all⟩
      · simp only [Option.some.injEq] at h; subst h; exact ⟨ha, hl, by simp⟩
    · rename_i b hpceq
      split at h <;> simp only [Option.some.injEq] at h <;> subst h
      · refine ⟨ha, hl, ?_⟩
        intro b' hb'
        simp at hb'
        subst hb'
        exact hp b (Or.inl hpceq)
      · exact ⟨ha, hl, by simp⟩
    · split at h
      · split at h <;> simp only [Option.some.injEq] at h <;> subst h <;> exact ⟨ha, hl, by simp⟩
      · simp only [Option.some.injEq] at h; subst h; exact ⟨ha, hl, by simp⟩
    · split at h <;> simp only [Option.some.injEq] at h <;> subst h <;> exact ⟨ha, hl, by simp⟩
    · simp only [Option.some.injEq] at h; subst h; exact ⟨ha, hl, by simp⟩
    · simp at h
  | wakeup =>
    simp only [step] at h
    split at h
    · split at h
      · simp only [Option.some.injEq] at h; subst h
        refine ⟨ha, hl, ?_⟩
        intro b hb
        simp only at hb
        split at hb <;> simp at hb
      · split at h
        · simp only [Option.some.injEq] at h; subst h; exact ⟨ha, hl, by simp⟩
        · simp at h
    · split at h
      · simp only [Option.some.injEq] at h; subst h; exact ⟨ha, hl, by simp⟩
      · split at h
        · simp only [Option.some.injEq] at h; subst h; exact ⟨ha, hl, by simp⟩
        · simp at h
    · simp at h
  | ctxDone =>
    simp only [step] at h
    split at h
    · split at h
      · simp only [Option.some.injEq] at h; subst h
        refine ⟨ha, hl, ?_⟩
        intro b hb
        simp only at hb
        split at hb <;> simp at hb
      · simp only [Option.some.injEq] at h; subst h; exact ⟨ha, hl, by simp⟩
      · simp at h
    · simp at h
  | dflt =>
    simp only [step] at h
    split at h
    · split at h
      · simp at h
      · simp only [Option.some.injEq] at h; subst h; exact ⟨ha, hl, by simp⟩
    · simp at h
  | readRet data e =>
    simp only [step] at h
    split at h
    · split at h
      · simp only [Option.some.injEq] at h; subst h; exact ⟨ha, hl, by simp⟩
      · simp at h
    · simp at h

theorem eofInv_run {m : Nat} {ls : List Label} : ∀ {s s' : St},
    EofInv s → run m s ls = some s' → EofInv s' := by
  induction ls with
  | nil => intro s s' hi h; simp [run] at h; subst h; exact hi
  | cons l ls ih =>
    intro s s' hi h
    simp only [run] at h
    cases hs : step m s l with
    | none => rw [hs] at h; simp at h
    | some s1 => rw [hs] at h; exact ih (eofInv_step hi hs) h

/-- C08 (at most once, and last): in every schedule at most one end-of-file
packet is sent, and nothing is sent after it. -/
theorem eof_at_most_once (m : Nat) (st : State) (hasReader : Bool) (s0 s : St) (ls : List Label)
    (h0 : start st hasReader = some s0) (h : run m s0 ls = some s) :
    s.sent.count [] ≤ 1 ∧ ([] ∈ s.sent → s.sent.getLast? = some []) := by
  have := eofInv_run (eofInv_start h0) h
  exact ⟨this.atMost, fun hm => (this.last hm).1⟩

/-- A schedule in which the reader returns its last bytes together with the end
of file, as io.Reader permits.  The program accepts every packet and finishes its
subscription; nobody stops or cancels the transfer. -/
def lostEof : List Label :=
  [.subscribe 5, .tau, .tau, .wakeup, .tau, .readRet [1, 2, 3] true, .tau, .tau, .sendPkt, .tau,
   .finishSub, .tau, .tau]

/-- C08 refuted: the reader reaches its end, every packet is accepted, the
transfer finishes on its own, and the program has received the data but no
end-of-file packet. -/
theorem eof_not_always_sent :
    ∃ s0 s, start (initialState 0) true = some s0 ∧ run 65536 s0 lostEof = some s ∧
      s.pc = .finished ∧ s.closed = false ∧ s.cancelled = false ∧
      s.sent = [[1, 2, 3]] ∧ (∃ d, Label.readRet d true ∈ lostEof) ∧ [] ∉ s.sent ∧
      (result s).flags = 0 := by
  obtain ⟨s, h, h1, h2, h3, h4, h5, h6⟩ : ∃ s, run 65536 {} lostEof = some s ∧ s.pc = .finished ∧
      s.closed = false ∧ s.cancelled = false ∧ s.sent = [[1, 2, 3]] ∧ [] ∉ s.sent ∧
      (result s).flags = 0 := exists_of_run (by decide +kernel)
  exact ⟨{}, s, by decide +kernel, h, h1, h2, h3, h4, ⟨[1, 2, 3], by decide⟩, h5, h6⟩

/-- Labels under which the reader is never closed while data is waiting to be
sent: the reader does not return data together with an error, and the context is
not cancelled. -/
def Gentle : Label → Prop
  | .readRet d e => e = true → d = []
  | .cancel => False
  | _ => True

/-- Invariant of gentle schedules: an open sending side with closed reader has no
data waiting, and a closed sending side means end-of-file was sent. -/
structure GentleInv (s : St) : Prop where
  canc : s.cancelled = false
  rd : s.r = false → held s = []
  eof : s.send = false → [] ∈ s.sent

theorem gentle_step {m d0} {s s' : St} {l : Label} (hg : Gentle l) (hi : Inv m d0 s)
    (gi : GentleInv s) (h : step m s l = some s') : GentleInv s' := by
  obtain ⟨hc, hrd, he⟩ := gi
  have hpc := hi.pcInv
  cases l with
  | sendPkt =>
    simp only [step] at h
    split at h
    · rename_i d hpceq hpk
      simp only [Option.some.injEq] at h; subst h
      refine ⟨hc, by simp [held], ?_⟩
      intro hs
      simp only [PcInv, hpceq] at hpc
      have hsend := (hpc.1 trivial).2
      have hr : s.r = false := by simpa [hsend] using hs
      have : d = [] := by simpa [held, hpk] using hrd hr
      simp [this]
    · simp at h
  | subscribe inc =>
    simp only [step] at h
    split at h
    · simp only [Option.some.injEq] at h; subst h; exact ⟨hc, hrd, he⟩
    · simp at h
  | finishSub =>
    simp only [step] at h
    split at h
    · simp only [Option.some.injEq] at h; subst h; exact ⟨hc, hrd, he⟩
    · simp at h
  | stop =>
    simp only [step] at h
    split at h
    · simp only [Option.some.injEq] at h; subst h; exact ⟨hc, hrd, he⟩
    · simp at h
  | cancel => exact absurd hg (by simp [Gentle])
  | tau =>
    simp only [step] at h
    split at h
    · split at h
      · split at h
        · split at h <;> (try split at h) <;> simp only [Option.some.injEq] at h <;> subst h
          · exact ⟨hc, hrd, he⟩
          · exact ⟨hc, hrd, he⟩
          · exact ⟨hc, hrd, he⟩
          · exact ⟨hc, hrd, he⟩
          · exact ⟨hc, by simp [held], he⟩
        · simp only [Option.some.injEq] at h; subst h; exact ⟨hc, hrd, he⟩
      · simp only [Option.some.injEq] at h; subst h; exact ⟨hc, hrd, he⟩
    · split at h <;> simp only [Option.some.injEq] at h <;> subst h <;> exact ⟨hc, hrd, he⟩
    · split at h
      · split at h <;> simp only [Option.some.injEq] at h <;> subst h <;> exact ⟨hc, hrd, he⟩
      · simp only [Option.some.injEq] at h; subst h; exact ⟨hc, hrd, he⟩
    · rename_i hpceq
      simp only [PcInv, hpceq] at hpc
      split at h <;> simp only [Option.some.injEq] at h <;> subst h
      · exact ⟨hc, hrd, he⟩
      · exact ⟨hc, fun _ => hpc.1, he⟩
    · simp only [Option.some.injEq] at h; subst h; exact ⟨hc, hrd, he⟩
    · simp at h
  | wakeup =>
    simp only [step] at h
    split at h
    · split at h
      · simp only [Option.some.injEq] at h; subst h; exact ⟨hc, hrd, he⟩
      · split at h
        · simp only [Option.some.injEq] at h; subst h; exact ⟨hc, hrd, he⟩
        · simp at h
    · split at h
      · simp only [Option.some.injEq] at h; subst h; exact ⟨hc, hrd, he⟩
      · split at h
        · simp only [Option.some.injEq] at h; subst h; exact ⟨hc, hrd, he⟩
        · simp at h
    · simp at h
  | ctxDone =>
    simp only [step, hc] at h
    simp at h
  | dflt =>
    simp only [step] at h
    split at h
    · split at h
      · simp at h
      · simp only [Option.some.injEq] at h; subst h; exact ⟨hc, hrd, he⟩
    · simp at h
  | readRet data e =>
    simp only [step] at h
    split at h
    · split at h
      · simp only [Option.some.injEq] at h; subst h
        refine ⟨hc, ?_, he⟩
        intro hr
        have : e = true := by simpa using hr
        simp [held, hg this]
      · simp at h
    · simp at h

/-- C08 (what holds): if the stream starts with its sending side open and no
restored data on an already closed reader, and in the schedule the reader never
returns data together with its end and the context is not cancelled, then a
transfer which has closed its sending side (in particular one which finished
without being stopped) has sent exactly one end-of-file packet, as the last one.
Missing for the full property: the cases excluded here, which are refuted above. -/
theorem eof_once_partial (m : Nat) (st : State) (hasReader : Bool) (s0 s : St) (ls : List Label)
    (hst : st.subscribed < 2 ^ 32) (hdata : st.data = [])
    (hsend : hasFlag st.flags flagSendReceiving = true)
    (h0 : start st hasReader = some s0) (h : run m s0 ls = some s)
    (hgentle : ∀ l ∈ ls, Gentle l) (hclosed : s.send = false) :
    s.sent.count [] = 1 ∧ s.sent.getLast? = some [] ∧
      s.sent.flatten = reads ls := by
  have main : ∀ (ls : List Label) (s0 : St), Inv m st.data s0 → GentleInv s0 → (∀ l ∈ ls, Gentle l) →
      ∀ s, run m s0 ls = some s → GentleInv s := by
    intro ls
    induction ls with
    | nil => intro s0 _ g _ s h; simp [run] at h; subst h; exact g
    | cons l ls ih =>
      intro s0 hi g hl s h
      simp only [run] at h
      cases hs : step m s0 l with
      | none => rw [hs] at h; simp at h
      | some s1 =>
        rw [hs] at h
        exact ih s1 (inv_step hi hs) (gentle_step (hl l (by simp)) hi g hs)
          (fun l' hl' => hl l' (by simp [hl'])) s h
  have hi0 := inv_start (m := m) hst h0
  have g0 : GentleInv s0 := by
    unfold start at h0; simp only at h0
    split at h0
    · simp at h0
    · simp only [Option.some.injEq] at h0; subst h0
      exact ⟨rfl, by simp [held], by simp [hsend]⟩
  have g := main ls s0 hi0 g0 hgentle s h
  have e := eofInv_run (eofInv_start h0) h
  have hm := g.eof hclosed
  have hfc := (flow_control m st hasReader s0 s ls hst h0 h).1
  have hr : s.r = false := (inv_run hi0 h).sendr hclosed
  rw [g.rd hr, hdata] at hfc
  refine ⟨?_, (e.last hm).1, by simpa using hfc⟩
  have h1 := e.atMost
  have h2 := List.count_pos_iff.mpr hm
  omega

/-- The same transfer with a reader that reports its end separately. -/
def goodEof : List Label :=
  [.subscribe 5, .tau, .tau, .wakeup, .tau, .readRet [1, 2, 3] false, .tau, .tau, .sendPkt, .tau,
   .readRet [] true, .tau, .tau, .sendPkt, .tau, .finishSub, .tau, .tau]

example : ∃ s0 s, start (initialState 0) true = some s0 ∧ run 65536 s0 goodEof = some s ∧
    s.pc = .finished ∧ s.send = false ∧ s.sent = [[1, 2, 3], []] :=
  ⟨{}, by
    obtain ⟨s, h⟩ : ∃ s, run 65536 {} goodEof = some s ∧ s.pc = .finished ∧ s.send = false ∧
      s.sent = [[1, 2, 3], []] := exists_of_run (by decide +kernel)
    exact ⟨s, by decide +kernel, h⟩⟩
example : ∀ l ∈ goodEof, Gentle l := by simp [goodEof, Gentle]

/-! ### C51 -/

/-- Size of a data packet on the wire. -/
def packetSize (d : Bytes) : Nat := 16 + d.length

/-- C51 (what holds): if the restored data is at most the maximum send size less
the data header, every packet fits the maximum send size. -/
theorem packet_size_partial (m : Nat) (hm : 16 ≤ m) (st : State) (hasReader : Bool) (s0 s : St)
    (ls : List Label) (hst : st.subscribed < 2 ^ 32) (hd : st.data.length ≤ m - 16)
    (h0 : start st hasReader = some s0) (h : run m s0 ls = some s) :
    ∀ d ∈ s.sent, packetSize d ≤ m := by
  intro d hdm
  have := (flow_control m st hasReader s0 s ls hst h0 h).2.2.2 d hdm
  unfold packetSize; omega

/-- C51 refuted: a serialized state whose data size is at the limit that
`Stream.Unmarshal` passes (`config.MaxSendSize`) is accepted, and the packet sent
from it exceeds the maximum send size by the size of the data header, whatever
the maximum send size is. -/
theorem restored_packet_too_large (m : Nat) (hm : 16 ≤ m) (hm2 : m ≤ 2 ^ 31 - 1) :
    ∃ (src : Bytes) (st : State) (s0 s : St) (ls : List Label) (d : Bytes),
      unmarshal src m = .ok (st, []) ∧ start st true = some s0 ∧ run m s0 ls = some s ∧
      d ∈ s.sent ∧ packetSize d = m + 16 := by
  let st : State := ⟨7, 0, List.replicate m 0, m⟩
  have hdat : (List.replicate m (0 : UInt8)) ≠ [] := by
    intro h; have := congrArg List.length h; simp at this; omega
  obtain ⟨n, h1, h2⟩ := marshal_unmarshal st (by simp [st]) (by simp [st]) (by simp [st]; omega)
    (by intro h; exact absurd h (by simp [st, hasFlag, flagSendReceiving])) m (by simp [st])
  obtain ⟨w, _, _, h4⟩ := h2 (List.replicate n 0) (by simp)
  obtain ⟨s', h5, h6, h7, h8⟩ := h4 []
  simp only [List.append_nil] at h5
  obtain ⟨fl, sb, dt, cp⟩ := s'
  simp only at h6 h7 h8
  subst h6 h7 h8
  simp only [st] at h5
  obtain ⟨x, xs, hx⟩ : ∃ x xs, List.replicate m (0 : UInt8) = x :: xs := by
    cases hr : List.replicate m (0 : UInt8) with
    | nil => exact absurd hr hdat
    | cons x xs => exact ⟨x, xs, rfl⟩
  have hlen : (x :: xs).length = m := by rw [← hx]; simp
  refine ⟨w, _, {
      flagSub := true, subscribed := 0, r := true, send := true, totalSub := 0,
      pkt := some (x :: xs) }, {
      flagSub := true, subscribed := 0, r := true, send := true, totalSub := 0, pkt := none,
      sent := [x :: xs], pc := .body }, [.tau, .tau, .sendPkt], List.replicate m 0, h5, ?_, ?_, ?_, ?_⟩
  · rw [hx]; simp [start, hasFlag, flagSubscribing, flagReadWriting, flagSendReceiving]
  · simp [run, step]
  · rw [hx]; simp
  · simp [packetSize]; omega

/-! ### C52 -/

/-- A schedule in which the program subscribes to five bytes and then finishes
the subscription while the transfer is between its two loads (subscription and
flags). -/
def finishRace : List Label :=
  [.subscribe 0, .tau, .tau, .wakeup, .tau, .subscribe 5, .finishSub, .tau, .tau, .tau, .sendPkt,
   .tau, .tau, .tau]

/-- C52 refuted: the program subscribes to five bytes and only then finishes its
subscription; the transfer ends on its own with end-of-file without ever having
called the reader, and nobody stopped or cancelled it. -/
theorem finish_loses_subscription :
    ∃ s0 s, start (initialState 0) true = some s0 ∧ run 65536 s0 finishRace = some s ∧
      s.pc = .finished ∧ s.closed = false ∧ s.cancelled = false ∧ s.sent = [[]] ∧
      reads finishRace = [] ∧ grants finishRace = 5 ∧ (result s).subscribed = 5 := by
  exact ⟨_, _, rfl, rfl, rfl, rfl, rfl, rfl, rfl, rfl, rfl⟩

end Gate.ReadStream
