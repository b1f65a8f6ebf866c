import Verif.IoLoop
import Verif.FramingProps
import Verif.DiscoveryProps
/-
C18 (order and completeness of the I/O loop), C19 (alignment of kept input), C54
(suspension while the program is writing a packet).
-/
namespace Gate.IoLoop
open Gate Gate.Packet Gate.Framing

/-! ### Specification: what a run's labels say was received and queued -/

open Classical in
/-- The service packets received from the program, in order.  The number of services
changes with each answered discovery request. -/
noncomputable def received : Nat → List Label → List Bytes
  | _, [] => []
  | num, .read p reply num' :: ls =>
    if Deliverable num p then p :: received num ls
    else match reply with
      | .ok _ => received num' ls
      | _ => received num ls
  | num, _ :: ls => received num ls

/-- A service's packet with its size field set to its length. -/
def stamped (p : Bytes) : Bytes := le 4 p.length ++ p.drop 4

open Classical in
/-- The events for the program, in order: services' packets and discovery replies. -/
noncomputable def produced : Nat → List Label → List Bytes
  | _, [] => []
  | num, .messageInput p :: ls => stamped p :: produced num ls
  | num, .read p reply num' :: ls =>
    if Deliverable num p then produced num ls
    else match reply with
      | .ok ev => ev :: produced num' ls
      | _ => produced num ls
  | num, _ :: ls => produced num ls

/-- Events which are pending from the start: the restored input and the state of the
restored services. -/
def initialEvents (c : Cfg) : List Bytes :=
  (if c.input = [] then [] else [c.input]) ++
  (if c.initState = [] then [] else [Services.replyBytes 1 c.initState])

/-! ### Lemmas -/

theorem take4_of_valid {q : Bytes} (h : ValidPacket q) : q.take 4 = le 4 q.length := by
  have hl : (q.take 4).length = 4 := by simp; have := h.1; omega
  have h1 := le_unle (q.take 4)
  rw [hl] at h1
  rw [← h1]
  congr 1
  exact h.2.2

theorem init_stamped {p q : Bytes} (h : initMessagePacket p = .ok q) : q = stamped p := by
  by_cases hc : 8 ≤ p.length ∧ p.length ≤ 65536 ∧ (∃ c, code p = .ok c ∧ 0 ≤ c)
  · obtain ⟨q', h1, h2, h3, h4⟩ := (init_message p).1 hc
    rw [h] at h1; cases h1
    rw [← List.take_append_drop 4 q, h4, take4_of_valid h2, h3]; rfl
  · rw [(init_message p).2 hc] at h; cases h

theorem run_snoc (c : Cfg) : ∀ (ls : List Label) (s : St) (l : Label),
    run c s (ls ++ [l]) = (run c s ls).bind (fun s' => step c s' l) := by
  intro ls
  induction ls with
  | nil => intro s l; simp only [List.nil_append, run, Option.bind_some]; cases step c s l <;> rfl
  | cons x ls ih =>
    intro s l
    simp only [List.cons_append, run]
    cases step c s x with
    | none => rfl
    | some s' => exact ih s' l

/-- After the loop has ended there are no more steps. -/
theorem run_out (c : Cfg) (s s' : St) (ls : List Label) (h : run c s ls = some s') (ho : s.out.isSome) :
    ls = [] := by
  cases ls with
  | nil => rfl
  | cons l ls => simp [run, step, ho] at h

/-- The loop ended by a refused packet, a refused message, or a service failure. -/
def Refused (s : St) : Prop :=
  ∃ o, s.out = some o ∧ o.savedOutput = [] ∧ o.savedInput = [] ∧ ∃ e, o.err = some e

/-- Invariant of a run from `s0`. -/
theorem order_from (c : Cfg) : ∀ (ls : List Label) (s s' : St), run c s ls = some s' →
    (∀ l ∈ ls, ∀ p r n, l = .read p r n → 8 ≤ p.length) →
    (s'.delivered ++ s'.pendingMsgs = s.delivered ++ s.pendingMsgs ++ received s.num ls ∧
      s'.written ++ s'.pendingEvs = s.written ++ s.pendingEvs ++ produced s.num ls) ∨
    (Refused s' ∧ ∃ ls0 l s1, ls = ls0 ++ [l] ∧ run c s ls0 = some s1 ∧ s1.out = none) := by
  intro ls
  induction ls with
  | nil =>
    intro s s' h _
    simp only [run, Option.some.injEq] at h
    subst h; left; simp [received, produced]
  | cons l ls ih =>
    intro s s' h h8
    rw [run] at h
    cases hs : step c s l with
    | none => rw [hs] at h; cases h
    | some s1 =>
      rw [hs] at h
      have h8' : ∀ l ∈ ls, ∀ p r n, l = .read p r n → 8 ≤ p.length := fun x hx => h8 x (by simp [hx])
      have ih1 := ih s1 s' h h8'
      have hout : s.out = none := by
        cases ho : s.out with
        | none => rfl
        | some o => simp [step, ho] at hs
      -- an ended loop takes no further steps
      have ended : ∀ e, s1 = fail s e → Refused s' ∧ ∃ ls0 l' s2, l :: ls = ls0 ++ [l'] ∧ run c s ls0 = some s2 ∧ s2.out = none := by
        intro e he
        have hls : ls = [] := run_out c s1 s' ls h (by rw [he]; rfl)
        subst hls
        simp only [run, Option.some.injEq] at h
        subst h
        exact ⟨by rw [he]; exact ⟨_, rfl, rfl, rfl, e, rfl⟩, [], l, s, rfl, rfl, hout⟩
      -- an ordinary step
      have cont : ∀ (m e : List Bytes),
          s1.delivered ++ s1.pendingMsgs = s.delivered ++ s.pendingMsgs ++ m →
          s1.written ++ s1.pendingEvs = s.written ++ s.pendingEvs ++ e →
          received s.num (l :: ls) = m ++ received s1.num ls →
          produced s.num (l :: ls) = e ++ produced s1.num ls →
          (s'.delivered ++ s'.pendingMsgs = s.delivered ++ s.pendingMsgs ++ received s.num (l :: ls) ∧
            s'.written ++ s'.pendingEvs = s.written ++ s.pendingEvs ++ produced s.num (l :: ls)) ∨
          (Refused s' ∧ ∃ ls0 l' s2, l :: ls = ls0 ++ [l'] ∧ run c s ls0 = some s2 ∧ s2.out = none) := by
        intro m e h1 h2 h3 h4
        rcases ih1 with ⟨a, b⟩ | ⟨a, ls0, l', s2, b1, b2, b3⟩
        · left
          rw [a, b, h1, h2, h3, h4]
          simp only [List.append_assoc, and_self]
        · right
          refine ⟨a, l :: ls0, l', s2, by rw [b1]; rfl, ?_, b3⟩
          rw [run, hs]; exact b2
      simp only [step, hout, Option.isSome_none, Bool.false_eq_true, if_false] at hs
      cases l with
      | messageInput p =>
        simp only at hs
        split at hs
        · rename_i hp
          split at hs
          · rename_i q hq
            have := init_stamped hq
            cases hs
            exact cont [] [stamped p] (by simp) (by simp [this]) rfl rfl
          · cases hs; exact Or.inr (ended _ rfl)
        · cases hs
      | read p reply num =>
        simp only at hs
        have hp8 : 8 ≤ p.length := h8 _ (by simp) p reply num rfl
        obtain ⟨cd, hc, g1, g2, g3⟩ := handle_spec p s.num hp8
        split at hs
        · by_cases hd : Deliverable s.num p
          · rw [g1 hd] at hs
            simp only [Option.some.injEq] at hs
            subst hs
            exact cont [p] [] (by simp) (by simp) (by simp [received, hd]) (by simp [produced, hd])
          · by_cases h1 : cd = -1
            · rw [g2 h1] at hs
              simp only at hs
              cases reply with
              | ok ev =>
                simp only at hs
                split at hs
                · cases hs
                  exact cont [] [ev] (by simp) (by simp) (by simp [received, hd]) (by simp [produced, hd])
                · cases hs
              | err m => cases hs; exact Or.inr (ended _ rfl)
              | panic => cases hs; exact Or.inr (ended _ rfl)
            · obtain ⟨m, hm⟩ := g3 hd h1
              rw [hm] at hs
              cases hs; exact Or.inr (ended _ rfl)
        · cases hs
      | readStop buf e =>
        simp only at hs
        split at hs
        · cases hs
          exact cont [] [] (by simp [save]) (by simp [save]) rfl rfl
        · cases hs
      | readBad =>
        simp only at hs
        split at hs
        · cases hs
          exact cont [] [] (by simp [save]) (by simp [save]) rfl rfl
        · cases hs
      | messageOutput =>
        simp only at hs
        split at hs
        · cases hs
        · rename_i hp
          cases hs
          exact cont [] [] (by simp [hp]) (by simp) rfl rfl
      | subjectOutput =>
        simp only at hs
        split at hs
        · cases hs
        · rename_i hp
          cases hs
          exact cont [] [] (by simp) (by simp [hp]) rfl rfl
      | dead => cases hs; exact cont [] [] (by simp) (by simp) rfl rfl
      | suspend => cases hs; exact cont [] [] (by simp) (by simp) rfl rfl
      | serviceError m => cases hs; exact Or.inr (ended _ rfl)
      | consume n =>
        simp only at hs
        split at hs
        · cases hs; exact cont [] [] (by simp) (by simp) rfl rfl
        · cases hs

/-- The labels that read packets carry whole packets, as the read goroutine sends them
(`framing` shows that every packet it sends is valid). -/
def ReadsPackets (ls : List Label) : Prop := ∀ l ∈ ls, ∀ p r n, l = .read p r n → 8 ≤ p.length

theorem start_spec (c : Cfg) (s : St) (rest : Bytes) (h : start c = .ok (s, rest)) (hn : c.initState.length < 2 ^ 32 - 10) :
    ∃ msgs, splitBufferedPackets c.output c.num = .ok (msgs, rest) ∧
      s = ⟨msgs, initialEvents c, false, c.num, [], [], 0, none⟩ := by
  unfold start at h
  cases hs : splitBufferedPackets c.output c.num with
  | err m => rw [hs] at h; cases h
  | panic => rw [hs] at h; cases h
  | ok x =>
    obtain ⟨msgs, r⟩ := x
    rw [hs] at h
    simp only [Res.bind_ok] at h
    have e1 : (if c.input.length > 0 then [c.input] else []) = (if c.input = [] then [] else [c.input]) := by
      cases c.input <;> simp
    by_cases hi : c.initState = []
    · simp only [hi, List.length_nil, gt_iff_lt, Nat.lt_irrefl, if_false, Res.pure_eq, Res.bind_ok, Res.ok.injEq,
        Prod.mk.injEq] at h
      refine ⟨msgs, by rw [h.2], ?_⟩
      rw [← h.1]
      simp only [initialEvents, hi, if_true, List.append_nil]
      rw [← e1]
    · have hp : c.initState.length > 0 := List.length_pos_iff.mpr hi
      rw [if_pos hp, Services.reply_spec domainInfo c.initState hn] at h
      simp only [Res.pure_eq, Res.bind_ok, Res.ok.injEq, Prod.mk.injEq] at h
      refine ⟨msgs, by rw [h.2], ?_⟩
      rw [← h.1, e1]
      simp [initialEvents, hi, domainInfo]

/-- C18: in every run, as long as the loop has not ended because of a refused packet or
a failed service, the messages delivered to services followed by those still
queued are exactly the restored and received service packets in order, and the
events written followed by those still queued are exactly the restored input, the
initial service state, and the services' messages and discovery replies in order. -/
theorem order (c : Cfg) (ls : List Label) (s : St) (rest : Bytes) (h : loop c ls = some (s, rest))
    (hr : ReadsPackets ls) (hn : c.initState.length < 2 ^ 32 - 10) (hnot : ¬ Refused s) :
    ∃ restored, splitBufferedPackets c.output c.num = .ok (restored, rest) ∧
      s.delivered ++ s.pendingMsgs = restored ++ received c.num ls ∧
      s.written ++ s.pendingEvs = initialEvents c ++ produced c.num ls := by
  unfold loop at h
  cases hs : start c with
  | err m => rw [hs] at h; cases h
  | panic => rw [hs] at h; cases h
  | ok x =>
    obtain ⟨s0, r0⟩ := x
    rw [hs] at h
    simp only [Option.map_eq_some_iff, Prod.mk.injEq] at h
    obtain ⟨s', h1, h2, h3⟩ := h
    subst h2; subst h3
    obtain ⟨msgs, h4, h5⟩ := start_spec c s0 r0 hs hn
    refine ⟨msgs, h4, ?_⟩
    rcases order_from c ls s0 s' h1 hr with ⟨a, b⟩ | ⟨a, _⟩
    · rw [h5] at a b; simpa using ⟨a, b⟩
    · exact absurd a hnot

/-- C18: even if the loop was ended by a refused packet or a failed service, everything
delivered and written until then was in order: the state before the last step
satisfies `order`, and the last step delivers nothing. -/
theorem order_refused (c : Cfg) (ls : List Label) (s : St) (rest : Bytes) (h : loop c ls = some (s, rest))
    (hr : ReadsPackets ls) (hn : c.initState.length < 2 ^ 32 - 10) :
    ∃ restored, splitBufferedPackets c.output c.num = .ok (restored, rest) ∧
      ∃ k, ls.length ≤ k + 1 ∧
        s.delivered ++ s.pendingMsgs = restored ++ received c.num (ls.take k) ∧
        s.written ++ s.pendingEvs = initialEvents c ++ produced c.num (ls.take k) := by
  by_cases hnot : Refused s
  · unfold loop at h
    cases hs : start c with
    | err m => rw [hs] at h; cases h
    | panic => rw [hs] at h; cases h
    | ok x =>
      obtain ⟨s0, r0⟩ := x
      rw [hs] at h
      simp only [Option.map_eq_some_iff, Prod.mk.injEq] at h
      obtain ⟨s', h1, h2, h3⟩ := h
      subst h2; subst h3
      obtain ⟨msgs, h4, h5⟩ := start_spec c s0 r0 hs hn
      refine ⟨msgs, h4, ?_⟩
      rcases order_from c ls s0 s' h1 hr with ⟨a, b⟩ | ⟨_, ls0, l, s1, e1, e2, e3⟩
      · rw [h5] at a b
        exact ⟨ls.length, by omega, by simpa using a, by simpa using b⟩
      · have hr0 : ReadsPackets ls0 := fun x hx => hr x (by rw [e1]; simp [hx])
        have hst : s'.delivered ++ s'.pendingMsgs = s1.delivered ++ s1.pendingMsgs ∧
            s'.written ++ s'.pendingEvs = s1.written ++ s1.pendingEvs := by
          rw [e1, run_snoc, e2, Option.bind_some] at h1
          -- the step sets `out` with an error and empty buffers
          obtain ⟨o, ho, _, _, e, he⟩ := hnot
          simp only [step, e3, Option.isSome_none, Bool.false_eq_true, if_false] at h1
          cases l with
          | messageInput p =>
            simp only at h1; split at h1
            · split at h1
              · cases h1; simp at ho
              · cases h1; simp [fail]
            · cases h1
          | read p r n =>
            simp only at h1; split at h1
            · split at h1
              · cases h1; simp at ho
              · split at h1
                · split at h1
                  · cases h1; simp at ho
                  · cases h1
                · cases h1; simp [fail]
                · cases h1; simp [fail]
              · cases h1; simp [fail]
              · cases h1; simp [fail]
            · cases h1
          | readStop buf e =>
            simp only at h1; split at h1
            · cases h1; simp [save]
            · cases h1
          | readBad =>
            simp only at h1; split at h1
            · cases h1; simp [save]
            · cases h1
          | messageOutput => simp only at h1; split at h1 <;> cases h1; simp at ho
          | subjectOutput => simp only at h1; split at h1 <;> cases h1; simp at ho
          | dead => cases h1; simp
          | suspend => cases h1; simp
          | serviceError m => cases h1; simp [fail]
          | consume n => simp only at h1; split at h1 <;> cases h1; simp
        have := order_from c ls0 s0 s1 e2 hr0
        rcases this with ⟨a, b⟩ | ⟨⟨o, ho, _⟩, _⟩
        · rw [h5] at a b
          refine ⟨ls0.length, by rw [e1]; simp, ?_, ?_⟩
          · rw [hst.1, e1]; simpa using a
          · rw [hst.2, e1]; simpa using b
        · rw [e3] at ho; cases ho
  · obtain ⟨r, h1, h2, h3⟩ := order c ls s rest h hr hn hnot
    exact ⟨r, h1, ls.length, by omega, by simpa using h2, by simpa using h3⟩


/-- A run that goes through most of the branches. -/
example : ∃ x, loop ⟨true, [8, 0, 0, 0, 0, 0, 0, 0, 3], [], 1, [true]⟩
    [.messageOutput, .subjectOutput, .consume 5, .messageInput [0, 0, 0, 0, 0, 0, 1, 0, 65], .subjectOutput,
      .read [8, 0, 0, 0, 0, 0, 1, 0] (.err "") 0, .dead, .readStop [] .eof] = some x ∧
    x.1.delivered = [[8, 0, 0, 0, 0, 0, 0, 0]] ∧ x.1.pendingMsgs = [[8, 0, 0, 0, 0, 0, 1, 0]] ∧ x.2 = [3] ∧
    x.1.out = some ⟨none, [8, 0, 0, 0, 0, 0, 1, 0],
      [255, 1, 0, 1, 0, 1, 0, 0, 0, 0, 0] ++ [9, 0, 0, 0, 0, 0, 1, 0, 65, 0, 0, 0, 0, 0, 0, 0]⟩ :=
  exists_of_run (by decide +kernel)

/-! ### C18: what is kept when the program stops -/

/-- The state just before the loop ends, and the kept buffers. -/
theorem stop_saves (c : Cfg) (hk : c.keep = true) (ls : List Label) (buf : Bytes) (e : ReadErr) (s : St) (rest : Bytes)
    (h : loop c (ls ++ [.readStop buf e]) = some (s, rest))
    (hr : ReadsPackets ls) (hn : c.initState.length < 2 ^ 32 - 10) :
    ∃ o restored, s.out = some o ∧ splitBufferedPackets c.output c.num = .ok (restored, rest) ∧
      -- messages: delivered, then kept, each once and in order, then the partial packet
      s.delivered ++ s.pendingMsgs = restored ++ received c.num ls ∧
      o.savedOutput = s.pendingMsgs.flatten ++ buf ∧
      -- events: consumed by the program, then kept
      s.written ++ s.pendingEvs = initialEvents c ++ produced c.num ls ∧
      (stream s.written).take s.consumed ++ o.savedInput = stream s.written ++ s.pendingEvs.flatten ∧
      (o.err = none ↔ e = .eof) := by
  unfold loop at h
  cases hs : start c with
  | err m => rw [hs] at h; cases h
  | panic => rw [hs] at h; cases h
  | ok x =>
    obtain ⟨s0, r0⟩ := x
    rw [hs] at h
    simp only [Option.map_eq_some_iff, Prod.mk.injEq] at h
    obtain ⟨s', h1, h2, h3⟩ := h
    subst h2; subst h3
    rw [run_snoc] at h1
    cases h4 : run c s0 ls with
    | none => rw [h4] at h1; cases h1
    | some s1 =>
      rw [h4, Option.bind_some] at h1
      have ho : s1.out = none := by
        cases ho : s1.out with
        | none => rfl
        | some o => simp [step, ho] at h1
      have hl : loop c ls = some (s1, r0) := by simp [loop, hs, h4]
      obtain ⟨restored, g1, g2, g3⟩ := order c ls s1 r0 hl hr hn (by rintro ⟨o, hx, _⟩; rw [ho] at hx; cases hx)
      simp only [step, ho, Option.isSome_none, Bool.false_eq_true, if_false] at h1
      split at h1
      · simp only [Option.some.injEq] at h1
        subst h1
        refine ⟨⟨_, _, _⟩, restored, by simp only [save, hk, if_true]; rfl, g1, g2, rfl, g3, ?_, ?_⟩
        · simp only [save]
          rw [← List.append_assoc, List.take_append_drop]
        · cases e <;> simp
      · cases h1

/-! ### Resuming the program's output -/

/-- All queued messages are deliverable packets. -/
theorem queue_good (c : Cfg) : ∀ (ls : List Label) (s s' : St), run c s ls = some s' →
    (∀ l ∈ ls, ∀ p r n, l = .read p r n → ValidPacket p) →
    (∀ p ∈ s.pendingMsgs, GoodMsg s.num p) →
    (∀ p ∈ s'.pendingMsgs, GoodMsg s'.num p) ∧ s.num ≤ s'.num := by
  intro ls
  induction ls with
  | nil => intro s s' h _ hg; simp only [run, Option.some.injEq] at h; subst h; exact ⟨hg, Nat.le_refl _⟩
  | cons l ls ih =>
    intro s s' h hv hg
    rw [run] at h
    cases hs : step c s l with
    | none => rw [hs] at h; cases h
    | some s1 =>
      rw [hs] at h
      have hv' : ∀ l ∈ ls, ∀ p r n, l = .read p r n → ValidPacket p := fun x hx => hv x (by simp [hx])
      suffices hh : (∀ p ∈ s1.pendingMsgs, GoodMsg s1.num p) ∧ s.num ≤ s1.num by
        obtain ⟨a, b⟩ := ih s1 s' h hv' hh.1
        exact ⟨a, Nat.le_trans hh.2 b⟩
      have hout : s.out = none := by
        cases ho : s.out with
        | none => rfl
        | some o => simp [step, ho] at hs
      simp only [step, hout, Option.isSome_none, Bool.false_eq_true, if_false] at hs
      cases l with
      | messageInput p =>
        simp only at hs
        split at hs
        · split at hs <;> cases hs <;> exact ⟨hg, Nat.le_refl _⟩
        · cases hs
      | read p reply num =>
        simp only at hs
        have hp := hv _ (by simp) p reply num rfl
        split at hs
        · split at hs
          · rename_i m hm
            obtain ⟨e1, e2⟩ := handled_is_deliverable p m s.num hp.1 hm
            subst e1
            cases hs
            refine ⟨?_, Nat.le_refl _⟩
            intro q hq
            simp only [List.mem_append, List.mem_singleton] at hq
            rcases hq with hq | rfl
            · exact hg q hq
            · exact ⟨hp, e2⟩
          · split at hs
            · split at hs
              · rename_i hle
                cases hs
                refine ⟨?_, hle⟩
                intro q hq
                obtain ⟨v, cd, d, x1, x2, x3, x4, x5⟩ := hg q hq
                exact ⟨v, cd, d, x1, x2, x3, by simp only; omega, x5⟩
              · cases hs
            · cases hs; exact ⟨hg, Nat.le_refl _⟩
            · cases hs; exact ⟨hg, Nat.le_refl _⟩
          · cases hs; exact ⟨hg, Nat.le_refl _⟩
          · cases hs; exact ⟨hg, Nat.le_refl _⟩
        · cases hs
      | readStop buf e =>
        simp only at hs
        split at hs
        · cases hs; exact ⟨hg, Nat.le_refl _⟩
        · cases hs
      | readBad =>
        simp only at hs
        split at hs
        · cases hs; exact ⟨hg, Nat.le_refl _⟩
        · cases hs
      | messageOutput =>
        simp only at hs
        split at hs
        · cases hs
        · rename_i m rest hp
          cases hs
          exact ⟨fun q hq => hg q (by rw [hp]; simp [hq]), Nat.le_refl _⟩
      | subjectOutput =>
        simp only at hs
        split at hs
        · cases hs
        · cases hs; exact ⟨hg, Nat.le_refl _⟩
      | dead => cases hs; exact ⟨hg, Nat.le_refl _⟩
      | suspend => cases hs; exact ⟨hg, Nat.le_refl _⟩
      | serviceError m => cases hs; exact ⟨hg, Nat.le_refl _⟩
      | consume n =>
        simp only at hs
        split at hs
        · cases hs; exact ⟨hg, Nat.le_refl _⟩
        · cases hs

/-- C18: resuming.  When the program is suspended with a partial packet `buf` in its
output, the kept output splits, at resumption with the same services, into exactly
the undelivered messages and the partial packet: together with those delivered
before, every received packet is delivered once and in order. -/
theorem resume_messages (c : Cfg) (hk : c.keep = true) (ls : List Label) (buf : Bytes) (s : St) (rest : Bytes)
    (h : loop c (ls ++ [.readStop buf .eof]) = some (s, rest))
    (hv : ∀ l ∈ ls, ∀ p r n, l = .read p r n → ValidPacket p) (hb : PartialPacket buf)
    (hn : c.initState.length < 2 ^ 32 - 10) (hol : c.output.length < 2 ^ 32)
    (hlen : ∀ o, s.out = some o → o.savedOutput.length < 2 ^ 32) :
    ∃ o restored again, s.out = some o ∧ o.err = none ∧
      splitBufferedPackets c.output c.num = .ok (restored, rest) ∧
      splitBufferedPackets o.savedOutput s.num = .ok (again, buf) ∧
      s.delivered ++ again = restored ++ received c.num ls := by
  obtain ⟨o, restored, h1, h2, h3, h4, _, _, h5⟩ := stop_saves c hk ls buf .eof s rest h
    (fun l hl p r n e => (hv l hl p r n e).1) hn
  refine ⟨o, restored, s.pendingMsgs, h1, h5.mpr rfl, h2, ?_, h3⟩
  rw [h4]
  have hgood : ∀ p ∈ s.pendingMsgs, GoodMsg s.num p := by
    unfold loop at h
    cases hs : start c with
    | err m => rw [hs] at h; cases h
    | panic => rw [hs] at h; cases h
    | ok x =>
      obtain ⟨s0, r0⟩ := x
      rw [hs] at h
      simp only [Option.map_eq_some_iff, Prod.mk.injEq] at h
      obtain ⟨s', g1, g2, g3⟩ := h
      subst g2; subst g3
      obtain ⟨msgs, g4, g5⟩ := start_spec c s0 r0 hs hn
      have hm : ∀ p ∈ msgs, GoodMsg c.num p := by
        rcases split_total c.output c.num hol with ⟨m, hm⟩ | ⟨ms, tail, k1, _, _, k4⟩
        · rw [hm] at g4; cases g4
        · rw [k1] at g4; cases g4; exact k4
      have := (queue_good c (ls ++ [.readStop buf .eof]) s0 s' g1 ?_ ?_).1
      · exact this
      · intro l hl p r n e
        simp only [List.mem_append, List.mem_singleton] at hl
        rcases hl with hl | hl
        · exact hv l hl p r n e
        · rw [hl] at e; cases e
      · rw [g5]; exact hm
  have hl := hlen o h1
  rw [h4] at hl
  exact split_exact s.pendingMsgs buf s.num hgood hb hl

/-! ### C54 -/

theorem readFull_eof {n : Nat} {pipe : Pipe} {b : Bytes} {p' : Pipe}
    (h : readFull n pipe = (b, p', some .eof)) : b = [] ∧ 0 < n := by
  have spec := readFullLoop_spec pipe n []
  by_cases hn : n ≤ pipe.flatten.length
  · obtain ⟨q, h1, _⟩ := spec.1 hn
    unfold readFull at h; rw [h1] at h; cases h
  · have h1 := spec.2 (by omega)
    unfold readFull at h; rw [h1] at h
    simp only [List.nil_append, Prod.mk.injEq, Option.some.injEq] at h
    obtain ⟨ha, _, hc⟩ := h
    split at hc
    · rename_i hx; exact ⟨by rw [← ha]; exact hx, by omega⟩
    · cases hc

/-- When the program's output ends with a plain end-of-file, what is left over is a
partial packet: never a whole packet with some of its padding. -/
theorem eof_partial : ∀ (fuel : Nat) (part : Bytes) (pipe : Pipe) (rest : Bytes),
    (part.length < 8 ∨ part.length < sizeField part) →
    .stop rest .eof ∈ readLoop fuel part pipe → PartialPacket rest := by
  intro fuel
  induction fuel with
  | zero => intro part pipe rest _ h; simp [readLoop] at h
  | succ fuel ih =>
    intro part pipe rest hp h
    rw [readLoop] at h
    simp only [show headerSize = 8 from rfl, show maxPacketSize = 65536 from rfl] at h
    cases h1 : readFull (8 - min 8 part.length) pipe with
    | mk b x =>
      obtain ⟨pipe1, e1⟩ := x
      rw [h1] at h
      cases e1 with
      | some e =>
        simp only [List.mem_singleton, Event.stop.injEq] at h
        obtain ⟨hr, he⟩ := h
        subst he
        obtain ⟨hb, hn⟩ := readFull_eof h1
        subst hr hb
        left; simp; omega
      | none =>
        simp only at h
        split at h
        · simp at h
        · rename_i hsz
          generalize hhd : List.take (min 8 part.length) part ++ b = header at h hsz
          have hlen : header.length = 8 := by
            have spec := readFullLoop_spec pipe (8 - min 8 part.length) []
            by_cases hn : 8 - min 8 part.length ≤ pipe.flatten.length
            · obtain ⟨q, g1, _⟩ := spec.1 hn
              unfold readFull at h1; rw [g1] at h1
              simp only [List.nil_append, Prod.mk.injEq, and_true] at h1
              rw [← hhd, ← h1.1]
              simp only [List.length_append, List.length_take]
              omega
            · have g1 := spec.2 (by omega)
              unfold readFull at h1; rw [g1] at h1; simp at h1
          have hal := align_spec (sizeField header)
          cases h2 : readFull (align (sizeField header) - 8 -
              min (align (sizeField header) - 8) (part.drop (min 8 part.length)).length) pipe1 with
          | mk b2 x2 =>
            obtain ⟨pipe2, e2⟩ := x2
            rw [h2] at h
            cases e2 with
            | some e =>
              simp only [List.mem_singleton, Event.stop.injEq] at h
              obtain ⟨hr, he⟩ := h
              subst he
              obtain ⟨hb, hn⟩ := readFull_eof h2
              subst hb
              rw [List.append_nil] at hr
              have hdl : (part.drop (min 8 part.length)).length = part.length - min 8 part.length := by simp
              rw [hdl] at hn hr
              rw [List.take_of_length_le (by rw [hdl]; omega)] at hr
              have hrl : rest.length = 8 + (part.length - min 8 part.length) := by
                rw [hr, List.length_append, hlen, hdl]
              have hsr : sizeField rest = sizeField header := by
                rw [hr]; exact sizeField_append (by omega)
              right
              rw [hsr]
              refine ⟨by omega, by omega, ?_⟩
              by_cases hp8 : part.length < 8
              · rw [hrl]; omega
              · have hp' : part.length < sizeField part := by omega
                have : sizeField header = sizeField part := by
                  rw [← hhd, sizeField_append (by simp; omega), sizeField_take (by omega)]
                rw [hrl]; omega
            | none =>
              simp only [List.mem_cons, reduceCtorEq, false_or] at h
              exact ih [] pipe2 rest (Or.inl (by simp)) h

/-- The packets among the read loop's events. -/
def packets : List Event → List Bytes
  | [] => []
  | .pkt p :: es => p :: packets es
  | _ :: es => packets es

theorem packets_map (ps : List Bytes) (e : Event) (he : packets [e] = []) :
    packets (ps.map .pkt ++ [e]) = ps := by
  induction ps with
  | nil => exact he
  | cons p ps ih => simp only [List.map_cons, List.cons_append, packets, ih]

theorem packets_only (ps : List Bytes) : packets (ps.map .pkt) = ps := by
  induction ps with
  | nil => rfl
  | cons p ps ih => simp only [List.map_cons, packets, ih]

theorem wire_append {ps qs : List Bytes} {a b : Bytes} (h1 : Wire ps a) (h2 : Wire qs b) : Wire (ps ++ qs) (a ++ b) := by
  induction h1 with
  | nil => exact h2
  | cons hv hp _ ih => rw [List.append_assoc]; exact .cons hv hp ih

/-- C54, the part that holds: if the program's output stopped with a plain end-of-file
(at a packet boundary, right after a header, or with nothing new since the last
resumption), then what the read loop yields before the suspension and after the
resumption is exactly what it would have yielded without it. -/
theorem suspend_framing_partial (part : Bytes) (pipe1 pipe2 : Pipe) (evs1 : List Event) (rest : Bytes)
    (hp : part.length < 8 ∨ part.length < sizeField part)
    (h1 : subjectReads part pipe1 = evs1 ++ [.stop rest .eof]) :
    packets evs1 ++ packets (subjectReads rest pipe2) = packets (subjectReads part (pipe1 ++ pipe2)) ∧
    (.bad ∈ subjectReads rest pipe2 ↔ .bad ∈ subjectReads part (pipe1 ++ pipe2)) := by
  have hpo : PartOk part := by
    rcases hp with hp | hp
    · exact Or.inl hp
    · have := align_spec (sizeField part); right; omega
  obtain ⟨ps1, w1, r1, e1, hw1, hend1⟩ := framing_total (part ++ pipe1.flatten)
  have f1 := framing ps1 w1 r1 part pipe1 hw1 e1 hpo
  have hev : evs1 = ps1.map .pkt ∧ r1 = rest := by
    rcases hend1 with hi | hb
    · obtain ⟨e, he⟩ := f1.1 hi
      rw [h1] at he
      have := List.append_inj' he rfl
      have h2 := this.2
      simp only [List.cons.injEq, Event.stop.injEq, and_true] at h2
      exact ⟨this.1, h2.1.symm⟩
    · rw [f1.2 hb] at h1
      have := List.append_inj' h1 rfl
      simp at this
  have hrest : PartialPacket rest := by
    have : .stop rest .eof ∈ subjectReads part pipe1 := by rw [h1]; simp
    exact eof_partial _ part pipe1 rest hp this
  obtain ⟨hev1, hev2⟩ := hev
  subst hev2
  have hro : PartOk r1 := by
    rcases hrest with h | ⟨_, _, h⟩
    · exact Or.inl h
    · have := align_spec (sizeField r1); right; omega
  obtain ⟨ps2, w2, r2, e2, hw2, hend2⟩ := framing_total (r1 ++ pipe2.flatten)
  have f2 := framing ps2 w2 r2 r1 pipe2 hw2 e2 hro
  have e3 : part ++ (pipe1 ++ pipe2).flatten = (w1 ++ w2) ++ r2 := by
    rw [List.flatten_append, ← List.append_assoc, e1, List.append_assoc, e2, List.append_assoc]
  have f3 := framing (ps1 ++ ps2) (w1 ++ w2) r2 part (pipe1 ++ pipe2) (wire_append hw1 hw2) e3 hpo
  have hpk : packets evs1 = ps1 := by
    rw [hev1]
    exact packets_only ps1
  have nobad : ∀ (l : List Bytes), Event.bad ∉ l.map Event.pkt := by
    intro l h; obtain ⟨x, _, hx⟩ := List.mem_map.mp h; cases hx
  rcases hend2 with hi | hb
  · obtain ⟨a, ha⟩ := f2.1 hi
    obtain ⟨b, hb⟩ := f3.1 hi
    rw [ha, hb, packets_map _ _ rfl, packets_map _ _ rfl, hpk]
    refine ⟨rfl, ?_⟩
    simp [nobad]
  · rw [f2.2 hb, f3.2 hb, packets_map _ _ rfl, packets_map _ _ rfl, hpk]
    refine ⟨rfl, ?_⟩
    simp

/-- A program suspended in the middle of writing the second packet. -/
def midWrite : Pipe := [[8, 0, 0, 0, 0, 0, 0, 0, 16, 0, 0, 0, 0, 0]]
def midCfg : Cfg := ⟨true, [], [], 1, []⟩

/-- C54 refuted: a program suspended while only a part of a packet's bytes is in the
pipe is not suspended but ends with an internal error: the read goroutine reports
an unexpected end-of-file, the loop returns it as its error, and the services are
shut down instead of suspended. -/
theorem suspend_mid_packet :
    subjectReads [] midWrite = [.pkt [8, 0, 0, 0, 0, 0, 0, 0], .stop [16, 0, 0, 0, 0, 0] .unexpected] ∧
    ∃ x, loop midCfg [.read [8, 0, 0, 0, 0, 0, 0, 0] (.err "") 0, .messageOutput, .suspend, .dead,
        .readStop [16, 0, 0, 0, 0, 0] .unexpected] = some x ∧
      x.1.out = some ⟨some (.other "subject read: unexpected EOF"), [16, 0, 0, 0, 0, 0], []⟩ :=
  ⟨by decide +kernel, exists_of_run (by decide +kernel)⟩

/-- The same for every partial packet: whatever the state of the loop, an unexpected
end-of-file is an error. -/
theorem unexpected_is_error (c : Cfg) (s s' : St) (buf : Bytes) (h : step c s (.readStop buf .unexpected) = some s') :
    ∃ o, s'.out = some o ∧ o.err = some (.other "subject read: unexpected EOF") := by
  simp only [step] at h
  split at h
  · cases h
  · split at h
    · cases h
      simp only [save]
      split <;> exact ⟨_, rfl, rfl⟩
    · cases h

/-! ### C19 -/

/-- C19, the part that holds: if every event's length is a multiple of eight, then what
the program consumed before the suspension followed by the kept input is the
stream of all events, each starting at an 8-byte boundary. -/
theorem kept_input_aligned_partial (c : Cfg) (hk : c.keep = true) (ls : List Label) (buf : Bytes) (e : ReadErr)
    (s : St) (rest : Bytes) (h : loop c (ls ++ [.readStop buf e]) = some (s, rest))
    (hr : ReadsPackets ls) (hn : c.initState.length < 2 ^ 32 - 10)
    (ha : ∀ ev ∈ initialEvents c ++ produced c.num ls, ev.length % 8 = 0) :
    ∃ o, s.out = some o ∧
      (stream s.written).take s.consumed ++ o.savedInput = stream (initialEvents c ++ produced c.num ls) := by
  obtain ⟨o, restored, h1, _, _, _, h5, h6, _⟩ := stop_saves c hk ls buf e s rest h hr hn
  refine ⟨o, h1, ?_⟩
  rw [h6, ← h5]
  have : s.pendingEvs.flatten = stream s.pendingEvs := by
    unfold stream
    congr 1
    have hh : ∀ ev ∈ s.pendingEvs, eventBytes ev = ev := by
      intro ev hev
      obtain ⟨_, _, _, _, h3, _⟩ := event_padding ev
      exact h3 (ha ev (by rw [← h5]; simp [hev]))
    exact (List.map_id' ..).symm.trans (List.map_congr_left (fun a ha => (hh a ha).symm)) |>.trans rfl
  rw [this]
  simp [stream]

/-- C19 refuted: two events of nine bytes are pending when the program is suspended:
after resumption the second one starts at offset 9. -/
theorem kept_input_misaligned :
    ∃ x, loop ⟨true, [], [], 1, []⟩ [.messageInput [9, 0, 0, 0, 0, 0, 0, 0, 65], .dead,
        .read [10, 0, 0, 0, 255, 255, 0, 0, 0, 0] (.ok [11, 0, 0, 0, 255, 255, 0, 0, 1, 0, 1]) 1,
        .readStop [] .eof] = some x ∧
      x.1.out = some ⟨none, [], [9, 0, 0, 0, 0, 0, 0, 0, 65] ++ [11, 0, 0, 0, 255, 255, 0, 0, 1, 0, 1]⟩ :=
  exists_of_run (by decide +kernel)

/-! ### Back pressure -/

theorem pending_step (c : Cfg) (s s' : St) (l : Label) (h : step c s l = some s') (hd : s'.dead = false) :
    s.dead = false ∧ (s'.pendingMsgs.length ≤ s.pendingMsgs.length ∨ s'.pendingMsgs.length ≤ 1) ∧
      (s'.pendingEvs.length ≤ s.pendingEvs.length ∨ s'.pendingEvs.length ≤ 1) := by
  unfold step at h
  split at h
  · cases h
  · simp only at h
    split at h
    · split at h
      · rename_i he
        split at h <;> cases h
        · exact ⟨hd, .inl (Nat.le_refl _), .inr (by simp [he])⟩
        · exact ⟨hd, .inl (Nat.le_refl _), .inl (Nat.le_refl _)⟩
      · cases h
    · split at h
      · rename_i hre
        split at h
        · cases h
          have hd' : s.dead = false := hd
          simp only [hd', Bool.or_false, Bool.and_eq_true, List.isEmpty_iff] at hre
          exact ⟨hd, .inr (by simp [hre.1]), .inl (Nat.le_refl _)⟩
        · split at h
          · split at h
            · cases h
              have hd' : s.dead = false := hd
              simp only [hd', Bool.or_false, Bool.and_eq_true, List.isEmpty_iff] at hre
              exact ⟨hd, .inl (Nat.le_refl _), .inr (by simp [hre.2])⟩
            · cases h
          · cases h; exact ⟨hd, .inl (Nat.le_refl _), .inl (Nat.le_refl _)⟩
          · cases h; exact ⟨hd, .inl (Nat.le_refl _), .inl (Nat.le_refl _)⟩
        · cases h; exact ⟨hd, .inl (Nat.le_refl _), .inl (Nat.le_refl _)⟩
        · cases h; exact ⟨hd, .inl (Nat.le_refl _), .inl (Nat.le_refl _)⟩
      · cases h
    · split at h
      · cases h; exact ⟨hd, .inl (Nat.le_refl _), .inl (Nat.le_refl _)⟩
      · cases h
    · split at h
      · cases h; exact ⟨hd, .inl (Nat.le_refl _), .inl (Nat.le_refl _)⟩
      · cases h
    · split at h
      · cases h
      · rename_i hm
        cases h
        exact ⟨hd, .inl (by simp [hm]), .inl (Nat.le_refl _)⟩
    · split at h
      · cases h
      · rename_i hm
        cases h
        exact ⟨hd, .inl (Nat.le_refl _), .inl (by simp [hm])⟩
    · cases h; cases hd
    · cases h; exact ⟨hd, .inl (Nat.le_refl _), .inl (Nat.le_refl _)⟩
    · cases h; exact ⟨hd, .inl (Nat.le_refl _), .inl (Nat.le_refl _)⟩
    · split at h
      · cases h; exact ⟨hd, .inl (Nat.le_refl _), .inl (Nat.le_refl _)⟩
      · cases h

/-- C71: while the process is alive, the loop holds no more packets than it started with, or one in each
direction: it does not read more from the program, or receive more from the services, before they have been
passed on. -/
theorem backpressure (c : Cfg) (ls : List Label) (s0 s : St)
    (h : run c s0 ls = some s) (hd : s.dead = false) :
    s.pendingMsgs.length ≤ max s0.pendingMsgs.length 1 ∧ s.pendingEvs.length ≤ max s0.pendingEvs.length 1 := by
  suffices hs : s0.dead = false ∧ s.pendingMsgs.length ≤ max s0.pendingMsgs.length 1 ∧
      s.pendingEvs.length ≤ max s0.pendingEvs.length 1 from hs.2
  induction ls generalizing s0 with
  | nil =>
    simp only [run, Option.some.injEq] at h
    subst h
    exact ⟨hd, by omega, by omega⟩
  | cons l ls ih =>
    rw [run] at h
    cases hs : step c s0 l with
    | none => rw [hs] at h; cases h
    | some s1 =>
      rw [hs] at h
      obtain ⟨h1, h2, h3⟩ := ih s1 h
      obtain ⟨g1, g2, g3⟩ := pending_step c s0 s1 l hs h1
      exact ⟨g1, by omega, by omega⟩

/-- C71: how much is held at the start: the restored input and the services' information are one packet each,
and every restored message takes at least 8 bytes of the restored output. -/
theorem initially_pending (c : Cfg) (s0 : St) (rest : Bytes) (hlt : c.output.length < 2 ^ 32) (h0 : start c = .ok (s0, rest)) :
    s0.pendingEvs.length ≤ 2 ∧ 8 * s0.pendingMsgs.length ≤ c.output.length := by
  unfold start at h0
  cases hsp : splitBufferedPackets c.output c.num with
  | err m => rw [hsp] at h0; cases h0
  | panic => rw [hsp] at h0; cases h0
  | ok x =>
    obtain ⟨msgs, r⟩ := x
    rw [hsp] at h0
    simp only [Res.bind_ok] at h0
    have hm : 8 * msgs.length ≤ c.output.length := by
      rcases split_total c.output c.num hlt with ⟨m, he⟩ | ⟨msgs', tail, he, hf, _, hg⟩
      · rw [hsp] at he; cases he
      · rw [hsp] at he
        cases he
        rw [hf, List.length_append]
        have : ∀ l : List Bytes, (∀ p ∈ l, 8 ≤ p.length) → 8 * l.length ≤ l.flatten.length := by
          intro l hl
          induction l with
          | nil => simp
          | cons p l ih =>
            have h1 := hl p (by simp)
            have h2 := ih (fun q hq => hl q (by simp [hq]))
            simp only [List.length_cons, List.flatten_cons, List.length_append]
            omega
        have := this msgs (fun p hp => (hg p hp).1.1)
        omega
    by_cases hi : c.initState.length > 0
    · rw [if_pos hi] at h0
      cases hp : Services.makeServicesPacket domainInfo c.initState with
      | err m => rw [hp] at h0; cases h0
      | panic => rw [hp] at h0; cases h0
      | ok p =>
        rw [hp] at h0
        simp only [Res.bind_ok, Res.pure_eq] at h0
        cases h0
        refine ⟨?_, hm⟩
        simp only [List.length_append]
        split <;> simp
    · rw [if_neg hi] at h0
      simp only [Res.bind_ok, Res.pure_eq] at h0
      cases h0
      refine ⟨?_, hm⟩
      simp only
      split <;> simp


end Gate.IoLoop
