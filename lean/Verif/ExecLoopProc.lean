import Verif.ExecLoopHist
/-
C133-C136: processes of the executor.
-/
namespace Gate.ExecLoop

/-! ### Histories -/

theorem alive_snoc (l : List Act) (a : Act) : alive (l ++ [a]) = (match a with
    | .created id n => alive l ++ [(id, n)]
    | .reaped id _ => (alive l).filter (fun e => e.1 != id)
    | _ => alive l) := by
  cases a <;> simp only [alive, List.foldl_append, List.foldl_cons, List.foldl_nil]

theorem births_snoc (l : List Act) (a : Act) : births (l ++ [a]) = births l + (match a with | .created _ _ => 1 | _ => 0) := by
  cases a <;> simp [births]

theorem reapedOf_snoc (l : List Act) (a : Act) : reapedOf (l ++ [a]) = reapedOf l ++ (match a with | .reaped id n => [(id, n)] | _ => []) := by
  cases a <;> simp [reapedOf]

theorem answers_snoc (l : List Act) (a : Act) : answers (l ++ [a]) = answers l ++ (match a with
    | .created id _ => [(.create, id)] | .signalled op id _ => [(op, id)] | .missed op id => [(op, id)] | .reaped _ _ => []) := by
  cases a <;> simp [answers]

theorem Valid.nil : Valid [] := by intro l a l' h; simp at h

theorem valid_snoc (l : List Act) (a : Act) : Valid (l ++ [a]) ↔ Valid l ∧ Ok l a := by
  constructor
  · intro h
    exact ⟨fun k b k' e => h k b (k' ++ [a]) (by rw [e]; simp), h l a [] rfl⟩
  · rintro ⟨h, ha⟩ k b k' e
    rcases List.eq_nil_or_concat k' with rfl | ⟨k'', c, rfl⟩
    · obtain ⟨e1, e2⟩ := List.append_inj' e rfl
      cases e2; subst e1; exact ha
    · have e : l ++ [a] = (k ++ b :: k'') ++ [c] := by rw [e]; simp
      obtain ⟨e1, e2⟩ := List.append_inj' e rfl
      exact h k b k'' e1

theorem rev_ind {P : List Act → Prop} (h0 : P []) (h1 : ∀ l a, P l → P (l ++ [a])) (l : List Act) : P l := by
  have : ∀ r : List Act, P r.reverse := by
    intro r
    induction r with
    | nil => exact h0
    | cons a r ih => rw [List.reverse_cons]; exact h1 _ _ ih
  simpa using this l.reverse

/-- The identifiers of existing processes are different. -/
theorem alive_nodup (l : List Act) (h : Valid l) : ((alive l).map (·.1)).Nodup := by
  induction l using rev_ind with
  | h0 => simp [alive]
  | h1 l a ih =>
    obtain ⟨hl, ha⟩ := (valid_snoc l a).1 h
    have ih := ih hl
    rw [alive_snoc]
    cases a with
    | created id n =>
      simp only [List.map_append, List.map_cons, List.map_nil]
      rw [List.nodup_append]
      refine ⟨ih, by simp, ?_⟩
      intro x hx y hy e
      simp only [List.mem_singleton] at hy
      subst e; subst hy
      obtain ⟨p, hp, e⟩ := List.mem_map.1 hx
      exact ha.1 p.2 (by rw [← e]; exact hp)
    | reaped id n => exact ih.sublist (List.Sublist.map _ List.filter_sublist)
    | signalled op id n => exact ih
    | missed op id => exact ih

theorem filter_perm (l : List (Nat × Nat)) (id n : Nat) (h : (l.map (·.1)).Nodup) (hm : (id, n) ∈ l) :
    l.Perm ((id, n) :: l.filter (fun e => e.1 != id)) := by
  induction l with
  | nil => cases hm
  | cons a l ih =>
    rw [List.map_cons, List.nodup_cons] at h
    rcases List.mem_cons.1 hm with e | hm
    · subst e
      have : l.filter (fun e => e.1 != id) = l := by
        rw [List.filter_eq_self]
        intro b hb
        simp only [bne_iff_ne]
        intro e
        exact h.1 (List.mem_map.2 ⟨b, hb, e⟩)
      simp [this]
    · have hne : a.1 ≠ id := fun e => h.1 (List.mem_map.2 ⟨_, hm, e.symm⟩)
      have : (a :: l).filter (fun e => e.1 != id) = a :: l.filter (fun e => e.1 != id) := by simp [hne]
      rw [this]
      exact ((ih h.2 hm).cons a).trans (List.Perm.swap _ _ _)

/-- In a valid history, every process which has been created either exists or has been reaped, exactly once. -/
theorem accounted (l : List Act) (h : Valid l) : ((reapedOf l ++ alive l).map (·.2)).Perm (List.range (births l)) := by
  induction l using rev_ind with
  | h0 => simp [alive, reapedOf, births]
  | h1 l a ih =>
    obtain ⟨hl, ha⟩ := (valid_snoc l a).1 h
    have ih := ih hl
    have hn := alive_nodup l hl
    rw [alive_snoc, reapedOf_snoc, births_snoc]
    cases a with
    | created id n =>
      have e : n = births l := ha.2
      subst e
      simp only [List.append_nil, ← List.append_assoc, List.map_append, List.map_cons, List.map_nil, List.range_succ]
      rw [← List.map_append]
      exact ih.append_right _
    | reaped id n =>
      simp only [List.append_assoc, Nat.add_zero, List.singleton_append]
      exact (((filter_perm _ id n hn ha).symm.append_left _).map _).trans ih
    | signalled op id n => simpa using ih
    | missed op id => simpa using ih

/-! ### Processes -/

theorem find_some {s : St} {id : Nat} {p : Proc} (h : s.find id = some p) : p ∈ s.procs ∧ p.id = id := by
  have h1 := List.mem_of_find?_eq_some h
  have h2 := List.find?_some h
  exact ⟨h1, by simpa using h2⟩

theorem find_none {s : St} {id : Nat} (h : s.find id = none) : ∀ p ∈ s.procs, p.id ≠ id := by
  intro p hp
  have := List.find?_eq_none.1 h p hp
  simpa using this

theorem fdsOf_cons (m : Msg) (r : Req) (l : List Msg) (h : m.req = some r) : fdsOf (m :: l) = r.fds + fdsOf l := by
  simp [fdsOf, reqs_cons_some m r l h]

structure Procs (s : St) : Prop where
  tbl : alive s.log = s.procs.map (fun p => (p.id, p.num))
  valid : Valid s.log
  count : births s.log = s.count
  stat : reapedOf s.log = s.sent ++ s.queue
  ans : answers s.log = s.handled.map (fun r => (r.op, r.id))
  bound : ∀ p ∈ s.procs, p.id < 16384
  fds : s.phase.final = false → (∀ m ∈ batchOf s.phase, m.trunc = false) → s.opened = 8 + s.procs.length + fdsOf (batchOf s.phase)
  evp : ∀ id, Ev.proc id ∈ eventsOf s.phase → ∃ p ∈ s.procs, p.id = id ∧ p.exited = true
  evn : (eventsOf s.phase).Nodup

theorem Procs.init : Procs {} := by
  constructor <;> simp [eventsOf, batchOf, fdsOf, alive, births, reapedOf, answers, Valid.nil, Phase.final]

/-- Frame: nothing about processes changes. -/
theorem Procs.frame {s t : St} (h : Procs s) (e1 : t.log = s.log) (e2 : t.procs = s.procs) (e3 : t.count = s.count) (e4 : t.sent ++ t.queue = s.sent ++ s.queue)
    (e5 : t.handled = s.handled) (e6 : t.phase.final = false → t.opened = s.opened ∧ s.phase.final = false) (e7 : t.phase.final = true ∨ batchOf t.phase = batchOf s.phase ∨ (reqs (batchOf t.phase) = reqs (batchOf s.phase) ∧ batchOf s.phase = []))
    (e8 : eventsOf t.phase = [] ∨ eventsOf t.phase = eventsOf s.phase ∨ ∃ a, eventsOf s.phase = a :: eventsOf t.phase) : Procs t := by
  obtain ⟨h1, h2, h3, h4, h5, h6, h7, h8, h9⟩ := h
  constructor
  · rw [e1, e2]; exact h1
  · rw [e1]; exact h2
  · rw [e1, e3]; exact h3
  · rw [e1, e4]; exact h4
  · rw [e1, e5]; exact h5
  · rw [e2]; exact h6
  · intro hf hb
    obtain ⟨ho, hs⟩ := e6 hf
    rcases e7 with e | e | ⟨e, e'⟩
    · rw [hf] at e; cases e
    · rw [e] at hb ⊢; rw [ho, e2]; exact h7 hs hb
    · have := h7 hs (by rw [e']; simp)
      rw [ho, e2, this]
      simp only [fdsOf, e]
  · rw [e2]
    rcases e8 with e | e | ⟨a, e⟩
    · rw [e]; intro id h; cases h
    · rw [e]; exact h8
    · intro id hid; exact h8 id (by rw [e]; simp [hid])
  · rcases e8 with e | e | ⟨a, e⟩
    · rw [e]; exact List.nodup_nil
    · rw [e]; exact h9
    · rw [e] at h9; exact (List.nodup_cons.1 h9).2

theorem Procs.step {s t : St} {b : Bool} (hh : Hist s) (h : Procs s) (e : Tr s b t) : Procs t := by
  cases e
  case flush k f h1 h2 h3 h4 h5 h6 =>
    exact h.frame rfl rfl rfl (by simp) rfl (by simp [h1, Phase.final]) (.inr (.inl rfl)) (.inr (.inl rfl))
  case recv k h1 h2 h3 h4 h5 =>
    obtain ⟨g1, g2, g3, g4, g5, g6, g7, g8, g9⟩ := h
    refine ⟨g1, g2, g3, g4, g5, g6, ?_, ?_, ?_⟩
    · intro _ hb
      simp only [batchOf] at hb ⊢
      rw [install_opened _ _ hb, fdsOf, install_reqs, g7 (by simp [h1, Phase.final]) (by simp [h1, batchOf])]
      simp [h1, batchOf, fdsOf]
    · intro id hid; simp [eventsOf] at hid
    · exact List.nodup_nil
  case create m r rest h1 h2 h3 h4 h5 h6 h7 h8 =>
    obtain ⟨g1, g2, g3, g4, g5, g6, g7, g8, g9⟩ := h
    have hn := find_none h7
    constructor <;> simp only
    · rw [alive_snoc]; simp [g1]
    · rw [valid_snoc]
      refine ⟨g2, fun m hm => ?_, g3.symm⟩
      rw [g1] at hm
      obtain ⟨p, hp, e⟩ := List.mem_map.1 hm
      exact hn p hp (congrArg Prod.fst e)
    · rw [births_snoc, g3]
    · rw [reapedOf_snoc]; simpa using g4
    · rw [answers_snoc, g5]; simp [h5]
    · intro p hp
      rcases List.mem_append.1 hp with hp | hp
      · exact g6 p hp
      · simp only [List.mem_singleton] at hp; subst hp; exact h4
    · intro _ hb
      simp only [batchOf] at hb ⊢
      have := g7 (by simp [h1, Phase.final]) (by
        simp only [h1, batchOf]; intro m' hm'
        rcases List.mem_cons.1 hm' with e | hm'
        · rw [e]; exact h3
        · exact hb m' hm')
      rw [this, h1]
      simp only [batchOf, fdsOf_cons m r rest h2, List.length_append, List.length_cons, List.length_nil]
      omega
    · intro id hid; simp [eventsOf] at hid
    · exact List.nodup_nil
  case signal m r rest h1 h2 h3 h4 h5 h6 =>
    obtain ⟨g1, g2, g3, g4, g5, g6, g7, g8, g9⟩ := h
    have hsig : (∃ p, s.find r.id = some p ∧ s.signal r = .signalled r.op r.id p.num) ∨ (s.find r.id = none ∧ s.signal r = .missed r.op r.id) := by
      unfold St.signal
      cases hf : s.find r.id with
      | some p => exact .inl ⟨p, rfl, rfl⟩
      | none => exact .inr ⟨rfl, rfl⟩
    constructor <;> simp only
    · rcases hsig with ⟨p, _, e⟩ | ⟨_, e⟩ <;> rw [e, alive_snoc] <;> exact g1
    · rw [valid_snoc]
      refine ⟨g2, ?_⟩
      rcases hsig with ⟨p, hp, e⟩ | ⟨hn, e⟩
      · rw [e]
        obtain ⟨hp1, hp2⟩ := find_some hp
        show (r.id, p.num) ∈ alive s.log
        rw [g1]
        exact List.mem_map.2 ⟨p, hp1, by rw [hp2]⟩
      · rw [e]
        intro m hm
        rw [g1] at hm
        obtain ⟨p, hp, e'⟩ := List.mem_map.1 hm
        exact find_none hn p hp (congrArg Prod.fst e')
    · rcases hsig with ⟨p, _, e⟩ | ⟨_, e⟩ <;> rw [e, births_snoc] <;> exact g3
    · rcases hsig with ⟨p, _, e⟩ | ⟨_, e⟩ <;> rw [e, reapedOf_snoc] <;> simpa using g4
    · rcases hsig with ⟨p, _, e⟩ | ⟨_, e⟩ <;> rw [e, answers_snoc, g5] <;> simp
    · exact g6
    · intro _ hb
      simp only [batchOf] at hb ⊢
      have := g7 (by simp [h1, Phase.final]) (by
        simp only [h1, batchOf]; intro m' hm'
        rcases List.mem_cons.1 hm' with e | hm'
        · rw [e]; exact h3
        · exact hb m' hm')
      rw [this, h1]
      simp only [batchOf, fdsOf_cons m r rest h2]
      omega
    · intro id hid; simp [eventsOf] at hid
    · exact List.nodup_nil
  case deliver l h1 h2 h3 h4 h5 =>
    obtain ⟨g1, g2, g3, g4, g5, g6, g7, g8, g9⟩ := h
    refine ⟨g1, g2, g3, g4, g5, g6, ?_, ?_, h5⟩
    · intro _ hb
      have := g7 (by simp [h1, Phase.final]) (by simp [h1, batchOf])
      rw [h1] at this
      exact this
    · intro id hid
      have := List.all_eq_true.1 h4 _ hid
      simp only [St.reportable, List.any_eq_true, Bool.and_eq_true, beq_iff_eq] at this
      obtain ⟨p, hp, e1, e2⟩ := this
      exact ⟨p, hp, e1, e2⟩
  case evReap id rest p h1 h2 h3 =>
    obtain ⟨g1, g2, g3, g4, g5, g6, g7, g8, g9⟩ := h
    obtain ⟨hp1, hp2⟩ := find_some h2
    have hmem : (id, p.num) ∈ alive s.log := by rw [g1]; exact List.mem_map.2 ⟨p, hp1, by rw [hp2]⟩
    have hf : (s.procs.filter (fun q => q.id != id)).map (fun p => (p.id, p.num)) = (s.procs.map (fun p => (p.id, p.num))).filter (fun e => e.1 != id) := by
      rw [List.filter_map]; rfl
    rw [h1] at g9
    constructor <;> simp only
    · rw [alive_snoc, hf, g1]
    · rw [valid_snoc]; exact ⟨g2, hmem⟩
    · rw [births_snoc]; exact g3
    · rw [reapedOf_snoc, g4]; simp
    · rw [answers_snoc]; simpa using g5
    · intro q hq; exact g6 q (List.mem_filter.1 hq).1
    · intro _ hb
      have := g7 (by simp [h1, Phase.final]) (by simp [h1, batchOf])
      have hl := (filter_perm _ id p.num (alive_nodup _ g2) hmem).length_eq
      rw [g1, ← hf] at hl
      simp only [List.length_map, List.length_cons] at hl
      rw [this, h1, hl]
      simp only [batchOf]
      omega
    · intro id' hid'
      simp only [eventsOf] at hid' g9
      obtain ⟨q, hq, e1, e2⟩ := g8 id' (by rw [h1]; simp [eventsOf, hid'])
      refine ⟨q, List.mem_filter.2 ⟨hq, ?_⟩, e1, e2⟩
      simp only [bne_iff_ne]
      rintro rfl
      rw [e1] at g9
      exact (List.nodup_cons.1 g9).1 hid'
    · exact (List.nodup_cons.1 g9).2
  case exit id p h1 h2 =>
    obtain ⟨g1, g2, g3, g4, g5, g6, g7, g8, g9⟩ := h
    refine ⟨?_, g2, g3, g4, g5, ?_, ?_, ?_, g9⟩
    · simp only [List.map_map]
      rw [g1]
      apply List.map_congr_left
      intro q _
      simp only [Function.comp]
      split <;> rfl
    · intro q hq
      simp only at hq
      obtain ⟨q', hq', e⟩ := List.mem_map.1 hq
      rw [← e]
      split
      · exact g6 q' hq'
      · exact g6 q' hq'
    · intro hf hb; simp only [List.length_map]; exact g7 hf hb
    · intro id' hid'
      obtain ⟨q, hq, e1, e2⟩ := g8 id' hid'
      refine ⟨_, List.mem_map.2 ⟨q, hq, rfl⟩, ?_, ?_⟩ <;> split <;> simp_all
  case topDone h1 h2 h3 h4 => exact h.frame rfl rfl rfl rfl rfl (by simp [Phase.final]) (.inl rfl) (.inl rfl)
  case topGo h1 h2 => exact h.frame rfl rfl rfl rfl rfl (by simp [h1, Phase.final]) (.inr (.inl (by simp [h1, batchOf]))) (.inl rfl)
  case again h1 h2 h3 h4 h5 h6 => exact h.frame rfl rfl rfl rfl rfl (by simp [h1, Phase.final]) (.inr (.inl rfl)) (.inr (.inl rfl))
  case pipe h1 h2 h3 => exact h.frame rfl rfl rfl rfl rfl (by simp [Phase.final]) (.inl rfl) (.inl rfl)
  case sendDone h1 h2 => exact h.frame rfl rfl rfl rfl rfl (by simp [h1, Phase.final]) (.inr (.inl (by simp [h1, batchOf]))) (.inl rfl)
  case recvSkip h1 h2 => exact h.frame rfl rfl rfl rfl rfl (by simp [h1, Phase.final]) (.inr (.inl (by simp [h1, batchOf]))) (.inl rfl)
  case recvErr h1 h2 h3 h4 => exact h.frame rfl rfl rfl rfl rfl (by simp [Phase.final]) (.inl rfl) (.inl rfl)
  case recvEof h1 h2 h3 h4 h5 => exact h.frame rfl rfl rfl rfl rfl (by simp [h1, Phase.final]) (.inr (.inr (by simp [h1, batchOf, reqs]))) (.inl rfl)
  case recvNone h1 h2 h3 h4 h5 => exact h.frame rfl rfl rfl rfl rfl (by simp [h1, Phase.final]) (.inr (.inl (by simp [h1, batchOf]))) (.inl rfl)
  case handleNil h1 => exact h.frame rfl rfl rfl rfl rfl (by simp [h1, Phase.final]) (.inr (.inl (by simp [h1, batchOf]))) (.inl rfl)
  case handleEof m rest h1 h2 =>
    have hb := hh.eof m (by rw [h1]; simp [batchOf]) h2
    obtain ⟨g1, g2, g3, g4, g5, g6, g7, g8, g9⟩ := h
    refine ⟨g1, g2, g3, g4, g5, g6, ?_, ?_, ?_⟩
    · intro _ _
      have := g7 (by simp [h1, Phase.final]) (by rw [hb.1]; simpa using hb.2.2.2)
      rw [hb.1] at this
      simpa [St.startShutdown, batchOf, fdsOf, reqs, h2] using this
    · intro id hid; simp [eventsOf] at hid
    · exact List.nodup_nil
  case reqDead h1 h2 h3 => exact h.frame rfl rfl rfl rfl rfl (by simp [Phase.final]) (.inl rfl) (.inl rfl)
  case spurious h1 h2 h3 => exact h.frame rfl rfl rfl rfl rfl (by simp [h1, Phase.final]) (.inr (.inl rfl)) (.inr (.inl rfl))
  case einval h1 h2 => exact h.frame rfl rfl rfl rfl rfl (by simp [Phase.final]) (.inl rfl) (.inl rfl)
  case evNil h1 => exact h.frame rfl rfl rfl rfl rfl (by simp [h1, Phase.final]) (.inr (.inl (by simp [h1, batchOf]))) (.inl rfl)
  case evBad id rest h1 h2 => exact h.frame rfl rfl rfl rfl rfl (by simp [Phase.final]) (.inl rfl) (.inl rfl)
  case evNot id rest p h1 h2 h3 => exact h.frame rfl rfl rfl rfl rfl (by simp [h1, Phase.final]) (.inr (.inl (by simp [h1, batchOf]))) (.inr (.inr ⟨_, by rw [h1]; rfl⟩))
  case evControl i o rest h1 => exact h.frame rfl rfl rfl rfl rfl (by simp [h1, Phase.final]) (.inr (.inl (by simp [h1, batchOf]))) (.inr (.inr ⟨_, by rw [h1]; rfl⟩))
  case evHup i o rest h1 => exact h.frame rfl rfl rfl rfl rfl (by simp [h1, Phase.final]) (.inr (.inl (by simp [h1, batchOf]))) (.inr (.inr ⟨_, by rw [h1]; rfl⟩))
  case evErr i o hh rest h1 h2 =>
    subst h2
    cases hh <;> exact h.frame rfl rfl rfl rfl rfl (by simp [Phase.final]) (.inl rfl) (.inl rfl)
  case ask r h1 h2 => exact h.frame rfl rfl rfl rfl rfl (by simp [h2]) (.inr (.inl rfl)) (.inr (.inl rfl))
  case closeWrite h1 h2 => exact h.frame rfl rfl rfl rfl rfl (by simp [h2]) (.inr (.inl rfl)) (.inr (.inl rfl))
  case close h1 h2 => exact h.frame rfl rfl rfl rfl rfl (by simp [h2]) (.inr (.inl rfl)) (.inr (.inl rfl))
  case peerRead h1 h2 h3 h4 h5 => exact h.frame rfl rfl rfl rfl rfl (by simp [h2]) (.inr (.inl rfl)) (.inr (.inl rfl))

theorem Reach.procs {s : St} (h : Reach s) : Procs s := by
  induction h with
  | init => exact Procs.init
  | step l h e ih => exact ih.step h.hist (step_tr e)

end Gate.ExecLoop
