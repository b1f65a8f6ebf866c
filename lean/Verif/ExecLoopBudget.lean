import Verif.ExecLoopThms
/-
C133: the executor doesn't spin, if the connection isn't closed.
-/
namespace Gate.ExecLoop

theorem nodup_subset_length {α : Type} [DecidableEq α] (l k : List α) (hn : l.Nodup) (hs : ∀ x ∈ l, x ∈ k) : l.length ≤ k.length := by
  induction l generalizing k with
  | nil => simp
  | cons a l ih =>
    obtain ⟨h1, h2⟩ := List.nodup_cons.1 hn
    have hm := hs a (by simp)
    have := ih (k.erase a) h2 fun x hx => (List.mem_erase_of_ne (by rintro rfl; exact h1 hx)).2 (hs x (by simp [hx]))
    rw [List.length_erase_of_mem hm] at this
    have : 0 < k.length := List.length_pos_of_mem hm
    simp only [List.length_cons]
    omega

@[simp] theorem procEvs_nil : procEvs [] = 0 := rfl
@[simp] theorem procEvs_proc (id : Nat) (l : List Ev) : procEvs (.proc id :: l) = procEvs l + 1 := rfl
@[simp] theorem procEvs_control (i o h e : Bool) (l : List Ev) : procEvs (.control i o h e :: l) = procEvs l := rfl

theorem procEvs_le (l : List Ev) (ps : List Proc) (hn : l.Nodup) (h : ∀ id, Ev.proc id ∈ l → ∃ p ∈ ps, p.id = id) : procEvs l ≤ ps.length := by
  have := nodup_subset_length (l.filter (fun e => !e.isControl)) (ps.map (fun p => Ev.proc p.id)) (hn.sublist List.filter_sublist) (by
    intro x hx
    obtain ⟨h1, h2⟩ := List.mem_filter.1 hx
    cases x with
    | control i o h e => cases h2
    | proc id =>
      obtain ⟨p, hp, e⟩ := h id h1
      exact List.mem_map.2 ⟨p, hp, by rw [e]⟩)
  simpa [procEvs] using this

theorem procEvs_or (l : List Ev) (h : l ≠ []) : 0 < procEvs l ∨ l.any Ev.isControl = true := by
  cases l with
  | nil => exact absurd rfl h
  | cons a l => cases a <;> simp [Ev.isControl]

theorem reapLen {s : St} (h : Procs s) (id : Nat) (p : Proc) (hp : s.find id = some p) : (s.procs.filter (fun q => q.id != id)).length + 1 = s.procs.length := by
  obtain ⟨hp1, hp2⟩ := find_some hp
  have hmem : (id, p.num) ∈ alive s.log := by rw [h.tbl]; exact List.mem_map.2 ⟨p, hp1, by rw [hp2]⟩
  have hf : (s.procs.filter (fun q => q.id != id)).map (fun p => (p.id, p.num)) = (s.procs.map (fun p => (p.id, p.num))).filter (fun e => e.1 != id) := by
    rw [List.filter_map]; rfl
  have hl := (filter_perm _ id p.num (alive_nodup _ h.valid) hmem).length_eq
  rw [h.tbl, ← hf] at hl
  simp only [List.length_map, List.length_cons] at hl
  omega

/-- There's one process with an identifier. -/
theorem uniq {s : St} (h : Procs s) (p q : Proc) (hp : p ∈ s.procs) (hq : q ∈ s.procs) (e : p.id = q.id) : p = q := by
  have hn := alive_nodup _ h.valid
  rw [h.tbl] at hn
  simp only [List.map_map] at hn
  have : ∀ l : List Proc, (l.map (Prod.fst ∘ fun p : Proc => (p.id, p.num))).Nodup → p ∈ l → q ∈ l → p = q := by
    intro l
    induction l with
    | nil => intro _ h; cases h
    | cons a l ih =>
      intro hn h1 h2
      rw [List.map_cons, List.nodup_cons] at hn
      rcases List.mem_cons.1 h1 with rfl | h1' <;> rcases List.mem_cons.1 h2 with rfl | h2'
      · rfl
      · exact absurd (List.mem_map.2 ⟨q, h2', e.symm⟩) hn.1
      · exact absurd (List.mem_map.2 ⟨p, h1', e⟩) hn.1
      · exact ih hn.2 h1' h2'
  exact this _ hn hp hq

theorem budget_step {s t : St} (hr : Reach s) (hh : s.hup = false) (e : Tr s true t) : budget t < budget s := by
  have hf := hr.flow
  have hi := hr.hist
  have hp := hr.procs
  have hq : s.queue.length ≤ 127 := by have := hi.evs; omega
  cases e
  case topDone h1 h2 h3 h4 => simp [budget, rank, fuel, shutFuel, h1, batchOf, eventsOf]
  case topGo h1 h2 => cases s.sendBlock <;> simp [budget, rank, fuel, shutFuel, h1, batchOf, eventsOf] <;> omega
  case flush k f h1 h2 h3 h4 h5 h6 => simp [budget, rank, fuel, shutFuel, h1, batchOf, eventsOf]; omega
  case again h1 h2 h3 h4 h5 h6 => simp [budget, rank, fuel, shutFuel, h1, h6, batchOf, eventsOf]
  case pipe h1 h2 h3 => simp [hh] at h2
  case sendDone h1 h2 => simp [budget, rank, fuel, shutFuel, h1, batchOf, eventsOf]; omega
  case recvSkip h1 h2 => simp [budget, rank, fuel, shutFuel, h1, batchOf, eventsOf]
  case recvErr h1 h2 h3 h4 => have := hf.errHup h4; simp [hh] at this
  case recvEof h1 h2 h3 h4 h5 =>
    have : s.shutdown = false := by cases hs : s.shutdown with | false => rfl | true => have := (hf.shut hs).1; simp [h2] at this
    simp [budget, rank, fuel, shutFuel, h1, this, batchOf, eventsOf, reqs]; omega
  case recvNone h1 h2 h3 h4 h5 => simp [budget, rank, fuel, shutFuel, h1, batchOf, eventsOf]
  case recv k h1 h2 h3 h4 h5 =>
    have hs : s.shutdown = false := by cases hs : s.shutdown with | false => rfl | true => have := (hf.shut hs).1; simp [h2] at this
    have i2 : ((install s.opened (s.sock.take k)).2).any (fun m => m.req.isNone) = false := by
      rw [List.any_eq_false]
      intro m hm
      have := install_some _ _ m hm
      simpa using this
    simp only [budget, rank, fuel, shutFuel, h1, batchOf, eventsOf, install_reqs, i2, hs]
    simp
    omega
  case handleNil h1 => simp [budget, rank, fuel, shutFuel, h1, batchOf, eventsOf]
  case handleEof m rest h1 h2 =>
    have hs : s.shutdown = false := by cases hs : s.shutdown with | false => rfl | true => have := (hf.shut hs).2.1; simp [h1, isHandle] at this
    have := Bool.toNat_le (s.ready || !s.full || s.hup || s.err)
    simp only [budget, rank, fuel, shutFuel, h1, h2, hs, batchOf, eventsOf, St.startShutdown, List.any_cons]
    simp
    omega
  case reqDead m r rest c h1 h2 h3 =>
    simp only [budget, rank, fuel, shutFuel, h1, batchOf, eventsOf, reqs_cons_some m r rest h2]
    simp
    split
    · omega
    · split <;> omega
  case create m r rest h1 h2 h3 h4 h5 h6 h7 h8 =>
    simp only [budget, rank, fuel, shutFuel, h1, batchOf, eventsOf, reqs_cons_some m r rest h2, List.any_cons, h2]
    simp
    omega
  case signal m r rest h1 h2 h3 h4 h5 h6 =>
    simp only [budget, rank, fuel, shutFuel, h1, batchOf, eventsOf, reqs_cons_some m r rest h2, List.any_cons, h2]
    simp
  case deliver l h1 h2 h3 h4 h5 =>
    have i1 := procEvs_le l s.procs h5 (by
      intro id hid
      have := List.all_eq_true.1 h4 _ hid
      simp only [St.reportable, List.any_eq_true, Bool.and_eq_true, beq_iff_eq] at this
      obtain ⟨p, hp, e1, _⟩ := this
      exact ⟨p, hp, e1⟩)
    have i2 := procEvs_or l h2
    have i3 := evs_of s l h4
    simp only [budget, rank, fuel, shutFuel, h1, batchOf, eventsOf, procEvs_nil, reqs_nil]
    simp
    rcases i3 with ⟨g, _⟩ | ⟨g, g1, _⟩
    · simp [g] at i2 ⊢
      omega
    · simp [g, g1]
      omega
  case spurious h1 h2 h3 => simp [budget, rank, fuel, shutFuel, h1, h2, batchOf, eventsOf]
  case einval h1 h2 => simp [budget, rank, fuel, shutFuel, h1, batchOf, eventsOf]
  case evNil h1 => simp [budget, rank, fuel, shutFuel, h1, batchOf, eventsOf]
  case evBad id rest h1 h2 =>
    obtain ⟨p, hp1, hp2, _⟩ := hp.evp id (by simp [h1, eventsOf])
    exact absurd hp2 (find_none h2 p hp1)
  case evReap id rest p h1 h2 h3 =>
    have := reapLen hp id p h2
    simp only [budget, rank, fuel, shutFuel, h1, batchOf, eventsOf, procEvs_proc, List.length_cons]
    simp
    omega
  case evNot id rest p h1 h2 h3 =>
    obtain ⟨q, hq1, hq2, hq3⟩ := hp.evp id (by simp [h1, eventsOf])
    obtain ⟨hp1, hp2⟩ := find_some h2
    rw [uniq hp q p hq1 hp1 (by rw [hq2, hp2]), h3] at hq3
    cases hq3
  case evControl i o rest h1 => simp [budget, rank, fuel, shutFuel, h1, batchOf, eventsOf]
  case evHup i o rest h1 => have := hf.hupEv (by rw [h1]; simp [eventsOf]); simp [hh] at this
  case evErr i o hh' rest h1 h2 => have := hf.errHup (hf.errEv (by rw [h1]; simp [eventsOf])); simp [hh] at this

/-- The executor's own steps don't close the connection. -/
theorem internal_hup {s t : St} (e : Tr s true t) : t.hup = s.hup := by
  cases e <;> try rfl
  case evErr i o hh rest h1 h2 => subst h2; cases hh <;> rfl

/-- C133: If the peer doesn't close the connection, the executor takes a bounded number of steps (it doesn't spin) before it
waits for something to happen, whatever has happened, and in whichever order it is told about it. -/
theorem settles {s t : St} (h : Reach s) (hh : s.hup = false) (ls : List Label) (hi : ∀ l ∈ ls, l.internal = true) (e : run s ls = some t) :
    ls.length ≤ budget s := by
  have : ∀ (ls : List Label) (s : St), Reach s → s.hup = false → (∀ l ∈ ls, l.internal = true) → run s ls = some t → ls.length + budget t ≤ budget s := by
    intro ls
    induction ls with
    | nil => intro s _ _ _ e; cases e; simp
    | cons l ls ih =>
      intro s h hh hi e
      simp only [run] at e
      split at e
      · next s1 e1 =>
        have htr := step_tr e1
        rw [hi l (by simp)] at htr
        have h1 := budget_step h hh htr
        have h2 := ih s1 (h.step l e1) (by rw [internal_hup htr, hh]) (fun l hl => hi l (by simp [hl])) e
        simp only [List.length_cons]
        omega
      · cases e
  have := this ls s h hh hi e
  omega

/-- C133: From every state with an open connection the executor gets by itself to a final or a quiescent state. -/
theorem gets_there {s : St} (h : Reach s) (hh : s.hup = false) :
    ∃ ls t, (∀ l ∈ ls, l.internal = true) ∧ run s ls = some t ∧ ¬Enabled t := by
  have : ∀ n (s : St), Reach s → s.hup = false → budget s ≤ n → ∃ ls t, (∀ l ∈ ls, l.internal = true) ∧ run s ls = some t ∧ ¬Enabled t := by
    intro n
    induction n with
    | zero =>
      intro s h hh hb
      refine ⟨[], s, by simp, rfl, ?_⟩
      rintro ⟨l, t, hl, e⟩
      have htr := step_tr e
      rw [hl] at htr
      have := budget_step h hh htr
      omega
    | succ n ih =>
      intro s h hh hb
      by_cases he : Enabled s
      · obtain ⟨l, t, hl, e⟩ := he
        have htr := step_tr e
        rw [hl] at htr
        have h1 := budget_step h hh htr
        obtain ⟨ls, u, h2, h3, h4⟩ := ih t (h.step l e) (by rw [internal_hup htr, hh]) (by omega)
        refine ⟨l :: ls, u, ?_, ?_, h4⟩
        · intro x hx
          rcases List.mem_cons.1 hx with rfl | hx
          · exact hl
          · exact h2 x hx
        · simp only [run, e]; exact h3
      · exact ⟨[], s, by simp, rfl, he⟩
  exact this _ s h hh (Nat.le_refl _)

end Gate.ExecLoop
