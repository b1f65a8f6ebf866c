import Verif.OriginProto
/-
C109: stopping the origin service (instance.go:294-311). Model: Origin.lean.
-/
namespace Gate.Origin

/-- Who ends a stream: a connection which hasn't ended, or drainRestored. -/
def Owner (cs : List (Cl × Bool)) (dr : List Nat) (de : Bool) (id : Nat) : Prop :=
  (∃ (i : Nat) (c : Cl) (d : Bool), cs[i]? = some (c, d) ∧ holds c = some id ∧ endedId c = none) ∨ (id ∈ dr ∧ (de = true → dr.head? ≠ some id))

structure Own (ss : List Stream) (cs : List (Cl × Bool)) (dr : List Nat) (de : Bool) (joining : Bool) : Prop where
  owned : ∀ x ∈ ss, x.stopped = false → Owner cs dr de x.id
  idle : ∀ x ∈ ss, x.restored = true → x.reading = false
  stop : joining = true → ∀ x ∈ ss, x.stop = true

theorem own_cl (s : St) (ss : List Stream) (dr : List Nat) (de jo : Bool) (i : Nat) (c0 c' : Cl) (d0 : Bool) (hi : s.clients[i]? = some (c0, d0))
    (hh : ∀ x ∈ ss, x.stopped = false → holds c0 = some x.id → endedId c0 = none → holds c' = some x.id ∧ endedId c' = none)
    (h : Own ss s.clients dr de jo) : Own ss (s.cl i c') dr de jo := by
  refine ⟨?_, h.idle, h.stop⟩
  intro x hx hs
  rcases h.owned x hx hs with ⟨j, c, d, hj, hc, he⟩ | hd
  · left
    by_cases hji : j = i
    · subst hji
      rw [hi] at hj; simp only [Option.some.injEq, Prod.mk.injEq] at hj
      rw [← hj.1] at hc he
      refine ⟨j, c', d0, ?_, hh x hx hs hc he⟩
      rw [St.cl, get_modify, if_pos rfl, hi]; rfl
    · refine ⟨j, c, d, ?_, hc, he⟩
      rw [St.cl, get_modify, if_neg (fun h => hji h.symm)]; exact hj
  · exact .inr hd

theorem own_keep (s : St) (dr : List Nat) (de jo : Bool) (i : Nat) (c0 c' : Cl) (d0 : Bool) (hi : s.clients[i]? = some (c0, d0)) (hc : holds c' = holds c0) (he : endedId c' = endedId c0)
    (h : Own s.streams s.clients dr de jo) : Own s.streams (s.cl i c') dr de jo :=
  own_cl s s.streams dr de jo i c0 c' d0 hi (fun _ _ _ h1 h2 => ⟨hc.trans h1, he.trans h2⟩) h

theorem own_set (ss : List Stream) (cs : List (Cl × Bool)) (dr : List Nat) (de jo : Bool) (id : Nat) (f : Stream → Stream)
    (hf : ∀ x ∈ ss, x.id = id → (f x).id = x.id ∧ ((f x).stopped = false → x.stopped = false) ∧ ((f x).restored = true → x.reading = false → (f x).reading = false) ∧ (f x).restored = x.restored ∧ ((f x).stop = x.stop))
    (h : Own ss cs dr de jo) : Own (setS ss id f) cs dr de jo := by
  have hpre : ∀ y ∈ setS ss id f, ∃ x ∈ ss, (y = f x ∧ x.id = id ∨ y = x ∧ x.id ≠ id) := by
    intro y hy
    obtain ⟨x, hx, rfl⟩ := List.mem_map.mp hy
    refine ⟨x, hx, ?_⟩
    split
    · rename_i h; exact .inl ⟨rfl, h⟩
    · rename_i h; exact .inr ⟨rfl, h⟩
  refine ⟨?_, ?_, ?_⟩
  · intro y hy hs
    obtain ⟨x, hx, ⟨rfl, hid⟩ | ⟨rfl, hid⟩⟩ := hpre y hy
    · rw [(hf x hx hid).1]; exact h.owned x hx ((hf x hx hid).2.1 hs)
    · exact h.owned y hx hs
  · intro y hy hr
    obtain ⟨x, hx, ⟨rfl, hid⟩ | ⟨rfl, hid⟩⟩ := hpre y hy
    · exact (hf x hx hid).2.2.1 hr (h.idle x hx ((hf x hx hid).2.2.2.1 ▸ hr))
    · exact h.idle y hx hr
  · intro hj y hy
    obtain ⟨x, hx, ⟨rfl, hid⟩ | ⟨rfl, hid⟩⟩ := hpre y hy
    · rw [(hf x hx hid).2.2.2.2]; exact h.stop hj x hx
    · exact h.stop hj y hx

theorem own_del (ss : List Stream) (cs : List (Cl × Bool)) (dr : List Nat) (de jo : Bool) (id : Nat) (h : Own ss cs dr de jo) : Own (delS ss id) cs dr de jo :=
  ⟨fun x hx => h.owned x (List.mem_filter.mp hx).1, fun x hx => h.idle x (List.mem_filter.mp hx).1, fun hj x hx => h.stop hj x (List.mem_filter.mp hx).1⟩

theorem own_new (ss : List Stream) (cs : List (Cl × Bool)) (dr : List Nat) (de jo : Bool) (h : Own ss cs dr de jo) : Own ss (cs ++ [(.waiting, false)]) dr de jo := by
  refine ⟨?_, h.idle, h.stop⟩
  intro x hx hs
  rcases h.owned x hx hs with ⟨j, c, d, hj, hc⟩ | hd
  · refine .inl ⟨j, c, d, ?_, hc⟩
    rw [List.getElem?_append_left (List.getElem?_eq_some_iff.mp hj).1]; exact hj
  · exact .inr hd

theorem own_done (ss : List Stream) (cs : List (Cl × Bool)) (dr : List Nat) (de jo : Bool) (i : Nat) (h : Own ss cs dr de jo) : Own ss (cs.modify i fun x => (x.1, true)) dr de jo := by
  refine ⟨?_, h.idle, h.stop⟩
  intro x hx hs
  rcases h.owned x hx hs with ⟨j, c, d, hj, hc⟩ | hd
  · by_cases hij : i = j
    · refine .inl ⟨j, c, true, ?_, hc⟩
      rw [get_modify, if_pos hij, hj]; rfl
    · refine .inl ⟨j, c, d, ?_, hc⟩
      rw [get_modify, if_neg hij]; exact hj
  · exact .inr hd

def OwnSt (s : St) : Prop := Own s.streams s.clients s.drain s.drainEnded (s.sv == .joining)

theorem own_step (s : St) (l : Label) (s' : St) (hids : IdsSt s) (hcnt : s.shutting = s.sv.shut) (hc : OwnSt s) (h : step s l = some s') : OwnSt s' := by
  unfold OwnSt at hc ⊢
  unfold IdsSt at hids
  cases l with
  | connect => simp only [step, Option.some.injEq] at h; subst h; exact own_new _ _ _ _ _ hc
  | ctxDone i => simp only [step, Option.some.injEq] at h; subst h; exact own_done _ _ _ _ _ i hc
  | close => simp only [step, Option.some.injEq] at h; subst h; exact hc
  | loopEnd => simp only [step, Option.some.injEq] at h; subst h; exact hc
  | wake i =>
    simp only [step] at h
    split at h
    · rename_i d hi
      split at h
      · simp only [Option.some.injEq] at h; subst h; exact own_keep s _ _ _ i _ _ d hi rfl rfl hc
      · cases h
    · cases h
  | look i =>
    simp only [step] at h
    split at h
    · rename_i d hi
      split at h
      · rename_i hg
        simp only [Option.some.injEq] at h; subst h
        have hk := own_cl s s.streams s.drain s.drainEnded (s.sv == .joining) i _ (.replying (freeId s.streams)) d hi (by intro x _ _ h; cases h) hc
        refine ⟨?_, ?_, ?_⟩
        · intro x hx hs
          rcases List.mem_append.mp hx with hx | hx
          · exact hk.owned x hx hs
          · simp only [List.mem_singleton] at hx; subst hx
            refine .inl ⟨i, .replying (freeId s.streams), d, ?_, rfl, rfl⟩
            simp only [St.cl]
            rw [get_modify, if_pos rfl, hi]; rfl
        · intro x hx hr
          rcases List.mem_append.mp hx with hx | hx
          · exact hk.idle x hx hr
          · simp only [List.mem_singleton] at hx; subst hx; rfl
        · intro hj
          simp only [beq_iff_eq] at hj
          rw [hj] at hcnt
          rw [hcnt] at hg; simp [Sv.shut] at hg
      · split at h
        · simp only [Option.some.injEq] at h; subst h; exact own_keep s _ _ _ i _ _ d hi rfl rfl hc
        · simp only [Option.some.injEq] at h; subst h; exact own_keep s _ _ _ i _ _ d hi rfl rfl hc
    · cases h
  | giveUp i =>
    simp only [step] at h
    split at h
    · rename_i d hi
      split at h
      · simp only [Option.some.injEq] at h; subst h; exact own_keep s _ _ _ i _ _ d hi rfl rfl hc
      · cases h
    · cases h
  | send i =>
    simp only [step] at h
    split at h
    · rename_i id d hi
      split at h
      · simp only [Option.some.injEq] at h; subst h; exact own_keep s _ _ _ i _ _ d hi rfl rfl hc
      · cases h
    · cases h
  | wake2 i =>
    simp only [step] at h
    split at h
    · rename_i id d hi
      split at h
      · simp only [Option.some.injEq] at h; subst h; exact own_keep s _ _ _ i _ _ d hi rfl rfl hc
      · cases h
    · cases h
  | look2 i =>
    simp only [step] at h
    split at h
    · rename_i id d hi
      simp only [Option.some.injEq] at h; subst h
      exact own_keep s _ _ _ i _ _ d hi (by split <;> rfl) (by split <;> rfl) hc
    · cases h
  | cancel i =>
    simp only [step] at h
    split at h
    · rename_i id d hi
      split at h
      · simp only [Option.some.injEq] at h; subst h; exact own_keep s _ _ _ i _ _ d hi rfl rfl hc
      · cases h
    · cases h
  | finish i =>
    simp only [step] at h
    split at h
    · rename_i id d hi
      simp only [Option.some.injEq] at h; subst h
      refine own_cl s _ _ _ _ i _ (.poking id true) d hi ?_ (own_del _ _ _ _ _ id hc)
      intro x hx _ hh
      simp only [holds, Option.some.injEq] at hh
      have := (List.mem_filter.mp hx).2
      simp [hh] at this
    · rename_i id d hi
      simp only [Option.some.injEq] at h; subst h
      exact own_keep s _ _ _ i _ _ d hi rfl rfl hc
    · cases h
  | poke i =>
    simp only [step] at h
    split at h
    · rename_i id c d hi
      simp only [Option.some.injEq] at h; subst h
      exact own_keep s _ _ _ i _ _ d hi (by cases c <;> rfl) (by split <;> rfl) hc
    · cases h
  | begin i =>
    simp only [step] at h
    split at h
    · rename_i id d hi
      simp only [Option.some.injEq] at h; subst h
      exact own_keep s _ _ _ i _ _ d hi rfl rfl hc
    · cases h
  | enterRead i =>
    simp only [step] at h
    split at h
    · rename_i id d hi
      simp only [Option.some.injEq] at h; subst h
      refine own_set _ _ _ _ _ id _ ?_ hc
      intro x hx hid
      refine ⟨rfl, fun h => h, ?_, rfl, rfl⟩
      intro hr _
      obtain ⟨y, hy, h1, h2⟩ := hids.own i _ d id hi rfl
      have hx' := find_of_mem s.streams hids.nodup x hx
      have hy' := find_of_mem s.streams hids.nodup y hy
      rw [hid, ← h1, hy'] at hx'
      simp only [Option.some.injEq] at hx'
      simp only at hr
      rw [← hx', h2] at hr; cases hr
    · cases h
  | leaveRead i =>
    simp only [step] at h
    split at h
    · simp only [Option.some.injEq] at h; subst h
      exact own_set _ _ _ _ _ _ _ (fun _ _ _ => ⟨rfl, fun h => h, fun _ _ => rfl, rfl, rfl⟩) hc
    · cases h
  | endTransfer i =>
    simp only [step] at h
    split at h
    · rename_i id d hi
      split at h
      · split at h
        · simp only [Option.some.injEq] at h; subst h
          refine own_cl s _ _ _ _ i _ (.ended id) d hi ?_ (own_set _ _ _ _ _ id _ (fun _ _ _ => ⟨rfl, by simp, fun _ h => h, rfl, rfl⟩) hc)
          intro x hx hs hh
          simp only [holds, Option.some.injEq] at hh
          obtain ⟨y, hy, rfl⟩ := List.mem_map.mp hx
          split at hs
          · cases hs
          · rename_i hne
            rw [if_neg hne] at hh
            exact absurd hh.symm hne
        · cases h
      · cases h
    · cases h
  | delete i =>
    simp only [step] at h
    split at h
    · rename_i id d hi
      simp only [Option.some.injEq] at h; subst h
      simp only
      have := own_cl s s.streams s.drain s.drainEnded (s.sv == .joining) i _ .closed d hi (by intro x _ _ _ h; cases h) hc
      split
      · exact this
      · exact own_del _ _ _ _ _ _ this
    · cases h
  | call =>
    simp only [step] at h
    split at h
    · rename_i hsv
      rw [hsv] at hc
      split at h <;> (simp only [Option.some.injEq] at h; subst h; exact hc)
    · cases h
  | callPoke =>
    simp only [step] at h
    split at h
    · rename_i hsv
      rw [hsv] at hc
      simp only [Option.some.injEq] at h; subst h; exact hc
    · cases h
  | flow id inc =>
    simp only [step] at h
    split at h
    · rename_i hsv
      split at h
      · rw [hsv] at hc; simp only [Option.some.injEq] at h; subst h; exact hc
      · split at h
        · simp only [Option.some.injEq] at h; subst h
          simp only
          split
          · exact own_set _ _ _ _ _ _ _ (fun _ _ _ => ⟨rfl, fun h => h, fun _ h => h, rfl, rfl⟩) hc
          · exact hc
        · rw [hsv] at hc; simp only [Option.some.injEq] at h; subst h; exact hc
    · cases h
  | data id len fits =>
    simp only [step] at h
    split at h
    · rename_i hsv
      split at h
      · rw [hsv] at hc; simp only [Option.some.injEq] at h; subst h; exact hc
      · split at h
        · simp only [Option.some.injEq] at h; subst h
          simp only
          split
          · exact own_set _ _ _ _ _ _ _ (fun _ _ _ => ⟨rfl, fun h => h, fun _ h => h, rfl, rfl⟩) hc
          · exact hc
        · rw [hsv] at hc; simp only [Option.some.injEq] at h; subst h; exact hc
    · cases h
  | shut =>
    simp only [step] at h
    split at h
    · simp only [Option.some.injEq] at h; subst h; exact ⟨hc.owned, hc.idle, by intro h; cases h⟩
    · cases h
  | shutWaited =>
    simp only [step] at h
    split at h
    · simp only [Option.some.injEq] at h; subst h; exact ⟨hc.owned, hc.idle, by intro h; cases h⟩
    · cases h
  | shutPoke =>
    simp only [step] at h
    split at h
    · simp only [Option.some.injEq] at h; subst h; exact ⟨hc.owned, hc.idle, by intro h; cases h⟩
    · cases h
  | stopAll =>
    simp only [step] at h
    split at h
    · simp only [Option.some.injEq] at h; subst h
      refine ⟨?_, ?_, ?_⟩
      · intro y hy hs
        obtain ⟨x, hx, rfl⟩ := List.mem_map.mp hy
        exact hc.owned x hx hs
      · intro y hy hs
        obtain ⟨x, hx, rfl⟩ := List.mem_map.mp hy
        exact hc.idle x hx hs
      · intro _ y hy
        obtain ⟨x, hx, rfl⟩ := List.mem_map.mp hy
        rfl
    · cases h
  | joined =>
    simp only [step] at h
    split at h
    · simp only [Option.some.injEq] at h; subst h; exact ⟨hc.owned, hc.idle, by intro h; cases h⟩
    · cases h
  | drainEnd =>
    simp only [step] at h
    split at h
    · rename_i id rest hdr
      split at h
      · cases h
      · rename_i hde
        split at h
        · split at h
          · simp only [Option.some.injEq] at h; subst h
            have hn := List.nodup_cons.mp (hdr ▸ hids.drn)
            refine ⟨?_, ?_, ?_⟩
            · intro y hy hs
              obtain ⟨x, hx, rfl⟩ := List.mem_map.mp hy
              by_cases he : x.id = id
              · rw [if_pos he] at hs; cases hs
              · rw [if_neg he] at hs ⊢
                rcases hc.owned x hx hs with ho | ⟨ho, _⟩
                · exact .inl ho
                · refine .inr ⟨ho, fun _ hh => he ?_⟩
                  simp only [hdr, List.head?_cons, Option.some.injEq] at hh
                  exact hh.symm
            · intro y hy hs
              obtain ⟨x, hx, rfl⟩ := List.mem_map.mp hy
              by_cases he : x.id = id
              · rw [if_pos he] at hs ⊢; exact hc.idle x hx hs
              · rw [if_neg he] at hs ⊢; exact hc.idle x hx hs
            · intro hj y hy
              obtain ⟨x, hx, rfl⟩ := List.mem_map.mp hy
              by_cases he : x.id = id
              · rw [if_pos he]; exact hc.stop hj x hx
              · rw [if_neg he]; exact hc.stop hj x hx
          · cases h
        · cases h
    · cases h
  | drainNext =>
    simp only [step] at h
    split at h
    · rename_i id rest hdr
      split at h
      · rename_i hde
        simp only [Option.some.injEq] at h; subst h
        have hk : Own s.streams s.clients rest false (s.sv == .joining) := by
          refine ⟨?_, hc.idle, hc.stop⟩
          intro x hx hs
          rcases hc.owned x hx hs with ho | ⟨ho, hne⟩
          · exact .inl ho
          · refine .inr ⟨?_, by intro h; cases h⟩
            have := hne hde
            rw [hdr] at ho this
            simp only [List.head?_cons, ne_eq, Option.some.injEq] at this
            rcases List.mem_cons.mp ho with h | h
            · exact absurd h.symm this
            · exact h
        simp only
        split
        · exact hk
        · exact own_del _ _ _ _ _ _ hk
      · cases h
    · cases h

theorem own_reachable (a : Nat) (rs : List Stream) (hr : GoodRestored rs) (s : St) (h : Reachable a rs s) : OwnSt s := by
  have hinit : OwnSt (initial a rs) := by
    refine ⟨?_, ?_, ?_⟩
    · intro x hx _
      exact .inr ⟨List.mem_map_of_mem hx, by intro h; cases h⟩
    · intro x hx _
      exact (hr.2 x hx).2.2.1
    · intro h; cases h
  obtain ⟨ls, h⟩ := h
  have : IdsSt s ∧ Count a s ∧ OwnSt s := by
    refine run_inv (fun s => IdsSt s ∧ Count a s ∧ OwnSt s) ?_ ls _ _ ⟨ids_initial a rs hr, count_initial a rs, hinit⟩ h
    intro s l s' ⟨h1, h2, h3⟩ hs
    exact ⟨ids_step s l s' h1 hs, count_step a s l s' h2 hs, own_step s l s' h1 h2.shut h3 hs⟩
  exact this.2.2

/-- A property of streams which steps don't take away, except by making new ones. -/
theorem streams_keep (P : Stream → Prop) (s : St) (l : Label) (s' : St) (hsh : s.shutting = true)
    (h1 : ∀ x, P x → P { x with reading := true }) (h2 : ∀ x, P x → P { x with reading := false }) (h3 : ∀ x, P x → P { x with stopped := true }) (h4 : ∀ x, P x → P { x with stop := true })
    (h5 : ∀ x, P x → P { x with sub := false }) (h6 : ∀ x, P x → P { x with wr := false })
    (hp : ∀ x ∈ s.streams, P x) (h : step s l = some s') : ∀ x ∈ s'.streams, P x := by
  have set : ∀ (id : Nat) (f : Stream → Stream), (∀ x, P x → P (f x)) → ∀ x ∈ setS s.streams id f, P x := by
    intro id f hf y hy
    obtain ⟨x, hx, rfl⟩ := List.mem_map.mp hy
    split
    · exact hf x (hp x hx)
    · exact hp x hx
  have del : ∀ (id : Nat), ∀ x ∈ delS s.streams id, P x := fun id x hx => hp x (List.mem_filter.mp hx).1
  cases l with
  | connect | ctxDone i | close | loopEnd => simp only [step, Option.some.injEq] at h; subst h; exact hp
  | enterRead i =>
    simp only [step] at h
    split at h
    · simp only [Option.some.injEq] at h; subst h; exact set _ _ h1
    · cases h
  | leaveRead i =>
    simp only [step] at h
    split at h
    · simp only [Option.some.injEq] at h; subst h; exact set _ _ h2
    · cases h
  | callPoke | shut | shutWaited | shutPoke | joined =>
    simp only [step] at h
    split at h
    · simp only [Option.some.injEq] at h; subst h; exact hp
    · cases h
  | stopAll =>
    simp only [step] at h
    split at h
    · simp only [Option.some.injEq] at h; subst h
      intro y hy
      obtain ⟨x, hx, rfl⟩ := List.mem_map.mp hy
      exact h4 x (hp x hx)
    · cases h
  | call =>
    simp only [step] at h
    split at h
    · split at h <;> (simp only [Option.some.injEq] at h; subst h; exact hp)
    · cases h
  | flow id inc =>
    simp only [step] at h
    split at h
    · split at h
      · simp only [Option.some.injEq] at h; subst h; exact hp
      · split at h
        · simp only [Option.some.injEq] at h; subst h
          simp only
          split
          · exact set _ _ h5
          · exact hp
        · simp only [Option.some.injEq] at h; subst h; exact hp
    · cases h
  | data id len fits =>
    simp only [step] at h
    split at h
    · split at h
      · simp only [Option.some.injEq] at h; subst h; exact hp
      · split at h
        · simp only [Option.some.injEq] at h; subst h
          simp only
          split
          · exact set _ _ h6
          · exact hp
        · simp only [Option.some.injEq] at h; subst h; exact hp
    · cases h
  | wake i | giveUp i | send i | wake2 i | cancel i =>
    simp only [step] at h
    split at h
    · split at h
      · simp only [Option.some.injEq] at h; subst h; exact hp
      · cases h
    · cases h
  | look2 i | poke i | begin i =>
    simp only [step] at h
    split at h
    · simp only [Option.some.injEq] at h; subst h; exact hp
    · cases h
  | delete i =>
    simp only [step] at h
    split at h
    · simp only [Option.some.injEq, hsh, if_true] at h; subst h; exact hp
    · cases h
  | look i =>
    simp only [step] at h
    split at h
    · split at h
      · rename_i hg; rw [hsh] at hg; cases hg.2.2
      · simp only [hsh, Option.some.injEq] at h; subst h; exact hp
    · cases h
  | finish i =>
    simp only [step] at h
    split at h
    · simp only [Option.some.injEq] at h; subst h; exact del _
    · simp only [Option.some.injEq] at h; subst h; exact hp
    · cases h
  | endTransfer i =>
    simp only [step] at h
    split at h
    · split at h
      · split at h
        · simp only [Option.some.injEq] at h; subst h; exact set _ _ h3
        · cases h
      · cases h
    · cases h
  | drainEnd =>
    simp only [step] at h
    split at h
    · split at h
      · cases h
      · split at h
        · split at h
          · simp only [Option.some.injEq] at h; subst h; exact set _ _ h3
          · cases h
        · cases h
    · cases h
  | drainNext =>
    simp only [step] at h
    split at h
    · split at h
      · simp only [Option.some.injEq, hsh] at h; subst h; exact hp
      · cases h
    · cases h

/-- Which step makes the service stopped. -/
theorem down_step (s : St) (l : Label) (s' : St) (h : step s l = some s') (hd : s'.sv = .down) : s.sv = .down ∨ ((∀ x ∈ s.streams, x.stopped = true) ∧ s'.streams = s.streams) := by
  cases l with
  | joined =>
    simp only [step] at h
    split at h
    · rename_i hg
      simp only [Option.some.injEq] at h; subst h
      exact .inr ⟨List.all_eq_true.mp hg.2, rfl⟩
    · cases h
  | connect | ctxDone i | close | loopEnd => simp only [step, Option.some.injEq] at h; subst h; exact .inl hd
  | callPoke | shut | shutWaited | shutPoke | stopAll =>
    simp only [step] at h
    split at h
    · simp only [Option.some.injEq] at h; subst h; cases hd
    · cases h
  | call =>
    simp only [step] at h
    split at h
    · split at h <;> (simp only [Option.some.injEq] at h; subst h; cases hd)
    · cases h
  | flow id inc | data id len fits =>
    simp only [step] at h
    split at h
    · rename_i hsv
      split at h
      · simp only [Option.some.injEq] at h; subst h; cases hd
      · split at h
        · simp only [Option.some.injEq] at h; subst h
          simp only at hd
          rw [hsv] at hd; cases hd
        · simp only [Option.some.injEq] at h; subst h; cases hd
    · cases h
  | wake i | giveUp i | send i | wake2 i | cancel i =>
    simp only [step] at h
    split at h
    · split at h
      · simp only [Option.some.injEq] at h; subst h; exact .inl hd
      · cases h
    · cases h
  | look2 i | poke i | begin i | enterRead i | leaveRead i | delete i =>
    simp only [step] at h
    split at h
    · simp only [Option.some.injEq] at h; subst h; exact .inl hd
    · cases h
  | look i =>
    simp only [step] at h
    split at h
    · split at h
      · simp only [Option.some.injEq] at h; subst h; exact .inl hd
      · split at h <;> (simp only [Option.some.injEq] at h; subst h; exact .inl hd)
    · cases h
  | finish i =>
    simp only [step] at h
    split at h
    · simp only [Option.some.injEq] at h; subst h; exact .inl hd
    · simp only [Option.some.injEq] at h; subst h; exact .inl hd
    · cases h
  | endTransfer i =>
    simp only [step] at h
    split at h
    · split at h
      · split at h
        · simp only [Option.some.injEq] at h; subst h; exact .inl hd
        · cases h
      · cases h
    · cases h
  | drainEnd =>
    simp only [step] at h
    split at h
    · split at h
      · cases h
      · split at h
        · split at h
          · simp only [Option.some.injEq] at h; subst h; exact .inl hd
          · cases h
        · cases h
    · cases h
  | drainNext =>
    simp only [step] at h
    split at h
    · split at h
      · simp only [Option.some.injEq] at h; subst h; exact .inl hd
      · cases h
    · cases h

/-- C109: Shutdown and Suspend return only when the transfer of every stream which there still is has ended, so that what Suspend marshals doesn't change under it; and no connection is being established. -/
theorem down_ended (a : Nat) (rs : List Stream) (s : St) (h : Reachable a rs s) (hd : s.sv = .down) : (∀ x ∈ s.streams, x.stopped = true) ∧ cnt inSec s.clients = 0 := by
  have hcnt := count_reachable a rs s h
  refine ⟨?_, by rw [hcnt.one, hcnt.late (by rw [hd]; rfl) (by rw [hd]; intro h; cases h)]; rfl⟩
  obtain ⟨ls, h⟩ := h
  have key : Count a s ∧ (s.sv = .down → ∀ x ∈ s.streams, x.stopped = true) := by
    refine run_inv (fun s => Count a s ∧ (s.sv = .down → ∀ x ∈ s.streams, x.stopped = true)) ?_ ls _ _ ⟨count_initial a rs, by intro h; cases h⟩ h
    intro s l s' ⟨hc, ih⟩ hs
    refine ⟨count_step a s l s' hc hs, fun hd => ?_⟩
    rcases down_step s l s' hs hd with hd0 | ⟨h1, h2⟩
    · refine streams_keep (fun x => x.stopped = true) s l s' ?_ (fun _ h => h) (fun _ h => h) (fun _ _ => rfl) (fun _ h => h) (fun _ h => h) (fun _ h => h) (ih hd0) hs
      rw [hc.shut, hd0]; rfl
    · rw [h2]; exact h1
  exact key.2 hd

/-- For example: a connection is stopped. -/
example : ∃ s, Reachable 0 [] s ∧ s.sv = .down ∧ s.streams ≠ [] :=
  ⟨_, ⟨[.call, .callPoke, .connect, .wake 0, .look 0, .send 0, .finish 0, .poke 0, .begin 0, .loopEnd, .shut, .shutWaited, .shutPoke, .stopAll, .endTransfer 0, .joined], rfl⟩, by decide +kernel, by decide +kernel⟩

/-- Steps which are taken by the service itself, its connections and the callers, as opposed to new calls, contexts becoming done, Close, the loop's end and new reads. A read which returns is one of them. -/
def internal (s : St) : Label → Bool
  | .connect | .ctxDone _ | .close | .loopEnd | .enterRead _ => false
  | .leaveRead i => match s.clients[i]? with
    | some (.transferring id, _) => match findS s.streams id with
      | some x => x.reading
      | none => false
    | _ => false
  | _ => true

/-- How far a call or connection is from its end, at most. -/
def Cl.rank : Cl → Nat
  | .waiting => 9
  | .woken => 8
  | .replying _ => 8
  | .replyWoken _ => 7
  | .finishing _ _ => 6
  | .poking _ _ => 5
  | .opened _ => 4
  | .transferring _ => 3
  | .ended _ => 2
  | .closed | .refused => 0

def Sv.rank : Sv → Nat
  | .serving | .poking | .failed => 0
  | .shutWait => 4
  | .shutPoke => 3
  | .stopping => 2
  | .joining => 1
  | .down => 0

def clRank (l : List (Cl × Bool)) : Nat := (l.map fun c => c.1.rank).sum

def readers (ss : List Stream) : Nat := ss.countP fun x => x.reading

def St.rank (s : St) : Nat := clRank s.clients + s.sv.rank + (2 * s.drain.length - s.drainEnded.toNat) + readers s.streams

theorem clRank_modify : ∀ (l : List (Cl × Bool)) (i : Nat) (c c' : Cl) (d : Bool), l[i]? = some (c, d) → clRank (l.modify i fun x => (c', x.2)) + c.rank = clRank l + c'.rank
  | [], i, c, c', d, h => by simp at h
  | a :: l, 0, c, c', d, h => by
    simp only [List.getElem?_cons_zero, Option.some.injEq] at h
    subst h
    simp [clRank]; omega
  | a :: l, i + 1, c, c', d, h => by
    simp only [List.getElem?_cons_succ] at h
    have := clRank_modify l i c c' d h
    simp only [clRank, List.modify_succ_cons, List.map_cons, List.sum_cons] at this ⊢
    omega

theorem clRank_cl (s : St) (i : Nat) (c c' : Cl) (d : Bool) (h : s.clients[i]? = some (c, d)) : clRank (s.cl i c') + c.rank = clRank s.clients + c'.rank :=
  clRank_modify s.clients i c c' d h

theorem readers_map (f : Stream → Stream) (hf : ∀ x, (f x).reading = x.reading) (ss : List Stream) : readers (ss.map f) = readers ss := by
  simp only [readers, List.countP_map]
  congr 1
  funext x; exact hf x

theorem readers_set (ss : List Stream) (id : Nat) (f : Stream → Stream) (hf : ∀ x, (f x).reading = x.reading) : readers (setS ss id f) = readers ss :=
  readers_map _ (fun x => by split; exact hf x; rfl) ss

theorem readers_del (ss : List Stream) (id : Nat) : readers (delS ss id) ≤ readers ss := List.Sublist.countP_le List.filter_sublist

theorem readers_leave : ∀ (ss : List Stream) (id : Nat) (x : Stream), findS ss id = some x → x.reading = true → readers (setS ss id fun x => { x with reading := false }) < readers ss
  | [], id, x, h, _ => by simp [findS] at h
  | y :: ss, id, x, h, hx => by
    have hle : readers (setS ss id fun x => { x with reading := false }) ≤ readers ss := by
      simp only [readers, setS, List.countP_map]
      apply List.countP_mono_left
      intro z _ hz
      simp only [Function.comp] at hz
      split at hz
      · cases hz
      · exact hz
    have e : readers (setS (y :: ss) id fun x => { x with reading := false }) = readers (setS ss id fun x => { x with reading := false }) + (if (if y.id = id then false else y.reading) = true then 1 else 0) := by
      simp only [readers, setS, List.map_cons, List.countP_cons]
      congr 2
      split <;> simp
    have e2 : readers (y :: ss) = readers ss + (if y.reading = true then 1 else 0) := by simp only [readers, List.countP_cons]
    by_cases hy : y.id = id
    · have : x = y := by simp [findS, hy] at h; exact h.symm
      subst this
      rw [e, e2, hx]; simp [hy]; omega
    · have hf : findS ss id = some x := by simpa [findS, hy] using h
      have := readers_leave ss id x hf hx
      rw [e, e2]; simp [hy]; omega

theorem rank_step (a : Nat) (s : St) (l : Label) (s' : St) (hcnt : Count a s) (hsh : s.shutting = true) (hin : internal s l = true) (h : step s l = some s') : s'.rank < s.rank ∧ s'.shutting = true := by
  have hshut : s.sv.shut = true := by rw [← hcnt.shut]; exact hsh
  have hloop : s.loop = false := hcnt.loopEnded hsh
  unfold St.rank
  cases l with
  | connect | ctxDone i | close | loopEnd | enterRead i => cases hin
  | call | callPoke | flow _ _ | data _ _ _ =>
    simp only [step] at h
    split at h
    · rename_i hsv; rw [hsv] at hshut; cases hshut
    · cases h
  | wake i =>
    simp only [step] at h
    split at h
    · rename_i d hi
      split at h
      · simp only [Option.some.injEq] at h; subst h
        have := clRank_cl s i _ .woken d hi
        simp only [Cl.rank] at this ⊢
        exact ⟨by omega, hsh⟩
      · cases h
    · cases h
  | look i =>
    simp only [step] at h
    split at h
    · rename_i d hi
      split at h
      · rename_i hg; rw [hsh] at hg; cases hg.2.2
      · simp only [hsh, Option.some.injEq] at h
        subst h
        have := clRank_cl s i _ .refused d hi
        simp only [Cl.rank] at this ⊢
        exact ⟨by omega, trivial⟩
    · cases h
  | giveUp i =>
    simp only [step] at h
    split at h
    · rename_i d hi
      split at h
      · simp only [Option.some.injEq] at h; subst h
        have := clRank_cl s i _ .refused d hi
        simp only [Cl.rank] at this ⊢
        exact ⟨by omega, hsh⟩
      · cases h
    · cases h
  | send i =>
    simp only [step, hloop] at h
    split at h
    · cases h
    · cases h
  | wake2 i =>
    simp only [step] at h
    split at h
    · rename_i id d hi
      split at h
      · simp only [Option.some.injEq] at h; subst h
        have := clRank_cl s i _ (.replyWoken id) d hi
        simp only [Cl.rank] at this ⊢
        exact ⟨by omega, hsh⟩
      · cases h
    · cases h
  | look2 i =>
    simp only [step] at h
    split at h
    · rename_i id d hi
      simp only [hsh, if_true, Option.some.injEq] at h; subst h
      have := clRank_cl s i _ (.finishing id true) d hi
      simp only [Cl.rank] at this ⊢
      exact ⟨by omega, trivial⟩
    · cases h
  | cancel i =>
    simp only [step] at h
    split at h
    · rename_i id d hi
      split at h
      · simp only [Option.some.injEq] at h; subst h
        have := clRank_cl s i _ (.finishing id true) d hi
        simp only [Cl.rank] at this ⊢
        exact ⟨by omega, hsh⟩
      · cases h
    · cases h
  | finish i =>
    simp only [step] at h
    split at h
    · rename_i id d hi
      simp only [Option.some.injEq] at h; subst h
      have := clRank_cl s i _ (.poking id true) d hi
      have hr := readers_del s.streams id
      simp only [Cl.rank] at this ⊢
      exact ⟨by omega, hsh⟩
    · rename_i id d hi
      simp only [Option.some.injEq] at h; subst h
      have := clRank_cl s i _ (.poking id false) d hi
      simp only [Cl.rank] at this ⊢
      exact ⟨by omega, hsh⟩
    · cases h
  | poke i =>
    simp only [step] at h
    split at h
    · rename_i id c d hi
      simp only [Option.some.injEq] at h; subst h
      cases c with
      | true =>
        have := clRank_cl s i _ .refused d hi
        simp only [Cl.rank, if_true] at this ⊢
        exact ⟨by omega, hsh⟩
      | false =>
        have := clRank_cl s i _ (.opened id) d hi
        simp only [Cl.rank] at this ⊢
        exact ⟨by simp; omega, hsh⟩
    · cases h
  | begin i =>
    simp only [step] at h
    split at h
    · rename_i id d hi
      simp only [Option.some.injEq] at h; subst h
      have := clRank_cl s i _ (.transferring id) d hi
      simp only [Cl.rank] at this ⊢
      exact ⟨by omega, hsh⟩
    · cases h
  | leaveRead i =>
    simp only [step] at h
    split at h
    · rename_i id d hi
      simp only [Option.some.injEq] at h; subst h
      simp only [internal, hi] at hin
      split at hin
      · rename_i x hx
        have := readers_leave s.streams id x hx hin
        simp only
        exact ⟨by omega, hsh⟩
      · cases hin
    · cases h
  | endTransfer i =>
    simp only [step] at h
    split at h
    · rename_i id d hi
      split at h
      · split at h
        · simp only [Option.some.injEq] at h; subst h
          have := clRank_cl s i _ (.ended id) d hi
          have hr := readers_set s.streams id (fun x => { x with stopped := true }) (fun _ => rfl)
          simp only [Cl.rank] at this ⊢
          exact ⟨by omega, hsh⟩
        · cases h
      · cases h
    · cases h
  | delete i =>
    simp only [step] at h
    split at h
    · rename_i id d hi
      simp only [Option.some.injEq, hsh, if_true] at h; subst h
      have := clRank_cl s i _ .closed d hi
      simp only [Cl.rank] at this ⊢
      exact ⟨by omega, trivial⟩
    · cases h
  | shut =>
    simp only [step] at h
    split at h
    · rename_i hsv
      rcases hsv.1 with hsv | hsv <;> (rw [hsv] at hshut; cases hshut)
    · cases h
  | shutWaited =>
    simp only [step] at h
    split at h
    · rename_i hsv
      simp only [Option.some.injEq] at h; subst h
      rw [hsv.1]; simp only [Sv.rank]
      exact ⟨by omega, hsh⟩
    · cases h
  | shutPoke =>
    simp only [step] at h
    split at h
    · rename_i hsv
      simp only [Option.some.injEq] at h; subst h
      rw [hsv]; simp only [Sv.rank]
      exact ⟨by omega, hsh⟩
    · cases h
  | stopAll =>
    simp only [step] at h
    split at h
    · rename_i hsv
      simp only [Option.some.injEq] at h; subst h
      have hr := readers_map (fun x => { x with stop := true }) (fun _ => rfl) s.streams
      rw [hsv]; simp only [Sv.rank]
      exact ⟨by omega, hsh⟩
    · cases h
  | joined =>
    simp only [step] at h
    split at h
    · rename_i hsv
      simp only [Option.some.injEq] at h; subst h
      rw [hsv.1]; simp only [Sv.rank]
      exact ⟨by omega, hsh⟩
    · cases h
  | drainEnd =>
    simp only [step] at h
    split at h
    · rename_i id rest hdr
      split at h
      · cases h
      · rename_i hde
        split at h
        · split at h
          · simp only [Option.some.injEq] at h; subst h
            have hr := readers_set s.streams id (fun x => { x with stopped := true }) (fun _ => rfl)
            have hde : s.drainEnded = false := by simpa using hde
            simp only [hde, hdr, Bool.toNat_true, Bool.toNat_false, List.length_cons]
            exact ⟨by omega, hsh⟩
          · cases h
        · cases h
    · cases h
  | drainNext =>
    simp only [step] at h
    split at h
    · rename_i id rest hdr
      split at h
      · rename_i hde
        simp only [Option.some.injEq, hsh] at h; subst h
        simp only [hde, hdr, Bool.toNat_true, Bool.toNat_false, List.length_cons]
        exact ⟨by omega, trivial⟩
      · cases h
    · cases h

/-- Connects aren't waiting for the sake of it: the connector has been closed, or the contexts are done. -/
def Released (s : St) : Prop := s.closed = true ∨ ∀ (i : Nat) (c : Cl) (d : Bool), s.clients[i]? = some (c, d) → d = true

theorem inSec_pos (s : St) (h : 0 < cnt inSec s.clients) : ∃ (i : Nat) (c : Cl) (d : Bool), s.clients[i]? = some (c, d) ∧ inSec c = true := by
  obtain ⟨⟨c, d⟩, hm, hc⟩ := List.countP_pos_iff.mp h
  obtain ⟨i, hi⟩ := List.getElem?_of_mem hm
  exact ⟨i, c, d, hi, hc⟩

theorem progress (a : Nat) (s : St) (hcnt : Count a s) (hids : IdsSt s) (hown : OwnSt s) (hsh : s.shutting = true) (hrel : Released s) (hnd : s.sv ≠ .down) :
    ∃ l, internal s l = true ∧ (step s l).isSome = true := by
  have hshut : s.sv.shut = true := by rw [← hcnt.shut]; exact hsh
  unfold IdsSt at hids
  unfold OwnSt at hown
  have cancelable : ∀ (i : Nat) (c : Cl) (d : Bool), s.clients[i]? = some (c, d) → (s.closed || d) = true := by
    intro i c d hi
    rcases hrel with h | h
    · simp [h]
    · simp [h i c d hi]
  cases hsv : s.sv with
  | serving | poking | failed => rw [hsv] at hshut; cases hshut
  | down => exact absurd hsv hnd
  | shutPoke => exact ⟨.shutPoke, rfl, by simp [step, hsv]⟩
  | stopping => exact ⟨.stopAll, rfl, by simp [step, hsv]⟩
  | shutWait =>
    cases hr : s.replying with
    | false => exact ⟨.shutWaited, rfl, by simp [step, hsv, hr]⟩
    | true =>
      have h1 := hcnt.one
      rw [hr] at h1
      obtain ⟨i, c, d, hi, hc⟩ := inSec_pos s (by rw [h1]; decide)
      cases c with
      | replying id => exact ⟨.cancel i, rfl, by simp [step, hi, cancelable i _ d hi]⟩
      | replyWoken id => exact ⟨.look2 i, rfl, by simp [step, hi]⟩
      | finishing id b => exact ⟨.finish i, rfl, by cases b <;> simp [step, hi]⟩
      | _ => cases hc
  | joining =>
    by_cases hall : (s.streams.all fun x => x.stopped) = true
    · exact ⟨.joined, rfl, by simp only [step, hsv]; simp [hall]⟩
    · simp only [List.all_eq_true, Classical.not_forall] at hall
      obtain ⟨x, hx, hst⟩ := hall
      have hst : x.stopped = false := by simpa using hst
      have hstop := hown.stop (by rw [hsv]; rfl)
      have hend : ∀ y ∈ s.streams, y.reading = false → y.endable = true := by
        intro y hy hrd
        simp [Stream.endable, hrd, hstop y hy]
      rcases hown.owned x hx hst with ⟨i, c, d, hi, hc, he⟩ | ⟨hd, hne⟩
      · obtain ⟨y, hy, h1, h2⟩ := hids.own i c d _ hi hc
        have hfy := find_of_mem s.streams hids.nodup y hy
        rw [h1] at hfy
        cases c with
        | replying id => exact ⟨.cancel i, rfl, by simp [step, hi, cancelable i _ d hi]⟩
        | replyWoken id => exact ⟨.look2 i, rfl, by simp [step, hi]⟩
        | finishing id b => exact ⟨.finish i, rfl, by cases b <;> simp [step, hi]⟩
        | poking id b => exact ⟨.poke i, rfl, by simp [step, hi]⟩
        | opened id => exact ⟨.begin i, rfl, by simp [step, hi]⟩
        | transferring id =>
          simp only [holds, Option.some.injEq] at hc
          rw [← hc] at hfy
          cases hrd : y.reading with
          | true => exact ⟨.leaveRead i, by simp [internal, hi, hfy, hrd], by simp [step, hi]⟩
          | false => exact ⟨.endTransfer i, rfl, by simp [step, hi, hfy, hend y hy hrd]⟩
        | ended id => cases he
        | _ => cases hc
      · cases hdr : s.drain with
        | nil => rw [hdr] at hd; cases hd
        | cons id rest =>
          cases hde : s.drainEnded with
          | true => exact ⟨.drainNext, rfl, by simp [step, hdr, hde]⟩
          | false =>
            obtain ⟨y, hy, h1, h2⟩ := hids.drs id (by simp [hdr])
            have hfy := find_of_mem s.streams hids.nodup y hy
            rw [h1] at hfy
            exact ⟨.drainEnd, rfl, by simp [step, hdr, hde, hfy, hend y hy (hown.idle y hy h2)]⟩

/-- Runs of internal steps. -/
inductive Goes : St → Nat → St → Prop
  | refl (s : St) : Goes s 0 s
  | step (s : St) (l : Label) (s1 s2 : St) (n : Nat) : internal s l = true → step s l = some s1 → Goes s1 n s2 → Goes s (n + 1) s2

theorem released_step (s : St) (l : Label) (s' : St) (hin : internal s l = true) (h : step s l = some s') (hr : Released s) : Released s' := by
  have key : ∀ (i : Nat) (c : Cl) (ss : St), ss.clients = s.cl i c → ss.closed = s.closed → Released ss := by
    intro i c ss h1 h2
    rcases hr with h | h
    · exact .inl (h2.trans h)
    · right
      intro j c' d hj
      rw [h1, St.cl, get_modify] at hj
      split at hj
      · cases hg : s.clients[j]? with
        | none => rw [hg] at hj; cases hj
        | some x =>
          obtain ⟨x1, x2⟩ := x
          rw [hg] at hj
          simp only [Option.map_some, Option.some.injEq, Prod.mk.injEq] at hj
          rw [← hj.2]; exact h j x1 x2 hg
      · exact h j c' d hj
  have same : ∀ ss : St, ss.clients = s.clients → ss.closed = s.closed → Released ss := by
    intro ss h1 h2
    unfold Released
    rw [h1, h2]; exact hr
  cases l with
  | connect | ctxDone i | close | loopEnd | enterRead i => cases hin
  | callPoke | shut | shutWaited | shutPoke | stopAll | joined =>
    simp only [step] at h
    split at h
    · simp only [Option.some.injEq] at h; subst h; exact same _ rfl rfl
    · cases h
  | call =>
    simp only [step] at h
    split at h
    · split at h <;> (simp only [Option.some.injEq] at h; subst h; exact same _ rfl rfl)
    · cases h
  | flow id inc | data id len fits =>
    simp only [step] at h
    split at h
    · split at h
      · simp only [Option.some.injEq] at h; subst h; exact same _ rfl rfl
      · split at h <;> (simp only [Option.some.injEq] at h; subst h; exact same _ rfl rfl)
    · cases h
  | wake i | giveUp i | send i | wake2 i | cancel i =>
    simp only [step] at h
    split at h
    · split at h
      · simp only [Option.some.injEq] at h; subst h; exact key i _ _ rfl rfl
      · cases h
    · cases h
  | look2 i | poke i | begin i | delete i =>
    simp only [step] at h
    split at h
    · simp only [Option.some.injEq] at h; subst h; exact key i _ _ rfl rfl
    · cases h
  | leaveRead i =>
    simp only [step] at h
    split at h
    · simp only [Option.some.injEq] at h; subst h; exact same _ rfl rfl
    · cases h
  | look i =>
    simp only [step] at h
    split at h
    · split at h
      · simp only [Option.some.injEq] at h; subst h; exact key i _ _ rfl rfl
      · split at h <;> (simp only [Option.some.injEq] at h; subst h; exact key i _ _ rfl rfl)
    · cases h
  | finish i =>
    simp only [step] at h
    split at h
    · simp only [Option.some.injEq] at h; subst h; exact key i _ _ rfl rfl
    · simp only [Option.some.injEq] at h; subst h; exact key i _ _ rfl rfl
    · cases h
  | endTransfer i =>
    simp only [step] at h
    split at h
    · split at h
      · split at h
        · simp only [Option.some.injEq] at h; subst h; exact key i _ _ rfl rfl
        · cases h
      · cases h
    · cases h
  | drainEnd =>
    simp only [step] at h
    split at h
    · split at h
      · cases h
      · split at h
        · split at h
          · simp only [Option.some.injEq] at h; subst h; exact same _ rfl rfl
          · cases h
        · cases h
    · cases h
  | drainNext =>
    simp only [step] at h
    split at h
    · split at h
      · simp only [Option.some.injEq] at h; subst h; exact same _ rfl rfl
      · cases h
    · cases h

theorem reachable_step (a : Nat) (rs : List Stream) (s s' : St) (l : Label) (h : Reachable a rs s) (hs : step s l = some s') : Reachable a rs s' := by
  obtain ⟨ls, h⟩ := h
  refine ⟨ls ++ [l], ?_⟩
  rw [run_append _ _ _ _ h]
  simp [run, hs]

/-- C109: when the service is being stopped and the Connect calls have been released, every way of going on without new reads and new calls takes at most `rank` steps, … -/
theorem stop_bounded (a : Nat) (rs : List Stream) (s : St) (h : Reachable a rs s) (hsh : s.shutting = true) (n : Nat) (s' : St) (hg : Goes s n s') : n + s'.rank ≤ s.rank := by
  induction hg with
  | refl s => omega
  | step s l s1 s2 n hin hs _ ih =>
    obtain ⟨h1, h2⟩ := rank_step a s l s1 (count_reachable a rs s h) hsh hin hs
    have := ih (reachable_step a rs s s1 l h hs) h2
    omega

/-- … and it isn't at its end until the service has been stopped: all reads from connections having returned, which is up to the connections. -/
theorem stop_completes (a : Nat) (rs : List Stream) (hr : GoodRestored rs) (s : St) (h : Reachable a rs s) (hsh : s.shutting = true) (hrel : Released s) (n : Nat) (s' : St) (hg : Goes s n s') :
    s'.sv = .down ∨ ∃ l s2, internal s' l = true ∧ step s' l = some s2 := by
  induction hg with
  | refl s =>
    by_cases hd : s.sv = .down
    · exact .inl hd
    · obtain ⟨l, h1, h2⟩ := progress a s (count_reachable a rs s h) (ids_reachable a rs hr s h) (own_reachable a rs hr s h) hsh hrel hd
      obtain ⟨s2, h2⟩ := Option.isSome_iff_exists.mp h2
      exact .inr ⟨l, s2, h1, h2⟩
  | step s l s1 s2 n hin hs _ ih =>
    exact ih (reachable_step a rs s s1 l h hs) (rank_step a s l s1 (count_reachable a rs s h) hsh hin hs).2 (released_step s l s1 hin hs hrel)

/-- A client is blocked in its reply, and nobody else is going to wake it. -/
structure Stuck (i id : Nat) (s : St) : Prop where
  sv : s.sv = .shutWait
  cl : s.clients[i]? = some (.replying id, false)
  other : ∀ (j : Nat) (c : Cl) (d : Bool), s.clients[j]? = some (c, d) → j ≠ i → inSec c = false ∧ ∀ id b, c ≠ .poking id b
  rep : s.replying = true
  shut : s.shutting = true
  loop : s.loop = false
  token : s.token = false
  closed : s.closed = false

theorem stuck_cl (i id : Nat) (s : St) (j : Nat) (c0 c' : Cl) (d : Bool) (hj : s.clients[j]? = some (c0, d)) (hji : j ≠ i) (hc : inSec c' = false ∧ ∀ id b, c' ≠ .poking id b) (h : Stuck i id s) :
    (s.cl j c')[i]? = some (.replying id, false) ∧ ∀ (k : Nat) (c : Cl) (d : Bool), (s.cl j c')[k]? = some (c, d) → k ≠ i → inSec c = false ∧ ∀ id b, c ≠ .poking id b := by
  constructor
  · rw [St.cl, get_modify, if_neg hji]; exact h.cl
  · intro k c e hk hki
    rcases get_cl s j k c c0 c' d e hj hk with ⟨_, hcc, _⟩ | ⟨_, hk'⟩
    · rw [hcc]; exact hc
    · exact h.other k c e hk' hki

theorem stuck_step (i id : Nat) (s : St) (l : Label) (s' : St) (h : Stuck i id s) (hl : l ≠ .close ∧ l ≠ .ctxDone i) (hs : step s l = some s') : Stuck i id s' := by
  have hne : ∀ (j : Nat) (c : Cl) (d : Bool), s.clients[j]? = some (c, d) → c ≠ .replying id → j ≠ i := by
    intro j c d hj hc he
    rw [he, h.cl] at hj
    simp only [Option.some.injEq, Prod.mk.injEq] at hj
    exact hc hj.1.symm
  cases l with
  | close => exact absurd rfl hl.1
  | loopEnd => simp only [step, Option.some.injEq] at hs; subst hs; exact ⟨h.sv, h.cl, h.other, h.rep, h.shut, rfl, h.token, h.closed⟩
  | connect =>
    simp only [step, Option.some.injEq] at hs; subst hs
    refine ⟨h.sv, ?_, ?_, h.rep, h.shut, h.loop, h.token, h.closed⟩
    · simp only
      rw [List.getElem?_append_left (List.getElem?_eq_some_iff.mp h.cl).1]; exact h.cl
    · intro j c d hj hji
      simp only at hj
      by_cases hlt : j < s.clients.length
      · rw [List.getElem?_append_left hlt] at hj; exact h.other j c d hj hji
      · rw [List.getElem?_append_right (by omega), List.getElem?_singleton] at hj
        split at hj
        · simp at hj; rw [← hj.1]; exact ⟨rfl, by intro _ _ h; cases h⟩
        · cases hj
  | ctxDone j =>
    have hji : j ≠ i := fun he => hl.2 (by rw [he])
    simp only [step, Option.some.injEq] at hs; subst hs
    refine ⟨h.sv, ?_, ?_, h.rep, h.shut, h.loop, h.token, h.closed⟩
    · simp only
      rw [get_modify, if_neg hji]; exact h.cl
    · intro k c d hk hki
      simp only at hk
      rw [get_modify] at hk
      split at hk
      · cases hg : s.clients[k]? with
        | none => rw [hg] at hk; cases hk
        | some x =>
          rw [hg] at hk; simp at hk
          rw [← hk.1]; exact h.other k x.1 x.2 hg hki
      · exact h.other k c d hk hki
  | wake j =>
    simp only [step, h.token] at hs
    split at hs
    · cases hs
    · cases hs
  | look j =>
    simp only [step] at hs
    split at hs
    · rename_i d hj
      split at hs
      · rename_i hg; rw [h.rep] at hg; cases hg.2.1
      · simp only [h.shut, if_true, Option.some.injEq] at hs; subst hs
        obtain ⟨h1, h2⟩ := stuck_cl i id s j _ .refused d hj (hne j _ d hj (by intro h; cases h)) ⟨rfl, by intro _ _ h; cases h⟩ h
        exact ⟨h.sv, h1, h2, h.rep, rfl, h.loop, h.token, h.closed⟩
    · cases hs
  | giveUp j =>
    simp only [step] at hs
    split at hs
    · rename_i d hj
      split at hs
      · simp only [Option.some.injEq] at hs; subst hs
        obtain ⟨h1, h2⟩ := stuck_cl i id s j _ .refused d hj (hne j _ d hj (by intro h; cases h)) ⟨rfl, by intro _ _ h; cases h⟩ h
        exact ⟨h.sv, h1, h2, h.rep, h.shut, h.loop, h.token, h.closed⟩
      · cases hs
    · cases hs
  | send j =>
    simp only [step, h.loop] at hs
    split at hs
    · cases hs
    · cases hs
  | wake2 j =>
    simp only [step, h.token] at hs
    split at hs
    · cases hs
    · cases hs
  | look2 j =>
    simp only [step] at hs
    split at hs
    · rename_i id' d hj
      have := h.other j _ d hj (hne j _ d hj (by intro h; cases h))
      cases this.1
    · cases hs
  | cancel j =>
    simp only [step] at hs
    split at hs
    · rename_i id' d hj
      split at hs
      · rename_i hcd
        by_cases hji : j = i
        · rw [hji, h.cl] at hj
          simp only [Option.some.injEq, Prod.mk.injEq] at hj
          rw [← hj.2, h.closed] at hcd; cases hcd
        · have := h.other j _ d hj hji
          cases this.1
      · cases hs
    · cases hs
  | finish j =>
    simp only [step] at hs
    split at hs
    · rename_i id' d hj
      have := h.other j _ d hj (hne j _ d hj (by intro h; cases h))
      cases this.1
    · rename_i id' d hj
      have := h.other j _ d hj (hne j _ d hj (by intro h; cases h))
      cases this.1
    · cases hs
  | poke j =>
    simp only [step] at hs
    split at hs
    · rename_i id' b d hj
      have := h.other j _ d hj (hne j _ d hj (by intro h; cases h))
      exact absurd rfl (this.2 id' b)
    · cases hs
  | begin j =>
    simp only [step] at hs
    split at hs
    · rename_i id' d hj
      simp only [Option.some.injEq] at hs; subst hs
      obtain ⟨h1, h2⟩ := stuck_cl i id s j _ (.transferring id') d hj (hne j _ d hj (by intro h; cases h)) ⟨rfl, by intro _ _ h; cases h⟩ h
      exact ⟨h.sv, h1, h2, h.rep, h.shut, h.loop, h.token, h.closed⟩
    · cases hs
  | enterRead j | leaveRead j =>
    simp only [step] at hs
    split at hs
    · simp only [Option.some.injEq] at hs; subst hs
      exact ⟨h.sv, h.cl, h.other, h.rep, h.shut, h.loop, h.token, h.closed⟩
    · cases hs
  | endTransfer j =>
    simp only [step] at hs
    split at hs
    · rename_i id' d hj
      split at hs
      · split at hs
        · simp only [Option.some.injEq] at hs; subst hs
          obtain ⟨h1, h2⟩ := stuck_cl i id s j _ (.ended id') d hj (hne j _ d hj (by intro h; cases h)) ⟨rfl, by intro _ _ h; cases h⟩ h
          exact ⟨h.sv, h1, h2, h.rep, h.shut, h.loop, h.token, h.closed⟩
        · cases hs
      · cases hs
    · cases hs
  | delete j =>
    simp only [step] at hs
    split at hs
    · rename_i id' d hj
      simp only [Option.some.injEq] at hs; subst hs
      obtain ⟨h1, h2⟩ := stuck_cl i id s j _ .closed d hj (hne j _ d hj (by intro h; cases h)) ⟨rfl, by intro _ _ h; cases h⟩ h
      exact ⟨h.sv, h1, h2, h.rep, h.shut, h.loop, h.token, h.closed⟩
    · cases hs
  | call | callPoke | flow _ _ | data _ _ _ | shutPoke | stopAll =>
    simp only [step, h.sv] at hs
    cases hs
  | shut =>
    simp only [step, h.sv] at hs
    simp at hs
  | shutWaited =>
    simp only [step, h.sv, h.rep] at hs
    simp at hs
  | joined =>
    simp only [step, h.sv] at hs
    simp at hs
  | drainEnd =>
    simp only [step] at hs
    split at hs
    · split at hs
      · cases hs
      · split at hs
        · split at hs
          · simp only [Option.some.injEq] at hs; subst hs
            exact ⟨h.sv, h.cl, h.other, h.rep, h.shut, h.loop, h.token, h.closed⟩
          · cases hs
        · cases hs
    · cases hs
  | drainNext =>
    simp only [step] at hs
    split at hs
    · split at hs
      · simp only [Option.some.injEq] at hs; subst hs
        exact ⟨h.sv, h.cl, h.other, h.rep, h.shut, h.loop, h.token, h.closed⟩
      · cases hs
    · cases hs

theorem stuck_run (i id : Nat) (ls : List Label) : ∀ s s', Stuck i id s → (∀ l ∈ ls, l ≠ .close ∧ l ≠ .ctxDone i) → run s ls = some s' → Stuck i id s' := by
  induction ls with
  | nil => intro s s' h _ hr; simp only [run, Option.some.injEq] at hr; exact hr ▸ h
  | cons l ls ih =>
    intro s s' h hl hr
    simp only [run] at hr
    split at hr
    · rename_i s1 hs
      exact ih s1 s' (stuck_step i id s l s1 h (hl l (by simp)) hs) (fun l hm => hl l (by simp [hm])) hr
    · cases hr

/-- C109, refuted: Shutdown or Suspend can block for ever. A connection is being established when the program stops: shutdown waits for the Connect call (line 298) before it wakes it up (line 303), and nobody receives the
reply any more. Whatever else happens, the service isn't stopped before the Connect's context is done or the connector is closed, and the latter is done only after the program has been served (server/instance.go:218). -/
theorem stop_stuck_refuted : ∃ s, run (initial 0 []) [.call, .callPoke, .connect, .wake 0, .look 0, .loopEnd, .shut] = some s ∧
    ∀ ls s', (∀ l ∈ ls, l ≠ .close ∧ l ≠ .ctxDone 0) → run s ls = some s' → s'.sv = .shutWait ∧ s'.clients[0]? = some (.replying 0, false) := by
  refine ⟨⟨1, true, true, false, false, false, [fresh 0], [(.replying 0, false)], .shutWait, [], false, 1, []⟩, by decide +kernel, ?_⟩
  intro ls s' hl hr
  have hst : Stuck 0 0 ⟨1, true, true, false, false, false, [fresh 0], [(.replying 0, false)], .shutWait, [], false, 1, []⟩ := by
    refine ⟨rfl, rfl, ?_, rfl, rfl, rfl, rfl, rfl⟩
    intro j c d hj hne
    cases j with
    | zero => exact absurd rfl hne
    | succ j => simp at hj
  have := stuck_run 0 0 ls _ s' hst hl hr
  exact ⟨this.sv, this.cl⟩

/-- A connection is blocked in a read. -/
def Reading (i id : Nat) (s : St) : Prop := (∃ d, s.clients[i]? = some (.transferring id, d)) ∧ (∃ x ∈ s.streams, x.id = id ∧ x.reading = true ∧ x.stopped = false) ∧ s.sv ≠ .down

theorem mem_setS (ss : List Stream) (id : Nat) (f : Stream → Stream) (x : Stream) (hx : x ∈ ss) : (if x.id = id then f x else x) ∈ setS ss id f := List.mem_map_of_mem hx

theorem reading_step (i id : Nat) (s : St) (l : Label) (s' : St) (hids : IdsSt s) (h : Reading i id s) (hl : l ≠ .leaveRead i) (hs : step s l = some s') : Reading i id s' := by
  obtain ⟨⟨d0, hi⟩, ⟨x, hx, hxi, hxr, hxs⟩, hnd⟩ := h
  unfold IdsSt at hids
  have hcl : ∀ (j : Nat) (c c' : Cl) (d : Bool), s.clients[j]? = some (c, d) → c ≠ .transferring id → ∃ d, (s.cl j c')[i]? = some (.transferring id, d) := by
    intro j c c' d hj hne
    have hji : j ≠ i := by
      intro he; rw [he, hi] at hj
      simp only [Option.some.injEq, Prod.mk.injEq] at hj
      exact hne hj.1.symm
    exact ⟨d0, by rw [St.cl, get_modify, if_neg hji]; exact hi⟩
  have hdel : ∀ (id' : Nat), id' ≠ id → ∃ x ∈ delS s.streams id', x.id = id ∧ x.reading = true ∧ x.stopped = false := by
    intro id' hne
    exact ⟨x, List.mem_filter.mpr ⟨hx, by simpa [hxi] using hne.symm⟩, hxi, hxr, hxs⟩
  have hother : ∀ (j : Nat) (c : Cl) (d : Bool) (id' : Nat), s.clients[j]? = some (c, d) → c ≠ .transferring id → holds c = some id' → id' ≠ id := by
    intro j c d id' hj hne hh he
    have := hids.uniq j i c _ d d0 id hj hi (he ▸ hh) rfl
    rw [this, hi] at hj
    simp only [Option.some.injEq, Prod.mk.injEq] at hj
    exact hne hj.1.symm
  have hfx := find_of_mem s.streams hids.nodup x hx
  rw [hxi] at hfx
  have hset : ∀ (id' : Nat) (f : Stream → Stream), (∀ y, (f y).id = y.id) → (id' = id → (f x).reading = true ∧ (f x).stopped = false) → ∃ y ∈ setS s.streams id' f, y.id = id ∧ y.reading = true ∧ y.stopped = false := by
    intro id' f hf1 hf2
    refine ⟨_, mem_setS s.streams id' f x hx, ?_⟩
    split
    · rename_i he
      have he : id' = id := he.symm.trans hxi
      exact ⟨(hf1 x).trans hxi, hf2 he⟩
    · exact ⟨hxi, hxr, hxs⟩
  have hx0 : ∃ x ∈ s.streams, x.id = id ∧ x.reading = true ∧ x.stopped = false := ⟨x, hx, hxi, hxr, hxs⟩
  cases l with
  | close | loopEnd => simp only [step, Option.some.injEq] at hs; subst hs; exact ⟨⟨d0, hi⟩, hx0, hnd⟩
  | connect =>
    simp only [step, Option.some.injEq] at hs; subst hs
    refine ⟨⟨d0, ?_⟩, hx0, hnd⟩
    simp only
    rw [List.getElem?_append_left (List.getElem?_eq_some_iff.mp hi).1]; exact hi
  | ctxDone j =>
    simp only [step, Option.some.injEq] at hs; subst hs
    refine ⟨?_, hx0, hnd⟩
    simp only [get_modify]
    split
    · exact ⟨true, by rw [hi]; rfl⟩
    · exact ⟨d0, hi⟩
  | wake j | giveUp j | send j | wake2 j | cancel j =>
    simp only [step] at hs
    split at hs
    · rename_i hj
      split at hs
      · simp only [Option.some.injEq] at hs; subst hs
        exact ⟨hcl j _ _ _ hj (by intro h; cases h), hx0, hnd⟩
      · cases hs
    · cases hs
  | look2 j | poke j =>
    simp only [step] at hs
    split at hs
    · rename_i hj
      simp only [Option.some.injEq] at hs; subst hs
      exact ⟨hcl j _ _ _ hj (by intro h; cases h), hx0, hnd⟩
    · cases hs
  | look j =>
    simp only [step] at hs
    split at hs
    · rename_i d hj
      split at hs
      · simp only [Option.some.injEq] at hs; subst hs
        exact ⟨hcl j _ _ _ hj (by intro h; cases h), ⟨x, by simp [hx], hxi, hxr, hxs⟩, hnd⟩
      · split at hs <;> (simp only [Option.some.injEq] at hs; subst hs; exact ⟨hcl j _ _ _ hj (by intro h; cases h), hx0, hnd⟩)
    · cases hs
  | finish j =>
    simp only [step] at hs
    split at hs
    · rename_i id' d hj
      simp only [Option.some.injEq] at hs; subst hs
      exact ⟨hcl j _ _ _ hj (by intro h; cases h), hdel id' (hother j _ d id' hj (by intro h; cases h) rfl), hnd⟩
    · rename_i id' d hj
      simp only [Option.some.injEq] at hs; subst hs
      exact ⟨hcl j _ _ _ hj (by intro h; cases h), hx0, hnd⟩
    · cases hs
  | begin j =>
    simp only [step] at hs
    split at hs
    · rename_i id' d hj
      simp only [Option.some.injEq] at hs; subst hs
      exact ⟨hcl j _ _ _ hj (by intro h; cases h), hx0, hnd⟩
    · cases hs
  | enterRead j =>
    simp only [step] at hs
    split at hs
    · simp only [Option.some.injEq] at hs; subst hs
      exact ⟨⟨d0, hi⟩, hset _ _ (fun _ => rfl) (fun _ => ⟨rfl, hxs⟩), hnd⟩
    · cases hs
  | leaveRead j =>
    have hji : j ≠ i := fun he => hl (by rw [he])
    simp only [step] at hs
    split at hs
    · rename_i id' d hj
      simp only [Option.some.injEq] at hs; subst hs
      refine ⟨⟨d0, hi⟩, hset _ _ (fun _ => rfl) (fun he => ?_), hnd⟩
      exact absurd (hids.uniq j i _ _ d d0 id hj hi (by rw [he]; rfl) rfl) hji
    · cases hs
  | endTransfer j =>
    simp only [step] at hs
    split at hs
    · rename_i id' d hj
      split at hs
      · rename_i y hy
        split at hs
        · rename_i hend
          simp only [Option.some.injEq] at hs; subst hs
          by_cases he : id' = id
          · rw [he, hfx] at hy
            simp only [Option.some.injEq] at hy
            rw [← hy] at hend
            simp [Stream.endable, hxr] at hend
          · exact ⟨hcl j _ _ _ hj (by intro h; cases h; exact he rfl), hset _ _ (fun _ => rfl) (fun h => absurd h he), hnd⟩
        · cases hs
      · cases hs
    · cases hs
  | delete j =>
    simp only [step] at hs
    split at hs
    · rename_i id' d hj
      simp only [Option.some.injEq] at hs; subst hs
      refine ⟨hcl j _ _ _ hj (by intro h; cases h), ?_, hnd⟩
      simp only
      split
      · exact hx0
      · exact hdel id' (hother j _ d id' hj (by intro h; cases h) rfl)
    · cases hs
  | call =>
    simp only [step] at hs
    split at hs
    · split at hs <;> (simp only [Option.some.injEq] at hs; subst hs; exact ⟨⟨d0, hi⟩, hx0, by intro h; cases h⟩)
    · cases hs
  | callPoke | shut | shutWaited | shutPoke =>
    simp only [step] at hs
    split at hs
    · simp only [Option.some.injEq] at hs; subst hs; exact ⟨⟨d0, hi⟩, hx0, by intro h; cases h⟩
    · cases hs
  | flow id' inc =>
    simp only [step] at hs
    split at hs
    · split at hs
      · simp only [Option.some.injEq] at hs; subst hs; exact ⟨⟨d0, hi⟩, hx0, by intro h; cases h⟩
      · split at hs
        · simp only [Option.some.injEq] at hs; subst hs
          refine ⟨⟨d0, hi⟩, ?_, hnd⟩
          simp only
          split
          · exact hset _ _ (fun _ => rfl) (fun _ => ⟨hxr, hxs⟩)
          · exact hx0
        · simp only [Option.some.injEq] at hs; subst hs; exact ⟨⟨d0, hi⟩, hx0, by intro h; cases h⟩
    · cases hs
  | data id' len fits =>
    simp only [step] at hs
    split at hs
    · split at hs
      · simp only [Option.some.injEq] at hs; subst hs; exact ⟨⟨d0, hi⟩, hx0, by intro h; cases h⟩
      · split at hs
        · simp only [Option.some.injEq] at hs; subst hs
          refine ⟨⟨d0, hi⟩, ?_, hnd⟩
          simp only
          split
          · exact hset _ _ (fun _ => rfl) (fun _ => ⟨hxr, hxs⟩)
          · exact hx0
        · simp only [Option.some.injEq] at hs; subst hs; exact ⟨⟨d0, hi⟩, hx0, by intro h; cases h⟩
    · cases hs
  | stopAll =>
    simp only [step] at hs
    split at hs
    · simp only [Option.some.injEq] at hs; subst hs
      refine ⟨⟨d0, hi⟩, ⟨{ x with stop := true }, ?_, hxi, hxr, hxs⟩, by intro h; cases h⟩
      exact List.mem_map.mpr ⟨x, hx, rfl⟩
    · cases hs
  | joined =>
    simp only [step] at hs
    split at hs
    · rename_i hg
      have := List.all_eq_true.mp hg.2 x hx
      rw [hxs] at this; cases this
    · cases hs
  | drainEnd =>
    simp only [step] at hs
    split at hs
    · rename_i id' rest hdr
      split at hs
      · cases hs
      · split at hs
        · split at hs
          · simp only [Option.some.injEq] at hs; subst hs
            refine ⟨⟨d0, hi⟩, hset _ _ (fun _ => rfl) (fun he => ?_), hnd⟩
            exact absurd (show id ∈ s.drain by rw [hdr, he]; simp) (ids_not_drain hids hi rfl)
          · cases hs
        · cases hs
    · cases hs
  | drainNext =>
    simp only [step] at hs
    split at hs
    · rename_i id' rest hdr
      split at hs
      · simp only [Option.some.injEq] at hs; subst hs
        refine ⟨⟨d0, hi⟩, ?_, hnd⟩
        simp only
        split
        · exact hx0
        · apply hdel
          intro he
          exact absurd (show id ∈ s.drain by rw [hdr, he]; simp) (ids_not_drain hids hi rfl)
      · cases hs
    · cases hs

/-- C109: while a connection is blocked in a read, the service isn't stopped, although its program has stopped: whatever else happens, also if every context is done and the connector is closed. -/
theorem read_blocks_stop (a : Nat) (rs : List Stream) (hr : GoodRestored rs) (s : St) (h : Reachable a rs s) (i id : Nat) (hrd : Reading i id s) (ls : List Label) (hl : ∀ l ∈ ls, l ≠ .leaveRead i) (s' : St) (hs : run s ls = some s') : s'.sv ≠ .down := by
  have key : ∀ (ls : List Label) s, (∀ l ∈ ls, l ≠ .leaveRead i) → IdsSt s → Reading i id s → run s ls = some s' → Reading i id s' := by
    intro ls
    induction ls with
    | nil => intro s _ _ h hr; simp only [run, Option.some.injEq] at hr; exact hr ▸ h
    | cons l ls ih =>
      intro s hl hi h hr
      simp only [run] at hr
      split at hr
      · rename_i s1 hs
        exact ih s1 (fun l hm => hl l (by simp [hm])) (ids_step s l s1 hi hs) (reading_step i id s l s1 hi h (hl l (by simp)) hs) hr
      · cases hr
  exact (key ls s hl (ids_reachable a rs hr s h) hrd hs).2.2

/-- Such a state: the program has stopped while a connection reads. -/
theorem read_blocks_stop_refuted : ∃ s, run (initial 0 []) [.call, .callPoke, .connect, .wake 0, .look 0, .send 0, .finish 0, .poke 0, .begin 0, .enterRead 0, .loopEnd, .shut, .shutWaited, .shutPoke, .stopAll, .close, .ctxDone 0] = some s ∧
    s.sv = .joining ∧ Reading 0 0 s :=
  ⟨⟨0, false, true, true, true, false, [⟨0, true, true, false, true, true, false⟩], [(.transferring 0, true)], .joining, [], false, 1, [0]⟩, by decide +kernel, rfl, ⟨true, rfl⟩, ⟨_, List.mem_singleton.mpr rfl, rfl, rfl, rfl⟩, by intro h; cases h⟩

/-- Instances of stop_bounded's and stop_completes' hypotheses: a connection, a call which replies and one which waits, and a restored stream, when the program stops. -/
example : ∃ s, Reachable 1 [⟨7, true, true, true, false, false, false⟩] s ∧ s.shutting = true ∧ Released s ∧ s.rank = 26 :=
  ⟨_, ⟨[.connect, .wake 0, .look 0, .send 0, .finish 0, .poke 0, .begin 0, .call, .callPoke, .connect, .wake 1, .look 1, .connect, .close, .loopEnd, .shut], rfl⟩, by decide +kernel, .inl (by decide +kernel), by decide +kernel⟩

end Gate.Origin
