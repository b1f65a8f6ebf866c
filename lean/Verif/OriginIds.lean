import Verif.OriginProps
/-
C108: streams' ids, and programs which follow the protocol.
-/
namespace Gate.Origin

/-! ### Ids -/

theorem find_some (ss : List Stream) (id : Nat) (x : Stream) (h : findS ss id = some x) : x ∈ ss ∧ x.id = id :=
  ⟨List.mem_of_find?_eq_some h, by simpa using List.find?_some h⟩

theorem find_none (ss : List Stream) (id : Nat) : findS ss id = none ↔ ∀ x ∈ ss, x.id ≠ id := by
  simp [findS]

theorem find_of_mem (ss : List Stream) (hn : (ss.map (·.id)).Nodup) (x : Stream) (hx : x ∈ ss) : findS ss x.id = some x := by
  induction ss with
  | nil => simp at hx
  | cons a ss ih =>
    rw [List.map_cons, List.nodup_cons] at hn
    unfold findS at ih ⊢
    rw [List.find?_cons]
    rcases List.mem_cons.mp hx with rfl | hx
    · simp
    · have hne : a.id ≠ x.id := fun h => hn.1 (h ▸ List.mem_map_of_mem hx)
      simp only [hne, decide_false]
      exact ih hn.2 hx

theorem freeFrom_spec (ss : List Stream) : ∀ (fuel n : Nat), ss.countP (fun x => n ≤ x.id) < fuel → findS ss (freeFrom ss fuel n) = none
  | 0, n, h => by omega
  | fuel + 1, n, h => by
    unfold freeFrom
    cases hf : findS ss n with
    | none => simpa using hf
    | some x =>
      simp only [Option.isSome_some, if_true]
      apply freeFrom_spec ss fuel (n + 1)
      obtain ⟨hx, hid⟩ := find_some ss n x hf
      have : ss.countP (fun x => n + 1 ≤ x.id) < ss.countP (fun x => n ≤ x.id) := by
        clear h hf
        induction ss with
        | nil => simp at hx
        | cons a ss ih =>
          have hmono : ss.countP (fun x => n + 1 ≤ x.id) ≤ ss.countP (fun x => n ≤ x.id) := List.countP_mono_left fun y _ hy => by simp at hy ⊢; omega
          rw [List.countP_cons, List.countP_cons]
          rcases List.mem_cons.mp hx with rfl | hx
          · have h0 : ¬ n + 1 ≤ n := by omega
            simp [hid, h0]; omega
          · have := ih hx
            by_cases h1 : n + 1 ≤ a.id
            · have h2 : n ≤ a.id := by omega
              simp [h1, h2]; omega
            · by_cases h2 : n ≤ a.id
              · simp [h1, h2]; omega
              · simp [h1, h2]; omega
      omega

/-- Line 197 ends with an unused id. -/
theorem freeId_free (ss : List Stream) : ∀ x ∈ ss, x.id ≠ freeId ss := by
  have := freeFrom_spec ss (ss.length + 1) 0 (by have := List.countP_le_length (p := fun x : Stream => decide (0 ≤ x.id)) (l := ss); omega)
  exact (find_none ss _).mp this

/-- The stream which a call of Connect, or a connection, has. -/
def holds : Cl → Option Nat
  | .replying id | .replyWoken id | .finishing id _ | .poking id false | .opened id | .transferring id | .ended id => some id
  | _ => none

structure Ids (ss : List Stream) (cs : List (Cl × Bool)) (dr : List Nat) : Prop where
  nodup : (ss.map (·.id)).Nodup
  own : ∀ (i : Nat) (c : Cl) (d : Bool) (id : Nat), cs[i]? = some (c, d) → holds c = some id → ∃ x ∈ ss, x.id = id ∧ x.restored = false
  uniq : ∀ (i j : Nat) (c c' : Cl) (d d' : Bool) (id : Nat), cs[i]? = some (c, d) → cs[j]? = some (c', d') → holds c = some id → holds c' = some id → i = j
  drn : dr.Nodup
  drs : ∀ id ∈ dr, ∃ x ∈ ss, x.id = id ∧ x.restored = true

theorem get_modify (cs : List (Cl × Bool)) (i j : Nat) (f : Cl × Bool → Cl × Bool) : (cs.modify i f)[j]? = if i = j then cs[j]?.map f else cs[j]? := by
  rw [List.getElem?_modify]
  split
  · simp_all
  · simp_all

theorem get_cl (s : St) (i j : Nat) (c c0 c' : Cl) (d0 d : Bool) (hi : s.clients[i]? = some (c0, d0)) (h : (s.cl i c')[j]? = some (c, d)) : (j = i ∧ c = c' ∧ d = d0) ∨ (j ≠ i ∧ s.clients[j]? = some (c, d)) := by
  rw [St.cl, get_modify] at h
  by_cases hij : i = j
  · subst hij
    rw [if_pos rfl, hi] at h
    simp at h
    exact .inl ⟨rfl, h.1.symm, h.2.symm⟩
  · rw [if_neg hij] at h
    exact .inr ⟨fun h => hij h.symm, h⟩

theorem ids_cl (s : St) (ss : List Stream) (dr : List Nat) (i : Nat) (c0 c' : Cl) (d0 : Bool) (hi : s.clients[i]? = some (c0, d0)) (hh : holds c' = holds c0 ∨ holds c' = none)
    (h : Ids ss s.clients dr) : Ids ss (s.cl i c') dr := by
  have key : ∀ (j : Nat) (c : Cl) (d : Bool) (id : Nat), (s.cl i c')[j]? = some (c, d) → holds c = some id → ∃ c1 d1, s.clients[j]? = some (c1, d1) ∧ holds c1 = some id := by
    intro j c d id hj hc
    rcases get_cl s i j c c0 c' d0 d hi hj with ⟨rfl, rfl, rfl⟩ | ⟨_, hj⟩
    · rcases hh with hh | hh
      · exact ⟨c0, d, hi, hh ▸ hc⟩
      · rw [hh] at hc; cases hc
    · exact ⟨c, d, hj, hc⟩
  refine ⟨h.nodup, ?_, ?_, h.drn, h.drs⟩
  · intro j c d id hj hc
    obtain ⟨c1, d1, h1, h2⟩ := key j c d id hj hc
    exact h.own j c1 d1 id h1 h2
  · intro j k c c2 d d2 id hj hk hc hc2
    obtain ⟨c3, d3, h1, h2⟩ := key j c d id hj hc
    obtain ⟨c4, d4, h3, h4⟩ := key k c2 d2 id hk hc2
    exact h.uniq j k c3 c4 d3 d4 id h1 h3 h2 h4

theorem ids_map (ss : List Stream) (cs : List (Cl × Bool)) (dr : List Nat) (f : Stream → Stream) (hf : ∀ x, (f x).id = x.id ∧ (f x).restored = x.restored) (h : Ids ss cs dr) : Ids (ss.map f) cs dr := by
  refine ⟨?_, ?_, h.uniq, h.drn, ?_⟩
  · rw [List.map_map]
    have : ((fun x : Stream => x.id) ∘ f) = fun x => x.id := funext fun x => (hf x).1
    rw [this]; exact h.nodup
  · intro i c d id hi hc
    obtain ⟨x, hx, h1, h2⟩ := h.own i c d id hi hc
    exact ⟨f x, List.mem_map_of_mem hx, (hf x).1.trans h1, (hf x).2.trans h2⟩
  · intro id hid
    obtain ⟨x, hx, h1, h2⟩ := h.drs id hid
    exact ⟨f x, List.mem_map_of_mem hx, (hf x).1.trans h1, (hf x).2.trans h2⟩

theorem ids_set (ss : List Stream) (cs : List (Cl × Bool)) (dr : List Nat) (id : Nat) (f : Stream → Stream) (hf : ∀ x, (f x).id = x.id ∧ (f x).restored = x.restored) (h : Ids ss cs dr) : Ids (setS ss id f) cs dr := by
  apply ids_map ss cs dr _ _ h
  intro x
  split
  · exact hf x
  · exact ⟨rfl, rfl⟩

theorem ids_del (ss : List Stream) (cs : List (Cl × Bool)) (dr : List Nat) (id : Nat) (h : Ids ss cs dr) (hcs : ∀ (i : Nat) (c : Cl) (d : Bool), cs[i]? = some (c, d) → holds c ≠ some id) (hdr : id ∉ dr) : Ids (delS ss id) cs dr := by
  refine ⟨?_, ?_, h.uniq, h.drn, ?_⟩
  · exact (List.Sublist.map _ List.filter_sublist).nodup h.nodup
  · intro i c d id' hi hc
    obtain ⟨x, hx, h1, h2⟩ := h.own i c d id' hi hc
    refine ⟨x, List.mem_filter.mpr ⟨hx, ?_⟩, h1, h2⟩
    have : x.id ≠ id := by intro he; rw [h1] at he; subst he; exact hcs i c d hi hc
    simpa using this
  · intro id' hid
    obtain ⟨x, hx, h1, h2⟩ := h.drs id' hid
    refine ⟨x, List.mem_filter.mpr ⟨hx, ?_⟩, h1, h2⟩
    have : x.id ≠ id := by intro he; rw [h1] at he; subst he; exact hdr hid
    simpa using this

/-- A client's stream isn't a restored one. -/
theorem ids_not_drain {ss : List Stream} {cs : List (Cl × Bool)} {dr : List Nat} (h : Ids ss cs dr) {i : Nat} {c : Cl} {d : Bool} {id : Nat} (hi : cs[i]? = some (c, d)) (hc : holds c = some id) : id ∉ dr := by
  intro hd
  obtain ⟨x, hx, h1, h2⟩ := h.own i c d id hi hc
  obtain ⟨y, hy, h3, h4⟩ := h.drs id hd
  have hx' := find_of_mem ss h.nodup x hx
  have hy' := find_of_mem ss h.nodup y hy
  rw [h1] at hx'; rw [h3, hx'] at hy'
  simp only [Option.some.injEq] at hy'
  rw [hy', h4] at h2; cases h2

/-- The client at `i` goes from holding `id` to holding nothing, and the stream is deleted. -/
theorem ids_release (s : St) (i : Nat) (c0 c' : Cl) (d0 : Bool) (id : Nat) (hi : s.clients[i]? = some (c0, d0)) (h0 : holds c0 = some id) (h' : holds c' = none) (h : Ids s.streams s.clients s.drain) :
    Ids (delS s.streams id) (s.cl i c') s.drain := by
  apply ids_del _ _ _ _ (ids_cl s _ _ i c0 c' d0 hi (.inr h') h)
  · intro j c d hj hc
    rcases get_cl s i j c c0 c' d0 d hi hj with ⟨rfl, rfl, rfl⟩ | ⟨hne, hj⟩
    · rw [h'] at hc; cases hc
    · exact hne (h.uniq j i c c0 d d0 id hj hi hc h0)
  · exact ids_not_drain h hi h0

theorem ids_fresh (s : St) (i : Nat) (d0 : Bool) (hi : s.clients[i]? = some (.woken, d0)) (h : Ids s.streams s.clients s.drain) :
    Ids (s.streams ++ [fresh (freeId s.streams)]) (s.cl i (.replying (freeId s.streams))) s.drain := by
  have hfree := freeId_free s.streams
  have hno : ∀ (j : Nat) (c : Cl) (d : Bool), s.clients[j]? = some (c, d) → holds c ≠ some (freeId s.streams) := by
    intro j c d hj hc
    obtain ⟨x, hx, h1, _⟩ := h.own j c d _ hj hc
    exact hfree x hx h1
  refine ⟨?_, ?_, ?_, h.drn, ?_⟩
  · rw [List.map_append]
    refine List.nodup_append.mpr ⟨h.nodup, by simp, ?_⟩
    intro a ha b hb hab
    simp [fresh] at hb
    obtain ⟨x, hx, rfl⟩ := List.mem_map.mp ha
    exact hfree x hx (hab.trans hb)
  · intro j c d id hj hc
    rcases get_cl s i j c _ _ d0 d hi hj with ⟨rfl, rfl, rfl⟩ | ⟨_, hj⟩
    · simp only [holds, Option.some.injEq] at hc
      subst hc
      exact ⟨fresh (freeId s.streams), by simp, rfl, rfl⟩
    · obtain ⟨x, hx, h1, h2⟩ := h.own j c d id hj hc
      exact ⟨x, by simp [hx], h1, h2⟩
  · intro j k c c2 d d2 id hj hk hc hc2
    rcases get_cl s i j c _ _ d0 d hi hj with ⟨rfl, rfl, rfl⟩ | ⟨hji, hj'⟩
    · rcases get_cl s j k c2 _ _ d d2 hi hk with ⟨rfl, rfl, rfl⟩ | ⟨_, hk⟩
      · rfl
      · simp only [holds, Option.some.injEq] at hc
        subst hc
        exact absurd hc2 (hno k c2 d2 hk)
    · rcases get_cl s i k c2 _ _ d0 d2 hi hk with ⟨rfl, rfl, rfl⟩ | ⟨_, hk⟩
      · simp only [holds, Option.some.injEq] at hc2
        subst hc2
        exact absurd hc (hno j c d hj')
      · exact h.uniq j k c c2 d d2 id hj' hk hc hc2
  · intro id hid
    obtain ⟨x, hx, h1, h2⟩ := h.drs id hid
    exact ⟨x, by simp [hx], h1, h2⟩

theorem ids_new (ss : List Stream) (cs : List (Cl × Bool)) (dr : List Nat) (h : Ids ss cs dr) : Ids ss (cs ++ [(.waiting, false)]) dr := by
  have key : ∀ (j : Nat) (c : Cl) (d : Bool) (id : Nat), (cs ++ [(Cl.waiting, false)])[j]? = some (c, d) → holds c = some id → cs[j]? = some (c, d) := by
    intro j c d id hj hc
    by_cases hl : j < cs.length
    · rwa [List.getElem?_append_left hl] at hj
    · rw [List.getElem?_append_right (by omega)] at hj
      rw [List.getElem?_singleton] at hj
      split at hj
      · simp at hj; rw [← hj.1] at hc; cases hc
      · cases hj
  exact ⟨h.nodup, fun i c d id hi hc => h.own i c d id (key i c d id hi hc) hc, fun i j c c' d d' id hi hj hc hc' => h.uniq i j c c' d d' id (key i c d id hi hc) (key j c' d' id hj hc') hc hc', h.drn, h.drs⟩

theorem ids_done (ss : List Stream) (cs : List (Cl × Bool)) (dr : List Nat) (i : Nat) (h : Ids ss cs dr) : Ids ss (cs.modify i fun x => (x.1, true)) dr := by
  have key : ∀ (j : Nat) (c : Cl) (d : Bool), (cs.modify i fun x => (x.1, true))[j]? = some (c, d) → ∃ d', cs[j]? = some (c, d') := by
    intro j c d hj
    rw [get_modify] at hj
    split at hj
    · cases hc : cs[j]? with
      | none => rw [hc] at hj; cases hj
      | some x => rw [hc] at hj; simp at hj; exact ⟨x.2, by rw [← hj.1]⟩
    · exact ⟨d, hj⟩
  refine ⟨h.nodup, ?_, ?_, h.drn, h.drs⟩
  · intro j c d id hj hc
    obtain ⟨d', hj⟩ := key j c d hj
    exact h.own j c d' id hj hc
  · intro j k c c' d d' id hj hk hc hc'
    obtain ⟨e, hj⟩ := key j c d hj
    obtain ⟨e', hk⟩ := key k c' d' hk
    exact h.uniq j k c c' e e' id hj hk hc hc'

def IdsSt (s : St) : Prop := Ids s.streams s.clients s.drain

theorem ids_step (s : St) (l : Label) (s' : St) (hc : IdsSt s) (h : step s l = some s') : IdsSt s' := by
  unfold IdsSt at hc ⊢
  cases l with
  | connect => simp only [step, Option.some.injEq] at h; subst h; exact ids_new _ _ _ hc
  | ctxDone i => simp only [step, Option.some.injEq] at h; subst h; exact ids_done _ _ _ i hc
  | close => simp only [step, Option.some.injEq] at h; subst h; exact hc
  | loopEnd => simp only [step, Option.some.injEq] at h; subst h; exact hc
  | wake i =>
    simp only [step] at h
    split at h
    · rename_i d hi
      split at h
      · simp only [Option.some.injEq] at h; subst h; exact ids_cl s _ _ i _ _ d hi (.inr rfl) hc
      · cases h
    · cases h
  | look i =>
    simp only [step] at h
    split at h
    · rename_i d hi
      split at h
      · simp only [Option.some.injEq] at h; subst h; exact ids_fresh s i d hi hc
      · split at h
        · simp only [Option.some.injEq] at h; subst h; exact ids_cl s _ _ i _ _ d hi (.inr rfl) hc
        · simp only [Option.some.injEq] at h; subst h; exact ids_cl s _ _ i _ _ d hi (.inr rfl) hc
    · cases h
  | giveUp i =>
    simp only [step] at h
    split at h
    · rename_i d hi
      split at h
      · simp only [Option.some.injEq] at h; subst h; exact ids_cl s _ _ i _ _ d hi (.inr rfl) hc
      · cases h
    · cases h
  | send i =>
    simp only [step] at h
    split at h
    · rename_i id d hi
      split at h
      · simp only [Option.some.injEq] at h; subst h; exact ids_cl s _ _ i _ _ d hi (.inl rfl) hc
      · cases h
    · cases h
  | wake2 i =>
    simp only [step] at h
    split at h
    · rename_i id d hi
      split at h
      · simp only [Option.some.injEq] at h; subst h; exact ids_cl s _ _ i _ _ d hi (.inl rfl) hc
      · cases h
    · cases h
  | look2 i =>
    simp only [step] at h
    split at h
    · rename_i id d hi
      simp only [Option.some.injEq] at h; subst h
      exact ids_cl s _ _ i _ _ d hi (.inl (by split <;> rfl)) hc
    · cases h
  | cancel i =>
    simp only [step] at h
    split at h
    · rename_i id d hi
      split at h
      · simp only [Option.some.injEq] at h; subst h; exact ids_cl s _ _ i _ _ d hi (.inl rfl) hc
      · cases h
    · cases h
  | finish i =>
    simp only [step] at h
    split at h
    · rename_i id d hi
      simp only [Option.some.injEq] at h; subst h
      exact ids_release s i _ (.poking id true) d id hi rfl rfl hc
    · rename_i id d hi
      simp only [Option.some.injEq] at h; subst h
      exact ids_cl s _ _ i _ _ d hi (.inl rfl) hc
    · cases h
  | poke i =>
    simp only [step] at h
    split at h
    · rename_i id c d hi
      simp only [Option.some.injEq] at h; subst h
      cases c with
      | true => exact ids_cl s _ _ i _ .refused d hi (.inr rfl) hc
      | false => exact ids_cl s _ _ i _ (.opened id) d hi (.inl rfl) hc
    · cases h
  | begin i =>
    simp only [step] at h
    split at h
    · rename_i id d hi
      simp only [Option.some.injEq] at h; subst h
      exact ids_cl s _ _ i _ _ d hi (.inl rfl) hc
    · cases h
  | enterRead i =>
    simp only [step] at h
    split at h
    · simp only [Option.some.injEq] at h; subst h
      exact ids_set _ _ _ _ _ (fun _ => ⟨rfl, rfl⟩) hc
    · cases h
  | leaveRead i =>
    simp only [step] at h
    split at h
    · simp only [Option.some.injEq] at h; subst h
      exact ids_set _ _ _ _ _ (fun _ => ⟨rfl, rfl⟩) hc
    · cases h
  | endTransfer i =>
    simp only [step] at h
    split at h
    · rename_i id d hi
      split at h
      · split at h
        · simp only [Option.some.injEq] at h; subst h
          exact ids_set _ _ _ _ _ (fun _ => ⟨rfl, rfl⟩) (ids_cl s _ _ i _ (.ended id) d hi (.inl rfl) hc)
        · cases h
      · cases h
    · cases h
  | delete i =>
    simp only [step] at h
    split at h
    · rename_i id d hi
      simp only [Option.some.injEq] at h; subst h
      simp only
      split
      · exact ids_cl s _ _ i _ _ d hi (.inr rfl) hc
      · exact ids_release s i _ _ d id hi rfl rfl hc
    · cases h
  | call =>
    simp only [step] at h
    split at h
    · split at h <;> (simp only [Option.some.injEq] at h; subst h; exact hc)
    · cases h
  | callPoke =>
    simp only [step] at h
    split at h
    · simp only [Option.some.injEq] at h; subst h; exact hc
    · cases h
  | flow id inc =>
    simp only [step] at h
    split at h
    · split at h
      · simp only [Option.some.injEq] at h; subst h; exact hc
      · split at h
        · simp only [Option.some.injEq] at h; subst h
          simp only
          split
          · exact ids_set _ _ _ _ _ (fun _ => ⟨rfl, rfl⟩) hc
          · exact hc
        · simp only [Option.some.injEq] at h; subst h; exact hc
    · cases h
  | data id len fits =>
    simp only [step] at h
    split at h
    · split at h
      · simp only [Option.some.injEq] at h; subst h; exact hc
      · split at h
        · simp only [Option.some.injEq] at h; subst h
          simp only
          split
          · exact ids_set _ _ _ _ _ (fun _ => ⟨rfl, rfl⟩) hc
          · exact hc
        · simp only [Option.some.injEq] at h; subst h; exact hc
    · cases h
  | shut =>
    simp only [step] at h
    split at h
    · simp only [Option.some.injEq] at h; subst h; exact hc
    · cases h
  | shutWaited =>
    simp only [step] at h
    split at h
    · simp only [Option.some.injEq] at h; subst h; exact hc
    · cases h
  | shutPoke =>
    simp only [step] at h
    split at h
    · simp only [Option.some.injEq] at h; subst h; exact hc
    · cases h
  | stopAll =>
    simp only [step] at h
    split at h
    · simp only [Option.some.injEq] at h; subst h
      exact ids_map _ _ _ _ (fun _ => ⟨rfl, rfl⟩) hc
    · cases h
  | joined =>
    simp only [step] at h
    split at h
    · simp only [Option.some.injEq] at h; subst h; exact hc
    · cases h
  | drainEnd =>
    simp only [step] at h
    split at h
    · split at h
      · cases h
      · split at h
        · split at h
          · simp only [Option.some.injEq] at h; subst h
            exact ids_set _ _ _ _ _ (fun _ => ⟨rfl, rfl⟩) hc
          · cases h
        · cases h
    · cases h
  | drainNext =>
    simp only [step] at h
    split at h
    · rename_i id rest hd
      split at h
      · simp only [Option.some.injEq] at h; subst h
        rw [hd] at hc
        have hn := List.nodup_cons.mp hc.drn
        have h1 : Ids s.streams s.clients rest := ⟨hc.nodup, hc.own, hc.uniq, hn.2, fun id hid => hc.drs id (by simp [hid])⟩
        simp only
        split
        · exact h1
        · refine ids_del _ _ _ _ h1 ?_ hn.1
          intro i c d hi hcl
          exact ids_not_drain hc hi hcl (by simp)
      · cases h
    · cases h

/-- Restored streams: as OriginStateProps.restore_total says, with distinct ids. -/
def GoodRestored (rs : List Stream) : Prop := (rs.map (·.id)).Nodup ∧ ∀ x ∈ rs, x.Restored

theorem ids_initial (a : Nat) (rs : List Stream) (hr : GoodRestored rs) : IdsSt (initial a rs) := by
  refine ⟨hr.1, by intro i c d id hi; simp [initial] at hi, by intro i j c c' d d' id hi; simp [initial] at hi, hr.1, ?_⟩
  intro id hid
  obtain ⟨x, hx, rfl⟩ := List.mem_map.mp hid
  exact ⟨x, hx, rfl, (hr.2 x hx).1⟩

theorem ids_reachable (a : Nat) (rs : List Stream) (hr : GoodRestored rs) (s : St) (h : Reachable a rs s) : IdsSt s := by
  obtain ⟨ls, h⟩ := h
  exact run_inv IdsSt ids_step ls _ _ (ids_initial a rs hr) h

/-- C108: every connection has a stream of its own, from before the program is told of it until it has ended: no other connection and no restored stream has the same id. -/
theorem own_stream (a : Nat) (rs : List Stream) (hr : GoodRestored rs) (s : St) (h : Reachable a rs s) (i : Nat) (c : Cl) (d : Bool) (id : Nat) (hi : s.clients[i]? = some (c, d)) (hc : holds c = some id) :
    (∃ x, findS s.streams id = some x ∧ x.restored = false ∧ ∀ y ∈ s.streams, y.id = id → y = x) ∧ (∀ (j : Nat) c' d', s.clients[j]? = some (c', d') → holds c' = some id → j = i) ∧ id ∉ s.drain := by
  have hids := ids_reachable a rs hr s h
  obtain ⟨x, hx, h1, h2⟩ := hids.own i c d id hi hc
  have hf := find_of_mem s.streams hids.nodup x hx
  rw [h1] at hf
  refine ⟨⟨x, hf, h2, ?_⟩, fun j c' d' hj hc' => hids.uniq j i c' c d' d id hj hi hc' hc, ids_not_drain hids hi hc⟩
  intro y hy hyi
  have := find_of_mem s.streams hids.nodup y hy
  rw [hyi, hf] at this
  simpa using this.symm

end Gate.Origin
