import Verif.OriginIds
/-
C108, continued: a program which follows the protocol isn't aborted by the origin service, and what Connector.Close does. Model: Origin.lean.
-/
namespace Gate.Origin

/-- What a program knows of each stream id: whether it may subscribe, and whether it may send. -/
abbrev View := Nat → Bool × Bool

def View.upd (v : View) (id : Nat) (p : Bool × Bool) : View := fun n => if n = id then p else v n

/-- The program learns of a stream when it receives the reply; it has itself ended a direction by sending a zero. -/
def View.tell (v : View) (s : St) : Label → View
  | .send i => match s.clients[i]? with
    | some (.replying id, _) => v.upd id (true, true)
    | _ => v
  | .flow id increment => if increment = 0 then v.upd id (false, (v id).2) else v
  | .data id length _ => if length = 0 then v.upd id ((v id).1, false) else v
  | _ => v

/-- A program which uses only streams it has been told of, in directions it hasn't ended, and sends only what it has been given room for. -/
def View.obeys (v : View) : Label → Prop
  | .flow id _ => (v id).1 = true
  | .data id length fits => (v id).2 = true ∧ (length = 0 ∨ fits = true)
  | _ => True

/-- Histories of an instance which wasn't restored with streams, and of a program which follows the protocol. -/
inductive Obeying (a : Nat) : St → View → Prop
  | init : Obeying a (initial a []) (fun _ => (false, false))
  | step (s : St) (v : View) (l : Label) (s' : St) : Obeying a s v → v.obeys l → step s l = some s' → Obeying a s' (v.tell s l)

theorem obeying_reachable (a : Nat) (s : St) (v : View) (h : Obeying a s v) : Reachable a [] s := by
  induction h with
  | init => exact ⟨[], rfl⟩
  | step s v l s' _ _ hs ih =>
    obtain ⟨ls, ih⟩ := ih
    refine ⟨ls ++ [l], ?_⟩
    rw [run_append _ _ _ _ ih]
    simp [run, hs]

/-- The program hasn't been told of the stream. -/
def unsent : Cl → Option Nat
  | .replying id | .replyWoken id | .finishing id true => some id
  | _ => none

def endedId : Cl → Option Nat
  | .ended id => some id
  | _ => none

theorem unsent_holds (c : Cl) (id : Nat) (h : unsent c = some id) : holds c = some id := by
  cases c with
  | finishing id b => cases b <;> simp_all [unsent, holds]
  | _ => simp_all [unsent, holds]

theorem ended_holds (c : Cl) (id : Nat) (h : endedId c = some id) : holds c = some id := by
  cases c <;> simp_all [endedId, holds]

structure Agree (ss : List Stream) (cs : List (Cl × Bool)) (v : View) : Prop where
  a : ∀ x ∈ ss, x.stop = false ∧ x.restored = false
  b : ∀ x ∈ ss, ∀ (i : Nat) (c : Cl) (d : Bool), cs[i]? = some (c, d) → unsent c = some x.id → v x.id = (false, false) ∧ x.sub = true ∧ x.wr = true
  c : ∀ x ∈ ss, (∀ (i : Nat) (c : Cl) (d : Bool), cs[i]? = some (c, d) → unsent c ≠ some x.id) → v x.id = (x.sub, x.wr)
  d : ∀ id, (∀ x ∈ ss, x.id ≠ id) → v id = (false, false)
  e : ∀ x ∈ ss, ∀ (i : Nat) (c : Cl) (d : Bool), cs[i]? = some (c, d) → endedId c = some x.id → x.sub = false ∧ x.wr = false

/-- Another state of a client, about the same stream. -/
theorem agree_cl (s : St) (v : View) (i : Nat) (c0 c' : Cl) (d0 : Bool) (hi : s.clients[i]? = some (c0, d0)) (hu : unsent c' = unsent c0) (he : endedId c' = endedId c0 ∨ endedId c' = none)
    (h : Agree s.streams s.clients v) : Agree s.streams (s.cl i c') v := by
  refine ⟨h.a, ?_, ?_, h.d, ?_⟩
  · intro x hx j c d hj hc
    rcases get_cl s i j c c0 c' d0 d hi hj with ⟨hji, hcc, hdd⟩ | ⟨_, hj'⟩
    · subst hcc; exact h.b x hx i c0 d0 hi (hu ▸ hc)
    · exact h.b x hx j c d hj' hc
  · intro x hx hno
    apply h.c x hx
    intro j c d hj hc
    by_cases hji : j = i
    · subst hji
      rw [hi] at hj; simp only [Option.some.injEq, Prod.mk.injEq] at hj
      refine hno j c' d0 ?_ (by rw [hu, hj.1]; exact hc)
      rw [St.cl, get_modify, if_pos rfl, hi]; rfl
    · refine hno j c d ?_ hc
      rw [St.cl, get_modify, if_neg (fun h => hji h.symm)]; exact hj
  · intro x hx j c d hj hc
    rcases get_cl s i j c c0 c' d0 d hi hj with ⟨hji, hcc, hdd⟩ | ⟨_, hj'⟩
    · subst hcc
      rcases he with he | he
      · exact h.e x hx i c0 d0 hi (he ▸ hc)
      · rw [he] at hc; cases hc
    · exact h.e x hx j c d hj' hc

/-- Streams change in ways which the program doesn't see. -/
theorem agree_map (ss : List Stream) (cs : List (Cl × Bool)) (v : View) (f : Stream → Stream)
    (hf : ∀ x, (f x).id = x.id ∧ (f x).sub = x.sub ∧ (f x).wr = x.wr ∧ (f x).stop = x.stop ∧ (f x).restored = x.restored) (h : Agree ss cs v) : Agree (ss.map f) cs v := by
  refine ⟨?_, ?_, ?_, ?_, ?_⟩
  · intro y hy
    obtain ⟨x, hx, rfl⟩ := List.mem_map.mp hy
    obtain ⟨h1, h2, h3, h4, h5⟩ := hf x
    rw [h4, h5]; exact h.a x hx
  · intro y hy i c d hi hc
    obtain ⟨x, hx, rfl⟩ := List.mem_map.mp hy
    obtain ⟨h1, h2, h3, h4, h5⟩ := hf x
    rw [h1] at hc ⊢; rw [h2, h3]; exact h.b x hx i c d hi hc
  · intro y hy hno
    obtain ⟨x, hx, rfl⟩ := List.mem_map.mp hy
    obtain ⟨h1, h2, h3, h4, h5⟩ := hf x
    rw [h1] at hno ⊢; rw [h2, h3]; exact h.c x hx hno
  · intro id hno
    apply h.d
    intro x hx he
    exact hno (f x) (List.mem_map_of_mem hx) ((hf x).1.trans he)
  · intro y hy i c d hi hc
    obtain ⟨x, hx, rfl⟩ := List.mem_map.mp hy
    obtain ⟨h1, h2, h3, h4, h5⟩ := hf x
    rw [h1] at hc; rw [h2, h3]; exact h.e x hx i c d hi hc

theorem agree_setS (ss : List Stream) (cs : List (Cl × Bool)) (v : View) (id : Nat) (f : Stream → Stream)
    (hf : ∀ x, (f x).id = x.id ∧ (f x).sub = x.sub ∧ (f x).wr = x.wr ∧ (f x).stop = x.stop ∧ (f x).restored = x.restored) (h : Agree ss cs v) : Agree (setS ss id f) cs v := by
  apply agree_map ss cs v _ _ h
  intro x
  split
  · exact hf x
  · exact ⟨rfl, rfl, rfl, rfl, rfl⟩

/-- The client at `i` lets go of its stream, which is deleted, when the program has no use for it. -/
theorem agree_release (s : St) (v : View) (i : Nat) (c0 c' : Cl) (d0 : Bool) (id : Nat) (hi : s.clients[i]? = some (c0, d0)) (h0 : holds c0 = some id) (hu : unsent c' = none) (he : endedId c' = none)
    (hv : v id = (false, false)) (h : Agree s.streams s.clients v) : Agree (delS s.streams id) (s.cl i c') v := by
  have hmem : ∀ x ∈ delS s.streams id, x ∈ s.streams ∧ x.id ≠ id := by
    intro x hx
    have := List.mem_filter.mp hx
    exact ⟨this.1, by simpa using this.2⟩
  refine ⟨fun x hx => h.a x (hmem x hx).1, ?_, ?_, ?_, ?_⟩
  · intro x hx j c d hj hc
    rcases get_cl s i j c c0 c' d0 d hi hj with ⟨_, hcc, _⟩ | ⟨_, hj'⟩
    · rw [hcc, hu] at hc; cases hc
    · exact h.b x (hmem x hx).1 j c d hj' hc
  · intro x hx hno
    apply h.c x (hmem x hx).1
    intro j c d hj hc
    by_cases hji : j = i
    · subst hji
      rw [hi] at hj; simp only [Option.some.injEq, Prod.mk.injEq] at hj
      have hh := unsent_holds c x.id hc
      rw [← hj.1, h0] at hh
      exact (hmem x hx).2 (Option.some.inj hh).symm
    · refine hno j c d ?_ hc
      rw [St.cl, get_modify, if_neg (fun h => hji h.symm)]; exact hj
  · intro n hno
    by_cases hn : n = id
    · rw [hn]; exact hv
    · apply h.d
      intro x hx hxi
      exact hno x (List.mem_filter.mpr ⟨hx, by simpa [hxi] using hn⟩) hxi
  · intro x hx j c d hj hc
    rcases get_cl s i j c c0 c' d0 d hi hj with ⟨_, hcc, _⟩ | ⟨_, hj'⟩
    · rw [hcc, he] at hc; cases hc
    · exact h.e x (hmem x hx).1 j c d hj' hc

theorem agree_fresh (s : St) (v : View) (i : Nat) (d0 : Bool) (hi : s.clients[i]? = some (.woken, d0)) (hids : Ids s.streams s.clients s.drain) (h : Agree s.streams s.clients v) :
    Agree (s.streams ++ [fresh (freeId s.streams)]) (s.cl i (.replying (freeId s.streams))) v := by
  have hfree := freeId_free s.streams
  have hno : ∀ (j : Nat) (c : Cl) (d : Bool), s.clients[j]? = some (c, d) → holds c ≠ some (freeId s.streams) := by
    intro j c d hj hc
    obtain ⟨x, hx, h1, _⟩ := hids.own j c d _ hj hc
    exact hfree x hx h1
  have hget : (s.cl i (.replying (freeId s.streams)))[i]? = some (.replying (freeId s.streams), d0) := by
    rw [St.cl, get_modify, if_pos rfl, hi]; rfl
  refine ⟨?_, ?_, ?_, ?_, ?_⟩
  · intro x hx
    rcases List.mem_append.mp hx with hx | hx
    · exact h.a x hx
    · simp only [List.mem_singleton] at hx; subst hx; exact ⟨rfl, rfl⟩
  · intro x hx j c d hj hc
    rcases List.mem_append.mp hx with hx | hx
    · rcases get_cl s i j c _ _ d0 d hi hj with ⟨_, hcc, _⟩ | ⟨_, hj'⟩
      · rw [hcc] at hc; simp only [unsent, Option.some.injEq] at hc
        exact absurd hc.symm (hfree x hx)
      · exact h.b x hx j c d hj' hc
    · simp only [List.mem_singleton] at hx; subst hx
      exact ⟨h.d _ hfree, rfl, rfl⟩
  · intro x hx hnu
    rcases List.mem_append.mp hx with hx | hx
    · apply h.c x hx
      intro j c d hj hc
      by_cases hji : j = i
      · subst hji
        rw [hi] at hj; simp only [Option.some.injEq, Prod.mk.injEq] at hj
        rw [← hj.1] at hc; cases hc
      · refine hnu j c d ?_ hc
        rw [St.cl, get_modify, if_neg (fun h => hji h.symm)]; exact hj
    · simp only [List.mem_singleton] at hx; subst hx
      exact absurd rfl (hnu i _ d0 hget)
  · intro id hid
    exact h.d id fun x hx => hid x (by simp [hx])
  · intro x hx j c d hj hc
    rcases get_cl s i j c _ _ d0 d hi hj with ⟨_, hcc, _⟩ | ⟨_, hj'⟩
    · rw [hcc] at hc; cases hc
    · rcases List.mem_append.mp hx with hx | hx
      · exact h.e x hx j c d hj' hc
      · simp only [List.mem_singleton] at hx; subst hx
        exact absurd (ended_holds c _ hc) (hno j c d hj')

/-- The reply is received. -/
theorem agree_send (s : St) (v : View) (i : Nat) (id : Nat) (d0 : Bool) (hi : s.clients[i]? = some (.replying id, d0)) (hids : Ids s.streams s.clients s.drain) (h : Agree s.streams s.clients v) :
    Agree s.streams (s.cl i (.finishing id false)) (v.upd id (true, true)) := by
  refine ⟨h.a, ?_, ?_, ?_, ?_⟩
  · intro x hx j c d hj hc
    rcases get_cl s i j c _ _ d0 d hi hj with ⟨_, hcc, _⟩ | ⟨hji, hj'⟩
    · rw [hcc] at hc; cases hc
    · have hne : x.id ≠ id := by
        intro he
        exact hji (hids.uniq j i c _ d d0 id hj' hi (he ▸ unsent_holds c _ hc) rfl)
      rw [View.upd, if_neg hne]
      exact h.b x hx j c d hj' hc
  · intro x hx hno
    rw [View.upd]
    split
    · rename_i he
      obtain ⟨_, h2, h3⟩ := h.b x hx i _ d0 hi (by rw [he]; rfl)
      rw [h2, h3]
    · rename_i hne
      apply h.c x hx
      intro j c d hj hc
      by_cases hji : j = i
      · subst hji
        rw [hi] at hj; simp only [Option.some.injEq, Prod.mk.injEq] at hj
        rw [← hj.1] at hc
        simp only [unsent, Option.some.injEq] at hc
        exact hne hc.symm
      · refine hno j c d ?_ hc
        rw [St.cl, get_modify, if_neg (fun h => hji h.symm)]; exact hj
  · intro n hno
    have : n ≠ id := by
      obtain ⟨x, hx, h1, _⟩ := hids.own i _ d0 id hi rfl
      intro he
      exact hno x hx (h1.trans he.symm)
    rw [View.upd, if_neg this]
    exact h.d n hno
  · intro x hx j c d hj hc
    rcases get_cl s i j c _ _ d0 d hi hj with ⟨_, hcc, _⟩ | ⟨_, hj'⟩
    · rw [hcc] at hc; cases hc
    · exact h.e x hx j c d hj' hc

/-- The program ends a direction of a stream it knows. -/
theorem agree_ended (ss : List Stream) (cs : List (Cl × Bool)) (v : View) (id : Nat) (f : Stream → Stream) (p : Bool × Bool) (hv : v id ≠ (false, false))
    (hf : ∀ x, (f x).id = x.id ∧ (f x).stop = x.stop ∧ (f x).restored = x.restored ∧ (x.sub = false → (f x).sub = false) ∧ (x.wr = false → (f x).wr = false))
    (hp : ∀ x, v id = (x.sub, x.wr) → p = ((f x).sub, (f x).wr)) (h : Agree ss cs v) : Agree (setS ss id f) cs (v.upd id p) := by
  have hpre : ∀ y ∈ setS ss id f, ∃ x ∈ ss, x.id = y.id ∧ (y = f x ∧ x.id = id ∨ y = x ∧ x.id ≠ id) := by
    intro y hy
    obtain ⟨x, hx, rfl⟩ := List.mem_map.mp hy
    refine ⟨x, hx, ?_, ?_⟩
    · split
      · exact (hf x).1.symm
      · rfl
    · split
      · rename_i h; exact .inl ⟨rfl, h⟩
      · rename_i h; exact .inr ⟨rfl, h⟩
  have hnu : ∀ x ∈ ss, x.id = id → ∀ (i : Nat) (c : Cl) (d : Bool), cs[i]? = some (c, d) → unsent c ≠ some id := by
    intro x hx he i c d hi hc
    exact hv (he ▸ (h.b x hx i c d hi (he ▸ hc)).1)
  refine ⟨?_, ?_, ?_, ?_, ?_⟩
  · intro y hy
    obtain ⟨x, hx, _, ⟨rfl, _⟩ | ⟨rfl, _⟩⟩ := hpre y hy
    · rw [(hf x).2.1, (hf x).2.2.1]; exact h.a x hx
    · exact h.a y hx
  · intro y hy i c d hi hc
    obtain ⟨x, hx, hxy, ⟨hy', hid⟩ | ⟨hy', hid⟩⟩ := hpre y hy
    · rw [← hxy, hid] at hc
      exact absurd hc (hnu x hx hid i c d hi)
    · subst hy'
      rw [View.upd, if_neg hid]
      exact h.b y hx i c d hi hc
  · intro y hy hno
    obtain ⟨x, hx, hxy, ⟨hy', hid⟩ | ⟨hy', hid⟩⟩ := hpre y hy
    · rw [View.upd, if_pos (hxy.symm.trans hid), hy']
      apply hp
      rw [← hid]
      exact h.c x hx (by rw [hid]; exact hnu x hx hid)
    · subst hy'
      rw [View.upd, if_neg hid]
      exact h.c y hx hno
  · intro n hno
    have hn : n ≠ id := by
      intro he
      apply hv
      apply h.d
      intro x hx hxi
      refine hno (f x) ?_ (by rw [(hf x).1, hxi, he])
      exact List.mem_map.mpr ⟨x, hx, by rw [if_pos hxi]⟩
    rw [View.upd, if_neg hn]
    apply h.d
    intro x hx hxi
    refine hno x ?_ hxi
    exact List.mem_map.mpr ⟨x, hx, by rw [if_neg (by rw [hxi]; exact hn)]⟩
  · intro y hy i c d hi hc
    obtain ⟨x, hx, hxy, ⟨hy', hid⟩ | ⟨hy', hid⟩⟩ := hpre y hy
    · rw [← hxy] at hc
      have := h.e x hx i c d hi hc
      rw [hy']
      exact ⟨(hf x).2.2.2.1 this.1, (hf x).2.2.2.2 this.2⟩
    · subst hy'
      exact h.e y hx i c d hi hc

theorem agree_new (ss : List Stream) (cs : List (Cl × Bool)) (v : View) (h : Agree ss cs v) : Agree ss (cs ++ [(.waiting, false)]) v := by
  have key : ∀ (j : Nat) (c : Cl) (d : Bool), (cs ++ [(Cl.waiting, false)])[j]? = some (c, d) → c = .waiting ∨ cs[j]? = some (c, d) := by
    intro j c d hj
    by_cases hl : j < cs.length
    · rw [List.getElem?_append_left hl] at hj; exact .inr hj
    · rw [List.getElem?_append_right (by omega), List.getElem?_singleton] at hj
      split at hj
      · simp at hj; exact .inl hj.1.symm
      · cases hj
  refine ⟨h.a, ?_, ?_, h.d, ?_⟩
  · intro x hx i c d hi hc
    rcases key i c d hi with hw | hi
    · rw [hw] at hc; cases hc
    · exact h.b x hx i c d hi hc
  · intro x hx hno
    apply h.c x hx
    intro i c d hi
    refine hno i c d ?_
    have hl : i < cs.length := by
      have := List.getElem?_eq_some_iff.mp hi
      exact this.1
    rw [List.getElem?_append_left hl]; exact hi
  · intro x hx i c d hi hc
    rcases key i c d hi with hw | hi
    · rw [hw] at hc; cases hc
    · exact h.e x hx i c d hi hc

theorem agree_done (ss : List Stream) (cs : List (Cl × Bool)) (v : View) (i : Nat) (h : Agree ss cs v) : Agree ss (cs.modify i fun x => (x.1, true)) v := by
  have key : ∀ (j : Nat) (c : Cl), (∃ d, (cs.modify i fun x => (x.1, true))[j]? = some (c, d)) ↔ ∃ d', cs[j]? = some (c, d') := by
    intro j c
    rw [get_modify]
    split
    · cases hc : cs[j]? with
      | none => simp
      | some x => obtain ⟨x1, x2⟩ := x; simp
    · rfl
  refine ⟨h.a, ?_, ?_, h.d, ?_⟩
  · intro x hx j c d hj hc
    obtain ⟨d', hj⟩ := (key j c).mp ⟨d, hj⟩
    exact h.b x hx j c d' hj hc
  · intro x hx hno
    apply h.c x hx
    intro j c d hj
    obtain ⟨d', hj⟩ := (key j c).mpr ⟨d, hj⟩
    exact hno j c d' hj
  · intro x hx j c d hj hc
    obtain ⟨d', hj⟩ := (key j c).mp ⟨d, hj⟩
    exact h.e x hx j c d' hj hc

theorem agree_step (a : Nat) (s : St) (v : View) (l : Label) (s' : St) (hcnt : Count a s) (hids : IdsSt s) (hd : s.drain = []) (ho : v.obeys l) (h : step s l = some s')
    (hag : s.shutting = false → Agree s.streams s.clients v) : s'.drain = [] ∧ (s'.shutting = false → Agree s'.streams s'.clients (v.tell s l)) := by
  unfold IdsSt at hids
  cases l with
  | connect => simp only [step, Option.some.injEq] at h; subst h; exact ⟨hd, fun hs => agree_new _ _ _ (hag hs)⟩
  | ctxDone i => simp only [step, Option.some.injEq] at h; subst h; exact ⟨hd, fun hs => agree_done _ _ _ i (hag hs)⟩
  | close => simp only [step, Option.some.injEq] at h; subst h; exact ⟨hd, hag⟩
  | loopEnd => simp only [step, Option.some.injEq] at h; subst h; exact ⟨hd, hag⟩
  | wake i =>
    simp only [step] at h
    split at h
    · rename_i d hi
      split at h
      · simp only [Option.some.injEq] at h; subst h; exact ⟨hd, fun hs => agree_cl s _ i _ _ d hi rfl (.inl rfl) (hag hs)⟩
      · cases h
    · cases h
  | look i =>
    simp only [step] at h
    split at h
    · rename_i d hi
      split at h
      · simp only [Option.some.injEq] at h; subst h; exact ⟨hd, fun hs => agree_fresh s _ i d hi hids (hag hs)⟩
      · split at h
        · simp only [Option.some.injEq] at h; subst h; exact ⟨hd, fun hs => agree_cl s _ i _ _ d hi rfl (.inl rfl) (hag hs)⟩
        · simp only [Option.some.injEq] at h; subst h; exact ⟨hd, fun hs => agree_cl s _ i _ _ d hi rfl (.inl rfl) (hag hs)⟩
    · cases h
  | giveUp i =>
    simp only [step] at h
    split at h
    · rename_i d hi
      split at h
      · simp only [Option.some.injEq] at h; subst h; exact ⟨hd, fun hs => agree_cl s _ i _ _ d hi rfl (.inl rfl) (hag hs)⟩
      · cases h
    · cases h
  | send i =>
    simp only [step] at h
    split at h
    · rename_i id d hi
      split at h
      · simp only [Option.some.injEq] at h; subst h
        refine ⟨hd, fun hs => ?_⟩
        simp only [View.tell, hi]
        exact agree_send s v i id d hi hids (hag hs)
      · cases h
    · cases h
  | wake2 i =>
    simp only [step] at h
    split at h
    · rename_i id d hi
      split at h
      · simp only [Option.some.injEq] at h; subst h; exact ⟨hd, fun hs => agree_cl s _ i _ _ d hi rfl (.inl rfl) (hag hs)⟩
      · cases h
    · cases h
  | look2 i =>
    simp only [step] at h
    split at h
    · rename_i id d hi
      simp only [Option.some.injEq] at h; subst h
      exact ⟨hd, fun hs => agree_cl s _ i _ _ d hi (by split <;> rfl) (.inl (by split <;> rfl)) (hag hs)⟩
    · cases h
  | cancel i =>
    simp only [step] at h
    split at h
    · rename_i id d hi
      split at h
      · simp only [Option.some.injEq] at h; subst h; exact ⟨hd, fun hs => agree_cl s _ i _ _ d hi rfl (.inl rfl) (hag hs)⟩
      · cases h
    · cases h
  | finish i =>
    simp only [step] at h
    split at h
    · rename_i id d hi
      simp only [Option.some.injEq] at h; subst h
      refine ⟨hd, fun hs => ?_⟩
      obtain ⟨x, hx, h1, _⟩ := hids.own i _ d id hi rfl
      have hv := ((hag hs).b x hx i _ d hi (by rw [h1]; rfl)).1
      rw [h1] at hv
      exact agree_release s _ i _ (.poking id true) d id hi rfl rfl rfl hv (hag hs)
    · rename_i id d hi
      simp only [Option.some.injEq] at h; subst h
      exact ⟨hd, fun hs => agree_cl s _ i _ _ d hi rfl (.inl rfl) (hag hs)⟩
    · cases h
  | poke i =>
    simp only [step] at h
    split at h
    · rename_i id c d hi
      simp only [Option.some.injEq] at h; subst h
      exact ⟨hd, fun hs => agree_cl s _ i _ _ d hi (by split <;> rfl) (.inl (by split <;> rfl)) (hag hs)⟩
    · cases h
  | begin i =>
    simp only [step] at h
    split at h
    · rename_i id d hi
      simp only [Option.some.injEq] at h; subst h
      exact ⟨hd, fun hs => agree_cl s _ i _ _ d hi rfl (.inl rfl) (hag hs)⟩
    · cases h
  | enterRead i =>
    simp only [step] at h
    split at h
    · simp only [Option.some.injEq] at h; subst h
      exact ⟨hd, fun hs => agree_setS _ _ _ _ _ (fun _ => ⟨rfl, rfl, rfl, rfl, rfl⟩) (hag hs)⟩
    · cases h
  | leaveRead i =>
    simp only [step] at h
    split at h
    · simp only [Option.some.injEq] at h; subst h
      exact ⟨hd, fun hs => agree_setS _ _ _ _ _ (fun _ => ⟨rfl, rfl, rfl, rfl, rfl⟩) (hag hs)⟩
    · cases h
  | endTransfer i =>
    simp only [step] at h
    split at h
    · rename_i id d hi
      split at h
      · rename_i x hx
        split at h
        · rename_i hend
          simp only [Option.some.injEq] at h; subst h
          refine ⟨hd, fun hs => ?_⟩
          have hag := hag hs
          obtain ⟨hxm, hxi⟩ := find_some s.streams id x hx
          have hxa := hag.a x hxm
          simp only [Stream.endable, hxa.1, hxa.2, Bool.or_false, Bool.false_or, Bool.and_eq_true, Bool.not_eq_true'] at hend
          refine agree_setS _ _ _ _ _ (fun _ => ⟨rfl, rfl, rfl, rfl, rfl⟩) ?_
          refine ⟨hag.a, ?_, ?_, hag.d, ?_⟩
          · intro y hy j c dd hj hc
            rcases get_cl s i j c _ _ d dd hi hj with ⟨_, hcc, _⟩ | ⟨_, hj'⟩
            · rw [hcc] at hc; cases hc
            · exact hag.b y hy j c dd hj' hc
          · intro y hy hno
            apply hag.c y hy
            intro j c dd hj hc
            by_cases hji : j = i
            · subst hji
              rw [hi] at hj; simp only [Option.some.injEq, Prod.mk.injEq] at hj
              rw [← hj.1] at hc; cases hc
            · refine hno j c dd ?_ hc
              rw [St.cl, get_modify, if_neg (fun h => hji h.symm)]; exact hj
          · intro y hy j c dd hj hc
            rcases get_cl s i j c _ _ d dd hi hj with ⟨_, hcc, _⟩ | ⟨_, hj'⟩
            · rw [hcc] at hc
              simp only [endedId, Option.some.injEq] at hc
              have hy' := find_of_mem s.streams hids.nodup y hy
              rw [← hc, hx] at hy'
              simp only [Option.some.injEq] at hy'
              rw [← hy']; exact ⟨hend.2.1, hend.2.2⟩
            · exact hag.e y hy j c dd hj' hc
        · cases h
      · cases h
    · cases h
  | delete i =>
    simp only [step] at h
    split at h
    · rename_i id d hi
      simp only [Option.some.injEq] at h; subst h
      refine ⟨hd, fun hs => ?_⟩
      simp only at hs
      simp only [hs]
      have hag := hag hs
      obtain ⟨x, hx, h1, _⟩ := hids.own i _ d id hi rfl
      have he := hag.e x hx i _ d hi (by rw [h1]; rfl)
      have hv : v id = (false, false) := by
        rw [← h1, hag.c x hx ?_, he.1, he.2]
        intro j c dd hj hc
        have := hids.uniq j i c _ dd d id hj hi (h1 ▸ unsent_holds c _ hc) rfl
        subst this
        rw [hi] at hj; simp only [Option.some.injEq, Prod.mk.injEq] at hj
        rw [← hj.1] at hc; cases hc
      exact agree_release s _ i _ .closed d id hi rfl rfl rfl hv hag
    · cases h
  | call =>
    simp only [step] at h
    split at h
    · split at h <;> (simp only [Option.some.injEq] at h; subst h; exact ⟨hd, hag⟩)
    · cases h
  | callPoke =>
    simp only [step] at h
    split at h
    · simp only [Option.some.injEq] at h; subst h; exact ⟨hd, hag⟩
    · cases h
  | flow id inc =>
    simp only [View.obeys] at ho
    have hv : v id ≠ (false, false) := by intro he; rw [he] at ho; cases ho
    simp only [step] at h
    split at h
    · rename_i hsv
      have hs : s.shutting = false := by rw [hcnt.shut, hsv]; rfl
      have hag := hag hs
      split at h
      · rename_i hf
        exact absurd (hag.d id ((find_none _ _).mp hf)) hv
      · rename_i x hf
        obtain ⟨hxm, hxi⟩ := find_some s.streams id x hf
        have hvx : v id = (x.sub, x.wr) := by
          rw [← hxi]
          refine hag.c x hxm fun j c dd hj hc => hv ?_
          rw [← hxi]; exact (hag.b x hxm j c dd hj hc).1
        split at h
        · simp only [Option.some.injEq] at h; subst h
          refine ⟨hd, fun _ => ?_⟩
          simp only [View.tell]
          split
          · refine agree_ended _ _ _ id _ _ hv (fun _ => ⟨rfl, rfl, rfl, fun _ => rfl, fun h => h⟩) ?_ hag
            intro y hy; rw [hy]
          · exact hag
        · rename_i hsub
          rw [hvx] at ho; exact absurd ho hsub
    · cases h
  | data id len fits =>
    simp only [View.obeys] at ho
    have hv : v id ≠ (false, false) := by intro he; rw [he] at ho; cases ho.1
    simp only [step] at h
    split at h
    · rename_i hsv
      have hs : s.shutting = false := by rw [hcnt.shut, hsv]; rfl
      have hag := hag hs
      split at h
      · rename_i hf
        exact absurd (hag.d id ((find_none _ _).mp hf)) hv
      · rename_i x hf
        obtain ⟨hxm, hxi⟩ := find_some s.streams id x hf
        have hvx : v id = (x.sub, x.wr) := by
          rw [← hxi]
          refine hag.c x hxm fun j c dd hj hc => hv ?_
          rw [← hxi]; exact (hag.b x hxm j c dd hj hc).1
        split at h
        · simp only [Option.some.injEq] at h; subst h
          refine ⟨hd, fun _ => ?_⟩
          simp only [View.tell]
          split
          · refine agree_ended _ _ _ id _ _ hv (fun _ => ⟨rfl, rfl, rfl, fun h => h, fun _ => rfl⟩) ?_ hag
            intro y hy; rw [hy]
          · exact hag
        · rename_i hwr
          refine absurd ⟨?_, ho.2.imp (fun h => h) fun h => ⟨h, (hag.a x hxm).2⟩⟩ hwr
          rw [hvx] at ho; exact ho.1
    · cases h
  | shut =>
    simp only [step] at h
    split at h
    · simp only [Option.some.injEq] at h; subst h; exact ⟨hd, fun hs => by simp at hs⟩
    · cases h
  | shutWaited =>
    simp only [step] at h
    split at h
    · simp only [Option.some.injEq] at h; subst h; exact ⟨hd, hag⟩
    · cases h
  | shutPoke =>
    simp only [step] at h
    split at h
    · simp only [Option.some.injEq] at h; subst h; exact ⟨hd, hag⟩
    · cases h
  | stopAll =>
    simp only [step] at h
    split at h
    · rename_i hsv
      simp only [Option.some.injEq] at h; subst h
      refine ⟨hd, fun hs => ?_⟩
      simp only at hs
      rw [hcnt.shut, hsv] at hs; cases hs
    · cases h
  | joined =>
    simp only [step] at h
    split at h
    · simp only [Option.some.injEq] at h; subst h; exact ⟨hd, hag⟩
    · cases h
  | drainEnd => simp only [step, hd] at h; cases h
  | drainNext => simp only [step, hd] at h; cases h

theorem obeying_agree (a : Nat) (s : St) (v : View) (h : Obeying a s v) : s.drain = [] ∧ (s.shutting = false → Agree s.streams s.clients v) := by
  induction h with
  | init => exact ⟨rfl, fun _ => ⟨by simp [initial], by simp [initial], by simp [initial], fun _ _ => rfl, by simp [initial]⟩⟩
  | step s v l s' hr ho hs ih =>
    have hre := obeying_reachable a s v hr
    exact agree_step a s v l s' (count_reachable a [] s hre) (ids_reachable a [] ⟨by simp, by simp⟩ s hre) ih.1 ho hs ih.2

/-- C108: a program which follows the protocol isn't aborted by the origin service, however the connections' ends behave: the service fails only if there are too many accept calls. -/
theorem obedient_not_aborted (a : Nat) (s : St) (v : View) (h : Obeying a s v) (l : Label) (ho : v.obeys l) (s' : St) (hs : step s l = some s') (hf : s'.sv = .failed) :
    s.sv = .failed ∨ (l = .call ∧ 2147483647 ≤ s.accepting) := by
  have hre := obeying_reachable a s v h
  have hcnt := count_reachable a [] s hre
  have hag := (obeying_agree a s v h).2
  cases l with
  | call =>
    simp only [step] at hs
    split at hs
    · split at hs
      · simp only [Option.some.injEq] at hs; subst hs; cases hf
      · rename_i hm; exact .inr ⟨rfl, by have : maxAccepting = 2147483647 := by decide
                                         omega⟩
    · cases hs
  | flow id inc =>
    simp only [View.obeys] at ho
    have hv : v id ≠ (false, false) := by intro he; rw [he] at ho; cases ho
    simp only [step] at hs
    split at hs
    · rename_i hsv
      have hsh : s.shutting = false := by rw [hcnt.shut, hsv]; rfl
      have hag := hag hsh
      split at hs
      · rename_i hn
        exact absurd (hag.d id ((find_none _ _).mp hn)) hv
      · rename_i x hx
        obtain ⟨hxm, hxi⟩ := find_some s.streams id x hx
        have hvx : v id = (x.sub, x.wr) := by
          rw [← hxi]
          refine hag.c x hxm fun j c dd hj hc => hv ?_
          rw [← hxi]; exact (hag.b x hxm j c dd hj hc).1
        split at hs
        · simp only [Option.some.injEq] at hs; subst hs; exact .inl hf
        · rename_i hsub
          rw [hvx] at ho; exact absurd ho hsub
    · cases hs
  | data id len fits =>
    simp only [View.obeys] at ho
    have hv : v id ≠ (false, false) := by intro he; rw [he] at ho; cases ho.1
    simp only [step] at hs
    split at hs
    · rename_i hsv
      have hsh : s.shutting = false := by rw [hcnt.shut, hsv]; rfl
      have hag := hag hsh
      split at hs
      · rename_i hn
        exact absurd (hag.d id ((find_none _ _).mp hn)) hv
      · rename_i x hx
        obtain ⟨hxm, hxi⟩ := find_some s.streams id x hx
        have hvx : v id = (x.sub, x.wr) := by
          rw [← hxi]
          refine hag.c x hxm fun j c dd hj hc => hv ?_
          rw [← hxi]; exact (hag.b x hxm j c dd hj hc).1
        split at hs
        · simp only [Option.some.injEq] at hs; subst hs; exact .inl hf
        · rename_i hwr
          refine absurd ⟨?_, ho.2.imp (fun h => h) fun h => ⟨h, (hag.a x hxm).2⟩⟩ hwr
          rw [hvx] at ho; exact ho.1
    · cases hs
  | shut | shutWaited | shutPoke | stopAll | joined | callPoke =>
    simp only [step] at hs
    split at hs
    · simp only [Option.some.injEq] at hs; subst hs; cases hf
    · cases hs
  | connect | ctxDone i | close | loopEnd => simp only [step, Option.some.injEq] at hs; subst hs; exact .inl hf
  | wake i | giveUp i | send i | wake2 i | cancel i =>
    simp only [step] at hs
    split at hs
    · split at hs
      · simp only [Option.some.injEq] at hs; subst hs; exact .inl hf
      · cases hs
    · cases hs
  | look2 i | poke i | begin i | enterRead i | leaveRead i | delete i =>
    simp only [step] at hs
    split at hs
    · simp only [Option.some.injEq] at hs; subst hs; exact .inl hf
    · cases hs
  | look i =>
    simp only [step] at hs
    split at hs
    · split at hs
      · simp only [Option.some.injEq] at hs; subst hs; exact .inl hf
      · split at hs <;> (simp only [Option.some.injEq] at hs; subst hs; exact .inl hf)
    · cases hs
  | finish i =>
    simp only [step] at hs
    split at hs
    · simp only [Option.some.injEq] at hs; subst hs; exact .inl hf
    · simp only [Option.some.injEq] at hs; subst hs; exact .inl hf
    · cases hs
  | endTransfer i =>
    simp only [step] at hs
    split at hs
    · split at hs
      · split at hs
        · simp only [Option.some.injEq] at hs; subst hs; exact .inl hf
        · cases hs
      · cases hs
    · cases hs
  | drainEnd =>
    simp only [step] at hs
    split at hs
    · split at hs
      · cases hs
      · split at hs
        · split at hs
          · simp only [Option.some.injEq] at hs; subst hs; exact .inl hf
          · cases hs
        · cases hs
    · cases hs
  | drainNext =>
    simp only [step] at hs
    split at hs
    · split at hs
      · simp only [Option.some.injEq] at hs; subst hs; exact .inl hf
      · cases hs
    · cases hs

/-- A connection accepted, used, ended from both sides, and its id used again, while the program follows the protocol. -/
def session : List Label :=
  [.call, .callPoke, .connect, .wake 0, .look 0, .send 0, .finish 0, .poke 0, .begin 0, .flow 0 100, .data 0 5 true, .flow 0 0, .data 0 0 true, .endTransfer 0, .delete 0,
   .call, .callPoke, .connect, .wake 1, .look 1, .send 1, .finish 1, .poke 1, .data 0 5 true]

example : ((run (initial 0 []) session).map fun s => (s.sv, s.replies, s.clients)) = some (.serving, [0, 0], [(.closed, false), (.opened 0, false)]) := by decide +kernel

/-- C108: that doesn't hold of a restored instance: a program which had an open stream and sends to it is aborted, for whatever data, … -/
theorem restored_write_aborts_refuted (a id n : Nat) (fits : Bool) : ∃ s', step (initial a [⟨id, true, true, true, false, false, false⟩]) (.data id (n + 1) fits) = some s' ∧ s'.sv = .failed :=
  ⟨_, by simp [step, initial, findS]; rfl, rfl⟩

/-- … and if it has first ended its subscription, then also ending its data aborts it: the stream is drained and forgotten. -/
theorem restored_close_aborts_refuted (a id : Nat) : ∃ s', run (initial a [⟨id, true, true, true, false, false, false⟩]) [.flow id 0, .drainEnd, .drainNext, .data id 0 true] = some s' ∧ s'.sv = .failed :=
  ⟨_, by simp [run, step, initial, findS, setS, delS, Stream.endable]; rfl, rfl⟩

/-- C108: when Connector.Close has been called, every blocked Connect call can return nil (lines 208-209, 231-232): no other party is needed. -/
theorem close_releases (s : St) (i : Nat) (d : Bool) (hc : s.closed = true) :
    (s.clients[i]? = some (.waiting, d) → ∃ s', step s (.giveUp i) = some s' ∧ s'.clients[i]? = some (.refused, d)) ∧
    (∀ id, s.clients[i]? = some (.replying id, d) → ∃ s', run s [.cancel i, .finish i, .poke i] = some s' ∧ s'.clients[i]? = some (.refused, d)) := by
  constructor
  · intro hi
    have e : step s (.giveUp i) = some { s with clients := s.cl i .refused } := by simp [step, hi, hc]
    exact ⟨_, e, by simp [St.cl, hi]⟩
  · intro id hi
    have e : run s [.cancel i, .finish i, .poke i] = some { s with streams := delS s.streams id, replying := false, token := true, clients := ((s.clients.modify i fun x => (.finishing id true, x.2)).modify i fun x => (.poking id true, x.2)).modify i fun x => (.refused, x.2) } := by
      simp [run, step, hi, hc, St.cl]
    exact ⟨_, e, by simp [hi]⟩

/-- … but it isn't so that calls after Close return nil, as its documentation says: if the program has called for a connection, a later Connect call may establish one (`select` chooses any ready case). -/
theorem closed_connects_refuted : ∃ ls s, run (initial 0 []) (.close :: ls) = some s ∧ s.clients = [(.opened 0, false)] ∧ s.replies = [0] :=
  ⟨[.call, .callPoke, .connect, .wake 0, .look 0, .send 0, .finish 0, .poke 0], _, rfl, by decide +kernel, by decide +kernel⟩

/-- Accept calls and connections, one after another. -/
def connectAll : Nat → List Label
  | 0 => []
  | n + 1 => connectAll n ++ [.call, .callPoke, .connect, .wake n, .look n, .send n, .finish n, .poke n]

def openN (n : Nat) : St :=
  ⟨0, false, false, decide (0 < n), false, true, (List.range n).map fresh, (List.range n).map fun i => (.opened i, false), .serving, [], false, n, List.range n⟩

theorem findS_range (n k : Nat) : (findS ((List.range n).map fresh) k).isSome = decide (k < n) := by
  by_cases h : k < n
  · simp only [h, decide_true, findS, List.find?_isSome]
    exact ⟨fresh k, List.mem_map_of_mem (List.mem_range.mpr h), by simp [fresh]⟩
  · simp only [h, decide_false]
    rw [← Bool.not_eq_true]
    simp only [findS, List.find?_isSome]
    rintro ⟨x, hx, hxk⟩
    obtain ⟨m, hm, rfl⟩ := List.mem_map.mp hx
    have hxk : m = k := of_decide_eq_true hxk
    have := List.mem_range.mp hm
    omega

theorem freeFrom_range (n : Nat) : ∀ fuel k, k ≤ n → n - k < fuel → freeFrom ((List.range n).map fresh) fuel k = n
  | 0, k, _, h => by omega
  | fuel + 1, k, hk, h => by
    unfold freeFrom
    rw [findS_range]
    by_cases hkn : k < n
    · simp only [hkn, decide_true, if_true]
      exact freeFrom_range n fuel (k + 1) (by omega) (by omega)
    · simp only [hkn, decide_false]
      simp; omega

theorem freeId_range (n : Nat) : freeId ((List.range n).map fresh) = n := by
  unfold freeId
  exact freeFrom_range n _ 0 (by omega) (by simp)

theorem modify_last {α : Type} (l : List α) (x : α) (n : Nat) (f : α → α) (h : l.length = n) : (l ++ [x]).modify n f = l ++ [f x] := by
  subst h
  induction l with
  | nil => rfl
  | cons a l ih => simpa using ih

theorem openN_succ (n : Nat) : run (openN n) [.call, .callPoke, .connect, .wake n, .look n, .send n, .finish n, .poke n] = some (openN (n + 1)) := by
  have hl : ((List.range n).map fun i => (Cl.opened i, false)).length = n := by simp
  have hm : ∀ (x : Cl × Bool) f, (((List.range n).map fun i => (Cl.opened i, false)) ++ [x]).modify n f = ((List.range n).map fun i => (Cl.opened i, false)) ++ [f x] := fun x f => modify_last _ x n f hl
  have hg : ∀ x : Cl × Bool, (((List.range n).map fun i => (Cl.opened i, false)) ++ [x])[n]? = some x := by
    intro x
    rw [List.getElem?_append_right (by simp)]
    simp
  simp [run, step, openN, maxAccepting, hg, St.cl, hm, freeId_range, List.range_succ]

/-- C108: a Connector isn't limited to MaxConns connections (connector.go:30, 44): for every n there's a history with n connections open at the same time, each with a stream and its buffer. -/
theorem max_conns_refuted (n : Nat) : run (initial 0 []) (connectAll n) = some (openN n) ∧ (openN n).clients.length = n ∧ (∀ c ∈ (openN n).clients, ∃ id, c = (.opened id, false)) ∧ (openN n).streams.length = n := by
  refine ⟨?_, by simp [openN], ?_, by simp [openN]⟩
  · induction n with
    | zero => rfl
    | succ n ih => exact (run_append _ _ _ _ ih).trans (openN_succ n)
  · intro c hc
    simp only [openN, List.mem_map] at hc
    obtain ⟨i, _, rfl⟩ := hc
    exact ⟨i, rfl⟩

end Gate.Origin
