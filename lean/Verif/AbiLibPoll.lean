import Verif.AbiLibMore
/-
C100: what poll_oneoff does.
-/
namespace Gate.AbiLib
open Gate Gate.ImageFile Gate.Rt

/-- A userdata field of a subscription or an event. -/
abbrev userdata (s : St) (ea : Nat) : Nat := peek s 8 ea

/-- The number of events at an address, all of which have such userdata. -/
def Events (s : St) (out j : Nat) (P : Nat → Prop) : Prop := ∀ k, k < j → P (userdata s (out + 32 * k))

/-- The userdata of combined subscriptions. -/
structure Kept (v : PollVars) (P : Nat → Prop) : Prop where
  reading : v.reading ≠ 0 → P v.readUserdata
  writing : v.writing ≠ 0 → P v.writeUserdata

theorem peek_lt8 (s : St) (ea : Nat) : peek s 8 ea < 256 ^ 8 := by
  have := unle_lt (ImageFile.read s.space (s.base + ea) 8)
  rw [length_read] at this
  exact this

theorem peek_st (n ea v : Nat) (s s' : St) (u : Unit) (h : st n ea v s = .ok u s') : peek s' n ea = v % 256 ^ n := by
  obtain ⟨e, _⟩ := st_ok _ _ _ _ _ _ h
  rw [e, peek_write]

theorem Changed.peek {s s' : St} {lo hi : Nat} (h : Changed s s' lo hi) (n ea : Nat) (hd : ea + n ≤ lo ∨ hi ≤ ea) : peek s' n ea = peek s n ea :=
  peek_same s s' h.base n ea fun x h1 h2 => h.same x (by omega)

theorem putEvent_userdata (out u e t n : Nat) (s s' : St) (q : Unit) (hu : u < 256 ^ 8) (h : putEvent out u e t n s = .ok q s') : userdata s' out = u := by
  unfold putEvent at h
  obtain ⟨_, s1, g1, h⟩ := bind_ok _ _ _ _ _ h
  obtain ⟨_, s2, g2, h⟩ := bind_ok _ _ _ _ _ h
  obtain ⟨_, s3, g3, h⟩ := bind_ok _ _ _ _ _ h
  obtain ⟨_, s4, g4, h⟩ := bind_ok _ _ _ _ _ h
  unfold userdata
  rw [(changed_st _ _ _ _ _ _ h).1.peek 8 out (by omega), (changed_st _ _ _ _ _ _ g4).1.peek 8 out (by omega), (changed_st _ _ _ _ _ _ g3).1.peek 8 out (by omega),
    (changed_st _ _ _ _ _ _ g2).1.peek 8 out (by omega)]
  rw [← Nat.add_zero out, peek_st _ _ _ _ _ _ g1]
  exact Nat.mod_eq_of_lt hu

theorem step_zero {s s' : St} {v v' : PollVars} {j : Nat} (h : Step s s' v v' j) (hv : v'.nout = v.nout) : j = 0 := by have := h.nout; omega

theorem pollFd_ev (sub t fd : Nat) (v v' : PollVars) (s s' : St) (P : Nat → Prop) (hP : P (userdata s sub)) (hk : Kept v P) (h : pollFd sub t fd v s = .ok v' s') :
    Kept v' P ∧ (v'.nout = v.nout ∨ P (userdata s' v.out)) := by
  unfold pollFd at h
  split at h
  · split at h
    · obtain ⟨u, s1, g1, h⟩ := bind_ok _ _ _ _ _ h
      obtain ⟨hu, rfl, _⟩ := ld_ok _ _ _ _ _ g1
      obtain ⟨e1, e2⟩ := pure_ok _ _ _ _ h
      rw [e1]
      exact ⟨⟨fun _ => by show P u; rw [hu]; exact hP, hk.writing⟩, .inl rfl⟩
    · obtain ⟨u, s1, g1, h⟩ := bind_ok _ _ _ _ _ h
      obtain ⟨hu, rfl, _⟩ := ld_ok _ _ _ _ _ g1
      obtain ⟨e1, e2⟩ := pure_ok _ _ _ _ h
      rw [e1]
      exact ⟨⟨hk.reading, fun _ => by show P u; rw [hu]; exact hP⟩, .inl rfl⟩
  · split at h
    · obtain ⟨u, s1, g1, h⟩ := bind_ok _ _ _ _ _ h
      obtain ⟨hu, rfl, _⟩ := ld_ok _ _ _ _ _ g1
      clear g1
      obtain ⟨_, s2, g2, h⟩ := bind_ok _ _ _ _ _ h
      obtain ⟨_, s3, g3, h⟩ := bind_ok _ _ _ _ _ h
      obtain ⟨e1, e2⟩ := pure_ok _ _ _ _ h
      rw [e1, e2]
      refine ⟨⟨hk.reading, hk.writing⟩, .inr ?_⟩
      have hb : u < 256 ^ 8 := by rw [hu]; exact peek_lt8 s _
      have e : userdata s3 v.out = u := by
        unfold userdata
        rw [(changed_st _ _ _ _ _ _ g3).1.peek 8 v.out (by omega)]
        rw [← Nat.add_zero v.out, peek_st _ _ _ _ _ _ g2]
        exact Nat.mod_eq_of_lt hb
      rw [e, hu]
      exact hP
    · obtain ⟨e1, e2⟩ := pure_ok _ _ _ _ h
      rw [e1]
      exact ⟨hk, .inl rfl⟩

theorem pollStd_ev (sub t fd : Nat) (v v' : PollVars) (s s' : St) (P : Nat → Prop) (hP : P (userdata s sub)) (hk : Kept v P) (h : pollStd sub t fd v s = .ok v' s') :
    Kept v' P ∧ (v'.nout = v.nout ∨ P (userdata s' v.out)) := by
  unfold pollStd at h
  split at h
  · obtain ⟨u, s1, g1, h⟩ := bind_ok _ _ _ _ _ h
    obtain ⟨hu, rfl, _⟩ := ld_ok _ _ _ _ _ g1
    clear g1
    obtain ⟨_, s2, g2, h⟩ := bind_ok _ _ _ _ _ h
    obtain ⟨e1, e2⟩ := pure_ok _ _ _ _ h
    rw [e1, e2]
    refine ⟨⟨hk.reading, hk.writing⟩, .inr ?_⟩
    rw [putEvent_userdata _ _ _ _ _ _ _ _ (by rw [hu]; exact peek_lt8 s _) g2, hu]
    exact hP
  · obtain ⟨e1, e2⟩ := pure_ok _ _ _ _ h
    rw [e1]
    exact ⟨hk, .inl rfl⟩

/-- What handling one subscription does. -/
theorem pollSub_ok (sub t fd : Nat) (ht : t = 1 ∨ t = 2) (v v1 v2 : PollVars) (hv : v.Ok) (hn : v.nout + 1 < w32) (s s1 s2 : St) (hs : Rt.Inv s) (g1 : pollFd sub t fd v s = .ok v1 s1)
    (g2 : pollStd sub t fd v1 s1 = .ok v2 s2) :
    ∃ j, Step s s2 v v2 j ∧ v2.Ok ∧ j + v2.kinds ≤ 1 + v.kinds ∧ j ≤ 1 ∧ ∀ P : Nat → Prop, P (userdata s sub) → Kept v P → Kept v2 P ∧ Events s2 v.out j P := by
  obtain ⟨j1, st1, ok1, k1, d1, d4⟩ := pollFd_ok sub t fd ht v v1 hv hn s s1 hs g1
  have hs1 : Rt.Inv s1 := by rw [st1.changed.eq]; exact inv_space hs _
  by_cases c : fd = 1 ∨ fd = 2
  · obtain ⟨z, e⟩ := d1 c
    have hss : s1 = s := by
      have : pollFd sub t fd v = pure v := by
        unfold pollFd
        rw [if_neg (by omega), if_neg (by omega)]
      rw [this] at g1
      exact (pure_ok _ _ _ _ g1).2
    rw [hss, e] at g2
    obtain ⟨j2, st2, ok2, k2, d2, d3⟩ := pollStd_ok sub t fd v v2 hv hn s s2 hs g2
    refine ⟨j2, st2, ok2, by omega, d2, fun P hP hk => ?_⟩
    obtain ⟨a1, a2⟩ := pollStd_ev sub t fd v v2 s s2 P hP hk g2
    refine ⟨a1, fun k hj => ?_⟩
    have : k = 0 := by omega
    subst this
    rcases a2 with a2 | a2
    · have := step_zero st2 a2; omega
    · exact a2
  · have e : pollStd sub t fd v1 = pure v1 := by
      unfold pollStd
      rw [if_neg (fun h => c h.1)]
    rw [e] at g2
    obtain ⟨e1, e2⟩ := pure_ok _ _ _ _ g2
    rw [e1, e2]
    refine ⟨j1, st1, ok1, k1, d4, fun P hP hk => ?_⟩
    obtain ⟨a1, a2⟩ := pollFd_ev sub t fd v v1 s s1 P hP hk g1
    refine ⟨a1, fun k hj => ?_⟩
    have : k = 0 := by omega
    subst this
    rcases a2 with a2 | a2
    · have := step_zero st1 a2; omega
    · exact a2

theorem sub_no_wrap (s : St) (hs : Rt.Inv s) (sub : Nat) (h : sub + 9 ≤ s.pages * 65536) : (sub + 56) % w32 = sub + 56 := by
  have h1 := hs.pages
  have h2 := hs.limit
  exact Nat.mod_eq_of_lt (by simp only [w32]; omega)

theorem pollLoop_ev (n sub : Nat) (v v' : PollVars) (hv : v.Ok) (hn : v.nout + n < w32) (s s' : St) (hs : Rt.Inv s) (P : Nat → Prop) (hP : ∀ i, i < n → P (userdata s (sub + 56 * i)))
    (hk : Kept v P) (hd : (∀ s ea, P (userdata s ea)) ∨ sub + 56 * n ≤ v.out ∨ v.out + 32 * n ≤ sub) (h : pollLoop n sub v s = .ok (.inr v') s') :
    ∃ j, j ≤ n ∧ Step s s' v v' j ∧ Events s' v.out j P ∧ Kept v' P := by
  induction n generalizing sub v s with
  | zero =>
    unfold pollLoop at h
    obtain ⟨e1, e2⟩ := pure_ok _ _ _ _ h
    cases e1; subst e2
    exact ⟨0, by omega, ⟨rfl, rfl, Changed.refl _ _ _⟩, fun k hk => absurd hk (by omega), hk⟩
  | succ n ih =>
    unfold pollLoop at h
    obtain ⟨t, s1, g1, h⟩ := bind_ok _ _ _ _ _ h
    obtain ⟨_, rfl, hb⟩ := ld_ok _ _ _ _ _ g1
    split at h
    · obtain ⟨e1, _⟩ := pure_ok _ _ _ _ h
      cases e1
    · split at h
      · simp [rtStop, Rt.exit] at h
      · obtain ⟨fd, s1, g1, h⟩ := bind_ok _ _ _ _ _ h
        obtain ⟨_, rfl, _⟩ := ld_ok _ _ _ _ _ g1
        obtain ⟨v1, s1, g1, h⟩ := bind_ok _ _ _ _ _ h
        obtain ⟨v2, s2, g2, h⟩ := bind_ok _ _ _ _ _ h
        obtain ⟨j, stp, okp, kp, jp, ev⟩ := pollSub_ok sub t fd (by omega) v v1 v2 hv (by omega) s s1 s2 hs g1 g2
        obtain ⟨kept, ev⟩ := ev P (hP 0 (by omega)) hk
        have hs2 : Rt.Inv s2 := by rw [stp.changed.eq]; exact inv_space hs _
        have w := sub_no_wrap s hs sub (by omega)
        have o := stp.out
        rw [w] at h
        have hP2 : ∀ i, i < n → P (userdata s2 (sub + 56 + 56 * i)) := by
          intro i hi
          rcases hd with hd | hd
          · exact hd _ _
          unfold userdata
          rw [stp.changed.peek 8 _ (by omega)]
          have := hP (i + 1) (by omega)
          have e : sub + 56 * (i + 1) = sub + 56 + 56 * i := by omega
          rw [e] at this
          exact this
        obtain ⟨j', hj', st', ev', kept'⟩ := ih _ v2 okp (by rw [stp.nout]; omega) s2 hs2 hP2 kept (hd.imp id fun hd => by omega) h
        refine ⟨j + j', by omega, ⟨by rw [st'.nout, stp.nout]; omega, by rw [st'.out, o]; omega, ?_⟩, fun k hk => ?_, kept'⟩
        · exact stp.changed.trans st'.changed (by omega) (by omega) (by omega) (by omega)
        · rcases Nat.lt_or_ge k j with c | c
          · unfold userdata
            rw [st'.changed.peek 8 _ (by omega)]
            exact ev k c
          · have := ev' (k - j) (by omega)
            have e : v2.out + 32 * (k - j) = v.out + 32 * k := by omega
            rw [e] at this
            exact this

theorem pollLoop_inl (n sub : Nat) (v : PollVars) (hv : v.Ok) (hn : v.nout + n < w32) (s s' : St) (hs : Rt.Inv s) (e : Nat) (h : pollLoop n sub v s = .ok (.inl e) s') :
    e = 28 ∧ ∃ j, j ≤ n ∧ Changed s s' v.out (v.out + 32 * j) := by
  induction n generalizing sub v s with
  | zero =>
    unfold pollLoop at h
    obtain ⟨e1, e2⟩ := pure_ok _ _ _ _ h
    cases e1
  | succ n ih =>
    unfold pollLoop at h
    obtain ⟨t, s1, g1, h⟩ := bind_ok _ _ _ _ _ h
    obtain ⟨_, rfl, hb⟩ := ld_ok _ _ _ _ _ g1
    split at h
    · obtain ⟨e1, e2⟩ := pure_ok _ _ _ _ h
      cases e1
      subst e2
      exact ⟨rfl, 0, by omega, Changed.refl _ _ _⟩
    · split at h
      · simp [rtStop, Rt.exit] at h
      · obtain ⟨fd, s1, g1, h⟩ := bind_ok _ _ _ _ _ h
        obtain ⟨_, rfl, _⟩ := ld_ok _ _ _ _ _ g1
        obtain ⟨v1, s1, g1, h⟩ := bind_ok _ _ _ _ _ h
        obtain ⟨v2, s2, g2, h⟩ := bind_ok _ _ _ _ _ h
        obtain ⟨j, stp, okp, kp, jp, _⟩ := pollSub_ok sub t fd (by omega) v v1 v2 hv (by omega) s s1 s2 hs g1 g2
        have hs2 : Rt.Inv s2 := by rw [stp.changed.eq]; exact inv_space hs _
        have o := stp.out
        obtain ⟨e1, j', hj', c⟩ := ih _ v2 okp (by rw [stp.nout]; omega) s2 hs2 h
        exact ⟨e1, j + j', by omega, stp.changed.trans c (by omega) (by omega) (by omega) (by omega)⟩

theorem pollEvent_ok (r e u t : Nat) (hu : r &&& e ≠ 0 → u < 256 ^ 8) (v v' : PollVars) (hn : r &&& e ≠ 0 → v.nout + 1 < w32) (s s' : St) (hs : Rt.Inv s) (h : pollEvent r e u t v s = .ok v' s') :
    ∃ j, j = (if r &&& e ≠ 0 then 1 else 0) ∧ Step s s' v v' j ∧ Events s' v.out j (· = u) ∧ v'.writeUserdata = v.writeUserdata := by
  unfold pollEvent at h
  split at h
  · rename_i hc
    obtain ⟨_, s2, g2, h⟩ := bind_ok _ _ _ _ _ h
    obtain ⟨e1, e2⟩ := pure_ok _ _ _ _ h
    obtain ⟨c, hb⟩ := changed_putEvent _ _ _ _ _ _ _ _ g2
    have w := out_no_wrap s hs v.out (by omega)
    have w' := nout_no_wrap v.nout (hn hc)
    rw [e1, e2]
    refine ⟨1, by rw [if_pos hc], ⟨w', by rw [Nat.mul_one]; exact w, c⟩, fun k hk => ?_, rfl⟩
    have : k = 0 := by omega
    subst this
    exact putEvent_userdata _ _ _ _ _ _ _ _ (hu hc) g2
  · rename_i hc
    obtain ⟨e1, e2⟩ := pure_ok _ _ _ _ h
    rw [e1, e2]
    exact ⟨0, by rw [if_neg hc], ⟨rfl, rfl, Changed.refl _ _ _⟩, fun k hk => absurd hk (by omega), rfl⟩

theorem rtPoll_state (i o r : Nat) (s s' : St) (h : rtPoll i o s = .ok r s') : s' = { s with kern := s'.kern } := by
  simp only [rtPoll] at h
  repeat' split at h
  all_goals first | (cases h; done) | (cases h; rfl) | (simp [Rt.exit] at h)

/-- What the function does after it has looked at the subscriptions. -/
theorem pollFinish_ok (p : Nat) (v : PollVars) (hv : v.Ok) (hn : v.nout + v.kinds < w32) (hu : Kept v (· < 256 ^ 8)) (s s' : St) (hs : Rt.Inv s) (r : Nat)
    (h : pollFinish p v s = .ok r s') :
    r = 0 ∧ ∃ j s1, j ≤ v.kinds ∧ peek s' 4 p = v.nout + j ∧ s1 = { s with kern := s1.kern, space := s1.space } ∧
      (∀ x, x < v.out ∨ v.out + 32 * j ≤ x → s1.space (s.base + x) = s.space (s.base + x)) ∧
      Changed s1 s' p (p + 4) ∧ ∀ P, Kept v P → Events s1 v.out j P := by
  unfold pollFinish at h
  obtain ⟨q, s1, g1, h⟩ := bind_ok _ _ _ _ _ h
  obtain ⟨v1, s2, g2, h⟩ := bind_ok _ _ _ _ _ h
  obtain ⟨v2, s3, g3, h⟩ := bind_ok _ _ _ _ _ h
  obtain ⟨_, s4, g4, h⟩ := bind_ok _ _ _ _ _ h
  obtain ⟨e1, e2⟩ := pure_ok _ _ _ _ h
  have e0 := rtPoll_state _ _ _ _ _ g1
  have res := (poll_result .x86 s s1 v.reading v.writing q hv.reading hv.writing g1).1
  have hs1 : Rt.Inv s1 := by rw [e0]; exact ⟨hs.base, hs.limit, hs.pages, hs.acc, hs.avail⟩
  have hk1 : (v.reading = 0 ∧ q &&& 1 = 0) ∨ (v.reading = 1) := by
    rcases hv.reading with h0 | h0
    · refine .inl ⟨h0, ?_⟩
      rw [h0] at res
      rcases res with res | ⟨_, res⟩ | ⟨res, _⟩ | ⟨_, res, _⟩
      · rw [res]; decide
      · cases res
      · rw [res]; decide
      · cases res
    · exact .inr h0
  have hk2 : (v.writing = 0 ∧ q &&& 4 = 0) ∨ (v.writing = 4) := by
    rcases hv.writing with h0 | h0
    · refine .inl ⟨h0, ?_⟩
      rw [h0] at res
      rcases res with res | ⟨res, _⟩ | ⟨_, res⟩ | ⟨_, _, res⟩
      · rw [res]; decide
      · rw [res]; decide
      · cases res
      · cases res
    · exact .inr h0
  clear res
  have hA : (if q &&& 1 ≠ 0 then 1 else 0) ≤ (if v.reading = 0 then 0 else 1) := by
    rcases hk1 with ⟨a1, a2⟩ | a1
    · simp [a1, a2]
    · rw [a1]; split <;> simp
  have hB : (if q &&& 4 ≠ 0 then 1 else 0) ≤ (if v.writing = 0 then 0 else 1) := by
    rcases hk2 with ⟨a1, a2⟩ | a1
    · simp [a1, a2]
    · rw [a1]; split <;> simp
  have hu1 : q &&& 1 ≠ 0 → v.readUserdata < 256 ^ 8 := fun hc => hu.reading fun h0 => by rw [if_pos hc, if_pos h0] at hA; omega
  have hu2 : q &&& 4 ≠ 0 → v.writeUserdata < 256 ^ 8 := fun hc => hu.writing fun h0 => by rw [if_pos hc, if_pos h0] at hB; omega
  have hkd : v.kinds = (if v.reading = 0 then 0 else 1) + (if v.writing = 0 then 0 else 1) := rfl
  have hn1 : q &&& 1 ≠ 0 → v.nout + 1 < w32 := by intro hc; rw [if_pos hc] at hA; omega
  obtain ⟨j1, f1, st1, ev1, wu⟩ := pollEvent_ok q 1 v.readUserdata 1 hu1 v v1 hn1 s1 s2 hs1 g2
  have hs2 : Rt.Inv s2 := by rw [st1.changed.eq]; exact inv_space hs1 _
  rw [wu] at g3
  have hn2 : q &&& 4 ≠ 0 → v1.nout + 1 < w32 := by intro hc; rw [if_pos hc] at hB; rw [st1.nout]; omega
  obtain ⟨j2, f2, st2, ev2, _⟩ := pollEvent_ok q 4 v.writeUserdata 2 hu2 v1 v2 hn2 s2 s3 hs2 g3
  have hj : j1 + j2 ≤ v.kinds := by omega
  have o1 := st1.out
  have c := st1.changed.trans st2.changed (lo := v.out) (hi := v.out + 32 * (j1 + j2)) (by omega) (by omega) (by omega) (by omega)
  refine ⟨e1, j1 + j2, s3, hj, ?_, ?_, ?_, ?_, ?_⟩
  · rw [e2, peek_st _ _ _ _ _ _ g4, st2.nout, st1.nout, Nat.add_assoc]
    exact Nat.mod_eq_of_lt (Nat.lt_of_le_of_lt (Nat.add_le_add_left hj _) hn)
  · rw [c.eq, e0]
  · intro x hx
    have hb : s1.base = s.base := by rw [e0]
    rw [← hb, c.same x hx, hb, e0]
  · rw [e2]; exact (changed_st _ _ _ _ _ _ g4).1
  · intro P hP k hk
    rcases Nat.lt_or_ge k j1 with hc | hc
    · unfold userdata
      rw [st2.changed.peek 8 _ (by omega)]
      have h1 : q &&& 1 ≠ 0 := by intro h0; rw [if_neg (by simp [h0])] at f1; omega
      have h2 : v.reading ≠ 0 := by intro h0; rw [if_pos h1, if_pos h0] at hA; omega
      have := ev1 k hc
      unfold userdata at this
      rw [this]
      exact hP.reading h2
    · have h1 : q &&& 4 ≠ 0 := by intro h0; rw [if_neg (by simp [h0])] at f2; omega
      have h2 : v.writing ≠ 0 := by intro h0; rw [if_pos h1, if_pos h0] at hB; omega
      have := ev2 (k - j1) (by omega)
      have e : v1.out + 32 * (k - j1) = v.out + 32 * k := by omega
      rw [e] at this
      rw [this]
      exact hP.writing h2

theorem ok_init (out : Nat) : PollVars.Ok { out := out } := ⟨.inl rfl, .inl rfl⟩
theorem kept_init (out : Nat) (P : Nat → Prop) : Kept { out := out } P := ⟨fun h => absurd rfl h, fun h => absurd rfl h⟩

/-- What poll_oneoff does when it returns. If it succeeds, it has stored the number of events, which isn't larger than the number of subscriptions, and every event has the userdata of one of the
subscriptions (if the places don't overlap). Nothing but the events and their number has been changed in memory. If it fails, the error is EINVAL. -/
theorem poll_oneoff (a : Arch) (rtTime : Nat → M Nat) (ht : ∀ n, Good (rtTime n)) (i : Info) (hv : i.Valid) (s s' : St) (hr : LReach a rtTime i s) (sub out nsub p r : Nat) (hn : nsub < w32)
    (h : libCall a rtTime (.pollOneoff sub out nsub p) s = .ok r s') :
    s'.out = s.out ∧ s'.inp = s.inp ∧ s'.dbg = s.dbg ∧
    ((r = 0 ∧ ∃ n, n ≤ nsub ∧ peek s' 4 p = n ∧
        (∀ x, (x < out ∨ out + 32 * n ≤ x) → (x < p ∨ p + 4 ≤ x) → s'.space (s.base + x) = s.space (s.base + x)) ∧
        ((sub + 56 * nsub ≤ out ∨ out + 32 * nsub ≤ sub) → (p + 4 ≤ out ∨ out + 32 * nsub ≤ p) →
          ∀ k, k < n → ∃ j, j < nsub ∧ userdata s' (out + 32 * k) = userdata s (sub + 56 * j))) ∨
     (r = 28 ∧ ∀ x, (x < out ∨ out + 32 * nsub ≤ x) → s'.space (s.base + x) = s.space (s.base + x))) := by
  have hs := (lreach_inv a rtTime ht i hv s hr).1
  simp only [libCall, pollOneoff] at h
  obtain ⟨v, s1, g1, h⟩ := bind_ok _ _ _ _ _ h
  have z : (0 : Nat) + nsub < w32 := by omega
  cases v with
  | inl e =>
    obtain ⟨e1, j, hj, c⟩ := pollLoop_inl nsub sub { out := out } (ok_init out) z s s1 hs e g1
    obtain ⟨e2, e3⟩ := pure_ok _ _ _ _ h
    rw [e3]
    refine ⟨by rw [c.eq], by rw [c.eq], by rw [c.eq], .inr ⟨by rw [e2, e1], fun x hx => c.same x ?_⟩⟩
    show x < out ∨ out + 32 * j ≤ x
    omega
  | inr v =>
    have h : pollFinish p v s1 = .ok r s' := h
    obtain ⟨j, st1, ok1, k1⟩ := pollLoop_ok nsub sub { out := out } v (ok_init out) z s s1 hs g1
    have hs1 : Rt.Inv s1 := by rw [st1.changed.eq]; exact inv_space hs _
    have n1 : v.nout = j := by rw [st1.nout]; exact Nat.zero_add j
    have o1 : v.out = out + 32 * j := st1.out
    have kk : j + v.kinds ≤ nsub := k1
    have ev : ∀ P : Nat → Prop, (∀ i, i < nsub → P (userdata s (sub + 56 * i))) → ((∀ s ea, P (userdata s ea)) ∨ sub + 56 * nsub ≤ out ∨ out + 32 * nsub ≤ sub) → Events s1 out j P ∧ Kept v P := by
      intro P hP hd
      obtain ⟨j', _, st', ev', kept'⟩ := pollLoop_ev nsub sub { out := out } v (ok_init out) z s s1 hs P hP (kept_init out P) hd g1
      have : j' = j := by have := st'.nout; have := st1.nout; omega
      subst this
      exact ⟨ev', kept'⟩
    obtain ⟨e1, j2, s2, hj2, q1, q2, q3, q4, q5⟩ := pollFinish_ok p v ok1 (by omega) (ev (· < 256 ^ 8) (fun _ _ => peek_lt8 _ _) (.inl fun _ _ => peek_lt8 _ _)).2 s1 s' hs1 r h
    have b1 := st1.changed.base
    have b2 : s2.base = s.base := by rw [q2]; exact b1
    have c1 := st1.changed.eq
    refine ⟨by rw [q4.eq, q2, c1], by rw [q4.eq, q2, c1], by rw [q4.eq, q2, c1], .inl ⟨e1, j + j2, by omega, by rw [q1, n1], fun x h1 h2 => ?_, fun hd hp k hk => ?_⟩⟩
    · rw [← b2, q4.same x h2, b2, ← b1, q3 x (by omega), b1]
      refine st1.changed.same x ?_
      show x < out ∨ out + 32 * j ≤ x
      omega
    · let P : Nat → Prop := fun u => ∃ j, j < nsub ∧ u = userdata s (sub + 56 * j)
      show P _
      obtain ⟨evP, keptP⟩ := ev P (fun i hi => ⟨i, hi, rfl⟩) (.inr hd)
      unfold userdata
      rw [q4.peek 8 _ (by omega)]
      rcases Nat.lt_or_ge k j with c | c
      · have : peek s2 8 (out + 32 * k) = peek s1 8 (out + 32 * k) := peek_same s1 s2 (by rw [b1, b2]) 8 _ fun x h1 h2 => q3 x (by omega)
        rw [this]
        exact evP k c
      · have := q5 P keptP (k - j) (by omega)
        have e : v.out + 32 * (k - j) = out + 32 * k := by omega
        rw [e] at this
        exact this

/-! ### What poll_oneoff doesn't do -/

/-- The fields of a subscription: its type (1: readable, 2: writable) and its descriptor. -/
abbrev subType (s : St) (ea : Nat) : Nat := peek s 1 (ea + 8)
abbrev subFd (s : St) (ea : Nat) : Nat := peek s 4 (ea + 16)

theorem pollFd_none (sub t fd : Nat) (v v' : PollVars) (s s' : St) (hf : fd ≠ 4) (h : pollFd sub t fd v s = .ok v' s') : v'.reading = v.reading ∧ v'.writing = v.writing := by
  unfold pollFd at h
  rw [if_neg hf] at h
  split at h
  · obtain ⟨u, s1, g1, h⟩ := bind_ok _ _ _ _ _ h
    obtain ⟨_, s2, g2, h⟩ := bind_ok _ _ _ _ _ h
    obtain ⟨_, s3, g3, h⟩ := bind_ok _ _ _ _ _ h
    obtain ⟨e1, e2⟩ := pure_ok _ _ _ _ h
    rw [e1]
    exact ⟨rfl, rfl⟩
  · obtain ⟨e1, e2⟩ := pure_ok _ _ _ _ h
    rw [e1]
    exact ⟨rfl, rfl⟩

theorem pollStd_none (sub t fd : Nat) (v v' : PollVars) (s s' : St) (h : pollStd sub t fd v s = .ok v' s') : v'.reading = v.reading ∧ v'.writing = v.writing := by
  unfold pollStd at h
  split at h
  · obtain ⟨u, s1, g1, h⟩ := bind_ok _ _ _ _ _ h
    obtain ⟨_, s2, g2, h⟩ := bind_ok _ _ _ _ _ h
    obtain ⟨e1, e2⟩ := pure_ok _ _ _ _ h
    rw [e1]
    exact ⟨rfl, rfl⟩
  · obtain ⟨e1, e2⟩ := pure_ok _ _ _ _ h
    rw [e1]
    exact ⟨rfl, rfl⟩

theorem pollLoop_none (n sub : Nat) (v v' : PollVars) (hv : v.Ok) (hn : v.nout + n < w32) (s s' : St) (hs : Rt.Inv s) (hf : ∀ i, i < n → subFd s (sub + 56 * i) ≠ 4)
    (hd : sub + 56 * n ≤ v.out ∨ v.out + 32 * n ≤ sub) (h : pollLoop n sub v s = .ok (.inr v') s') : v'.reading = v.reading ∧ v'.writing = v.writing := by
  induction n generalizing sub v s with
  | zero =>
    unfold pollLoop at h
    obtain ⟨e1, e2⟩ := pure_ok _ _ _ _ h
    cases e1
    exact ⟨rfl, rfl⟩
  | succ n ih =>
    unfold pollLoop at h
    obtain ⟨t, s1, g1, h⟩ := bind_ok _ _ _ _ _ h
    obtain ⟨_, rfl, hb⟩ := ld_ok _ _ _ _ _ g1
    split at h
    · obtain ⟨e1, _⟩ := pure_ok _ _ _ _ h
      cases e1
    · split at h
      · simp [rtStop, Rt.exit] at h
      · obtain ⟨fd, s1, g1, h⟩ := bind_ok _ _ _ _ _ h
        obtain ⟨hfd, rfl, _⟩ := ld_ok _ _ _ _ _ g1
        obtain ⟨v1, s1, g1, h⟩ := bind_ok _ _ _ _ _ h
        obtain ⟨v2, s2, g2, h⟩ := bind_ok _ _ _ _ _ h
        obtain ⟨j, stp, okp, kp, jp, _⟩ := pollSub_ok sub t fd (by omega) v v1 v2 hv (by omega) s s1 s2 hs g1 g2
        have hs2 : Rt.Inv s2 := by rw [stp.changed.eq]; exact inv_space hs _
        have w := sub_no_wrap s hs sub (by omega)
        have o := stp.out
        rw [w] at h
        have hf2 : ∀ i, i < n → subFd s2 (sub + 56 + 56 * i) ≠ 4 := by
          intro i hi
          unfold subFd
          rw [stp.changed.peek 4 _ (by omega)]
          have := hf (i + 1) (by omega)
          have e : sub + 56 * (i + 1) = sub + 56 + 56 * i := by omega
          rw [e] at this
          exact this
        have a1 := pollFd_none sub t fd v v1 s s1 (by rw [hfd]; exact hf 0 (by omega)) g1
        have a2 := pollStd_none sub t fd v1 v2 s1 s2 g2
        have a3 := ih _ v2 okp (by rw [stp.nout]; omega) s2 hs2 hf2 (by omega) h
        exact ⟨a3.1.trans (a2.1.trans a1.1), a3.2.trans (a2.2.trans a1.2)⟩

/-- If the gate descriptor isn't among the subscriptions - all of which may be of standard output, which is always writable - the call doesn't return 0 unless the system call
is interrupted or the gate descriptor's input is hung up. -/
theorem poll_std_blocks_refuted (a : Arch) (rtTime : Nat → M Nat) (ht : ∀ n, Good (rtTime n)) (i : Info) (hv : i.Valid) (s s' : St) (hr : LReach a rtTime i s) (sub out nsub p : Nat) (hn : nsub < w32)
    (hf : ∀ i, i < nsub → subFd s (sub + 56 * i) ≠ 4) (hd : sub + 56 * nsub ≤ out ∨ out + 32 * nsub ≤ sub)
    (h : libCall a rtTime (.pollOneoff sub out nsub p) s = .ok 0 s') :
    (∃ e, (e = Rt.EAGAIN ∨ e = EINTR) ∧ s.kern = .err e :: s'.kern) ∨ ∃ x y, x.testBit 4 = true ∧ s.kern = .poll x y :: s'.kern := by
  have hs := (lreach_inv a rtTime ht i hv s hr).1
  simp only [libCall, pollOneoff] at h
  obtain ⟨v, s1, g1, h⟩ := bind_ok _ _ _ _ _ h
  have z : (0 : Nat) + nsub < w32 := by omega
  cases v with
  | inl e =>
    obtain ⟨e1, j, hj, c⟩ := pollLoop_inl nsub sub { out := out } (ok_init out) z s s1 hs e g1
    obtain ⟨e2, e3⟩ := pure_ok _ _ _ _ h
    omega
  | inr v =>
    have h : pollFinish p v s1 = .ok 0 s' := h
    obtain ⟨j, st1, ok1, k1⟩ := pollLoop_ok nsub sub { out := out } v (ok_init out) z s s1 hs g1
    obtain ⟨v1, v2⟩ := pollLoop_none nsub sub { out := out } v (ok_init out) z s s1 hs hf hd g1
    unfold pollFinish at h
    obtain ⟨q, s2, g2, h⟩ := bind_ok _ _ _ _ _ h
    have pr := poll_result a s1 s2 v.reading v.writing q ok1.reading ok1.writing g2
    have v1 : v.reading = 0 := v1
    have v2 : v.writing = 0 := v2
    have hk : s'.kern = s2.kern := by
      obtain ⟨v3, s3, g3, h⟩ := bind_ok _ _ _ _ _ h
      obtain ⟨v4, s4, g4, h⟩ := bind_ok _ _ _ _ _ h
      obtain ⟨_, s5, g5, h⟩ := bind_ok _ _ _ _ _ h
      obtain ⟨e1, e2⟩ := pure_ok _ _ _ _ h
      have evk : ∀ r e u t w w' s s', pollEvent r e u t w s = .ok w' s' → s'.kern = s.kern := by
        intro r e u t w w' s s' h
        unfold pollEvent at h
        split at h
        · obtain ⟨_, s2, g2, h⟩ := bind_ok _ _ _ _ _ h
          rw [(pure_ok _ _ _ _ h).2]
          exact (changed_putEvent _ _ _ _ _ _ _ _ g2).1.kern
        · rw [(pure_ok _ _ _ _ h).2]
      rw [e2, (changed_st _ _ _ _ _ _ g5).1.kern, evk _ _ _ _ _ _ _ _ g4, evk _ _ _ _ _ _ _ _ g3]
    rw [v1, v2] at pr
    have hq : q = 0 := by
      rcases pr.1 with c | ⟨_, c⟩ | ⟨_, c⟩ | ⟨_, c, _⟩
      · exact c
      all_goals cases c
    rw [hk, ← st1.changed.kern]
    exact pr.2.1 hq

end Gate.AbiLib
