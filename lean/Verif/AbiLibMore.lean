import Verif.AbiLibIo
/-
C99: io, C100: poll_oneoff, C101: the other library functions.
-/
namespace Gate.AbiLib
open Gate Gate.ImageFile Gate.Rt

/-! ### Lemmas -/

/-- Memory of a vector and its buffers hasn't changed. -/
structure VecSame (s s' : St) (iov n : Nat) : Prop where
  addr : ∀ j, j < n → bufAddr s' iov j = bufAddr s iov j
  len : ∀ j, j < n → bufLen s' iov j = bufLen s iov j
  gather : gather s' iov n = gather s iov n
  outside : ∀ x, Outside s' iov n x ↔ Outside s iov n x
  apart : Apart s iov n → Apart s' iov n

theorem vec_same (s s' : St) (hb : s'.base = s.base) (iov n : Nat)
    (h : ∀ x, ((iov ≤ x ∧ x < iov + 8 * n) ∨ ∃ j, j < n ∧ bufAddr s iov j ≤ x ∧ x < bufAddr s iov j + bufLen s iov j) → s'.space (s.base + x) = s.space (s.base + x)) :
    VecSame s s' iov n := by
  have hA : ∀ j, j < n → bufAddr s' iov j = bufAddr s iov j := fun j hj => peek_same s s' hb 4 _ fun x h1 h2 => h x (.inl (by omega))
  have hL : ∀ j, j < n → bufLen s' iov j = bufLen s iov j := fun j hj => peek_same s s' hb 4 _ fun x h1 h2 => h x (.inl (by omega))
  have hO : ∀ x, Outside s' iov n x ↔ Outside s iov n x := fun x =>
    ⟨fun g j hj => by rw [← hA j hj, ← hL j hj]; exact g j hj, fun g j hj => by rw [hA j hj, hL j hj]; exact g j hj⟩
  refine ⟨hA, hL, ?_, hO, fun hd => ⟨fun x h1 h2 => (hO x).mpr (hd.vector x h1 h2), fun j k hj hk hne x h1 h2 => ?_⟩⟩
  · unfold gather
    refine congrArg List.flatten (List.map_congr_left fun j hj => ?_)
    have hj := List.mem_range.mp hj
    rw [hA j hj, hL j hj, hb]
    refine read_ext _ _ _ _ _ fun q hq => ?_
    rw [Nat.add_assoc]
    exact h _ (.inr ⟨j, hj, by omega, by omega⟩)
  · rw [hA j hj] at h1 h2
    rw [hL j hj] at h2
    rw [hA k hk, hL k hk]
    exact hd.buffers j k hj hk hne x h1 h2

theorem not_outside (s : St) (iov n x : Nat) (h : ∃ j, j < n ∧ bufAddr s iov j ≤ x ∧ x < bufAddr s iov j + bufLen s iov j) : ¬ Outside s iov n x := by
  obtain ⟨j, hj, h1, h2⟩ := h
  intro ho
  have := ho j hj
  omega

/-! ### io -/

/-- The number at an address overlaps neither a vector nor its buffers. -/
def Clear (s : St) (iov n p : Nat) : Prop := ∀ x, p ≤ x → x < p + 4 → Outside s iov n x ∧ (x < iov ∨ iov + 8 * n ≤ x)

theorem clear_same (s s' : St) (hb : s'.base = s.base) (iov n p v : Nat) (hc : Clear s iov n p) (he : s'.space = ImageFile.write s.space (s.base + p) (le 4 v)) :
    VecSame s s' iov n := by
  refine vec_same s s' hb iov n fun x hx => ?_
  rw [he]
  simp only [ImageFile.write, length_le]
  rw [if_neg]
  intro h
  have := hc x (by omega) (by omega)
  rcases hx with hx | hx
  · omega
  · exact not_outside s iov n x hx this.1

/-- What io does when it returns, if the places of the counts overlap neither each other nor the receive vector and its buffers, and those don't overlap: it has output a prefix of the send buffers'
contents, the received data is at the beginning of the receive buffers, and the lengths of these have been stored (modulo 2^32). When it was told to wait, it sends and receives only as polling told. -/
theorem io_gate (a : Arch) (rtTime : Nat → M Nat) (ht : ∀ n, Good (rtTime n)) (i : Info) (hv : i.Valid) (s s' : St) (hr : LReach a rtTime i s)
    (recv recvlen nrecv send sendlen nsent flags r : Nat) (hd : Apart s recv recvlen) (h1 : nrecv ≠ 0) (h2 : nsent ≠ 0)
    (hp1 : Clear s recv recvlen nrecv) (hp2 : Clear s recv recvlen nsent) (hpp : nrecv + 4 ≤ nsent ∨ nsent + 4 ≤ nrecv)
    (h : libCall a rtTime (.io recv recvlen nrecv send sendlen nsent flags) s = .ok r s') :
    ∃ n d, n ≤ (gather s send sendlen).length ∧ s'.out = s.out ++ (gather s send sendlen).take n ∧ s'.inp = s.inp ++ d ∧ s'.dbg = s.dbg ∧
      d.length ≤ (gather s recv recvlen).length ∧ gather s' recv recvlen = d ++ (gather s recv recvlen).drop d.length ∧
      peek s' 4 nsent = n % w32 ∧ peek s' 4 nrecv = d.length % w32 := by
  have hs := (lreach_inv a rtTime ht i hv s hr).1
  simp only [libCall] at h
  obtain ⟨u, s5, h, h'⟩ := bind_ok _ _ _ _ _ h
  obtain ⟨_, e0⟩ := pure_ok _ _ _ _ h'
  subst e0
  unfold io at h
  obtain ⟨f, s1, g1, h⟩ := bind_ok _ _ _ _ _ h
  obtain ⟨n, s2, g2, h⟩ := bind_ok _ _ _ _ _ h
  obtain ⟨_, s3, g3, h⟩ := bind_ok _ _ _ _ _ h
  obtain ⟨q, s4, g4, h⟩ := bind_ok _ _ _ _ _ h
  -- Polling.
  have p1 : ∃ k, s1 = { s with kern := k } := by
    unfold ioFilter at g1
    split at g1
    · simp only [rtPoll] at g1
      repeat' split at g1
      all_goals first | (cases g1; done) | (cases g1; exact ⟨_, rfl⟩) | (simp [Rt.exit] at g1)
    · obtain ⟨_, e⟩ := pure_ok _ _ _ _ g1
      exact ⟨s.kern, by rw [e]⟩
  obtain ⟨k1, p1⟩ := p1
  have hs1 : Rt.Inv s1 := by rw [p1]; exact ⟨hs.base, hs.limit, hs.pages, hs.acc, hs.avail⟩
  have gs : ∀ v l, gather s1 v l = gather s v l := by intro v l; rw [p1]; rfl
  -- Sending.
  have p2 : ∃ m k, m ≤ (gather s send sendlen).length ∧ s2 = { s1 with out := s1.out ++ (gather s send sendlen).take m, kern := k } ∧ n = m % w32 := by
    unfold ioWhen at g2
    split at g2
    · obtain ⟨m, k, q1, q2, q3⟩ := writeLoop_ok a sendlen send 0 (by decide) s1 s2 hs1 n g2
      rw [gs] at q1 q2
      exact ⟨m, k, q1, q2, by rw [q3, Nat.zero_add]⟩
    · obtain ⟨e1, e2⟩ := pure_ok _ _ _ _ g2
      exact ⟨0, s1.kern, by omega, by rw [e2]; simp, by rw [e1]; rfl⟩
  obtain ⟨m, k2, hm, p2, hn⟩ := p2
  unfold ioStore at g3 h
  rw [if_pos h2] at g3
  rw [if_pos h1] at h
  obtain ⟨p3, _⟩ := st_ok _ _ _ _ _ _ g3
  obtain ⟨p5, _⟩ := st_ok _ _ _ _ _ _ h
  have hs3 : Rt.Inv s3 := by rw [p3, p2, p1]; exact ⟨hs.base, hs.limit, hs.pages, hs.acc, hs.avail⟩
  have sp2 : s2.space = s.space ∧ s2.base = s.base := by rw [p2, p1]; exact ⟨rfl, rfl⟩
  have b3 : s3.base = s.base := by rw [p3]; exact sp2.2
  have vs3 : VecSame s s3 recv recvlen := clear_same s s3 b3 recv recvlen nsent n hp2 (by rw [p3, sp2.1, sp2.2])
  -- Receiving.
  have p4 : ∃ d k f, s4 = { s3 with space := f, inp := s3.inp ++ d, kern := k } ∧ q = d.length % w32 ∧ d.length ≤ (gather s recv recvlen).length ∧
      (∀ y, Outside s recv recvlen y → f (s.base + y) = s3.space (s.base + y)) ∧ gather s4 recv recvlen = d ++ (gather s recv recvlen).drop d.length := by
    unfold ioWhen at g4
    split at g4
    · obtain ⟨d, k, f, q1, q2, q3, q4, q5⟩ := readLoop_ok a recvlen recv 0 (by decide) s3 s4 hs3 (vs3.apart hd) q g4
      rw [vs3.gather] at q3 q5
      rw [b3] at q4
      exact ⟨d, k, f, q1, by rw [q2, Nat.zero_add], q3, fun y hy => q4 y ((vs3.outside y).mpr hy), q5⟩
    · obtain ⟨e1, e2⟩ := pure_ok _ _ _ _ g4
      exact ⟨[], s3.kern, s3.space, by rw [e2]; simp, by rw [e1]; rfl, by simp, fun _ _ => rfl, by rw [e2]; simp [vs3.gather]⟩
  obtain ⟨d, k4, f4, p4, hq, hdl, keep4, g5⟩ := p4
  have b4 : s4.base = s.base := by rw [p4]; exact b3
  have b5 : s'.base = s4.base := by rw [p5]
  -- The vector in s4 is that of s.
  have vec4 : ∀ ea, recv ≤ ea → ea + 4 ≤ recv + 8 * recvlen → peek s4 4 ea = peek s 4 ea := by
    intro ea e1 e2
    refine peek_same s s4 b4 4 ea fun y hy1 hy2 => ?_
    have : s4.space (s.base + y) = s3.space (s.base + y) := by rw [p4]; exact keep4 y (hd.vector y (by omega) (by omega))
    rw [this, p3]
    simp only [ImageFile.write, length_le]
    rw [sp2.1, sp2.2, if_neg]
    intro hc
    have := (hp2 y (by omega) (by omega)).2
    omega
  have clear4 : Clear s4 recv recvlen nrecv := by
    intro x hx1 hx2
    obtain ⟨c1, c2⟩ := hp1 x hx1 hx2
    refine ⟨fun j hj => ?_, c2⟩
    have e1 : bufAddr s4 recv j = bufAddr s recv j := vec4 _ (by omega) (by omega)
    have e2 : bufLen s4 recv j = bufLen s recv j := vec4 _ (by omega) (by omega)
    rw [e1, e2]; exact c1 j hj
  have vs5 : VecSame s4 s' recv recvlen := clear_same s4 s' b5 recv recvlen nrecv q clear4 (by rw [p5])
  refine ⟨m, d, hm, ?_, ?_, ?_, hdl, by rw [vs5.gather, g5], ?_, ?_⟩
  · rw [p5, p4, p3, p2, p1]
  · rw [p5, p4, p3, p2, p1]
  · rw [p5, p4, p3, p2, p1]
  · -- The sent count isn't affected by the rest.
    have e1 : peek s' 4 nsent = peek s4 4 nsent := by
      refine peek_same s4 s' b5 4 nsent fun y hy1 hy2 => ?_
      rw [p5]
      simp only [ImageFile.write, length_le]
      rw [if_neg (by omega)]
    have e2 : peek s4 4 nsent = peek s3 4 nsent := by
      refine peek_same s3 s4 (by rw [b4, b3]) 4 nsent fun y hy1 hy2 => ?_
      rw [p4]
      simp only
      rw [b3]
      exact keep4 y (hp2 y hy1 hy2).1
    rw [e1, e2, p3, peek_write, hn]
    exact Nat.mod_mod _ _
  · rw [p5, peek_write, hq]
    exact Nat.mod_mod _ _

/-! ### poll_oneoff -/

/-- How many kinds of events of the gate descriptor are waited for. -/
def PollVars.kinds (v : PollVars) : Nat := (if v.reading = 0 then 0 else 1) + (if v.writing = 0 then 0 else 1)

structure PollVars.Ok (v : PollVars) : Prop where
  reading : v.reading = 0 ∨ v.reading = 1
  writing : v.writing = 0 ∨ v.writing = 4

/-- Only the space differs, and only in a range of the program's memory. -/
structure Changed (s s' : St) (lo hi : Nat) : Prop where
  eq : s' = { s with space := s'.space }
  same : ∀ x, x < lo ∨ hi ≤ x → s'.space (s.base + x) = s.space (s.base + x)

theorem Changed.refl (s : St) (lo hi : Nat) : Changed s s lo hi := ⟨rfl, fun _ _ => rfl⟩

theorem Changed.base {s s' : St} {lo hi : Nat} (h : Changed s s' lo hi) : s'.base = s.base := by rw [h.eq]
theorem Changed.pages {s s' : St} {lo hi : Nat} (h : Changed s s' lo hi) : s'.pages = s.pages := by rw [h.eq]
theorem Changed.kern {s s' : St} {lo hi : Nat} (h : Changed s s' lo hi) : s'.kern = s.kern := by rw [h.eq]

theorem Changed.trans {s s1 s2 : St} {a b c d lo hi : Nat} (h1 : Changed s s1 a b) (h2 : Changed s1 s2 c d) (ha : lo ≤ a) (hb : b ≤ hi) (hc : lo ≤ c) (hd : d ≤ hi) : Changed s s2 lo hi := by
  refine ⟨?_, fun x hx => ?_⟩
  · rw [h2.eq, h1.eq]
  · rw [← h1.base, h2.same x (by omega), h1.base]
    exact h1.same x (by omega)

theorem changed_st (n ea v : Nat) (s s' : St) (u : Unit) (h : st n ea v s = .ok u s') : Changed s s' ea (ea + n) ∧ ea + n ≤ s.pages * 65536 := by
  obtain ⟨e, hb⟩ := st_ok _ _ _ _ _ _ h
  refine ⟨⟨by rw [e], fun x hx => ?_⟩, hb⟩
  rw [e]
  simp only [ImageFile.write, length_le]
  rw [if_neg (by omega)]

theorem changed_putEvent (out u e t n : Nat) (s s' : St) (q : Unit) (h : putEvent out u e t n s = .ok q s') : Changed s s' out (out + 32) ∧ out + 26 ≤ s.pages * 65536 := by
  unfold putEvent at h
  obtain ⟨_, s1, g1, h⟩ := bind_ok _ _ _ _ _ h
  obtain ⟨_, s2, g2, h⟩ := bind_ok _ _ _ _ _ h
  obtain ⟨_, s3, g3, h⟩ := bind_ok _ _ _ _ _ h
  obtain ⟨_, s4, g4, h⟩ := bind_ok _ _ _ _ _ h
  have c1 := changed_st _ _ _ _ _ _ g1
  have c2 := changed_st _ _ _ _ _ _ g2
  have c3 := changed_st _ _ _ _ _ _ g3
  have c4 := changed_st _ _ _ _ _ _ g4
  have c5 := changed_st _ _ _ _ _ _ h
  have t2 : Changed s s2 out (out + 32) := c1.1.trans c2.1 (by omega) (by omega) (by omega) (by omega)
  have t3 : Changed s s3 out (out + 32) := t2.trans c3.1 (by omega) (by omega) (by omega) (by omega)
  have t4 : Changed s s4 out (out + 32) := t3.trans c4.1 (by omega) (by omega) (by omega) (by omega)
  refine ⟨t4.trans c5.1 (by omega) (by omega) (by omega) (by omega), ?_⟩
  have := c5.2
  rw [t4.pages] at this
  omega

theorem out_no_wrap (s : St) (hs : Rt.Inv s) (out : Nat) (h : out + 10 ≤ s.pages * 65536) : (out + 32) % w32 = out + 32 := by
  have h1 := hs.pages
  have h2 := hs.limit
  exact Nat.mod_eq_of_lt (by simp only [w32]; omega)

theorem nout_no_wrap (n : Nat) (h : n + 1 < w32) : (n + 1) % w32 = n + 1 := Nat.mod_eq_of_lt h

/-- A step adds zero or one events. -/
structure Step (s s' : St) (v v' : PollVars) (j : Nat) : Prop where
  nout : v'.nout = v.nout + j
  out : v'.out = v.out + 32 * j
  changed : Changed s s' v.out (v.out + 32 * j)

theorem pollFd_ok (sub t fd : Nat) (_ht : t = 1 ∨ t = 2) (v v' : PollVars) (hv : v.Ok) (hn : v.nout + 1 < w32) (s s' : St) (hs : Rt.Inv s) (h : pollFd sub t fd v s = .ok v' s') :
    ∃ j, Step s s' v v' j ∧ v'.Ok ∧ j + v'.kinds ≤ 1 + v.kinds ∧ ((fd = 1 ∨ fd = 2) → j = 0 ∧ v' = v) ∧ j ≤ 1 := by
  unfold pollFd at h
  split at h
  · rename_i hfd
    split at h
    · obtain ⟨u, s1, g1, h⟩ := bind_ok _ _ _ _ _ h
      obtain ⟨rfl, rfl, _⟩ := ld_ok _ _ _ _ _ g1
      obtain ⟨e1, e2⟩ := pure_ok _ _ _ _ h
      subst e1 e2
      refine ⟨0, ⟨rfl, rfl, Changed.refl _ _ _⟩, ⟨.inr rfl, hv.writing⟩, ?_, fun h => by omega, by omega⟩
      simp only [PollVars.kinds]
      split <;> split <;> omega
    · obtain ⟨u, s1, g1, h⟩ := bind_ok _ _ _ _ _ h
      obtain ⟨rfl, rfl, _⟩ := ld_ok _ _ _ _ _ g1
      obtain ⟨e1, e2⟩ := pure_ok _ _ _ _ h
      subst e1 e2
      refine ⟨0, ⟨rfl, rfl, Changed.refl _ _ _⟩, ⟨hv.reading, .inr rfl⟩, ?_, fun h => by omega, by omega⟩
      simp only [PollVars.kinds]
      split <;> split <;> omega
  · split at h
    · obtain ⟨u, s1, g1, h⟩ := bind_ok _ _ _ _ _ h
      obtain ⟨_, rfl, _⟩ := ld_ok _ _ _ _ _ g1
      clear g1
      obtain ⟨_, s2, g2, h⟩ := bind_ok _ _ _ _ _ h
      obtain ⟨_, s3, g3, h⟩ := bind_ok _ _ _ _ _ h
      obtain ⟨e1, e2⟩ := pure_ok _ _ _ _ h
      have c2 := changed_st _ _ _ _ _ _ g2
      have c3 := changed_st _ _ _ _ _ _ g3
      have hb : v.out + 10 ≤ s.pages * 65536 := by have := c3.2; rw [c2.1.pages] at this; omega
      have w := out_no_wrap s hs v.out hb
      have w' := nout_no_wrap v.nout hn
      subst e1 e2
      refine ⟨1, ⟨w', by rw [Nat.mul_one]; exact w, ?_⟩, ⟨hv.reading, hv.writing⟩, by simp only [PollVars.kinds]; omega, fun h => by omega, by omega⟩
      exact c2.1.trans c3.1 (by omega) (by omega) (by omega) (by omega)
    · obtain ⟨e1, e2⟩ := pure_ok _ _ _ _ h
      subst e1 e2
      exact ⟨0, ⟨rfl, rfl, Changed.refl _ _ _⟩, hv, by omega, fun _ => ⟨rfl, rfl⟩, by omega⟩

theorem pollStd_ok (sub t fd : Nat) (v v' : PollVars) (hv : v.Ok) (hn : v.nout + 1 < w32) (s s' : St) (hs : Rt.Inv s) (h : pollStd sub t fd v s = .ok v' s') :
    ∃ j, Step s s' v v' j ∧ v'.Ok ∧ v'.kinds = v.kinds ∧ j ≤ 1 ∧ (j = 1 → fd = 1 ∨ fd = 2) := by
  unfold pollStd at h
  split at h
  · rename_i hc
    obtain ⟨u, s1, g1, h⟩ := bind_ok _ _ _ _ _ h
    obtain ⟨rfl, rfl, _⟩ := ld_ok _ _ _ _ _ g1
    obtain ⟨_, s2, g2, h⟩ := bind_ok _ _ _ _ _ h
    obtain ⟨e1, e2⟩ := pure_ok _ _ _ _ h
    obtain ⟨c, hb⟩ := changed_putEvent _ _ _ _ _ _ _ _ g2
    have w := out_no_wrap s hs v.out (by omega)
    have w' := nout_no_wrap v.nout hn
    subst e1 e2
    exact ⟨1, ⟨w', by rw [Nat.mul_one]; exact w, c⟩, ⟨hv.reading, hv.writing⟩, rfl, by omega, fun _ => hc.1⟩
  · obtain ⟨e1, e2⟩ := pure_ok _ _ _ _ h
    subst e1 e2
    exact ⟨0, ⟨rfl, rfl, Changed.refl _ _ _⟩, hv, rfl, by omega, fun h => absurd h (by omega)⟩

theorem pollLoop_ok (n sub : Nat) (v v' : PollVars) (hv : v.Ok) (hn : v.nout + n < w32) (s s' : St) (hs : Rt.Inv s) (h : pollLoop n sub v s = .ok (.inr v') s') :
    ∃ j, Step s s' v v' j ∧ v'.Ok ∧ j + v'.kinds ≤ n + v.kinds := by
  induction n generalizing sub v s with
  | zero =>
    unfold pollLoop at h
    obtain ⟨e1, e2⟩ := pure_ok _ _ _ _ h
    cases e1; subst e2
    exact ⟨0, ⟨rfl, rfl, Changed.refl _ _ _⟩, hv, by omega⟩
  | succ n ih =>
    unfold pollLoop at h
    obtain ⟨t, s1, g1, h⟩ := bind_ok _ _ _ _ _ h
    obtain ⟨_, rfl, _⟩ := ld_ok _ _ _ _ _ g1
    split at h
    · obtain ⟨e1, _⟩ := pure_ok _ _ _ _ h
      cases e1
    · split at h
      · simp [rtStop, Rt.exit] at h
      · obtain ⟨fd, s1, g1, h⟩ := bind_ok _ _ _ _ _ h
        obtain ⟨_, rfl, _⟩ := ld_ok _ _ _ _ _ g1
        obtain ⟨v1, s1, g1, h⟩ := bind_ok _ _ _ _ _ h
        obtain ⟨v2, s2, g2, h⟩ := bind_ok _ _ _ _ _ h
        obtain ⟨j1, st1, ok1, k1, d1, d4⟩ := pollFd_ok sub t fd (by omega) v v1 hv (by omega) s s1 hs g1
        have hs1 : Rt.Inv s1 := by rw [st1.changed.eq]; exact inv_space hs _
        have hk : v.kinds ≤ 2 := by simp only [PollVars.kinds]; split <;> split <;> omega
        have hj1 : v1.nout + 1 < w32 ∨ ¬(fd = 1 ∨ fd = 2) := by
          by_cases c : fd = 1 ∨ fd = 2
          · rw [(d1 c).2]; exact .inl (by omega)
          · exact .inr c
        have key : ∃ j, Step s s2 v v2 j ∧ v2.Ok ∧ j + v2.kinds ≤ 1 + v.kinds ∧ j ≤ 1 := by
          by_cases c : fd = 1 ∨ fd = 2
          · obtain ⟨z, e⟩ := d1 c
            subst z e
            obtain ⟨j2, st2, ok2, k2, d2, d3⟩ := pollStd_ok sub t fd _ v2 ok1 (by omega) s1 s2 hs1 g2
            have c1 := st1.changed
            refine ⟨j2, ⟨st2.nout, st2.out, c1.trans st2.changed (by omega) (by omega) (by omega) (by omega)⟩, ok2, by omega, d2⟩
          · have e : pollStd sub t fd v1 = pure v1 := by
              unfold pollStd
              rw [if_neg (fun h => c h.1)]
            rw [e] at g2
            obtain ⟨e1, e2⟩ := pure_ok _ _ _ _ g2
            rw [e1, e2]
            exact ⟨j1, st1, ok1, k1, d4⟩
        obtain ⟨j, stp, okp, kp, jp⟩ := key
        have hs2 : Rt.Inv s2 := by rw [stp.changed.eq]; exact inv_space hs _
        obtain ⟨j', st', ok', k'⟩ := ih _ v2 okp (by rw [stp.nout]; omega) s2 hs2 h
        have o := stp.out
        refine ⟨j + j', ⟨by rw [st'.nout, stp.nout]; omega, by rw [st'.out, o]; omega, ?_⟩, ok', by omega⟩
        exact stp.changed.trans st'.changed (by omega) (by omega) (by omega) (by omega)

end Gate.AbiLib
