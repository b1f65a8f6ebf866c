import Verif.AbiLibMisc
/-
C97, C99: everything is sent if the other end accepts it, and what is there is received.
-/
namespace Gate.AbiLib
open Gate Gate.ImageFile Gate.Rt

/-- The vector and its buffers are in memory, and the buffers aren't empty. -/
structure Sound (s : St) (iov n : Nat) : Prop where
  vector : iov + 8 * n ≤ s.pages * 65536
  buffer : ∀ j, j < n → 0 < bufLen s iov j ∧ bufAddr s iov j + bufLen s iov j ≤ s.pages * 65536

/-- The kernel accepts the buffers as such. -/
def accepts (s : St) (iov n : Nat) : List Resp := (List.range n).map fun j => .wrote (bufLen s iov j)

theorem bind_step {α β : Type} (m : M α) (k : α → M β) (s s1 : St) (x : α) (h : m s = .ok x s1) : (m >>= k) s = k x s1 := by
  show M.bind m k s = _
  unfold M.bind
  rw [h]

theorem ld_step (s : St) (n ea : Nat) (h : ea + n ≤ s.pages * 65536) : ld n ea s = .ok (peek s n ea) s := by
  show (if _ then _ else _) = _
  rw [if_pos h]; rfl

theorem st_step (s : St) (n ea v : Nat) (h : ea + n ≤ s.pages * 65536) : st n ea v s = .ok () { s with space := ImageFile.write s.space (s.base + ea) (le n v) } := by
  show (if _ then _ else _) = _
  rw [if_pos h]

theorem shift_addr (s : St) (iov j : Nat) : bufAddr s (iov + 8) j = bufAddr s iov (j + 1) := by
  unfold bufAddr
  rw [show iov + 8 + 8 * j = iov + 8 * (j + 1) by omega]
theorem shift_len (s : St) (iov j : Nat) : bufLen s (iov + 8) j = bufLen s iov (j + 1) := by
  unfold bufLen
  rw [show iov + 8 + 8 * j + 4 = iov + 8 * (j + 1) + 4 by omega]

theorem writeLoop_all (a : Arch) (n iov x : Nat) (hx : x < w32) (s : St) (hs : Rt.Inv s) (hv : Sound s iov n) (k : List Resp) (hk : s.kern = accepts s iov n ++ k) :
    writeLoop a n iov x s = .ok ((x + (gather s iov n).length) % w32) { s with out := s.out ++ gather s iov n, kern := k } := by
  induction n generalizing iov x s with
  | zero =>
    have hk : s.kern = k := hk
    show Out.ok x s = _
    have e : (gather s iov 0) = [] := rfl
    rw [e, List.length_nil, Nat.add_zero, Nat.mod_eq_of_lt hx, List.append_nil, ← hk]
  | succ n ih =>
    obtain ⟨b1, b2⟩ := hv.buffer 0 (by omega)
    have v := hv.vector
    have l0 : bufLen s iov 0 = peek s 4 (iov + 4) := rfl
    have a0 : bufAddr s iov 0 = peek s 4 (iov + 0) := rfl
    have hk0 : s.kern = .wrote (bufLen s iov 0) :: (accepts s (iov + 8) n ++ k) := by
      rw [hk]
      unfold accepts
      rw [List.range_succ_eq_map, List.map_cons, List.map_map, List.cons_append]
      refine congrArg (_ :: ·) (congrArg (· ++ k) (List.map_congr_left fun j _ => ?_))
      show Resp.wrote (bufLen s iov (j + 1)) = _
      rw [shift_len]
    have w : rtWrite a (bufAddr s iov 0) (bufLen s iov 0) s =
        .ok (bufLen s iov 0) { s with out := s.out ++ ImageFile.read s.space (s.base + bufAddr s iov 0) (bufLen s iov 0), kern := accepts s (iov + 8) n ++ k } := by
      simp only [rtWrite, prologue_exact a s hs _ _ (peek_lt s (iov + 0)) (peek_lt s (iov + 4)), bufAddr, bufLen] at *
      simp only [Nat.mul_zero, Nat.add_zero] at *
      rw [if_neg (by omega), if_pos b2]
      simp only [hk0]
      rw [if_pos (Nat.le_refl _), if_pos b1]
    unfold writeLoop
    rw [bind_step _ _ _ _ _ (ld_step s 4 (iov + 4) (by omega)), bind_step _ _ _ _ _ (ld_step s 4 (iov + 0) (by omega)), ← l0, ← a0, bind_step _ _ _ _ _ w]
    rw [if_neg (by simp), no_wrap s hs iov (by omega)]
    refine (ih (iov + 8) _ (Nat.mod_lt _ (by decide)) { s with out := s.out ++ ImageFile.read s.space (s.base + bufAddr s iov 0) (bufLen s iov 0), kern := accepts s (iov + 8) n ++ k } ⟨hs.base, hs.limit, hs.pages, hs.acc, hs.avail⟩ ⟨by show iov + 8 + 8 * n ≤ s.pages * 65536; omega, fun j hj => by
      have := hv.buffer (j + 1) (by omega)
      rw [← shift_addr, ← shift_len] at this
      exact this⟩ rfl).trans ?_
    have hg : ∀ o q, gather { s with out := o, kern := q } (iov + 8) n = gather s (iov + 8) n := fun _ _ => rfl
    rw [hg]
    have gs : gather s iov (n + 1) = ImageFile.read s.space (s.base + bufAddr s iov 0) (bufLen s iov 0) ++ gather s (iov + 8) n := gather_succ s iov n
    rw [gs, List.length_append, length_read, Nat.mod_add_mod, Nat.add_assoc, List.append_assoc]

/-- If the output accepts the buffers, fd_write writes everything. -/
theorem fd_write_all (a : Arch) (rtTime : Nat → M Nat) (ht : ∀ n, Good (rtTime n)) (i : Info) (hi : i.Valid) (s : St) (hr : LReach a rtTime i s) (iov n p : Nat) (hv : Sound s iov n)
    (hp : p + 4 ≤ s.pages * 65536) (h0 : 0 < n) (hlen : (gather s iov n).length < w32) (k : List Resp) (hk : s.kern = accepts s iov n ++ k) :
    ∃ s', libCall a rtTime (.fdWrite 4 iov n p) s = .ok 0 s' ∧ s'.out = s.out ++ gather s iov n ∧ peek s' 4 p = (gather s iov n).length := by
  have hs := (lreach_inv a rtTime ht i hi s hr).1
  have hpos : 0 < (gather s iov n).length := by
    obtain ⟨m, rfl⟩ : ∃ m, n = m + 1 := ⟨n - 1, by omega⟩
    rw [gather_succ, List.length_append, length_read]
    have := (hv.buffer 0 (by omega)).1
    have l0 : bufLen s iov 0 = peek s 4 (iov + 4) := rfl
    omega
  have w := writeLoop_all a n iov 0 (by decide) s hs hv k hk
  rw [Nat.zero_add, Nat.mod_eq_of_lt hlen] at w
  have e : libCall a rtTime (.fdWrite 4 iov n p) s =
      .ok 0 { s with space := ImageFile.write s.space (s.base + p) (le 4 (gather s iov n).length), out := s.out ++ gather s iov n, kern := k } := by
    show fdWrite a 4 iov n p s = _
    unfold fdWrite
    rw [if_neg (by decide), if_neg (by decide), if_pos rfl, bind_step _ _ _ _ _ w, bind_step _ _ _ _ _ (st_step _ 4 p _ (by exact hp)), if_pos (by omega)]
    rfl
  refine ⟨_, e, rfl, ?_⟩
  have := peek_write { s with out := s.out ++ gather s iov n, kern := k } 4 p (gather s iov n).length
  rw [Nat.mod_eq_of_lt hlen] at this
  exact this

/-- io without waiting sends everything if the output accepts the buffers. -/
theorem io_send_all (a : Arch) (rtTime : Nat → M Nat) (ht : ∀ n, Good (rtTime n)) (i : Info) (hi : i.Valid) (s s' : St) (hr : LReach a rtTime i s) (send n recv recvlen nrecv nsent flags r : Nat)
    (hf : flags % 2 = 0) (hv : Sound s send n) (k : List Resp) (hk : s.kern = accepts s send n ++ k) (h : libCall a rtTime (.io recv recvlen nrecv send n nsent flags) s = .ok r s') :
    s'.out = s.out ++ gather s send n := by
  have hs := (lreach_inv a rtTime ht i hi s hr).1
  have w := writeLoop_all a n send 0 (by decide) s hs hv k hk
  simp only [libCall] at h
  obtain ⟨u, s5, h, h'⟩ := bind_ok _ _ _ _ _ h
  obtain ⟨_, e0⟩ := pure_ok _ _ _ _ h'
  subst e0
  unfold io at h
  obtain ⟨f, s1, g1, h⟩ := bind_ok _ _ _ _ _ h
  obtain ⟨m, s2, g2, h⟩ := bind_ok _ _ _ _ _ h
  obtain ⟨_, s3, g3, h⟩ := bind_ok _ _ _ _ _ h
  obtain ⟨q, s4, g4, g5⟩ := bind_ok _ _ _ _ _ h
  unfold ioFilter at g1
  rw [if_neg (by rw [Nat.and_one_is_mod]; omega)] at g1
  obtain ⟨ef, rfl⟩ := pure_ok _ _ _ _ g1
  subst ef
  unfold ioWhen at g2
  rw [if_pos (by decide), w] at g2
  have e2 : s2.out = s1.out ++ gather s1 send n := by cases g2; rfl
  have store : ∀ p v u x y, ioStore p v x = .ok u y → y.out = x.out := by
    intro p v u x y h
    unfold ioStore at h
    split at h
    · rw [(st_ok _ _ _ _ _ _ h).1]
    · rw [(pure_ok _ _ _ _ h).2]
  have loop : ∀ n iov x s s' r, readLoop a n iov x s = .ok r s' → s'.out = s.out := by
    intro n
    induction n with
    | zero => intro iov x s s' r h; rw [(pure_ok _ _ _ _ h).2]
    | succ n ih =>
      intro iov x s s' r h
      unfold readLoop at h
      obtain ⟨l, s1, g1, h⟩ := bind_ok _ _ _ _ _ h
      obtain ⟨_, rfl, _⟩ := ld_ok _ _ _ _ _ g1
      obtain ⟨b, s2, g2, h⟩ := bind_ok _ _ _ _ _ h
      obtain ⟨_, rfl, _⟩ := ld_ok _ _ _ _ _ g2
      obtain ⟨m, s3, g3, h⟩ := bind_ok _ _ _ _ _ h
      have e3 : s3.out = s.out := by
        simp only [rtRead] at g3
        repeat' split at g3
        all_goals first | (cases g3; done) | (cases g3; rfl) | (simp [Rt.exit] at g3)
      simp only at h
      split at h
      · rw [(pure_ok _ _ _ _ h).2, e3]
      · rw [ih _ _ _ _ _ h, e3]
  have e4 : s4.out = s3.out := by
    unfold ioWhen at g4
    split at g4
    · exact loop _ _ _ _ _ _ g4
    · rw [(pure_ok _ _ _ _ g4).2]
  rw [store _ _ _ _ _ g5, e4, store _ _ _ _ _ g3, e2]

/-- fd_read of one buffer gives what is there. -/
theorem fd_read_all (a : Arch) (rtTime : Nat → M Nat) (ht : ∀ n, Good (rtTime n)) (i : Info) (hi : i.Valid) (s : St) (hr : LReach a rtTime i s) (iov p : Nat) (hv : Sound s iov 1)
    (hp : p + 4 ≤ s.pages * 65536) (d : Bytes) (h0 : d ≠ []) (hl : d.length ≤ bufLen s iov 0) (k : List Resp) (hk : s.kern = .got d :: k) :
    ∃ s', libCall a rtTime (.fdRead 4 iov 1 p) s = .ok 0 s' ∧ s'.inp = s.inp ++ d ∧ peek s' 4 p = d.length := by
  have hs := (lreach_inv a rtTime ht i hi s hr).1
  obtain ⟨b1, b2⟩ := hv.buffer 0 (by omega)
  have v := hv.vector
  have l0 : bufLen s iov 0 = peek s 4 (iov + 4) := rfl
  have a0 : bufAddr s iov 0 = peek s 4 (iov + 0) := rfl
  have hw : d.length < w32 := Nat.lt_of_le_of_lt hl (peek_lt s (iov + 4))
  have hd : d.length ≠ 0 := fun h => h0 (List.eq_nil_of_length_eq_zero h)
  have w : rtRead a (bufAddr s iov 0) (bufLen s iov 0) s = .ok d.length { s with space := ImageFile.write s.space (s.base + bufAddr s iov 0) d, inp := s.inp ++ d, kern := k } := by
    simp only [rtRead, prologue_exact a s hs _ _ (peek_lt s (iov + 0)) (peek_lt s (iov + 4)), bufAddr, bufLen] at *
    simp only [Nat.mul_zero, Nat.add_zero] at *
    rw [if_neg (by omega), if_pos b2]
    simp only [hk]
    rw [if_pos hl]
  have loop : readLoop a 1 iov 0 s = .ok d.length { s with space := ImageFile.write s.space (s.base + bufAddr s iov 0) d, inp := s.inp ++ d, kern := k } := by
    unfold readLoop
    rw [bind_step _ _ _ _ _ (ld_step s 4 (iov + 4) (by omega)), bind_step _ _ _ _ _ (ld_step s 4 (iov + 0) (by omega)), ← l0, ← a0, bind_step _ _ _ _ _ w]
    simp only [Nat.zero_add, Nat.mod_eq_of_lt hw]
    split
    · rfl
    · rfl
  have e : libCall a rtTime (.fdRead 4 iov 1 p) s =
      .ok 0 { s with space := ImageFile.write (ImageFile.write s.space (s.base + bufAddr s iov 0) d) (s.base + p) (le 4 d.length), inp := s.inp ++ d, kern := k } := by
    show fdRead a 4 iov 1 p s = _
    unfold fdRead
    rw [if_neg (by decide), if_neg (by decide), if_neg (by decide), bind_step _ _ _ _ _ loop, bind_step _ _ _ _ _ (st_step _ 4 p _ (by exact hp)), if_pos hd]
    rfl
  refine ⟨_, e, rfl, ?_⟩
  have := peek_write { s with space := ImageFile.write s.space (s.base + bufAddr s iov 0) d, inp := s.inp ++ d, kern := k } 4 p d.length
  rw [Nat.mod_eq_of_lt hw] at this
  exact this

/-! ### The hypotheses can be met -/

theorem exVec_sound (k : List Resp) : Sound (exSt exVec k) 16 2 := by
  have a0 : bufAddr (exSt exVec k) 16 0 = 64 := (by decide +kernel : bufAddr (exSt exVec []) 16 0 = 64)
  have l0 : bufLen (exSt exVec k) 16 0 = 3 := (by decide +kernel : bufLen (exSt exVec []) 16 0 = 3)
  have a1 : bufAddr (exSt exVec k) 16 1 = 80 := (by decide +kernel : bufAddr (exSt exVec []) 16 1 = 80)
  have l1 : bufLen (exSt exVec k) 16 1 = 5 := (by decide +kernel : bufLen (exSt exVec []) 16 1 = 5)
  have pg : (exSt exVec k).pages = 1 := (by decide +kernel : (exSt exVec []).pages = 1)
  refine ⟨by rw [pg]; decide, fun j hj => ?_⟩
  have : j = 0 ∨ j = 1 := by omega
  rcases this with rfl | rfl
  · rw [a0, l0, pg]; decide
  · rw [a1, l1, pg]; decide

example (a : Arch) : ∃ s, LReach a exTime exInfo s ∧ Sound s 16 2 ∧ s.kern = accepts s 16 2 ++ [] ∧ (gather s 16 2).length = 8 :=
  ⟨exSt exVec [.wrote 3, .wrote 5], exSt_reach _ _ _, exVec_sound _, by decide +kernel, by decide +kernel⟩

example (a : Arch) : ∃ s, LReach a exTime exInfo s ∧ Sound s 16 1 ∧ s.kern = .got [1, 2] :: [] :=
  ⟨exSt exVec [.got [1, 2]], exSt_reach _ _ _, ⟨by have := (exVec_sound [.got [1, 2]]).vector; omega, fun j hj => (exVec_sound _).buffer j (by omega)⟩, rfl⟩

end Gate.AbiLib
