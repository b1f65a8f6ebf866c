import Verif.AbiLibPoll
/-
C100: poll_oneoff (continued), C101: environment, random data, exit, bad descriptors, clocks, fd_filestat_get.
-/
namespace Gate.AbiLib
open Gate Gate.ImageFile Gate.Rt

/-! ### poll_oneoff -/

/-- Two subscriptions of readability of the gate descriptor are answered with one event at most, and it's never that of the first one. -/
theorem poll_duplicate_refuted (a : Arch) (rtTime : Nat → M Nat) (ht : ∀ n, Good (rtTime n)) (i : Info) (hv : i.Valid) (s s' : St) (hr : LReach a rtTime i s) (sub out p : Nat)
    (h1 : subType s sub = 1) (h2 : subFd s sub = 4) (h3 : subType s (sub + 56) = 1) (h4 : subFd s (sub + 56) = 4) (hp : p + 4 ≤ out ∨ out + 32 ≤ p)
    (h : libCall a rtTime (.pollOneoff sub out 2 p) s = .ok 0 s') :
    peek s' 4 p ≤ 1 ∧ (peek s' 4 p = 1 → userdata s' out = userdata s (sub + 56)) := by
  have hs := (lreach_inv a rtTime ht i hv s hr).1
  simp only [libCall, pollOneoff] at h
  obtain ⟨r, s1, g1, h⟩ := bind_ok _ _ _ _ _ h
  have key : ∃ v, r = .inr v ∧ v = { out := out, reading := 1, readUserdata := userdata s (sub + 56) } ∧ s1 = s := by
    clear h
    unfold pollLoop at g1
    obtain ⟨t, t1, a1, g2⟩ := bind_ok _ _ _ _ _ g1
    clear g1
    obtain ⟨et, rfl, hb⟩ := ld_ok _ _ _ _ _ a1
    have et : t = 1 := et.trans h1
    subst et
    rw [if_neg (by decide), if_neg (by decide)] at g2
    obtain ⟨fd, t1, a2, g3⟩ := bind_ok _ _ _ _ _ g2
    clear g2
    obtain ⟨ef, rfl, _⟩ := ld_ok _ _ _ _ _ a2
    have ef : fd = 4 := ef.trans h2
    subst ef
    obtain ⟨v1, t1, a3, g4⟩ := bind_ok _ _ _ _ _ g3
    clear g3
    unfold pollFd at a3
    rw [if_pos rfl, if_pos rfl] at a3
    obtain ⟨u1, t2, a4, a5⟩ := bind_ok _ _ _ _ _ a3
    obtain ⟨_, e2, _⟩ := ld_ok _ _ _ _ _ a4
    obtain ⟨ev1, e3⟩ := pure_ok _ _ _ _ a5
    obtain ⟨v2, t3, a6, g5⟩ := bind_ok _ _ _ _ _ g4
    clear g4 a3
    unfold pollStd at a6
    rw [if_neg (by decide)] at a6
    obtain ⟨ev2, e4⟩ := pure_ok _ _ _ _ a6
    rw [e4, e3, ← e2, sub_no_wrap _ hs sub (by omega)] at g5
    clear e2 e3 e4 a4 a5 a6
    unfold pollLoop at g5
    obtain ⟨t, t1, a1, g2⟩ := bind_ok _ _ _ _ _ g5
    clear g5
    obtain ⟨et, rfl, hb⟩ := ld_ok _ _ _ _ _ a1
    have et : t = 1 := et.trans h3
    subst et
    rw [if_neg (by decide), if_neg (by decide)] at g2
    obtain ⟨fd, t1, a2, g3⟩ := bind_ok _ _ _ _ _ g2
    clear g2
    obtain ⟨ef, rfl, _⟩ := ld_ok _ _ _ _ _ a2
    have ef : fd = 4 := ef.trans h4
    subst ef
    obtain ⟨v3, t1, a3, g4⟩ := bind_ok _ _ _ _ _ g3
    clear g3
    unfold pollFd at a3
    rw [if_pos rfl, if_pos rfl] at a3
    obtain ⟨u2, t2, a4, a5⟩ := bind_ok _ _ _ _ _ a3
    obtain ⟨eu, e2, _⟩ := ld_ok _ _ _ _ _ a4
    obtain ⟨ev3, e3⟩ := pure_ok _ _ _ _ a5
    obtain ⟨v4, t3, a6, g5⟩ := bind_ok _ _ _ _ _ g4
    clear g4 a3
    unfold pollStd at a6
    rw [if_neg (by decide)] at a6
    obtain ⟨ev4, e4⟩ := pure_ok _ _ _ _ a6
    unfold pollLoop at g5
    obtain ⟨er, e5⟩ := pure_ok _ _ _ _ g5
    have eu : u2 = userdata s (sub + 56) := eu
    exact ⟨v4, er, by rw [ev4, ev3, ev2, ev1, eu], by rw [e5, e4, e3, ← e2]⟩
  obtain ⟨v4, er, e, es⟩ := key
  rw [er, es] at h
  have h : pollFinish p v4 s = .ok 0 s' := h
  have kept : ∀ P : Nat → Prop, P (userdata s (sub + 56)) → Kept v4 P := fun P hP => by rw [e]; exact ⟨fun _ => hP, fun h => absurd rfl h⟩
  have ok4 : v4.Ok := by rw [e]; exact ⟨.inr rfl, .inl rfl⟩
  have k4 : v4.kinds = 1 := by rw [e]; rfl
  have n4 : v4.nout = 0 := by rw [e]
  have o4 : v4.out = out := by rw [e]
  obtain ⟨_, j, s5, q1, q2, q3, q4, q5, q6⟩ := pollFinish_ok p v4 ok4 (by rw [n4, k4]; decide) (kept _ (peek_lt8 _ _)) s s' hs 0 h
  rw [n4, Nat.zero_add] at q2
  refine ⟨by omega, fun hj => ?_⟩
  have := q6 (· = userdata s (sub + 56)) (kept _ rfl) 0 (by omega)
  rw [o4] at this
  unfold userdata at this ⊢
  rw [q5.peek 8 out (by omega)]
  exact this

/-- The subscriptions of wasi_snapshot_preview1 (48 bytes) aren't understood: two of them which are about the gate descriptor are an error. -/
theorem poll_preview1_refuted (a : Arch) (rtTime : Nat → M Nat) (i : Info) (hv : i.Valid) (ht : ∀ n, Good (rtTime n)) (s : St) (hr : LReach a rtTime i s) (sub out p : Nat)
    (hb : sub + 96 ≤ s.pages * 65536)
    (h1 : subType s sub = 1 ∨ subType s sub = 2) (h2 : subFd s sub = 4) (h4 : subFd s (sub + 48) = 4) :
    libCall a rtTime (.pollOneoff sub out 2 p) s = .ok 28 s := by
  have hs := (lreach_inv a rtTime ht i hv s hr).1
  have l : ∀ n ea, ea + n ≤ s.pages * 65536 → ld n ea s = .ok (peek s n ea) s := by
    intro n ea h
    show (if _ then _ else _) = _
    rw [if_pos h]; rfl
  have b : ∀ {α β : Type} (m : M α) (k : α → M β) (x : α), m s = .ok x s → (m >>= k) s = k x s := by
    intro α β m k x h
    show M.bind m k s = _
    unfold M.bind
    rw [h]
  have t2 : peek s 1 (sub + 56 + 8) = 4 := by
    have e : peek s 4 (sub + 48 + 16) = 4 := h4
    unfold peek at e ⊢
    have : ImageFile.read s.space (s.base + (sub + 56 + 8)) 1 = (ImageFile.read s.space (s.base + (sub + 48 + 16)) 4).take 1 := by
      rw [show sub + 56 + 8 = sub + 48 + 16 by omega]
      rfl
    rw [this]
    generalize ImageFile.read s.space (s.base + (sub + 48 + 16)) 4 = bs at *
    match bs with
    | [] => simp [unle] at e
    | x :: xs =>
      simp only [unle] at e
      simp only [List.take_succ_cons, List.take_zero, unle]
      have := x.toNat_lt
      omega
  show (pollLoop 2 sub { out := out } >>= _) s = _
  have key : pollLoop 2 sub { out := out } s = .ok (.inl 28) s := by
    unfold pollLoop
    rw [b _ _ _ (l 1 (sub + 8) (by omega))]
    have ht : ¬ 3 ≤ peek s 1 (sub + 8) ∧ peek s 1 (sub + 8) ≠ 0 := by
      have : peek s 1 (sub + 8) = 1 ∨ peek s 1 (sub + 8) = 2 := h1
      omega
    rw [if_neg ht.1, if_neg ht.2, b _ _ _ (l 4 (sub + 16) (by omega))]
    have f : peek s 4 (sub + 16) = 4 := h2
    rw [f]
    have fd : ∃ v', pollFd sub (peek s 1 (sub + 8)) 4 { out := out } s = .ok v' s := by
      unfold pollFd
      rw [if_pos rfl]
      split
      · exact ⟨_, b _ _ _ (l 8 (sub + 0) (by omega))⟩
      · exact ⟨_, b _ _ _ (l 8 (sub + 0) (by omega))⟩
    obtain ⟨v', fd⟩ := fd
    rw [b _ _ _ fd]
    have std : pollStd sub (peek s 1 (sub + 8)) 4 v' s = .ok v' s := by
      unfold pollStd
      rw [if_neg (by omega)]
      rfl
    rw [b _ _ _ std, sub_no_wrap s hs sub (by omega)]
    unfold pollLoop
    rw [b _ _ _ (l 1 (sub + 56 + 8) (by omega)), t2, if_pos (by decide)]
    rfl
  rw [b _ _ _ key]
  rfl

/-! ### The environment -/

theorem Changed.read {s s' : St} {lo hi : Nat} (h : Changed s s' lo hi) (n ea : Nat) (hd : ea + n ≤ lo ∨ hi ≤ ea) :
    ImageFile.read s'.space (s'.base + ea) n = ImageFile.read s.space (s.base + ea) n := by
  rw [h.base]
  refine read_ext _ _ _ _ _ fun k hk => ?_
  rw [Nat.add_assoc]
  exact h.same _ (by omega)

theorem read_st (n ea v : Nat) (s s' : St) (u : Unit) (h : st n ea v s = .ok u s') : ImageFile.read s'.space (s'.base + ea) n = le n v := by
  obtain ⟨e, _⟩ := st_ok _ _ _ _ _ _ h
  rw [e]
  have := read_write s.space (s.base + ea) (le n v)
  rw [length_le] at this
  exact this

/-- The environment variables, each followed by a zero byte; and two more zeros. -/
def environment : List String := ["GATE_ABI_VERSION=0", "GATE_FD=4", "GATE_MAX_SEND_SIZE=65536"]

def cstrings (l : List String) : Bytes := l.flatMap fun x => x.toUTF8.toList ++ [0]

/-- environ_sizes_get tells the number of variables, and the size of the buffer (with two extra bytes). environ_get stores the strings to the buffer and pointers to them, if the two don't overlap. -/
theorem environ (a : Arch) (rtTime : Nat → M Nat) (ht : ∀ n, Good (rtTime n)) (i : Info) (hv : i.Valid) (s s' : St) (hr : LReach a rtTime i s) :
    (∀ p q r, p + 4 ≤ q ∨ q + 4 ≤ p → libCall a rtTime (.environSizesGet p q) s = .ok r s' →
      r = 0 ∧ peek s' 4 p = environment.length ∧ peek s' 4 q = (cstrings environment).length + 2) ∧
    ∀ env buf r, env + 12 ≤ buf ∨ buf + 56 ≤ env → libCall a rtTime (.environGet env buf) s = .ok r s' →
      r = 0 ∧ ImageFile.read s'.space (s'.base + buf) 56 = cstrings environment ++ [0, 0] ∧
      (∀ j, j < 3 → peek s' 4 (env + 4 * j) = buf + (cstrings (environment.take j)).length) := by
  have hs := (lreach_inv a rtTime ht i hv s hr).1
  constructor
  · intro p q r hd h
    simp only [libCall, environSizesGet] at h
    obtain ⟨_, s1, g1, h⟩ := bind_ok _ _ _ _ _ h
    obtain ⟨_, s2, g2, h⟩ := bind_ok _ _ _ _ _ h
    obtain ⟨e1, e2⟩ := pure_ok _ _ _ _ h
    rw [e2]
    refine ⟨e1, ?_, by rw [peek_st _ _ _ _ _ _ g2]; decide +kernel⟩
    rw [(changed_st _ _ _ _ _ _ g2).1.peek 4 p (by omega), peek_st _ _ _ _ _ _ g1]
    decide
  · intro env buf r hd h
    simp only [libCall, environGet] at h
    obtain ⟨_, s1, g1, h⟩ := bind_ok _ _ _ _ _ h
    obtain ⟨_, s2, g2, h⟩ := bind_ok _ _ _ _ _ h
    obtain ⟨_, s3, g3, h⟩ := bind_ok _ _ _ _ _ h
    obtain ⟨_, s4, g4, h⟩ := bind_ok _ _ _ _ _ h
    obtain ⟨_, s5, g5, h⟩ := bind_ok _ _ _ _ _ h
    obtain ⟨_, s6, g6, h⟩ := bind_ok _ _ _ _ _ h
    obtain ⟨_, s7, g7, h⟩ := bind_ok _ _ _ _ _ h
    obtain ⟨_, s8, g8, h⟩ := bind_ok _ _ _ _ _ h
    obtain ⟨_, s9, g9, h⟩ := bind_ok _ _ _ _ _ h
    obtain ⟨_, s10, g10, h⟩ := bind_ok _ _ _ _ _ h
    obtain ⟨e1, e2⟩ := pure_ok _ _ _ _ h
    rw [e2]
    have c2 := (changed_st _ _ _ _ _ _ g2).1
    have c3 := (changed_st _ _ _ _ _ _ g3).1
    have c4 := (changed_st _ _ _ _ _ _ g4).1
    have c5 := (changed_st _ _ _ _ _ _ g5).1
    have c6 := (changed_st _ _ _ _ _ _ g6).1
    have c7 := (changed_st _ _ _ _ _ _ g7).1
    have c8 := (changed_st _ _ _ _ _ _ g8).1
    have c9 := (changed_st _ _ _ _ _ _ g9).1
    have c10 := (changed_st _ _ _ _ _ _ g10).1
    -- The buffer is in memory.
    have hb : buf + 56 ≤ s.pages * 65536 := by
      have := (changed_st _ _ _ _ _ _ g7).2
      rw [c6.pages, c5.pages, c4.pages, c3.pages, c2.pages, (changed_st _ _ _ _ _ _ g1).1.pages] at this
      omega
    have hw : buf + 56 < w32 := by
      have h1 := hs.pages
      have h2 := hs.limit
      simp only [w32]; omega
    refine ⟨e1, ?_, fun j hj => ?_⟩
    · have r1 := read_st _ _ _ _ _ _ g1
      have r2 := read_st _ _ _ _ _ _ g2
      have r3 := read_st _ _ _ _ _ _ g3
      have r4 := read_st _ _ _ _ _ _ g4
      have r5 := read_st _ _ _ _ _ _ g5
      have r6 := read_st _ _ _ _ _ _ g6
      have r7 := read_st _ _ _ _ _ _ g7
      rw [← c2.read 8 (buf + 0) (by omega), ← c3.read 8 (buf + 0) (by omega), ← c4.read 8 (buf + 0) (by omega), ← c5.read 8 (buf + 0) (by omega), ← c6.read 8 (buf + 0) (by omega),
        ← c7.read 8 (buf + 0) (by omega), ← c8.read 8 (buf + 0) (by omega), ← c9.read 8 (buf + 0) (by omega), ← c10.read 8 (buf + 0) (by omega)] at r1
      rw [← c3.read 8 (buf + 8) (by omega), ← c4.read 8 (buf + 8) (by omega), ← c5.read 8 (buf + 8) (by omega), ← c6.read 8 (buf + 8) (by omega),
        ← c7.read 8 (buf + 8) (by omega), ← c8.read 8 (buf + 8) (by omega), ← c9.read 8 (buf + 8) (by omega), ← c10.read 8 (buf + 8) (by omega)] at r2
      rw [← c4.read 8 (buf + 16) (by omega), ← c5.read 8 (buf + 16) (by omega), ← c6.read 8 (buf + 16) (by omega),
        ← c7.read 8 (buf + 16) (by omega), ← c8.read 8 (buf + 16) (by omega), ← c9.read 8 (buf + 16) (by omega), ← c10.read 8 (buf + 16) (by omega)] at r3
      rw [← c5.read 8 (buf + 24) (by omega), ← c6.read 8 (buf + 24) (by omega),
        ← c7.read 8 (buf + 24) (by omega), ← c8.read 8 (buf + 24) (by omega), ← c9.read 8 (buf + 24) (by omega), ← c10.read 8 (buf + 24) (by omega)] at r4
      rw [← c6.read 8 (buf + 32) (by omega),
        ← c7.read 8 (buf + 32) (by omega), ← c8.read 8 (buf + 32) (by omega), ← c9.read 8 (buf + 32) (by omega), ← c10.read 8 (buf + 32) (by omega)] at r5
      rw [← c7.read 8 (buf + 40) (by omega), ← c8.read 8 (buf + 40) (by omega), ← c9.read 8 (buf + 40) (by omega), ← c10.read 8 (buf + 40) (by omega)] at r6
      rw [← c8.read 8 (buf + 48) (by omega), ← c9.read 8 (buf + 48) (by omega), ← c10.read 8 (buf + 48) (by omega)] at r7
      have split : ImageFile.read s10.space (s10.base + buf) 56 = ImageFile.read s10.space (s10.base + (buf + 0)) 8 ++ (ImageFile.read s10.space (s10.base + (buf + 8)) 8 ++
          (ImageFile.read s10.space (s10.base + (buf + 16)) 8 ++ (ImageFile.read s10.space (s10.base + (buf + 24)) 8 ++ (ImageFile.read s10.space (s10.base + (buf + 32)) 8 ++
          (ImageFile.read s10.space (s10.base + (buf + 40)) 8 ++ ImageFile.read s10.space (s10.base + (buf + 48)) 8))))) := by
        rfl
      rw [split, r1, r2, r3, r4, r5, r6, r7]
      decide +kernel
    · have : j = 0 ∨ j = 1 ∨ j = 2 := by omega
      rcases this with rfl | rfl | rfl
      · show peek s10 4 (env + 0) = buf + 0
        rw [c10.peek 4 _ (by omega), c9.peek 4 _ (by omega), peek_st _ _ _ _ _ _ g8]
        exact Nat.mod_eq_of_lt (Nat.lt_of_le_of_lt (by omega) hw)
      · show peek s10 4 (env + 4) = buf + (cstrings (environment.take 1)).length
        rw [c10.peek 4 _ (by omega), peek_st _ _ _ _ _ _ g9, show (cstrings (environment.take 1)).length = 19 by decide +kernel, Nat.mod_mod]
        exact Nat.mod_eq_of_lt (Nat.lt_of_le_of_lt (by omega) hw)
      · show peek s10 4 (env + 8) = buf + (cstrings (environment.take 2)).length
        rw [peek_st _ _ _ _ _ _ g10, show (cstrings (environment.take 2)).length = 29 by decide +kernel, Nat.mod_mod]
        exact Nat.mod_eq_of_lt (Nat.lt_of_le_of_lt (by omega) hw)

/-! ### Random data -/

/-- The random data which hasn't been used, in the order in which it will be. -/
def unused (s : St) : Bytes := (s.random.take s.randomAvail).reverse

theorem rtRandom_some (s : St) (h : 0 < s.randomAvail) (hl : s.randomAvail ≤ s.random.length) :
    ∃ b rest, unused s = b :: rest ∧ rtRandom s = .ok b.toNat { s with randomAvail := s.randomAvail - 1 } ∧ unused { s with randomAvail := s.randomAvail - 1 } = rest := by
  obtain ⟨n, hn⟩ : ∃ n, s.randomAvail = n + 1 := ⟨s.randomAvail - 1, by omega⟩
  have hlt : n < s.random.length := by omega
  refine ⟨s.random[n], (s.random.take n).reverse, ?_, ?_, ?_⟩
  · unfold unused
    rw [hn, List.take_add_one, List.getElem?_eq_getElem hlt]
    simp
  · unfold rtRandom
    rw [if_neg (by omega), hn, Nat.add_sub_cancel]
    simp [List.getD, List.getElem?_eq_getElem hlt]
  · unfold unused
    rw [hn, Nat.add_sub_cancel]

theorem unused_length (s : St) (hl : s.randomAvail ≤ s.random.length) : (unused s).length = s.randomAvail := by
  unfold unused
  rw [List.length_reverse, List.length_take]
  omega

theorem randomGet_ok (n buf : Nat) (s : St) (hs : Rt.Inv s) (hl : s.randomAvail ≤ s.random.length) (hb : buf + n ≤ s.pages * 65536) :
    if n ≤ s.randomAvail then
      ∃ f, randomGet buf n s = .ok 0 { s with space := f, randomAvail := s.randomAvail - n } ∧ ImageFile.read f (s.base + buf) n = (unused s).take n ∧
        ∀ x, x < buf ∨ buf + n ≤ x → f (s.base + x) = s.space (s.base + x)
    else ∃ s', randomGet buf n s = .exit 127 s' := by
  induction n generalizing buf s with
  | zero =>
    rw [if_pos (by omega)]
    exact ⟨s.space, rfl, rfl, fun _ _ => rfl⟩
  | succ n ih =>
    by_cases h0 : s.randomAvail = 0
    · rw [if_neg (by omega)]
      refine ⟨s, ?_⟩
      have : rtRandom s = .ok 4294967295 s := by unfold rtRandom; rw [if_pos h0]
      show M.bind rtRandom _ s = _
      unfold M.bind
      rw [this]
      rfl
    · obtain ⟨b, rest, u1, u2, u3⟩ := rtRandom_some s (by omega) hl
      have hlt := b.toNat_lt
      -- The first byte.
      have e : randomGet buf (n + 1) s = randomGet (buf + 1) n { s with space := ImageFile.write s.space (s.base + buf) (le 1 b.toNat), randomAvail := s.randomAvail - 1 } := by
        show M.bind rtRandom _ s = _
        unfold M.bind
        rw [u2]
        show (if b.toNat < 2147483648 then (st 1 buf b.toNat >>= fun _ => randomGet ((buf + 1) % w32) n) else rtStop deficiency) _ = _
        rw [if_pos (by omega)]
        show M.bind (st 1 buf b.toNat) _ _ = _
        unfold M.bind st
        simp only
        rw [if_pos (by omega)]
        have w : (buf + 1) % w32 = buf + 1 := by
          have h1 := hs.pages
          have h2 := hs.limit
          exact Nat.mod_eq_of_lt (by simp only [w32]; omega)
        rw [w]
      have hs1 : Rt.Inv { s with space := ImageFile.write s.space (s.base + buf) (le 1 b.toNat), randomAvail := s.randomAvail - 1 } :=
        ⟨hs.base, hs.limit, hs.pages, hs.acc, by have := hs.avail; show s.randomAvail - 1 ≤ 16; omega⟩
      have := ih (buf + 1) _ hs1 (by show s.randomAvail - 1 ≤ s.random.length; omega) (by show buf + 1 + n ≤ s.pages * 65536; omega)
      have ea : ({ s with space := ImageFile.write s.space (s.base + buf) (le 1 b.toNat), randomAvail := s.randomAvail - 1 } : St).randomAvail = s.randomAvail - 1 := rfl
      by_cases hc : n + 1 ≤ s.randomAvail
      · rw [if_pos (by rw [ea]; omega)] at this
        rw [if_pos hc, e]
        obtain ⟨f, f1, f2, f3⟩ := this
        refine ⟨f, ?_, ?_, fun x hx => ?_⟩
        · rw [f1]
          have : s.randomAvail - 1 - n = s.randomAvail - (n + 1) := by omega
          simp only [this]
        · have sp : ImageFile.read f (s.base + buf) (n + 1) = f (s.base + buf) :: ImageFile.read f (s.base + (buf + 1)) n := by
            rw [Nat.add_comm n 1, ← Rt.read_append]
            rfl
          rw [sp, u1, List.take_succ_cons, ← u3]
          have g1 : f (s.base + buf) = b := by
            rw [f3 buf (by omega)]
            simp [ImageFile.write, le]
          rw [g1]
          have f2 : ImageFile.read f (s.base + (buf + 1)) n = (unused { s with space := ImageFile.write s.space (s.base + buf) (le 1 b.toNat), randomAvail := s.randomAvail - 1 }).take n := f2
          rw [f2]
          rfl
        · rw [f3 x (by omega)]
          simp only [ImageFile.write, length_le]
          rw [if_neg (by omega)]
      · rw [if_neg (by rw [ea]; omega)] at this
        rw [if_neg hc, e]
        exact this

/-- random_get of a buffer which is in memory: if there's enough random data left, that is stored to the buffer, nothing else in memory is changed, and it will not be used again.
Otherwise the program is stopped because of ABI deficiency. -/
theorem random_get (a : Arch) (rtTime : Nat → M Nat) (ht : ∀ n, Good (rtTime n)) (i : Info) (hv : i.Valid) (s : St) (hr : LReach a rtTime i s) (buf n : Nat) (hb : buf + n ≤ s.pages * 65536) :
    (unused s).length ≤ 16 ∧
    (n ≤ (unused s).length → ∃ s', libCall a rtTime (.randomGet buf n) s = .ok 0 s' ∧ ImageFile.read s'.space (s.base + buf) n = (unused s).take n ∧ unused s' = (unused s).drop n ∧
      (∀ x, x < buf ∨ buf + n ≤ x → s'.space (s.base + x) = s.space (s.base + x)) ∧ s'.out = s.out ∧ s'.inp = s.inp ∧ s'.dbg = s.dbg) ∧
    ((unused s).length < n → ∃ s', libCall a rtTime (.randomGet buf n) s = .exit 127 s' ∧
      Process.serve .ok (some (Process.exitWait 127)) false = ⟨0, Process.trapABIDeficiency, none⟩) := by
  obtain ⟨hs, fx⟩ := lreach_inv a rtTime ht i hv s hr
  have hlen : s.random.length = 16 := by rw [fx.random]; exact hv.random
  have hl : s.randomAvail ≤ s.random.length := by rw [hlen]; exact hs.avail
  have ul := unused_length s hl
  have key := randomGet_ok n buf s hs hl hb
  refine ⟨by rw [ul]; exact hs.avail, fun hn => ?_, fun hn => ?_⟩
  · rw [if_pos (by omega)] at key
    obtain ⟨f, f1, f2, f3⟩ := key
    refine ⟨_, f1, f2, ?_, f3, rfl, rfl, rfl⟩
    unfold unused
    simp only
    rw [List.drop_reverse, List.take_take, List.length_take]
    refine congrArg List.reverse (congrArg (List.take · s.random) ?_)
    omega
  · rw [if_neg (by omega)] at key
    obtain ⟨s', k⟩ := key
    exact ⟨s', k, by decide⟩

/-! ### Exit -/

/-- proc_exit ends the process, and the program is found to have been terminated; of the status only whether it's zero is known. -/
theorem proc_exit (a : Arch) (rtTime : Nat → M Nat) (s : St) (status : Nat) :
    ∃ n, libCall a rtTime (.procExit status) s = .exit n s ∧
      ∃ code, Process.serve .ok (some (Process.exitWait n)) false = ⟨code, Process.trapExit, none⟩ ∧ Process.terminated code = true ∧ (Process.value code = 0 ↔ status = 0) := by
  by_cases h : status = 0
  · subst h
    exact ⟨2, rfl, 2, by decide, by decide, by decide⟩
  · refine ⟨3, ?_, 3, by decide, by decide, by simp [h, Process.value]⟩
    show (rtStop (Process.procExit status) >>= _) s = _
    have : Process.procExit status = 3 := by
      unfold Process.procExit
      rw [if_pos h]
      rfl
    rw [this]
    rfl

/-! ### Descriptors -/

/-- The functions which take a descriptor. -/
def LibCall.onFd (c : LibCall) (n : Nat) : Prop :=
  c = .fdClose n ∨ (∃ x, c = .fdFdstatGet n x) ∨ (∃ x, c = .fdFdstatSetFlags n x) ∨ (∃ x y, c = .fdFdstatSetRights n x y) ∨ (∃ x, c = .fdFilestatGet n x) ∨
  (∃ x y z, c = .fdRead n x y z) ∨ (∃ x, c = .fdRenumber n x) ∨ (∃ x, c = .fdRenumber x n) ∨ c = .fdStub n ∨ (∃ x y z, c = .fdWrite n x y z) ∨ c = .sockStub n

/-- There are four descriptors: 0, 1, 2 and 4. For any other the error is EBADF, and nothing happens. -/
theorem bad_descriptor (a : Arch) (rtTime : Nat → M Nat) (s : St) (c : LibCall) (n : Nat) (hc : c.onFd n) (hn : n ≠ 0 ∧ n ≠ 1 ∧ n ≠ 2 ∧ n ≠ 4) : libCall a rtTime c s = .ok 8 s := by
  have hb : badFd n = true := by
    unfold badFd
    simp only [Bool.or_eq_true, beq_iff_eq, decide_eq_true_eq]
    omega
  rcases hc with rfl | ⟨x, rfl⟩ | ⟨x, rfl⟩ | ⟨x, y, rfl⟩ | ⟨x, rfl⟩ | ⟨x, y, z, rfl⟩ | ⟨x, rfl⟩ | ⟨x, rfl⟩ | rfl | ⟨x, y, z, rfl⟩ | rfl <;>
    simp only [libCall, fdClose, fdFdstatGet, fdFdstatSetFlags, fdFdstatSetRights, fdFilestatGet, fdRead, fdRenumber, fdStub, fdWrite, sockStub, hb, Bool.true_or, Bool.or_true, if_true] <;> rfl

/-- The result isn't EBADF. -/
def Fine (m : M Nat) : Prop := ∀ s s' r, m s = .ok r s' → r ≠ 8

theorem Fine.pure (x : Nat) (h : x ≠ 8) : Fine (Pure.pure x) := fun _ _ _ e => by rw [(pure_ok _ _ _ _ e).1]; exact h
theorem Fine.stop (n : Nat) : Fine (rtStop n) := fun _ _ _ e => by simp [rtStop, Rt.exit] at e
theorem Fine.bind {α : Type} (m : M α) (k : α → M Nat) (h : ∀ x, Fine (k x)) : Fine (m >>= k) := fun _ _ _ e => by
  obtain ⟨x, s1, _, e⟩ := bind_ok _ _ _ _ _ e
  exact h x _ _ _ e
theorem Fine.ite {c : Prop} [Decidable c] {m n : M Nat} (h1 : Fine m) (h2 : Fine n) : Fine (if c then m else n) := by split <;> assumption

/-- The good ones aren't reported to be bad (with fd_renumber, both of the descriptors must be good). -/
theorem good_descriptor (a : Arch) (rtTime : Nat → M Nat) (s s' : St) (c : LibCall) (n r : Nat) (hc : c.onFd n) (hn : n = 0 ∨ n = 1 ∨ n = 2 ∨ n = 4)
    (hren : ∀ x y, c = .fdRenumber x y → (x = 0 ∨ x = 1 ∨ x = 2 ∨ x = 4) ∧ (y = 0 ∨ y = 1 ∨ y = 2 ∨ y = 4)) (h : libCall a rtTime c s = .ok r s') : r ≠ 8 := by
  have good : ∀ n, (n = 0 ∨ n = 1 ∨ n = 2 ∨ n = 4) → badFd n = false := by rintro n (rfl | rfl | rfl | rfl) <;> decide
  have hb := good n hn
  have hf : ∀ m : M Nat, Fine m → Fine (if false = true then Pure.pure EBADF else m) := by intro m hm; simpa using hm
  have two : ∀ x y, c = .fdRenumber x y → Fine (fdRenumber x y) := by
    intro x y e
    obtain ⟨h1, h2⟩ := hren x y e
    unfold fdRenumber
    rw [good x h1, good y h2]
    exact hf _ (.ite (.pure _ (by decide)) (.stop _))
  refine (?_ : Fine (libCall a rtTime c)) s s' r h
  rcases hc with e | ⟨x, e⟩ | ⟨x, e⟩ | ⟨x, y, e⟩ | ⟨x, e⟩ | ⟨x, y, z, e⟩ | ⟨x, e⟩ | ⟨x, e⟩ | e | ⟨x, y, z, e⟩ | e
  case inr.inr.inr.inr.inr.inr.inl => rw [e]; exact two _ _ e
  case inr.inr.inr.inr.inr.inr.inr.inl => rw [e]; exact two _ _ e
  all_goals
    rw [e]
    simp only [libCall, fdClose, fdFdstatGet, fdFdstatSetFlags, fdFdstatSetRights, fdFilestatGet, fdRead, fdStub, fdWrite, sockStub, hb]
    refine hf _ ?_
    repeat' first
      | exact Fine.pure _ (by decide)
      | exact Fine.stop _
      | apply Fine.ite
      | (refine Fine.bind _ _ fun _ => ?_)

/-! ### fd_filestat_get -/

/-- The size of a file is a 64-bit number at offset 24; only its lower half is stored, and the rest is what was in memory. -/
theorem fd_filestat_size_refuted (a : Arch) (rtTime : Nat → M Nat) (s s' : St) (fd buf : Nat) (hf : badFd fd = false) (h : libCall a rtTime (.fdFilestatGet fd buf) s = .ok 0 s') :
    peek s' 4 (buf + 24) = 0 ∧ peek s' 4 (buf + 28) = peek s 4 (buf + 28) := by
  simp only [libCall, fdFilestatGet, hf] at h
  rw [if_neg (by decide)] at h
  obtain ⟨_, s1, g1, h⟩ := bind_ok _ _ _ _ _ h
  obtain ⟨_, s2, g2, h⟩ := bind_ok _ _ _ _ _ h
  obtain ⟨_, s3, g3, h⟩ := bind_ok _ _ _ _ _ h
  obtain ⟨_, s4, g4, h⟩ := bind_ok _ _ _ _ _ h
  obtain ⟨_, s5, g5, h⟩ := bind_ok _ _ _ _ _ h
  obtain ⟨_, s6, g6, h⟩ := bind_ok _ _ _ _ _ h
  obtain ⟨_, s7, g7, h⟩ := bind_ok _ _ _ _ _ h
  obtain ⟨_, s8, g8, h⟩ := bind_ok _ _ _ _ _ h
  rw [(pure_ok _ _ _ _ h).2]
  have c1 := (changed_st _ _ _ _ _ _ g1).1
  have c2 := (changed_st _ _ _ _ _ _ g2).1
  have c3 := (changed_st _ _ _ _ _ _ g3).1
  have c4 := (changed_st _ _ _ _ _ _ g4).1
  have c5 := (changed_st _ _ _ _ _ _ g5).1
  have c6 := (changed_st _ _ _ _ _ _ g6).1
  have c7 := (changed_st _ _ _ _ _ _ g7).1
  have c8 := (changed_st _ _ _ _ _ _ g8).1
  constructor
  · rw [c8.peek 4 _ (by omega), c7.peek 4 _ (by omega), c6.peek 4 _ (by omega), peek_st _ _ _ _ _ _ g5]
  · rw [c8.peek 4 _ (by omega), c7.peek 4 _ (by omega), c6.peek 4 _ (by omega), c5.peek 4 _ (by omega), c4.peek 4 _ (by omega), c3.peek 4 _ (by omega), c2.peek 4 _ (by omega),
      c1.peek 4 _ (by omega)]

/-! ### The hypotheses can be met -/

/-- A process's initial state with such memory. -/
def exSt (mem : Bytes) (k : List Resp) : St := load exInfo (ImageFile.write (fun _ => 0) (exInfo.heapAddr + exInfo.globalsSize) mem) (fun _ => false) k

def exTime (_ : Nat) : M Nat := pure 0

theorem exTime_good (n : Nat) : Good (exTime n) := Good.pure 0

theorem exSt_reach (a : Arch) (mem : Bytes) (k : List Resp) : LReach a exTime exInfo (exSt mem k) := .load _ _ _

/-- The call returns, with such a result and state. -/
def returns (o : Out Nat) (r : Nat) (p : St → Bool) : Bool :=
  match o with
  | .ok r' s => r' == r && p s
  | _ => false

theorem of_returns (o : Out Nat) (r : Nat) (p : St → Bool) (h : returns o r p = true) : ∃ s', o = .ok r s' ∧ p s' = true := by
  cases o with
  | ok r' s =>
    simp only [returns, Bool.and_eq_true, beq_iff_eq] at h
    exact ⟨s, by rw [h.1], h.2⟩
  | exit n s => cases h
  | wait s => cases h

/-- The call doesn't return. -/
def waits (o : Out Nat) : Bool :=
  match o with
  | .wait _ => true
  | _ => false

theorem of_waits (o : Out Nat) (h : waits o = true) : ∃ s', o = .wait s' := by
  cases o with
  | wait s => exact ⟨s, rfl⟩
  | ok r s => cases h
  | exit n s => cases h

/-- Vectors of two buffers: 64 (3 bytes) and 80 (5 bytes). -/
def exVec : Bytes := List.replicate 16 0 ++ (le 4 64 ++ le 4 3 ++ le 4 80 ++ le 4 5) ++ List.replicate 32 0 ++ [1, 2, 3] ++ List.replicate 13 0 ++ [4, 5, 6, 7, 8]

/-- Six bytes of eight are output. -/
example (a : Arch) : ∃ s, LReach a exTime exInfo s ∧ ∃ s', libCall a exTime (.fdWrite 4 16 2 100) s = .ok 0 s' ∧ (decide (s'.out = [1, 2, 3, 4, 5, 6] ∧ peek s' 4 100 = 6)) = true :=
  ⟨exSt exVec [.wrote 3, .wrote 3], exSt_reach _ _ _, of_returns _ _ _ (by cases a <;> decide +kernel)⟩

/-- Standard output. -/
example : ∃ s, LReach .x86 exTime exInfo s ∧ ∃ s', libCall .x86 exTime (.fdWrite 1 16 2 100) s = .ok 0 s' ∧ (decide (s'.dbg = [1, 2, 3, 4, 5, 6, 7, 8] ∧ peek s' 4 100 = 8)) = true :=
  ⟨exSt exVec [.wrote 3, .wrote 1, .wrote 4], exSt_reach _ _ _, of_returns _ _ _ (by decide +kernel)⟩

theorem exVec_apart (k : List Resp) : Apart (exSt exVec k) 16 2 := by
  have a0 : bufAddr (exSt exVec k) 16 0 = 64 := (by decide +kernel : bufAddr (exSt exVec []) 16 0 = 64)
  have l0 : bufLen (exSt exVec k) 16 0 = 3 := (by decide +kernel : bufLen (exSt exVec []) 16 0 = 3)
  have a1 : bufAddr (exSt exVec k) 16 1 = 80 := (by decide +kernel : bufAddr (exSt exVec []) 16 1 = 80)
  have l1 : bufLen (exSt exVec k) 16 1 = 5 := (by decide +kernel : bufLen (exSt exVec []) 16 1 = 5)
  refine ⟨fun x h1 h2 j hj => ?_, fun j q hj hq hne x h1 h2 => ?_⟩
  · have : j = 0 ∨ j = 1 := by omega
    rcases this with rfl | rfl
    · rw [a0, l0]; omega
    · rw [a1, l1]; omega
  · have : (j = 0 ∧ q = 1) ∨ (j = 1 ∧ q = 0) := by omega
    rcases this with ⟨rfl, rfl⟩ | ⟨rfl, rfl⟩
    · rw [a0] at h1 h2; rw [l0] at h2; rw [a1, l1]; omega
    · rw [a1] at h1 h2; rw [l1] at h2; rw [a0, l0]; omega

theorem exVec_clear (k : List Resp) (p : Nat) (hp : 100 ≤ p) : Clear (exSt exVec k) 16 2 p := by
  have a0 : bufAddr (exSt exVec k) 16 0 = 64 := (by decide +kernel : bufAddr (exSt exVec []) 16 0 = 64)
  have l0 : bufLen (exSt exVec k) 16 0 = 3 := (by decide +kernel : bufLen (exSt exVec []) 16 0 = 3)
  have a1 : bufAddr (exSt exVec k) 16 1 = 80 := (by decide +kernel : bufAddr (exSt exVec []) 16 1 = 80)
  have l1 : bufLen (exSt exVec k) 16 1 = 5 := (by decide +kernel : bufLen (exSt exVec []) 16 1 = 5)
  refine fun x h1 h2 => ⟨fun j hj => ?_, by omega⟩
  have : j = 0 ∨ j = 1 := by omega
  rcases this with rfl | rfl
  · rw [a0, l0]; omega
  · rw [a1, l1]; omega

/-- Four bytes are read to two buffers. -/
example (a : Arch) : ∃ s, LReach a exTime exInfo s ∧ Apart s 16 2 ∧ Clear s 16 2 100 ∧
    ∃ s', libCall a exTime (.fdRead 4 16 2 100) s = .ok 0 s' ∧ (decide (gather s' 16 2 = [9, 9, 9, 7, 5, 6, 7, 8] ∧ peek s' 4 100 = 4)) = true :=
  ⟨exSt exVec [.got [9, 9, 9], .got [7]], exSt_reach _ _ _, exVec_apart _, exVec_clear _ _ (by decide), of_returns _ _ _ (by cases a <;> decide +kernel)⟩

/-- io which waits, then sends two bytes, and receives one. -/
example (a : Arch) : ∃ s, LReach a exTime exInfo s ∧ Apart s 16 2 ∧ Clear s 16 2 100 ∧ Clear s 16 2 104 ∧
    ∃ s', libCall a exTime (.io 16 2 104 16 2 100 1) s = .ok 0 s' ∧ (decide (s'.out = [1, 2] ∧ s'.inp = [9] ∧ gather s' 16 2 = [9, 2, 3, 4, 5, 6, 7, 8] ∧ peek s' 4 100 = 2 ∧ peek s' 4 104 = 1)) = true :=
  ⟨exSt exVec [.poll 1 4, .wrote 2, .got [9]], exSt_reach _ _ _, exVec_apart _, exVec_clear _ _ (by decide), exVec_clear _ _ (by decide),
    of_returns _ _ _ (by cases a <;> decide +kernel)⟩

/-- A subscription (56 bytes). -/
def exSub (userdata type fd : Nat) : Bytes := le 8 userdata ++ le 8 type ++ le 4 fd ++ List.replicate 36 0

/-- Three subscriptions: a bad descriptor, and reading and writing of the gate descriptor, of which one is ready. -/
example (a : Arch) : ∃ s, LReach a exTime exInfo s ∧
    ∃ s', libCall a exTime (.pollOneoff 0 200 3 400) s = .ok 0 s' ∧ (decide (peek s' 4 400 = 2 ∧ userdata s' 200 = 77 ∧ userdata s' 232 = 99)) = true :=
  ⟨exSt (exSub 77 1 5 ++ exSub 88 1 4 ++ exSub 99 2 4) [.poll 0 4], exSt_reach _ _ _, of_returns _ _ _ (by cases a <;> decide +kernel)⟩

/-- Standard output is writable, but the call doesn't return. -/
theorem poll_std_waits_refuted (a : Arch) : ∃ s, LReach a exTime exInfo s ∧ subFd s 0 = 1 ∧ subType s 0 = 2 ∧ ∃ s', libCall a exTime (.pollOneoff 0 200 1 400) s = .wait s' :=
  ⟨exSt (exSub 77 2 1) [], exSt_reach _ _ _, by decide +kernel, by decide +kernel, of_waits _ (by cases a <;> decide +kernel)⟩

/-- Until it's interrupted. -/
example (a : Arch) : ∃ s, LReach a exTime exInfo s ∧ (∀ i, i < 1 → subFd s (0 + 56 * i) ≠ 4) ∧ ∃ s', libCall a exTime (.pollOneoff 0 200 1 400) s = .ok 0 s' ∧ (decide (peek s' 4 400 = 1 ∧ userdata s' 200 = 77)) = true :=
  ⟨exSt (exSub 77 2 1) [.err 4], exSt_reach _ _ _, fun i hi => by
    have : i = 0 := by omega
    subst this; decide +kernel, of_returns _ _ _ (by cases a <;> decide +kernel)⟩

/-- Two subscriptions of the same. -/
example (a : Arch) : ∃ s, LReach a exTime exInfo s ∧ subType s 0 = 1 ∧ subFd s 0 = 4 ∧ subType s (0 + 56) = 1 ∧ subFd s (0 + 56) = 4 ∧ userdata s 0 = 77 ∧ userdata s 56 = 88 ∧
    ∃ s', libCall a exTime (.pollOneoff 0 200 2 400) s = .ok 0 s' ∧ (decide (peek s' 4 400 = 1 ∧ userdata s' 200 = 88)) = true :=
  ⟨exSt (exSub 77 1 4 ++ exSub 88 1 4) [.poll 1 0], exSt_reach _ _ _, by decide +kernel, by decide +kernel, by decide +kernel, by decide +kernel, by decide +kernel, by decide +kernel,
    of_returns _ _ _ (by cases a <;> decide +kernel)⟩

/-- Two subscriptions of wasi_snapshot_preview1. -/
example (a : Arch) : ∃ s, LReach a exTime exInfo s ∧ 96 ≤ s.pages * 65536 ∧ subType s 0 = 1 ∧ subFd s 0 = 4 ∧ subFd s (0 + 48) = 4 :=
  ⟨exSt ((exSub 77 1 4).take 48 ++ (exSub 88 2 4).take 48) [], exSt_reach _ _ _, by decide, by decide +kernel, by decide +kernel, by decide +kernel⟩

/-- The environment. -/
example (a : Arch) : ∃ s, LReach a exTime exInfo s ∧ (∃ s', libCall a exTime (.environSizesGet 0 4) s = .ok 0 s' ∧ true = true) ∧ ∃ s', libCall a exTime (.environGet 0 12) s = .ok 0 s' ∧ true = true :=
  ⟨exSt [] [], exSt_reach _ _ _, of_returns _ _ (fun _ => true) (by cases a <;> decide +kernel), of_returns _ _ (fun _ => true) (by cases a <;> decide +kernel)⟩

/-- Twelve bytes of random data, of which there's 16. -/
example (a : Arch) : ∃ s, LReach a exTime exInfo s ∧ 100 + 12 ≤ s.pages * 65536 ∧ (unused s).length = 16 :=
  ⟨exSt [] [], exSt_reach _ _ _, by decide, by decide⟩

example (a : Arch) : ∃ s, LReach a exTime exInfo s ∧ ∃ s', libCall a exTime (.fdFilestatGet 4 100) s = .ok 0 s' ∧ (decide (peek s' 8 124 = 7 * 256 ^ 4)) = true :=
  ⟨exSt (List.replicate 128 0 ++ [7]) [], exSt_reach _ _ _, of_returns _ _ _ (by cases a <;> decide +kernel)⟩

end Gate.AbiLib
