import Verif.AbiLibProps
/-
C97: fd_write, C98: fd_read, C99: io.
-/
namespace Gate.AbiLib
open Gate Gate.ImageFile Gate.Rt

/-! ### Specification: vectors of buffers -/

/-- A little-endian number in the program's memory. -/
def peek (s : St) (n ea : Nat) : Nat := unle (ImageFile.read s.space (s.base + ea) n)

/-- Address and length of a buffer of a vector. -/
def bufAddr (s : St) (iov j : Nat) : Nat := peek s 4 (iov + 8 * j)
def bufLen (s : St) (iov j : Nat) : Nat := peek s 4 (iov + 8 * j + 4)

/-- The contents of the buffers of a vector. -/
def gather (s : St) (iov n : Nat) : Bytes := (List.range n).flatMap fun j => ImageFile.read s.space (s.base + bufAddr s iov j) (bufLen s iov j)

/-! ### Lemmas -/

theorem length_read (f : File) (o n : Nat) : (ImageFile.read f o n).length = n := by simp [ImageFile.read]

theorem peek_lt (s : St) (ea : Nat) : peek s 4 ea < w32 := by
  have := unle_lt (ImageFile.read s.space (s.base + ea) 4)
  rw [length_read] at this
  exact this

theorem gather_succ (s : St) (iov n : Nat) :
    gather s iov (n + 1) = ImageFile.read s.space (s.base + peek s 4 iov) (peek s 4 (iov + 4)) ++ gather s (iov + 8) n := by
  unfold gather
  rw [List.range_succ_eq_map, List.flatMap_cons, List.flatMap_map]
  refine congr (congrArg _ ?_) ?_
  · simp [bufAddr, bufLen]
  · refine congrArg (fun g => List.flatMap g (List.range n)) (funext fun j => ?_)
    have e1 : iov + 8 * (j + 1) = iov + 8 + 8 * j := by omega
    simp only [bufAddr, bufLen, Nat.succ_eq_add_one, e1]

theorem ld_ok (n ea : Nat) (s s' : St) (v : Nat) (h : ld n ea s = .ok v s') : v = peek s n ea ∧ s = s' ∧ ea + n ≤ s.pages * 65536 := by
  unfold ld at h
  split at h
  · cases h; exact ⟨rfl, rfl, by assumption⟩
  · cases h

theorem st_ok (n ea v : Nat) (s s' : St) (u : Unit) (h : st n ea v s = .ok u s') :
    s' = { s with space := ImageFile.write s.space (s.base + ea) (le n v) } ∧ ea + n ≤ s.pages * 65536 := by
  unfold st at h
  split at h
  · cases h; exact ⟨rfl, by assumption⟩
  · cases h

theorem bind_ok {α β : Type} (m : M α) (k : α → M β) (s s' : St) (b : β) (h : (m >>= k) s = .ok b s') : ∃ a s1, m s = .ok a s1 ∧ k a s1 = .ok b s' := by
  rw [bind_eq] at h
  split at h
  · exact ⟨_, _, by assumption, h⟩
  · cases h
  · cases h

theorem pure_ok {α : Type} (a b : α) (s s' : St) (h : (pure a : M α) s = .ok b s') : b = a ∧ s' = s := by
  cases h; exact ⟨rfl, rfl⟩

/-- After a store, the number is there. -/
theorem peek_write (s : St) (n ea v : Nat) : peek { s with space := ImageFile.write s.space (s.base + ea) (le n v) } n ea = v % 256 ^ n := by
  unfold peek
  have := read_write s.space (s.base + ea) (le n v)
  rw [length_le] at this
  rw [this, unle_le]

theorem rtWrite_ok (a : Arch) (addr len : Nat) (ha : addr < w32) (hl : len < w32) (s s' : St) (hs : Rt.Inv s) (m : Nat) (h : rtWrite a addr len s = .ok m s') :
    m ≤ len ∧ ∃ k, s' = { s with out := s.out ++ ImageFile.read s.space (s.base + addr) m, kern := k } := by
  simp only [rtWrite, prologue_exact a s hs addr len ha hl] at h
  by_cases h0 : len = 0
  · simp only [if_pos h0] at h
    cases h
    exact ⟨by omega, s.kern, by simp [ImageFile.read]⟩
  · simp only [if_neg h0] at h
    by_cases h1 : addr + len ≤ s.pages * 65536
    · simp only [if_pos h1] at h
      split at h
      · split at h
        · split at h
          · cases h; exact ⟨by assumption, _, rfl⟩
          · simp [Rt.exit] at h
        · cases h
      · split at h
        · cases h; exact ⟨by omega, _, by simp [ImageFile.read]; rfl⟩
        · simp [Rt.exit] at h
      · cases h
    · simp [if_neg h1, Rt.exit] at h

theorem rtRead_ok (a : Arch) (addr len : Nat) (ha : addr < w32) (hl : len < w32) (s s' : St) (hs : Rt.Inv s) (m : Nat) (h : rtRead a addr len s = .ok m s') :
    ∃ d k, d.length = m ∧ m ≤ len ∧ (m ≠ 0 → addr + len ≤ s.pages * 65536) ∧
      s' = { s with space := ImageFile.write s.space (s.base + addr) d, inp := s.inp ++ d, kern := k } := by
  have hw : ImageFile.write s.space (s.base + addr) [] = s.space := by
    funext x; simp only [ImageFile.write, List.length_nil]; rw [if_neg (by omega)]
  simp only [rtRead, prologue_exact a s hs addr len ha hl] at h
  by_cases h0 : len = 0
  · simp only [if_pos h0] at h
    cases h
    exact ⟨[], s.kern, rfl, by omega, fun h => absurd rfl h, by simp [hw]⟩
  · simp only [if_neg h0] at h
    by_cases h1 : addr + len ≤ s.pages * 65536
    · simp only [if_pos h1] at h
      split at h
      · split at h
        · cases h; exact ⟨_, _, rfl, by assumption, fun _ => h1, rfl⟩
        · cases h
      · split at h
        · cases h; exact ⟨[], _, rfl, by omega, fun h => absurd rfl h, by simp [hw]; rfl⟩
        · simp [Rt.exit] at h
      · cases h
    · simp [if_neg h1, Rt.exit] at h

theorem no_wrap (s : St) (hs : Rt.Inv s) (iov : Nat) (h : iov + 8 ≤ s.pages * 65536) : (iov + 8) % w32 = iov + 8 := by
  have h1 := hs.pages
  have h2 := hs.limit
  exact Nat.mod_eq_of_lt (by simp only [w32]; omega)

theorem writeLoop_ok (a : Arch) (n iov x : Nat) (hx : x < w32) (s s' : St) (hs : Rt.Inv s) (r : Nat) (h : writeLoop a n iov x s = .ok r s') :
    ∃ m k, m ≤ (gather s iov n).length ∧ s' = { s with out := s.out ++ (gather s iov n).take m, kern := k } ∧ r = (x + m) % w32 := by
  induction n generalizing iov x s with
  | zero =>
    unfold writeLoop at h
    obtain ⟨h1, h2⟩ := pure_ok _ _ _ _ h
    exact ⟨0, s.kern, by simp, by simp [h2], by rw [h1, Nat.add_zero, Nat.mod_eq_of_lt hx]⟩
  | succ n ih =>
    unfold writeLoop at h
    obtain ⟨l, s1, g1, h⟩ := bind_ok _ _ _ _ _ h
    obtain ⟨rfl, rfl, hb⟩ := ld_ok _ _ _ _ _ g1
    obtain ⟨b, s2, g2, h⟩ := bind_ok _ _ _ _ _ h
    obtain ⟨rfl, rfl, _⟩ := ld_ok _ _ _ _ _ g2
    obtain ⟨m, s3, g3, h⟩ := bind_ok _ _ _ _ _ h
    obtain ⟨hm, k, e3⟩ := rtWrite_ok a _ _ (peek_lt _ _) (peek_lt _ _) _ _ hs _ g3
    simp only at h
    rw [gather_succ]
    have hlen : (ImageFile.read s.space (s.base + peek s 4 iov) (peek s 4 (iov + 4))).length = peek s 4 (iov + 4) := length_read _ _ _
    split at h
    · obtain ⟨h1, h2⟩ := pure_ok _ _ _ _ h
      refine ⟨m, k, by rw [List.length_append, hlen]; omega, ?_, h1⟩
      rw [h2, e3, List.take_append_of_le_length (by rw [hlen]; exact hm)]
      congr 2
      unfold ImageFile.read
      rw [← List.map_take, List.take_range, Nat.min_eq_left hm]
      simp
    · rename_i hml
      have hml : m = peek s 4 (iov + 4) := Decidable.not_not.mp hml
      rw [no_wrap s hs iov (by omega)] at h
      have hs3 : Rt.Inv s3 := by rw [e3]; exact ⟨hs.base, hs.limit, hs.pages, hs.acc, hs.avail⟩
      obtain ⟨m', k', q1, q2, q3⟩ := ih (iov + 8) ((x + m) % w32) (Nat.mod_lt _ (by decide)) s3 hs3 h
      have hg : gather s3 (iov + 8) n = gather s (iov + 8) n := by rw [e3]; rfl
      rw [hg] at q1 q2
      refine ⟨m + m', k', by rw [List.length_append, hlen]; omega, ?_, ?_⟩
      · rw [q2, e3]
        have : (ImageFile.read s.space (s.base + peek s 4 (iov + 0)) m ++ gather s (iov + 8) n).take (m + m') =
            ImageFile.read s.space (s.base + peek s 4 (iov + 0)) m ++ (gather s (iov + 8) n).take m' := by
          rw [List.take_append, length_read, List.take_of_length_le (by rw [length_read]; omega)]
          congr 2; omega
        simp only [Nat.add_zero] at this ⊢
        rw [← hml, this, List.append_assoc]
      · rw [q3, Nat.mod_add_mod, Nat.add_assoc]

/-! ### fd_write -/

/-- What fd_write to the gate descriptor does when it returns: it has output a prefix of the buffers' contents, and the length of that has been stored (modulo 2^32); the result is
EAGAIN if it's zero. Nothing else has changed. -/
theorem fd_write_gate (a : Arch) (rtTime : Nat → M Nat) (ht : ∀ n, Good (rtTime n)) (i : Info) (hv : i.Valid) (s s' : St) (hr : LReach a rtTime i s)
    (iov iovlen p r : Nat) (h : libCall a rtTime (.fdWrite 4 iov iovlen p) s = .ok r s') :
    ∃ n k, n ≤ (gather s iov iovlen).length ∧ peek s' 4 p = n % w32 ∧ (r = if n % w32 = 0 then 6 else 0) ∧
      s' = { s with out := s.out ++ (gather s iov iovlen).take n, kern := k, space := ImageFile.write s.space (s.base + p) (le 4 (n % w32)) } := by
  have hs := (lreach_inv a rtTime ht i hv s hr).1
  have e : libCall a rtTime (.fdWrite 4 iov iovlen p) = (writeLoop a iovlen iov 0 >>= fun n => st 4 p n >>= fun _ => if n ≠ 0 then pure 0 else pure EAGAIN) := rfl
  rw [e] at h
  obtain ⟨n, s1, g1, h⟩ := bind_ok _ _ _ _ _ h
  obtain ⟨m, k, q1, q2, q3⟩ := writeLoop_ok a iovlen iov 0 (by decide) s s1 hs n g1
  obtain ⟨u, s2, g2, h⟩ := bind_ok _ _ _ _ _ h
  obtain ⟨e2, hp⟩ := st_ok _ _ _ _ _ _ g2
  rw [Nat.zero_add] at q3
  have hn : n < w32 := by rw [q3]; exact Nat.mod_lt _ (by decide)
  have hs' : s' = s2 ∧ r = if n = 0 then 6 else 0 := by
    by_cases h0 : n = 0
    · simp only [h0, ne_eq, not_true_eq_false, if_false] at h
      obtain ⟨e1, e2⟩ := pure_ok _ _ _ _ h
      exact ⟨e2, by rw [e1, if_pos h0]⟩
    · simp only [h0, ne_eq, not_false_eq_true, if_true] at h
      obtain ⟨e1, e2⟩ := pure_ok _ _ _ _ h
      exact ⟨e2, by rw [e1, if_neg h0]⟩
  refine ⟨m, k, q1, ?_, by rw [hs'.2, q3], ?_⟩
  · rw [hs'.1, e2, peek_write, ← q3]
    exact Nat.mod_eq_of_lt hn
  · rw [hs'.1, e2, q2, q3]

/-- An empty write doesn't succeed, nor does a write of empty buffers: the result is EAGAIN (try again) every time. -/
theorem fd_write_empty_refuted (a : Arch) (rtTime : Nat → M Nat) (s : St) (fd iov p : Nat) (hf : fd = 1 ∨ fd = 2 ∨ fd = 4) (hp : p + 4 ≤ s.pages * 65536) :
    ∃ s', libCall a rtTime (.fdWrite fd iov 0 p) s = .ok 6 s' := by
  have hst : st 4 p 0 s = .ok () { s with space := ImageFile.write s.space (s.base + p) (le 4 0) } := by
    unfold st; rw [if_pos hp]
  have e : libCall a rtTime (.fdWrite fd iov 0 p) = ((pure 0 : M Nat) >>= fun n => st 4 p n >>= fun _ => if n ≠ 0 then pure 0 else pure EAGAIN) := by
    rcases hf with rfl | rfl | rfl <;> rfl
  rw [e]
  show ∃ s', (st 4 p 0 >>= fun _ => (pure 6 : M Nat)) s = _
  rw [bind_eq, hst]
  exact ⟨_, rfl⟩

theorem debug_suffix (a : Arch) (k : List Resp) (s : St) (addr len : Nat) : (debugLoop a s addr len k).st.kern <:+ k := by
  induction k generalizing s addr len with
  | nil =>
    unfold debugLoop
    split <;> exact List.suffix_refl _
  | cons r k ih =>
    unfold debugLoop
    split
    · exact List.suffix_refl _
    · exact List.suffix_refl _
    · split
      · split
        · simp only
          split
          · exact List.suffix_cons _ _
          · split
            · exact List.suffix_cons _ _
            · exact (ih _ _ _).trans (List.suffix_cons _ _)
        · exact List.suffix_refl _
      · split
        · exact (ih _ _ _).trans (List.suffix_cons _ _)
        · exact List.suffix_cons _ _
      · exact List.suffix_refl _

theorem rtDebug_ok (addr len : Nat) (ha : addr < w32) (hl : len < w32) (s s' : St) (hs : Rt.Inv s) (u : Unit) (h : rtDebug .x86 addr len s = .ok u s') :
    ∃ n k, n ≤ len ∧ (n = len ∨ Resp.wrote 0 ∈ s.kern) ∧ k <:+ s.kern ∧ s' = { s with dbg := s.dbg ++ ImageFile.read s.space (s.base + addr) n, kern := k } := by
  obtain ⟨n, h1, h2, h3⟩ := debug_x86_loop s.kern s hs addr len ha hl
  obtain ⟨d, q, hd⟩ := debug_frame .x86 s.kern s addr len
  unfold rtDebug at h
  rw [h] at hd h2
  have hsuf := debug_suffix .x86 s.kern s addr len
  rw [h, hd] at hsuf
  refine ⟨n, q, h1, h3 u s' h, hsuf, ?_⟩
  simp only [Out.st] at hd h2
  rw [hd] at h2
  simp only at h2
  rw [hd, h2]

theorem debugVec_ok (n iov x : Nat) (hx : x < w32) (s s' : St) (hs : Rt.Inv s) (r : Nat) (h : debugVec .x86 n iov x s = .ok r s') :
    ∃ d k, (d = gather s iov n ∨ Resp.wrote 0 ∈ s.kern) ∧ k <:+ s.kern ∧ s' = { s with dbg := s.dbg ++ d, kern := k } ∧ r = (x + (gather s iov n).length) % w32 := by
  induction n generalizing iov x s with
  | zero =>
    unfold debugVec at h
    obtain ⟨h1, h2⟩ := pure_ok _ _ _ _ h
    exact ⟨[], s.kern, .inl rfl, List.suffix_refl _, by simp [h2], by rw [h1]; simp [gather, Nat.mod_eq_of_lt hx]⟩
  | succ n ih =>
    unfold debugVec at h
    obtain ⟨l, s1, g1, h⟩ := bind_ok _ _ _ _ _ h
    obtain ⟨rfl, rfl, hb⟩ := ld_ok _ _ _ _ _ g1
    obtain ⟨b, s2, g2, h⟩ := bind_ok _ _ _ _ _ h
    obtain ⟨rfl, rfl, _⟩ := ld_ok _ _ _ _ _ g2
    obtain ⟨u, s3, g3, h⟩ := bind_ok _ _ _ _ _ h
    obtain ⟨m, k, hm, hfull, hsuf, e3⟩ := rtDebug_ok _ _ (peek_lt _ _) (peek_lt _ _) _ _ hs _ g3
    rw [no_wrap s hs iov (by omega)] at h
    have hs3 : Rt.Inv s3 := by rw [e3]; exact ⟨hs.base, hs.limit, hs.pages, hs.acc, hs.avail⟩
    obtain ⟨d, k', q1, qs, q2, q3⟩ := ih (iov + 8) _ (Nat.mod_lt _ (by decide)) s3 hs3 h
    have hg : gather s3 (iov + 8) n = gather s (iov + 8) n := by rw [e3]; rfl
    rw [hg] at q1 q3
    rw [gather_succ]
    have hk3 : s3.kern = k := by rw [e3]
    rw [hk3] at q1 qs
    refine ⟨ImageFile.read s.space (s.base + peek s 4 (iov + 0)) m ++ d, k', ?_, qs.trans hsuf, ?_, ?_⟩
    · rcases hfull with hfull | hfull
      · rcases q1 with q1 | q1
        · left; rw [q1, hfull]; rfl
        · right; exact hsuf.subset q1
      · right; exact hfull
    · rw [q2, e3, List.append_assoc]
    · rw [q3, Nat.mod_add_mod, List.length_append, length_read, Nat.add_assoc]

/-- What fd_write to a standard output (or error) does on x86-64 when it returns: all of the buffers' contents have been added to the debug output (unless it has been closed), and the length
has been stored (modulo 2^32); the result is EAGAIN if it's zero. Nothing else has changed. -/
theorem fd_write_std (rtTime : Nat → M Nat) (ht : ∀ n, Good (rtTime n)) (i : Info) (hv : i.Valid) (s s' : St) (hr : LReach .x86 rtTime i s)
    (fd iov iovlen p r : Nat) (hf : fd = 1 ∨ fd = 2) (h : libCall .x86 rtTime (.fdWrite fd iov iovlen p) s = .ok r s') :
    let n := (gather s iov iovlen).length
    ∃ d k, (d = gather s iov iovlen ∨ Resp.wrote 0 ∈ s.kern) ∧ peek s' 4 p = n % w32 ∧ (r = if n % w32 = 0 then 6 else 0) ∧
      s' = { s with dbg := s.dbg ++ d, kern := k, space := ImageFile.write s.space (s.base + p) (le 4 (n % w32)) } := by
  have hs := (lreach_inv .x86 rtTime ht i hv s hr).1
  have e : libCall .x86 rtTime (.fdWrite fd iov iovlen p) = (debugVec .x86 iovlen iov 0 >>= fun n => st 4 p n >>= fun _ => if n ≠ 0 then pure 0 else pure EAGAIN) := by
    rcases hf with rfl | rfl <;> rfl
  rw [e] at h
  obtain ⟨n, s1, g1, h⟩ := bind_ok _ _ _ _ _ h
  obtain ⟨d, k, q1, _, q2, q3⟩ := debugVec_ok iovlen iov 0 (by decide) s s1 hs n g1
  obtain ⟨u, s2, g2, h⟩ := bind_ok _ _ _ _ _ h
  obtain ⟨e2, hp⟩ := st_ok _ _ _ _ _ _ g2
  rw [Nat.zero_add] at q3
  have hn : n < w32 := by rw [q3]; exact Nat.mod_lt _ (by decide)
  have hs' : s' = s2 ∧ r = if n = 0 then 6 else 0 := by
    by_cases h0 : n = 0
    · simp only [h0, ne_eq, not_true_eq_false, if_false] at h
      obtain ⟨e1, e2⟩ := pure_ok _ _ _ _ h
      exact ⟨e2, by rw [e1, if_pos h0]⟩
    · simp only [h0, ne_eq, not_false_eq_true, if_true] at h
      obtain ⟨e1, e2⟩ := pure_ok _ _ _ _ h
      exact ⟨e2, by rw [e1, if_neg h0]⟩
  refine ⟨d, k, q1, ?_, by rw [hs'.2, q3], ?_⟩
  · rw [hs'.1, e2, peek_write, ← q3]
    exact Nat.mod_eq_of_lt hn
  · rw [hs'.1, e2, q2, q3]

/-! ### fd_read -/

/-- A byte of the program's memory isn't in a buffer of the vector. -/
def Outside (s : St) (iov n x : Nat) : Prop := ∀ j, j < n → x < bufAddr s iov j ∨ bufAddr s iov j + bufLen s iov j ≤ x

/-- The buffers of a vector overlap neither each other nor the vector. -/
structure Apart (s : St) (iov n : Nat) : Prop where
  vector : ∀ x, iov ≤ x → x < iov + 8 * n → Outside s iov n x
  buffers : ∀ j k, j < n → k < n → j ≠ k → ∀ x, bufAddr s iov j ≤ x → x < bufAddr s iov j + bufLen s iov j → x < bufAddr s iov k ∨ bufAddr s iov k + bufLen s iov k ≤ x

theorem peek_same (s s' : St) (hb : s'.base = s.base) (n ea : Nat) (h : ∀ x, ea ≤ x → x < ea + n → s'.space (s.base + x) = s.space (s.base + x)) : peek s' n ea = peek s n ea := by
  unfold peek
  rw [hb]
  refine congrArg unle (read_ext _ _ _ _ _ fun k hk => ?_)
  rw [Nat.add_assoc]
  exact h _ (by omega) (by omega)

theorem readLoop_ok (a : Arch) (n iov x : Nat) (hx : x < w32) (s s' : St) (hs : Rt.Inv s) (hd : Apart s iov n) (r : Nat) (h : readLoop a n iov x s = .ok r s') :
    ∃ d k f, s' = { s with space := f, inp := s.inp ++ d, kern := k } ∧ r = (x + d.length) % w32 ∧ d.length ≤ (gather s iov n).length ∧
      (∀ y, Outside s iov n y → f (s.base + y) = s.space (s.base + y)) ∧
      gather s' iov n = d ++ (gather s iov n).drop d.length := by
  induction n generalizing iov x s with
  | zero =>
    unfold readLoop at h
    obtain ⟨h1, h2⟩ := pure_ok _ _ _ _ h
    exact ⟨[], s.kern, s.space, by simp [h2], by rw [h1]; simp [Nat.mod_eq_of_lt hx], by simp, fun _ _ => rfl, by simp [gather]⟩
  | succ n ih =>
    unfold readLoop at h
    obtain ⟨l, s1, g1, h⟩ := bind_ok _ _ _ _ _ h
    obtain ⟨rfl, rfl, hb⟩ := ld_ok _ _ _ _ _ g1
    obtain ⟨b, s2, g2, h⟩ := bind_ok _ _ _ _ _ h
    obtain ⟨rfl, rfl, _⟩ := ld_ok _ _ _ _ _ g2
    obtain ⟨m, s3, g3, h⟩ := bind_ok _ _ _ _ _ h
    obtain ⟨c, k, hc, hm, _, e3⟩ := rtRead_ok a _ _ (peek_lt _ _) (peek_lt _ _) _ _ hs _ g3
    simp only [Nat.add_zero] at e3 g3
    simp only at h
    have hA0 : bufAddr s iov 0 = peek s 4 iov := by simp [bufAddr]
    have hL0 : bufLen s iov 0 = peek s 4 (iov + 4) := by simp [bufLen]
    have hA : ∀ j, bufAddr s iov (j + 1) = bufAddr s (iov + 8) j := fun j => by simp only [bufAddr]; congr 1; omega
    have hL : ∀ j, bufLen s iov (j + 1) = bufLen s (iov + 8) j := fun j => by simp only [bufLen]; congr 1; omega
    have hb3 : s3.base = s.base := by rw [e3]
    -- What rt_read left alone.
    have keep : ∀ y, (y < peek s 4 iov ∨ peek s 4 iov + peek s 4 (iov + 4) ≤ y) → s3.space (s.base + y) = s.space (s.base + y) := by
      intro y hy
      rw [e3]
      simp only [ImageFile.write]
      rw [if_neg (by omega)]
    have pk : ∀ ea, iov ≤ ea → ea + 4 ≤ iov + 8 * (n + 1) → peek s3 4 ea = peek s 4 ea := by
      intro ea h1 h2
      refine peek_same s s3 hb3 4 ea fun y hy1 hy2 => keep y ?_
      have := hd.vector y (by omega) (by omega) 0 (by omega)
      rwa [hA0, hL0] at this
    have hA3 : ∀ j, j < n → bufAddr s3 (iov + 8) j = bufAddr s iov (j + 1) := fun j hj => by
      rw [hA]; exact pk _ (by omega) (by omega)
    have hL3 : ∀ j, j < n → bufLen s3 (iov + 8) j = bufLen s iov (j + 1) := fun j hj => by
      rw [hL]; exact pk _ (by omega) (by omega)
    have first : ImageFile.read s3.space (s.base + peek s 4 iov) m = c := by
      rw [e3, ← hc]; exact read_write _ _ _
    have rest3 : gather s3 (iov + 8) n = gather s (iov + 8) n := by
      unfold gather
      refine congrArg List.flatten (List.map_congr_left fun j hj => ?_)
      have hj := List.mem_range.mp hj
      rw [hA3 j hj, hL3 j hj, hA, hL, hb3]
      refine read_ext _ _ _ _ _ fun q hq => ?_
      rw [Nat.add_assoc]
      refine keep _ ?_
      have := hd.buffers (j + 1) 0 (by omega) (by omega) (by omega) (bufAddr s iov (j + 1) + q) (by omega) (by rw [hL]; omega)
      rw [hA0, hL0, hA] at this
      exact this
    split at h
    · obtain ⟨h1, h2⟩ := pure_ok _ _ _ _ h
      rw [gather_succ s]
      refine ⟨c, k, s3.space, by rw [h2, e3], by rw [h1, hc], by rw [List.length_append, length_read]; omega, ?_, ?_⟩
      · intro y hy
        have := hy 0 (by omega)
        rw [hA0, hL0] at this
        exact keep y this
      · rw [h2, gather_succ, pk iov (by omega) (by omega), pk (iov + 4) (by omega) (by omega), rest3, hb3,
          List.drop_append_of_le_length (by rw [length_read]; omega), ← List.append_assoc]
        congr 1
        have hsplit : peek s 4 (iov + 4) = m + (peek s 4 (iov + 4) - m) := by omega
        rw [hsplit, ← read_append, first, ← read_append, List.drop_append_of_le_length (by rw [length_read]; omega),
          List.drop_of_length_le (by rw [length_read]; omega), List.nil_append]
        congr 1
        refine read_ext _ _ _ _ _ fun q hq => ?_
        rw [e3]
        simp only [ImageFile.write]
        rw [if_neg (by omega)]
    · rename_i hml
      have hml : m = peek s 4 (iov + 4) := Decidable.not_not.mp hml
      rw [no_wrap s hs iov (by omega)] at h
      have hs3 : Rt.Inv s3 := by rw [e3]; exact ⟨hs.base, hs.limit, hs.pages, hs.acc, hs.avail⟩
      have hd3 : Apart s3 (iov + 8) n := by
        refine ⟨fun y h1 h2 j hj => ?_, fun j q hj hq hne y h1 h2 => ?_⟩
        · have := hd.vector y (by omega) (by omega) (j + 1) (by omega)
          rwa [hA3 j hj, hL3 j hj]
        · rw [hA3 j hj] at h1 h2
          rw [hL3 j hj] at h2
          rw [hA3 q hq, hL3 q hq]
          exact hd.buffers (j + 1) (q + 1) (by omega) (by omega) (by omega) y h1 h2
      obtain ⟨d, k', f, q1, q2, q3, q4, q5⟩ := ih (iov + 8) ((x + m) % w32) (Nat.mod_lt _ (by decide)) s3 hs3 hd3 h
      rw [rest3] at q3 q5
      have hb' : s'.base = s.base := by rw [q1, e3]
      have hf' : s'.space = f := by rw [q1]
      rw [hb3] at q4
      -- The rest of the reads leave the first buffer and the vector alone.
      have out3 : ∀ y, Outside s iov (n + 1) y → f (s.base + y) = s.space (s.base + y) := by
        intro y hy
        rw [q4 y (fun j hj => by rw [hA3 j hj, hL3 j hj]; exact hy (j + 1) (by omega))]
        have := hy 0 (by omega)
        rw [hA0, hL0] at this
        exact keep y this
      have pk' : ∀ ea, iov ≤ ea → ea + 4 ≤ iov + 8 * (n + 1) → peek s' 4 ea = peek s 4 ea := by
        intro ea h1 h2
        refine peek_same s s' hb' 4 ea fun y hy1 hy2 => ?_
        rw [hf']
        exact out3 y (hd.vector y (by omega) (by omega))
      refine ⟨c ++ d, k', f, ?_, ?_, ?_, out3, ?_⟩
      · rw [q1, e3, List.append_assoc]
      · rw [q2, Nat.mod_add_mod, List.length_append, hc, Nat.add_assoc]
      · rw [gather_succ s, List.length_append, List.length_append, length_read]; omega
      · rw [gather_succ s', gather_succ s, pk' iov (by omega) (by omega), pk' (iov + 4) (by omega) (by omega), q5, hb', hf', ← hml]
        have : ImageFile.read f (s.base + peek s 4 iov) m = c := by
          rw [← first]
          refine read_ext _ _ _ _ _ fun q hq => ?_
          rw [Nat.add_assoc]
          refine q4 _ fun j hj => ?_
          rw [hA3 j hj, hL3 j hj]
          refine hd.buffers 0 (j + 1) (by omega) (by omega) (by omega) _ (by rw [hA0]; omega) (by rw [hA0, hL0]; omega)
        rw [this, List.length_append, hc, List.append_assoc, List.drop_append, length_read,
          List.drop_of_length_le (l := ImageFile.read s.space (s.base + peek s 4 iov) m) (by rw [length_read]; omega), List.nil_append, Nat.add_sub_cancel_left]

/-- What fd_read from the gate descriptor does when it returns, if the buffers, the vector and the place of the count don't overlap: the data which was read is at the beginning of the buffers,
in order, and its length has been stored (modulo 2^32); nothing else in memory has changed. -/
theorem fd_read_gate (a : Arch) (rtTime : Nat → M Nat) (ht : ∀ n, Good (rtTime n)) (i : Info) (hv : i.Valid) (s s' : St) (hr : LReach a rtTime i s)
    (iov iovlen p r : Nat) (hd : Apart s iov iovlen) (hp : ∀ x, p ≤ x → x < p + 4 → Outside s iov iovlen x ∧ (x < iov ∨ iov + 8 * iovlen ≤ x))
    (h : libCall a rtTime (.fdRead 4 iov iovlen p) s = .ok r s') :
    ∃ d, s'.inp = s.inp ++ d ∧ s'.out = s.out ∧ s'.dbg = s.dbg ∧ d.length ≤ (gather s iov iovlen).length ∧
      gather s' iov iovlen = d ++ (gather s iov iovlen).drop d.length ∧
      peek s' 4 p = d.length % w32 ∧ (r = if d.length % w32 = 0 then 6 else 0) ∧
      ∀ x, Outside s iov iovlen x → (x < p ∨ p + 4 ≤ x) → s'.space (s.base + x) = s.space (s.base + x) := by
  have hs := (lreach_inv a rtTime ht i hv s hr).1
  have e : libCall a rtTime (.fdRead 4 iov iovlen p) = (readLoop a iovlen iov 0 >>= fun n => st 4 p n >>= fun _ => if n ≠ 0 then pure 0 else pure EAGAIN) := rfl
  rw [e] at h
  obtain ⟨n, s1, g1, h⟩ := bind_ok _ _ _ _ _ h
  obtain ⟨d, k, f, q1, q2, q3, q4, q5⟩ := readLoop_ok a iovlen iov 0 (by decide) s s1 hs hd n g1
  obtain ⟨u, s2, g2, h⟩ := bind_ok _ _ _ _ _ h
  obtain ⟨e2, _⟩ := st_ok _ _ _ _ _ _ g2
  rw [Nat.zero_add] at q2
  have hn : n < w32 := by rw [q2]; exact Nat.mod_lt _ (by decide)
  have hs' : s' = s2 ∧ r = if n = 0 then 6 else 0 := by
    by_cases h0 : n = 0
    · simp only [h0, ne_eq, not_true_eq_false, if_false] at h
      obtain ⟨e1, e2⟩ := pure_ok _ _ _ _ h
      exact ⟨e2, by rw [e1, if_pos h0]⟩
    · simp only [h0, ne_eq, not_false_eq_true, if_true] at h
      obtain ⟨e1, e2⟩ := pure_ok _ _ _ _ h
      exact ⟨e2, by rw [e1, if_neg h0]⟩
  have hb1 : s1.base = s.base := by rw [q1]
  have hb' : s'.base = s1.base := by rw [hs'.1, e2]
  have keep : ∀ x, (x < p ∨ p + 4 ≤ x) → s'.space (s.base + x) = s1.space (s.base + x) := by
    intro x hx
    rw [hs'.1, e2]
    simp only [ImageFile.write, length_le]
    rw [hb1, if_neg (by omega)]
  have hsp : ∀ x, s1.space x = f x := by intro x; rw [q1]
  -- The vector and the buffers aren't affected by storing the count.
  have vec1 : ∀ ea, iov ≤ ea → ea + 4 ≤ iov + 8 * iovlen → peek s1 4 ea = peek s 4 ea := by
    intro ea h1 h2
    refine peek_same s s1 hb1 4 ea fun y hy1 hy2 => ?_
    rw [hsp]
    exact q4 y (hd.vector y (by omega) (by omega))
  have vec : ∀ ea, iov ≤ ea → ea + 4 ≤ iov + 8 * iovlen → peek s' 4 ea = peek s1 4 ea := by
    intro ea h1 h2
    refine peek_same s1 s' hb' 4 ea fun y hy1 hy2 => ?_
    rw [hb1]
    refine keep y ?_
    rcases Nat.lt_or_ge y p with h3 | h3
    · exact .inl h3
    · rcases Nat.lt_or_ge y (p + 4) with h4 | h4
      · have := (hp y h3 h4).2; omega
      · exact .inr h4
  refine ⟨d, ?_, ?_, ?_, q3, ?_, ?_, by rw [hs'.2, q2], ?_⟩
  · rw [hs'.1, e2, q1]
  · rw [hs'.1, e2, q1]
  · rw [hs'.1, e2, q1]
  · rw [← q5]
    unfold gather
    refine congrArg List.flatten (List.map_congr_left fun j hj => ?_)
    have hj := List.mem_range.mp hj
    have ea1 : bufAddr s' iov j = bufAddr s1 iov j := vec _ (by omega) (by omega)
    have el1 : bufLen s' iov j = bufLen s1 iov j := vec _ (by omega) (by omega)
    have ea : bufAddr s1 iov j = bufAddr s iov j := vec1 _ (by omega) (by omega)
    have el : bufLen s1 iov j = bufLen s iov j := vec1 _ (by omega) (by omega)
    rw [ea1, el1, hb', hb1]
    refine read_ext _ _ _ _ _ fun q hq => ?_
    rw [Nat.add_assoc]
    refine keep _ ?_
    rcases Nat.lt_or_ge (bufAddr s1 iov j + q) p with h3 | h3
    · exact .inl h3
    · rcases Nat.lt_or_ge (bufAddr s1 iov j + q) (p + 4) with h4 | h4
      · have := (hp _ h3 h4).1 j hj
        rw [ea] at this
        omega
      · exact .inr h4
  · rw [hs'.1, e2, peek_write, ← q2]
    exact Nat.mod_eq_of_lt hn
  · intro x h1 h2
    rw [keep x h2, hsp]
    exact q4 x h1

end Gate.AbiLib
