import Verif.Base

/-!
# Request identifiers of the web server

Model of server/web/requestid.go:12-30: a goroutine produces consecutive numbers into a buffered
channel, and every request takes one.
-/

namespace Gate.ReqId

/-- `uint64` arithmetic. -/
abbrev wrap : Nat := 2 ^ 64

/-- The first value of `i` (requestid.go:18) when the clock shows `ns` nanoseconds since the epoch:
`uint64(time.Now().UnixNano()/1e6) * 1e6`.  The clock is taken to be past the epoch. -/
def start (ns : Nat) : Nat := (ns / 1000000 * 1000000) % wrap

/-- A process: the goroutine's variable (requestid.go:18), the channel's buffer
(requestid.go:15) and the identifiers which requests have got so far, in the order in which the
channel gave them. -/
structure St where
  i : Nat
  buf : List Nat := []
  got : List Nat := []

/-- A step: the goroutine sends (requestid.go:20-21; `bufsize` 128, requestid.go:12), or a
request receives (requestid.go:29).  A send to a waiting receiver is a send and a receive. -/
inductive Step : St → St → Prop
  | send (s : St) : s.buf.length < 128 →
      Step s { s with i := (s.i + 1) % wrap, buf := s.buf ++ [(s.i + 1) % wrap] }
  | recv (s : St) (x : Nat) (rest : List Nat) : s.buf = x :: rest →
      Step s { s with buf := rest, got := s.got ++ [x] }

/-- The states of a process which was started when the clock showed `ns`. -/
inductive Reach (ns : Nat) : St → Prop
  | init : Reach ns { i := start ns }
  | step {s t : St} : Reach ns s → Step s t → Reach ns t

/-- Everything which has been produced: `n` consecutive numbers. -/
def produced (ns n : Nat) : List Nat := (List.range n).map fun k => (start ns + 1 + k) % wrap

theorem produced_succ (ns n : Nat) :
    produced ns (n + 1) = produced ns n ++ [(start ns + 1 + n) % wrap] := by
  simp [produced, List.range_succ]

theorem inv {ns : Nat} {s : St} (h : Reach ns s) :
    ∃ n, s.got ++ s.buf = produced ns n ∧ s.i = (start ns + n) % wrap := by
  induction h with
  | init =>
    refine ⟨0, by simp [produced], ?_⟩
    show start ns = _
    rw [Nat.add_zero]
    unfold start
    rw [Nat.mod_mod]
  | step _ e ih =>
    obtain ⟨n, h1, h2⟩ := ih
    cases e with
    | send hb =>
      have e1 : ∀ a : Nat, (a % wrap + 1) % wrap = (a + 1) % wrap := fun a => Nat.mod_add_mod a wrap 1
      refine ⟨n + 1, ?_, ?_⟩
      · simp only
        rw [← List.append_assoc, h1, produced_succ, h2, e1, Nat.add_right_comm]
      · simp only
        rw [h2, e1, Nat.add_assoc]
    | recv x rest hb => exact ⟨n, by rw [← h1, hb]; simp, h2⟩

/-- Requests get the produced numbers in order, and none is skipped. -/
theorem got_eq {ns : Nat} {s : St} (h : Reach ns s) : s.got = produced ns s.got.length := by
  obtain ⟨n, h1, _⟩ := inv h
  have hp : s.got <+: produced ns n := ⟨s.buf, h1⟩
  have hn : s.got.length ≤ n := by
    have := hp.length_le
    simpa [produced] using this
  have e := List.prefix_iff_eq_take.1 hp
  have h2 : (produced ns n).take s.got.length = produced ns s.got.length := by
    simp [produced, ← List.map_take, List.take_range, Nat.min_eq_left hn]
  rw [h2] at e
  exact e

/-- Element of a process's identifiers. -/
theorem got_get {ns : Nat} {s : St} (h : Reach ns s) (k : Nat) (hk : k < s.got.length) :
    s.got[k] = (start ns + 1 + k) % wrap := by
  have e := got_eq h
  have : s.got[k]? = (produced ns s.got.length)[k]? := by rw [← e]
  rw [List.getElem?_eq_getElem hk] at this
  simpa [produced, hk] using this

/-- The identifiers are exactly the 64-bit numbers which follow the millisecond of the start. -/
theorem exact_ids {ns : Nat} {s : St} (h : Reach ns s) (k : Nat) (hk : k < s.got.length) :
    s.got[k] = (ns - ns % 1000000 + 1 + k) % 2 ^ 64 := by
  rw [got_get h k hk]
  simp only [start, wrap]
  omega

theorem apart (a j k : Nat) (hj : j < 18446744073709551616) (hk : k < 18446744073709551616) (hne : j ≠ k) :
    (a + 1 + j) % 18446744073709551616 ≠ (a + 1 + k) % 18446744073709551616 := by omega

/-- Two requests of one process have different identifiers, as long as it has served fewer than
2^64 of them. -/
theorem distinct {ns : Nat} {s : St} (h : Reach ns s) (hs : s.got.length ≤ 2 ^ 64) (j k : Nat)
    (hj : j < s.got.length) (hk : k < s.got.length) (hne : j ≠ k) : s.got[j] ≠ s.got[k] := by
  rw [got_get h j hj, got_get h k hk]
  have hj' : j < wrap := Nat.lt_of_lt_of_le hj hs
  have hk' : k < wrap := Nat.lt_of_lt_of_le hk hs
  exact apart _ _ _ hj' hk' hne

/-- Identifiers grow with time, for every clock before the year 2262 (2^63 nanoseconds) and fewer
than 2^63 requests. -/
theorem increasing {ns : Nat} {s : St} (h : Reach ns s) (hc : ns < 2 ^ 63)
    (hs : s.got.length < 2 ^ 63) (j k : Nat) (hjk : j < k) (hk : k < s.got.length) :
    s.got[j]'(by omega) < s.got[k] := by
  rw [got_get h j (by omega), got_get h k hk]
  have : start ns ≤ ns := by
    simp only [start, wrap]; omega
  generalize start ns = a at *
  generalize s.got.length = n at *
  simp only [wrap]
  omega

/-- Identifiers of two processes, of which the second was started at least one millisecond after
the first, differ if the first one has served at most a million requests for every whole
millisecond in between. -/
theorem distinct_restart_partial {ns ns' : Nat} {s s' : St} (h : Reach ns s) (h' : Reach ns' s')
    (hc : ns' < 2 ^ 63) (hs' : s'.got.length < 2 ^ 63)
    (hs : s.got.length ≤ (ns' / 1000000 - ns / 1000000) * 1000000) (j k : Nat)
    (hj : j < s.got.length) (hk : k < s'.got.length) : s.got[j] ≠ s'.got[k] := by
  rw [got_get h j hj, got_get h' k hk]
  simp only [start, wrap]
  generalize s.got.length = n at *
  generalize s'.got.length = n' at *
  omega

/-- A process with `n` requests served. -/
theorem serves (ns n : Nat) : ∃ s, Reach ns s ∧ s.buf = [] ∧ s.got.length = n := by
  induction n with
  | zero => exact ⟨_, .init, rfl, rfl⟩
  | succ n ih =>
    obtain ⟨s, h, hb, hn⟩ := ih
    have h1 := h.step (.send s (by simp [hb]))
    have h2 := h1.step (.recv _ ((s.i + 1) % wrap) [] (by simp [hb]))
    exact ⟨_, h2, rfl, by simp [hn]⟩

/-- The full property is false: a process which is started within the same millisecond (or after
the clock has been set back to it) gives all the identifiers again. -/
theorem restart_repeats_refuted (ns n : Nat) : ∃ s s', Reach ns s ∧
    Reach (ns / 1000000 * 1000000) s' ∧ s.got.length = n ∧ s'.got = s.got := by
  obtain ⟨s, h, _, hn⟩ := serves ns n
  obtain ⟨s', h', _, hn'⟩ := serves (ns / 1000000 * 1000000) n
  refine ⟨s, s', h, h', hn, ?_⟩
  rw [got_eq h, got_eq h', hn, hn']
  have : start (ns / 1000000 * 1000000) = start ns := by simp [start]
  simp [produced, this]

example : ∃ s, Reach 1700000000123456789 s ∧
    s.got = [1700000000123000001, 1700000000123000002] := by
  have h := Reach.init (ns := 1700000000123456789)
  replace h := h.step (.send _ (by decide))
  replace h := h.step (.send _ (by decide))
  replace h := h.step (.recv _ _ _ rfl)
  replace h := h.step (.recv _ _ _ rfl)
  exact ⟨_, h, by decide⟩

end Gate.ReqId
