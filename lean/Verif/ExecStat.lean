import Verif.Base
/-
C137: the CPU time limit of a suspended process, runtime/executor/executor.c:152-220.
-/
namespace Gate.ExecStat

abbrev Bytes := List UInt8

/-! ### Model -/

/-- The bytes which isspace recognizes. -/
def isSpace (c : UInt8) : Bool := c = 32 || (9 ≤ c && c ≤ 13)
def isDigit (c : UInt8) : Bool := 48 ≤ c && c ≤ 57

/-- A whitespace directive of sscanf. -/
def skip (b : Bytes) : Bytes := b.dropWhile isSpace

def digitsVal (b : Bytes) : Nat := b.foldl (fun n c => n * 10 + (c.toNat - 48)) 0

/-- The sign of a number. -/
def unsign : Bytes → Bytes
  | 45 :: r => r
  | 43 :: r => r
  | b => b

/-- The conversion %d, %u or %lu of sscanf: whitespace, a sign, digits.  The sign only matters to values which aren't stored,
and values which don't fit are out of scope. -/
def number (b : Bytes) : Option (Nat × Bytes) :=
  let b := unsign (skip b)
  let d := b.takeWhile isDigit
  if d = [] then none else some (digitsVal d, b.dropWhile isDigit)

/-- Conversions which aren't stored. -/
def ignore : Nat → Bytes → Option Bytes
  | 0, b => some b
  | n + 1, b => match number b with
    | some (_, r) => ignore n r
    | none => none

/-- strrchr(buf, ')'), executor.c:178: the string from the last parenthesis on. -/
def lastParen (b : Bytes) : Option Bytes :=
  if 41 ∈ b then some (41 :: (b.reverse.takeWhile (fun c => c != 41)).reverse) else none

/-- sscanf, executor.c:187: state, utime and stime. -/
def scan (b : Bytes) : Option (UInt8 × Nat × Nat) :=
  match b with
  | 41 :: r => match skip r with
    | c :: r => match ignore 10 r with
      | some r => match number r with
        | some (u, r) => match number r with
          | some (v, _) => some (c, u, v)
          | none => none
        | none => none
      | none => none
    | [] => none
  | _ => none

/-- What the ticks of a process are found to be. -/
inductive Ticks where
  | gone
  | spent (n : Nat)
  | parseError
deriving DecidableEq, Repr

/-- get_process_cpu_ticks, executor.c:152-199, of the contents of the file; at most 511 bytes are read. -/
def cpuTicks (file : Bytes) : Ticks :=
  match lastParen (file.take 511) with
  | none => .parseError
  | some s => match scan s with
    | none => .parseError
    | some (c, u, v) => if c = 90 ∨ c = 88 then .gone else .spent (u + v)

/-- The limit in seconds, executor.c:210. -/
def limit (spent ticks : Nat) : Nat := (spent + ticks + ticks / 2) / ticks

/-! ### Specification: the format of /proc/pid/stat, proc_pid_stat(5) -/

/-- The value of decimal digits by their places; the character 0 is 48. -/
def placeValue : Bytes → Nat
  | [] => 0
  | c :: r => (c.toNat - 48) * 10 ^ r.length + placeValue r

/-- A decimal number. -/
def Dec (b : Bytes) (n : Nat) : Prop := b ≠ [] ∧ (∀ c ∈ b, 48 ≤ c.toNat ∧ c.toNat ≤ 57) ∧ placeValue b = n

/-- A field which isn't of interest: a number which may be negative. -/
def Field (b : Bytes) : Prop := (∃ n, Dec b n) ∨ ∃ d n, Dec d n ∧ b = 45 :: d

/-- The fields of a process up to stime: any command name, even one with parentheses, spaces and digits. -/
structure Stat where
  pid : Bytes
  comm : Bytes
  state : UInt8
  fields : List Bytes
  utime : Bytes
  stime : Bytes

def Stat.head (s : Stat) : Bytes :=
  s.pid ++ [32, 40] ++ s.comm ++ [41, 32, s.state] ++ (s.fields.map (fun f => 32 :: f)).flatten ++ 32 :: s.utime ++ 32 :: s.stime

/-! ### Proofs -/

theorem digit_not_space (c : UInt8) (h : isDigit c = true) : isSpace c = false := by
  simp only [isDigit, isSpace, Bool.and_eq_true, decide_eq_true_eq, Bool.or_eq_false_iff, decide_eq_false_iff_not, Bool.and_eq_false_iff] at *
  obtain ⟨h1, h2⟩ := h
  have h1' : 48 ≤ c.toNat := h1
  constructor
  · rintro rfl; exact absurd h1' (by decide)
  · right
    intro h3
    have h3' : c.toNat ≤ 13 := h3
    omega

theorem digitsVal_from (b : Bytes) (n : Nat) :
    b.foldl (fun n c => n * 10 + (c.toNat - 48)) n = n * 10 ^ b.length + placeValue b := by
  induction b generalizing n with
  | nil => simp [placeValue]
  | cons c r ih =>
    rw [List.foldl_cons, ih, placeValue, List.length_cons, Nat.pow_succ, Nat.add_mul, Nat.mul_assoc, Nat.mul_comm 10, Nat.add_assoc]

theorem digitsVal_place (b : Bytes) : digitsVal b = placeValue b := by
  rw [digitsVal, digitsVal_from]; simp

theorem isDigit_iff (c : UInt8) : isDigit c = true ↔ 48 ≤ c.toNat ∧ c.toNat ≤ 57 := by
  simp only [isDigit, Bool.and_eq_true, decide_eq_true_eq]
  exact Iff.rfl

theorem takeWhile_all (p : UInt8 → Bool) (d r : Bytes) (hd : ∀ c ∈ d, p c = true) (hr : ∀ c t, r = c :: t → p c = false) :
    (d ++ r).takeWhile p = d ∧ (d ++ r).dropWhile p = r := by
  induction d with
  | nil =>
    cases r with
    | nil => simp
    | cons c t => have := hr c t rfl; simp [this]
  | cons a d ih =>
    have h1 := hd a (by simp)
    obtain ⟨h2, h3⟩ := ih fun c hc => hd c (by simp [hc])
    simp [h1, h2, h3]

/-- The rest doesn't continue the number. -/
def Ends (r : Bytes) : Prop := ∀ c t, r = c :: t → isDigit c = false

theorem number_dec (d r : Bytes) (n : Nat) (hd : Dec d n) (hr : Ends r) : number (32 :: (d ++ r)) = some (n, r) := by
  obtain ⟨h1, h2, h3⟩ := hd
  have h2 : ∀ c ∈ d, isDigit c = true := fun c hc => (isDigit_iff c).2 (h2 c hc)
  rw [← digitsVal_place] at h3
  obtain ⟨t1, t2⟩ := takeWhile_all isDigit d r h2 hr
  cases d with
  | nil => exact absurd rfl h1
  | cons a d =>
    have ha := h2 a (by simp)
    have hs : skip (32 :: (a :: d ++ r)) = a :: d ++ r := by
      simp only [skip]
      rw [List.dropWhile_cons_of_pos (by decide), List.cons_append, List.dropWhile_cons_of_neg (by rw [digit_not_space a ha]; simp)]
    have h45 : a ≠ 45 := by rintro rfl; exact absurd ha (by decide)
    have h43 : a ≠ 43 := by rintro rfl; exact absurd ha (by decide)
    simp only [number, hs]
    have : unsign (a :: d ++ r) = a :: d ++ r := by
      simp only [List.cons_append, unsign]
      split
      · next h => cases h; exact absurd rfl h45
      · next h => cases h; exact absurd rfl h43
      · rfl
    rw [this, t1, t2, if_neg (by simp), h3]

theorem number_field (f r : Bytes) (hf : Field f) (hr : Ends r) : ∃ n, number (32 :: (f ++ r)) = some (n, r) := by
  rcases hf with ⟨n, h⟩ | ⟨d, n, h, rfl⟩
  · exact ⟨n, number_dec f r n h hr⟩
  · obtain ⟨h1, h2, h3⟩ := h
    have h2 : ∀ c ∈ d, isDigit c = true := fun c hc => (isDigit_iff c).2 (h2 c hc)
    rw [← digitsVal_place] at h3
    obtain ⟨t1, t2⟩ := takeWhile_all isDigit d r h2 hr
    refine ⟨n, ?_⟩
    have hs : skip (32 :: (45 :: d ++ r)) = 45 :: (d ++ r) := by
      simp only [skip]
      rw [List.dropWhile_cons_of_pos (by decide), List.cons_append, List.dropWhile_cons_of_neg (by decide)]
    simp only [number, hs, unsign, t1, t2, h1, if_false, h3]

theorem ignore_fields (fs : List Bytes) (r : Bytes) (hf : ∀ f ∈ fs, Field f) (hr : Ends r) :
    ignore fs.length ((fs.map (fun f => 32 :: f)).flatten ++ r) = some r := by
  induction fs with
  | nil => rfl
  | cons f fs ih =>
    have ih := ih fun g hg => hf g (by simp [hg])
    have he : Ends ((fs.map (fun f => 32 :: f)).flatten ++ r) := by
      cases fs with
      | nil => simpa using hr
      | cons g gs => intro c t h; simp at h; rw [← h.1]; decide
    obtain ⟨n, hn⟩ := number_field f _ (hf f (by simp)) he
    simp only [List.map_cons, List.flatten_cons, List.length_cons, ignore, List.cons_append, List.append_assoc, hn]
    exact ih

theorem lastParen_eq (a b : Bytes) (h : 41 ∉ b) : lastParen (a ++ 41 :: b) = some (41 :: b) := by
  have hm : (41 : UInt8) ∈ a ++ 41 :: b := by simp
  simp only [lastParen, hm, if_true]
  have : (a ++ 41 :: b).reverse = b.reverse ++ 41 :: a.reverse := by simp
  rw [this]
  obtain ⟨t1, _⟩ := takeWhile_all (fun c => c != 41) b.reverse (41 :: a.reverse) (by
    intro c hc
    have : c ∈ b := by simpa using hc
    simp only [bne_iff_ne]
    rintro rfl
    exact h this) (by intro c t e; cases e; decide)
  rw [t1]
  simp

theorem field_paren (f : Bytes) (hf : Field f) : 41 ∉ f := by
  have dec : ∀ d n, Dec d n → 41 ∉ d := fun d n h hm => absurd (h.2.1 41 hm) (by decide)
  rcases hf with ⟨n, h⟩ | ⟨d, n, h, rfl⟩
  · exact dec f n h
  · intro hm
    rcases List.mem_cons.1 hm with h' | h'
    · cases h'
    · exact dec d n h h'

/-- C137: Whatever the name of the command is, the times of a process are what the file says. -/
theorem ticks_exact (s : Stat) (u v : Nat) (rest : Bytes) (hf : s.fields.length = 10) (hff : ∀ f ∈ s.fields, Field f) (hs : isSpace s.state = false)
    (hp : s.state ≠ 41) (hu : Dec s.utime u) (hv : Dec s.stime v) (hl : s.head.length ≤ 511) (hr : 41 ∉ rest) (he : Ends rest) :
    cpuTicks (s.head ++ rest) = if s.state = 90 ∨ s.state = 88 then .gone else .spent (u + v) := by
  have htake : (s.head ++ rest).take 511 = s.head ++ rest.take (511 - s.head.length) := by
    rw [List.take_append, List.take_of_length_le hl]
  generalize hw : rest.take (511 - s.head.length) = w at htake
  have hw41 : 41 ∉ w := by rw [← hw]; exact fun h => hr (List.mem_of_mem_take h)
  have hwe : Ends w := by
    intro c t e
    rw [e] at hw
    cases rest with
    | nil => simp at hw
    | cons c' t' =>
      cases hn : 511 - s.head.length with
      | zero => rw [hn] at hw; simp at hw
      | succ k => rw [hn] at hw; simp at hw; rw [← hw.1]; exact he c' t' rfl
  have hflat : 41 ∉ (s.fields.map (fun f => 32 :: f)).flatten := by
    intro hm
    simp only [List.mem_flatten, List.mem_map] at hm
    obtain ⟨l, ⟨f, hf, rfl⟩, hl⟩ := hm
    rcases List.mem_cons.1 hl with h | h
    · cases h
    · exact field_paren f (hff f hf) h
  have hu41 := field_paren _ (.inl ⟨u, hu⟩)
  have hv41 := field_paren _ (.inl ⟨v, hv⟩)
  have hsplit : s.head ++ w = (s.pid ++ [32, 40] ++ s.comm) ++ 41 :: (32 :: s.state :: ((s.fields.map (fun f => 32 :: f)).flatten ++ 32 :: (s.utime ++ 32 :: (s.stime ++ w)))) := by
    simp [Stat.head]
  have hlast : lastParen ((s.head ++ rest).take 511) = some (41 :: (32 :: s.state :: ((s.fields.map (fun f => 32 :: f)).flatten ++ 32 :: (s.utime ++ 32 :: (s.stime ++ w))))) := by
    rw [htake, hsplit]
    apply lastParen_eq
    simp only [List.mem_cons, List.mem_append, not_or]
    exact ⟨by decide, fun h => hp h.symm, hflat, by decide, hu41, by decide, hv41, hw41⟩
  have hsk : skip (32 :: s.state :: ((s.fields.map (fun f => 32 :: f)).flatten ++ 32 :: (s.utime ++ 32 :: (s.stime ++ w)))) =
      s.state :: ((s.fields.map (fun f => 32 :: f)).flatten ++ 32 :: (s.utime ++ 32 :: (s.stime ++ w))) := by
    simp only [skip]
    rw [List.dropWhile_cons_of_pos (by decide), List.dropWhile_cons_of_neg (by rw [hs]; simp)]
  have hig := ignore_fields s.fields (32 :: (s.utime ++ 32 :: (s.stime ++ w))) hff (by intro c t e; cases e; decide)
  rw [hf] at hig
  have hscan : scan (41 :: (32 :: s.state :: ((s.fields.map (fun f => 32 :: f)).flatten ++ 32 :: (s.utime ++ 32 :: (s.stime ++ w))))) = some (s.state, u, v) := by
    simp only [scan, hsk, hig]
    rw [number_dec s.utime (32 :: (s.stime ++ w)) u hu (by intro c t e; cases e; decide)]
    simp only
    rw [number_dec s.stime w v hv hwe]
  simp only [cpuTicks, hlast, hscan]

/-- C137: A process which has been told to suspend itself may use more than half a second and at most one and a half seconds of
CPU time, whatever the clock's frequency is, before it's killed. -/
theorem time_left (spent ticks : Nat) (ht : 0 < ticks) :
    spent + ticks / 2 < limit spent ticks * ticks ∧ limit spent ticks * ticks ≤ spent + ticks + ticks / 2 := by
  have h1 := Nat.div_add_mod (spent + ticks + ticks / 2) ticks
  have h2 := Nat.mod_lt (spent + ticks + ticks / 2) ht
  rw [Nat.mul_comm] at h1
  simp only [limit]
  omega

/-- C137: "Add 1 second, rounding up" isn't what it does: there may be just over half a second left. -/
theorem second_refuted : limit 49 100 * 100 - 49 = 51 := by decide

/-- C137: If a process is suspended twice and has used a second between, the second limit is greater, and the executor isn't
allowed to set it: it has no capabilities (executor.c:563-579), and the hard limit has been set. -/
theorem grows (spent more ticks : Nat) (ht : 0 < ticks) (hm : ticks ≤ more) : limit spent ticks < limit (spent + more) ticks := by
  have h1 := time_left spent ticks ht
  have h3 : (limit spent ticks + 1) * ticks ≤ spent + more + ticks + ticks / 2 := by
    rw [Nat.add_mul, Nat.one_mul]; omega
  have : limit spent ticks + 1 ≤ limit (spent + more) ticks := by
    unfold limit at *
    exact (Nat.le_div_iff_mul_le ht).2 h3
  omega

/-- A process named ") Z 1" has used 3+4 ticks. -/
example : cpuTicks ("12 () Z 1) R 1 12 12 0 -1 4194304 80 0 0 0 3 4 0 0 20 0 1 0 100".toUTF8.toList) = .spent 7 := by decide +kernel

end Gate.ExecStat
