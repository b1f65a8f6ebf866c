import Verif.Packet
/-
C01 packet header fields, C02 splitting, C03 flow entries, and the data packet
part of C01.
-/
namespace Gate.Packet
open Gate

/-! ### Helper lemmas about the accessors -/

theorem putLE_ok {b : Bytes} {off k v : Nat} (h : off + k ≤ b.length) :
    putLE b off k v = .ok (putAt b off (le k v)) := if_pos h

theorem putLE_length {b b' : Bytes} {off k v : Nat} (h : putLE b off k v = .ok b') :
    b'.length = b.length := by
  unfold putLE at h
  split at h
  · simp only [Res.ok.injEq] at h
    subst h; exact length_putAt (by simpa using ‹_›)
  · simp at h

theorem getLE_same {b b' : Bytes} {off k v : Nat} (h : putLE b off k v = .ok b')
    (hv : v < 256 ^ k) : getLE b' off k = .ok v := by
  have hlen := putLE_length h
  unfold putLE at h
  split at h
  · rename_i hb
    simp only [Res.ok.injEq] at h
    subst h
    unfold getLE
    rw [if_pos (by omega)]
    have := slice_putAt_same (b := b) (src := le k v) (off := off) (by simpa using hb)
    simp only [length_le] at this
    rw [this, unle_le_of_lt hv]
  · simp at h

theorem getLE_disjoint {b b' : Bytes} {off k v o n : Nat} (h : putLE b off k v = .ok b')
    (hd : o + n ≤ off ∨ off + k ≤ o) : getLE b' o n = getLE b o n := by
  have hlen := putLE_length h
  unfold putLE at h
  split at h
  · rename_i hb
    simp only [Res.ok.injEq] at h
    subst h
    unfold getLE
    rw [hlen, slice_putAt_disjoint (by simpa using hb) (by simpa using hd)]
  · simp at h

theorem drop_putAt {b src : Bytes} {off n : Nat} (h : off + src.length ≤ n) (hb : n ≤ b.length) :
    (putAt b off src).drop n = b.drop n := by
  have h1 : (b.take off ++ src).length = off + src.length := by simp; omega
  unfold putAt
  rw [List.drop_append, h1, List.drop_eq_nil_of_le (by omega)]
  rw [List.drop_drop]
  simp
  congr 1; omega

theorem drop_putLE {b b' : Bytes} {off k v n : Nat} (h : putLE b off k v = .ok b')
    (hd : off + k ≤ n) (hn : n ≤ b.length) : b'.drop n = b.drop n := by
  unfold putLE at h
  split at h
  · simp only [Res.ok.injEq] at h
    subst h; exact drop_putAt (by simpa using hd) hn
  · simp at h

/-! ### C01 -/

/-- What a reader of a packet header observes: code, domain, index, encoded
size, and the content after the 8-byte header. -/
structure Fields where
  code : Int
  domain : Nat
  index : Nat
  size : Nat
  content : Bytes
deriving DecidableEq, Repr

/-- Read all the fields of a packet through the public accessors. -/
def fields (b : Bytes) : Res Fields := do
  let c ← code b
  let d ← domain b
  let i ← index b
  let s ← encodedSize b
  let k ← content b
  return ⟨c, d, i, s, k⟩

/-- C01: building a packet of any size of at least the header, for any 16-bit
code and any 4-bit domain, and stamping its size, gives a buffer of exactly that
size whose accessors return exactly the given values and zero elsewhere. -/
theorem make_fields (c : Int) (hc : -2 ^ 15 ≤ c ∧ c < 2 ^ 15) (d : Nat) (hd : d < 16)
    (size : Nat) (h8 : 8 ≤ size) (hmax : size ≤ 2 ^ 32 - 1) :
    ∃ b b', make c d size = .ok b ∧ setSize b = .ok b' ∧ b'.length = size ∧
      fields b' = .ok ⟨c, d, 0, size, List.replicate (size - 8) 0⟩ := by
  let z : Bytes := List.replicate size 0
  have hz : z.length = size := by simp [z]
  obtain ⟨b1, h1⟩ : ∃ b1, setCode z c = .ok b1 := ⟨_, putLE_ok (by omega)⟩
  have l1 := putLE_length h1
  obtain ⟨b2, h2⟩ : ∃ b2, putLE b1 6 1 d = .ok b2 := ⟨_, putLE_ok (by omega)⟩
  have l2 := putLE_length h2
  obtain ⟨b3, h3⟩ : ∃ b3, putLE b2 0 4 size = .ok b3 := ⟨_, putLE_ok (by omega)⟩
  have l3 := putLE_length h3
  have hb2 : b2.length = size := by omega
  refine ⟨b2, b3, ?_, ?_, by omega, ?_⟩
  · simp only [make]
    rw [show setCode (List.replicate size 0) c = .ok b1 from h1]
    exact h2
  · unfold setSize
    rw [if_neg (by omega), hb2]
    exact h3
  · have hcu := toUnsigned_lt 16 c
    have e1 : getLE b3 4 2 = .ok (toUnsigned 16 c) := by
      rw [getLE_disjoint h3 (by omega), getLE_disjoint h2 (by omega)]
      exact getLE_same h1 hcu
    have e2 : getLE b3 6 1 = .ok d := by
      rw [getLE_disjoint h3 (by omega)]
      exact getLE_same h2 (by omega)
    have e3 : getLE b3 7 1 = .ok 0 := by
      rw [getLE_disjoint h3 (by omega), getLE_disjoint h2 (by omega), getLE_disjoint h1 (by omega)]
      unfold getLE
      rw [if_pos (by omega)]
      have : slice z 7 1 = [0] := by
        simp only [z, slice, List.drop_replicate, List.take_replicate]
        rw [show min 1 (size - 7) = 1 by omega]; rfl
      rw [this]; rfl
    have e4 : getLE b3 0 4 = .ok size := getLE_same h3 (by omega)
    have e5 : b3.drop 8 = List.replicate (size - 8) 0 := by
      rw [drop_putLE h3 (by omega) (by omega), drop_putLE h2 (by omega) (by omega),
        drop_putLE h1 (by omega) (by omega)]
      simp [z]
    have hs : toSigned 16 (toUnsigned 16 c) = c :=
      toSigned_toUnsigned (by omega) (by simpa using hc.1) (by simpa using hc.2)
    have hd16 : d % 16 = d := Nat.mod_eq_of_lt hd
    have hl : headerSize ≤ b3.length := by unfold headerSize; omega
    simp [fields, code, domain, index, encodedSize, content, e1, e2, e3, e4, hs, hd16, hl]
    simpa [headerSize] using e5

/-- C01: setting the code of any packet changes the code and no other field. -/
theorem setCode_fields (b : Bytes) (f : Fields) (hf : fields b = .ok f) (c : Int)
    (hc : -2 ^ 15 ≤ c ∧ c < 2 ^ 15) :
    ∃ b', setCode b c = .ok b' ∧ b'.length = b.length ∧ fields b' = .ok { f with code := c } := by
  have hlen : 8 ≤ b.length := by
    apply Nat.le_of_not_lt; intro hlt
    have hx : ∀ x : Res Fields, x = .ok f → x ≠ .panic := by intro x h; simp [h]
    have : fields b = .panic := by
      unfold fields code domain index encodedSize content getLE headerSize
      repeat' split
      all_goals first | rfl | omega
    exact hx _ hf this
  obtain ⟨b1, h1⟩ : ∃ b1, setCode b c = .ok b1 := ⟨_, putLE_ok (by omega)⟩
  have l1 := putLE_length h1
  refine ⟨b1, h1, l1, ?_⟩
  have e1 : getLE b1 4 2 = .ok (toUnsigned 16 c) := getLE_same h1 (toUnsigned_lt 16 c)
  have hs : toSigned 16 (toUnsigned 16 c) = c :=
      toSigned_toUnsigned (by omega) (by simpa using hc.1) (by simpa using hc.2)
  have hl : headerSize ≤ b.length := hlen
  have d1 : b1.drop headerSize = b.drop headerSize := drop_putLE h1 (by simp [headerSize]) hl
  have e0 : getLE b 4 2 = .ok (unle (slice b 4 2)) := if_pos (by omega)
  simp only [fields, code, domain, index, encodedSize, content, e1, l1, hl, d1, if_true,
    getLE_disjoint h1 (o := 6) (n := 1) (by omega), getLE_disjoint h1 (o := 7) (n := 1) (by omega),
    getLE_disjoint h1 (o := 0) (n := 4) (by omega), hs, Res.bind_ok, Res.pure_eq, e0] at hf ⊢
  have g6 : getLE b 6 1 = .ok (unle (slice b 6 1)) := if_pos (by omega)
  have g7 : getLE b 7 1 = .ok (unle (slice b 7 1)) := if_pos (by omega)
  have g0 : getLE b 0 4 = .ok (unle (slice b 0 4)) := if_pos (by omega)
  simp only [g6, g7, g0, Res.bind_ok, Res.ok.injEq] at hf ⊢
  subst hf; rfl

/-- C01: setting the index of any packet changes the index and no other field. -/
theorem setIndex_fields (b : Bytes) (f : Fields) (hf : fields b = .ok f) (hlen : 8 ≤ b.length)
    (i : Nat) (hi : i < 256) :
    ∃ b', setIndex b i = .ok b' ∧ b'.length = b.length ∧ fields b' = .ok { f with index := i } := by
  obtain ⟨b1, h1⟩ : ∃ b1, setIndex b i = .ok b1 := ⟨_, putLE_ok (by omega)⟩
  have l1 := putLE_length h1
  refine ⟨b1, h1, l1, ?_⟩
  have e1 : getLE b1 7 1 = .ok i := getLE_same h1 (by omega)
  have hl : headerSize ≤ b.length := hlen
  have d1 : b1.drop headerSize = b.drop headerSize := drop_putLE h1 (by simp [headerSize]) hl
  simp only [fields, code, domain, index, encodedSize, content, e1, l1, hl, d1, if_true,
    getLE_disjoint h1 (o := 6) (n := 1) (by omega), getLE_disjoint h1 (o := 4) (n := 2) (by omega),
    getLE_disjoint h1 (o := 0) (n := 4) (by omega)] at hf ⊢
  have g6 : getLE b 6 1 = .ok (unle (slice b 6 1)) := if_pos (by omega)
  have g7 : getLE b 7 1 = .ok (unle (slice b 7 1)) := if_pos (by omega)
  have g0 : getLE b 0 4 = .ok (unle (slice b 0 4)) := if_pos (by omega)
  have g4 : getLE b 4 2 = .ok (unle (slice b 4 2)) := if_pos (by omega)
  simp only [g6, g7, g0, g4, Res.bind_ok, Res.pure_eq, Res.ok.injEq] at hf ⊢
  subst hf; rfl

/-- C01: stamping the size of any packet (below 4 GiB) sets the encoded size to
its length and changes no other field. -/
theorem setSize_fields (b : Bytes) (f : Fields) (hf : fields b = .ok f) (hlen : 8 ≤ b.length)
    (hmax : b.length ≤ 2 ^ 32 - 1) :
    ∃ b', setSize b = .ok b' ∧ b'.length = b.length ∧ fields b' = .ok { f with size := b.length } := by
  obtain ⟨b1, h1⟩ : ∃ b1, putLE b 0 4 b.length = .ok b1 := ⟨_, putLE_ok (by omega)⟩
  have l1 := putLE_length h1
  refine ⟨b1, by unfold setSize; rw [if_neg (by omega)]; exact h1, l1, ?_⟩
  have e1 : getLE b1 0 4 = .ok b.length := getLE_same h1 (by omega)
  have hl : headerSize ≤ b.length := hlen
  have d1 : b1.drop headerSize = b.drop headerSize := drop_putLE h1 (by simp [headerSize]) hl
  simp only [fields, code, domain, index, encodedSize, content, e1, l1, hl, d1, if_true,
    getLE_disjoint h1 (o := 6) (n := 1) (by omega), getLE_disjoint h1 (o := 4) (n := 2) (by omega),
    getLE_disjoint h1 (o := 7) (n := 1) (by omega)] at hf ⊢
  have g6 : getLE b 6 1 = .ok (unle (slice b 6 1)) := if_pos (by omega)
  have g7 : getLE b 7 1 = .ok (unle (slice b 7 1)) := if_pos (by omega)
  have g0 : getLE b 0 4 = .ok (unle (slice b 0 4)) := if_pos (by omega)
  have g4 : getLE b 4 2 = .ok (unle (slice b 4 2)) := if_pos (by omega)
  simp only [g6, g7, g0, g4, Res.bind_ok, Res.pure_eq, Res.ok.injEq] at hf ⊢
  subst hf; rfl

example : make (-2) 3 12 = .ok [0, 0, 0, 0, 254, 255, 3, 0, 0, 0, 0, 0] := by decide
example : fields [12, 0, 0, 0, 254, 255, 3, 9, 1, 2, 3, 4] = .ok ⟨-2, 3, 9, 12, [1, 2, 3, 4]⟩ := by
  decide
/-- Reading the domain masks the upper four bits of the byte: domain 19 reads as 3. -/
example : domain [12, 0, 0, 0, 0, 0, 19, 0] = .ok 3 := by decide

/-- C01 (data packets): a data packet of any data size carries its code, the
data domain, its stream id for every 32-bit signed id, a zero note, and zeroed
data of the given size; it signals end-of-file exactly if it has no data. -/
theorem makeData_fields (c : Int) (hc : -2 ^ 15 ≤ c ∧ c < 2 ^ 15) (id : Int)
    (hid : -2 ^ 31 ≤ id ∧ id < 2 ^ 31) (n : Nat) :
    ∃ b, makeData c id n = .ok b ∧ b.length = 16 + n ∧ code b = .ok c ∧ domain b = .ok 3 ∧
      dataID b = .ok id ∧ dataNote b = .ok 0 ∧ data b = .ok (List.replicate n 0) ∧
      (dataEOF b = true ↔ n = 0) := by
  let z : Bytes := List.replicate (16 + n) 0
  have hz : z.length = 16 + n := by simp [z]
  obtain ⟨b1, h1⟩ : ∃ b1, setCode z c = .ok b1 := ⟨_, putLE_ok (by omega)⟩
  have l1 := putLE_length h1
  obtain ⟨b2, h2⟩ : ∃ b2, putLE b1 6 1 3 = .ok b2 := ⟨_, putLE_ok (by omega)⟩
  have l2 := putLE_length h2
  obtain ⟨b3, h3⟩ : ∃ b3, putLE b2 8 4 (toUnsigned 32 id) = .ok b3 := ⟨_, putLE_ok (by omega)⟩
  have l3 := putLE_length h3
  have hs : toSigned 16 (toUnsigned 16 c) = c :=
      toSigned_toUnsigned (by omega) (by simpa using hc.1) (by simpa using hc.2)
  have hsid : toSigned 32 (toUnsigned 32 id) = id :=
      toSigned_toUnsigned (by omega) (by simpa using hid.1) (by simpa using hid.2)
  have e1 : getLE b3 4 2 = .ok (toUnsigned 16 c) := by
    rw [getLE_disjoint h3 (by omega), getLE_disjoint h2 (by omega)]
    exact getLE_same h1 (toUnsigned_lt 16 c)
  have e2 : getLE b3 6 1 = .ok 3 := by
    rw [getLE_disjoint h3 (by omega)]; exact getLE_same h2 (by omega)
  have e3 : getLE b3 8 4 = .ok (toUnsigned 32 id) := getLE_same h3 (toUnsigned_lt 32 id)
  have e4 : getLE b3 12 4 = .ok 0 := by
    rw [getLE_disjoint h3 (by omega), getLE_disjoint h2 (by omega), getLE_disjoint h1 (by omega)]
    unfold getLE
    rw [if_pos (by omega)]
    have : slice z 12 4 = [0, 0, 0, 0] := by
      simp only [z, slice, List.drop_replicate, List.take_replicate]
      rw [show min 4 (16 + n - 12) = 4 by omega]; rfl
    rw [this]; rfl
  have e5 : b3.drop 16 = List.replicate n 0 := by
    rw [drop_putLE h3 (by omega) (by omega), drop_putLE h2 (by omega) (by omega),
      drop_putLE h1 (by omega) (by omega)]
    simp [z]
  refine ⟨b3, ?_, by omega, ?_, ?_, ?_, ?_, ?_, ?_⟩
  · have : make c domainData (dataHeaderSize + n) = .ok b2 := by
      simp only [make, dataHeaderSize]
      rw [show setCode (List.replicate (16 + n) 0) c = .ok b1 from h1]
      exact h2
    simp only [makeData, this]
    exact h3
  · simp [code, e1, hs]
  · simp [domain, e2]
  · simp [dataID, e3, hsid]
  · simp [dataNote, e4]; decide
  · have : dataHeaderSize ≤ b3.length := by unfold dataHeaderSize; omega
    simp only [data, this, if_true]
    rw [show dataHeaderSize = 16 from rfl, e5]
  · simp only [dataEOF, dataHeaderSize]
    constructor
    · intro h; have := beq_iff_eq.mp h; omega
    · rintro rfl; simp; omega

example : makeData 1 (-1) 2 = .ok [0,0,0,0, 1,0, 3, 0, 255,255,255,255, 0,0,0,0, 0,0] := by decide

/-! ### C02 -/

/-- The next multiple of eight. -/
theorem align_spec (n : Nat) : align n % 8 = 0 ∧ n ≤ align n ∧ align n < n + 8 := by
  unfold align alignment; omega

/-- C02 (what holds): for any buffer and any prefix within it, the first part has
exactly the requested length and unchanged bytes, the second part starts at the
next multiple of eight (or the end of the buffer), and if it is at least as long
as the header, it is the rest of the buffer with its beginning replaced by the
header.  Missing for the full property: an empty second part when it is shorter
than the header. -/
theorem split_partial (b : Bytes) (hs n : Nat) (hn : n ≤ b.length) (hh : hs ≤ n) :
    ∃ pre unused, split b hs n = .ok (pre, unused) ∧ pre = b.take n ∧
      ∃ k, n ≤ k ∧ k < n + 8 ∧ (k % 8 = 0 ∨ k = b.length) ∧ unused.length = b.length - k ∧
        unused.drop hs = (b.drop k).drop hs ∧
        (hs ≤ unused.length → unused.take hs = b.take hs) := by
  have ha := align_spec n
  by_cases hc : align n > b.length
  · by_cases h0 : hs = 0
    · subst h0
      refine ⟨b.take n, b.drop b.length, ?_, rfl, b.length, hn, by omega, Or.inr rfl, by simp, by simp, by simp⟩
      simp only [split, hc, if_true, hn]
      rw [if_neg (by simp)]
      simp [putAt]
    · refine ⟨b.take n, b.drop b.length, ?_, rfl, b.length, hn, by omega, Or.inr rfl, by simp, by simp, ?_⟩
      · simp only [split, hc, if_true, hn]
        rw [if_pos (by simp; omega)]
      · simp; omega
  · by_cases hu : (b.drop (align n)).length < hs
    · refine ⟨b.take n, b.drop (align n), ?_, rfl, align n, ha.2.1, ha.2.2, Or.inl ha.1, by simp, rfl, ?_⟩
      · simp only [split, hc, if_false, ha.2.1, if_true, hu]
      · intro h; omega
    · have hlen : (b.take hs).length = hs := by simp; omega
      have hul : (b.drop (align n)).length = b.length - align n := by simp
      refine ⟨b.take n, putAt (b.drop (align n)) 0 (b.take hs), ?_, rfl, align n, ha.2.1, ha.2.2, Or.inl ha.1, ?_, ?_, ?_⟩
      · simp only [split, hc, if_false, ha.2.1, if_true, hu]
        rw [if_pos (by omega)]
      · rw [length_putAt (by omega)]; simp
      · exact drop_putAt (by omega) (by omega)
      · intro _
        have := slice_putAt_same (b := b.drop (align n)) (src := b.take hs) (off := 0) (by omega)
        rw [hlen] at this
        simpa [slice] using this

/-- C02 (the documented case that fails): `Split` documents "If the buffer is too
short for the second part, the length of the second buffer will be zero".  The
code does not do that: whenever the remainder is non-empty but shorter than the
header, the second buffer has that non-zero length and no copied header. -/
theorem split_short_remainder_not_empty (b : Bytes) (hs n : Nat)
    (hrem : align n < b.length) (hshort : b.length - align n < hs) :
    ∃ pre unused, split b hs n = .ok (pre, unused) ∧ unused ≠ [] ∧ unused = b.drop (align n) := by
  have ha := align_spec n
  refine ⟨b.take n, b.drop (align n), ?_, ?_, rfl⟩
  · have : ¬ align n > b.length := by omega
    simp only [split, this, if_false, ha.2.1, if_true]
    rw [if_pos (by simp; omega)]
  · intro h
    have := congrArg List.length h
    simp at this
    omega

/-- C02 refuted as documented. -/
theorem split_doc_false :
    ¬ (∀ (b : Bytes) (hs n : Nat) (pre unused : Bytes), split b hs n = .ok (pre, unused) →
        b.length - align n < hs → unused = []) := by
  intro h
  have := h (List.replicate 28 7) 16 18 (List.replicate 18 7) [7, 7, 7, 7] (by decide) (by decide)
  simp at this

example : split (List.replicate 40 7) 16 18 = .ok (List.replicate 18 7, List.replicate 16 7) := by decide

/-- C02 (data packets): splitting a data packet after `n` data bytes yields the
data packet with exactly the first `n` data bytes. -/
theorem dataSplit_prefix (b : Bytes) (n : Nat) (hn : 16 + n ≤ b.length) :
    ∃ pre unused, dataSplit b n = .ok (pre, unused) ∧ pre.length = 16 + n ∧
      pre.take 16 = b.take 16 ∧ pre.drop 16 = (b.drop 16).take n := by
  obtain ⟨pre, unused, h, hp, _⟩ := split_partial b 16 (16 + n) hn (by omega)
  refine ⟨pre, unused, h, by simp [hp]; omega, ?_, ?_⟩
  · rw [hp, List.take_take]; congr 1; omega
  · rw [hp, List.drop_take]; simp

/-! ### C03 -/

/-- C03: a flow packet made for `n` entries has `n` entries. -/
theorem makeFlows_num (c : Int) (n : Nat) :
    ∃ b, makeFlows c n = .ok b ∧ b.length = 8 + 8 * n ∧ flowNum b = n := by
  let z : Bytes := List.replicate (headerSize + n * flowSize) 0
  have hz : z.length = 8 + n * 8 := by simp [z, headerSize, flowSize]
  obtain ⟨b1, h1⟩ : ∃ b1, setCode z c = .ok b1 := ⟨_, putLE_ok (by omega)⟩
  have l1 := putLE_length h1
  obtain ⟨b2, h2⟩ : ∃ b2, putLE b1 6 1 domainFlow = .ok b2 := ⟨_, putLE_ok (by omega)⟩
  have l2 := putLE_length h2
  refine ⟨b2, ?_, by omega, ?_⟩
  · simp only [makeFlows, make]
    rw [show setCode (List.replicate (headerSize + n * flowSize) 0) c = .ok b1 from h1]
    exact h2
  · unfold flowNum headerSize flowSize; omega

/-- C03: storing an entry within a flow packet is read back exactly, keeps the
packet's length and its 8-byte header, and leaves every other entry as it was,
for all 32-bit signed ids and increments. -/
theorem flow_set_get (b : Bytes) (i : Nat) (hi : i < flowNum b) (id inc : Int)
    (hid : -2 ^ 31 ≤ id ∧ id < 2 ^ 31) (hinc : -2 ^ 31 ≤ inc ∧ inc < 2 ^ 31) :
    ∃ b', flowSet b i id inc = .ok b' ∧ b'.length = b.length ∧ flowGet b' i = .ok (id, inc) ∧
      b'.take 8 = b.take 8 ∧
      ∀ j, j ≠ i → flowGet b' j = flowGet b j := by
  have hb : 8 + (i + 1) * 8 ≤ b.length := by
    unfold flowNum headerSize flowSize at hi
    have : (i + 1) * 8 ≤ b.length - 8 := by
      have := Nat.div_mul_le_self (b.length - 8) 8
      omega
    omega
  obtain ⟨b1, h1⟩ : ∃ b1, putLE b (headerSize + i * flowSize) 4 (toUnsigned 32 id) = .ok b1 :=
    ⟨_, putLE_ok (by unfold headerSize flowSize; omega)⟩
  have l1 := putLE_length h1
  obtain ⟨b2, h2⟩ : ∃ b2, putLE b1 (headerSize + i * flowSize + 4) 4 (toUnsigned 32 inc) = .ok b2 :=
    ⟨_, putLE_ok (by unfold headerSize flowSize; omega)⟩
  have l2 := putLE_length h2
  have hsid : toSigned 32 (toUnsigned 32 id) = id :=
      toSigned_toUnsigned (by omega) (by simpa using hid.1) (by simpa using hid.2)
  have hsinc : toSigned 32 (toUnsigned 32 inc) = inc :=
      toSigned_toUnsigned (by omega) (by simpa using hinc.1) (by simpa using hinc.2)
  have e1 : getLE b2 (headerSize + i * flowSize) 4 = .ok (toUnsigned 32 id) := by
    rw [getLE_disjoint h2 (by omega)]; exact getLE_same h1 (toUnsigned_lt 32 id)
  have e2 : getLE b2 (headerSize + i * flowSize + 4) 4 = .ok (toUnsigned 32 inc) :=
    getLE_same h2 (toUnsigned_lt 32 inc)
  refine ⟨b2, ?_, by omega, ?_, ?_, ?_⟩
  · simp only [flowSet, h1]; exact h2
  · simp [flowGet, e1, e2, hsid, hsinc]
  · unfold putLE at h1 h2
    rw [if_pos (by unfold headerSize flowSize; omega)] at h1
    rw [if_pos (by unfold headerSize flowSize; omega)] at h2
    simp only [Res.ok.injEq] at h1 h2
    have q1 := slice_putAt_disjoint (b := b) (src := le 4 (toUnsigned 32 id))
      (off := headerSize + i * flowSize) (o := 0) (n := 8)
      (by simp [headerSize, flowSize]; omega) (by left; unfold headerSize; omega)
    have q2 := slice_putAt_disjoint (b := b1) (src := le 4 (toUnsigned 32 inc))
      (off := headerSize + i * flowSize + 4) (o := 0) (n := 8)
      (by simp [headerSize, flowSize]; omega) (by left; unfold headerSize; omega)
    rw [h1] at q1
    rw [h2] at q2
    simpa [slice] using q2.trans q1
  · intro j hj
    have hne : j + 1 ≤ i ∨ i + 1 ≤ j := by omega
    have hd : headerSize + j * flowSize + 8 ≤ headerSize + i * flowSize ∨
        headerSize + i * flowSize + 8 ≤ headerSize + j * flowSize := by
      unfold flowSize
      rcases hne with h | h
      · left; have := Nat.mul_le_mul_right 8 h; omega
      · right; have := Nat.mul_le_mul_right 8 h; omega
    simp only [flowGet]
    rw [getLE_disjoint h2 (by omega), getLE_disjoint h1 (by omega),
      getLE_disjoint h2 (by omega), getLE_disjoint h1 (by omega)]

example : (makeFlows 5 2 >>= fun b => flowSet b 1 (-3) 70000 >>= fun b => flowGet b 1)
    = .ok (-3, 70000) := by decide

/-- C01 (data packets): setting the note of a data packet of any size changes the note, for every 32-bit signed
value, and nothing else. -/
theorem setDataNote_fields (b : Bytes) (hlen : 16 ≤ b.length) (v : Int) (hv : -2 ^ 31 ≤ v ∧ v < 2 ^ 31) :
    ∃ b', setDataNote b v = .ok b' ∧ b'.length = b.length ∧ dataNote b' = .ok v ∧ dataID b' = dataID b ∧
      data b' = data b ∧ code b' = code b ∧ domain b' = domain b ∧ index b' = index b ∧ encodedSize b' = encodedSize b := by
  obtain ⟨b1, h1⟩ : ∃ b1, setDataNote b v = .ok b1 := ⟨_, putLE_ok (by omega)⟩
  have l1 := putLE_length h1
  have e1 : getLE b1 12 4 = .ok (toUnsigned 32 v) := getLE_same h1 (toUnsigned_lt 32 v)
  have hs : toSigned 32 (toUnsigned 32 v) = v :=
    toSigned_toUnsigned (by omega) (by simpa using hv.1) (by simpa using hv.2)
  have hl : dataHeaderSize ≤ b.length := hlen
  refine ⟨b1, h1, l1, ?_, ?_, ?_, ?_, ?_, ?_, ?_⟩
  · simp only [dataNote, e1, Res.bind_ok, Res.pure_eq, hs]
  · simp only [dataID, getLE_disjoint h1 (o := 8) (n := 4) (by omega)]
  · simp only [data, l1, drop_putLE h1 (by simp [dataHeaderSize]) hl]
  · simp only [code, getLE_disjoint h1 (o := 4) (n := 2) (by omega)]
  · simp only [domain, getLE_disjoint h1 (o := 6) (n := 1) (by omega)]
  · simp only [index, getLE_disjoint h1 (o := 7) (n := 1) (by omega)]
  · simp only [encodedSize, getLE_disjoint h1 (o := 0) (n := 4) (by omega)]

example : ∃ b b', makeData 5 77 3 = .ok b ∧ setDataNote b (-9) = .ok b' ∧ dataNote b' = .ok (-9) ∧ dataID b' = .ok 77 :=
  ⟨_, _, rfl, rfl, rfl, rfl⟩

end Gate.Packet
