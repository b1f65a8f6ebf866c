import Verif.Framing
import Verif.PacketProps
/-
C13-C15 and C20: framing of program output, buffered output, validation of
packets, padding of events.
-/
namespace Gate.Framing
open Gate Gate.Packet

/-! ### Specification vocabulary -/

/-- A packet as the ABI defines it: the size field is its length, which is at least
the header and at most the maximum. -/
def ValidPacket (p : Bytes) : Prop :=
  8 ≤ p.length ∧ p.length ≤ 65536 ∧ sizeField p = p.length

/-- Is `b` a packet followed by its padding (of arbitrary contents)? -/
def Padded (p b : Bytes) : Prop := ∃ pad, b = p ++ pad ∧ b.length % 8 = 0 ∧ pad.length < 8

/-- What a program writes for a list of packets: each followed by padding. -/
inductive Wire : List Bytes → Bytes → Prop
  | nil : Wire [] []
  | cons {p b ps bs} : ValidPacket p → Padded p b → Wire ps bs → Wire (p :: ps) (b ++ bs)

/-- An incomplete packet: less than a header, or a header of a permitted size with
not enough bytes following. -/
def Incomplete (r : Bytes) : Prop :=
  r.length < 8 ∨ (8 ≤ sizeField r ∧ sizeField r ≤ 65536 ∧ r.length < align (sizeField r))

/-- A full header whose size is not permitted. -/
def BadHeader (r : Bytes) : Prop := 8 ≤ r.length ∧ (sizeField r < 8 ∨ sizeField r > 65536)

/-- Already buffered bytes which stop inside the first packet or its padding. -/
def PartOk (part : Bytes) : Prop := part.length < 8 ∨ part.length ≤ align (sizeField part)

/-! ### Lemmas -/

theorem readFullLoop_spec : ∀ (p : Pipe) (n : Nat) (got : Bytes),
    (n ≤ p.flatten.length → ∃ p', readFullLoop n got p = (got ++ p.flatten.take n, p', none) ∧
      p'.flatten = p.flatten.drop n) ∧
    (p.flatten.length < n → readFullLoop n got p = (got ++ p.flatten, [],
      some (if got ++ p.flatten = [] then .eof else .unexpected))) := by
  intro p
  induction p with
  | nil =>
    intro n got
    constructor
    · intro h
      have : n = 0 := by simpa using h
      subst this
      exact ⟨[], by simp [readFullLoop], by simp⟩
    · intro h
      have : n ≠ 0 := by simp at h; omega
      simp [readFullLoop, this]
  | cons c cs ih =>
    intro n got
    unfold readFullLoop
    constructor
    · intro h
      split
      · rename_i h0; subst h0
        exact ⟨c :: cs, by simp, by simp⟩
      · split
        · rename_i hc
          obtain ⟨p', h1, h2⟩ := (ih (n - c.length) (got ++ c)).1 (by simp only [List.flatten_cons, List.length_append] at h; omega)
          refine ⟨p', ?_, ?_⟩
          · rw [h1]; simp only [List.flatten_cons, List.take_append, List.append_assoc]
            rw [List.take_of_length_le hc]
          · rw [h2]; simp only [List.flatten_cons, List.drop_append]
            rw [List.drop_of_length_le hc]; simp
        · rename_i hc
          have hz : n - c.length = 0 := by omega
          refine ⟨c.drop n :: cs, ?_, ?_⟩
          · simp only [List.flatten_cons, List.take_append, hz, List.take_zero, List.append_nil]
          · simp only [List.flatten_cons, List.drop_append, hz, List.drop_zero]
    · intro h
      simp only [List.flatten_cons, List.length_append] at h
      rw [if_neg (by omega), if_pos (by omega)]
      have := (ih (n - c.length) (got ++ c)).2 (by omega)
      rw [this]
      simp [List.append_assoc]

/-- Reading `k` bytes where the first ones come from `part`. -/
theorem readVia (k : Nat) (part : Bytes) (pipe : Pipe) (t : Bytes) (ht : t = part ++ pipe.flatten) :
    (k ≤ t.length → ∃ b pipe', readFull (k - min k part.length) pipe = (b, pipe', none) ∧
      part.take (min k part.length) ++ b = t.take k ∧
      part.drop (min k part.length) ++ pipe'.flatten = t.drop k) ∧
    (t.length < k → ∃ b, readFull (k - min k part.length) pipe =
        (b, [], some (if pipe.flatten = [] then .eof else .unexpected)) ∧
      part.take (min k part.length) ++ b = t) := by
  subst ht
  have spec := readFullLoop_spec pipe (k - min k part.length) []
  constructor
  · intro h
    simp only [List.length_append] at h
    obtain ⟨p', h1, h2⟩ := spec.1 (by omega)
    refine ⟨_, p', h1, ?_, ?_⟩
    · simp only [List.nil_append, List.take_append]
      by_cases hk : k ≤ part.length
      · rw [Nat.min_eq_left hk]; simp; omega
      · rw [Nat.min_eq_right (by omega)]; simp [List.take_of_length_le (show part.length ≤ k by omega)]
    · rw [h2, List.drop_append]
      by_cases hk : k ≤ part.length
      · rw [Nat.min_eq_left hk]; simp [show k - part.length = 0 by omega]
      · rw [Nat.min_eq_right (by omega)]; simp [List.drop_of_length_le (show part.length ≤ k by omega)]
  · intro h
    simp only [List.length_append] at h
    have h1 := spec.2 (by omega)
    refine ⟨_, h1, ?_⟩
    rw [Nat.min_eq_right (by omega)]; simp

theorem sizeField_take {b : Bytes} {n : Nat} (h : 4 ≤ n) : sizeField (b.take n) = sizeField b := by
  unfold sizeField; rw [List.take_take, Nat.min_eq_left h]

theorem sizeField_append {a b : Bytes} (h : 4 ≤ a.length) : sizeField (a ++ b) = sizeField a := by
  unfold sizeField; rw [List.take_append_of_le_length h]

/-- One iteration of the loop, in terms of the whole remaining input `t`. -/
theorem readLoop_step (fuel : Nat) (part : Bytes) (pipe : Pipe) (t : Bytes)
    (ht : t = part ++ pipe.flatten) (hp : PartOk part) :
    (t.length < 8 → readLoop (fuel + 1) part pipe =
        [.stop t (if pipe.flatten = [] then .eof else .unexpected)]) ∧
    (BadHeader t → readLoop (fuel + 1) part pipe = [.bad]) ∧
    (8 ≤ t.length → ¬ BadHeader t → t.length < align (sizeField t) →
      ∃ e, readLoop (fuel + 1) part pipe = [.stop t e]) ∧
    (8 ≤ t.length → ¬ BadHeader t → align (sizeField t) ≤ t.length →
      ∃ pipe', pipe'.flatten = t.drop (align (sizeField t)) ∧
        readLoop (fuel + 1) part pipe = .pkt (t.take (sizeField t)) :: readLoop fuel [] pipe') := by
  have v := readVia 8 part pipe t ht
  have head : 8 ≤ t.length → ∃ b pipe', readFull (8 - min 8 part.length) pipe = (b, pipe', none) ∧
      part.take (min 8 part.length) ++ b = t.take 8 ∧
      part.drop (min 8 part.length) ++ pipe'.flatten = t.drop 8 := v.1
  have hal := align_spec (sizeField t)
  have h4 : 8 ≤ t.length → sizeField (t.take 8) = sizeField t := fun _ => sizeField_take (by omega)
  -- nothing of the buffered part is beyond the first packet
  have hpl : 8 ≤ t.length → ¬ BadHeader t → (part.drop (min 8 part.length)).length ≤ align (sizeField t) - 8 := by
    intro h8 hb
    unfold BadHeader at hb
    rcases hp with hp | hp
    · rw [List.length_drop]; omega
    · by_cases hpp : part.length < 8
      · rw [List.length_drop]; omega
      · have : sizeField t = sizeField part := by rw [ht, sizeField_append (by omega)]
        rw [List.length_drop, this]; omega
  refine ⟨?_, ?_, ?_, ?_⟩
  · intro h
    obtain ⟨b, h1, h2⟩ := v.2 h
    rw [readLoop]
    simp only [headerSize]
    rw [h1]; simp only [h2]
  · intro h
    obtain ⟨b, p1, h1, h2, h3⟩ := head h.1
    rw [readLoop]
    simp only [headerSize]
    rw [h1]; simp only [h2, h4 h.1]
    rw [if_pos (by unfold maxPacketSize; exact h.2)]
  · intro h8 hb hlt
    obtain ⟨b, p1, h1, h2, h3⟩ := head h8
    have hl := hpl h8 hb
    rw [readLoop]
    simp only [headerSize]
    rw [h1]; simp only [h2, h4 h8]
    unfold BadHeader at hb
    rw [if_neg (by unfold maxPacketSize; omega)]
    obtain ⟨b2, h5, h6⟩ := (readVia (align (sizeField t) - 8) _ p1 (t.drop 8) h3.symm).2 (by simp; omega)
    rw [h5]
    simp only
    exact ⟨_, by rw [List.append_assoc, h6, List.take_append_drop]⟩
  · intro h8 hb hle
    obtain ⟨b, p1, h1, h2, h3⟩ := head h8
    have hl := hpl h8 hb
    rw [readLoop]
    simp only [headerSize]
    rw [h1]; simp only [h2, h4 h8]
    unfold BadHeader at hb
    rw [if_neg (by unfold maxPacketSize; omega)]
    obtain ⟨b2, p2, h5, h6, h7⟩ := (readVia (align (sizeField t) - 8) _ p1 (t.drop 8) h3.symm).1 (by simp; omega)
    rw [h5]
    simp only
    refine ⟨p2, ?_, ?_⟩
    · rw [Nat.min_eq_right hl, List.drop_length, List.nil_append] at h7
      rw [h7, List.drop_drop]; congr 1; omega
    · rw [List.append_assoc, h6]
      congr 2
      have : t.take 8 ++ (t.drop 8).take (align (sizeField t) - 8) = t.take (align (sizeField t)) := by
        rw [← List.take_add]; congr 1; omega
      rw [this, List.take_take]; congr 1; omega

/-! ### C13 -/

theorem padded_length {p b : Bytes} (h : Padded p b) : b.length = align p.length := by
  obtain ⟨pad, rfl, h1, h2⟩ := h
  have := align_spec p.length
  simp only [List.length_append] at h1 ⊢
  omega

theorem framing_fuel : ∀ (ps : List Bytes) (w rest : Bytes) (fuel : Nat) (part : Bytes) (pipe : Pipe),
    Wire ps w → part ++ pipe.flatten = w ++ rest → PartOk part →
    (w ++ rest).length < fuel →
    (Incomplete rest → ∃ e, readLoop fuel part pipe = ps.map .pkt ++ [.stop rest e]) ∧
    (BadHeader rest → readLoop fuel part pipe = ps.map .pkt ++ [.bad]) := by
  intro ps
  induction ps with
  | nil =>
    intro w rest fuel part pipe hw heq hp hf
    cases hw
    obtain ⟨fuel, rfl⟩ : ∃ f, fuel = f + 1 := ⟨fuel - 1, by omega⟩
    obtain ⟨s1, s2, s3, _⟩ := readLoop_step fuel part pipe rest (by simpa using heq.symm) hp
    refine ⟨?_, fun hb => by rw [s2 hb]; rfl⟩
    intro hi
    by_cases h8 : rest.length < 8
    · exact ⟨_, s1 h8⟩
    · have hnb : ¬ BadHeader rest := by
        unfold BadHeader; rcases hi with hi | hi <;> omega
      rcases hi with hi | hi
      · omega
      · exact s3 (by omega) hnb hi.2.2
  | cons p ps ih =>
    intro w rest fuel part pipe hw heq hp hf
    cases hw with
    | @cons _ b _ bs hv hpd hws =>
      obtain ⟨fuel, rfl⟩ : ∃ f, fuel = f + 1 := ⟨fuel - 1, by omega⟩
      have hbl := padded_length hpd
      have hal := align_spec p.length
      obtain ⟨hv1, hv2, hv3⟩ := hv
      obtain ⟨pad, hb, _⟩ := hpd
      have ht : (b ++ bs ++ rest) = part ++ pipe.flatten := heq.symm
      have hsz : sizeField (b ++ bs ++ rest) = p.length := by
        rw [hb, List.append_assoc, List.append_assoc, sizeField_append (by omega), hv3]
      have hblen := congrArg List.length hb
      simp only [List.length_append] at hblen
      obtain ⟨_, _, _, s4⟩ := readLoop_step fuel part pipe _ ht hp
      have hnb : ¬ BadHeader (b ++ bs ++ rest) := by unfold BadHeader; rw [hsz]; omega
      obtain ⟨pipe', h1, h2⟩ := s4 (by simp only [List.length_append]; omega) hnb
        (by rw [hsz]; simp only [List.length_append]; omega)
      rw [hsz] at h1 h2
      rw [List.append_assoc, ← hbl, List.drop_left] at h1
      have htake : (b ++ bs ++ rest).take p.length = p := by
        rw [hb, List.append_assoc, List.append_assoc, List.take_left]
      rw [htake] at h2
      have := ih bs rest fuel [] pipe' hws (by simpa using h1) (Or.inl (by simp))
        (by simp only [List.length_append] at hf ⊢; omega)
      rw [h2]
      refine ⟨fun hi => ?_, fun hb => by rw [this.2 hb]; rfl⟩
      obtain ⟨e, he⟩ := this.1 hi
      exact ⟨e, by rw [he]; rfl⟩

/-- C13: for every list of padded packets, followed by an incomplete packet or a
header with a bad size, and for every cut of those bytes into an already
buffered part (which stops inside the first packet or its padding) and pipe
chunks, the I/O loop receives exactly the packets in order, and then either a
stop with exactly the incomplete bytes or a program error. -/
theorem framing (ps : List Bytes) (w rest part : Bytes) (pipe : Pipe) (hw : Wire ps w)
    (heq : part ++ pipe.flatten = w ++ rest) (hp : PartOk part) :
    (Incomplete rest → ∃ e, subjectReads part pipe = ps.map .pkt ++ [.stop rest e]) ∧
    (BadHeader rest → subjectReads part pipe = ps.map .pkt ++ [.bad]) := by
  have hlen := congrArg List.length heq
  simp only [List.length_append] at hlen
  exact framing_fuel ps w rest _ part pipe hw heq hp (by simp only [List.length_append]; omega)

/-- C13: every byte string is of that form, so the theorem above describes the read
loop on every input. -/
theorem framing_total (t : Bytes) :
    ∃ ps w rest, t = w ++ rest ∧ Wire ps w ∧ (Incomplete rest ∨ BadHeader rest) := by
  generalize hn : t.length = n
  induction n using Nat.strongRecOn generalizing t with
  | _ n ih =>
    by_cases h8 : t.length < 8
    · exact ⟨[], [], t, rfl, .nil, Or.inl (Or.inl h8)⟩
    by_cases hb : BadHeader t
    · exact ⟨[], [], t, rfl, .nil, Or.inr hb⟩
    have hb' := hb
    unfold BadHeader at hb'
    have hal := align_spec (sizeField t)
    by_cases hc : t.length < align (sizeField t)
    · exact ⟨[], [], t, rfl, .nil, Or.inl (Or.inr ⟨by omega, by omega, hc⟩)⟩
    obtain ⟨ps, w, rest, h1, h2, h3⟩ := ih (t.drop (align (sizeField t))).length (by simp; omega)
      (t.drop (align (sizeField t))) rfl
    refine ⟨t.take (sizeField t) :: ps, t.take (align (sizeField t)) ++ w, rest, ?_, ?_, h3⟩
    · rw [List.append_assoc, ← h1, List.take_append_drop]
    · have hl : (t.take (sizeField t)).length = sizeField t := by simp; omega
      refine .cons ⟨by omega, by omega, ?_⟩ ⟨(t.drop (sizeField t)).take (align (sizeField t) - sizeField t), ?_, ?_, ?_⟩ h2
      · rw [hl, sizeField_take (by omega)]
      · rw [← List.take_add]; congr 1; omega
      · simp; omega
      · simp; omega

/-- Hypotheses are met: one ten-byte packet with non-zero padding, cut in three. -/
example : Wire [[10, 0, 0, 0, 1, 0, 0, 0, 65, 66]] [10, 0, 0, 0, 1, 0, 0, 0, 65, 66, 9, 9, 9, 9, 9, 9] :=
  .cons (b := [10, 0, 0, 0, 1, 0, 0, 0, 65, 66, 9, 9, 9, 9, 9, 9]) (by unfold ValidPacket; decide)
    ⟨[9, 9, 9, 9, 9, 9], rfl, rfl, by decide⟩ .nil
example : subjectReads [10, 0, 0] [[0, 1, 0, 0, 0, 65], [66, 9, 9, 9, 9, 9, 9, 7], [7]] =
    [.pkt [10, 0, 0, 0, 1, 0, 0, 0, 65, 66], .stop [7, 7] .unexpected] := by decide
example : PartOk [10, 0, 0] := Or.inl (by decide)

/-- C13 refuted for a suspension inside the padding: the program writes two valid
padded packets.  The first one and one byte of its padding have been read when
the program is suspended, so the snapshot's output buffer holds those nine bytes
and the rest is written after resuming.  Uninterrupted, the read loop yields both
packets; resumed, splitting the buffered output yields the first packet and leaves
the padding byte as the start of a new packet, and the program is killed for a
bad packet size. -/
theorem suspend_in_padding :
    let p1 : Bytes := [12, 0, 0, 0, 0, 0, 0, 0, 65, 66, 67, 68]
    let p2 : Bytes := [8, 0, 0, 0, 0, 0, 0, 0]
    let bytes := p1 ++ [0, 0, 0, 0] ++ p2
    Wire [p1, p2] bytes ∧
    subjectReads [] [bytes] = [.pkt p1, .pkt p2, .stop [] .eof] ∧
    subjectReads [] [bytes.take 13] = [.stop (bytes.take 13) .unexpected] ∧
    splitBufferedPackets (bytes.take 13) 1 = .ok ([p1], [0]) ∧
    subjectReads [0] [bytes.drop 13] = [.bad] := by
  refine ⟨?_, by decide, by decide, by decide, by decide⟩
  exact .cons (b := [12, 0, 0, 0, 0, 0, 0, 0, 65, 66, 67, 68, 0, 0, 0, 0]) (by unfold ValidPacket; decide)
    ⟨[0, 0, 0, 0], rfl, rfl, by decide⟩
    (.cons (b := [8, 0, 0, 0, 0, 0, 0, 0]) (bs := []) (by unfold ValidPacket; decide) ⟨[], rfl, rfl, by decide⟩ .nil)

/-! ### C14 and C15 -/

/-- Specification: a packet that may be handed to services, given the number of
discovered services. -/
def Deliverable (num : Nat) (p : Bytes) : Prop :=
  ∃ c d, code p = .ok c ∧ domain p = .ok d ∧ 0 ≤ c ∧ c < num ∧
    (d = 0 ∨ d = 1 ∨ d = 2 ∨ d = 3) ∧ (d = 3 → 16 ≤ p.length)

theorem code_ok {p : Bytes} (h : 8 ≤ p.length) : ∃ c, code p = .ok c := by
  unfold code getLE; rw [if_pos (by omega)]; exact ⟨_, rfl⟩

theorem domain_ok {p : Bytes} (h : 8 ≤ p.length) : ∃ d, domain p = .ok d := by
  unfold domain getLE; rw [if_pos (by omega)]; exact ⟨_, rfl⟩

/-- C15: for every packet with a full header, the check passes it on unchanged
exactly if it is deliverable (its code being non-negative), and otherwise it is
an error; it never panics. -/
theorem check_spec (p : Bytes) (num : Nat) (h8 : 8 ≤ p.length) (c : Int) (hc : code p = .ok c) (h0 : 0 ≤ c) :
    (Deliverable num p → checkServicePacket p num = .ok p) ∧
    (¬ Deliverable num p → ∃ m, checkServicePacket p num = .err m) := by
  obtain ⟨d, hd⟩ := domain_ok h8
  unfold checkServicePacket
  simp only [hc, hd, Res.bind_ok]
  have e0 : domainCall = 0 := rfl
  have e1 : domainInfo = 1 := rfl
  have e2 : domainFlow = 2 := rfl
  have e3 : domainData = 3 := rfl
  have e4 : dataHeaderSize = 16 := rfl
  constructor
  · rintro ⟨c', d', h1, h2, h3, h4, h5, h6⟩
    rw [hc] at h1; rw [hd] at h2
    cases h1; cases h2
    rw [if_neg (by omega)]
    by_cases hx : d = domainCall ∨ d = domainInfo ∨ d = domainFlow
    · rw [if_pos hx]
    · have : d = 3 := by omega
      have := h6 this
      rw [if_neg hx, if_pos (by omega), if_neg (by omega)]
  · intro hn
    by_cases h1 : c ≥ (num : Int)
    · exact ⟨_, by rw [if_pos h1]⟩
    · rw [if_neg h1]
      by_cases hx : d = domainCall ∨ d = domainInfo ∨ d = domainFlow
      · exact absurd ⟨c, d, hc, hd, h0, by omega, by omega, by omega⟩ hn
      · rw [if_neg hx]
        by_cases h3 : d = domainData
        · rw [if_pos h3]
          by_cases h4 : p.length < dataHeaderSize
          · exact ⟨_, by rw [if_pos h4]⟩
          · exact absurd ⟨c, d, hc, hd, h0, by omega, by omega, by omega⟩ hn
        · exact ⟨_, by rw [if_neg h3]⟩

/-- C15: what happens to each packet the program sends. -/
theorem handle_spec (p : Bytes) (num : Nat) (h8 : 8 ≤ p.length) :
    ∃ c, code p = .ok c ∧
      (Deliverable num p → handlePacket p num = .ok (.msg p)) ∧
      (c = -1 → handlePacket p num = .ok (.services p)) ∧
      (¬ Deliverable num p → c ≠ -1 → ∃ m, handlePacket p num = .err m) := by
  obtain ⟨c, hc⟩ := code_ok h8
  refine ⟨c, hc, ?_, ?_, ?_⟩
  · intro hd
    have h0 : 0 ≤ c := by
      obtain ⟨c', _, h1, _, h3, _⟩ := hd
      rw [hc] at h1; cases h1; exact h3
    unfold handlePacket
    simp only [hc, Res.bind_ok]
    rw [if_pos h0, (check_spec p num h8 c hc h0).1 hd]; rfl
  · intro h1; subst h1
    unfold handlePacket
    simp only [hc, Res.bind_ok, codeServices]; rfl
  · intro hn h1
    unfold handlePacket
    simp only [hc, Res.bind_ok]
    by_cases h0 : c ≥ 0
    · rw [if_pos h0]
      obtain ⟨m, hm⟩ := (check_spec p num h8 c hc h0).2 hn
      exact ⟨m, by rw [hm]; rfl⟩
    · rw [if_neg h0, if_neg (show ¬ c = codeServices from h1)]; exact ⟨_, rfl⟩

/-- C15: a message handed to services is the packet itself and is deliverable. -/
theorem handled_is_deliverable (p m : Bytes) (num : Nat) (h8 : 8 ≤ p.length)
    (h : handlePacket p num = .ok (.msg m)) : m = p ∧ Deliverable num p := by
  obtain ⟨c, hc, h1, h2, h3⟩ := handle_spec p num h8
  by_cases hd : Deliverable num p
  · rw [h1 hd] at h; cases h; exact ⟨rfl, hd⟩
  · by_cases hm : c = -1
    · rw [h2 hm] at h; cases h
    · obtain ⟨e, he⟩ := h3 hd hm; rw [he] at h; cases h

/-- A buffered message as it must be: a valid packet that is deliverable. -/
def GoodMsg (num : Nat) (p : Bytes) : Prop := ValidPacket p ∧ Deliverable num p

/-- A partial packet in a buffer: less than a header, or less than its size. -/
def PartialPacket (t : Bytes) : Prop :=
  t.length < 8 ∨ (8 ≤ sizeField t ∧ sizeField t ≤ 65536 ∧ t.length < sizeField t)

theorem splitLoop_total (num : Nat) : ∀ (fuel : Nat) (buf : Bytes) (msgs : List Bytes),
    buf.length < fuel → buf.length < 2 ^ 32 →
    (∃ m, splitLoop fuel buf num msgs = .err m) ∨
    (∃ new tail, splitLoop fuel buf num msgs = .ok (msgs ++ new, tail) ∧
      buf = new.flatten ++ tail ∧ PartialPacket tail ∧ ∀ p ∈ new, GoodMsg num p) := by
  intro fuel
  induction fuel with
  | zero => intro buf msgs h; omega
  | succ fuel ih =>
    intro buf msgs hf hlt
    unfold splitLoop
    simp only [headerSize, maxPacketSize]
    by_cases h8 : buf.length < 8
    · rw [if_pos h8]
      exact Or.inr ⟨[], buf, by simp, by simp, Or.inl h8, by simp⟩
    rw [if_neg h8]
    by_cases hs : sizeField buf < 8 ∨ sizeField buf > 65536
    · rw [if_pos hs]; exact Or.inl ⟨_, rfl⟩
    rw [if_neg hs]
    have hmod : buf.length % 2 ^ 32 = buf.length := Nat.mod_eq_of_lt hlt
    rw [hmod]
    by_cases hl : buf.length < sizeField buf
    · rw [if_pos hl]
      exact Or.inr ⟨[], buf, by simp, by simp, Or.inr ⟨by omega, by omega, hl⟩, by simp⟩
    rw [if_neg hl, if_neg hl]
    have hpl : (buf.take (sizeField buf)).length = sizeField buf := by simp; omega
    have hv : ValidPacket (buf.take (sizeField buf)) := by
      refine ⟨by omega, by omega, ?_⟩
      rw [hpl, sizeField_take (by omega)]
    obtain ⟨c, hc⟩ := code_ok (p := buf.take (sizeField buf)) (by omega)
    simp only [hc, Res.bind_ok]
    by_cases h0 : c < 0
    · rw [if_pos h0]; exact Or.inl ⟨_, rfl⟩
    rw [if_neg h0]
    by_cases hd : Deliverable num (buf.take (sizeField buf))
    · rw [(check_spec _ num (by omega) c hc (by omega)).1 hd]
      simp only [Res.bind_ok]
      rcases ih (buf.drop (sizeField buf)) (msgs ++ [buf.take (sizeField buf)]) (by simp; omega) (by simp; omega)
        with ⟨m, hm⟩ | ⟨new, tail, h1, h2, h3, h4⟩
      · exact Or.inl ⟨m, hm⟩
      · right
        refine ⟨buf.take (sizeField buf) :: new, tail, by rw [h1]; simp, ?_, h3, ?_⟩
        · simp only [List.flatten_cons, List.append_assoc]
          rw [← h2, List.take_append_drop]
        · intro p hp
          simp only [List.mem_cons] at hp
          rcases hp with rfl | hp
          · exact ⟨hv, hd⟩
          · exact h4 p hp
    · obtain ⟨m, hm⟩ := (check_spec _ num (by omega) c hc (by omega)).2 hd
      rw [hm]; exact Or.inl ⟨m, rfl⟩

/-- C14: for every byte string (of less than 4 GiB) and number of services, splitting
yields an error, or deliverable valid messages and a partial packet whose
concatenation is the input.  It never panics. -/
theorem split_total (buf : Bytes) (num : Nat) (hlt : buf.length < 2 ^ 32) :
    (∃ m, splitBufferedPackets buf num = .err m) ∨
    (∃ msgs tail, splitBufferedPackets buf num = .ok (msgs, tail) ∧
      buf = msgs.flatten ++ tail ∧ PartialPacket tail ∧ ∀ p ∈ msgs, GoodMsg num p) := by
  have := splitLoop_total num (buf.length + 1) buf [] (by omega) hlt
  simpa [splitBufferedPackets] using this

theorem splitLoop_exact (num : Nat) : ∀ (ps : List Bytes) (fuel : Nat) (tail : Bytes) (msgs : List Bytes),
    (∀ p ∈ ps, GoodMsg num p) → PartialPacket tail →
    (ps.flatten ++ tail).length < fuel → (ps.flatten ++ tail).length < 2 ^ 32 →
    splitLoop fuel (ps.flatten ++ tail) num msgs = .ok (msgs ++ ps, tail) := by
  intro ps
  induction ps with
  | nil =>
    intro fuel tail msgs _ ht hf hlt
    obtain ⟨fuel, rfl⟩ : ∃ f, fuel = f + 1 := ⟨fuel - 1, by omega⟩
    simp only [List.flatten_nil, List.nil_append, List.append_nil] at hf hlt ⊢
    unfold splitLoop
    simp only [headerSize, maxPacketSize]
    have hmod : tail.length % 2 ^ 32 = tail.length := Nat.mod_eq_of_lt hlt
    by_cases h8 : tail.length < 8
    · rw [if_pos h8]
    · rcases ht with ht | ⟨h1, h2, h3⟩
      · omega
      · rw [if_neg h8, if_neg (by omega), hmod, if_pos h3]
  | cons p ps ih =>
    intro fuel tail msgs hg ht hf hlt
    obtain ⟨fuel, rfl⟩ : ∃ f, fuel = f + 1 := ⟨fuel - 1, by omega⟩
    obtain ⟨⟨hv1, hv2, hv3⟩, hd⟩ := hg p (by simp)
    simp only [List.flatten_cons, List.append_assoc] at hf hlt ⊢
    have hsz : sizeField (p ++ (ps.flatten ++ tail)) = p.length := by
      rw [sizeField_append (by omega), hv3]
    have hlen : (p ++ (ps.flatten ++ tail)).length = p.length + (ps.flatten ++ tail).length := by simp
    unfold splitLoop
    simp only [headerSize, maxPacketSize]
    have hmod : (p ++ (ps.flatten ++ tail)).length % 2 ^ 32 = (p ++ (ps.flatten ++ tail)).length :=
      Nat.mod_eq_of_lt hlt
    rw [if_neg (by omega), hsz, if_neg (by omega), hmod, if_neg (by omega), if_neg (by omega),
      List.take_left, List.drop_left]
    obtain ⟨c, hc⟩ := code_ok (p := p) (by omega)
    have h0 : 0 ≤ c := by
      obtain ⟨c', _, h1, _, h3, _⟩ := hd
      rw [hc] at h1; cases h1; exact h3
    simp only [hc, Res.bind_ok]
    rw [if_neg (by omega), (check_spec p num (by omega) c hc h0).1 hd]
    simp only [Res.bind_ok]
    rw [ih fuel tail (msgs ++ [p]) (fun q hq => hg q (by simp [hq])) ht (by omega) (by omega)]
    simp

/-- C14: concatenated good messages followed by a partial packet split back into
exactly those messages and that partial packet. -/
theorem split_exact (ps : List Bytes) (tail : Bytes) (num : Nat) (hg : ∀ p ∈ ps, GoodMsg num p)
    (ht : PartialPacket tail) (hlt : (ps.flatten ++ tail).length < 2 ^ 32) :
    splitBufferedPackets (ps.flatten ++ tail) num = .ok (ps, tail) := by
  have := splitLoop_exact num ps ((ps.flatten ++ tail).length + 1) tail [] hg ht (by omega) hlt
  simpa [splitBufferedPackets] using this

example : GoodMsg 2 [10, 0, 0, 0, 1, 0, 1, 0, 65, 66] := by
  refine ⟨by unfold ValidPacket; decide, 1, 1, by decide, by decide, by decide, by decide, by decide, by decide⟩
example : ¬ Deliverable 2 [8, 0, 0, 0, 2, 0, 0, 0] := by
  rintro ⟨c, d, h1, _, _, h4, _⟩
  have : code [8, 0, 0, 0, 2, 0, 0, 0] = .ok 2 := by decide
  rw [this] at h1; cases h1; omega
example : PartialPacket [10, 0, 0, 0, 1, 0, 1, 0, 65] := Or.inr (by decide)
example : ∃ m, handlePacket [8, 0, 0, 0, 254, 255, 0, 0] 2 = .err m := ⟨"invalid code in incoming packet", by decide⟩

/-! ### C20 -/

/-- C20: each event is written as it is, followed by the least number of zero bytes
that makes the length a multiple of eight. -/
theorem event_padding (buf : Bytes) :
    ∃ n, n < 8 ∧ eventBytes buf = buf ++ List.replicate n 0 ∧ (eventBytes buf).length % 8 = 0 ∧
      (buf.length % 8 = 0 → eventBytes buf = buf) ∧ (eventBytes buf).length = align buf.length := by
  have ha := align_spec buf.length
  have hp : padLen buf.length < 8 ∧ (buf.length + padLen buf.length) % 8 = 0 := by
    unfold padLen alignment; simp only; split <;> omega
  refine ⟨padLen buf.length, hp.1, rfl, by simp [eventBytes, hp.2], ?_, ?_⟩
  · intro h
    have : padLen buf.length = 0 := by omega
    simp [eventBytes, this]
  · simp only [eventBytes, List.length_append, List.length_replicate]; omega

/-- C20: an outgoing packet of permitted length with a non-negative code leaves the
function with its size field equal to its length, and everything after the size
field unchanged; any other packet makes it panic. -/
theorem init_message (p : Bytes) :
    (8 ≤ p.length ∧ p.length ≤ 65536 ∧ (∃ c, code p = .ok c ∧ 0 ≤ c) →
      ∃ q, initMessagePacket p = .ok q ∧ ValidPacket q ∧ q.length = p.length ∧ q.drop 4 = p.drop 4) ∧
    (¬ (8 ≤ p.length ∧ p.length ≤ 65536 ∧ (∃ c, code p = .ok c ∧ 0 ≤ c)) →
      initMessagePacket p = .panic) := by
  constructor
  · rintro ⟨h1, h2, c, hc, h0⟩
    unfold initMessagePacket
    rw [if_neg (by unfold headerSize maxPacketSize; omega)]
    simp only [hc, Res.bind_ok]
    rw [if_neg (by omega)]
    by_cases hs : sizeField p = p.length
    · rw [if_neg (by simpa using hs)]
      exact ⟨p, rfl, ⟨h1, h2, hs⟩, rfl, rfl⟩
    · rw [if_pos hs]
      unfold setSize
      rw [if_neg (by omega)]
      have hok := putLE_ok (b := p) (off := 0) (k := 4) (v := p.length) (by omega)
      rw [hok]
      have hl := putLE_length hok
      refine ⟨_, rfl, ⟨by omega, by omega, ?_⟩, hl, ?_⟩
      · rw [hl]
        have := getLE_same hok (by omega)
        unfold getLE at this
        rw [if_pos (by omega)] at this
        simpa [slice, sizeField] using this
      · exact drop_putLE hok (by omega) (by omega)
  · intro hn
    unfold initMessagePacket
    by_cases hl : p.length < headerSize ∨ p.length > maxPacketSize
    · rw [if_pos hl]
    · rw [if_neg hl]
      unfold headerSize maxPacketSize at hl
      obtain ⟨c, hc⟩ := code_ok (p := p) (by omega)
      simp only [hc, Res.bind_ok]
      by_cases h0 : c < 0
      · rw [if_pos h0]
      · exact absurd ⟨by omega, by omega, c, hc, by omega⟩ hn

example : eventBytes [1, 2, 3] = [1, 2, 3, 0, 0, 0, 0, 0] := by decide

end Gate.Framing
