import Verif.StreamState
import Verif.VarintProps
/-
C05: stream state survives suspension byte-exactly.  C06: hostile stream state
is rejected or valid.
-/
namespace Gate.StreamState
open Gate Gate.Varint

/-- Specification: a state which is not contradictory.  A stream which has
finished sending (or receiving) is not reading (or writing), and has no data. -/
def Consistent (s : State) : Prop :=
  hasFlag s.flags flagSendReceiving = false →
    hasFlag s.flags flagReadWriting = false ∧ s.data = []

/-- Same observable contents (the capacity of the data slice is not preserved by
serialization). -/
def SameContents (a b : State) : Prop :=
  a.flags = b.flags ∧ a.subscribed = b.subscribed ∧ a.data = b.data

theorem toSigned_small {n : Nat} (h : n ≤ 2 ^ 31 - 1) : toSigned 32 n = (n : Int) := by
  unfold toSigned; rw [if_pos (by omega)]

/-- Encoding of a small number by `len`/`put`/`scan`, packaged for use below. -/
theorem varint_facts (v : Nat) (hv : v ≤ 2 ^ 31 - 1) :
    ∃ e : Bytes, 1 ≤ e.length ∧ e.length ≤ 5 ∧ len (v : Int) = .ok e.length ∧
      (∀ dest : Bytes, e.length ≤ dest.length → put dest (v : Int) = .ok (e, dest.drop e.length)) ∧
      (∀ tail, scan (e ++ tail) = .ok (v, tail)) := by
  have hu : toUnsigned 64 (v : Int) = v := toUnsigned_ofNat (by omega)
  have hl : (uvarintBytes v).length ≤ 5 := uvarintBytes_length_le 4 v (by omega)
  refine ⟨uvarintBytes v, uvarintBytes_length_pos v, hl, ?_, ?_, ?_⟩
  · simp [len, hu, hl]
  · intro dest hd; simp [put, hu, hd]
  · intro tail
    have h := uvarintLoop_bytes v 0 0 tail (by omega) (by omega)
    simp only [Nat.pow_zero, Nat.mul_one, Nat.zero_add] at h
    unfold scan; rw [h]
    have hm : ¬ v > maxInt32 := by unfold maxInt32; omega
    simp [hm]

/-- C05: every consistent state with 31-bit flags, subscription and data size
announces a size; marshaling it into any buffer of at least that size fills
exactly that many bytes and leaves the rest of the buffer; unmarshaling those
bytes followed by arbitrary other bytes returns the same contents and exactly
the other bytes. -/
theorem marshal_unmarshal (s : State) (hf : s.flags ≤ 2 ^ 31 - 1) (hs : s.subscribed ≤ 2 ^ 31 - 1)
    (hd : s.data.length ≤ 2 ^ 31 - 1) (hc : Consistent s) (maxData : Nat)
    (hmax : s.data.length ≤ maxData) :
    ∃ n, s.marshaledSize = .ok n ∧
      ∀ dest : Bytes, n ≤ dest.length →
        ∃ w, s.marshal dest = .ok (w, dest.drop n) ∧ w.length = n ∧
          ∀ tail, ∃ s', unmarshal (w ++ tail) maxData = .ok (s', tail) ∧ SameContents s' s := by
  obtain ⟨e1, l1, _, n1, p1, c1⟩ := varint_facts s.flags hf
  obtain ⟨e2, l2, _, n2, p2, c2⟩ := varint_facts s.subscribed hs
  obtain ⟨e3, l3, _, n3, p3, c3⟩ := varint_facts s.data.length hd
  have hmod : s.data.length % 2 ^ 32 = s.data.length := Nat.mod_eq_of_lt (by omega)
  refine ⟨e1.length + e2.length + e3.length + s.data.length, ?_, ?_⟩
  · simp [State.marshaledSize, toSigned_small hf, toSigned_small hs, hmod, toSigned_small hd, n1, n2, n3]
  · intro dest hdest
    refine ⟨e1 ++ e2 ++ e3 ++ s.data, ?_, by simp; omega, ?_⟩
    · have q2 := p2 (dest.drop e1.length) (by simp; omega)
      have q3 := p3 ((dest.drop e1.length).drop e2.length) (by simp; omega)
      simp only [State.marshal, toSigned_small hf, toSigned_small hs, hmod, toSigned_small hd,
        p1 dest (by omega), Res.bind_ok, q2, q3]
      rw [if_pos (by simp; omega)]
      simp only [Res.pure_eq, List.drop_drop]
    · intro tail
      refine ⟨⟨s.flags, s.subscribed, s.data, s.data.length⟩, ?_, rfl, rfl, rfl⟩
      simp only [unmarshal, List.append_assoc, c1, c2, c3, Res.bind_ok]
      rw [if_neg (by omega), if_neg (by simp)]
      simp only [List.take_left, List.drop_left]
      rw [if_neg]
      rintro ⟨h1, h2⟩
      obtain ⟨h3, h4⟩ := hc h1
      rcases h2 with h2 | h2
      · simp [h3] at h2
      · simp [h4] at h2

/-- C05 for a bidirectional stream. -/
theorem stream_marshal_unmarshal (s : Stream) (maxSend bufSize : Nat)
    (hf : s.read.flags ≤ 2 ^ 31 - 1) (hs : s.read.subscribed ≤ 2 ^ 31 - 1)
    (hd : s.read.data.length ≤ 2 ^ 31 - 1) (hc : Consistent s.read) (hm : s.read.data.length ≤ maxSend)
    (hf' : s.write.flags ≤ 2 ^ 31 - 1) (hs' : s.write.subscribed ≤ 2 ^ 31 - 1)
    (hd' : s.write.data.length ≤ 2 ^ 31 - 1) (hc' : Consistent s.write)
    (hm' : s.write.data.length ≤ bufSize) :
    ∃ n, s.marshaledSize = .ok n ∧
      ∀ dest : Bytes, n ≤ dest.length →
        ∃ w, s.marshal dest = .ok (w, dest.drop n) ∧ w.length = n ∧
          ∀ tail, ∃ s', streamUnmarshal (w ++ tail) maxSend bufSize = .ok (s', tail) ∧
            SameContents s'.read s.read ∧ SameContents s'.write s.write := by
  obtain ⟨n1, a1, b1⟩ := marshal_unmarshal s.read hf hs hd hc maxSend hm
  obtain ⟨n2, a2, b2⟩ := marshal_unmarshal s.write hf' hs' hd' hc' bufSize hm'
  refine ⟨n1 + n2, by simp [Stream.marshaledSize, a1, a2], ?_⟩
  intro dest hdest
  obtain ⟨w1, x1, y1, z1⟩ := b1 dest (by omega)
  obtain ⟨w2, x2, y2, z2⟩ := b2 (dest.drop n1) (by simp; omega)
  refine ⟨w1 ++ w2, by simp [Stream.marshal, x1, x2, List.drop_drop], by simp [y1, y2], ?_⟩
  intro tail
  obtain ⟨r, u1, v1⟩ := z1 (w2 ++ tail)
  obtain ⟨w, u2, v2⟩ := z2 tail
  exact ⟨⟨r, w⟩, by simp [streamUnmarshal, u1, u2], v1, v2⟩

/-- C06: unmarshaling arbitrary bytes never panics; a returned state is
consistent, within the size limit and has 31-bit flags and subscription; the
tail is a suffix of the input. -/
theorem unmarshal_total (src : Bytes) (maxData : Nat) :
    (∃ m, unmarshal src maxData = .err m) ∨
    (∃ s tail pre, unmarshal src maxData = .ok (s, tail) ∧ src = pre ++ tail ∧
      Consistent s ∧ s.data.length ≤ maxData ∧ s.flags ≤ 2 ^ 31 - 1 ∧ s.subscribed ≤ 2 ^ 31 - 1 ∧
      (∃ head, pre = head ++ s.data)) := by
  unfold unmarshal
  rcases scan_total src with ⟨m, h⟩ | ⟨v1, t1, p1, h1, hv1, e1, _⟩
  · left; exact ⟨m, by simp [h]⟩
  rcases scan_total t1 with ⟨m, h⟩ | ⟨v2, t2, p2, h2, hv2, e2, _⟩
  · left; exact ⟨m, by simp [h1, h]⟩
  rcases scan_total t2 with ⟨m, h⟩ | ⟨v3, t3, p3, h3, hv3, e3, _⟩
  · left; exact ⟨m, by simp [h1, h2, h]⟩
  simp only [h1, h2, h3, Res.bind_ok]
  by_cases c1 : v3 > maxData
  · left; exact ⟨_, by rw [if_pos c1]⟩
  rw [if_neg c1]
  by_cases c2 : t3.length < v3
  · left; exact ⟨_, by rw [if_pos c2]⟩
  rw [if_neg c2]
  by_cases c3 : hasFlag v1 flagSendReceiving = false ∧ (hasFlag v1 flagReadWriting = true ∨ v3 ≠ 0)
  · left; exact ⟨_, by rw [if_pos c3]⟩
  rw [if_neg c3]
  right
  refine ⟨_, _, p1 ++ (p2 ++ (p3 ++ t3.take v3)), rfl, ?_, ?_, ?_, hv1, hv2, ?_⟩
  · simp [e1, e2, e3]
  · intro hf
    simp only at hf
    refine ⟨?_, ?_⟩
    · cases hr : hasFlag v1 flagReadWriting
      · rfl
      · exact absurd ⟨hf, Or.inl hr⟩ c3
    · have : v3 = 0 := by
        apply Classical.byContradiction; intro h; exact c3 ⟨hf, Or.inr h⟩
      simp [this]
  · simp; omega
  · exact ⟨p1 ++ p2 ++ p3, by simp⟩

/-- The data slice of an unmarshaled state has no spare capacity, and its size is a
31-bit number. -/
theorem unmarshal_cap {src : Bytes} {maxData : Nat} {s : State} {tail : Bytes}
    (h : unmarshal src maxData = .ok (s, tail)) : s.cap = s.data.length ∧ s.cap ≤ 2 ^ 31 - 1 := by
  unfold unmarshal at h
  rcases scan_total src with ⟨m, h1⟩ | ⟨v1, t1, p1, h1, hv1, e1, _⟩
  · simp [h1] at h
  rcases scan_total t1 with ⟨m, h2⟩ | ⟨v2, t2, p2, h2, hv2, e2, _⟩
  · simp [h1, h2] at h
  rcases scan_total t2 with ⟨m, h3⟩ | ⟨v3, t3, p3, h3, hv3, e3, _⟩
  · simp [h1, h2, h3] at h
  simp only [h1, h2, h3, Res.bind_ok] at h
  split at h
  · simp at h
  · split at h
    · simp at h
    · split at h
      · simp at h
      · simp only [Res.ok.injEq, Prod.mk.injEq] at h
        obtain ⟨h, _⟩ := h
        subst h
        refine ⟨?_, hv3⟩
        simp; omega

/-- Marshaling an inconsistent state works, but the bytes are refused when they
are unmarshaled. -/
theorem inconsistent_rejected (s : State) (hf : s.flags ≤ 2 ^ 31 - 1) (hs : s.subscribed ≤ 2 ^ 31 - 1)
    (hd : s.data.length ≤ 2 ^ 31 - 1) (hc : ¬ Consistent s) (maxData : Nat) :
    ∃ n, s.marshaledSize = .ok n ∧
      ∀ dest : Bytes, n ≤ dest.length →
        ∃ w, s.marshal dest = .ok (w, dest.drop n) ∧
          ∀ tail, ∃ m, unmarshal (w ++ tail) maxData = .err m := by
  obtain ⟨e1, l1, _, n1, p1, c1⟩ := varint_facts s.flags hf
  obtain ⟨e2, l2, _, n2, p2, c2⟩ := varint_facts s.subscribed hs
  obtain ⟨e3, l3, _, n3, p3, c3⟩ := varint_facts s.data.length hd
  have hmod : s.data.length % 2 ^ 32 = s.data.length := Nat.mod_eq_of_lt (by omega)
  refine ⟨e1.length + e2.length + e3.length + s.data.length, ?_, ?_⟩
  · simp [State.marshaledSize, toSigned_small hf, toSigned_small hs, hmod, toSigned_small hd, n1, n2, n3]
  · intro dest hdest
    refine ⟨e1 ++ e2 ++ e3 ++ s.data, ?_, ?_⟩
    · have q2 := p2 (dest.drop e1.length) (by simp; omega)
      have q3 := p3 ((dest.drop e1.length).drop e2.length) (by simp; omega)
      simp only [State.marshal, toSigned_small hf, toSigned_small hs, hmod, toSigned_small hd,
        p1 dest (by omega), Res.bind_ok, q2, q3]
      rw [if_pos (by simp; omega)]
      simp only [Res.pure_eq, List.drop_drop]
    · intro tail
      simp only [unmarshal, List.append_assoc, c1, c2, c3, Res.bind_ok]
      by_cases hm : s.data.length > maxData
      · exact ⟨_, by rw [if_pos hm]⟩
      · rw [if_neg hm, if_neg (by simp)]
        refine ⟨"impossible state", ?_⟩
        rw [if_pos]
        unfold Consistent at hc
        simp only [Classical.not_imp, Classical.not_and_iff_not_or_not, Bool.not_eq_false] at hc
        refine ⟨hc.1, ?_⟩
        rcases hc.2 with h | h
        · exact Or.inl h
        · right; intro h0; exact h (List.length_eq_zero_iff.mp h0)

/-- A live stream with buffered data. -/
example : unmarshal [7, 172, 2, 3, 65, 66, 67, 99] 10 =
    .ok (⟨7, 300, [65, 66, 67], 3⟩, [99]) := by decide
example : Consistent ⟨7, 300, [65, 66, 67], 3⟩ := by unfold Consistent; decide
example : unmarshal [3, 0, 0] 10 = .err "impossible state" := by decide
example : unmarshal [7, 0, 11] 10 = .err "serialized buffer state size limit exceeded" := by decide

end Gate.StreamState
