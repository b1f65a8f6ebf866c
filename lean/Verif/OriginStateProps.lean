import Verif.OriginState
/-
C107: proofs about OriginState.lean.
-/
namespace Gate.OriginState
open Gate Gate.StreamState Gate.Varint

/-! ### Restoring anything -/

/-- The bytes which unmarshaling takes. -/
theorem unmarshal_takes {src : Bytes} {maxData : Nat} {s : State} {tail : Bytes} (h : unmarshal src maxData = .ok (s, tail)) : tail.length + 3 + s.data.length ≤ src.length := by
  unfold unmarshal at h
  rcases scan_total src with ⟨m, h1⟩ | ⟨v1, t1, p1, h1, hv1, e1, q1, _⟩
  · simp [h1] at h
  rcases scan_total t1 with ⟨m, h2⟩ | ⟨v2, t2, p2, h2, hv2, e2, q2, _⟩
  · simp [h1, h2] at h
  rcases scan_total t2 with ⟨m, h3⟩ | ⟨v3, t3, p3, h3, hv3, e3, q3, _⟩
  · simp [h1, h2, h3] at h
  simp only [h1, h2, h3, Res.bind_ok] at h
  split at h
  · simp at h
  · split at h
    · simp at h
    · split at h
      · simp at h
      · simp only [Res.ok.injEq, Prod.mk.injEq] at h
        obtain ⟨ha, hb⟩ := h
        subst ha hb
        have l1 := congrArg List.length e1
        have l2 := congrArg List.length e2
        have l3 := congrArg List.length e3
        simp only [List.length_append] at l1 l2 l3
        simp only [List.length_drop, List.length_take]
        omega

/-- What is true of a stream which has been unmarshaled. -/
structure Sane (maxSend bufSize : Nat) (s : Stream) : Prop where
  readOk : Consistent s.read
  writeOk : Consistent s.write
  readData : s.read.data.length ≤ maxSend
  writeData : s.write.data.length ≤ bufSize
  writeCap : s.write.cap = s.write.data.length

theorem streamUnmarshal_total (src : Bytes) (maxSend bufSize : Nat) :
    (∃ m, streamUnmarshal src maxSend bufSize = .err m) ∨ ∃ s tail, streamUnmarshal src maxSend bufSize = .ok (s, tail) ∧ tail.length + 6 ≤ src.length ∧ Sane maxSend bufSize s := by
  unfold streamUnmarshal
  rcases unmarshal_total src maxSend with ⟨m, h⟩ | ⟨r, t, p, h, _, c1, d1, _⟩
  · exact .inl ⟨m, by simp [h]⟩
  · rcases unmarshal_total t bufSize with ⟨m, h2⟩ | ⟨w, t2, p2, h2, _, c2, d2, _⟩
    · exact .inl ⟨m, by simp [h, h2]⟩
    · right
      have l1 := unmarshal_takes h
      have l2 := unmarshal_takes h2
      exact ⟨⟨r, w⟩, t2, by simp [h, h2], by omega, c1, c2, d1, d2, (unmarshal_cap h2).1⟩

theorem restoreLoop_total (maxSend bufSize : Nat) (hb : goodBuf bufSize = true) : ∀ (n : Nat) (input : Bytes) (acc : Streams), (acc.map (·.1)).Nodup → (∀ e ∈ acc, Sane maxSend bufSize e.2) →
    (∃ m, restoreLoop maxSend bufSize n input acc = .err m) ∨
    ∃ ss, restoreLoop maxSend bufSize n input acc = .ok ss ∧ ss.length = acc.length + n ∧ (ss.map (·.1)).Nodup ∧ (∀ e ∈ ss, Sane maxSend bufSize e.2) ∧ 7 * n ≤ input.length
  | 0, input, acc, hn, hs => .inr ⟨acc, rfl, rfl, hn, hs, by omega⟩
  | n + 1, input, acc, hn, hs => by
    unfold restoreLoop
    rcases scan_total input with ⟨m, h⟩ | ⟨id, t, p, h, _, e1, q1, _⟩
    · exact .inl ⟨m, by rw [h]⟩
    · rw [h]
      simp only [hb, if_true]
      rcases streamUnmarshal_total t maxSend bufSize with ⟨m, h2⟩ | ⟨s, t2, h2, l2, hs2⟩
      · exact .inl ⟨m, by rw [h2]⟩
      · rw [h2]
        simp only
        by_cases hd : (acc.any fun e => e.1 = id) = true
        · exact .inl ⟨_, if_pos hd⟩
        · rw [if_neg hd]
          have hid : id ∉ acc.map (·.1) := by
            intro hm
            obtain ⟨e, he, rfl⟩ := List.mem_map.mp hm
            exact hd (List.any_eq_true.mpr ⟨e, he, by simp⟩)
          have l1 := congrArg List.length e1
          simp only [List.length_append] at l1
          rcases restoreLoop_total maxSend bufSize hb n t2 (acc ++ [(id, s)])
            (by rw [List.map_append]; exact List.nodup_append.mpr ⟨hn, by simp, by intro a ha b hb' hab; simp at hb'; subst hb'; subst hab; exact hid ha⟩)
            (by
              intro e he
              rcases List.mem_append.mp he with he | he
              · exact hs e he
              · simp at he; subst he; exact hs2) with ⟨m, h3⟩ | ⟨ss, h3, a, b, c, d⟩
          · exact .inl ⟨m, h3⟩
          · exact .inr ⟨ss, h3, by rw [a]; simp; omega, b, c, by omega⟩

/-- C107: restoring any bytes never panics (with a valid buffer size): it's an error, or a number of accept calls and streams with distinct ids and sane states. Seven bytes are needed for a stream. -/
theorem restore_total (maxSend bufSize : Nat) (hb : goodBuf bufSize = true) (input : Bytes) :
    (∃ m, restore maxSend bufSize input = .err m) ∨
    ∃ a ss, restore maxSend bufSize input = .ok (a, ss) ∧ a ≤ 2 ^ 31 - 1 ∧ (ss.map (·.1)).Nodup ∧ (∀ e ∈ ss, Sane maxSend bufSize e.2) ∧ 7 * ss.length ≤ input.length := by
  unfold restore
  by_cases h0 : input = []
  · exact .inr ⟨0, [], if_pos h0, by omega, by simp, by simp, by simp⟩
  rw [if_neg h0]
  rcases scan_total input with ⟨m, h⟩ | ⟨a, t, p, h, ha, e1, q1, _⟩
  · exact .inl ⟨m, by rw [h]⟩
  rw [h]
  simp only
  by_cases h1 : t = []
  · exact .inr ⟨a, [], if_pos h1, ha, by simp, by simp, by simp⟩
  rw [if_neg h1]
  rcases scan_total t with ⟨m, h2⟩ | ⟨n, t2, p2, h2, hn, e2, q2, _⟩
  · exact .inl ⟨m, by rw [h2]⟩
  rw [h2]
  simp only
  have l1 := congrArg List.length e1
  have l2 := congrArg List.length e2
  simp only [List.length_append] at l1 l2
  rcases restoreLoop_total maxSend bufSize hb n t2 [] (by simp) (by simp) with ⟨m, h3⟩ | ⟨ss, h3, x, y, z, w⟩
  · exact .inl ⟨m, by rw [h3]⟩
  · exact .inr ⟨a, ss, by rw [h3], ha, y, z, by simp at x; omega⟩

/-! ### Restoring what was suspended -/

/-- What a state says (its buffer's capacity isn't part of it). -/
def contents (s : State) : Nat × Nat × Bytes := (s.flags, s.subscribed, s.data)

def view (e : Nat × Stream) : Nat × (Nat × Nat × Bytes) × (Nat × Nat × Bytes) := (e.1, contents e.2.read, contents e.2.write)

/-- A stream whose state can be saved: 31-bit numbers, consistent flags (see C05), and not more data than allowed. -/
structure Saveable (maxSend bufSize : Nat) (e : Nat × Stream) : Prop where
  id : e.1 ≤ 2 ^ 31 - 1
  rflags : e.2.read.flags ≤ 2 ^ 31 - 1
  rsub : e.2.read.subscribed ≤ 2 ^ 31 - 1
  rdata : e.2.read.data.length ≤ 2 ^ 31 - 1
  rok : Consistent e.2.read
  rmax : e.2.read.data.length ≤ maxSend
  wflags : e.2.write.flags ≤ 2 ^ 31 - 1
  wsub : e.2.write.subscribed ≤ 2 ^ 31 - 1
  wdata : e.2.write.data.length ≤ 2 ^ 31 - 1
  wok : Consistent e.2.write
  wmax : e.2.write.data.length ≤ bufSize

theorem puts_restore (maxSend bufSize : Nat) (hb : goodBuf bufSize = true) : ∀ (ss : Streams), (∀ e ∈ ss, Saveable maxSend bufSize e) → (ss.map (·.1)).Nodup →
    ∃ n, sizes ss = .ok n ∧ ∀ dest : Bytes, n ≤ dest.length → ∃ w, puts ss dest = .ok (w, dest.drop n) ∧ w.length = n ∧
      ∀ (tail : Bytes) (acc : Streams), (∀ e ∈ ss, e.1 ∉ acc.map (·.1)) →
        ∃ ss', restoreLoop maxSend bufSize ss.length (w ++ tail) acc = .ok (acc ++ ss') ∧ ss'.map view = ss.map view
  | [], _, _ => ⟨0, rfl, fun dest _ => ⟨[], rfl, rfl, fun tail acc _ => ⟨[], by simp [restoreLoop], rfl⟩⟩⟩
  | (id, s) :: rest, hs, hn => by
    have h := hs (id, s) (by simp)
    obtain ⟨e, _, _, elen, eput, escan⟩ := varint_facts id h.id
    obtain ⟨n, hsz, hm⟩ := stream_marshal_unmarshal s maxSend bufSize h.rflags h.rsub h.rdata h.rok h.rmax h.wflags h.wsub h.wdata h.wok h.wmax
    rw [List.map_cons, List.nodup_cons] at hn
    obtain ⟨k, hk, hput⟩ := puts_restore maxSend bufSize hb rest (fun e he => hs e (by simp [he])) hn.2
    refine ⟨e.length + n + k, by simp [sizes, elen, hsz, hk], ?_⟩
    intro dest hdest
    obtain ⟨w2, hw2, lw2, hu⟩ := hm (dest.drop e.length) (by simp; omega)
    obtain ⟨w3, hw3, lw3, hr⟩ := hput ((dest.drop e.length).drop n) (by simp; omega)
    refine ⟨e ++ w2 ++ w3, ?_, by simp; omega, ?_⟩
    · simp only [puts, eput dest (by omega), hw2, hw3, Res.bind_ok, Res.pure_eq]
      simp only [List.drop_drop]
    · intro tail acc hacc
      obtain ⟨s', hs', c1, c2⟩ := hu (w3 ++ tail)
      have hid : ¬ (acc.any fun e => e.1 = id) = true := by
        intro hd
        obtain ⟨x, hx, he⟩ := List.any_eq_true.mp hd
        simp at he
        exact hacc (id, s) (by simp) (List.mem_map.mpr ⟨x, hx, he⟩)
      obtain ⟨ss', h1, h2⟩ := hr tail (acc ++ [(id, s')]) (by
        intro x hx hm
        simp only [List.map_append, List.mem_append, List.map_cons, List.map_nil, List.mem_singleton] at hm
        rcases hm with hm | hm
        · exact hacc x (by simp [hx]) hm
        · exact hn.1 (by have := List.mem_map_of_mem (f := fun e : Nat × Stream => e.1) hx; rw [hm] at this; exact this))
      refine ⟨(id, s') :: ss', ?_, ?_⟩
      · simp only [List.length_cons, restoreLoop, List.append_assoc, escan, hb, if_true, hs']
        rw [if_neg hid, h1, List.append_assoc]; rfl
      · simp only [List.map_cons, h2, view, contents]
        rw [c1.1, c1.2.1, c1.2.2, c2.1, c2.2.1, c2.2.2]

/-- C107: what was suspended is what is restored: the number of pending accept calls, and the ids and states of streams. Suspending succeeds, and takes exactly the announced size. -/
theorem suspend_restore (maxSend bufSize : Nat) (hb : goodBuf bufSize = true) (accepting : Nat) (ss : Streams) (ha : accepting ≤ 2 ^ 31 - 1) (hl : ss.length ≤ 2 ^ 31 - 1)
    (hs : ∀ e ∈ ss, Saveable maxSend bufSize e) (hn : (ss.map (·.1)).Nodup) :
    ∃ state ss', suspend accepting ss = .ok state ∧ restore maxSend bufSize state = .ok (accepting, ss') ∧ ss'.map view = ss.map view := by
  unfold suspend
  by_cases h0 : accepting = 0 ∧ ss = []
  · obtain ⟨rfl, rfl⟩ := h0
    exact ⟨[], [], by simp, by simp [restore], rfl⟩
  rw [if_neg h0]
  obtain ⟨e1, g1, _, l1, p1, s1⟩ := varint_facts accepting ha
  by_cases h1 : ss = []
  · subst h1
    refine ⟨e1, [], ?_, ?_, rfl⟩
    · rw [if_pos rfl, l1, Res.bind_ok, p1 _ (by simp)]
      simp
    · have hne : e1 ≠ [] := by intro h; simp [h] at g1
      have := s1 []
      rw [List.append_nil] at this
      simp only [restore, if_neg hne, this, if_true]
  · rw [if_neg h1]
    have hmod : ss.length % 2 ^ 32 = ss.length := Nat.mod_eq_of_lt (by omega)
    rw [hmod, toSigned_small hl]
    obtain ⟨e2, g2, _, l2, p2, s2⟩ := varint_facts ss.length hl
    obtain ⟨n, hn', hp⟩ := puts_restore maxSend bufSize hb ss hs hn
    obtain ⟨w, hw, lw, hr⟩ := hp (((List.replicate (e1.length + e2.length + n) (0 : UInt8)).drop e1.length).drop e2.length) (by simp; omega)
    obtain ⟨ss', h2, h3⟩ := hr [] [] (by simp)
    refine ⟨e1 ++ e2 ++ w, ss', ?_, ?_, h3⟩
    · rw [l1, Res.bind_ok, l2, Res.bind_ok, hn', Res.bind_ok, p1 _ (by simp; omega), Res.bind_ok]
      simp only [p2 _ (by simp; omega : e2.length ≤ ((List.replicate (e1.length + e2.length + n) (0 : UInt8)).drop e1.length).length), Res.bind_ok, hw, Res.pure_eq]
      simp
      omega
    · have hne : e1 ++ (e2 ++ w) ≠ [] := by intro h; have := congrArg List.length h; simp only [List.length_append, List.length_nil] at this; omega
      have hne2 : e2 ++ w ≠ [] := by intro h; have := congrArg List.length h; simp only [List.length_append, List.length_nil] at this; omega
      rw [List.append_nil] at h2
      simp only [restore, List.append_assoc, if_neg hne, s1, if_neg hne2, s2, h2, List.nil_append]

/-- C107 refuted as to connections: data can't be written to a restored stream. Its buffer is that of the saved data, which transfer has dropped (stream.go:30), so a write of any length fails the check of WriteStream.Write (packetio/write.go:88),
whatever has been used, and whatever credit the program has left. -/
theorem restored_not_writable_refuted (maxSend bufSize : Nat) (hb : goodBuf bufSize = true) (accepting : Nat) (ss : Streams) (ha : accepting ≤ 2 ^ 31 - 1) (hl : ss.length ≤ 2 ^ 31 - 1)
    (hs : ∀ e ∈ ss, Saveable maxSend bufSize e) (hn : (ss.map (·.1)).Nodup) (hdrop : ∀ e ∈ ss, e.2.write.data = []) :
    ∃ state ss', suspend accepting ss = .ok state ∧ restore maxSend bufSize state = .ok (accepting, ss') ∧ ss'.map view = ss.map view ∧ ∀ e ∈ ss', ∀ used length, ¬ used + length < e.2.write.cap := by
  obtain ⟨state, ss', h1, h2, h3⟩ := suspend_restore maxSend bufSize hb accepting ss ha hl hs hn
  refine ⟨state, ss', h1, h2, h3, ?_⟩
  intro e he used length
  rcases restore_total maxSend bufSize hb state with ⟨m, h⟩ | ⟨a, ss2, h, _, _, hsane, _⟩
  · rw [h] at h2; cases h2
  · rw [h] at h2
    simp only [Res.ok.injEq, Prod.mk.injEq] at h2
    obtain ⟨_, rfl⟩ := h2
    have hv : view e ∈ ss.map view := h3 ▸ List.mem_map_of_mem he
    obtain ⟨x, hx, hxe⟩ := List.mem_map.mp hv
    have hd : x.2.write.data = e.2.write.data := by
      have := congrArg (fun v : Nat × (Nat × Nat × Bytes) × (Nat × Nat × Bytes) => v.2.2.2.2) hxe
      exact this
    rw [(hsane e he).writeCap, ← hd, hdrop x hx]
    simp

/-- C107 refuted for a buffer size which isn't a power of two (a configuration is accepted, connector.go:40-56): restoring a stream panics. -/
theorem bad_buffer_refuted (maxSend bufSize : Nat) (hb : goodBuf bufSize = false) (n id : Nat) (input tail : Bytes) (h : scan input = .ok (id, tail)) : restoreLoop maxSend bufSize (n + 1) input [] = .panic := by
  simp only [restoreLoop, h, hb]
  rfl

theorem goodBuf_iff (b : Nat) (hb : b < 2 ^ 32) : goodBuf b = true ↔ WriteStream.GoodSize b := by
  unfold goodBuf WriteStream.GoodSize
  rw [List.any_eq_true]
  constructor
  · rintro ⟨k, hk, h⟩
    rw [Nat.mod_eq_of_lt hb] at h
    exact ⟨k, by have := List.mem_range.mp hk; omega, by simpa using h⟩
  · rintro ⟨k, hk, rfl⟩
    exact ⟨k, List.mem_range.mpr (by omega), by rw [Nat.mod_eq_of_lt hb]; simp⟩

/-! ### Examples -/

example : goodBuf 32768 = true ∧ goodBuf 100000 = false ∧ goodBuf 0 = false := by decide +kernel

def exStream : Stream := ⟨⟨7, 100, [1, 2], 0⟩, ⟨5, 20, [], 0⟩⟩

example : Saveable 65536 32768 (3, exStream) := by
  constructor <;> first | (simp [exStream]; done) | (simp [exStream, Consistent, hasFlag, flagSendReceiving, flagReadWriting])

example : suspend 2 [(3, exStream), (0, exStream)] = .ok [2, 2, 3, 7, 100, 2, 1, 2, 5, 20, 0, 0, 7, 100, 2, 1, 2, 5, 20, 0] := by decide +kernel
example : restore 65536 32768 [2, 2, 3, 7, 100, 2, 1, 2, 5, 20, 0, 0, 7, 100, 2, 1, 2, 5, 20, 0] = .ok (2, [(3, ⟨⟨7, 100, [1, 2], 2⟩, ⟨5, 20, [], 0⟩⟩), (0, ⟨⟨7, 100, [1, 2], 2⟩, ⟨5, 20, [], 0⟩⟩)]) := by decide +kernel
example : suspend 0 [] = .ok [] ∧ suspend 5 [] = .ok [5] := by decide +kernel

end Gate.OriginState
