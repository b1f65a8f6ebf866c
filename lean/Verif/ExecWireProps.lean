import Verif.ExecWire
/-
C179: exit statuses and operations arrive as they were sent.
-/
namespace Gate.ExecWire

theorem get_put16 (n : Nat) (h : n < 65536) : ∃ a b, put16 n = [a, b] ∧ get16 a b = n := by
  refine ⟨_, _, rfl, ?_⟩
  simp only [get16, UInt8.toNat_ofNat']
  omega

theorem get_put32 (n : Nat) (h : n < 4294967296) : ∃ a b c d, put32 n = [a, b, c, d] ∧ get32 a b c d = n := by
  refine ⟨_, _, _, _, rfl, ?_⟩
  simp only [get32, UInt8.toNat_ofNat']
  omega

/-- A 16-bit or 32-bit signed integer. -/
def Fits16 (i : Int) : Prop := -32768 ≤ i ∧ i < 32768
def Fits32 (i : Int) : Prop := -2147483648 ≤ i ∧ i < 2147483648

theorem signed_wrap16 {i : Int} (h : Fits16 i) : signed 65536 (wrap 65536 i) = i := by
  simp only [Fits16, signed, wrap] at *; omega

theorem signed_wrap32 {i : Int} (h : Fits32 i) : signed 4294967296 (wrap 4294967296 i) = i := by
  simp only [Fits32, signed, wrap] at *; omega

/-- A status as the executor process has it: an identifier of the table, and what waitpid says (a C int). -/
def Ok (s : Status) : Prop := Fits16 s.id ∧ Fits32 s.status

/-- A status and the reserved bytes. -/
abbrev Item := Status × UInt8 × UInt8

def stream (l : List Item) : Bytes := l.flatMap fun x => encode x.2.1 x.2.2 x.1

theorem encode_shape {s : Status} (h : Ok s) (r1 r2 : UInt8) : ∃ a b c d e f, encode r1 r2 s = [a, b, r1, r2, c, d, e, f] ∧ signed 65536 (get16 a b) = s.id ∧ signed 4294967296 (get32 c d e f) = s.status := by
  obtain ⟨a, b, e1, h1⟩ := get_put16 (wrap 65536 s.id) (by simp only [wrap]; omega)
  obtain ⟨c, d, e, f, e2, h2⟩ := get_put32 (wrap 4294967296 s.status) (by simp only [wrap]; omega)
  exact ⟨a, b, c, d, e, f, by simp [encode, e1, e2], by rw [h1, signed_wrap16 h.1], by rw [h2, signed_wrap32 h.2]⟩

theorem encode_len (r1 r2 : UInt8) (s : Status) : (encode r1 r2 s).length = 8 := rfl

theorem decode_encode {s : Status} (h : Ok s) (r1 r2 : UInt8) (rest : Bytes) : decode (encode r1 r2 s ++ rest) = some (s, rest) := by
  obtain ⟨a, b, c, d, e, f, h1, h2, h3⟩ := encode_shape h r1 r2
  rw [h1]
  simp [decode, h2, h3]

theorem decode_short {b : Bytes} (h : b.length < 8) : decode b = none := by
  match b with
  | [] | [_] | [_, _] | [_, _, _] | [_, _, _, _] | [_, _, _, _, _] | [_, _, _, _, _, _] | [_, _, _, _, _, _, _] => rfl
  | _ :: _ :: _ :: _ :: _ :: _ :: _ :: _ :: _ => simp at h; omega

/-- A prefix of a stream of statuses is some of them and less than one. -/
theorem statuses_prefix : ∀ (l : List Item) (fuel : Nat) (b : Bytes), (∀ x ∈ l, Ok x.1) → b <+: stream l → b.length ≤ fuel →
    ∃ k, k ≤ l.length ∧ statuses fuel b = ((l.take k).map (·.1), b.drop (8 * k)) ∧ 8 * k ≤ b.length ∧ b.length < 8 * k + 8
  | [], fuel, b, _, hb, _ => by
    have : b = [] := by simpa [stream] using hb
    subst this
    refine ⟨0, by simp, ?_, by simp, by simp⟩
    cases fuel <;> simp [statuses, decode]
  | x :: l, fuel, b, hok, hb, hf => by
    by_cases h8 : b.length < 8
    · refine ⟨0, by simp, ?_, by simp, by omega⟩
      cases fuel <;> simp [statuses, decode_short h8]
    · obtain ⟨t, ht⟩ := hb
      have hs : stream (x :: l) = encode x.2.1 x.2.2 x.1 ++ stream l := by simp [stream]
      rw [hs] at ht
      have hl := encode_len x.2.1 x.2.2 x.1
      have hpre : encode x.2.1 x.2.2 x.1 <+: b :=
        List.prefix_of_prefix_length_le ⟨stream l, rfl⟩ ⟨t, ht⟩ (by omega)
      obtain ⟨c, rfl⟩ := hpre
      rw [List.append_assoc, List.append_cancel_left_eq] at ht
      have hlen : (encode x.2.1 x.2.2 x.1 ++ c).length = 8 + c.length := by simp [hl]
      cases fuel with
      | zero => omega
      | succ fuel =>
        obtain ⟨k, h1, h2, h3, h4⟩ := statuses_prefix l fuel c (fun y hy => hok y (by simp [hy])) ⟨t, ht⟩ (by omega)
        refine ⟨k + 1, by simpa using h1, ?_, by omega, by omega⟩
        simp only [statuses, decode_encode (hok x (by simp)), h2, List.take_succ_cons, List.map_cons]
        have : 8 * (k + 1) = (encode x.2.1 x.2.2 x.1).length + 8 * k := by omega
        rw [this, List.drop_append]
        simp

/-- Whatever the sizes of the pieces in which the statuses arrive, those which have arrived completely have been delivered as they were sent and in their order; less than one is buffered. -/
theorem delivered {l : List Item} (hok : ∀ x ∈ l, Ok x.1) {r : Receiver} {b : Bytes} (h : Reads r b) (hb : b <+: stream l) :
    r.delivered = (l.take (b.length / 8)).map (·.1) ∧ r.buffered = b.drop (8 * (b.length / 8)) := by
  induction h with
  | nil => simp
  | @read r b chunk _ hf ih =>
    have hb' : b <+: stream l := (List.prefix_append b chunk).trans hb
    obtain ⟨e1, e2⟩ := ih hb'
    have hk := Nat.div_add_mod b.length 8
    have hkm := Nat.mod_lt b.length (show 0 < 8 by omega)
    generalize hn : b.length / 8 = n at *
    have hlen : r.buffered.length = b.length - 8 * n := by rw [e2]; simp
    -- what is decoded is a prefix of the rest of the stream
    have hstream : ∀ (l : List Item) (n : Nat), (stream l).drop (8 * n) = stream (l.drop n) := by
      intro l
      induction l with
      | nil => intro n; simp [stream]
      | cons x l ih2 =>
        intro n
        cases n with
        | zero => simp
        | succ n =>
          have : stream (x :: l) = encode x.2.1 x.2.2 x.1 ++ stream l := by simp [stream]
          rw [this, show 8 * (n + 1) = (encode x.2.1 x.2.2 x.1).length + 8 * n by rw [encode_len]; omega, List.drop_append]
          simp [ih2]
    have hp : r.buffered ++ chunk <+: stream (l.drop n) := by
      rw [← hstream, e2]
      obtain ⟨t, ht⟩ := hb
      refine ⟨t, ?_⟩
      rw [← ht]
      have : (b ++ chunk ++ t).drop (8 * n) = b.drop (8 * n) ++ (chunk ++ t) := by
        rw [List.append_assoc, List.drop_append_of_le_length (by omega)]
      rw [this, List.append_assoc]
    obtain ⟨k, h1, h2, h3, h4⟩ := statuses_prefix (l.drop n) (r.buffered ++ chunk).length _ (fun x hx => hok x (List.mem_of_mem_drop hx)) hp (Nat.le_refl _)
    have hl2 : (r.buffered ++ chunk).length = b.length - 8 * n + chunk.length := by simp [hlen]
    have hq : (b ++ chunk).length / 8 = n + k := by
      rw [List.length_append]; omega
    simp only [receive, h2, e1, hq]
    refine ⟨?_, ?_⟩
    · rw [List.take_add, List.map_append]
    · rw [e2]
      have : (b ++ chunk).drop (8 * n) = b.drop (8 * n) ++ chunk := List.drop_append_of_le_length (by omega)
      rw [← this, List.drop_drop]
      congr 1
      omega

/-- Everything that has been sent is delivered when it has been read. -/
theorem delivered_all {l : List Item} (hok : ∀ x ∈ l, Ok x.1) {r : Receiver} (h : Reads r (stream l)) : r.delivered = l.map (·.1) ∧ r.buffered = [] := by
  have hlen : ∀ l : List Item, (stream l).length = 8 * l.length := by
    intro l
    induction l with
    | nil => rfl
    | cons x l ih =>
      have : stream (x :: l) = encode x.2.1 x.2.2 x.1 ++ stream l := by simp [stream]
      rw [this, List.length_append, ih, encode_len, List.length_cons]; omega
  obtain ⟨a, b⟩ := delivered hok h (List.prefix_refl _)
  rw [hlen, Nat.mul_div_cancel_left _ (by omega)] at a b
  rw [← hlen] at b
  exact ⟨by simpa using a, by simpa using b⟩

/-- There's always room for the largest message of the executor process: 128 statuses. -/
theorem room {l : List Item} (hok : ∀ x ∈ l, Ok x.1) {r : Receiver} {b : Bytes} (h : Reads r b) (hb : b <+: stream l) {chunk : Bytes} (hc : chunk ≠ []) (hlen : chunk.length ≤ 128 * 8) : Fits r chunk := by
  obtain ⟨_, e⟩ := delivered hok h hb
  refine ⟨hc, ?_⟩
  rw [e]
  simp only [List.length_drop, bufLen]
  have := Nat.mod_lt b.length (show 0 < 8 by omega)
  have := Nat.div_add_mod b.length 8
  omega

/-! ## Requests -/

theorem byteOp_opByte (o : Op) : byteOp (opByte o) = some o := by cases o <;> rfl

theorem receive_message {r : Request} (h : 0 ≤ r.id) (h' : r.id < idProcs) : receiveOp (message r) = .request r := by
  have hi : r.id < 16384 := h'
  obtain ⟨a, b, e, g⟩ := get_put16 (wrap 65536 r.id) (by simp only [wrap]; omega)
  have s : signed 65536 (get16 a b) = r.id := by rw [g]; exact signed_wrap16 (by simp only [Fits16]; omega)
  simp only [message, e, List.cons_append, List.nil_append, receiveOp, s, byteOp_opByte]
  rw [if_neg]
  simp only [idProcs]; omega

/-- The executor process is asked for what the runtime meant, for any process identifier that it gives out. -/
theorem requested {id : Int} (h : 0 ≤ id) (h' : id < idProcs) :
    wire (sendCreate id) = .request ⟨.create, id⟩ ∧ wire (sendKill (killValue false id)) = .request ⟨.kill, id⟩ ∧ wire (sendKill (killValue true id)) = .request ⟨.suspend, id⟩ := by
  have hi : id < 16384 := h'
  refine ⟨receive_message h h', ?_, ?_⟩
  · simp only [killValue, sendKill, closing, Bool.false_eq_true, if_false]
    rw [if_neg (by omega), if_neg (by omega)]
    exact receive_message h h'
  · simp only [killValue, sendKill, closing, if_true]
    rw [if_neg (by omega), if_pos (by omega)]
    have : -(-id - 1) - 1 = id := by omega
    simp only [wire, this]
    exact receive_message h h'

/-- Only Close shuts the executor down. -/
theorem shuts_down {v : Int} (hv : Fits16 v) : wire (sendKill v) = .shutdown ↔ v = closing := by
  constructor
  · intro h
    simp only [sendKill] at h
    split at h
    · assumption
    · split at h
      all_goals
        simp only [wire, message, put16, List.cons_append, List.nil_append, receiveOp] at h
        split at h
        · cases h
        · split at h <;> cases h
  · rintro rfl; rfl

/-- No value that the runtime sends for a process is the one of Close. -/
theorem not_closing {id : Int} (h : 0 ≤ id) (h' : id < idProcs) (s : Bool) : killValue s id ≠ closing := by
  have hi : id < 16384 := h'
  cases s <;> simp [killValue, closing] <;> omega

theorem ex_statuses : (receive (receive {} [3, 0, 9]) ([9, 137, 0, 0, 0] ++ encode 0 0 ⟨4, 256⟩ ++ [7])) = ⟨[7], [⟨3, 137⟩, ⟨4, 256⟩]⟩ := by decide +kernel

theorem ex_requests : wire (sendCreate 16383) = .request ⟨.create, 16383⟩ ∧ wire (sendKill (-1)) = .request ⟨.suspend, 0⟩ ∧ wire (sendKill 32767) = .shutdown ∧ wire (sendKill 16384) = .dies := by decide +kernel

theorem ex_reads : ∃ r, Reads r (stream [(⟨5, 1⟩, 0, 0)]) ∧ Ok ⟨5, 1⟩ :=
  ⟨_, .read (b := []) (stream [(⟨5, 1⟩, 0, 0)]) .nil ⟨by decide, by decide +kernel⟩, ⟨⟨by decide, by decide⟩, ⟨by decide, by decide⟩⟩⟩

end Gate.ExecWire
