import Verif.Sections
import Verif.LebProps
/-
C32, C33, C61: what is written into a snapshot is in the WebAssembly format and reads back as
what was suspended.
-/
namespace Gate.Sections
open Gate Gate.Leb Gate.Varint

theorem readU_bytes (N x : Nat) (tail : Bytes) (h : x < 2 ^ N) : readU N (uvarintBytes x ++ tail) = .ok (x, tail) := by
  unfold readU
  rw [wasmU_bytes x N tail h]

theorem uvarint_small (x : Nat) (h : x < 128) : uvarintBytes x = [UInt8.ofNat x] := by
  rw [uvarintBytes, if_pos h]

/-- A whole section: identifier byte `id`, the size of `p` and `p` is read as one section. -/
theorem section_frame (id : UInt8) (p rest : Bytes) (hp : p.length < 2 ^ 32) :
    wasmSection ([id] ++ uvarintBytes (p.length % 2 ^ 32) ++ p ++ rest) = some (id.toNat, p, rest) := by
  rw [Nat.mod_eq_of_lt hp]
  simp only [List.cons_append, List.nil_append, List.append_assoc, wasmSection]
  rw [wasmU_bytes _ 32 _ hp]
  simp

/-- The payload of a custom section with a short name. -/
theorem name_frame (name content : Bytes) (h : name.length < 128) :
    wasmName ([UInt8.ofNat name.length] ++ name ++ content) = some (name, content) := by
  unfold wasmName
  rw [← uvarint_small _ h, List.append_assoc, wasmU_bytes _ 32 _ (by omega)]
  simp

theorem putLen_eq (n : Nat) (h : n < 2 ^ 31) : putLen n = uvarintBytes n := by
  unfold putLen
  rw [Nat.mod_eq_of_lt (by omega)]
  unfold toSigned
  rw [if_pos (by simpa using h), toUnsigned_ofNat (by omega)]

/-! ### Buffers -/

/-- What the format can hold: service names of 1 to 127 bytes, and less than 2 GiB in all. -/
def Buffers.Ok (b : Buffers) : Prop :=
  (∀ s ∈ b.services, 1 ≤ s.name.length ∧ s.name.length ≤ 127) ∧
  (bufferPayloadHeader b).length + (bufferData b).length < 2 ^ 31

theorem services_length_le (l : List Service) : l.length ≤ ((l.map serviceHeader).flatten).length := by
  induction l with
  | nil => simp
  | cons s l ih =>
    simp only [List.map_cons, List.flatten_cons, List.length_append, List.length_cons, serviceHeader]
    omega

theorem mem_data_le (l : List Service) : ∀ s ∈ l, s.buffer.length ≤ ((l.map (·.buffer)).flatten).length := by
  intro s hs
  induction l with
  | nil => cases hs
  | cons t l ih =>
    simp only [List.map_cons, List.flatten_cons, List.length_append]
    rcases List.mem_cons.mp hs with h | h
    · subst h; omega
    · have := ih h; omega

theorem Buffers.Ok.bounds {b : Buffers} (h : b.Ok) :
    b.input.length < 2 ^ 31 ∧ b.output.length < 2 ^ 31 ∧ b.services.length < 2 ^ 31 ∧
    ∀ s ∈ b.services, s.buffer.length < 2 ^ 31 := by
  obtain ⟨_, hl⟩ := h
  have h1 := services_length_le b.services
  have h2 := mem_data_le b.services
  simp only [bufferPayloadHeader, bufferData, List.length_append, List.length_cons, List.length_nil] at hl
  refine ⟨by omega, by omega, by omega, fun s hs => ?_⟩
  have := h2 s hs
  omega

theorem readServices_bytes (l : List Service) (tail : Bytes)
    (hn : ∀ s ∈ l, 1 ≤ s.name.length ∧ s.name.length ≤ 127) (hb : ∀ s ∈ l, s.buffer.length < 2 ^ 31) :
    readServices l.length ((l.map serviceHeader).flatten ++ tail) =
      .ok (l.map fun s => (s.name, s.buffer.length), tail) := by
  induction l with
  | nil => rfl
  | cons s l ih =>
    have h1 := hn s (List.mem_cons_self ..)
    have h2 := hb s (List.mem_cons_self ..)
    have hm : s.name.length % 2 ^ 8 = s.name.length := by omega
    simp only [List.map_cons, List.flatten_cons, serviceHeader, List.cons_append, List.nil_append,
      List.append_assoc, List.length_cons, readServices, UInt8.toNat_ofNat', hm]
    rw [if_neg (by omega)]
    have hf : readFull s.name.length (s.name ++ (putLen s.buffer.length ++ ((l.map serviceHeader).flatten ++ tail)))
        = .ok (s.name, putLen s.buffer.length ++ ((l.map serviceHeader).flatten ++ tail)) := by
      unfold readFull
      rw [if_pos (by simp)]
      simp
    rw [hf]
    simp only [Res.bind_ok]
    rw [putLen_eq _ h2, readU_bytes 32 _ _ (by omega)]
    simp only [Res.bind_ok]
    rw [ih (fun t ht => hn t (List.mem_cons_of_mem _ ht)) (fun t ht => hb t (List.mem_cons_of_mem _ ht))]
    rfl

theorem sliceServices_data (l : List Service) :
    sliceServices (l.map fun s => (s.name, s.buffer.length)) ((l.map (·.buffer)).flatten) = l := by
  induction l with
  | nil => rfl
  | cons s l ih =>
    simp only [List.map_cons, sliceServices, List.flatten_cons, List.take_left, List.drop_left, ih]

theorem sum_sizes (l : List Service) :
    ((l.map fun s => (s.name, s.buffer.length)).map (·.2)).sum = ((l.map (·.buffer)).flatten).length := by
  induction l with
  | nil => rfl
  | cons s l ih =>
    simp only [List.map_cons, List.sum_cons, List.flatten_cons, List.length_append, ih]

/-- The content of the section after its name. -/
def bufferContent (b : Buffers) : Bytes :=
  putLen b.input.length ++ putLen b.output.length ++ putLen b.services.length
    ++ (b.services.map serviceHeader).flatten ++ bufferData b

/-- Reading the header of what was written, whatever follows the data. -/
theorem readHeader_content (b : Buffers) (h : b.Ok) (tail : Bytes) (n : Nat)
    (hn : (bufferContent b).length ≤ n) :
    readBufferSectionHeader (bufferContent b ++ tail) n =
      .ok (⟨b.input.length, b.output.length, b.services.map fun s => (s.name, s.buffer.length),
            (bufferContent b).length - (bufferData b).length⟩, bufferData b ++ tail) := by
  obtain ⟨h1, h2, h3, h4⟩ := h.bounds
  have hc : bufferContent b ++ tail = putLen b.input.length ++ (putLen b.output.length ++ (putLen b.services.length
      ++ ((b.services.map serviceHeader).flatten ++ (bufferData b ++ tail)))) := by
    simp [bufferContent]
  unfold readBufferSectionHeader
  rw [hc, putLen_eq _ h1, readU_bytes 32 _ _ (by omega)]
  simp only [Res.bind_ok]
  rw [putLen_eq _ h2, readU_bytes 32 _ _ (by omega)]
  simp only [Res.bind_ok]
  rw [putLen_eq _ h3, readU_bytes 32 _ _ (by omega)]
  simp only [Res.bind_ok]
  rw [readServices_bytes _ _ h.1 h4]
  simp only [Res.bind_ok]
  rw [← putLen_eq _ h1, ← putLen_eq _ h2, ← putLen_eq _ h3, ← hc]
  have hlen : (bufferContent b ++ tail).length - (bufferData b ++ tail).length =
      (bufferContent b).length - (bufferData b).length := by simp only [List.length_append]; omega
  rw [hlen]
  have hd : (bufferData b).length ≤ (bufferContent b).length := by
    simp only [bufferContent, List.length_append]; omega
  have hs : BufferHeader.dataSize ⟨b.input.length, b.output.length, b.services.map fun s => (s.name, s.buffer.length),
            (bufferContent b).length - (bufferData b).length⟩ = (bufferData b).length := by
    simp only [BufferHeader.dataSize, sum_sizes, bufferData, List.length_append]
  rw [if_neg (by rw [hs]; omega)]

theorem sliceBuffers_data (b : Buffers) (k : Nat) :
    sliceBuffers ⟨b.input.length, b.output.length, b.services.map fun s => (s.name, s.buffer.length), k⟩ (bufferData b) = b := by
  unfold sliceBuffers bufferData
  have h1 : (b.input ++ b.output ++ (b.services.map (·.buffer)).flatten).drop (b.input.length + b.output.length) =
      (b.services.map (·.buffer)).flatten := by
    rw [← List.length_append, List.drop_left]
  rw [h1, sliceServices_data]
  simp [List.append_assoc]

/-- C32: the buffer section written for suspended buffers (header, then data) is one custom
section named `gate.buffer`, of the size the writer says, and loading its content gives back
exactly the services, their buffers, the input and the output. -/
theorem buffers_roundtrip (b : Buffers) (h : b.Ok) (hne : ¬ (b.services = [] ∧ b.input = [] ∧ b.output = []))
    (rest : Bytes) :
    ∃ header content, makeBufferSectionHeader b = .ok (header, (header ++ bufferData b).length) ∧
      (∃ payload, wasmSection (header ++ bufferData b ++ rest) = some (0, payload, rest) ∧
        wasmName payload = some (nameBuffer, content)) ∧
      loadBufferSection content = .ok (b, content.length - (bufferData b).length) := by
  obtain ⟨h1, h2, h3, h4⟩ := h.bounds
  have hroom : (bufferPayloadHeader b).length ≤ maxBufferHeader b := by
    have hl : ∀ n, n < 2 ^ 31 → (putLen n).length ≤ 5 := by
      intro n hn
      rw [putLen_eq n hn]
      exact uvarintBytes_length_le 4 n (by omega)
    have hs : ∀ l : List Service, (∀ s ∈ l, s.buffer.length < 2 ^ 31) →
        ((l.map serviceHeader).flatten).length ≤ (l.map fun s => 1 + s.name.length + 5).sum := by
      intro l hl4
      induction l with
      | nil => simp
      | cons s l ih =>
        have := ih (fun t ht => hl4 t (List.mem_cons_of_mem _ ht))
        have := hl _ (hl4 s (List.mem_cons_self ..))
        simp only [List.map_cons, List.flatten_cons, List.length_append, List.sum_cons, serviceHeader,
          List.length_cons, List.length_nil]
        omega
    have := hl _ h1
    have := hl _ h2
    have := hl _ h3
    have := hs _ h4
    simp only [bufferPayloadHeader, maxBufferHeader, List.length_append, List.length_cons, List.length_nil]
    omega
  have hpl : bufferPayloadHeader b ++ bufferData b = [UInt8.ofNat nameBuffer.length] ++ nameBuffer ++ bufferContent b := by
    simp [bufferPayloadHeader, bufferContent]
  have hlt := h.2
  rw [← List.length_append] at hlt
  refine ⟨[0] ++ uvarintBytes ((bufferPayloadHeader b ++ bufferData b).length % 2 ^ 32) ++ bufferPayloadHeader b,
    bufferContent b, ?_, ⟨bufferPayloadHeader b ++ bufferData b, ?_, ?_⟩, ?_⟩
  · unfold makeBufferSectionHeader
    rw [if_neg hne]
    simp only [if_neg (show ¬ maxBufferHeader b < (bufferPayloadHeader b).length from by omega)]
    simp only [List.length_append]
  · have := section_frame 0 (bufferPayloadHeader b ++ bufferData b) rest (by omega)
    simp only [List.append_assoc] at this ⊢
    exact this
  · rw [hpl]
    exact name_frame _ _ (by decide +kernel)
  · unfold loadBufferSection
    have := readHeader_content b h [] (bufferContent b).length (Nat.le_refl _)
    simp only [List.append_nil] at this
    rw [this]
    simp only [Res.bind_ok]
    have hs : BufferHeader.dataSize ⟨b.input.length, b.output.length, b.services.map fun s => (s.name, s.buffer.length),
            (bufferContent b).length - (bufferData b).length⟩ = (bufferData b).length := by
      simp only [BufferHeader.dataSize, sum_sizes, bufferData, List.length_append]
    unfold readFull
    rw [hs, if_pos (Nat.le_refl _)]
    simp only [Res.bind_ok, List.take_length]
    rw [sliceBuffers_data]

/-- Without buffers there is no section. -/
theorem no_buffers : makeBufferSectionHeader ⟨[], [], []⟩ = .ok ([], 0) := by simp [makeBufferSectionHeader]

theorem readServices_total : ∀ (k : Nat) (r : Bytes), readServices k r ≠ .panic := by
  intro k
  induction k with
  | zero => intro r h; cases h
  | succ k ih =>
    intro r h
    cases r with
    | nil => cases h
    | cons b r =>
      simp only [readServices] at h
      split at h
      · cases h
      · unfold readFull at h
        split at h
        · simp only [Res.bind_ok, readU] at h
          split at h
          · cases h
          · simp only [Res.bind_ok] at h
            cases hr : readServices k _ with
            | ok x => rw [hr] at h; cases h
            | err m => rw [hr] at h; cases h
            | panic => exact ih _ hr
        · cases h

theorem readU_spec {N : Nat} {r : Bytes} {x : Nat × Bytes} (h : readU N r = .ok x) :
    wasmU N r = some x := by
  unfold readU at h
  split at h
  · cases h
  · rename_i y hy
    cases h
    exact hy

theorem readU_total (N : Nat) (r : Bytes) : readU N r ≠ .panic := by
  unfold readU
  split <;> simp

theorem readU_shorter {N : Nat} {r : Bytes} {x : Nat × Bytes} (h : readU N r = .ok x) :
    x.2.length < r.length := by
  obtain ⟨_, pre, h1, _, h3⟩ := wasmU_suffix r N x.1 x.2 (readU_spec h)
  rw [h3, List.length_append]
  have := List.length_pos_iff.mpr h1
  omega

/-- Reading `k` services consumes at least three bytes for each. -/
theorem readServices_suffix : ∀ (k : Nat) (r : Bytes) (l : List (Bytes × Nat)) (t : Bytes),
    readServices k r = .ok (l, t) → t.length + 3 * k ≤ r.length ∧ l.length = k := by
  intro k
  induction k with
  | zero => intro r l t h; cases h; simp
  | succ k ih =>
    intro r l t h
    cases r with
    | nil => cases h
    | cons b r =>
      simp only [readServices] at h
      split at h
      · cases h
      · rename_i hb
        unfold readFull at h
        split at h
        · rename_i hlen
          simp only [Res.bind_ok] at h
          cases hx : readU 32 (r.drop b.toNat) with
          | err m => rw [hx] at h; cases h
          | panic => rw [hx] at h; cases h
          | ok x =>
            rw [hx] at h
            simp only [Res.bind_ok] at h
            have hsh := readU_shorter hx
            simp only [List.length_drop] at hsh
            cases hr : readServices k x.2 with
            | ok y =>
              rw [hr] at h
              cases h
              obtain ⟨h1, h2⟩ := ih _ _ _ hr
              simp only [List.length_cons]
              omega
            | err m => rw [hr] at h; cases h
            | panic => rw [hr] at h; cases h
        · cases h

/-- What an accepted header says about the bytes it was read from. -/
theorem readHeader_spec {r : Bytes} {n : Nat} {h : BufferHeader} {t : Bytes}
    (hh : readBufferSectionHeader r n = .ok (h, t)) :
    ∃ c r1 r2 r3, wasmU 32 r = some (h.input, r1) ∧ wasmU 32 r1 = some (h.output, r2) ∧
      wasmU 32 r2 = some (c, r3) ∧ readServices c r3 = .ok (h.services, t) ∧
      h.readLen = r.length - t.length ∧ h.readLen + h.dataSize ≤ n := by
  unfold readBufferSectionHeader at hh
  cases h1 : readU 32 r with
  | err m => rw [h1] at hh; cases hh
  | panic => rw [h1] at hh; cases hh
  | ok x1 =>
    rw [h1] at hh
    simp only [Res.bind_ok] at hh
    cases h2 : readU 32 x1.2 with
    | err m => rw [h2] at hh; cases hh
    | panic => rw [h2] at hh; cases hh
    | ok x2 =>
      rw [h2] at hh
      simp only [Res.bind_ok] at hh
      cases h3 : readU 32 x2.2 with
      | err m => rw [h3] at hh; cases hh
      | panic => rw [h3] at hh; cases hh
      | ok x3 =>
        rw [h3] at hh
        simp only [Res.bind_ok] at hh
        cases h4 : readServices x3.1 x3.2 with
        | err m => rw [h4] at hh; cases hh
        | panic => rw [h4] at hh; cases hh
        | ok x4 =>
          rw [h4] at hh
          simp only [Res.bind_ok] at hh
          split at hh
          · cases hh
          · rename_i hle
            cases hh
            exact ⟨x3.1, x1.2, x2.2, x3.2, readU_spec h1, readU_spec h2, readU_spec h3, h4, rfl, Nat.not_lt.mp hle⟩

/-- C62, the part which holds: for every content of a buffer section, however hostile, the
reader gives an error or success, and the data buffer it allocates is not longer than the
section. -/
theorem read_total_partial (content : Bytes) (n : Nat) :
    readBufferSectionHeader content n ≠ .panic ∧
    ∀ h t, readBufferSectionHeader content n = .ok (h, t) → h.dataSize ≤ n ∧ 3 * h.services.length ≤ content.length := by
  constructor
  · intro hh
    unfold readBufferSectionHeader at hh
    cases h1 : readU 32 content with
    | err m => rw [h1] at hh; cases hh
    | panic => exact readU_total _ _ h1
    | ok x1 =>
      rw [h1] at hh
      simp only [Res.bind_ok] at hh
      cases h2 : readU 32 x1.2 with
      | err m => rw [h2] at hh; cases hh
      | panic => exact readU_total _ _ h2
      | ok x2 =>
        rw [h2] at hh
        simp only [Res.bind_ok] at hh
        cases h3 : readU 32 x2.2 with
        | err m => rw [h3] at hh; cases hh
        | panic => exact readU_total _ _ h3
        | ok x3 =>
          rw [h3] at hh
          simp only [Res.bind_ok] at hh
          cases h4 : readServices x3.1 x3.2 with
          | err m => rw [h4] at hh; cases hh
          | panic => exact readServices_total _ _ h4
          | ok x4 =>
            rw [h4] at hh
            simp only [Res.bind_ok] at hh
            split at hh <;> cases hh
  · intro h t hh
    obtain ⟨c, r1, r2, r3, h1, h2, h3, h4, h5, h6⟩ := readHeader_spec hh
    refine ⟨by omega, ?_⟩
    obtain ⟨h7, h8⟩ := readServices_suffix _ _ _ _ h4
    have e1 := wasmU_suffix _ _ _ _ h1
    have e2 := wasmU_suffix _ _ _ _ h2
    have e3 := wasmU_suffix _ _ _ _ h3
    obtain ⟨_, p1, _, _, q1⟩ := e1
    obtain ⟨_, p2, _, _, q2⟩ := e2
    obtain ⟨_, p3, _, _, q3⟩ := e3
    have l1 : content.length = p1.length + r1.length := by rw [q1, List.length_append]
    have l2 : r1.length = p2.length + r2.length := by rw [q2, List.length_append]
    have l3 : r2.length = p3.length + r3.length := by rw [q3, List.length_append]
    omega

/-- C62 is false for the number of services: seven bytes make the reader allocate more than
four billion service records before it finds that they are not there. -/
theorem hostile_count : serviceCount [0, 0, 0xff, 0xff, 0xff, 0xff, 0x0f] = .ok (2 ^ 32 - 1) ∧
    (∃ m, readBufferSectionHeader [0, 0, 0xff, 0xff, 0xff, 0xff, 0x0f] 7 = .err m) := by
  refine ⟨by decide +kernel, ?_⟩
  have h : readServices (4294967294 + 1) [] = .err "EOF" := rfl
  refine ⟨"EOF", ?_⟩
  unfold readBufferSectionHeader
  have h1 : readU 32 [0, 0, 0xff, 0xff, 0xff, 0xff, 0x0f] = .ok (0, [0, 0xff, 0xff, 0xff, 0xff, 0x0f]) := by decide +kernel
  have h2 : readU 32 [0, 0xff, 0xff, 0xff, 0xff, 0x0f] = .ok (0, [0xff, 0xff, 0xff, 0xff, 0x0f]) := by decide +kernel
  have h3 : readU 32 [0xff, 0xff, 0xff, 0xff, 0x0f] = .ok (4294967294 + 1, []) := by decide +kernel
  rw [h1]
  simp only [Res.bind_ok]
  rw [h2]
  simp only [Res.bind_ok]
  rw [h3]
  simp only [Res.bind_ok]
  rw [h]
  rfl

/-- C32 is false for programs which are loaded from storage: the byte range recorded for a
section starts at the section's frame, but `LoadBuffers` reads the content's fields there. For
every well-formed custom section (in particular every buffer section that was ever written or
accepted) the load fails, whatever the header length, and then the server does not start. -/
theorem load_stored_buffers_fails (file sec rest payload : Bytes) (off headerLen : Nat)
    (hf : file.drop off = sec ++ rest) (hsec : wasmSection sec = some (0, payload, []))
    (hlen : sec.length < 2 ^ 32) : ∃ m, loadBuffers file off sec.length headerLen = .err m := by
  have hne : sec ≠ [] := by intro h; rw [h] at hsec; simp [wasmSection] at hsec
  have hpos := List.length_pos_iff.mpr hne
  unfold loadBuffers
  rw [if_neg (by omega), Nat.mod_eq_of_lt hlen, hf]
  by_cases hhl : headerLen ≤ (sec ++ rest).length
  · have hfull : readFull headerLen (sec ++ rest) = .ok ((sec ++ rest).take headerLen, (sec ++ rest).drop headerLen) := by
      unfold readFull; rw [if_pos hhl]
    rw [hfull]
    simp only [Res.bind_ok]
    cases hr : readBufferSectionHeader ((sec ++ rest).take headerLen) sec.length with
    | err m => exact ⟨m, rfl⟩
    | panic => exact absurd hr (read_total_partial _ _).1
    | ok x =>
      exfalso
      obtain ⟨h, t⟩ := x
      obtain ⟨c, r1, r2, r3, h1, h2, h3, h4, h5, h6⟩ := readHeader_spec hr
      cases sec with
      | nil => exact hne rfl
      | cons id body =>
        simp only [wasmSection] at hsec
        split at hsec
        · cases hsec
        · rename_i L r' hL
          split at hsec
          · rename_i hLr
            simp only [Option.some.injEq, Prod.mk.injEq] at hsec
            obtain ⟨hid, hp, hd⟩ := hsec
            have hrl : r'.length = L := by
              have := congrArg List.length hd
              simp only [List.length_drop, List.length_nil] at this
              omega
            -- the first integer is the section identifier, zero
            have hfull1 := wasmU_append _ _ _ _ ((id :: body ++ rest).drop headerLen) h1
            rw [List.take_append_drop] at hfull1
            simp only [List.cons_append, wasmU, hid] at hfull1
            rw [if_pos (by omega), if_pos (by omega)] at hfull1
            simp only [Option.some.injEq, Prod.mk.injEq] at hfull1
            -- the second is the section length
            have hfull2 := wasmU_append _ _ _ _ ((id :: body ++ rest).drop headerLen) h2
            simp only [List.cons_append] at hfull2
            rw [← hfull1.2, wasmU_append _ _ _ _ rest hL] at hfull2
            simp only [Option.some.injEq, Prod.mk.injEq] at hfull2
            obtain ⟨_, p1, n1, _, q1⟩ := wasmU_suffix _ _ _ _ h1
            obtain ⟨_, p3, n3, _, q3⟩ := wasmU_suffix _ _ _ _ h3
            obtain ⟨h7, h8⟩ := readServices_suffix _ _ _ _ h4
            have l3 : r2.length = p3.length + r3.length := by rw [q3, List.length_append]
            have := List.length_pos_iff.mpr n3
            have e2 := congrArg List.length hfull2.2
            have e1 := congrArg List.length hfull1.2
            simp only [List.length_append] at e1 e2
            have htl : ((id :: body ++ rest).take headerLen).length + ((id :: body ++ rest).drop headerLen).length
                = (id :: body ++ rest).length := by
              rw [← List.length_append, List.take_append_drop]
            simp only [List.cons_append] at htl h5
            have hh : (id :: (body ++ rest)).length = body.length + rest.length + 1 := by simp
            have l1 : body.length + rest.length = r1.length + (List.drop headerLen (id :: (body ++ rest))).length := by
              have := congrArg List.length hfull1.2
              simpa only [List.length_append] using this
            simp only [List.length_cons] at h6
            have hds : h.output ≤ h.dataSize := by unfold BufferHeader.dataSize; omega
            omega
          · cases hsec
  · unfold readFull
    rw [if_neg hhl]
    exact ⟨_, rfl⟩

/-- A concrete case: two services, of which one has no buffer, and both directions buffered. -/
example : loadBufferSection (bufferContent ⟨[⟨[111, 114], [1, 2, 3]⟩, ⟨[99], []⟩], [9, 9], [8]⟩) =
    .ok (⟨[⟨[111, 114], [1, 2, 3]⟩, ⟨[99], []⟩], [9, 9], [8]⟩, 10) := by decide +kernel

/-! ### Snapshot metadata -/

theorem readMany_bytes (N : Nat) (l : List Nat) (tail : Bytes) (h : ∀ x ∈ l, x < 2 ^ N) :
    readMany N l.length ((l.map uvarintBytes).flatten ++ tail) = .ok (l, tail) := by
  induction l with
  | nil => rfl
  | cons x l ih =>
    simp only [List.map_cons, List.flatten_cons, List.append_assoc, List.length_cons, readMany]
    rw [readU_bytes N x _ (h x (List.mem_cons_self ..))]
    simp only [Res.bind_ok]
    rw [ih (fun y hy => h y (List.mem_cons_of_mem _ hy))]
    rfl

/-- Metadata as the server makes it: trap identifiers and results are small non-negative
numbers (Process.status_cases), and there are at most 100 breakpoints. -/
structure Snap.Ok (s : Snap) : Prop where
  flags : s.flags < 2 ^ 64
  trap : 0 ≤ s.trap ∧ s.trap < 2 ^ 31
  result : 0 ≤ s.result ∧ s.result < 2 ^ 31
  mono : s.mono < 2 ^ 64
  bps : ∀ x ∈ s.breakpoints, x < 2 ^ 64
  count : s.breakpoints.length ≤ 100

/-- The content of the section after its name. -/
def snapshotContent (s : Snap) : Bytes :=
  [0] ++ uvarintBytes s.flags ++ uvarintBytes (toUnsigned 64 s.trap) ++ uvarintBytes (toUnsigned 64 s.result)
    ++ uvarintBytes s.mono ++ uvarintBytes s.breakpoints.length ++ (s.breakpoints.map uvarintBytes).flatten

theorem flatten_length_le (l : List Nat) (h : ∀ x ∈ l, x < 2 ^ 64) : ((l.map uvarintBytes).flatten).length ≤ 10 * l.length := by
  induction l with
  | nil => simp
  | cons x l ih =>
    have := ih (fun y hy => h y (List.mem_cons_of_mem _ hy))
    have h2 := h x (List.mem_cons_self ..)
    have := uvarintBytes_length_le 9 x (by omega)
    simp only [List.map_cons, List.flatten_cons, List.length_append, List.length_cons]
    omega

/-- C33: the metadata section is one custom section named `gate.snapshot`, and reading its
content consumes all of it and gives the same flags, trap, result, time and breakpoints. -/
theorem snapshot_roundtrip (s : Snap) (h : s.Ok) (rest : Bytes) :
    ∃ sec content payload, makeSnapshotSection s = .ok sec ∧
      wasmSection (sec ++ rest) = some (0, payload, rest) ∧ wasmName payload = some (nameSnapshot, content) ∧
      readSnapshotSection content = .ok (s, content.length) := by
  obtain ⟨h1, h2, h3, h4, h5, h6⟩ := h
  have ht : toUnsigned 64 s.trap = s.trap.toNat := by
    obtain ⟨n, hn⟩ : ∃ n : Nat, s.trap = n := ⟨s.trap.toNat, by omega⟩
    rw [hn, toUnsigned_ofNat (by omega)]
    rfl
  have hr : toUnsigned 64 s.result = s.result.toNat := by
    obtain ⟨n, hn⟩ : ∃ n : Nat, s.result = n := ⟨s.result.toNat, by omega⟩
    rw [hn, toUnsigned_ofNat (by omega)]
    rfl
  have hpl : snapshotPayload s = [UInt8.ofNat nameSnapshot.length] ++ nameSnapshot ++ snapshotContent s := by
    simp [snapshotPayload, snapshotContent]
  have l1 := uvarintBytes_length_le 9 s.flags (by omega)
  have l2 := uvarintBytes_length_le 4 (toUnsigned 64 s.trap) (by rw [ht]; omega)
  have l3 := uvarintBytes_length_le 4 (toUnsigned 64 s.result) (by rw [hr]; omega)
  have l4 := uvarintBytes_length_le 9 s.mono (by omega)
  have l5 := uvarintBytes_length_le 4 s.breakpoints.length (by omega)
  have l6 := flatten_length_le _ h5
  have hroom : (snapshotPayload s).length ≤ maxSnapshotPayload s := by
    simp only [snapshotPayload, maxSnapshotPayload, List.length_append, List.length_cons, List.length_nil]
    omega
  have hn : nameSnapshot.length = 13 := by decide +kernel
  have hsmall : (snapshotPayload s).length < 2 ^ 32 := by
    simp only [maxSnapshotPayload, hn] at hroom
    omega
  refine ⟨[0] ++ uvarintBytes ((snapshotPayload s).length % 2 ^ 32) ++ snapshotPayload s, snapshotContent s,
    snapshotPayload s, ?_, section_frame 0 _ rest hsmall, ?_, ?_⟩
  · unfold makeSnapshotSection
    simp only [if_neg (show ¬ maxSnapshotPayload s < (snapshotPayload s).length from by omega)]
  · rw [hpl]
    exact name_frame _ _ (by omega)
  · have hc : snapshotContent s = uvarintBytes 0 ++ (uvarintBytes s.flags ++ (uvarintBytes (toUnsigned 64 s.trap)
        ++ (uvarintBytes (toUnsigned 64 s.result) ++ (uvarintBytes s.mono ++ (uvarintBytes s.breakpoints.length
        ++ ((s.breakpoints.map uvarintBytes).flatten ++ [])))))) := by
      simp [snapshotContent, uvarint_small]
    unfold readSnapshotSection
    rw [hc]
    generalize hL : (uvarintBytes 0 ++ _).length = L
    rw [readU_bytes 64 _ _ (by omega)]
    simp only [Res.bind_ok]
    rw [readU_bytes 64 _ _ h1]
    simp only [Res.bind_ok]
    rw [readU_bytes 32 _ _ (by omega)]
    simp only [Res.bind_ok]
    rw [readU_bytes 32 _ _ (by omega)]
    simp only [Res.bind_ok]
    rw [readU_bytes 64 _ _ h4]
    simp only [Res.bind_ok]
    rw [readU_bytes 32 _ _ (by omega)]
    simp only [Res.bind_ok]
    rw [if_neg (by omega), readMany_bytes 64 _ _ h5]
    simp only [Res.bind_ok, List.length_nil, Nat.sub_zero]
    have e1 : ((toUnsigned 64 s.trap : Nat) : Int) = s.trap := by omega
    have e2 : toSigned 32 (toUnsigned 64 s.result) = s.result := by
      unfold toSigned
      rw [if_pos (by rw [hr]; show _ < 2 ^ 31; omega)]
      omega
    rw [e1, e2]

/-- Reading never crashes, whatever the content. -/
theorem readSnapshot_total (content : Bytes) : readSnapshotSection content ≠ .panic := by
  have hm : ∀ (k : Nat) (r : Bytes), readMany 64 k r ≠ .panic := by
    intro k
    induction k with
    | zero => intro r h; cases h
    | succ k ih =>
      intro r h
      simp only [readMany] at h
      cases h1 : readU 64 r with
      | err m => rw [h1] at h; cases h
      | panic => exact readU_total _ _ h1
      | ok x =>
        rw [h1] at h
        simp only [Res.bind_ok] at h
        cases h2 : readMany 64 k x.2 with
        | err m => rw [h2] at h; cases h
        | panic => exact ih _ h2
        | ok y => rw [h2] at h; cases h
  have hb : ∀ {β : Type} (N : Nat) (r : Bytes) (f : Nat × Bytes → Res β), (∀ x, f x ≠ .panic) → (readU N r >>= f) ≠ .panic := by
    intro β N r f hf h
    cases h1 : readU N r with
    | err m => rw [h1] at h; cases h
    | panic => exact readU_total _ _ h1
    | ok x => rw [h1] at h; exact hf x h
  unfold readSnapshotSection
  refine hb _ _ _ fun x1 => hb _ _ _ fun x2 => hb _ _ _ fun x3 => hb _ _ _ fun x4 => hb _ _ _ fun x5 => hb _ _ _ fun x6 => ?_
  simp only
  split
  · simp
  · intro h
    cases h1 : readMany 64 x6.1 x6.2 with
    | err m => rw [h1] at h; cases h
    | panic => exact hm _ _ h1
    | ok x => rw [h1] at h; cases h

/-- A result or trap below zero could not be represented: the section is unreadable. -/
example : (makeSnapshotSection ⟨0, 0, -1, 0, []⟩ = .ok (  [0, 29, 13] ++ nameSnapshot ++ [0, 0, 0] ++
    [255, 255, 255, 255, 255, 255, 255, 255, 255, 1] ++ [0, 0])) ∧
    readSnapshotSection ([0, 0, 0] ++ [255, 255, 255, 255, 255, 255, 255, 255, 255, 1] ++ [0, 0]) = .err "varuint" := by
  decide +kernel

/-! ### Memory, globals, data, stack and exports -/

/-- The memory section in the WebAssembly format: one memory with its limits in pages. -/
theorem memory_section (size : Nat) (limit : Int) (rest : Bytes) (hs : size < 2 ^ 32) (hl : limit ≤ 2 ^ 32) :
    ∃ p, wasmSection (makeMemorySection size limit ++ rest) = some (5, p, rest) ∧
      (if 0 ≤ limit then
        ∃ r, p = 1 :: 1 :: r ∧ wasmU 32 r = some (size / 65536, uvarintBytes (limit.toNat / 65536)) ∧
          wasmU 32 (uvarintBytes (limit.toNat / 65536)) = some (limit.toNat / 65536, [])
      else p = 1 :: 0 :: uvarintBytes (size / 65536) ∧ wasmU 32 (uvarintBytes (size / 65536)) = some (size / 65536, [])) := by
  have l1 := uvarintBytes_length_le 2 (size / 65536) (by omega)
  have e0 : wasmU 32 (uvarintBytes (size / 65536) ++ []) = some (size / 65536, []) := wasmU_bytes _ 32 _ (by omega)
  by_cases h : 0 ≤ limit
  · have hm : limit.toNat / 65536 % 2 ^ 32 = limit.toNat / 65536 := by omega
    have l2 := uvarintBytes_length_le 2 (limit.toNat / 65536) (by omega)
    have e1 := wasmU_bytes (limit.toNat / 65536) 32 [] (by omega)
    simp only [List.append_nil] at e1
    refine ⟨1 :: 1 :: (uvarintBytes (size / 65536) ++ uvarintBytes (limit.toNat / 65536)), ?_, ?_⟩
    · simp only [makeMemorySection, if_pos h, hm]
      have := section_frame 5 (1 :: 1 :: (uvarintBytes (size / 65536) ++ uvarintBytes (limit.toNat / 65536))) rest
        (by simp only [List.length_cons, List.length_append]; omega)
      rw [Nat.mod_eq_of_lt (by simp only [List.length_cons, List.length_append]; omega),
        uvarint_small _ (by simp only [List.length_cons, List.length_append]; omega)] at this
      simpa using this
    · rw [if_pos h]
      exact ⟨_, rfl, wasmU_bytes _ 32 _ (by omega), e1⟩
  · refine ⟨1 :: 0 :: uvarintBytes (size / 65536), ?_, ?_⟩
    · simp only [makeMemorySection, if_neg h]
      have := section_frame 5 (1 :: 0 :: uvarintBytes (size / 65536)) rest
        (by simp only [List.length_cons]; omega)
      rw [Nat.mod_eq_of_lt (by simp only [List.length_cons]; omega),
        uvarint_small _ (by simp only [List.length_cons]; omega)] at this
      simpa using this
    · rw [if_neg h]
      exact ⟨rfl, by simpa using e0⟩

/-- Specification, 5.5.9 and 5.4: one global with a constant initializer. Values are given as
the 64-bit slot contents: sign-extended (i32) or plain bits. -/
def wasmGlobal : Bytes → Option (GlobalType × Nat × Bytes)
  | ty :: m :: op :: r =>
    let mu := if m = 0 then some false else if m = 1 then some true else none
    match mu with
    | none => none
    | some mu =>
      if ty = 0x7f ∧ op = 0x41 then
        match wasmS 32 r with
        | some (x, e :: t) => if e = 0x0b then some (⟨.i32, mu⟩, toUnsigned 32 x, t) else none
        | _ => none
      else if ty = 0x7e ∧ op = 0x42 then
        match wasmS 64 r with
        | some (x, e :: t) => if e = 0x0b then some (⟨.i64, mu⟩, toUnsigned 64 x, t) else none
        | _ => none
      else if ty = 0x7d ∧ op = 0x43 then
        match r.drop 4 with
        | e :: t => if e = 0x0b then some (⟨.f32, mu⟩, unle (r.take 4), t) else none
        | _ => none
      else if ty = 0x7c ∧ op = 0x44 then
        match r.drop 8 with
        | e :: t => if e = 0x0b then some (⟨.f64, mu⟩, unle (r.take 8), t) else none
        | _ => none
      else none
  | _ => none

/-- The value a slot holds: 32-bit types use its low half. -/
def slotValue (t : GlobalType) (v : Nat) : Nat :=
  match t.ty with
  | .i32 | .f32 => v % 2 ^ 32
  | .i64 | .f64 => v

theorem toSigned_range (w n : Nat) (hw : 0 < w) (h : n < 2 ^ w) :
    -(2 ^ (w - 1) : Nat) ≤ toSigned w n ∧ toSigned w n < (2 ^ (w - 1) : Nat) := by
  obtain ⟨v, rfl⟩ : ∃ v, w = v + 1 := ⟨w - 1, by omega⟩
  have hp : (2 ^ (v + 1) : Nat) = 2 * 2 ^ v := by rw [Nat.pow_succ]; omega
  unfold toSigned
  simp only [Nat.add_sub_cancel, hp] at h ⊢
  generalize (2 ^ v : Nat) = P at *
  split <;> omega

/-- A global in a snapshot decodes to its type, mutability and current value. -/
theorem global_roundtrip (t : GlobalType) (v : Nat) (hv : v < 2 ^ 64) (rest : Bytes) :
    wasmGlobal (putGlobal t v ++ rest) = some (t, slotValue t v, rest) := by
  have hmu : (if (if t.mutable then (1 : UInt8) else 0) = 0 then some false
      else if (if t.mutable then (1 : UInt8) else 0) = 1 then some true else none) = some t.mutable := by
    cases t.mutable <;> decide
  obtain ⟨ty, mu⟩ := t
  simp only at hmu
  cases ty with
  | i32 =>
    have hr := toSigned_range 32 (v % 2 ^ 32) (by omega) (Nat.mod_lt _ (by omega))
    simp only [putGlobal, encodeType, List.cons_append, List.nil_append, List.append_assoc, wasmGlobal, hmu]
    rw [if_pos (by decide), wasmS_bytes _ _ 32 _ rfl (by omega) hr.1 hr.2]
    simp only [if_pos, slotValue]
    rw [toUnsigned_toSigned (Nat.mod_lt _ (by omega))]
  | i64 =>
    have hr := toSigned_range 64 v (by omega) hv
    simp only [putGlobal, encodeType, List.cons_append, List.nil_append, List.append_assoc, wasmGlobal, hmu]
    rw [if_neg (by decide), if_pos (by decide), wasmS_bytes _ _ 64 _ rfl (by omega) hr.1 hr.2]
    simp only [if_pos, slotValue]
    rw [toUnsigned_toSigned hv]
  | f32 =>
    simp only [putGlobal, encodeType, List.cons_append, List.nil_append, List.append_assoc, wasmGlobal, hmu]
    rw [if_neg (by decide), if_neg (by decide), if_pos (by decide)]
    have h1 : ((le 4 v) ++ (0x0b :: rest)).drop 4 = 0x0b :: rest := List.drop_left' (length_le 4 v)
    have h2 : ((le 4 v) ++ (0x0b :: rest)).take 4 = le 4 v := List.take_left' (length_le 4 v)
    rw [h1, h2]
    simp only [if_pos, slotValue]
    rw [unle_le]
  | f64 =>
    simp only [putGlobal, encodeType, List.cons_append, List.nil_append, List.append_assoc, wasmGlobal, hmu]
    rw [if_neg (by decide), if_neg (by decide), if_neg (by decide), if_pos (by decide)]
    have h1 : ((le 8 v) ++ (0x0b :: rest)).drop 8 = 0x0b :: rest := List.drop_left' (length_le 8 v)
    have h2 : ((le 8 v) ++ (0x0b :: rest)).take 8 = le 8 v := List.take_left' (length_le 8 v)
    rw [h1, h2]
    simp only [if_pos, slotValue]
    rw [unle_le_of_lt (by omega)]

/-- The room made for an item suffices: 14 bytes, image/snapshot.go:412-413. -/
theorem putGlobal_length (t : GlobalType) (v : Nat) (hv : v < 2 ^ 64) : (putGlobal t v).length ≤ 14 := by
  obtain ⟨ty, mu⟩ := t
  cases ty with
  | i32 =>
    have hr := toSigned_range 32 (v % 2 ^ 32) (by omega) (Nat.mod_lt _ (by omega))
    have := (i32_const (toSigned 32 (v % 2 ^ 32)) (by omega) (by omega) []).2
    simp only [putGlobal, encodeType, List.length_append, List.length_cons, List.length_nil]
    omega
  | i64 =>
    have hr := toSigned_range 64 v (by omega) hv
    have := (i64_const (toSigned 64 v) (by omega) (by omega) []).2
    simp only [putGlobal, encodeType, List.length_append, List.length_cons, List.length_nil]
    omega
  | f32 => simp [putGlobal, encodeType]
  | f64 => simp [putGlobal, encodeType]

/-- Specification: `k` globals. -/
def wasmGlobals : Nat → Bytes → Option (List (GlobalType × Nat) × Bytes)
  | 0, r => some ([], r)
  | k + 1, r =>
    match wasmGlobal r with
    | none => none
    | some (t, v, r) =>
      match wasmGlobals k r with
      | none => none
      | some (l, r) => some ((t, v) :: l, r)

/-- The `i`-th eight-byte slot of the globals segment. -/
def slots : List GlobalType → Bytes → List (GlobalType × Nat)
  | [], _ => []
  | t :: ts, seg => (t, slotValue t (unle (seg.take 8))) :: slots ts (seg.drop 8)

theorem putGlobals_roundtrip : ∀ (ts : List GlobalType) (seg rest : Bytes), 8 * ts.length ≤ seg.length →
    ∃ items, putGlobals ts seg = .ok items ∧ items.length ≤ 14 * ts.length ∧
      wasmGlobals ts.length (items ++ rest) = some (slots ts seg, rest) := by
  intro ts
  induction ts with
  | nil => intro seg rest _; exact ⟨[], rfl, by simp, rfl⟩
  | cons t ts ih =>
    intro seg rest h
    simp only [List.length_cons] at h
    have hv : unle (seg.take 8) < 2 ^ 64 := by
      have := unle_lt (seg.take 8)
      have hl : (seg.take 8).length = 8 := by rw [List.length_take]; omega
      rw [hl] at this
      omega
    obtain ⟨items, h1, h2, h3⟩ := ih (seg.drop 8) rest (by simp only [List.length_drop]; omega)
    refine ⟨putGlobal t (unle (seg.take 8)) ++ items, ?_, ?_, ?_⟩
    · simp only [putGlobals]
      rw [if_neg (by omega), h1]
      rfl
    · have := putGlobal_length t _ hv
      simp only [List.length_append, List.length_cons]
      omega
    · simp only [List.length_cons, wasmGlobals, List.append_assoc]
      rw [global_roundtrip t _ hv]
      simp only [h3]
      rfl

/-- The global section of a snapshot has the types, mutability and current values of all
globals, the values being taken from consecutive slots. -/
theorem globals_section (ts : List GlobalType) (seg rest : Bytes) (hne : ts ≠ []) (hseg : 8 * ts.length ≤ seg.length)
    (hn : ts.length < 2 ^ 24) :
    ∃ sec p items, makeGlobalSection ts seg = .ok sec ∧ wasmSection (sec ++ rest) = some (6, p, rest) ∧
      wasmU 32 p = some (ts.length, items) ∧ wasmGlobals ts.length items = some (slots ts seg, []) := by
  obtain ⟨items, h1, h2, h3⟩ := putGlobals_roundtrip ts seg [] hseg
  have hm : ts.length % 2 ^ 32 = ts.length := by omega
  have hl := uvarintBytes_length_le 3 ts.length (by omega)
  refine ⟨_, uvarintBytes ts.length ++ items, items, ?_, section_frame 6 _ rest ?_, wasmU_bytes _ 32 _ (by omega),
    by simpa using h3⟩
  · unfold makeGlobalSection
    rw [if_neg hne, h1]
    simp only [Res.bind_ok, hm]
  · simp only [List.length_append]; omega

/-- `Instance.Globals`, image/instance.go:340-361, reads the slots from the other end: its
values are those of the snapshot's global section in reverse. -/
def globalsOf (n : Nat) (b : Bytes) : List Nat :=
  (List.range n).map fun i => unle (slice b (b.length - (i + 1) * 8) 8)

/-- The two readings of the globals disagree as soon as there are two with different values. -/
theorem globals_disagree :
    globalsOf 2 (le 8 1 ++ le 8 2) = [2, 1] ∧
    slots [⟨.i64, true⟩, ⟨.i64, true⟩] (le 8 1 ++ le 8 2) = [(⟨.i64, true⟩, 1), (⟨.i64, true⟩, 2)] := by
  decide +kernel

/-- The data section: one active segment for memory 0 at offset 0 with the whole memory. -/
theorem data_section (mem rest : Bytes) (h : mem.length < 2 ^ 31) :
    ∃ p r, wasmSection (makeDataSectionHeader mem.length ++ mem ++ rest) = some (11, p, rest) ∧
      p = [1, 0, 0x41, 0, 0x0b] ++ r ∧ wasmU 32 r = some (mem.length, mem) := by
  have hl := uvarintBytes_length_le 4 mem.length (by omega)
  refine ⟨[1, 0, 0x41, 0, 0x0b] ++ uvarintBytes mem.length ++ mem, uvarintBytes mem.length ++ mem, ?_, by simp,
    wasmU_bytes _ 32 _ (by omega)⟩
  have := section_frame 11 ([1, 0, 0x41, 0, 0x0b] ++ uvarintBytes mem.length ++ mem) rest
    (by simp only [List.length_append, List.length_cons, List.length_nil]; omega)
  unfold makeDataSectionHeader
  simp only [List.append_assoc, List.length_append] at this ⊢
  rw [← Nat.add_assoc] at this
  exact this

/-- The stack section. -/
theorem stack_section (stack rest : Bytes) (h : stack.length < 2 ^ 31) :
    ∃ p, wasmSection (makeStackSectionHeader stack.length ++ stack ++ rest) = some (0, p, rest) ∧
      wasmName p = some (nameStack, stack) := by
  refine ⟨[UInt8.ofNat nameStack.length] ++ nameStack ++ stack, ?_, name_frame _ _ (by decide +kernel)⟩
  have hn : nameStack.length = 10 := by decide +kernel
  have hl : ([UInt8.ofNat nameStack.length] ++ nameStack ++ stack).length = 11 + stack.length := by
    simp only [List.length_append, List.length_cons, List.length_nil, hn]
  have := section_frame 0 ([UInt8.ofNat nameStack.length] ++ nameStack ++ stack) rest (by rw [hl]; omega)
  rw [hl, Nat.mod_eq_of_lt (by omega)] at this
  unfold makeStackSectionHeader
  have hl2 : ([UInt8.ofNat nameStack.length] ++ nameStack).length = 11 := by
    simp only [List.length_append, List.length_cons, List.length_nil, hn]
  simp only [hl2, List.append_assoc] at this ⊢
  exact this

/-- The hidden export section: a custom section whose content is the export section. -/
theorem export_wrap (exp rest : Bytes) (h : exp.length < 2 ^ 31) :
    ∃ p, wasmSection (makeExportSectionWrapFrame exp.length ++ exp ++ rest) = some (0, p, rest) ∧
      wasmName p = some (nameExport, exp) := by
  refine ⟨[UInt8.ofNat nameExport.length] ++ nameExport ++ exp, ?_, name_frame _ _ (by decide +kernel)⟩
  have hn : nameExport.length = 11 := by decide +kernel
  have hl : ([UInt8.ofNat nameExport.length] ++ nameExport ++ exp).length = 12 + exp.length := by
    simp only [List.length_append, List.length_cons, List.length_nil, hn]
  have := section_frame 0 ([UInt8.ofNat nameExport.length] ++ nameExport ++ exp) rest (by rw [hl]; omega)
  rw [hl] at this
  unfold makeExportSectionWrapFrame
  have hl2 : ([UInt8.ofNat nameExport.length] ++ nameExport).length = 12 := by
    simp only [List.length_append, List.length_cons, List.length_nil, hn]
  simp only [hl2, List.append_assoc] at this ⊢
  exact this

end Gate.Sections
