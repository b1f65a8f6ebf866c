import Verif.Manifest
import Verif.ImageFileProps
/-
What users rely on: a stored program or instance can be loaded, and has the manifest it was
stored with; whatever is in a file, loading it doesn't crash.
-/
namespace Gate.Manifest
open Gate Gate.ImageFile Gate.Varint

/-! ### Specification -/

/-- The values which the fields of a manifest.Instance can have. -/
structure Snap.InRange (s : Snap) : Prop where
  flags : s.flags < 2 ^ 64
  trap : s.trap < 2 ^ 32
  result : s.result < 2 ^ 32
  time : s.time < 2 ^ 64
  breakpoints : ∀ x ∈ s.breakpoints, x < 2 ^ 64

structure Fn.InRange (f : Fn) : Prop where
  index : f.index < 2 ^ 32
  addr : f.addr < 2 ^ 32

structure InRange (m : InstMan) : Prop where
  textAddr : m.textAddr < 2 ^ 64
  stackSize : m.stackSize < 2 ^ 32
  stackUsage : m.stackUsage < 2 ^ 32
  globalsSize : m.globalsSize < 2 ^ 32
  memorySize : m.memorySize < 2 ^ 32
  maxMemorySize : m.maxMemorySize < 2 ^ 32
  start : ∀ f, m.start = some f → Fn.InRange f
  entry : ∀ f, m.entry = some f → Fn.InRange f
  snap : ∀ s, m.snap = some s → Snap.InRange s

/-! ### Header -/

theorem read_take (f : File) (off n k : Nat) (h : k ≤ n) : (read f off n).take k = read f off k := by
  apply List.ext_getElem
  · simp [ImageFile.read]; omega
  · intro i h1 h2; simp [ImageFile.read]

theorem read_drop (f : File) (off n k : Nat) : (read f off n).drop k = read f (off + k) (n - k) := by
  apply List.ext_getElem
  · simp [ImageFile.read]
  · intro i h1 h2; simp [ImageFile.read, Nat.add_assoc]

theorem read_append (f : File) (off a b : Nat) : read f off (a + b) = read f off a ++ read f (off + a) b := by
  rw [← List.take_append_drop a (read f off (a + b)), read_take f off _ _ (by omega), read_drop]
  congr 2; omega

/-- Reading back the first part of what was written. -/
theorem read_write_prefix (f : File) (off : Nat) (a b : Bytes) : read (write f off (a ++ b)) off a.length = a := by
  have h := read_write f off (a ++ b)
  rw [List.length_append, read_append] at h
  exact (List.append_inj h (by simp [ImageFile.read])).1

/-- What is written can be read, if the protocol buffer is no longer than 4088 bytes. -/
theorem header_round_trip (f : File) (marsh : Bytes) (off tag : Nat) (ht : tag < 2 ^ 32) (hl : marsh.length ≤ 4088) :
    unmarshalManifest (marshalManifest f marsh off tag) off tag = .ok marsh := by
  unfold unmarshalManifest marshalManifest
  have hw := read_write f off (header tag marsh)
  have hlen : (header tag marsh).length = 8 + marsh.length := by simp [header]; omega
  have h4 : read (write f off (header tag marsh)) off 4 = le 4 tag := by
    have := read_write_prefix f off (le 4 tag) (le 4 (headerSize + marsh.length) ++ marsh)
    simpa [header] using this
  have h8 : read (write f off (header tag marsh)) off (4 + 4) = le 4 tag ++ le 4 (8 + marsh.length) := by
    have := read_write_prefix f off (le 4 tag ++ le 4 (headerSize + marsh.length)) marsh
    simpa [header] using this
  rw [read_append, h4] at h8
  have h48 := (List.append_inj h8 rfl).2
  simp only [maxSize]
  rw [read_take _ _ _ _ (by omega), h4, unle_le_of_lt (by omega), if_neg (by simp), read_drop, read_take _ _ _ _ (by omega), h48,
    unle_le_of_lt (by omega), if_neg (by simp only [headerSize]; omega)]
  unfold slice
  rw [if_pos (by simp only [headerSize, ImageFile.read, List.length_map, List.length_range]; omega), read_take _ _ _ _ (by omega), ← hlen, hw]
  simp [header, le]

/-- A longer one can be written, but never read. -/
theorem oversize_unloadable (f : File) (marsh : Bytes) (off tag : Nat) (ht : tag < 2 ^ 32) (hl : 4088 < marsh.length) (hm : marsh.length + 8 < 2 ^ 32) :
    unmarshalManifest (marshalManifest f marsh off tag) off tag = .err "manifest size out of bounds" := by
  unfold unmarshalManifest marshalManifest
  have h4 : read (write f off (header tag marsh)) off 4 = le 4 tag := by
    have := read_write_prefix f off (le 4 tag) (le 4 (headerSize + marsh.length) ++ marsh)
    simpa [header] using this
  have h8 : read (write f off (header tag marsh)) off (4 + 4) = le 4 tag ++ le 4 (8 + marsh.length) := by
    have := read_write_prefix f off (le 4 tag ++ le 4 (headerSize + marsh.length)) marsh
    simpa [header] using this
  rw [read_append, h4] at h8
  have h48 := (List.append_inj h8 rfl).2
  simp only [maxSize]
  rw [read_take _ _ _ _ (by omega), h4, unle_le_of_lt (by omega), if_neg (by simp), read_drop, read_take _ _ _ _ (by omega), h48,
    unle_le_of_lt (by omega), if_pos (by omega)]

/-- A program file isn't taken for an instance file, nor the other way around, whatever else they contain. -/
theorem wrong_tag (f : File) (marsh : Bytes) (off tag tag' : Nat) (ht : tag < 2 ^ 32) (hne : tag ≠ tag') :
    unmarshalManifest (marshalManifest f marsh off tag) off tag' = .err "incorrect file tag" := by
  unfold unmarshalManifest marshalManifest
  have h4 : read (write f off (header tag marsh)) off 4 = le 4 tag := by
    have := read_write_prefix f off (le 4 tag) (le 4 (headerSize + marsh.length) ++ marsh)
    simpa [header] using this
  simp only [maxSize]
  rw [read_take _ _ _ _ (by omega), h4, unle_le_of_lt (by omega), if_pos hne]

/-- Whatever a file contains, reading its manifest doesn't crash, and takes at most 4088 bytes. -/
theorem unmarshal_safe (f : File) (off tag : Nat) :
    unmarshalManifest f off tag = .err "incorrect file tag" ∨ unmarshalManifest f off tag = .err "manifest size out of bounds" ∨
    ∃ b, unmarshalManifest f off tag = .ok b ∧ b.length ≤ 4088 := by
  unfold unmarshalManifest
  simp only
  split
  · exact .inl rfl
  · split
    · exact .inr (.inl rfl)
    · rename_i h
      right; right
      unfold slice
      rw [if_pos (by simp only [headerSize, maxSize, ImageFile.read, List.length_map, List.length_range] at h ⊢; omega)]
      exact ⟨_, rfl, by simp only [headerSize, maxSize, List.length_drop, List.length_take] at h ⊢; omega⟩

/-- Writing a manifest of an instance changes nothing before it: the stack, globals and memory. -/
theorem marshal_elsewhere (f : File) (marsh : Bytes) (off tag k : Nat) (h : k < off) : marshalManifest f marsh off tag k = f k := by
  simp only [marshalManifest, write]
  rw [if_neg (by omega)]

/-! ### Protocol buffers -/

theorem uv (v : Nat) (h : v < 2 ^ 64) (tail : Bytes) : uvarintLoop 0 0 (uvarintBytes v ++ tail) = some (v, tail) := by
  have := uvarintLoop_bytes v 0 0 tail (by simpa using h) (by omega)
  simpa using this

/-- What a field can be. -/
def FieldOk : Nat × Val → Prop
  | (n, .num v) => n < 1000 ∧ v < 2 ^ 64
  | (n, .bytes b) => n < 1000 ∧ b.length < 2 ^ 64

theorem encField_pos (x : Nat × Val) : 0 < (encField x).length := by
  obtain ⟨n, v | b⟩ := x
  · have := uvarintBytes_length_pos (n * 8)
    simp only [encField, List.length_append]; omega
  · have := uvarintBytes_length_pos (n * 8 + 2)
    simp only [encField, List.length_append]; omega

theorem encMsg_length (m : Msg) : m.length ≤ (encMsg m).length := by
  induction m with
  | nil => simp
  | cons x m ih =>
    have := encField_pos x
    simp only [encMsg, List.flatMap_cons, List.length_append, List.length_cons] at ih ⊢
    omega

theorem dec_enc (m : Msg) (h : ∀ x ∈ m, FieldOk x) : ∀ fuel, m.length ≤ fuel → decMsg fuel (encMsg m) = some m := by
  induction m with
  | nil => intro fuel _; cases fuel <;> simp [encMsg, decMsg]
  | cons x m ih =>
    intro fuel hf
    cases fuel with
    | zero => simp at hf
    | succ fuel =>
      have ih := ih (fun y hy => h y (List.mem_cons_of_mem _ hy)) fuel (by simpa using hf)
      have hx := h x (by simp)
      obtain ⟨n, v | b⟩ := x
      · obtain ⟨h1, h2⟩ := hx
        have he : encMsg ((n, .num v) :: m) = uvarintBytes (n * 8) ++ (uvarintBytes v ++ encMsg m) := by
          simp [encMsg, encField]
        rw [he, decMsg]
        · rw [uv _ (by omega)]
          simp only
          rw [if_pos (by omega), uv _ h2]
          simp only [ih, Option.map_some, Option.some.injEq, List.cons.injEq, Prod.mk.injEq, and_true]
          omega
        · simp [uvarintBytes_ne_nil]
      · obtain ⟨h1, h2⟩ := hx
        have he : encMsg ((n, .bytes b) :: m) = uvarintBytes (n * 8 + 2) ++ (uvarintBytes b.length ++ (b ++ encMsg m)) := by
          simp [encMsg, encField]
        rw [he, decMsg]
        · rw [uv _ (by omega)]
          simp only
          rw [if_neg (by omega), if_pos (by omega), uv _ h2]
          simp only
          rw [if_neg (by simp)]
          simp only [List.drop_left, List.take_left, ih, Option.map_some, Option.some.injEq, List.cons.injEq, Prod.mk.injEq, and_true]
          omega
        · simp [uvarintBytes_ne_nil]

theorem encPacked_length (l : List Nat) : l.length ≤ (encPacked l).length := by
  induction l with
  | nil => simp
  | cons x m ih =>
    have := uvarintBytes_length_pos x
    simp only [encPacked, List.flatMap_cons, List.length_append, List.length_cons] at ih ⊢
    omega

theorem dec_packed (l : List Nat) (h : ∀ x ∈ l, x < 2 ^ 64) : ∀ fuel, l.length ≤ fuel → decPacked fuel (encPacked l) = some l := by
  induction l with
  | nil => intro fuel _; cases fuel <;> simp [encPacked, decPacked]
  | cons x l ih =>
    intro fuel hf
    cases fuel with
    | zero => simp at hf
    | succ fuel =>
      have ih := ih (fun y hy => h y (List.mem_cons_of_mem _ hy)) fuel (by simpa using hf)
      have he : encPacked (x :: l) = uvarintBytes x ++ encPacked l := by simp [encPacked]
      rw [he, decPacked]
      · rw [uv _ (h x (by simp))]
        simp [ih]
      · simp [uvarintBytes_ne_nil]

/-! ### Fields -/

def numF (n : Nat) (a : Nat) (f : Nat × Val) : Nat := if f.1 = n then (match f.2 with | .num v => v | .bytes _ => a) else a
def getF (n : Nat) (a : Option Bytes) (f : Nat × Val) : Option Bytes := if f.1 = n then (match f.2 with | .num _ => a | .bytes b => some b) else a

theorem num_eq (m : Msg) (n : Nat) : num m n = m.foldl (numF n) 0 := rfl
theorem get_eq (m : Msg) (n : Nat) : get m n = m.foldl (getF n) none := rfl

theorem num_opt (n k v a : Nat) : (opt k v).foldl (numF n) a = if k = n ∧ v ≠ 0 then v else a := by
  unfold opt
  split
  · rename_i h; simp [h]
  · rename_i h
    simp only [List.foldl_cons, List.foldl_nil, numF]
    by_cases hk : k = n
    · rw [if_pos hk, if_pos ⟨hk, h⟩]
    · rw [if_neg hk, if_neg (fun h => hk h.1)]

theorem num_sub (n k a : Nat) (b : Option Bytes) : (sub k b).foldl (numF n) a = a := by
  cases b with
  | none => rfl
  | some b => simp only [sub, List.foldl_cons, List.foldl_nil, numF]; split <;> rfl

theorem get_opt (n k v : Nat) (a : Option Bytes) : (opt k v).foldl (getF n) a = a := by
  unfold opt
  split
  · rfl
  · simp only [List.foldl_cons, List.foldl_nil, getF]; split <;> rfl

theorem get_sub (n k : Nat) (a b : Option Bytes) : (sub k b).foldl (getF n) a = if k = n ∧ b.isSome then b else a := by
  cases b with
  | none => simp [sub]
  | some b =>
    simp only [sub, List.foldl_cons, List.foldl_nil, getF]
    by_cases hk : k = n
    · rw [if_pos hk, if_pos ⟨hk, rfl⟩]
    · rw [if_neg hk, if_neg (fun h => hk h.1)]

theorem ite_ne_zero (v : Nat) : (if v ≠ 0 then v else 0) = v := by split <;> omega

theorem signExtend_lt (v : Nat) (h : v < 2 ^ 32) : signExtend v < 2 ^ 64 := by
  unfold signExtend; split <;> omega

theorem signExtend_mod (v : Nat) (h : v < 2 ^ 32) : signExtend v % two32 = v := by
  unfold signExtend two32; split <;> omega

theorem opt_ok (n v : Nat) (hn : n < 1000) (h : v < 2 ^ 64) : ∀ x ∈ opt n v, FieldOk x := by
  unfold opt; split
  · simp
  · intro x hx; simp only [List.mem_singleton] at hx; subst hx; exact ⟨hn, h⟩

theorem sub_ok (n : Nat) (b : Option Bytes) (hn : n < 1000) (h : ∀ x, b = some x → x.length < 2 ^ 64) : ∀ x ∈ sub n b, FieldOk x := by
  cases b with
  | none => simp [sub]
  | some b => intro x hx; simp only [sub, List.mem_singleton] at hx; subst hx; exact ⟨hn, h b rfl⟩

theorem append_ok (a b : Msg) (ha : ∀ x ∈ a, FieldOk x) (hb : ∀ x ∈ b, FieldOk x) : ∀ x ∈ a ++ b, FieldOk x := by
  intro x hx
  rcases List.mem_append.mp hx with h | h
  · exact ha x h
  · exact hb x h

/-! ### Sizes -/

theorem uv_len10 (v : Nat) (h : v < 2 ^ 64) : (uvarintBytes v).length ≤ 10 := uvarintBytes_length_le 9 v (by omega)
theorem uv_len5 (v : Nat) (h : v < 2 ^ 32) : (uvarintBytes v).length ≤ 5 := uvarintBytes_length_le 4 v (by omega)
theorem uv_len1 (v : Nat) (h : v < 128) : (uvarintBytes v).length ≤ 1 := uvarintBytes_length_le 0 v (by omega)
theorem uv_len2 (v : Nat) (h : v < 16384) : (uvarintBytes v).length ≤ 2 := uvarintBytes_length_le 1 v (by omega)

theorem encMsg_append (a b : Msg) : encMsg (a ++ b) = encMsg a ++ encMsg b := by simp [encMsg]

theorem opt_len (n v : Nat) (hn : n < 16) (h : v < 2 ^ 64) : (encMsg (opt n v)).length ≤ 11 := by
  unfold opt; split
  · simp [encMsg]
  · have := uv_len1 (n * 8) (by omega)
    have := uv_len10 v h
    simp only [encMsg, List.flatMap_cons, List.flatMap_nil, encField, List.length_append, List.length_nil]; omega

theorem sub_len (n : Nat) (b : Option Bytes) (k : Nat) (hn : n < 15) (hb : ∀ x, b = some x → x.length ≤ k) (hk : k < 16384) : (encMsg (sub n b)).length ≤ 3 + k := by
  cases b with
  | none => simp [sub, encMsg]
  | some b =>
    have h1 := uv_len1 (n * 8 + 2) (by omega)
    have h2 := hb b rfl
    have h3 := uv_len2 b.length (by omega)
    simp only [sub, encMsg, List.flatMap_cons, List.flatMap_nil, encField, List.length_append, List.length_nil]; omega

theorem packed_len (l : List Nat) (h : ∀ x ∈ l, x < 2 ^ 64) : (encPacked l).length ≤ 10 * l.length := by
  induction l with
  | nil => simp [encPacked]
  | cons x l ih =>
    have := ih (fun y hy => h y (List.mem_cons_of_mem _ hy))
    have := uv_len10 x (h x (by simp))
    simp only [encPacked, List.flatMap_cons, List.length_append, List.length_cons] at *
    omega

theorem fn_len (f : Fn) (h : Fn.InRange f) : (encMsg (fnMsg f)).length ≤ 22 := by
  have := opt_len 1 f.index (by omega) (by have := h.index; omega)
  have := opt_len 2 f.addr (by omega) (by have := h.addr; omega)
  simp only [fnMsg, encMsg_append, List.length_append]; omega

theorem snap_len (s : Snap) (h : Snap.InRange s) (hb : s.breakpoints.length ≤ 100) : (encMsg (snapMsg s)).length ≤ 1047 := by
  have h1 := opt_len 1 s.flags (by omega) h.flags
  have h2 := opt_len 2 (signExtend s.trap) (by omega) (signExtend_lt _ h.trap)
  have h3 := opt_len 3 (signExtend s.result) (by omega) (signExtend_lt _ h.result)
  have h4 := opt_len 4 s.time (by omega) h.time
  have h5 := sub_len 5 (if s.breakpoints = [] then none else some (encPacked s.breakpoints)) 1000 (by omega)
    (by intro x hx; split at hx
        · cases hx
        · cases hx; have := packed_len s.breakpoints h.breakpoints; omega) (by omega)
  simp only [snapMsg, encMsg_append, List.length_append]; omega

/-- The manifest of an instance with at most 100 breakpoints (manifest.MaxBreakpoints) fits in the file. -/
theorem instance_manifest_fits (m : InstMan) (h : InRange m) (hb : ∀ s, m.snap = some s → s.breakpoints.length ≤ 100) : (encInst m).length ≤ 1166 := by
  have h1 := opt_len 1 m.textAddr (by omega) h.textAddr
  have h2 := opt_len 2 m.stackSize (by omega) (by have := h.stackSize; omega)
  have h3 := opt_len 3 m.stackUsage (by omega) (by have := h.stackUsage; omega)
  have h4 := opt_len 4 m.globalsSize (by omega) (by have := h.globalsSize; omega)
  have h5 := opt_len 5 m.memorySize (by omega) (by have := h.memorySize; omega)
  have h6 := opt_len 6 m.maxMemorySize (by omega) (by have := h.maxMemorySize; omega)
  have h8 := sub_len 8 (m.start.map (encMsg ∘ fnMsg)) 22 (by omega)
    (by intro x hx; cases hf : m.start with
        | none => rw [hf] at hx; cases hx
        | some f => rw [hf] at hx; cases hx; exact fn_len f (h.start f hf)) (by omega)
  have h9 := sub_len 9 (m.entry.map (encMsg ∘ fnMsg)) 22 (by omega)
    (by intro x hx; cases hf : m.entry with
        | none => rw [hf] at hx; cases hx
        | some f => rw [hf] at hx; cases hx; exact fn_len f (h.entry f hf)) (by omega)
  have h10 := sub_len 10 (m.snap.map (encMsg ∘ snapMsg)) 1047 (by omega)
    (by intro x hx; cases hf : m.snap with
        | none => rw [hf] at hx; cases hx
        | some s => rw [hf] at hx; cases hx; exact snap_len s (h.snap s hf) (hb s hf)) (by omega)
  simp only [encInst, instMsg, encMsg_append, List.length_append]; omega

/-! ### Round trip -/

theorem fn_round_trip (f : Fn) (h : Fn.InRange f) : decFn (encMsg (fnMsg f)) = some f := by
  have h1 := h.index
  have h2 := h.addr
  unfold decFn
  rw [dec_enc (fnMsg f) (append_ok _ _ (opt_ok 1 _ (by omega) (by omega)) (opt_ok 2 _ (by omega) (by omega))) _ (encMsg_length _)]
  simp only [Option.map_some, num_eq, fnMsg, List.foldl_append, num_opt, Option.some.injEq]
  obtain ⟨i, a⟩ := f
  simp only [Fn.mk.injEq, two32] at *
  simp only [show ¬ (2 : Nat) = 1 by omega, show ¬ (1 : Nat) = 2 by omega, false_and, if_false, true_and, ite_ne_zero]
  omega

theorem snap_fields_ok (s : Snap) (h : Snap.InRange s) (hb : s.breakpoints.length ≤ 2 ^ 32) : ∀ x ∈ snapMsg s, FieldOk x := by
  refine append_ok _ _ (opt_ok 1 _ (by omega) h.flags) (append_ok _ _ (opt_ok 2 _ (by omega) (signExtend_lt _ h.trap))
    (append_ok _ _ (opt_ok 3 _ (by omega) (signExtend_lt _ h.result)) (append_ok _ _ (opt_ok 4 _ (by omega) h.time)
    (sub_ok 5 _ (by omega) ?_))))
  intro x hx
  split at hx
  · cases hx
  · cases hx; have := packed_len s.breakpoints h.breakpoints; omega

theorem snap_round_trip (s : Snap) (h : Snap.InRange s) (hb : s.breakpoints.length ≤ 2 ^ 32) : decSnap (encMsg (snapMsg s)) = some s := by
  unfold decSnap
  rw [dec_enc _ (snap_fields_ok s h hb) _ (encMsg_length _)]
  have hg : get (snapMsg s) 5 = if s.breakpoints = [] then none else some (encPacked s.breakpoints) := by
    simp only [get_eq, snapMsg, List.foldl_append, get_opt, get_sub]
    split <;> simp
  have n1 : num (snapMsg s) 1 = s.flags := by
    simp only [num_eq, snapMsg, List.foldl_append, num_opt, num_sub]; simp
    intro h; exact h.symm
  have n2 : num (snapMsg s) 2 % two32 = s.trap := by
    rw [← signExtend_mod s.trap h.trap]
    congr 1
    simp only [num_eq, snapMsg, List.foldl_append, num_opt, num_sub]; simp
    intro h; exact h.symm
  have n3 : num (snapMsg s) 3 % two32 = s.result := by
    rw [← signExtend_mod s.result h.result]
    congr 1
    simp only [num_eq, snapMsg, List.foldl_append, num_opt, num_sub]; simp
    intro h; exact h.symm
  have n4 : num (snapMsg s) 4 = s.time := by
    simp only [num_eq, snapMsg, List.foldl_append, num_opt, num_sub]; simp
    intro h; exact h.symm
  simp only [hg, n1, n2, n3, n4]
  by_cases he : s.breakpoints = []
  · rw [if_pos he]; simp only; rw [← he]
  · rw [if_neg he]
    simp only
    rw [dec_packed _ h.breakpoints _ (encPacked_length _)]
    rfl

/-- Unmarshaling the marshaled manifest of an instance gives the manifest. -/
theorem instance_proto_round_trip (m : InstMan) (h : InRange m) (hb : ∀ s, m.snap = some s → s.breakpoints.length ≤ 100) : decInst (encInst m) = some m := by
  have h1 := h.stackSize
  have h2 := h.stackUsage
  have h3 := h.globalsSize
  have h4 := h.memorySize
  have h5 := h.maxMemorySize
  unfold decInst encInst
  have hok : ∀ x ∈ instMsg m, FieldOk x := by
    refine append_ok _ _ (opt_ok 1 _ (by omega) h.textAddr) (append_ok _ _ (opt_ok 2 _ (by omega) (by omega))
      (append_ok _ _ (opt_ok 3 _ (by omega) (by omega)) (append_ok _ _ (opt_ok 4 _ (by omega) (by omega))
      (append_ok _ _ (opt_ok 5 _ (by omega) (by omega)) (append_ok _ _ (opt_ok 6 _ (by omega) (by omega))
      (append_ok _ _ (sub_ok 8 _ (by omega) ?_) (append_ok _ _ (sub_ok 9 _ (by omega) ?_) (sub_ok 10 _ (by omega) ?_))))))))
    · intro x hx
      cases hf : m.start with
      | none => rw [hf] at hx; cases hx
      | some f => rw [hf] at hx; cases hx; have := fn_len f (h.start f hf); simp only [Function.comp]; omega
    · intro x hx
      cases hf : m.entry with
      | none => rw [hf] at hx; cases hx
      | some f => rw [hf] at hx; cases hx; have := fn_len f (h.entry f hf); simp only [Function.comp]; omega
    · intro x hx
      cases hf : m.snap with
      | none => rw [hf] at hx; cases hx
      | some s => rw [hf] at hx; cases hx; have := snap_len s (h.snap s hf) (hb s hf); simp only [Function.comp]; omega
  rw [dec_enc _ hok _ (encMsg_length _)]
  have g8 : decSub decFn (get (instMsg m) 8) = some m.start := by
    have : get (instMsg m) 8 = m.start.map (encMsg ∘ fnMsg) := by
      simp only [get_eq, instMsg, List.foldl_append, get_opt, get_sub]
      cases m.start <;> simp
    rw [this]
    cases hf : m.start with
    | none => rfl
    | some f => simp only [Option.map_some, Function.comp, decSub, fn_round_trip f (h.start f hf)]
  have g9 : decSub decFn (get (instMsg m) 9) = some m.entry := by
    have : get (instMsg m) 9 = m.entry.map (encMsg ∘ fnMsg) := by
      simp only [get_eq, instMsg, List.foldl_append, get_opt, get_sub]
      cases m.entry <;> simp
    rw [this]
    cases hf : m.entry with
    | none => rfl
    | some f => simp only [Option.map_some, Function.comp, decSub, fn_round_trip f (h.entry f hf)]
  have g10 : decSub decSnap (get (instMsg m) 10) = some m.snap := by
    have : get (instMsg m) 10 = m.snap.map (encMsg ∘ snapMsg) := by
      simp only [get_eq, instMsg, List.foldl_append, get_opt, get_sub]
      cases m.snap <;> simp
    rw [this]
    cases hf : m.snap with
    | none => rfl
    | some s => simp only [Option.map_some, Function.comp, decSub, snap_round_trip s (h.snap s hf) (by have := hb s hf; omega)]
  have n1 : num (instMsg m) 1 = m.textAddr := by
    simp only [num_eq, instMsg, List.foldl_append, num_opt, num_sub]; simp
    intro h; exact h.symm
  have n2 : num (instMsg m) 2 = m.stackSize := by
    simp only [num_eq, instMsg, List.foldl_append, num_opt, num_sub]; simp
    intro h; exact h.symm
  have n3 : num (instMsg m) 3 = m.stackUsage := by
    simp only [num_eq, instMsg, List.foldl_append, num_opt, num_sub]; simp
    intro h; exact h.symm
  have n4 : num (instMsg m) 4 = m.globalsSize := by
    simp only [num_eq, instMsg, List.foldl_append, num_opt, num_sub]; simp
    intro h; exact h.symm
  have n5 : num (instMsg m) 5 = m.memorySize := by
    simp only [num_eq, instMsg, List.foldl_append, num_opt, num_sub]; simp
    intro h; exact h.symm
  have n6 : num (instMsg m) 6 = m.maxMemorySize := by
    simp only [num_eq, instMsg, List.foldl_append, num_opt, num_sub]; simp
    intro h; exact h.symm
  simp only [g8, g9, g10, n1, n2, n3, n4, n5, n6, two32, Nat.mod_eq_of_lt h1, Nat.mod_eq_of_lt h2, Nat.mod_eq_of_lt h3, Nat.mod_eq_of_lt h4,
    Nat.mod_eq_of_lt h5]

/-- The manifest of every instance with at most 100 breakpoints is stored so that it can be loaded. -/
theorem instance_manifest_round_trip (f : File) (m : InstMan) (h : InRange m) (hb : ∀ s, m.snap = some s → s.breakpoints.length ≤ 100) :
    loadInst (storeInst f m) = .ok m := by
  unfold loadInst storeInst
  rw [header_round_trip _ _ _ _ (by simp only [instanceTag]; omega) (by have := instance_manifest_fits m h hb; omega)]
  simp only [instance_proto_round_trip m h hb]

/-- An instance which was suspended, with three breakpoints and a negative result. -/
def exampleMan : InstMan :=
  ⟨0x500000000, 65536, 48, 16, 65536, 131072, none, some ⟨3, 4096⟩, some ⟨2, 5, 4294967295, 123456789, [16, 300, 2 ^ 63]⟩⟩

theorem exampleMan_inRange : InRange exampleMan := by
  refine ⟨by decide, by decide, by decide, by decide, by decide, by decide, ?_, ?_, ?_⟩
  · intro f h; cases h
  · intro f h; cases h; exact ⟨by decide, by decide⟩
  · intro s h; cases h; exact ⟨by decide, by decide, by decide, by decide, by decide⟩

example : loadInst (storeInst blank exampleMan) = .ok exampleMan :=
  instance_manifest_round_trip blank exampleMan exampleMan_inRange (by intro s h; cases h; decide)

/-- The encoding of a small manifest, as protoc would have it. -/
example : encInst ⟨0, 300, 0, 0, 0, 0, none, some ⟨3, 0⟩, none⟩ = [16, 172, 2, 74, 2, 8, 3] := by decide +kernel

/-- A program manifest with 4089 bytes (for example because of many exported functions with long names) can be stored but not loaded. -/
example : unmarshalManifest (marshalManifest blank (List.replicate 4089 0) progManifestOffset programTag) progManifestOffset programTag =
    .err "manifest size out of bounds" :=
  oversize_unloadable _ _ _ _ (by decide) (by rw [List.length_replicate]; omega) (by rw [List.length_replicate]; omega)

end Gate.Manifest
