import Verif.PacketProps
/-
C165: the checks and the texts of packets: packet/packettest.go, packet/fmt.go, packet/packet.go:28-31, 119-135, 206-213, 245-252.
-/
namespace Gate.PacketCheck
open Gate Gate.Packet

/-! ### Model -/

/-- packettest.go:79-81; && is lazy. -/
def isValidHeader (b : Bytes) (n : Nat) (c : Int) (d : Nat) : Res Bool :=
  if n ≤ b.length then do
    let x ← code b
    if x = c then do
      let y ← domain b
      return y == d
    else return false
  else return false

/-- packettest.go:19-21. -/
def isValidCall (b : Bytes) (c : Int) : Res Bool := isValidHeader b headerSize c domainCall

/-- packettest.go:25-27. -/
def isValidInfo (b : Bytes) (c : Int) : Res Bool := isValidHeader b headerSize c domainInfo

/-- packettest.go:39-44: the entries from `i` on; `k` of them are left. -/
def checkFlows (b : Bytes) : Nat → Nat → Res Bool
  | 0, _ => return true
  | k + 1, i => do
    let (id, inc) ← flowGet b i
    if id < 0 ∨ inc < 0 then return false else checkFlows b k (i + 1)

/-- packettest.go:30-46; FlowHeaderSize is the header size. -/
def isValidFlow (b : Bytes) (c : Int) : Res Bool := do
  if !(← isValidHeader b headerSize c domainFlow) then return false
  else if b.length % 8 ≠ 0 then return false
  else checkFlows b (flowNum b) 0

/-- packettest.go:49-55. -/
def isValidData (b : Bytes) (c : Int) : Res Bool := do
  if !(← isValidHeader b dataHeaderSize c domainData) then return false
  else do
    let id ← dataID b
    return decide (id ≥ 0)

/-- packettest.go:58-66. -/
def importCall (b : Bytes) (c : Int) : Res Bytes := do
  if !(← isValidHeader b headerSize c domainCall) then .err "invalid call packet" else return b

/-- packettest.go:69-77. -/
def importData (b : Bytes) (c : Int) : Res Bytes := do
  if !(← isValidHeader b dataHeaderSize c domainData) then .err "invalid data packet"
  else do
    let id ← dataID b
    if id < 0 then .err "invalid data packet" else return b

/-- packet.go:119-135, 206-213, 245-252: MustBeCall, MustBeInfo, MustBeFlow and MustBeData. -/
def mustBe (b : Bytes) (n d : Nat) : Res Bytes :=
  if b.length < n then .panic
  else do
    let y ← domain b
    if y ≠ d then .panic else return b

/-- packet.go:28-31: the domain's second bit. -/
def isStream (d : Nat) : Bool := d / 2 % 2 == 1

/-- packet.go:33-50. -/
def domainString (d : Nat) : String :=
  if d = 0 then "call" else if d = 1 then "info" else if d = 2 then "flow" else if d = 3 then "data" else "<invalid domain>"

/-- fmt.go:15-26. -/
def codeString (c : Int) : String :=
  if c ≥ 0 then "service[" ++ toString c ++ "]" else if c = -1 then "services" else "<invalid code " ++ toString c ++ ">"

/-- fmt.go:61-67. -/
def flowText (b : Bytes) : Nat → Nat → Res String
  | 0, _ => return ""
  | k + 1, i => do
    let (id, inc) ← flowGet b i
    let r ← flowText b k (i + 1)
    return " stream[" ++ toString id ++ "]+=" ++ toString inc ++ r

/-- fmt.go:73-81. DataLen may be negative. -/
def dataText (b : Bytes) : Res String := do
  let id ← dataID b
  let note ← dataNote b
  return " id=" ++ toString id ++ (if b.length > 16 then " datalen=" ++ toString (b.length - 16) else "") ++
    (if note ≠ 0 then " note=" ++ toString note else "")

/-- fmt.go:34-45. -/
def headText (b : Bytes) : Res String := do
  let n ← getLE b 0 4
  let i ← index b
  let c ← code b
  let d ← domain b
  return "size=" ++ (if n = 0 ∨ n = b.length % 2 ^ 32 then toString b.length else toString n ++ "/" ++ toString b.length) ++
    " code=" ++ codeString c ++ " domain=" ++ domainString d ++ (if i ≠ 0 then " index=" ++ toString i else "")

/-- FlowBuf.string and DataBuf.string. -/
def tailText (d : Nat) (b : Bytes) : Res String :=
  if d = domainFlow then flowText b (flowNum b) 0 else if d = domainData then dataText b else return ""

/-- fmt.go:28-55 Buf.String. -/
def bufString (b : Bytes) : Res String := do
  let h ← headText b
  let d ← domain b
  let t ← tailText d b
  return h ++ t

/-- fmt.go:57-59, 69-71: FlowBuf.String (`d` is the flow domain) and DataBuf.String (`d` is the data domain). -/
def subString (d : Nat) (b : Bytes) : Res String := do
  let h ← bufString b
  let t ← tailText d b
  return h ++ t

/-! ### Specification -/

/-- The bytes at an offset as a little-endian number; `none` if there aren't that many. -/
def num (b : Bytes) (off k : Nat) : Option Nat := if off + k ≤ b.length then some (unle ((b.drop off).take k)) else none

/-- A signed number. -/
def int (b : Bytes) (off k : Nat) : Option Int := (num b off k).map (toSigned (8 * k))

/-- A header: code at offset 4; the domain is in the low half of the byte at 6. -/
structure Header (b : Bytes) (size : Nat) (c : Int) (d : Nat) : Prop where
  long : size ≤ b.length
  code : int b 4 2 = some c
  domain : (num b 6 1).map (· % 16) = some d

/-! ### Proofs -/

theorem getLE_num (b : Bytes) (off k : Nat) : getLE b off k = match num b off k with | some n => .ok n | none => .panic := by
  unfold getLE num slice
  split <;> rfl

theorem num_some (b : Bytes) (off k : Nat) (h : off + k ≤ b.length) : ∃ n, num b off k = some n := ⟨_, if_pos h⟩

theorem header_iff (b : Bytes) (n : Nat) (c : Int) (d : Nat) (hn : 8 ≤ n) :
    ∃ r, isValidHeader b n c d = .ok r ∧ (r = true ↔ Header b n c d) := by
  unfold isValidHeader
  by_cases h : n ≤ b.length
  · obtain ⟨x, hx⟩ := num_some b 4 2 (by omega)
    obtain ⟨y, hy⟩ := num_some b 6 1 (by omega)
    simp only [if_pos h, Packet.code, Packet.domain, getLE_num, hx, hy]
    by_cases hc : toSigned 16 x = c
    · refine ⟨y % 16 == d, by simp [Bind.bind, Res.bind, pure, hc], ?_⟩
      rw [beq_iff_eq]
      constructor
      · intro hd; exact ⟨h, by simp [int, hx, hc], by simp [hy, hd]⟩
      · rintro ⟨-, -, h3⟩; simpa [hy] using h3
    · refine ⟨false, by simp [Bind.bind, Res.bind, pure, hc], ?_⟩
      simp only [Bool.false_eq_true, false_iff]
      rintro ⟨-, h2, -⟩
      simp [int, hx] at h2
      exact hc h2
  · refine ⟨false, by simp [h, pure], ?_⟩
    simp only [Bool.false_eq_true, false_iff]
    rintro ⟨h1, -, -⟩
    exact h h1

/-- C165: a call or info packet is valid exactly if it's long enough and has the code and the domain; the check never panics. -/
theorem call_iff (b : Bytes) (c : Int) : ∃ r, isValidCall b c = .ok r ∧ (r = true ↔ Header b 8 c 0) := header_iff b 8 c 0 (by omega)

theorem info_iff (b : Bytes) (c : Int) : ∃ r, isValidInfo b c = .ok r ∧ (r = true ↔ Header b 8 c 1) := header_iff b 8 c 1 (by omega)

theorem flowGet_num (b : Bytes) (i : Nat) (h : i < flowNum b) :
    ∃ id inc, int b (8 + 8 * i) 4 = some id ∧ int b (12 + 8 * i) 4 = some inc ∧ flowGet b i = .ok (id, inc) := by
  have hl : 8 + 8 * i + 8 ≤ b.length := by
    unfold flowNum at h
    have e1 : headerSize = 8 := rfl
    have e2 : flowSize = 8 := rfl
    rw [e1, e2] at h
    omega
  obtain ⟨x, hx⟩ := num_some b (8 + 8 * i) 4 (by omega)
  obtain ⟨y, hy⟩ := num_some b (12 + 8 * i) 4 (by omega)
  refine ⟨toSigned 32 x, toSigned 32 y, by simp [int, hx], by simp [int, hy], ?_⟩
  unfold flowGet
  have e1 : headerSize + i * flowSize = 8 + 8 * i := by simp [headerSize, flowSize]; omega
  have e2 : 8 + 8 * i + 4 = 12 + 8 * i := by omega
  simp only [e1, e2, getLE_num, hx, hy]
  rfl

theorem checkFlows_iff (b : Bytes) (k i : Nat) (h : i + k ≤ flowNum b) :
    ∃ r, checkFlows b k i = .ok r ∧
      (r = true ↔ ∀ j, i ≤ j → j < i + k → ∀ id inc, int b (8 + 8 * j) 4 = some id → int b (12 + 8 * j) 4 = some inc → 0 ≤ id ∧ 0 ≤ inc) := by
  induction k generalizing i with
  | zero => exact ⟨true, rfl, by simp; intro j h1 h2; omega⟩
  | succ k ih =>
    obtain ⟨id, inc, h1, h2, h3⟩ := flowGet_num b i (by omega)
    simp only [checkFlows, h3, Res.bind_ok]
    by_cases hneg : id < 0 ∨ inc < 0
    · refine ⟨false, by rw [if_pos hneg]; rfl, ?_⟩
      simp only [Bool.false_eq_true, false_iff]
      intro hall
      have := hall i (by omega) (by omega) id inc h1 h2
      omega
    · obtain ⟨r, hr1, hr2⟩ := ih (i + 1) (by omega)
      refine ⟨r, by rw [if_neg hneg]; exact hr1, hr2.trans ?_⟩
      constructor
      · intro hall j hj1 hj2 id' inc' g1 g2
        by_cases hj : j = i
        · subst hj
          rw [h1] at g1; rw [h2] at g2
          cases g1; cases g2
          omega
        · exact hall j (by omega) (by omega) id' inc' g1 g2
      · intro hall j hj1 hj2
        exact hall j (by omega) (by omega)

/-- C165: a flow packet is valid exactly if it has a flow header, consists of whole entries, and no stream or increment is negative. -/
theorem flow_iff (b : Bytes) (c : Int) :
    ∃ r, isValidFlow b c = .ok r ∧
      (r = true ↔ Header b 8 c 2 ∧ b.length % 8 = 0 ∧
        ∀ j, 8 + 8 * j < b.length → ∀ id inc, int b (8 + 8 * j) 4 = some id → int b (12 + 8 * j) 4 = some inc → 0 ≤ id ∧ 0 ≤ inc) := by
  obtain ⟨r, h1, h2⟩ := header_iff b 8 c 2 (by omega)
  have h1' : isValidHeader b headerSize c domainFlow = .ok r := h1
  unfold isValidFlow
  simp only [h1', Res.bind_ok]
  cases r with
  | false => exact ⟨false, rfl, by simp [← h2]⟩
  | true =>
    have hh := h2.1 rfl
    simp only [Bool.not_true, Bool.false_eq_true, if_false]
    by_cases hm : b.length % 8 ≠ 0
    · exact ⟨false, by rw [if_pos hm]; rfl, by simp [hm]⟩
    · obtain ⟨r, a1, a2⟩ := checkFlows_iff b (flowNum b) 0 (by omega)
      refine ⟨r, by rw [if_neg hm]; exact a1, a2.trans ?_⟩
      have e : flowNum b = (b.length - 8) / 8 := rfl
      have hl := hh.long
      constructor
      · intro hall
        refine ⟨hh, by omega, fun j hj => hall j (by omega) (by omega)⟩
      · rintro ⟨-, -, hall⟩ j - hj
        exact hall j (by omega)

/-- C165: a data packet is valid exactly if it has a data header and the stream isn't negative. -/
theorem data_iff (b : Bytes) (c : Int) :
    ∃ r, isValidData b c = .ok r ∧ (r = true ↔ Header b 16 c 3 ∧ ∀ id, int b 8 4 = some id → 0 ≤ id) := by
  obtain ⟨r, h1, h2⟩ := header_iff b 16 c 3 (by omega)
  have h1' : isValidHeader b dataHeaderSize c domainData = .ok r := h1
  unfold isValidData
  simp only [h1', Res.bind_ok]
  cases r with
  | false => exact ⟨false, rfl, by simp [← h2]⟩
  | true =>
    have hh := h2.1 rfl
    obtain ⟨x, hx⟩ := num_some b 8 4 (by have := hh.long; omega)
    simp only [dataID, getLE_num, hx]
    refine ⟨decide (toSigned 32 x ≥ 0), rfl, ?_⟩
    simp [hh, int, hx]

/-- C165: importing gives the valid packet itself, or an error; never something else. -/
theorem importCall_iff (b : Bytes) (c : Int) :
    (Header b 8 c 0 → importCall b c = .ok b) ∧ (¬ Header b 8 c 0 → importCall b c = .err "invalid call packet") := by
  obtain ⟨r, h1, h2⟩ := header_iff b 8 c 0 (by omega)
  have h1' : isValidHeader b headerSize c domainCall = .ok r := h1
  unfold importCall
  simp only [h1', Res.bind_ok]
  cases r <;> simp [← h2]

theorem importData_iff (b : Bytes) (c : Int) :
    (isValidData b c = .ok true → importData b c = .ok b) ∧ (isValidData b c = .ok false → importData b c = .err "invalid data packet") := by
  obtain ⟨r, h1, h2⟩ := header_iff b 16 c 3 (by omega)
  have h1' : isValidHeader b dataHeaderSize c domainData = .ok r := h1
  unfold isValidData importData
  simp only [h1', Res.bind_ok]
  cases r with
  | false => exact ⟨fun h => by simp at h, fun _ => rfl⟩
  | true =>
    have hh := h2.1 rfl
    obtain ⟨x, hx⟩ := num_some b 8 4 (by have := hh.long; omega)
    simp only [dataID, getLE_num, hx, Bool.not_true, Bool.false_eq_true, if_false, Res.bind_ok, Res.pure_eq]
    refine ⟨fun h => ?_, fun h => ?_⟩
    · have : toSigned 32 x ≥ 0 := by simpa using h
      rw [if_neg (by omega)]
    · have : toSigned 32 x < 0 := by simpa using h
      rw [if_pos this]

/-- C165: the assertions pass a packet of the domain through, and panic otherwise. -/
theorem mustBe_iff (b : Bytes) (n d : Nat) (hn : 8 ≤ n) :
    (mustBe b n d = .ok b ↔ n ≤ b.length ∧ (num b 6 1).map (· % 16) = some d) ∧ (mustBe b n d = .ok b ∨ mustBe b n d = .panic) := by
  unfold mustBe
  by_cases h : b.length < n
  · rw [if_pos h]
    exact ⟨by simp; omega, .inr rfl⟩
  · obtain ⟨y, hy⟩ := num_some b 6 1 (by omega)
    simp only [if_neg h, Packet.domain, getLE_num, hy, Res.bind_ok, Res.pure_eq]
    by_cases hd : y % 16 = d
    · simp [hd]; omega
    · simp [hd]

/-- C165: the stream domains are flow and data, of the four which there are. -/
theorem isStream_iff (d : Nat) (h : d < 4) : isStream d = true ↔ d = 2 ∨ d = 3 := by
  unfold isStream
  rw [beq_iff_eq]
  omega

theorem num_getLE (b : Bytes) (off k n : Nat) (h : getLE b off k = .ok n) : num b off k = some n := by
  rw [getLE_num] at h
  cases hx : num b off k with
  | none => rw [hx] at h; cases h
  | some m => rw [hx] at h; cases h; rfl

/-- C165: packets which have been made are valid, of any domain. -/
theorem make_header (c : Int) (hc : -2 ^ 15 ≤ c ∧ c < 2 ^ 15) (d : Nat) (hd : d < 16) (n : Nat) (hn : 8 ≤ n) (b : Bytes) (h : make c d n = .ok b) :
    Header b n c d ∧ b.length = n := by
  have hz : (List.replicate n (0 : UInt8)).length = n := by simp
  obtain ⟨b1, h1⟩ : ∃ b1, setCode (List.replicate n 0) c = .ok b1 := ⟨_, putLE_ok (by omega)⟩
  have l1 := putLE_length h1
  simp only [make, h1, Res.bind_ok] at h
  have l2 := putLE_length h
  have e1 : getLE b 4 2 = .ok (toUnsigned 16 c) := by
    rw [getLE_disjoint h (by omega)]
    exact getLE_same h1 (toUnsigned_lt 16 c)
  have e2 : getLE b 6 1 = .ok d := getLE_same h (by omega)
  have hs : toSigned 16 (toUnsigned 16 c) = c := toSigned_toUnsigned (by omega) (by simpa using hc.1) (by simpa using hc.2)
  refine ⟨⟨by omega, ?_, ?_⟩, by omega⟩
  · simp [int, num_getLE _ _ _ _ e1, hs]
  · simp [num_getLE _ _ _ _ e2, Nat.mod_eq_of_lt hd]

/-! ### Texts -/

theorem headText_ok (b : Bytes) (h : 8 ≤ b.length) : ∃ s, headText b = .ok s := by
  obtain ⟨w, hw⟩ := num_some b 0 4 (by omega)
  obtain ⟨x, hx⟩ := num_some b 4 2 (by omega)
  obtain ⟨y, hy⟩ := num_some b 6 1 (by omega)
  obtain ⟨z, hz⟩ := num_some b 7 1 (by omega)
  simp only [headText, Packet.index, Packet.code, Packet.domain, getLE_num, hw, hx, hy, hz, Res.bind_ok, Res.pure_eq]
  exact ⟨_, rfl⟩

theorem headText_panic (b : Bytes) (h : b.length < 8) : headText b = .panic := by
  have hz : num b 7 1 = none := if_neg (by omega)
  simp only [headText, Packet.index, getLE_num, hz]
  cases num b 0 4 <;> rfl

theorem flowText_ok (b : Bytes) (k i : Nat) (h : i + k ≤ flowNum b) : ∃ s, flowText b k i = .ok s := by
  induction k generalizing i with
  | zero => exact ⟨_, rfl⟩
  | succ k ih =>
    obtain ⟨id, inc, -, -, h3⟩ := flowGet_num b i (by omega)
    obtain ⟨s, hs⟩ := ih (i + 1) (by omega)
    simp only [flowText, h3, hs, Res.bind_ok]
    exact ⟨_, rfl⟩

/-- C165: making a text panics exactly for packets which are shorter than the header of their domain. -/
theorem string_panic_iff (b : Bytes) :
    (bufString b = .panic ↔ b.length < 8 ∨ ((num b 6 1).map (· % 16) = some 3 ∧ b.length < 16)) ∧ ∀ e, bufString b ≠ .err e := by
  unfold bufString
  by_cases h : b.length < 8
  · simp [headText_panic b h, h]
  · obtain ⟨s, hs⟩ := headText_ok b (by omega)
    obtain ⟨y, hy⟩ := num_some b 6 1 (by omega)
    simp only [hs, Res.bind_ok, Packet.domain, getLE_num, hy, Res.pure_eq]
    by_cases h2 : y % 16 = 2
    · obtain ⟨t, ht⟩ := flowText_ok b (flowNum b) 0 (by omega)
      rw [h2, show tailText 2 b = flowText b (flowNum b) 0 from rfl, ht]
      simp [h]
      intro h3; omega
    · by_cases h3 : y % 16 = 3
      · rw [h3, show tailText 3 b = dataText b from rfl]
        by_cases h16 : b.length < 16
        · have hz : num b 12 4 = none := if_neg (by omega)
          simp only [dataText, dataID, dataNote, getLE_num, hz]
          cases num b 8 4 <;> simp [h3, h16]
        · obtain ⟨u, hu⟩ := num_some b 8 4 (by omega)
          obtain ⟨v, hv⟩ := num_some b 12 4 (by omega)
          simp only [dataText, dataID, dataNote, getLE_num, hu, hv, Res.bind_ok, Res.pure_eq]
          simp [h, h16]
      · rw [show tailText (y % 16) b = .ok "" from (if_neg (c := y % 16 = domainFlow) h2).trans (if_neg (c := y % 16 = domainData) h3)]
        simp [h3, h]

/-- C165 refuted: the text of a flow or data packet has its domain's part twice. -/
theorem twice_refuted (b : Bytes) (d : Nat) (hd : (num b 6 1).map (· % 16) = some d) (s : String) (h : bufString b = .ok s) :
    ∃ head part, headText b = .ok head ∧ tailText d b = .ok part ∧ s = head ++ part ∧ subString d b = .ok (head ++ part ++ part) := by
  have hs := h
  unfold bufString at hs
  cases hh : headText b with
  | err e => rw [hh] at hs; cases hs
  | panic => rw [hh] at hs; cases hs
  | ok head =>
    cases hy : num b 6 1 with
    | none => rw [hy] at hd; cases hd
    | some y =>
      rw [hy] at hd
      have hd' : y % 16 = d := by simpa using hd
      simp only [hh, Res.bind_ok, Packet.domain, getLE_num, hy, Res.pure_eq, hd'] at hs
      cases ht : tailText d b with
      | err e => rw [ht] at hs; cases hs
      | panic => rw [ht] at hs; cases hs
      | ok part =>
        rw [ht] at hs
        replace hs : head ++ part = s := Res.ok.inj hs
        refine ⟨head, part, rfl, rfl, hs.symm, ?_⟩
        simp only [subString, h, ht, Res.bind_ok, Res.pure_eq, hs]

/-! ### Examples -/

def flow2 : Bytes := [24, 0, 0, 0, 3, 0, 2, 0, 1, 0, 0, 0, 5, 0, 0, 0, 2, 0, 0, 0, 0, 1, 0, 0]

example : isValidFlow flow2 3 = .ok true := by decide +kernel
example : isValidFlow (flow2.set 11 255) 3 = .ok false := by decide +kernel
example : isValidFlow flow2 4 = .ok false := by decide +kernel
example : isValidFlow (flow2 ++ [0]) 3 = .ok false := by decide +kernel
example : bufString flow2 = .ok "size=24 code=service[3] domain=flow stream[1]+=5 stream[2]+=256" := by decide +kernel
example : subString 2 flow2 = .ok "size=24 code=service[3] domain=flow stream[1]+=5 stream[2]+=256 stream[1]+=5 stream[2]+=256" := by decide +kernel
/-- The upper half of the domain byte doesn't matter. -/
example : isValidCall [8, 0, 0, 0, 255, 255, 16, 7] (-1) = .ok true := by decide +kernel
example : bufString [0, 0, 0, 0, 254, 255, 3, 1, 9, 0, 0, 0, 1, 0, 0, 0, 7] = .ok "size=17 code=<invalid code -2> domain=data index=1 id=9 datalen=1 note=1" := by decide +kernel

end Gate.PacketCheck
