import Verif.Outcome
import Std.Data.String.ToInt

namespace Gate.Outcome

/-- The local command's exit status is 0 exactly for a suspended program, and one which has halted or terminated with result 0 (or a multiple of 256). -/
theorem local_zero (id : String) (a : Api) : (callLocal id a).code = 0 ↔ a.state = 2 ∨ ((a.state = 3 ∨ a.state = 4) ∧ a.result % 256 = 0) := by
  unfold callLocal finishLocal bus fatal
  dsimp only
  split
  · simp [*]
  split
  · rename_i h2 h3; simp [h3, exit]; omega
  split
  · rename_i h2 h3 h4; simp [h4, exit]; omega
  split <;> simp [*]

theorem repr_ne (n : Int) : n.repr ≠ "" := by
  cases n with
  | ofNat n => exact Nat.repr_ne_empty
  | negSucc n => intro h; have := congrArg String.toList h; simp [Int.repr] at this

theorem stateString_ne (n : Int) : stateString n ≠ "" := by
  unfold stateString
  cases h : stateName? n with
  | none => exact repr_ne n
  | some s => unfold stateName? at h; split at h <;> simp at h <;> subst h <;> decide

theorem causeString_ne (n : Int) : causeString n ≠ "" := by
  unfold causeString
  cases h : causeName? n with
  | none => exact repr_ne n
  | some s => unfold causeName? at h; split at h <;> simp at h <;> subst h <;> decide

/-- What's said of a status without details. -/
theorem statusString_eq (a : Api) (he : a.error = "") : statusString a =
    stateString a.state ++ (if a.cause ≠ 0 then " abnormally: " ++ causeString a.cause else if a.state = 3 ∨ a.state = 4 then " with result " ++ a.result.repr else "") := by
  have hn := stateString_ne a.state
  have hc := causeString_ne a.cause
  have hs : (stateString a.state = "HALTED" ∨ stateString a.state = "TERMINATED") ↔ (a.state = 3 ∨ a.state = 4) := by
    constructor
    · intro h
      unfold stateString at h
      cases hx : stateName? a.state with
      | none =>
        rw [hx] at h
        exfalso
        have key : ∀ c ∈ (a.state.repr).toList, c = '-' ∨ c.isDigit = true := by
          intro c hc
          cases hi : a.state with
          | ofNat n => rw [hi] at hc; right; simp only [Int.repr, Nat.toList_repr] at hc; exact Nat.isDigit_of_mem_toDigits (by decide) (by decide) hc
          | negSucc n =>
            rw [hi] at hc
            simp only [Int.repr, String.toList_append, List.mem_append] at hc
            rcases hc with hc | hc
            · left; simpa using hc
            · right; rw [Nat.toList_repr] at hc; exact Nat.isDigit_of_mem_toDigits (by decide) (by decide) hc
        rcases h with h | h <;> simp only [Option.getD_none] at h <;> rw [h] at key <;> revert key <;> decide
      | some s =>
        rw [hx] at h
        unfold stateName? at hx
        split at hx <;> simp at hx <;> subst hx <;> simp_all
    · rintro (h | h) <;> simp [h, stateString, stateName?]
  unfold statusString Web.text
  simp only [hn, he, if_false, ne_eq, not_true_eq_false, hs]
  by_cases h0 : a.cause = 0
  · simp only [h0, if_true, not_true_eq_false, if_false]
    split <;> simp [String.append_assoc]
  · simp [h0, hc, String.append_assoc]

theorem append_ne {s : String} (h : s ≠ "") (t : String) : s ++ t ≠ "" ∧ t ++ s ≠ "" := by
  constructor <;> intro e <;> have := congrArg String.toList e <;> simp at this <;> simp_all

/-- It says nothing exactly if the program has terminated: then the exit status is the program's result. -/
theorem local_silent (id : String) (a : Api) : (callLocal id a).says = "" ↔ a.state = 4 := by
  have hs : statusString (bus a) ≠ "" := by
    rw [statusString_eq _ rfl]; exact (append_ne (stateString_ne _) _).1
  have h1 := (append_ne hs id).2
  have h2 := (append_ne hs (id ++ " ")).2
  unfold callLocal finishLocal fatal
  split
  · rename_i h; have h : a.state = 2 := h; simp [h, h2]
  split
  · rename_i h; have h : a.state = 3 := h; simp [h, h2]
  split
  · rename_i h; have h : a.state = 4 := h; simp [h]
  split
  · rename_i h; have h : a.state = 5 := h; simp [h, hs]
  · rename_i h _; have h : ¬ a.state = 4 := h; simp [h, h1]

/-- What's said tells the state and the cause, and the result if the program has ended by itself: no two of them are said in the same way. -/
theorem text_tells (a b : Api) (ha : Known a) (hb : Known b) (ea : a.error = "") (eb : b.error = "") :
    statusString a = statusString b ↔ a.state = b.state ∧ a.cause = b.cause ∧ (a.cause = 0 → a.state = 3 ∨ a.state = 4 → a.result = b.result) := by
  rw [statusString_eq a ea, statusString_eq b eb]
  have rest : ∀ a : Api, ∃ l, (if a.cause ≠ 0 then " abnormally: " ++ causeString a.cause else if a.state = 3 ∨ a.state = 4 then " with result " ++ a.result.repr else "") = l := fun a => ⟨_, rfl⟩
  constructor
  · intro h
    have hstate : a.state = b.state := by
      obtain ⟨la, hla⟩ := rest a
      obtain ⟨lb, hlb⟩ := rest b
      rw [hla, hlb] at h
      have := congrArg (fun s => s.toList.head?) h
      have hs := ha.1; have hs' := hb.1
      simp only [List.mem_cons, List.not_mem_nil, or_false] at hs hs'
      rcases hs with hs | hs | hs | hs | hs | hs <;> rcases hs' with hs' | hs' | hs' | hs' | hs' | hs' <;>
        first | exact hs.trans hs'.symm | (exfalso; rw [hs, hs'] at this; simp [stateString, stateName?] at this)
    rw [hstate] at h
    have h := (String.append_right_inj _).1 h
    refine ⟨hstate, ?_⟩
    by_cases h0 : a.cause = 0 <;> by_cases h0' : b.cause = 0
    · simp only [h0, h0', ne_eq, not_true_eq_false, if_false] at h
      refine ⟨by rw [h0, h0'], fun _ hs => ?_⟩
      have hs' : b.state = 3 ∨ b.state = 4 := hstate ▸ hs
      simp only [hs', if_true] at h
      exact Int.repr_inj.1 ((String.append_right_inj _).1 h)
    · exfalso
      simp only [h0, h0', ne_eq, not_true_eq_false, if_false, not_false_eq_true, if_true] at h
      have := congrArg (fun s => s.toList.take 2) h
      split at this <;> simp at this
    · exfalso
      simp only [h0, h0', ne_eq, not_true_eq_false, if_false, not_false_eq_true, if_true] at h
      have := congrArg (fun s => s.toList.take 2) h
      split at this <;> simp at this
    · simp only [h0, h0', ne_eq, not_false_eq_true, if_true] at h
      have h := (String.append_right_inj _).1 h
      refine ⟨?_, fun h => absurd h h0⟩
      have hc := ha.2; have hc' := hb.2
      generalize a.cause = x at *
      generalize b.cause = y at *
      have : ∀ x ∈ ([0, 3, 4, 5, 6, 7, 8, 9, 10, 27, 28, 29] : List Int), ∀ y ∈ ([0, 3, 4, 5, 6, 7, 8, 9, 10, 27, 28, 29] : List Int), causeString x = causeString y → x = y := by decide +kernel
      exact this x hc y hc' h
  · rintro ⟨hs, hc, hr⟩
    rw [hs, hc]
    by_cases h0 : b.cause = 0
    · by_cases h3 : b.state = 3 ∨ b.state = 4
      · rw [hr (hc ▸ h0) (hs ▸ h3)]
      · simp [h3]
    · simp [h0]

/-- What the bus drops is never said: two statuses which differ in their details only. -/
theorem bus_details (a : Api) (e : String) (id : String) : callLocal id { a with error := e } = callLocal id a := rfl

/-- What the web client knows of a status. -/
theorem json_known (a : Api) (h : Known a) : json a = some { state := if a.state = 0 then "" else stateString a.state, cause := if a.cause = 0 then "" else causeString a.cause, result := a.result, error := a.error } := by
  obtain ⟨hs, hc⟩ := h
  have h1 : stateName? a.state = some (stateString a.state) := by
    simp only [List.mem_cons, List.not_mem_nil, or_false] at hs
    rcases hs with hs | hs | hs | hs | hs | hs <;> rw [hs] <;> rfl
  have h2 : causeName? a.cause = some (causeString a.cause) := by
    simp only [List.mem_cons, List.not_mem_nil, or_false] at hc
    rcases hc with hc | hc | hc | hc | hc | hc | hc | hc | hc | hc | hc | hc <;> rw [hc] <;> rfl
  simp only [json, h1, h2]

theorem json_text (a : Api) (h : Known a) (h0 : a.state ≠ 0) : (json a).map Web.text = some (statusString a) := by
  rw [json_known a h]
  simp [h0, statusString]

theorem terminated (a : Api) (h : Known a) : ((if a.state = 0 then "" else stateString a.state) = "TERMINATED") ↔ a.state = 4 := by
  have hs := h.1
  simp only [List.mem_cons, List.not_mem_nil, or_false] at hs
  rcases hs with hs | hs | hs | hs | hs | hs <;> rw [hs] <;> decide

theorem normal (a : Api) : ((if a.cause = 0 then "" else causeString a.cause) = "") ↔ a.cause = 0 := by
  by_cases h : a.cause = 0 <;> simp [h, causeString_ne]

/-- The web client's exit status when the program has ended. -/
theorem post_eq (a : Api) (h : Known a) (h0 : a.state ≠ 0) : callPost a =
    if a.state = 4 ∧ a.cause = 0 ∧ a.error = "" then ⟨exit a.result, ""⟩ else fatal (statusString a) := by
  have ht := json_text a h h0
  have h4 := terminated a h
  have hn := normal a
  have hj := json_known a h
  rw [hj] at ht
  simp only [Option.map_some, Option.some.injEq] at ht
  simp only [callPost, hj, finishRemote, ht, ne_eq, h4, hn]
  by_cases e1 : a.state = 4 <;> by_cases e2 : a.cause = 0 <;> by_cases e3 : a.error = "" <;> simp [e1, e2, e3]

/-- It's 0 exactly for a program which has terminated by itself with result 0 (or a multiple of 256). -/
theorem post_zero (a : Api) (h : Known a) (h0 : a.state ≠ 0) : (callPost a).code = 0 ↔ a.state = 4 ∧ a.cause = 0 ∧ a.error = "" ∧ a.result % 256 = 0 := by
  rw [post_eq a h h0]
  split
  · rename_i hx; simp [hx, exit]; omega
  · rename_i hx; simp [fatal]; intro a b c; exact absurd ⟨a, b, c⟩ hx

/-- The local and the web client agree on programs which have terminated by themselves or been killed. -/
theorem agree (id : String) (a : Api) (h : Known a) (he : a.error = "") (hs : (a.state = 4 ∧ a.cause = 0) ∨ a.state = 5) : callLocal id a = callPost a := by
  have hb : bus a = a := by cases a; simp_all [bus]
  rcases hs with ⟨hs, hc⟩ | hs
  · rw [post_eq a h (by omega), if_pos ⟨hs, hc, he⟩]
    simp [callLocal, hb, finishLocal, hs]
  · rw [post_eq a h (by omega), if_neg (by omega)]
    simp [callLocal, hb, finishLocal, hs]

example : Known { state := 4, result := 1 } ∧ callPost { state := 4, result := 1 } = ⟨1, ""⟩ ∧ callLocal "x" { state := 4, result := 1 } = ⟨1, ""⟩ := by decide
example : callPost { state := 5, cause := 8 } = ⟨1, "KILLED abnormally: INTEGER_DIVIDE_BY_ZERO"⟩ ∧ callLocal "x" { state := 3, result := 1 } = ⟨1, "x HALTED with result 1"⟩ := by decide

/-- "The local command's exit status is 0 only if the program has succeeded": no. A program which has been suspended, because it has run out of stack, hasn't. The web client's exit status is 1. -/
theorem local_zero_refuted : ∃ id a, Known a ∧ (callLocal id a).code = 0 ∧ ¬ Succeeded a ∧ (callPost a).code = 1 :=
  ⟨"x", { state := 2, cause := 4 }, by decide, by decide, by simp [Succeeded], by decide⟩

/-- "The web client's exit status is 0 if the program has succeeded": no, it isn't if it has halted. -/
theorem post_zero_refuted : ∃ a, Known a ∧ Succeeded a ∧ (callPost a).code = 1 := ⟨{ state := 3 }, by decide, by simp [Succeeded], by decide⟩

/-- The status with which a program that has failed and a program that has been killed end is the same: 1. Only what's said differs. -/
theorem one_ambiguous : (callPost { state := 4, result := 1 }).code = (callPost { state := 5 }).code := by decide

/-! ## The websocket client -/

theorem wsLoop_eq (a : Api) (l : List Ws.Msg) : l.foldl Ws.Talk.next .replied ≠ .bad → wsLoop a l =
    if .hint ∈ l then some (output (l.takeWhile (· ≠ .hint)), fatal "RUNNING")
    else if .status ∈ l then some (output l, final a) else none := by
  have hbad : ∀ l : List Ws.Msg, l.foldl Ws.Talk.next .bad = .bad := by
    intro l; induction l with
    | nil => rfl
    | cons m l ih => simpa [Ws.Talk.next] using ih
  induction l with
  | nil => intro _; simp [wsLoop]
  | cons m l ih =>
    intro h
    cases m with
    | reply => simp [Ws.Talk.next, hbad] at h
    | close => simp [Ws.Talk.next, hbad] at h
    | data b =>
      have ih := ih (by simpa [Ws.Talk.next] using h)
      simp only [wsLoop, ih]
      by_cases h1 : Ws.Msg.hint ∈ l <;> by_cases h2 : Ws.Msg.status ∈ l <;> simp [h1, h2, output]
    | hint =>
      have : final hint = fatal "RUNNING" := by decide
      simp [wsLoop, this, output]
    | status =>
      have h : l.foldl Ws.Talk.next .ended ≠ .bad := by simpa [Ws.Talk.next] using h
      have hl : l = [] ∨ l = [.close] := by
        match l, h with
        | [], _ => simp
        | [.close], _ => simp
        | .close :: m :: l, h => cases m <;> simp [Ws.Talk.next, hbad] at h
        | .reply :: l, h | .data _ :: l, h | .hint :: l, h | .status :: l, h => simp [Ws.Talk.next, hbad] at h
      rcases hl with rfl | rfl <;> simp [wsLoop, output]

/-- How a call through a websocket ends, if the server follows the protocol: the first input hint is taken for the status; what the program writes after it is lost. -/
theorem ws_eq (a : Api) (ms : List Ws.Msg) (h : Ws.talk ms ≠ .bad) : callWebsocket a ms =
    if .hint ∈ ms then some (output (ms.takeWhile (· ≠ .hint)), fatal "RUNNING")
    else if .status ∈ ms then some (output ms, final a) else none := by
  have hbad : ∀ l : List Ws.Msg, l.foldl Ws.Talk.next .bad = .bad := by
    intro l; induction l with
    | nil => rfl
    | cons m l ih => simpa [Ws.Talk.next] using ih
  cases ms with
  | nil => simp [callWebsocket]
  | cons m l =>
    cases m with
    | reply =>
      rw [callWebsocket, wsLoop_eq a l (by simpa [Ws.talk, Ws.Talk.next] using h)]
      by_cases h1 : Ws.Msg.hint ∈ l <;> by_cases h2 : Ws.Msg.status ∈ l <;> simp [h1, h2, output]
    | _ => simp [Ws.talk, Ws.Talk.next, hbad] at h

/-- A program whose input has never been asked for: the whole output is written, and the status is the program's. -/
theorem ws_without_input (a : Api) {s : Ws.St} (hr : Ws.Reach s) (hn : .hint ∉ Ws.begun s.log) (hst : .status ∈ Ws.begun s.log) :
    ∃ f, callWebsocket a (Ws.begun s.log) = some (output (Ws.begun s.log), f) ∧ (Known a → a.state ≠ 0 → a.error = "" → f = callPost a) := by
  refine ⟨_, by rw [ws_eq a _ (Ws.protocol hr), if_neg hn, if_pos hst], fun hk _ he => ?_⟩
  simp [final, callPost, json_known a hk, he]

/-- If the server has awaited input, the call fails as "RUNNING", however the program ends. -/
theorem ws_input (a : Api) {s : Ws.St} (hr : Ws.Reach s) (hin : Ws.Ev.read ∈ s.log) (hf : Ws.failed s.log = false) :
    ∃ out, callWebsocket a (Ws.begun s.log) = some (out, fatal "RUNNING") := by
  obtain ⟨x, y, hxy⟩ := List.append_of_mem hin
  have hh : Ws.Msg.hint ∈ Ws.begun s.log := by
    rcases Ws.read_after_hint hr hxy with h | h
    · rw [hxy]; unfold Ws.begun at h ⊢; simp only [List.filterMap_append, List.mem_append]; exact .inl h
    · rw [hxy] at hf; unfold Ws.failed at h hf; simp only [List.any_append, Bool.or_eq_false_iff] at hf; simp [h] at hf
  exact ⟨_, by rw [ws_eq a _ (Ws.protocol hr), if_pos hh]⟩

/-- "The command's exit status is that of the program": no, when a module is uploaded for the call and the program can get input: the program succeeds, its output has been sent, and the command fails with the output's beginning. -/
theorem ws_refuted : ∃ a s, Succeeded a ∧ Ws.Reach s ∧ Ws.failed s.log = false ∧ Ws.talk (Ws.begun s.log) = .closed ∧ output (Ws.begun s.log) = [[1], [2]] ∧
    callPost a = ⟨0, ""⟩ ∧ callWebsocket a (Ws.begun s.log) = some ([[1]], fatal "RUNNING") := by
  obtain ⟨s, hr, hb, _, hf, _⟩ := Ws.uses_input
  refine ⟨{ state := 4 }, s, by simp [Succeeded], hr, hf, ?_, ?_, by decide, ?_⟩ <;> rw [hb] <;> decide

/-- Details make a difference for one of the two ways of calling: a status of a terminated program with an error text. -/
theorem details_differ : ∃ a, Known a ∧ (callPost a).code = 1 ∧ (final a).code = 0 := ⟨{ state := 4, error := "e" }, by decide, by decide, by decide⟩

/-- Without input. -/
example : callWebsocket { state := 4, result := 1 } [.reply, .data [1], .data [2], .status, .close] = some ([[1], [2]], ⟨1, ""⟩) := by decide

end Gate.Outcome
