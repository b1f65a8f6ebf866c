import Verif.Base

/-!
# Copying of debug output to the log

Model of runtime/debug.go:14-53 (`copyDebug`) over `bufio.Writer` with its default buffer of 4096
bytes.
-/

set_option linter.unusedSimpArgs false

namespace Gate.CopyDebug

/-- The default size of `bufio.NewWriter`'s buffer (debug.go:22). -/
abbrev bufSize : Nat := 4096

/-- A `bufio.Writer`: its buffer, the accepted bytes of every `Write` call made to the underlying
log, and the sticky error. -/
structure W where
  buf : Bytes := []
  out : List Bytes := []
  broken : Bool := false

/-- What the log does with its n-th `Write` call: `none` accepts everything, `some k` fails after
`k` bytes. -/
abbrev Log := Nat → Option Nat

/-- `bufio.Writer.Flush`; the result tells whether it succeeded. -/
def flush (log : Log) (w : W) : W × Bool :=
  if w.broken then (w, false)
  else if w.buf = [] then (w, true)
  else match log w.out.length with
    | none => ({ w with buf := [], out := w.out ++ [w.buf] }, true)
    | some k => ({ buf := w.buf.drop k, out := w.out ++ [w.buf.take k], broken := true }, false)

/-- `bufio.Writer.WriteByte`. -/
def writeByte (log : Log) (w : W) (c : UInt8) : W × Bool :=
  if w.broken then (w, false)
  else if bufSize ≤ w.buf.length then
    match flush log w with
    | (w', true) => ({ w' with buf := w'.buf ++ [c] }, true)
    | (w', false) => (w', false)
  else ({ w with buf := w.buf ++ [c] }, true)

/-- What is left at the end: the writer, how often `outputDone` has been closed, how often the
pipe has been closed, and how many bytes the program could write. -/
structure End where
  w : W
  doneClosed : Nat
  pipeClosed : Nat
  consumed : Nat

/-- debug.go:48-51 and the deferred function (15-20) after `break`: close, discard the rest. -/
def giveUp (w : W) (n : Nat) (rest : Bytes) : End :=
  { w, doneClosed := 1, pipeClosed := 1, consumed := n + rest.length }

/-- The loop of `copyDebug` (debug.go:26-46): `c` is the last byte, `n` the number of bytes read.
The input ends when all writers of the pipe have been closed (or reading it fails). -/
def loop (log : Log) (w : W) (c : UInt8) (n : Nat) : Bytes → End
  | [] =>
    -- debug.go:27-34; the deferred function closes both.
    if c ≠ 10 then
      match writeByte log w 10 with
      | (w', true) => { w := (flush log w').1, doneClosed := 1, pipeClosed := 1, consumed := n }
      | (w', false) => { w := w', doneClosed := 1, pipeClosed := 1, consumed := n }
    else { w, doneClosed := 1, pipeClosed := 1, consumed := n }
  | b :: rest =>
    match writeByte log w b with
    | (w', false) => giveUp w' (n + 1) rest
    | (w', true) =>
      if b = 10 then
        match flush log w' with
        | (w'', true) => loop log w'' b (n + 1) rest
        | (w'', false) => giveUp w'' (n + 1) rest
      else loop log w' b (n + 1) rest

/-- `copyDebug` (debug.go:14-25) of a program's whole debug output. -/
def copyDebug (log : Log) (input : Bytes) : End := loop log {} 10 0 input

/-- The state of the writer after a part of the output, as long as the log has worked. -/
def after (w : W) : Bytes → W
  | [] => w
  | b :: rest =>
    let w' := (writeByte (fun _ => none) w b).1
    after (if b = 10 then (flush (fun _ => none) w').1 else w') rest

/-! ## Specification -/

/-- What the log should have: the output, with the last line ended. -/
def lines (input : Bytes) : Bytes :=
  match input.getLast? with
  | none => []
  | some c => if c = 10 then input else input ++ [10]

/-! ## C128 -/

/-- Everything given to the writer is in the log or in the buffer. -/
def content (w : W) : Bytes := w.out.flatten ++ w.buf

theorem flush_content (log : Log) (w : W) : content (flush log w).1 = content w := by
  rw [flush]
  split
  · rfl
  · split
    · rfl
    · split <;> simp [content]

theorem flush_true {log : Log} {w : W} (h : (flush log w).2 = true) :
    (flush log w).1.buf = [] ∧ (flush log w).1.broken = false := by
  rw [flush] at h ⊢
  split at h
  · simp at h
  · rename_i hb
    rw [if_neg hb]
    split at h
    · rename_i he
      rw [if_pos he]; exact ⟨he, by simpa using hb⟩
    · rename_i he
      rw [if_neg he]
      split at h
      · rename_i hl; simp [hl]; simpa using hb
      · simp at h

theorem flush_false {log : Log} {w : W} (h : (flush log w).2 = false) :
    (flush log w).1.broken = true := by
  rw [flush] at h ⊢
  split at h
  · rename_i hb; rw [if_pos hb]; exact hb
  · rename_i hb
    rw [if_neg hb]
    split at h
    · simp at h
    · rename_i he
      rw [if_neg he]
      split at h
      · simp at h
      · rename_i hl; simp [hl]

theorem writeByte_true {log : Log} {w : W} {c : UInt8} (h : (writeByte log w c).2 = true) :
    content (writeByte log w c).1 = content w ++ [c] ∧ (writeByte log w c).1.broken = false ∧
      (writeByte log w c).1.buf ≠ [] := by
  rw [writeByte] at h ⊢
  split at h
  · simp at h
  · rename_i hb
    rw [if_neg hb]
    split at h
    · rename_i hl
      rw [if_pos hl]
      split at h
      · rename_i w' hf
        have h1 := flush_content log w
        have h2 := flush_true (log := log) (w := w) (by rw [hf])
        rw [hf] at h1 h2
        simp only at h1 h2 ⊢
        exact ⟨by rw [← h1]; simp [content], h2.2, by simp⟩
      · simp at h
    · rename_i hl
      rw [if_neg hl]
      exact ⟨by simp [content], by simpa using hb, by simp⟩

theorem writeByte_false {log : Log} {w : W} {c : UInt8} (h : (writeByte log w c).2 = false) :
    content (writeByte log w c).1 = content w ∧ (writeByte log w c).1.broken = true := by
  rw [writeByte] at h ⊢
  split at h
  · rename_i hb; rw [if_pos hb]; exact ⟨rfl, hb⟩
  · rename_i hb
    rw [if_neg hb]
    split at h
    · rename_i hl
      rw [if_pos hl]
      split at h
      · simp at h
      · rename_i w' hf
        have h1 := flush_content log w
        have h2 := flush_false (log := log) (w := w) (by rw [hf])
        rw [hf] at h1 h2
        exact ⟨h1, h2⟩
    · simp at h

/-- What's in the log, or would be if the log accepted the buffer, is a part of the lines from
the beginning; all of it if the log didn't fail. -/
theorem loop_content (log : Log) (rest : Bytes) : ∀ (w : W) (c : UInt8) (n : Nat) (p : Bytes),
    content w = p → w.broken = false → (c = 10 → w.buf = []) →
    (c = p.getLast?.getD 10) →
    content (loop log w c n rest).w <+: lines (p ++ rest) ∧
    ((loop log w c n rest).w.broken = false →
      (loop log w c n rest).w.out.flatten = lines (p ++ rest)) ∧
    (loop log w c n rest).doneClosed = 1 ∧ (loop log w c n rest).pipeClosed = 1 ∧
    (loop log w c n rest).consumed = n + rest.length := by
  induction rest with
  | nil =>
    intro w c n p hp hb hc hl
    rw [loop, List.append_nil]
    have el : lines p = if c = 10 then p else p ++ [10] := by
      rw [lines]
      cases hg : p.getLast? with
      | none =>
        rw [hg] at hl
        simp only [Option.getD_none] at hl
        rw [if_pos hl]
        exact (List.getLast?_eq_none_iff.1 hg).symm
      | some x =>
        rw [hg] at hl
        simp only [Option.getD_some] at hl
        rw [hl]
    split
    · rename_i hn
      rw [if_neg hn] at el
      split
      · rename_i w' hw
        have h1 := writeByte_true (log := log) (w := w) (c := 10) (by rw [hw])
        rw [hw] at h1
        simp only at h1 ⊢
        refine ⟨?_, ?_, by simp⟩
        · rw [flush_content, h1.1, hp, el]; exact List.prefix_refl _
        · intro hbr
          cases hf : (flush log w').2 with
          | true =>
            have h2 := flush_true hf
            have h3 := flush_content log w'
            rw [content, h2.1, List.append_nil] at h3
            rw [h3, h1.1, hp, el]
          | false =>
            have h2 := flush_false hf
            rw [h2] at hbr; simp at hbr
      · rename_i w' hw
        have h1 := writeByte_false (log := log) (w := w) (c := 10) (by rw [hw])
        rw [hw] at h1
        simp only at h1 ⊢
        refine ⟨?_, ?_, by simp⟩
        · rw [h1.1, hp, el]; exact List.prefix_append _ _
        · intro hbr; rw [h1.2] at hbr; simp at hbr
    · rename_i hn
      have hn' : c = 10 := by simpa using hn
      rw [if_pos hn'] at el
      refine ⟨?_, ?_, by simp⟩
      · rw [hp, el]; exact List.prefix_refl _
      · intro _
        have := hp
        rw [content, hc hn', List.append_nil] at this
        rw [this, el]
  | cons b rest ih =>
    intro w c n p hp hb hc hl
    have pre : p <+: lines (p ++ b :: rest) := by
      have h1 : p ++ b :: rest <+: lines (p ++ b :: rest) := by
        rw [lines]
        split
        · rename_i he; rw [List.getLast?_eq_none_iff] at he; simp at he
        · split
          · exact List.prefix_refl _
          · exact List.prefix_append _ _
      exact List.IsPrefix.trans (List.prefix_append _ _) h1
    have pre1 : p ++ [b] <+: lines (p ++ b :: rest) := by
      have h1 : p ++ b :: rest <+: lines (p ++ b :: rest) := by
        rw [lines]
        split
        · rename_i he; rw [List.getLast?_eq_none_iff] at he; simp at he
        · split
          · exact List.prefix_refl _
          · exact List.prefix_append _ _
      refine List.IsPrefix.trans ?_ h1
      exact ⟨rest, by simp⟩
    have hl' : b = (p ++ [b]).getLast?.getD 10 := by simp
    have ea : p ++ b :: rest = p ++ [b] ++ rest := by simp
    rw [loop]
    split
    · rename_i w' hw
      have h1 := writeByte_false (log := log) (w := w) (c := b) (by rw [hw])
      rw [hw] at h1
      simp only at h1
      refine ⟨?_, ?_, rfl, rfl, ?_⟩
      · simp only [giveUp]; rw [h1.1, hp]; exact pre
      · simp only [giveUp]; intro hbr; rw [h1.2] at hbr; simp at hbr
      · simp only [giveUp, List.length_cons]; omega
    · rename_i w' hw
      have h1 := writeByte_true (log := log) (w := w) (c := b) (by rw [hw])
      rw [hw] at h1
      simp only at h1
      split
      · rename_i hb10
        split
        · rename_i w'' hf
          have h2 := flush_true (log := log) (w := w') (by rw [hf])
          have h3 := flush_content log w'
          rw [hf] at h2 h3
          simp only at h2 h3
          have := ih w'' b (n + 1) (p ++ [b]) (by rw [h3, h1.1, hp]) h2.2 (fun _ => h2.1) hl'
          rw [ea]
          refine ⟨this.1, this.2.1, this.2.2.1, this.2.2.2.1, ?_⟩
          rw [this.2.2.2.2, List.length_cons]; omega
        · rename_i w'' hf
          have h2 := flush_false (log := log) (w := w') (by rw [hf])
          have h3 := flush_content log w'
          rw [hf] at h2 h3
          simp only at h2 h3
          refine ⟨?_, ?_, rfl, rfl, ?_⟩
          · simp only [giveUp]; rw [h3, h1.1, hp]; exact pre1
          · simp only [giveUp]; intro hbr; rw [h2] at hbr; simp at hbr
          · simp only [giveUp, List.length_cons]; omega
      · rename_i hb10
        have := ih w' b (n + 1) (p ++ [b]) (by rw [h1.1, hp]) h1.2.1 (fun x => absurd x hb10) hl'
        rw [ea]
        refine ⟨this.1, this.2.1, this.2.2.1, this.2.2.2.1, ?_⟩
        rw [this.2.2.2.2, List.length_cons]; omega

/-- If the log accepts everything, it has the program's whole debug output, with the last line
ended, and nothing else. -/
theorem log_exact (input : Bytes) :
    (copyDebug (fun _ => none) input).w.out.flatten = lines input := by
  have h := loop_content (fun _ => none) input {} 10 0 [] rfl rfl (fun _ => rfl) rfl
  simp only [List.nil_append] at h
  apply h.2.1
  -- a log which never fails doesn't break the writer
  have fl : ∀ w : W, w.broken = false → (flush (fun _ => none) w).1.broken = false ∧
      (flush (fun _ => none) w).2 = true := by
    intro w hw
    rw [flush]
    simp only [hw, Bool.false_eq_true, if_false]
    split <;> simp [hw]
  have wb : ∀ (w : W) (c : UInt8), w.broken = false →
      (writeByte (fun _ => none) w c).1.broken = false ∧ (writeByte (fun _ => none) w c).2 = true := by
    intro w c hw
    rw [writeByte]
    simp only [hw, Bool.false_eq_true, if_false]
    split
    · have := fl w hw
      split
      · rename_i w' hf; rw [hf] at this; exact ⟨this.1, rfl⟩
      · rename_i w' hf; rw [hf] at this; simp at this
    · exact ⟨rfl, rfl⟩
  have lp : ∀ (input : Bytes) (w : W) (c : UInt8) (n : Nat), w.broken = false →
      (loop (fun _ => none) w c n input).w.broken = false := by
    intro input
    induction input with
    | nil =>
      intro w c n hw
      rw [loop]
      split
      · have := wb w 10 hw
        split
        · rename_i w' hf; rw [hf] at this; exact (fl w' this.1).1
        · rename_i w' hf; rw [hf] at this; simp at this
      · exact hw
    | cons b rest ih =>
      intro w c n hw
      rw [loop]
      have h1 := wb w b hw
      split
      · rename_i w' hf; rw [hf] at h1; simp at h1
      · rename_i w' hf
        rw [hf] at h1
        split
        · have h2 := fl w' h1.1
          split
          · rename_i w'' hg; rw [hg] at h2; exact ih _ _ _ h2.1
          · rename_i w'' hg; rw [hg] at h2; simp at h2
        · exact ih _ _ _ h1.1
  exact lp input {} 10 0 rfl

/-- Whatever the log does, it gets a prefix of the lines; the program is never blocked by it
(everything which it writes is consumed), and the waiting server is released exactly once. -/
theorem log_prefix (log : Log) (input : Bytes) :
    (copyDebug log input).w.out.flatten <+: lines input ∧
    (copyDebug log input).consumed = input.length ∧
    (copyDebug log input).doneClosed = 1 ∧ (copyDebug log input).pipeClosed = 1 := by
  have h := loop_content log input {} 10 0 [] rfl rfl (fun _ => rfl) rfl
  simp only [List.nil_append, Nat.zero_add] at h
  exact ⟨List.IsPrefix.trans (List.prefix_append _ _) h.1, h.2.2.2.2, h.2.2.1, h.2.2.2.1⟩

/-- A log which isn't broken at the end has everything. -/
theorem log_complete (log : Log) (input : Bytes) (h : (copyDebug log input).w.broken = false) :
    (copyDebug log input).w.out.flatten = lines input := by
  have h' := loop_content log input {} 10 0 [] rfl rfl (fun _ => rfl) rfl
  simp only [List.nil_append] at h'
  exact h'.2.1 h

theorem after_content (p : Bytes) : ∀ (w : W), w.broken = false →
    content (after w p) = content w ++ p ∧ (after w p).broken = false := by
  have wb : ∀ (w : W) (c : UInt8), w.broken = false →
      (writeByte (fun _ => none) w c).2 = true := by
    intro w c hw
    rw [writeByte]
    simp only [hw, Bool.false_eq_true, if_false]
    split
    · split
      · rfl
      · rename_i w' hf
        have : (flush (fun _ => none) w).2 = true := by
          rw [flush]; simp only [hw, Bool.false_eq_true, if_false]; split <;> rfl
        rw [hf] at this; simp at this
    · rfl
  induction p with
  | nil => intro w hw; simp [after, hw]
  | cons b rest ih =>
    intro w hw
    have h1 := writeByte_true (wb w b hw)
    rw [after]
    split
    · have hf : (flush (fun _ => none) (writeByte (fun _ => none) w b).1).2 = true := by
        rw [flush]; simp only [h1.2.1, Bool.false_eq_true, if_false]; split <;> rfl
      have h2 := ih (flush (fun _ => none) (writeByte (fun _ => none) w b).1).1 (flush_true hf).2
      refine ⟨?_, h2.2⟩
      rw [h2.1, flush_content, h1.1]; simp
    · have h2 := ih (writeByte (fun _ => none) w b).1 h1.2.1
      refine ⟨?_, h2.2⟩
      rw [h2.1, h1.1]; simp

/-- Lines are visible as soon as they're complete: when a line's end has been copied, everything
up to it is in the log. -/
theorem line_flushed (p : Bytes) : (after {} (p ++ [10])).out.flatten = p ++ [10] := by
  have key : ∀ (w : W), w.broken = false → (after w (p ++ [10])).buf = [] := by
    induction p with
    | nil =>
      intro w hw
      simp only [List.nil_append, after, if_true]
      have h1 : (writeByte (fun _ => none) w 10).1.broken = false := by
        have := (after_content [10] w hw).2
        rw [writeByte]
        simp only [hw, Bool.false_eq_true, if_false]
        split
        · split
          · rename_i w' hf
            have := flush_true (log := fun _ => none) (w := w) (by rw [hf])
            rw [hf] at this; exact this.2
          · rename_i w' hf
            have : (flush (fun _ => none) w).2 = true := by
              rw [flush]; simp only [hw, Bool.false_eq_true, if_false]; split <;> rfl
            rw [hf] at this; simp at this
        · rfl
      have hf : (flush (fun _ => none) (writeByte (fun _ => none) w 10).1).2 = true := by
        rw [flush]; simp only [h1, Bool.false_eq_true, if_false]; split <;> rfl
      exact (flush_true hf).1
    | cons b rest ih =>
      intro w hw
      have h1 : (after w [b]).broken = false := (after_content [b] w hw).2
      have e : after w (b :: rest ++ [10]) = after (after w [b]) (rest ++ [10]) := by
        simp [after]
      rw [e]
      exact ih _ h1
  have h := (after_content (p ++ [10]) {} rfl).1
  rw [content, key {} rfl, List.append_nil] at h
  simpa [content] using h

/-- Two lines, the second one unfinished, to a log which works and to one which fails at its second
write. -/
example : (copyDebug (fun _ => none) [104, 105, 10, 120]).w.out = [[104, 105, 10], [120, 10]] := by
  decide

example : (copyDebug (fun n => if n = 1 then some 1 else none) [104, 10, 120, 10, 121]).w.out
    = [[104, 10], [120]] ∧
    (copyDebug (fun n => if n = 1 then some 1 else none) [104, 10, 120, 10, 121]).consumed = 5 := by
  decide

end Gate.CopyDebug
