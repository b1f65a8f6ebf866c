import Verif.ImageFile
/-
Model of image/copyfilerange.go with its fallback (io.Copy from a section of a file, using File.ReadAt and File.WriteAt of internal/file/file.go), one system call at a time; and of the other
way in which NewInstance copies (image/instance.go:121-133).

C104: copying between files.
-/
namespace Gate.CopyRange
open Gate.ImageFile

/-- The kernel's answer to a system call. `count k`: it transfers k bytes, or what it's asked for, or what there is before the end of the file, if that is less. `again`: EAGAIN or EINTR. -/
inductive Resp where
  | count (k : Nat)
  | again
  | exdev
  | fail (errno : Nat)
deriving DecidableEq, Repr

inductive Err where
  | errno (r : Resp)
  | eof
deriving DecidableEq, Repr

/-- Where the copying is: in the loop with copy_file_range (length), in io.Copy at ReadAt (remaining section, bytes copied) or at WriteAt (rest of the buffer, remaining section, bytes copied),
or finished. -/
inductive Ph where
  | loop (length : Nat)
  | read (left n : Nat)
  | write (buf : Bytes) (left n : Nat)
  | fin (err : Option Err)
deriving DecidableEq, Repr

/-- The destination and the offsets (`*roff`, `*woff`). -/
structure St where
  dst : File
  roff : Nat
  woff : Nat
  ph : Ph

/-- The source file. -/
structure Src where
  data : File
  size : Nat

/-- io.Copy's buffer size (standard library). -/
abbrev bufSize : Nat := 32768

/-- What happens without a system call: copyfilerange.go:17-19; the end of the section and of the buffer (standard library), and copyfilerange.go:37-38. -/
def settle (s : St) : St :=
  match s.ph with
  | .loop 0 => { s with ph := .fin none }
  | .read 0 n => { s with roff := s.roff + n, ph := .fin none }
  | .write [] 0 n => { s with roff := s.roff + n, ph := .fin none }
  | .write [] left n => { s with ph := .read left n }
  | _ => s

/-- One system call: copyfilerange.go:23-32 (copy_file_range), file.go:72-94 (pread), file.go:97-120 (pwrite). -/
def call (src : Src) (s : St) (r : Resp) : St :=
  match s.ph with
  | .loop l =>
    match r with
    | .count k =>
      let m := min k (min l (src.size - s.roff))
      { dst := copyRange src.data s.roff s.dst s.woff m, roff := s.roff + m, woff := s.woff + m, ph := .loop (l - m) }
    | .exdev => { s with ph := .read l 0 }
    | r => { s with ph := .fin (some (.errno r)) }
  | .read left n =>
    match r with
    | .count k =>
      let m := min k (min bufSize (min left (src.size - (s.roff + n))))
      if m = 0 then { s with roff := s.roff + n, ph := .fin none }
      else { s with ph := .write (ImageFile.read src.data (s.roff + n) m) (left - m) n }
    | .again => s
    | r => { s with roff := s.roff + n, ph := .fin (some (.errno r)) }
  | .write buf left n =>
    match r with
    | .count k =>
      let m := min k buf.length
      if m = 0 then { s with roff := s.roff + n, ph := .fin (some .eof) }
      else { s with dst := ImageFile.write s.dst s.woff (buf.take m), woff := s.woff + m, ph := .write (buf.drop m) left (n + m) }
    | .again => s
    | r => { s with roff := s.roff + n, ph := .fin (some (.errno r)) }
  | .fin _ => s

/-- copyFileRange, copyfilerange.go:15-39, with the kernel's answers. -/
def copyFileRange (src : Src) (roff : Nat) (dst : File) (woff length : Nat) (rs : List Resp) : St :=
  rs.foldl (fun s r => settle (call src s r)) (settle ⟨dst, roff, woff, .loop length⟩)

/-- instance.go:121-133: the destination is mapped, and filled by a single successful pread (file.go:72-94) which isn't asked how much it read. -/
def mappedCopy (src : Src) (roff : Nat) (dst : File) (woff length : Nat) : List Resp → Option (Option Err × File)
  | [] => none
  | .count k :: _ =>
    let m := min k (min length (src.size - roff))
    if m = 0 then some (some .eof, dst) else some (none, copyRange src.data roff dst woff m)
  | .again :: rs => mappedCopy src roff dst woff length rs
  | r :: _ => some (some (.errno r), dst)

/-! ### Proofs -/

theorem copy_zero (src : File) (a : Nat) (dst : File) (b : Nat) : copyRange src a dst b 0 = dst := by
  funext i
  simp only [copyRange]
  rw [if_neg (by omega)]

/-- Copying goes on from where it was. -/
theorem copy_copy (src : File) (a : Nat) (dst : File) (b c m : Nat) : copyRange src (a + c) (copyRange src a dst b c) (b + c) m = copyRange src a dst b (c + m) := by
  funext i
  simp only [copyRange]
  by_cases h1 : b + c ≤ i ∧ i < b + c + m
  · rw [if_pos h1, if_pos (by omega)]
    refine congrArg src ?_
    omega
  · rw [if_neg h1]
    by_cases h2 : b ≤ i ∧ i < b + c
    · rw [if_pos h2, if_pos (by omega)]
    · rw [if_neg h2, if_neg (by omega)]

theorem read_length (f : File) (o n : Nat) : (ImageFile.read f o n).length = n := by simp [ImageFile.read]

theorem read_drop (f : File) (o n m : Nat) : (ImageFile.read f o n).drop m = ImageFile.read f (o + m) (n - m) := by
  apply List.ext_getElem
  · simp [ImageFile.read]
  · intro i h1 h2
    simp [ImageFile.read, Nat.add_assoc]

theorem read_take (f : File) (o n m : Nat) (h : m ≤ n) : (ImageFile.read f o n).take m = ImageFile.read f o m := by
  apply List.ext_getElem
  · simp [ImageFile.read, h]
  · intro i h1 h2
    simp [ImageFile.read]

theorem write_read (src : File) (a : Nat) (dst : File) (b m : Nat) : ImageFile.write dst b (ImageFile.read src a m) = copyRange src a dst b m := by
  funext i
  simp only [ImageFile.write, copyRange, read_length]
  by_cases h : b ≤ i ∧ i < b + m
  · rw [if_pos h, if_pos h]
    have : i - b < m := by omega
    simp [ImageFile.read, List.getD, this]
  · rw [if_neg h, if_neg h]

/-- What is so at any time: the first c bytes of the range have been copied. -/
structure Ok (src : Src) (r0 : Nat) (d0 : File) (w0 len : Nat) (exdev stop : Prop) (s : St) (c : Nat) : Prop where
  le : c ≤ len
  dst : s.dst = copyRange src.data r0 d0 w0 c
  woff : s.woff = w0 + c
  /-- `exdev`: the fallback was taken; `stop`: the kernel has answered zero. -/
  ph : match s.ph with
    | .loop l => s.roff = r0 + c ∧ l = len - c
    | .read left n => s.roff + n = r0 + c ∧ left = len - c ∧ exdev
    | .write buf left n => s.roff + n = r0 + c ∧ buf = ImageFile.read src.data (r0 + c) buf.length ∧ left = len - c - buf.length ∧ c + buf.length ≤ len ∧ exdev
    | .fin none => s.roff = r0 + c ∧ (c = len ∨ (exdev ∧ (src.size ≤ r0 + c ∨ stop)))
    | .fin (some _) => s.roff = r0 + c

theorem Ok.mono {src : Src} {r0 : Nat} {d0 : File} {w0 len : Nat} {e e' p p' : Prop} {s : St} {c : Nat} (h : Ok src r0 d0 w0 len e p s c) (he : e → e') (hp : p → p') :
    Ok src r0 d0 w0 len e' p' s c := by
  obtain ⟨h1, h2, h3, h4⟩ := h
  refine ⟨h1, h2, h3, ?_⟩
  obtain ⟨dst, roff, woff, ph⟩ := s
  cases ph with
  | loop l => exact h4
  | read left n => exact ⟨h4.1, h4.2.1, he h4.2.2⟩
  | write buf left n => exact ⟨h4.1, h4.2.1, h4.2.2.1, h4.2.2.2.1, he h4.2.2.2.2⟩
  | fin err =>
    cases err with
    | some _ => exact h4
    | none =>
      refine ⟨h4.1, h4.2.imp id fun h => ⟨he h.1, h.2.imp id hp⟩⟩

theorem settle_ok {src : Src} {r0 : Nat} {d0 : File} {w0 len : Nat} {e p : Prop} {s : St} {c : Nat} (h : Ok src r0 d0 w0 len e p s c) : Ok src r0 d0 w0 len e p (settle s) c := by
  obtain ⟨h1, h2, h3, h4⟩ := h
  obtain ⟨dst, roff, woff, ph⟩ := s
  simp only at h2 h3 h4
  cases ph with
  | loop l =>
    cases l with
    | zero => exact ⟨h1, h2, h3, h4.1, .inl (by have := h4.2; omega)⟩
    | succ l => exact ⟨h1, h2, h3, h4⟩
  | read left n =>
    cases left with
    | zero => exact ⟨h1, h2, h3, h4.1, .inl (by have := h4.2.1; omega)⟩
    | succ left => exact ⟨h1, h2, h3, h4⟩
  | write buf left n =>
    cases buf with
    | nil =>
      cases left with
      | zero =>
        refine ⟨h1, h2, h3, h4.1, .inl ?_⟩
        have := h4.2.2.1
        simp at this
        omega
      | succ left =>
        refine ⟨h1, h2, h3, h4.1, ?_, h4.2.2.2.2⟩
        have := h4.2.2.1
        simpa using this
    | cons b bs => exact ⟨h1, h2, h3, h4⟩
  | fin err => exact ⟨h1, h2, h3, h4⟩

theorem call_ok {src : Src} {r0 : Nat} {d0 : File} {w0 len : Nat} {e p : Prop} {s : St} {c : Nat} (h : Ok src r0 d0 w0 len e p s c) (r : Resp) :
    ∃ c', c ≤ c' ∧ Ok src r0 d0 w0 len (e ∨ r = .exdev) (p ∨ r = .count 0) (call src s r) c' := by
  have h' := h.mono (e' := e ∨ r = .exdev) (p' := p ∨ r = .count 0) .inl .inl
  obtain ⟨h1, h2, h3, h4⟩ := h
  obtain ⟨dst, roff, woff, ph⟩ := s
  simp only at h2 h3 h4
  cases ph with
  | loop l =>
    obtain ⟨g1, g2⟩ := h4
    cases r with
    | count k =>
      simp only [call]
      generalize hm : min k (min l (src.size - roff)) = m
      refine ⟨c + m, by omega, by omega, ?_, by simp only; omega, by simp only; omega⟩
      simp only
      rw [h2, h3, g1, copy_copy]
    | exdev => exact ⟨c, Nat.le_refl c, h1, h2, h3, g1, g2, .inr rfl⟩
    | again => exact ⟨c, Nat.le_refl c, h1, h2, h3, g1⟩
    | fail x => exact ⟨c, Nat.le_refl c, h1, h2, h3, g1⟩
  | read left n =>
    obtain ⟨g1, g2, g3⟩ := h4
    cases r with
    | count k =>
      simp only [call]
      by_cases hm : min k (min bufSize (min left (src.size - (roff + n)))) = 0
      · rw [if_pos hm]
        refine ⟨c, Nat.le_refl c, h1, h2, h3, by simp only; omega, ?_⟩
        simp only [bufSize] at hm
        by_cases hk : k = 0
        · exact .inr ⟨.inl g3, .inr (.inr (by rw [hk]))⟩
        · by_cases hl : left = 0
          · left; omega
          · exact .inr ⟨.inl g3, .inl (by omega)⟩
      · rw [if_neg hm]
        generalize hm' : min k (min bufSize (min left (src.size - (roff + n)))) = m at *
        refine ⟨c, Nat.le_refl c, h1, h2, h3, g1, ?_, ?_, ?_, .inl g3⟩
        · rw [read_length, g1]
        · rw [read_length]; omega
        · rw [read_length]; omega
    | again => exact ⟨c, Nat.le_refl c, h'⟩
    | exdev => exact ⟨c, Nat.le_refl c, h1, h2, h3, by simp only [call]; omega⟩
    | fail x => exact ⟨c, Nat.le_refl c, h1, h2, h3, by simp only [call]; omega⟩
  | write buf left n =>
    obtain ⟨g1, g2, g3, g4, g5⟩ := h4
    cases r with
    | count k =>
      simp only [call]
      by_cases hm : min k buf.length = 0
      · rw [if_pos hm]
        exact ⟨c, Nat.le_refl c, h1, h2, h3, by simp only; omega⟩
      · rw [if_neg hm]
        generalize hm' : min k buf.length = m at *
        have hmb : m ≤ buf.length := by omega
        refine ⟨c + m, by omega, by omega, ?_, by simp only; omega, by simp only; omega, ?_, ?_, ?_, .inl g5⟩
        · simp only
          rw [g2, read_take _ _ _ _ hmb, write_read, h2, h3, copy_copy]
        · rw [g2, read_drop, read_length]
          refine congrArg (ImageFile.read src.data · _) ?_
          omega
        · rw [List.length_drop]; omega
        · rw [List.length_drop]; omega
    | again => exact ⟨c, Nat.le_refl c, h'⟩
    | exdev => exact ⟨c, Nat.le_refl c, h1, h2, h3, by simp only [call]; omega⟩
    | fail x => exact ⟨c, Nat.le_refl c, h1, h2, h3, by simp only [call]; omega⟩
  | fin err => exact ⟨c, Nat.le_refl c, h'⟩

theorem run_ok {src : Src} {r0 : Nat} {d0 : File} {w0 len : Nat} (rs : List Resp) {e p : Prop} {s : St} {c : Nat} (h : Ok src r0 d0 w0 len e p s c) :
    ∃ c', Ok src r0 d0 w0 len (e ∨ .exdev ∈ rs) (p ∨ .count 0 ∈ rs) (rs.foldl (fun s r => settle (call src s r)) s) c' := by
  induction rs generalizing s c e p with
  | nil => exact ⟨c, h.mono .inl .inl⟩
  | cons r rs ih =>
    obtain ⟨c', _, h'⟩ := call_ok h r
    obtain ⟨c'', h''⟩ := ih (settle_ok h')
    refine ⟨c'', h''.mono ?_ ?_⟩
    · rintro ((h | rfl) | h)
      · exact .inl h
      · exact .inr (by simp)
      · exact .inr (by simp [h])
    · rintro ((h | rfl) | h)
      · exact .inl h
      · exact .inr (by simp)
      · exact .inr (by simp [h])

theorem start_ok (src : Src) (roff : Nat) (dst : File) (woff length : Nat) (rs : List Resp) :
    ∃ c, Ok src roff dst woff length (False ∨ .exdev ∈ rs) (False ∨ .count 0 ∈ rs) (copyFileRange src roff dst woff length rs) c :=
  run_ok rs (settle_ok ⟨Nat.zero_le _, (copy_zero _ _ _ _).symm, rfl, by simp⟩)

/-- C104: whatever the kernel's answers are, at any time the destination has been modified only by some prefix of the range having been copied to its place. -/
theorem copied_prefix (src : Src) (roff : Nat) (dst : File) (woff length : Nat) (rs : List Resp) :
    ∃ c, c ≤ length ∧ (copyFileRange src roff dst woff length rs).dst = copyRange src.data roff dst woff c ∧ (copyFileRange src roff dst woff length rs).woff = woff + c := by
  obtain ⟨c, h⟩ := start_ok src roff dst woff length rs
  exact ⟨c, h.le, h.dst, h.woff⟩

/-- C104: if it succeeds, and the source file has the range, and the kernel doesn't answer zero before the end of the source file, then the whole of the range has been copied, and offsets advanced
accordingly. -/
theorem copied_exactly (src : Src) (roff : Nat) (dst : File) (woff length : Nat) (rs : List Resp) (hsize : roff + length ≤ src.size) (hk : .count 0 ∉ rs)
    (hfin : (copyFileRange src roff dst woff length rs).ph = .fin none) :
    copyFileRange src roff dst woff length rs = ⟨copyRange src.data roff dst woff length, roff + length, woff + length, .fin none⟩ := by
  obtain ⟨c, h⟩ := start_ok src roff dst woff length rs
  obtain ⟨h1, h2, h3, h4⟩ := h
  generalize copyFileRange src roff dst woff length rs = s at *
  obtain ⟨d, ro, wo, ph⟩ := s
  simp only at hfin h2 h3 h4
  subst hfin
  simp only at h4
  have hc : c = length := by
    rcases h4.2 with h | ⟨_, h | h | h⟩
    · exact h
    · omega
    · exact h.elim
    · exact absurd h hk
  subst hc
  rw [h2, h3, h4.1]

/-- The same without the fallback needs no assumption: success means that everything has been copied. -/
theorem copied_exactly_kernel (src : Src) (roff : Nat) (dst : File) (woff length : Nat) (rs : List Resp) (hx : .exdev ∉ rs)
    (hfin : (copyFileRange src roff dst woff length rs).ph = .fin none) :
    copyFileRange src roff dst woff length rs = ⟨copyRange src.data roff dst woff length, roff + length, woff + length, .fin none⟩ := by
  obtain ⟨c, h⟩ := start_ok src roff dst woff length rs
  obtain ⟨h1, h2, h3, h4⟩ := h
  generalize copyFileRange src roff dst woff length rs = s at *
  obtain ⟨d, ro, wo, ph⟩ := s
  simp only at hfin h2 h3 h4
  subst hfin
  simp only at h4
  have hc : c = length := by
    rcases h4.2 with h | ⟨h | h, _⟩
    · exact h
    · exact h.elim
    · exact absurd h hx
  subst hc
  rw [h2, h3, h4.1]

/-! ### Termination -/

/-- How many more successful system calls there may be. -/
def todo : Ph → Nat
  | .loop l => l
  | .read left _ => 2 * left
  | .write buf left _ => 2 * left + buf.length
  | .fin _ => 0

theorem todo_settle (s : St) : todo (settle s).ph ≤ todo s.ph := by
  obtain ⟨dst, roff, woff, ph⟩ := s
  cases ph with
  | loop l => cases l <;> simp [settle, todo]
  | read left n => cases left <;> simp [settle, todo]
  | write buf left n =>
    cases buf with
    | nil => cases left <;> simp [settle, todo]
    | cons b bs => simp [settle]
  | fin e => simp [settle]

/-- Finished, or more to be done. -/
def Live (s : St) : Prop := (∃ e, s.ph = .fin e) ∨ 0 < todo s.ph

theorem live_settle (s : St) : Live (settle s) := by
  obtain ⟨dst, roff, woff, ph⟩ := s
  cases ph with
  | loop l => cases l <;> simp [settle, Live, todo]
  | read left n => cases left <;> simp [settle, Live, todo]
  | write buf left n =>
    cases buf with
    | nil => cases left <;> simp [settle, Live, todo]
    | cons b bs => right; simp only [settle, todo, List.length_cons]; omega
  | fin e => simp [settle, Live]

/-- A system call which transfers something makes progress, if the source has the range. -/
theorem call_progress (src : Src) (r0 : Nat) (d0 : File) (w0 len : Nat) (hsize : r0 + len ≤ src.size) (e p : Prop) (s : St) (c : Nat) (h : Ok src r0 d0 w0 len e p s c) (hl : 0 < todo s.ph)
    (k : Nat) (hk : 0 < k) : todo (call src s (.count k)).ph < todo s.ph := by
  obtain ⟨h1, h2, h3, h4⟩ := h
  obtain ⟨dst, roff, woff, ph⟩ := s
  simp only at h4 hl ⊢
  cases ph with
  | loop l =>
    simp only [todo] at hl
    simp only at h4
    simp only [call, todo]
    omega
  | read left n =>
    simp only [todo] at hl
    simp only at h4
    simp only [call]
    rw [if_neg (by simp only [bufSize]; omega)]
    simp only [todo, read_length, bufSize]
    omega
  | write buf left n =>
    simp only [call]
    split
    · simp only [todo] at hl ⊢; omega
    · simp only [todo, List.length_drop]
      omega
  | fin x => simp [todo] at hl

theorem fin_stays (src : Src) (rs : List Resp) (s : St) (x : Option Err) (h : s.ph = .fin x) : rs.foldl (fun s r => settle (call src s r)) s = s := by
  induction rs with
  | nil => rfl
  | cons r rs ih =>
    rw [List.foldl_cons]
    have : settle (call src s r) = s := by
      simp only [call, h, settle]
    rw [this, ih]

theorem run_terminates (src : Src) (r0 : Nat) (d0 : File) (w0 len : Nat) (hsize : r0 + len ≤ src.size) (rs : List Resp) (hrs : ∀ r ∈ rs, ∃ k, 0 < k ∧ r = .count k) (e p : Prop) (s : St) (c : Nat)
    (h : Ok src r0 d0 w0 len e p s c) (hl : Live s) (ht : todo s.ph ≤ rs.length) : ∃ x, (rs.foldl (fun s r => settle (call src s r)) s).ph = .fin x := by
  induction rs generalizing s c e p with
  | nil =>
    rcases hl with ⟨x, hx⟩ | hl
    · exact ⟨x, hx⟩
    · simp at ht; omega
  | cons r rs ih =>
    rcases hl with ⟨x, hx⟩ | hl
    · exact ⟨x, by rw [fin_stays src _ s x hx]; exact hx⟩
    · obtain ⟨k, hk, rfl⟩ := hrs r (by simp)
      obtain ⟨c', _, h'⟩ := call_ok h (.count k)
      have h1 := call_progress src r0 d0 w0 len hsize e p s c h hl k hk
      have h2 := todo_settle (call src s (.count k))
      refine ih (fun r hr => hrs r (by simp [hr])) _ _ _ _ (settle_ok h') (live_settle _) ?_
      simp only [List.length_cons] at ht
      have h3 : todo (settle (call src s (.count k))).ph ≤ rs.length := by omega
      exact h3

/-- C104: if the source has the range, and the kernel keeps on transferring bytes - possibly after having refused copy_file_range - then it finishes. -/
theorem terminates (src : Src) (roff : Nat) (dst : File) (woff length : Nat) (hsize : roff + length ≤ src.size) (rs : List Resp) (hrs : ∀ r ∈ rs, ∃ k, 0 < k ∧ r = .count k) :
    (length ≤ rs.length → ∃ x, (copyFileRange src roff dst woff length rs).ph = .fin x) ∧
    (2 * length ≤ rs.length → ∃ x, (copyFileRange src roff dst woff length (.exdev :: rs)).ph = .fin x) := by
  have h0 : Ok src roff dst woff length False False ⟨dst, roff, woff, .loop length⟩ 0 := ⟨Nat.zero_le _, (copy_zero _ _ _ _).symm, rfl, by simp⟩
  constructor
  · intro hl
    refine run_terminates src roff dst woff length hsize rs hrs _ _ _ _ (settle_ok h0) (live_settle _) ?_
    refine Nat.le_trans (todo_settle _) hl
  · intro hl
    simp only [copyFileRange, List.foldl_cons]
    obtain ⟨c', _, h'⟩ := call_ok (settle_ok h0) .exdev
    refine run_terminates src roff dst woff length hsize rs hrs _ _ _ _ (settle_ok h') (live_settle _) ?_
    refine Nat.le_trans (todo_settle _) ?_
    cases length with
    | zero => simp [settle, call, todo]
    | succ n => simpa [settle, call, todo] using hl

/-- C104 refuted for a source file which ends within the range: it never finishes, however many times the kernel answers. -/
theorem hangs_refuted (src : Src) (roff : Nat) (dst : File) (woff length : Nat) (hsize : src.size < roff + length) (hl : 0 < length) (rs : List Resp) (hrs : ∀ r ∈ rs, ∃ k, r = .count k) :
    ∃ l, 0 < l ∧ (copyFileRange src roff dst woff length rs).ph = .loop l := by
  have gen : ∀ (rs : List Resp), (∀ r ∈ rs, ∃ k, r = .count k) → ∀ (s : St) (l : Nat), s.ph = .loop l → src.size < s.roff + l → 0 < l →
      ∃ l', 0 < l' ∧ (rs.foldl (fun s r => settle (call src s r)) s).ph = .loop l' := by
    intro rs
    induction rs with
    | nil => intro _ s l h _ hp; exact ⟨l, hp, h⟩
    | cons r rs ih =>
      intro hrs s l h hs hp
      obtain ⟨k, rfl⟩ := hrs r (by simp)
      rw [List.foldl_cons]
      obtain ⟨dst, ro, wo, ph⟩ := s
      simp only at h hs
      subst h
      generalize hm : min k (min l (src.size - ro)) = m
      have e : settle (call src ⟨dst, ro, wo, .loop l⟩ (.count k)) = ⟨copyRange src.data ro dst wo m, ro + m, wo + m, .loop (l - m)⟩ := by
        simp only [call, hm]
        obtain ⟨q, hq⟩ : ∃ q, l - m = q + 1 := ⟨l - m - 1, by omega⟩
        rw [hq]
        rfl
      rw [e]
      exact ih (fun r hr => hrs r (by simp [hr])) _ (l - m) rfl (by simp only; omega) (by omega)
  obtain ⟨q, rfl⟩ : ∃ q, length = q + 1 := ⟨length - 1, by omega⟩
  exact gen rs hrs _ (q + 1) rfl hsize hl

/-- C104 refuted for the fallback with such a source file: it succeeds without having copied all of the range. -/
theorem short_copy_refuted (src : Src) (roff : Nat) (dst : File) (woff length k : Nat) (hsize : src.size ≤ roff) (hl : 0 < length) :
    copyFileRange src roff dst woff length [.exdev, .count k] = ⟨dst, roff, woff, .fin none⟩ := by
  obtain ⟨q, rfl⟩ : ∃ q, length = q + 1 := ⟨length - 1, by omega⟩
  have hm : min k (min bufSize (min (q + 1) (src.size - (roff + 0)))) = 0 := by omega
  have h1 : settle (call src (settle ⟨dst, roff, woff, .loop (q + 1)⟩) .exdev) = ⟨dst, roff, woff, .read (q + 1) 0⟩ := rfl
  have h2 : call src ⟨dst, roff, woff, .read (q + 1) 0⟩ (.count k) = ⟨dst, roff, woff, .fin none⟩ := by
    simp only [call, hm]
    rfl
  simp only [copyFileRange, List.foldl_cons, List.foldl_nil, h1, h2]
  rfl

/-- The mapped copy is complete if the kernel reads as much as it's asked for. -/
theorem mapped_copy_partial (src : Src) (roff : Nat) (dst : File) (woff length : Nat) (hsize : roff + length ≤ src.size) (hl : 0 < length) (rs : List Resp)
    (hk : ∀ k, .count k ∈ rs → length ≤ k) (f : File) (h : mappedCopy src roff dst woff length rs = some (none, f)) : f = copyRange src.data roff dst woff length := by
  induction rs with
  | nil => simp [mappedCopy] at h
  | cons r rs ih =>
    cases r with
    | count k =>
      have := hk k (by simp)
      have hm : min k (min length (src.size - roff)) = length := by omega
      simp only [mappedCopy, hm] at h
      rw [if_neg (by omega)] at h
      simp only [Option.some.injEq, Prod.mk.injEq, true_and] at h
      exact h.symm
    | again => exact ih (fun k hk' => hk k (by simp [hk'])) (by simpa [mappedCopy] using h)
    | exdev => simp [mappedCopy] at h
    | fail e => simp [mappedCopy] at h

/-- Linux reads at most this much at a time: MAX_RW_COUNT. -/
abbrev maxRwCount : Nat := 0x7ffff000

/-- C104 refuted for the mapped copy: if there's more than what the kernel reads at a time, the rest is left out without an error. -/
theorem mapped_short_refuted (src : Src) (roff : Nat) (dst : File) (woff length : Nat) (hsize : roff + length ≤ src.size) (hl : maxRwCount < length) :
    ∃ f, mappedCopy src roff dst woff length [.count maxRwCount] = some (none, f) ∧ ∀ i, woff + maxRwCount ≤ i → f i = dst i := by
  have hm : min maxRwCount (min length (src.size - roff)) = maxRwCount := by simp only [maxRwCount] at *; omega
  refine ⟨copyRange src.data roff dst woff maxRwCount, ?_, ?_⟩
  · simp only [mappedCopy, hm]
    rw [if_neg (by decide)]
  · intro i hi
    simp only [copyRange]
    rw [if_neg (by omega)]

/-! ### Where the source is long enough -/

/-- image/build.go:36 and image/instance.go:31: the sizes which files get at creation (image/filesystem.go:86, 178, image/memory.go:28, 41). -/
abbrev progMaxOffset : Nat := 0x480000000
abbrev instMaxOffset : Nat := 0x200000000

theorem alignPage_le (ps n : Nat) : alignPage ps n ≤ n + (ps - 1) := Nat.div_mul_le_self _ _

/-- The range which NewInstance (image/instance.go:107-116) copies is within the program file. Sizes are uint32 in the manifest. -/
theorem newInstance_range (ps stackUsage globalsSize memoryDataSize : Nat) (hps : 0 < ps) (hps' : ps ≤ 65536) (hg : globalsSize < 2 ^ 32) (hm : memoryDataSize < 2 ^ 32)
    (hs : alignPage ps stackUsage ≤ progGlobalsOffset) :
    progGlobalsOffset - alignPage ps stackUsage + (alignPage ps stackUsage + alignPage ps globalsSize + alignPage ps memoryDataSize) ≤ progMaxOffset := by
  have h1 := alignPage_le ps globalsSize
  have h2 := alignPage_le ps memoryDataSize
  simp only [progGlobalsOffset, progMaxOffset] at *
  omega

/-- So NewInstance's copy, if it succeeds, is complete, even if the kernel can't do copy_file_range between the files. -/
theorem newInstance_copied (prog : File) (ps stackUsage globalsSize memoryDataSize : Nat) (hps : 0 < ps) (hps' : ps ≤ 65536) (hg : globalsSize < 2 ^ 32) (hm : memoryDataSize < 2 ^ 32)
    (hs : alignPage ps stackUsage ≤ progGlobalsOffset) (inst : File) (woff : Nat) (rs : List Resp) (hk : .count 0 ∉ rs)
    (hfin : (copyFileRange ⟨prog, progMaxOffset⟩ (progGlobalsOffset - alignPage ps stackUsage) inst woff
      (alignPage ps stackUsage + alignPage ps globalsSize + alignPage ps memoryDataSize) rs).ph = .fin none) :
    (copyFileRange ⟨prog, progMaxOffset⟩ (progGlobalsOffset - alignPage ps stackUsage) inst woff
      (alignPage ps stackUsage + alignPage ps globalsSize + alignPage ps memoryDataSize) rs).dst =
    copyRange prog (progGlobalsOffset - alignPage ps stackUsage) inst woff (alignPage ps stackUsage + alignPage ps globalsSize + alignPage ps memoryDataSize) := by
  rw [copied_exactly ⟨prog, progMaxOffset⟩ _ inst woff _ rs (newInstance_range ps stackUsage globalsSize memoryDataSize hps hps' hg hm hs) hk hfin]

/-! ### Examples -/

def exSrc : Src := ⟨fun i => UInt8.ofNat i, 100⟩

/-- Short counts; and a fallback in the midst, with interrupts. -/
example : (copyFileRange exSrc 10 blank 0 20 [.count 7, .count 100]).ph = .fin none ∧ (copyFileRange exSrc 10 blank 0 20 [.count 7, .count 100]).dst 19 = 29 := by decide +kernel
example : (copyFileRange exSrc 10 blank 0 20 [.count 7, .exdev, .again, .count 5, .count 3, .again, .count 2, .count 9, .count 9]).ph = .fin none ∧
    (copyFileRange exSrc 10 blank 0 20 [.count 7, .exdev, .again, .count 5, .count 3, .again, .count 2, .count 9, .count 9]).dst 19 = 29 := by decide +kernel
example : 10 + 20 ≤ exSrc.size ∧ Resp.count 0 ∉ [Resp.count 7, .exdev, .again, .count 5] := by decide

/-- A program with a suspended stack, and small globals and memory. -/
example : alignPage 4096 5000 ≤ progGlobalsOffset ∧ (copyFileRange ⟨exSrc.data, progMaxOffset⟩ (progGlobalsOffset - alignPage 4096 5000) blank 0 (alignPage 4096 5000 + alignPage 4096 8 + alignPage 4096 0)
    [.count 12288]).ph = .fin none := by decide +kernel

end Gate.CopyRange
