import Verif.WriteStream
import Verif.StreamStateProps
/-
C09-C12: outbound streams.
-/
namespace Gate.WriteStream
open Gate Gate.StreamState

/-! ### Specification vocabulary -/

/-- Concatenation of the writes which were accepted and completed. -/
def accepted : Option Bytes → List Label → Bytes
  | _, [] => []
  | _, .writeBegin d :: ls => accepted (some d) ls
  | some d, .writePublish :: ls => d ++ accepted none ls
  | p, _ :: ls => accepted p ls

/-- Buffer sizes permitted by `MakeWriteStream` (write.go:39). -/
def GoodSize (n : Nat) : Prop := ∃ k, k ≤ 31 ∧ n = 2 ^ k

/-! ### Ring arithmetic -/

theorem getElem?_putAt {b src : Bytes} {off i : Nat} (h : off + src.length ≤ b.length) :
    (putAt b off src)[i]? = if off ≤ i ∧ i < off + src.length then src[i - off]? else b[i]? := by
  unfold putAt
  have h1 : (b.take off).length = off := by simp; omega
  by_cases hi : i < off
  · rw [List.append_assoc, List.getElem?_append_left (by omega), List.getElem?_take, if_pos hi,
      if_neg (by omega)]
  · rw [List.append_assoc, List.getElem?_append_right (by omega), h1]
    by_cases hi2 : i < off + src.length
    · rw [List.getElem?_append_left (by omega), if_pos (by omega)]
    · rw [List.getElem?_append_right (by omega), if_neg (by omega), List.getElem?_drop]
      congr 1; omega

theorem ringPut_get {buf data : Bytes} {size off i : Nat} (hb : buf.length = size) (ho : off < size)
    (hd : data.length < size) (hi : i < size) :
    (ringPut buf size off data)[i]? =
      if off ≤ i then (if i - off < data.length then data[i - off]? else buf[i]?)
      else (if i + size - off < data.length then data[i + size - off]? else buf[i]?) := by
  unfold ringPut
  simp only
  have hl1 : (data.take (min (size - off) data.length)).length = min (size - off) data.length := by simp
  have hl2 : (data.drop (min (size - off) data.length)).length
      = data.length - min (size - off) data.length := by simp
  rw [getElem?_putAt, getElem?_putAt, hl1, hl2]
  · simp only [List.getElem?_drop, List.getElem?_take]
    by_cases h1 : off ≤ i
    · rw [if_pos h1, if_neg (by omega)]
      by_cases h2 : i - off < data.length
      · rw [if_pos (by omega), if_pos h2, if_pos (by omega)]
      · rw [if_neg (by omega), if_neg h2]
    · rw [if_neg h1]
      by_cases h2 : i + size - off < data.length
      · rw [if_pos h2, if_pos (by omega)]
        congr 1; omega
      · rw [if_neg h2, if_neg (by omega), if_neg (by omega)]
  · rw [hl1]; omega
  · rw [length_putAt (by rw [hl1]; omega), hl2]; omega

theorem length_ringPut {buf data : Bytes} {size off : Nat} (hb : buf.length = size) (ho : off < size)
    (hd : data.length < size) : (ringPut buf size off data).length = size := by
  unfold ringPut
  simp only
  have hl1 : (data.take (min (size - off) data.length)).length = min (size - off) data.length := by simp
  have hl2 : (data.drop (min (size - off) data.length)).length
      = data.length - min (size - off) data.length := by simp
  rw [length_putAt, length_putAt (by rw [hl1]; omega), hb]
  rw [length_putAt (by rw [hl1]; omega), hl2]; omega

/-- Advancing a position by less than the size wraps at most once. -/
theorem add_mod_cases {size i d : Nat} (hd : d < size) :
    (i + d) % size = if i % size + d < size then i % size + d else i % size + d - size := by
  have hm : i % size < size := Nat.mod_lt _ (by omega)
  rw [Nat.add_mod, Nat.mod_eq_of_lt hd]
  split
  · exact Nat.mod_eq_of_lt ‹_›
  · rw [Nat.mod_eq_sub_mod (by omega), Nat.mod_eq_of_lt (by omega)]

/-- Putting data at position `w` leaves the earlier positions which do not collide. -/
theorem ringPut_old {buf data : Bytes} {size w i : Nat} (hb : buf.length = size) (hi : i < w)
    (h : w - i + data.length < size) :
    (ringPut buf size (w % size) data)[i % size]? = buf[i % size]? := by
  obtain ⟨e, rfl⟩ : ∃ e, w = i + e := ⟨w - i, by omega⟩
  have hz : 0 < size := by omega
  have hm : i % size < size := Nat.mod_lt _ hz
  rw [ringPut_get hb (Nat.mod_lt _ hz) (by omega) hm]
  rw [add_mod_cases (by omega)]
  generalize i % size = r at *
  split
  · split
    · rw [if_neg (by omega)]
    · rw [if_neg (by omega)]
  · split
    · rw [if_neg (by omega)]
    · rw [if_neg (by omega)]

/-- Data put at position `w` is found at the positions from `w` on. -/
theorem ringPut_new {buf data : Bytes} {size w j : Nat} (hb : buf.length = size)
    (hj : j < data.length) (hd : data.length < size) :
    (ringPut buf size (w % size) data)[(w + j) % size]? = data[j]? := by
  have hz : 0 < size := by omega
  have hm : w % size < size := Nat.mod_lt _ hz
  rw [ringPut_get hb hm hd (Nat.mod_lt _ hz)]
  rw [add_mod_cases (by omega)]
  generalize w % size = r at *
  split
  · rw [if_pos (by omega), if_pos (by omega)]; congr 1; omega
  · rw [if_neg (by omega), if_pos (by omega)]; congr 1; omega

theorem seg_lt {z d w : Nat} (hdw : d ≤ w) (hg : w - d < z) (h : d % z < w % z) :
    d + (w % z - d % z) = w := by
  obtain ⟨e, rfl⟩ : ∃ e, w = d + e := ⟨w - d, by omega⟩
  have hm : d % z < z := Nat.mod_lt _ (by omega)
  rw [add_mod_cases (by omega)] at h ⊢
  generalize d % z = r at *
  split <;> split at h <;> omega

theorem seg_gt {z d w : Nat} (hdw : d ≤ w) (hg : w - d < z) (h : ¬ d % z < w % z)
    (hne : d % z ≠ w % z) : w = d + (z - d % z) + w % z := by
  obtain ⟨e, rfl⟩ : ∃ e, w = d + e := ⟨w - d, by omega⟩
  have hm : d % z < z := Nat.mod_lt _ (by omega)
  rw [add_mod_cases (by omega)] at h hne ⊢
  generalize d % z = r at *
  by_cases hc : r + e < z
  · simp only [if_pos hc] at h hne ⊢; omega
  · simp only [if_neg hc] at h hne ⊢; omega

theorem seg_eq {z d w : Nat} (hdw : d ≤ w) (hg : w - d < z) (h : d % z = w % z) : d = w := by
  obtain ⟨e, rfl⟩ : ∃ e, w = d + e := ⟨w - d, by omega⟩
  have hm : d % z < z := Nat.mod_lt _ (by omega)
  rw [add_mod_cases (by omega)] at h
  generalize d % z = r at *
  split at h <;> omega

theorem goodSize_mod {size x : Nat} (h : GoodSize size) : x % 2 ^ 32 % size = x % size := by
  obtain ⟨k, hk, rfl⟩ := h
  exact Nat.mod_mod_of_dvd x (Nat.pow_dvd_pow 2 (by omega))

theorem goodSize_pos {size : Nat} (h : GoodSize size) : 0 < size := by
  obtain ⟨k, hk, rfl⟩ := h; exact Nat.two_pow_pos k

theorem goodSize_le {size : Nat} (h : GoodSize size) : size ≤ 2 ^ 31 := by
  obtain ⟨k, hk, rfl⟩ := h; exact Nat.pow_le_pow_right (by omega) hk

/-! ### Invariant -/

/-- Total credit given to the program: `sub0` at start plus all flow packets. -/
def credit (sub0 : Nat) (s : St) : Nat := sub0 + s.flows.sum

def PcInv (sub0 : Nat) (s : St) : Prop :=
  match s.pc with
  | .check (some i) | .selBlock (some i) | .selPoll (some i) =>
      s.send = true ∧ (s.w = true → credit sub0 s + i < s.delivered.length + s.size) ∧ (s.w = false → i = 0)
  | .writing lo hi => lo = s.delivered.length % s.size ∧ lo ≤ hi ∧ hi ≤ s.size ∧
      s.delivered.length + (hi - lo) ≤ s.written.length ∧ s.w = true
  | _ => True

structure Inv (sub0 : Nat) (s : St) : Prop where
  size : GoodSize s.size
  blen : s.buf.length = s.size
  prod : s.produced = s.written.length % 2 ^ 32
  cons : s.consumed = s.delivered.length % 2 ^ 32
  pre : s.delivered = s.written.take s.delivered.length
  dle : s.delivered.length ≤ s.written.length
  gap : s.written.length - s.delivered.length < s.size
  ring : ∀ i, s.delivered.length ≤ i → i < s.written.length → s.buf[i % s.size]? = s.written[i]?
  pendGap : ∀ d c, s.pend = some (d, c) → s.written.length + d.length - s.delivered.length < s.size
  pendCopy : ∀ d, s.pend = some (d, true) → ∀ j, j < d.length →
    s.buf[(s.written.length + j) % s.size]? = d[j]?
  sub : (s.subscribed + s.delivered.length) % 2 ^ 32 = credit sub0 s % 2 ^ 32
  subLt : s.subscribed < 2 ^ 32
  cred : credit sub0 s < s.delivered.length + s.size
  pcInv : PcInv sub0 s

theorem inv_start {st : State} {hw : Bool} {s : St} (hsz : GoodSize st.cap)
    (hd : st.data = []) (h : start st hw = some s) : Inv st.subscribed s := by
  unfold start at h
  split at h
  · simp at h
  · rename_i hlt
    have := goodSize_le hsz
    simp only [Option.some.injEq] at h
    subst h
    refine ⟨hsz, ?_, ?_, ?_, ?_, ?_, ?_, ?_, ?_, ?_, ?_, ?_, ?_, ?_⟩ <;>
      simp [hd, credit, PcInv]
    · exact goodSize_pos hsz
    · omega
    · omega

theorem used_eq {sub0 : Nat} {s : St} (hi : Inv sub0 s) :
    (s.produced + 2 ^ 32 - s.consumed) % 2 ^ 32 = s.written.length - s.delivered.length := by
  have h1 := hi.prod; have h2 := hi.cons; have h3 := hi.dle; have h4 := hi.gap
  have := goodSize_le hi.size
  rw [h1, h2]; omega

theorem inc_bound {sub0 : Nat} {s : St} (hi : Inv sub0 s) {i : Nat}
    (h : increment s.size s.subscribed = some i) : credit sub0 s + i < s.delivered.length + s.size := by
  have h1 := hi.sub; have h2 := hi.cred; have h3 := hi.subLt
  have := goodSize_le hi.size
  have hp := goodSize_pos hi.size
  generalize credit sub0 s = c at *
  generalize s.delivered.length = d at *
  unfold increment at h
  simp only at h
  split at h
  · rename_i hpos
    simp only [Option.some.injEq] at h
    unfold toSigned at h hpos
    split at h <;> omega
  · simp at h

theorem inv_step {sub0 : Nat} {s s' : St} {l : Label} (hi : Inv sub0 s) (h : step s l = some s') :
    Inv sub0 s' := by
  have hused := used_eq hi
  have hinc := @inc_bound _ _ hi
  obtain ⟨hsz, hbl, hpr, hco, hpre, hdle, hgap, hring, hpg, hpcp, hsub, hslt, hcr, hpc⟩ := hi
  have hpos := goodSize_pos hsz
  have hmodp : s.produced % s.size = s.written.length % s.size := by rw [hpr, goodSize_mod hsz]
  have hmodc : s.consumed % s.size = s.delivered.length % s.size := by rw [hco, goodSize_mod hsz]
  cases l with
  | writeBegin data =>
    simp only [step] at h
    split at h
    · rename_i hcond
      simp only [Option.some.injEq] at h; subst h
      obtain ⟨hp0, _, _, hcan⟩ := hcond
      simp only [canWrite, decide_eq_true_eq, hused] at hcan
      refine ⟨hsz, hbl, hpr, hco, hpre, hdle, hgap, hring, ?_, ?_, hsub, hslt, hcr, hpc⟩
      · intro d c hdc
        simp only [Option.some.injEq, Prod.mk.injEq] at hdc
        obtain ⟨rfl, _⟩ := hdc
        simp only
        omega
      · intro d hdc
        simp at hdc
    · simp at h
  | writeCopy =>
    simp only [step] at h
    split at h
    · rename_i data hp
      simp only [Option.some.injEq] at h; subst h
      have hg := hpg data false hp
      have ho : s.produced % s.size < s.size := Nat.mod_lt _ hpos
      refine ⟨hsz, length_ringPut hbl ho (by omega), hpr, hco, hpre, hdle, hgap, ?_, ?_, ?_, hsub, hslt, hcr, hpc⟩
      · intro i hi1 hi2
        rw [← hring i hi1 hi2]
        simp only
        rw [hmodp]
        exact ringPut_old hbl hi2 (by simp only at hi1; omega)
      · intro d c hdc
        simp only [Option.some.injEq, Prod.mk.injEq] at hdc
        obtain ⟨rfl, _⟩ := hdc
        exact hg
      · intro d hdc j hj
        simp only [Option.some.injEq, Prod.mk.injEq] at hdc
        obtain ⟨rfl, _⟩ := hdc
        simp only
        rw [hmodp]
        exact ringPut_new hbl hj (by omega)
    · simp at h
  | writePublish =>
    simp only [step] at h
    split at h
    · rename_i data hp
      simp only [Option.some.injEq] at h; subst h
      have hg := hpg data true hp
      refine ⟨hsz, hbl, ?_, hco, ?_, ?_, ?_, ?_, ?_, ?_, hsub, hslt, hcr, ?_⟩
      · simp only [List.length_append]; rw [hpr]; omega
      · simp only
        rw [List.take_append_of_le_length hdle]; exact hpre
      · simp only [List.length_append]; omega
      · simp only [List.length_append]; omega
      · intro i hi1 hi2
        simp only at hi1 hi2 ⊢
        by_cases hlt : i < s.written.length
        · rw [List.getElem?_append_left hlt]; exact hring i hi1 hlt
        · rw [List.getElem?_append_right (by omega)]
          have := hpcp data hp (i - s.written.length) (by simp at hi2; omega)
          rw [← this]; congr 2; omega
      · intro d c hdc; simp at hdc
      · intro d hdc; simp at hdc
      · revert hpc
        unfold PcInv credit
        simp only [List.length_append]
        split <;> intro hpc
        · exact hpc
        · exact hpc
        · exact hpc
        · exact ⟨hpc.1, hpc.2.1, hpc.2.2.1, by omega, hpc.2.2.2.2⟩
        · trivial
    · simp at h
  | closeWrite =>
    simp only [step] at h
    split at h
    · simp only [Option.some.injEq] at h; subst h
      exact ⟨hsz, hbl, hpr, hco, hpre, hdle, hgap, hring, hpg, hpcp, hsub, hslt, hcr, hpc⟩
    · simp at h
  | stop =>
    simp only [step] at h
    split at h
    · simp only [Option.some.injEq] at h; subst h
      exact ⟨hsz, hbl, hpr, hco, hpre, hdle, hgap, hring, hpg, hpcp, hsub, hslt, hcr, hpc⟩
    · simp at h
  | cancel =>
    simp only [step, Option.some.injEq] at h; subst h
    exact ⟨hsz, hbl, hpr, hco, hpre, hdle, hgap, hring, hpg, hpcp, hsub, hslt, hcr, hpc⟩
  | tau =>
    simp only [step] at h
    split at h
    · -- top
      split at h
      · split at h
        · rename_i hsend
          split at h
          · rename_i hw
            generalize increment s.size s.subscribed = oi at h hinc
            simp only [Option.some.injEq] at h; subst h
            refine ⟨hsz, hbl, hpr, hco, hpre, hdle, hgap, hring, hpg, hpcp, hsub, hslt, hcr, ?_⟩
            cases oi with
            | none => trivial
            | some i =>
              exact ⟨hsend, fun _ => hinc rfl, fun hf => by rw [hw] at hf; simp at hf⟩
          · rename_i hw
            simp only [Option.some.injEq] at h; subst h
            refine ⟨hsz, hbl, hpr, hco, hpre, hdle, hgap, hring, hpg, hpcp, hsub, hslt, hcr, ?_⟩
            exact ⟨hsend, fun hf => absurd hf hw, fun _ => rfl⟩
        · simp only [Option.some.injEq] at h; subst h
          exact ⟨hsz, hbl, hpr, hco, hpre, hdle, hgap, hring, hpg, hpcp, hsub, hslt, hcr, trivial⟩
      · simp only [Option.some.injEq] at h; subst h
        exact ⟨hsz, hbl, hpr, hco, hpre, hdle, hgap, hring, hpg, hpcp, hsub, hslt, hcr, trivial⟩
    · -- check
      rename_i inc hpceq
      have hpc' : ∀ i, inc = some i → s.send = true ∧
          (s.w = true → credit sub0 s + i < s.delivered.length + s.size) ∧ (s.w = false → i = 0) := by
        intro i hi2; subst hi2; simpa only [PcInv, hpceq] using hpc
      split at h <;> (simp only [Option.some.injEq] at h; subst h) <;>
        refine ⟨hsz, hbl, hpr, hco, hpre, hdle, hgap, hring, hpg, hpcp, hsub, hslt, hcr, ?_⟩ <;>
        (unfold PcInv; cases inc with
          | none => trivial
          | some i => exact hpc' i rfl)
    · -- body
      split at h
      · rename_i hw
        have hm1 : s.delivered.length % s.size < s.size := Nat.mod_lt _ hpos
        have hm2 : s.written.length % s.size < s.size := Nat.mod_lt _ hpos
        split at h
        · split at h
          · rename_i hne hlt
            simp only [Option.some.injEq] at h; subst h
            refine ⟨hsz, hbl, hpr, hco, hpre, hdle, hgap, hring, hpg, hpcp, hsub, hslt, hcr, ?_⟩
            refine ⟨hmodc, Nat.le_of_lt hlt, by rw [hmodp]; exact Nat.le_of_lt hm2, ?_, hw⟩
            simp only
            rw [hmodp, hmodc] at hlt ⊢
            exact Nat.le_of_eq (seg_lt hdle hgap hlt)
          · rename_i hne hlt
            simp only [Option.some.injEq] at h; subst h
            refine ⟨hsz, hbl, hpr, hco, hpre, hdle, hgap, hring, hpg, hpcp, hsub, hslt, hcr, ?_⟩
            refine ⟨hmodc, by rw [hmodc]; exact Nat.le_of_lt hm1, by simp, ?_, hw⟩
            simp only
            rw [hmodp, hmodc] at hlt hne
            rw [hmodc]
            have := seg_gt hdle hgap hlt hne
            clear hused hsub hpr hco
            omega
        · simp only [Option.some.injEq] at h; subst h
          exact ⟨hsz, hbl, hpr, hco, hpre, hdle, hgap, hring, hpg, hpcp, hsub, hslt, hcr, trivial⟩
      · simp only [Option.some.injEq] at h; subst h
        exact ⟨hsz, hbl, hpr, hco, hpre, hdle, hgap, hring, hpg, hpcp, hsub, hslt, hcr, trivial⟩
    · -- bodyFlags
      split at h <;> (simp only [Option.some.injEq] at h; subst h) <;>
        exact ⟨hsz, hbl, hpr, hco, hpre, hdle, hgap, hring, hpg, hpcp, hsub, hslt, hcr, trivial⟩
    · simp only [Option.some.injEq] at h; subst h
      exact ⟨hsz, hbl, hpr, hco, hpre, hdle, hgap, hring, hpg, hpcp, hsub, hslt, hcr, trivial⟩
    · simp at h
  | sendFlow =>
    have main : ∀ i, (s.w = true → credit sub0 s + i < s.delivered.length + s.size) →
        (s.w = false → i = 0) → ∀ snd,
        Inv sub0 { s with flows := s.flows ++ [i], subscribed := (s.subscribed + i) % 2 ^ 32,
                          send := snd, pc := .body } := by
      intro i h1 h2 snd
      refine ⟨hsz, hbl, hpr, hco, hpre, hdle, hgap, hring, hpg, hpcp, ?_, ?_, ?_, trivial⟩
      · simp only [credit, List.sum_append, List.sum_cons, List.sum_nil] at hsub ⊢; omega
      · simp only; omega
      · simp only [credit, List.sum_append, List.sum_cons, List.sum_nil] at hcr h1 ⊢
        cases hw : s.w
        · have := h2 hw; omega
        · have := h1 hw; omega
    simp only [step] at h
    split at h
    · rename_i i hpceq
      simp only [PcInv, hpceq] at hpc
      simp only [Option.some.injEq] at h; subst h
      exact main i hpc.2.1 hpc.2.2 _
    · rename_i i hpceq
      simp only [PcInv, hpceq] at hpc
      simp only [Option.some.injEq] at h; subst h
      exact main i hpc.2.1 hpc.2.2 _
    · simp at h
  | wakeup =>
    simp only [step] at h
    split at h
    · split at h
      · simp only [Option.some.injEq] at h; subst h
        exact ⟨hsz, hbl, hpr, hco, hpre, hdle, hgap, hring, hpg, hpcp, hsub, hslt, hcr, trivial⟩
      · split at h
        · simp only [Option.some.injEq] at h; subst h
          exact ⟨hsz, hbl, hpr, hco, hpre, hdle, hgap, hring, hpg, hpcp, hsub, hslt, hcr, trivial⟩
        · simp at h
    · split at h
      · simp only [Option.some.injEq] at h; subst h
        exact ⟨hsz, hbl, hpr, hco, hpre, hdle, hgap, hring, hpg, hpcp, hsub, hslt, hcr, trivial⟩
      · split at h
        · simp only [Option.some.injEq] at h; subst h
          exact ⟨hsz, hbl, hpr, hco, hpre, hdle, hgap, hring, hpg, hpcp, hsub, hslt, hcr, trivial⟩
        · simp at h
    · simp at h
  | ctxDone =>
    simp only [step] at h
    split at h
    · split at h
      · simp only [Option.some.injEq] at h; subst h
        exact ⟨hsz, hbl, hpr, hco, hpre, hdle, hgap, hring, hpg, hpcp, hsub, hslt, hcr, trivial⟩
      · simp only [Option.some.injEq] at h; subst h
        exact ⟨hsz, hbl, hpr, hco, hpre, hdle, hgap, hring, hpg, hpcp, hsub, hslt, hcr, trivial⟩
      · simp at h
    · simp at h
  | dflt =>
    simp only [step] at h
    split at h
    · split at h
      · simp at h
      · simp only [Option.some.injEq] at h; subst h
        exact ⟨hsz, hbl, hpr, hco, hpre, hdle, hgap, hring, hpg, hpcp, hsub, hslt, hcr, trivial⟩
    · simp at h
  | wret n e =>
    simp only [step] at h
    split at h
    · rename_i lo hi hpceq
      simp only [PcInv, hpceq] at hpc
      obtain ⟨hlo, hlh, hhs, hle, hw⟩ := hpc
      split at h
      · rename_i hn
        simp only [Option.some.injEq] at h; subst h
        have hslen : (slice s.buf lo n).length = n := slice_length (by omega)
        have hslice : slice s.buf lo n = (s.written.drop s.delivered.length).take n := by
          apply List.ext_getElem?
          intro j
          unfold slice
          simp only [List.getElem?_take, List.getElem?_drop]
          split
          · rename_i hj
            rw [← hring (s.delivered.length + j) (by omega) (by omega)]
            congr 1
            rw [add_mod_cases (by omega), if_pos (by omega), hlo]
          · rfl
        have hdl : (s.delivered ++ slice s.buf lo n).length = s.delivered.length + n := by
          rw [List.length_append, hslen]
        refine ⟨hsz, hbl, hpr, ?_, ?_, ?_, ?_, ?_, ?_, hpcp, ?_, ?_, ?_, trivial⟩
        · simp only; rw [hdl, hco]; omega
        · simp only; rw [hdl, hslice, List.take_add]
          rw [← hpre]
        · simp only; rw [hdl]; omega
        · simp only; rw [hdl]; omega
        · intro i h1 h2
          simp only at h1; rw [hdl] at h1
          exact hring i (by omega) h2
        · intro d c hdc
          have := hpg d c hdc
          simp only; rw [hdl]; omega
        · simp only [credit] at hsub ⊢; rw [hdl]
          have : n < 2 ^ 32 := by have := goodSize_le hsz; omega
          omega
        · simp only; omega
        · simp only [credit] at hcr ⊢; rw [hdl]; omega
      · simp at h
    · simp at h

theorem inv_run {sub0 : Nat} {ls : List Label} : ∀ {s s' : St}, Inv sub0 s → run s ls = some s' →
    Inv sub0 s' := by
  induction ls with
  | nil => intro s s' hi h; simp [run] at h; subst h; exact hi
  | cons l ls ih =>
    intro s s' hi h
    simp only [run] at h
    cases hs : step s l with
    | none => rw [hs] at h; simp at h
    | some s1 => rw [hs] at h; exact ih (inv_step hi hs) h

/-- The ghost variable of the model is the concatenation of the accepted writes. -/
theorem written_step {s s' : St} {l : Label} (h : step s l = some s') (ls : List Label) :
    s'.written ++ accepted (s'.pend.map (·.1)) ls = s.written ++ accepted (s.pend.map (·.1)) (l :: ls) := by
  cases l with
  | writeBegin d =>
    simp only [step] at h
    split at h
    · simp only [Option.some.injEq] at h; subst h; simp [accepted]
    · simp at h
  | writeCopy =>
    simp only [step] at h
    split at h
    · rename_i d hp
      simp only [Option.some.injEq] at h; subst h; simp [accepted, hp]
    · simp at h
  | writePublish =>
    simp only [step] at h
    split at h
    · rename_i d hp
      simp only [Option.some.injEq] at h; subst h; simp [accepted, hp]
    · simp at h
  | _ =>
    simp only [step] at h
    repeat' split at h
    all_goals first
      | (simp at h; done)
      | (simp only [Option.some.injEq] at h; subst h; cases hq : s.pend <;> simp [accepted])

theorem written_run {ls : List Label} : ∀ {s s' : St}, run s ls = some s' →
    s'.written = s.written ++ accepted (s.pend.map (·.1)) ls := by
  induction ls with
  | nil => intro s s' h; simp [run] at h; subst h; cases hq : s.pend <;> simp [accepted]
  | cons l ls ih =>
    intro s s' h
    simp only [run] at h
    cases hs : step s l with
    | none => rw [hs] at h; simp at h
    | some s1 => rw [hs] at h; rw [ih h, written_step hs ls]

theorem size_step {s s' : St} {l : Label} (h : step s l = some s') : s'.size = s.size := by
  cases l <;> simp only [step] at h <;> (repeat' split at h) <;>
    first | (simp at h; done) | (simp only [Option.some.injEq] at h; subst h; rfl)

theorem size_run {ls : List Label} : ∀ {s s' : St}, run s ls = some s' → s'.size = s.size := by
  induction ls with
  | nil => intro s s' h; simp [run] at h; subst h; rfl
  | cons l ls ih =>
    intro s s' h
    simp only [run] at h
    cases hs : step s l with
    | none => rw [hs] at h; simp at h
    | some s1 => rw [hs] at h; rw [ih h, size_step hs]

/-- Facts about a run of a new stream. -/
theorem fresh_run {size : Nat} (hsz : GoodSize size) {hw : Bool} {s0 s : St} {ls : List Label}
    (h0 : start (initialState size) hw = some s0) (h : run s0 ls = some s) :
    Inv 0 s ∧ s.written = accepted none ls ∧ s.size = size := by
  have hi := inv_start hsz rfl h0
  refine ⟨inv_run hi h, ?_, ?_⟩
  · rw [written_run h]
    unfold start at h0; split at h0
    · simp at h0
    · simp only [Option.some.injEq] at h0; subst h0; rfl
  · rw [size_run h]
    unfold start at h0; split at h0
    · simp at h0
    · simp only [Option.some.injEq] at h0; subst h0; rfl

/-! ### C09 -/

/-- Specification: the bytes in the ring from the consumption offset up to the
production offset, wrapped to the buffer size. -/
def buffered (s : St) : Bytes :=
  (List.range ((s.produced + 2 ^ 32 - s.consumed) % 2 ^ 32)).map
    (fun i => s.buf.getD ((s.consumed + i) % s.size) 0)

theorem buffered_eq {sub0 : Nat} {s : St} (hi : Inv sub0 s) :
    buffered s = s.written.drop s.delivered.length := by
  have hu := used_eq hi
  unfold buffered
  rw [hu]
  apply List.ext_getElem?
  intro j
  simp only [List.getElem?_map, List.getElem?_drop]
  by_cases hj : j < s.written.length - s.delivered.length
  · rw [List.getElem?_range hj]
    have hr := hi.ring (s.delivered.length + j) (by omega) (by omega)
    have hmod : (s.consumed + j) % s.size = (s.delivered.length + j) % s.size := by
      rw [Nat.add_mod, hi.cons, goodSize_mod hi.size, ← Nat.add_mod]
    rw [Option.map_some, hmod, List.getD_eq_getElem?_getD, hr]
    rw [List.getElem?_eq_getElem (by omega)]
    rfl
  · rw [List.getElem?_eq_none (by simp; omega), List.getElem?_eq_none (by omega)]
    rfl

/-- C09: for every permitted buffer size and every schedule of a new stream, the
bytes delivered to the connection followed by the bytes in the ring are exactly
the concatenation of the accepted writes (the total volume is not bounded). -/
theorem fifo (size : Nat) (hsz : GoodSize size) (hasWriter : Bool) (s0 s : St) (ls : List Label)
    (h0 : start (initialState size) hasWriter = some s0) (h : run s0 ls = some s) :
    s.delivered ++ buffered s = accepted none ls ∧ (buffered s).length < size := by
  obtain ⟨hi, hwr, hs⟩ := fresh_run hsz h0 h
  rw [buffered_eq hi]
  refine ⟨?_, ?_⟩
  · rw [← hwr]
    conv => lhs; lhs; rw [hi.pre]
    exact List.take_append_drop _ _
  · have := hi.gap; rw [hs] at this; simpa using this

/-- C09: a write is accepted exactly when the buffered bytes and the new ones
leave a one-byte gap; otherwise the call has no effect at all (it is not enabled
as an action). -/
theorem write_accepted_iff (size : Nat) (hsz : GoodSize size) (hasWriter : Bool) (s0 s : St)
    (ls : List Label) (h0 : start (initialState size) hasWriter = some s0) (h : run s0 ls = some s)
    (data : Bytes) :
    (∃ s', step s (.writeBegin data) = some s') ↔
      (s.pend = none ∧ s.closed = false ∧ s.flagSR = true) ∧
        (buffered s).length + data.length < size := by
  obtain ⟨hi, hwr, hs⟩ := fresh_run hsz h0 h
  have hl : (buffered s).length = (s.produced + 2 ^ 32 - s.consumed) % 2 ^ 32 := by simp [buffered]
  rw [hl, ← hs]
  simp only [step, canWrite, decide_eq_true_eq]
  constructor
  · rintro ⟨s', h⟩
    split at h
    · rename_i hc
      exact ⟨⟨hc.1, by simpa using hc.2.1, hc.2.2.1⟩, hc.2.2.2⟩
    · simp at h
  · rintro ⟨⟨h1, h2, h3⟩, h4⟩
    exact ⟨_, by rw [if_pos ⟨h1, by simpa using h2, h3, h4⟩]⟩

/-! ### C10 -/

/-- C10: the total credit in flow packets never exceeds the delivered bytes plus
the buffer size less one. -/
theorem credit_bound (size : Nat) (hsz : GoodSize size) (hasWriter : Bool) (s0 s : St)
    (ls : List Label) (h0 : start (initialState size) hasWriter = some s0) (h : run s0 ls = some s) :
    s.flows.sum ≤ s.delivered.length + (size - 1) := by
  obtain ⟨hi, hwr, hs⟩ := fresh_run hsz h0 h
  have := hi.cred
  unfold credit at this
  rw [hs] at this
  omega

/-- C10: a program which stays within its credit never gets an overflow error. -/
theorem within_credit_accepted (size : Nat) (hsz : GoodSize size) (hasWriter : Bool) (s0 s : St)
    (ls : List Label) (h0 : start (initialState size) hasWriter = some s0) (h : run s0 ls = some s)
    (hopen : s.pend = none ∧ s.closed = false ∧ s.flagSR = true) (data : Bytes)
    (hcredit : (accepted none ls).length + data.length ≤ s.flows.sum) :
    ∃ s', step s (.writeBegin data) = some s' := by
  rw [write_accepted_iff size hsz hasWriter s0 s ls h0 h data]
  refine ⟨hopen, ?_⟩
  have h1 := (fifo size hsz hasWriter s0 s ls h0 h).1
  have h2 := credit_bound size hsz hasWriter s0 s ls h0 h
  have h3 := congrArg List.length h1
  have hp := goodSize_pos hsz
  simp only [List.length_append] at h3
  omega

/-- The flow increment for a subscription below the buffer size. -/
theorem increment_eq {size sub : Nat} (hle : size ≤ 2 ^ 31) (h : sub < size) {oi : Option Nat}
    (ho : increment size sub = oi) :
    (∀ i, oi = some i → 0 < i ∧ sub + i + 1 = size) ∧ (oi = none → sub + 1 = size) := by
  have hval : toSigned 32 ((size + 2 ^ 32 - sub + (2 ^ 32 - 1)) % 2 ^ 32) = (size : Int) - sub - 1 := by
    have h1 : (size + 2 ^ 32 - sub + (2 ^ 32 - 1)) % 2 ^ 32 = size - sub - 1 := by omega
    rw [h1]; unfold toSigned
    rw [if_pos (by omega)]; omega
  unfold increment at ho
  rw [hval] at ho
  simp only at ho
  split at ho <;> subst ho
  · rename_i hz
    refine ⟨?_, by simp⟩
    intro i hi
    simp only [Option.some.injEq] at hi
    omega
  · rename_i hz
    refine ⟨by simp, ?_⟩
    intro _
    omega

/-- C10 (replenishment): whenever the transfer of an open stream is at the top of
its loop and the program has stayed within its credit, the next flow packet
offered brings the credit to exactly the delivered bytes plus the buffer size
less one, and none is offered exactly when the credit is there already. -/
theorem credit_replenished (size : Nat) (hsz : GoodSize size) (hasWriter : Bool) (s0 s : St)
    (ls : List Label) (h0 : start (initialState size) hasWriter = some s0) (h : run s0 ls = some s)
    (hcredit : (accepted none ls).length ≤ s.flows.sum)
    (htop : s.pc = .top) (hw : s.w = true) (hsend : s.send = true) :
    ∃ inc, step s .tau = some { s with pc := .check inc } ∧
      (∀ i, inc = some i → 0 < i ∧ s.flows.sum + i = s.delivered.length + (size - 1)) ∧
      (inc = none → s.flows.sum = s.delivered.length + (size - 1)) := by
  obtain ⟨hi, hwr, hs⟩ := fresh_run hsz h0 h
  have hpos := goodSize_pos hsz
  have hle := goodSize_le hsz
  have h1 := hi.sub; have h2 := hi.cred; have h3 := hi.subLt; have h4 := hi.dle
  rw [← hwr] at hcredit
  unfold credit at h1 h2
  rw [hs] at h2
  have hsubd : s.subscribed = s.flows.sum - s.delivered.length := by omega
  generalize hoi : increment s.size s.subscribed = oi
  refine ⟨oi, ?_, ?_⟩
  · simp only [step, htop, hsend, hw, true_or, if_true, hoi]
  · rw [hs] at hoi
    have := increment_eq hle (by omega) hoi
    refine ⟨fun i hi' => ?_, fun hn => ?_⟩
    · have := this.1 i hi'; omega
    · have := this.2 hn; omega

/-! ### C11 -/

/-- The two segments of a wrapped ring are the undelivered bytes. -/
theorem wrapped_segments {sub0 : Nat} {s : St} (hi : Inv sub0 s)
    (h : s.produced % s.size < s.consumed % s.size) :
    s.buf.drop (s.consumed % s.size) ++ s.buf.take (s.produced % s.size)
      = s.written.drop s.delivered.length := by
  have hpos := goodSize_pos hi.size
  have hmodp : s.produced % s.size = s.written.length % s.size := by rw [hi.prod, goodSize_mod hi.size]
  have hmodc : s.consumed % s.size = s.delivered.length % s.size := by rw [hi.cons, goodSize_mod hi.size]
  have hdle := hi.dle; have hgap := hi.gap; have hbl := hi.blen; have hring := hi.ring
  rw [hmodp, hmodc] at h ⊢
  have hw := seg_gt hdle hgap (by omega) (by omega)
  have hm : s.delivered.length % s.size < s.size := Nat.mod_lt _ hpos
  generalize hd : s.delivered.length = d at *
  generalize hwl : s.written.length = wl at *
  generalize hz : s.size = z at *
  have hl1 : (s.buf.drop (d % z)).length = z - d % z := by simp; omega
  apply List.ext_getElem?
  intro j
  rw [List.getElem?_drop]
  by_cases h1 : j < z - d % z
  · rw [List.getElem?_append_left (by omega), List.getElem?_drop]
    rw [← hring (d + j) (by omega) (by omega), add_mod_cases (by omega), if_pos (by omega)]
  · rw [List.getElem?_append_right (by omega), hl1, List.getElem?_take]
    by_cases h2 : j < z - d % z + wl % z
    · rw [if_pos (by omega), ← hring (d + j) (by omega) (by omega), add_mod_cases (by omega),
        if_neg (by omega)]
      congr 1; omega
    · rw [if_neg (by omega), List.getElem?_eq_none (by omega)]

/-- The undelivered bytes of a schedule: what was accepted from the program less
what was delivered to the connection. -/
def undelivered (s : St) (ls : List Label) : Bytes := (accepted none ls).drop s.delivered.length

/-- C11 (what holds): if the undelivered bytes do not wrap around the end of the
circular buffer, the data kept in the state is exactly them. -/
theorem suspend_partial (size : Nat) (hsz : GoodSize size) (hasWriter : Bool) (s0 s : St)
    (ls : List Label) (h0 : start (initialState size) hasWriter = some s0) (h : run s0 ls = some s)
    (hnowrap : s.consumed % size ≤ s.produced % size) :
    (result s).data = undelivered s ls ∧ s.delivered ++ (result s).data = accepted none ls := by
  obtain ⟨hi, hwr, hs⟩ := fresh_run hsz h0 h
  have key : (result s).data = undelivered s ls := by
    unfold result undelivered linearize
    rw [← hwr]
    have hpos := goodSize_pos hi.size
    have hmodp : s.produced % s.size = s.written.length % s.size := by rw [hi.prod, goodSize_mod hi.size]
    have hmodc : s.consumed % s.size = s.delivered.length % s.size := by rw [hi.cons, goodSize_mod hi.size]
    have hdle := hi.dle; have hgap := hi.gap; have hring := hi.ring; have hbl := hi.blen
    rw [← hs] at hnowrap
    rw [hmodp, hmodc] at hnowrap
    simp only [hmodp, hmodc]
    by_cases he : s.delivered.length % s.size = s.written.length % s.size
    · rw [if_pos he, seg_eq hdle hgap he, List.drop_length]
    · rw [if_neg he, if_pos (by omega)]
      have hseg := seg_lt hdle hgap (by omega)
      have hm : s.written.length % s.size < s.size := Nat.mod_lt _ hpos
      apply List.ext_getElem?
      intro j
      unfold slice
      rw [List.getElem?_take, List.getElem?_drop, List.getElem?_drop]
      by_cases hj : j < s.written.length % s.size - s.delivered.length % s.size
      · rw [if_pos hj, ← hring _ (by omega) (by omega), add_mod_cases (by omega), if_pos (by omega)]
      · rw [if_neg hj, List.getElem?_eq_none (by omega)]
  refine ⟨key, ?_⟩
  rw [key, undelivered, ← hwr]
  conv => lhs; lhs; rw [hi.pre]
  exact List.take_append_drop _ _

/-- C11 refuted, in every wrapped state: the data kept is the undelivered bytes
followed by `2^32 - size` zero bytes. -/
theorem suspend_wrapped (size : Nat) (hsz : GoodSize size) (hasWriter : Bool) (s0 s : St)
    (ls : List Label) (h0 : start (initialState size) hasWriter = some s0) (h : run s0 ls = some s)
    (hwrap : s.produced % size < s.consumed % size) :
    (result s).data = undelivered s ls ++ List.replicate (2 ^ 32 - size) 0 ∧
      (result s).data ≠ undelivered s ls := by
  obtain ⟨hi, hwr, hs⟩ := fresh_run hsz h0 h
  have hle := goodSize_le hsz
  have key : (result s).data = undelivered s ls ++ List.replicate (2 ^ 32 - size) 0 := by
    unfold result undelivered linearize
    rw [← hs] at hwrap ⊢
    have hpos := goodSize_pos hi.size
    have hm : s.consumed % s.size < s.size := Nat.mod_lt _ hpos
    simp only
    rw [if_neg (by omega), if_neg (by omega), wrapped_segments hi hwrap, hwr]
    congr 2
    have := congrArg List.length (wrapped_segments hi hwrap)
    simp only [List.length_append, List.length_drop, List.length_take, hi.blen] at this
    rw [← hwr]
    simp only [List.length_drop]
    rw [← hs] at hle
    omega
  refine ⟨key, ?_⟩
  rw [key]
  intro hc
  have := congrArg List.length hc
  simp only [List.length_append, List.length_replicate] at this
  omega

/-- A schedule on a four-byte buffer that is stopped in a wrapped state with two
undelivered bytes; the program stays within its credit. -/
def wrapRun : List Label :=
  [.tau, .tau, .sendFlow, .writeBegin [1, 2, 3], .writeCopy, .writePublish, .tau, .wret 3 false,
   .tau, .tau, .sendFlow, .tau, .tau, .tau, .tau, .wakeup, .writeBegin [4, 5], .writeCopy, .writePublish,
   .tau, .wret 0 false, .stop, .tau, .tau, .wakeup, .tau, .wret 0 false, .tau, .tau, .wakeup, .tau]

/-- C11: a wrapped state is reached by a program which stays within its credit. -/
theorem wrapped_reachable : ∃ s0 s, start (initialState 4) true = some s0 ∧ run s0 wrapRun = some s ∧
    s.pc = .finished ∧ s.produced % 4 < s.consumed % 4 ∧ undelivered s wrapRun = [4, 5] ∧
    (accepted none wrapRun).length ≤ s.flows.sum := by
  obtain ⟨s0, h0, s, h⟩ : ∃ s0, start (initialState 4) true = some s0 ∧
      ∃ s, run s0 wrapRun = some s ∧ s.pc = .finished ∧ s.produced % 4 < s.consumed % 4 ∧
      undelivered s wrapRun = [4, 5] ∧ (accepted none wrapRun).length ≤ s.flows.sum := by
    refine ⟨_, rfl, exists_of_run ?_⟩
    decide +kernel
  exact ⟨s0, s, h0, h⟩

/-! ### C53 -/

/-- C53 (what holds): if the bytes do not wrap around and the program stayed within
its credit, the suspended state can be marshaled. -/
theorem suspend_marshal_partial (size : Nat) (hsz : GoodSize size) (hasWriter : Bool) (s0 s : St)
    (ls : List Label) (h0 : start (initialState size) hasWriter = some s0) (h : run s0 ls = some s)
    (hnowrap : s.consumed % size ≤ s.produced % size)
    (hcredit : (accepted none ls).length ≤ s.flows.sum) :
    ∃ n, (result s).marshaledSize = .ok n := by
  obtain ⟨hi, hwr, hs⟩ := fresh_run hsz h0 h
  have hle := goodSize_le hsz
  have h1 := hi.sub; have h2 := hi.cred; have h3 := hi.subLt; have h4 := hi.dle; have h5 := hi.gap
  have hd := (suspend_partial size hsz hasWriter s0 s ls h0 h hnowrap).1
  have hdl : (result s).data.length < size := by
    rw [hd, undelivered, ← hwr, List.length_drop]; omega
  unfold credit at h1 h2
  rw [← hwr] at hcredit
  have hsub : s.subscribed ≤ 2 ^ 31 - 1 := by omega
  have hfl : (result s).flags ≤ 2 ^ 31 - 1 := by
    unfold result flagSubscribing flagReadWriting flagSendReceiving
    simp only
    split <;> split <;> split <;> omega
  have hdl2 : (result s).data.length ≤ 2 ^ 31 - 1 := by omega
  obtain ⟨e1, _, _, n1, _⟩ := varint_facts (result s).flags hfl
  obtain ⟨e2, _, _, n2, _⟩ := varint_facts (result s).subscribed hsub
  obtain ⟨e3, _, _, n3, _⟩ := varint_facts (result s).data.length hdl2
  have hmod : (result s).data.length % 2 ^ 32 = (result s).data.length := Nat.mod_eq_of_lt (by omega)
  refine ⟨e1.length + e2.length + e3.length + (result s).data.length, ?_⟩
  unfold State.marshaledSize
  rw [toSigned_small hfl, toSigned_small (n := (result s).subscribed) hsub, hmod, toSigned_small hdl2,
    n1, n2, n3]
  rfl

theorem marshaledSize_panic_of_data {st : State} (h1 : ∃ a, Varint.len (toSigned 32 st.flags) = .ok a)
    (h3 : Varint.len (toSigned 32 (st.data.length % 2 ^ 32)) = .panic) :
    st.marshaledSize = .panic := by
  obtain ⟨a, h1⟩ := h1
  unfold State.marshaledSize
  rw [h1, h3]
  simp only [Res.bind_ok, Res.bind_panic]
  unfold Varint.len
  simp only
  split <;> rfl

theorem result_flags_len (s : St) : ∃ a, Varint.len (toSigned 32 (result s).flags) = .ok a := by
  have hfl : (result s).flags ≤ 2 ^ 31 - 1 := by
    unfold result flagSubscribing flagReadWriting flagSendReceiving
    simp only
    split <;> split <;> split <;> omega
  obtain ⟨e1, _, _, n1, _⟩ := varint_facts (result s).flags hfl
  exact ⟨_, by rw [toSigned_small hfl]; exact n1⟩

/-- C53 refuted, in every wrapped state: computing the size of the suspended state
panics. -/
theorem wrapped_suspend_panics (size : Nat) (hsz : GoodSize size) (hasWriter : Bool) (s0 s : St)
    (ls : List Label) (h0 : start (initialState size) hasWriter = some s0) (h : run s0 ls = some s)
    (hwrap : s.produced % size < s.consumed % size) : (result s).marshaledSize = .panic := by
  have hd := (suspend_wrapped size hsz hasWriter s0 s ls h0 h hwrap).1
  obtain ⟨hi, hwr, hs⟩ := fresh_run hsz h0 h
  have hle := goodSize_le hsz
  have hgap := hi.gap
  have hlen : (result s).data.length = s.written.length - s.delivered.length + (2 ^ 32 - size) := by
    rw [hd, undelivered, ← hwr]; simp only [List.length_append, List.length_drop, List.length_replicate]
  apply marshaledSize_panic_of_data (result_flags_len s)
  have hval : toSigned 32 ((result s).data.length % 2 ^ 32)
      = ((s.written.length - s.delivered.length : Nat) : Int) - size := by
    rw [hlen]; unfold toSigned; rw [if_neg (by omega)]; omega
  rw [hval]
  exact Varint.len_negative _ (by omega) (by omega)

/-- C53 refuted, for a program which exceeds its credit: whenever the delivered
bytes exceed the credit by less than 2^31, computing the size of the suspended
state panics. -/
theorem overdrawn_suspend_panics (size : Nat) (hsz : GoodSize size) (hasWriter : Bool) (s0 s : St)
    (ls : List Label) (h0 : start (initialState size) hasWriter = some s0) (h : run s0 ls = some s)
    (hover : s.flows.sum < s.delivered.length) (hover2 : s.delivered.length < s.flows.sum + 2 ^ 31) :
    (result s).marshaledSize = .panic := by
  obtain ⟨hi, hwr, hs⟩ := fresh_run hsz h0 h
  have h1 := hi.sub; have h3 := hi.subLt
  unfold credit at h1
  obtain ⟨a, ha⟩ := result_flags_len s
  unfold State.marshaledSize
  rw [ha]
  have hval : toSigned 32 (result s).subscribed = (s.flows.sum : Int) - s.delivered.length := by
    show toSigned 32 s.subscribed = _
    unfold toSigned; rw [if_neg (by omega)]; omega
  rw [hval, Varint.len_negative _ (by omega) (by omega)]
  rfl

/-- A program which writes one byte without having received any credit; the
byte is delivered and the transfer is stopped. -/
def overRun : List Label :=
  [.writeBegin [9], .writeCopy, .writePublish, .tau, .tau, .wakeup, .tau, .wret 1 false, .stop,
   .tau, .tau, .wakeup, .tau]

example : ∃ s0 s, start (initialState 4) true = some s0 ∧ run s0 overRun = some s ∧
    s.pc = .finished ∧ s.flows.sum < s.delivered.length ∧ s.delivered.length < s.flows.sum + 2 ^ 31 := by
  obtain ⟨s0, h0, s, h⟩ : ∃ s0, start (initialState 4) true = some s0 ∧
      ∃ s, run s0 overRun = some s ∧ s.pc = .finished ∧ s.flows.sum < s.delivered.length ∧
        s.delivered.length < s.flows.sum + 2 ^ 31 := by
    refine ⟨_, rfl, exists_of_run ?_⟩
    decide +kernel
  exact ⟨s0, s, h0, h⟩

/-! ### C12 -/

/-- C12 refuted, in every case: a stream whose program stayed within its credit
cannot be continued, because `Transfer` of the unmarshaled stream returns
"subscription overflow" without transferring anything. -/
theorem restored_transfer_fails (size : Nat) (hsz : GoodSize size) (hasWriter : Bool) (s0 s : St)
    (ls : List Label) (h0 : start (initialState size) hasWriter = some s0) (h : run s0 ls = some s)
    (hcredit : (accepted none ls).length ≤ s.flows.sum)
    (src : Bytes) (maxData : Nat) (st : State) (tail : Bytes)
    (hu : unmarshal src maxData = .ok (st, tail)) (hsame : SameContents st (result s))
    (hasWriter' : Bool) : start st hasWriter' = none := by
  obtain ⟨hi, hwr, hs⟩ := fresh_run hsz h0 h
  obtain ⟨hcap, hcap2⟩ := unmarshal_cap hu
  obtain ⟨_, hsub, hdata⟩ := hsame
  have hle := goodSize_le hsz
  have h1 := hi.sub; have h2 := hi.cred; have h3 := hi.subLt; have h4 := hi.dle; have h5 := hi.gap
  unfold credit at h1 h2
  rw [← hwr] at hcredit
  unfold start
  rw [if_pos]
  rw [hsub, hcap, hdata]
  show s.subscribed ≥ _
  by_cases hw : s.consumed % size ≤ s.produced % size
  · rw [(suspend_partial size hsz hasWriter s0 s ls h0 h hw).1, undelivered, ← hwr, List.length_drop]
    omega
  · exfalso
    have hd := (suspend_wrapped size hsz hasWriter s0 s ls h0 h (by omega)).1
    rw [hcap, hdata, hd] at hcap2
    simp only [List.length_append, List.length_replicate] at hcap2
    omega

/-- A program that writes one byte within its credit and closes its side; the byte
is not delivered before the transfer is stopped. -/
def closeRun : List Label :=
  [.tau, .tau, .sendFlow, .writeBegin [9], .writeCopy, .writePublish, .closeWrite, .stop,
   .tau, .wret 0 false, .tau, .tau, .wakeup, .tau, .wret 0 false, .tau, .tau, .wakeup, .tau]

/-- C12 refuted: the state of a stream which was closed by the program but still
has an undelivered byte is marshaled, but refused by unmarshaling. -/
theorem closed_stream_not_restorable : ∃ s0 s, start (initialState 4) true = some s0 ∧
    run s0 closeRun = some s ∧ s.pc = .finished ∧ (result s).data = [9] ∧
    ∃ n, (result s).marshaledSize = .ok n ∧ ∀ dest : Bytes, n ≤ dest.length →
      ∃ w, (result s).marshal dest = .ok (w, dest.drop n) ∧
        ∀ tail maxData, ∃ m, unmarshal (w ++ tail) maxData = .err m := by
  obtain ⟨s0, h0, s, h, hpc, hres⟩ : ∃ s0, start (initialState 4) true = some s0 ∧
      ∃ s, run s0 closeRun = some s ∧ s.pc = .finished ∧ result s = ⟨3, 3, [9], 4⟩ := by
    refine ⟨_, rfl, exists_of_run ?_⟩
    decide +kernel
  refine ⟨s0, s, h0, h, hpc, by rw [hres], ?_⟩
  rw [hres]
  have hinc : ¬ Consistent ⟨3, 3, [9], 4⟩ := by unfold Consistent; decide
  obtain ⟨n, hn, hm⟩ := inconsistent_rejected ⟨3, 3, [9], 4⟩ (by simp) (by simp) (by simp) hinc 0
  refine ⟨n, hn, ?_⟩
  intro dest hdest
  obtain ⟨w, hw, _⟩ := hm dest hdest
  refine ⟨w, hw, ?_⟩
  intro tail maxData
  obtain ⟨n', hn', hm'⟩ := inconsistent_rejected ⟨3, 3, [9], 4⟩ (by simp) (by simp) (by simp) hinc maxData
  rw [hn] at hn'
  cases hn'
  obtain ⟨w', hw', hu⟩ := hm' dest hdest
  rw [hw] at hw'
  cases hw'
  exact hu tail

/-- The hypotheses of the theorems above are met: a new stream with a 512-byte buffer
starts, and writing is possible. -/
example : GoodSize 512 := ⟨9, by omega, rfl⟩
example : ∃ s0, start (initialState 512) true = some s0 ∧ canWrite s0 (List.replicate 511 1) = true ∧
    canWrite s0 (List.replicate 512 1) = false := ⟨_, rfl, by decide +kernel, by decide +kernel⟩

end Gate.WriteStream
