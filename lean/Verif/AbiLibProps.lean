import Verif.AbiLib
/-
C96: the library functions access only the program's memory.
-/
namespace Gate.AbiLib
open Gate Gate.ImageFile Gate.Rt

/-- The states differ only in memory which isn't the program's. -/
def TwinSt (f : File) (s1 s2 : St) : Prop :=
  s2 = { s1 with space := s2.space } ∧ (∀ x, InMemory s1 x → s2.space x = s1.space x) ∧ ∀ x, ¬ InMemory s1 x → s2.space x = f x

def Twin {α : Type} (f : File) : Out α → Out α → Prop
  | .ok a s1, .ok b s2 => a = b ∧ TwinSt f s1 s2
  | .exit m s1, .exit n s2 => m = n ∧ TwinSt f s1 s2
  | .wait s1, .wait s2 => TwinSt f s1 s2
  | _, _ => False

/-- The computation changes nothing but what it may, and its effects don't depend on what is in other memory (`f`). -/
structure Good {α : Type} (m : M α) : Prop where
  inv : ∀ s, Rt.Inv s → Rt.Inv (m s).st
  same : ∀ s, Rt.Inv s → Same s (m s).st
  pages : ∀ s, Rt.Inv s → (m s).st.pages = s.pages
  frame : ∀ s, Rt.Inv s → ∀ x, ¬ InMemory s x → (m s).st.space x = s.space x
  twin : ∀ s, Rt.Inv s → ∀ f : File, (∀ x, InMemory s x → f x = s.space x) → Twin f (m s) (m { s with space := f })

theorem inv_space {s : St} (h : Rt.Inv s) (f : File) : Rt.Inv { s with space := f } := ⟨h.base, h.limit, h.pages, h.acc, h.avail⟩

theorem TwinSt.refl (f : File) (s : St) (h : ∀ x, InMemory s x → f x = s.space x) : TwinSt f s { s with space := f } := ⟨rfl, h, fun _ _ => rfl⟩

theorem Good.pure {α : Type} (a : α) : Good (Pure.pure a : M α) :=
  ⟨fun _ h => h, fun s _ => Same.refl s, fun _ _ => rfl, fun _ _ _ _ => rfl, fun s _ f hf => ⟨rfl, TwinSt.refl f s hf⟩⟩

theorem Good.exit {α : Type} (n : Nat) : Good (Rt.exit n : M α) :=
  ⟨fun _ h => h, fun s _ => Same.refl s, fun _ _ => rfl, fun _ _ _ _ => rfl, fun s _ f hf => ⟨rfl, TwinSt.refl f s hf⟩⟩

theorem bind_eq {α β : Type} (m : M α) (k : α → M β) (s : St) : (m >>= k) s = match m s with
  | .ok a s' => k a s'
  | .exit n s' => .exit n s'
  | .wait s' => .wait s' := rfl

theorem Good.bind' {α β : Type} {m : M α} {k : α → M β} (P : α → Prop) (hP : ∀ s a s', m s = .ok a s' → P a) (h : Good m) (hk : ∀ a, P a → Good (k a)) : Good (m >>= k) := by
  have inv : ∀ s, Rt.Inv s → Rt.Inv ((m >>= k) s).st := by
    intro s hs
    have := h.inv s hs
    rw [bind_eq]
    split <;> rename_i heq <;> rw [heq] at this
    · exact (hk _ (hP _ _ _ heq)).inv _ this
    · exact this
    · exact this
  have same : ∀ s, Rt.Inv s → Same s ((m >>= k) s).st := by
    intro s hs
    have h1 := h.inv s hs
    have := h.same s hs
    rw [bind_eq]
    split <;> rename_i heq <;> rw [heq] at this h1
    · have h2 := (hk _ (hP _ _ _ heq)).same _ h1
      exact ⟨h2.base.trans this.base, h2.limit.trans this.limit, h2.random.trans this.random⟩
    · exact this
    · exact this
  have pages : ∀ s, Rt.Inv s → ((m >>= k) s).st.pages = s.pages := by
    intro s hs
    have h1 := h.inv s hs
    have := h.pages s hs
    rw [bind_eq]
    split <;> rename_i heq <;> rw [heq] at this h1
    · exact ((hk _ (hP _ _ _ heq)).pages _ h1).trans this
    · exact this
    · exact this
  refine ⟨inv, same, pages, ?_, ?_⟩
  · intro s hs x hx
    have h1 := h.inv s hs
    have h2 := h.pages s hs
    have h3 := h.same s hs
    have := h.frame s hs x hx
    rw [bind_eq]
    split <;> rename_i heq <;> rw [heq] at this h1 h2 h3
    · refine ((hk _ (hP _ _ _ heq)).frame _ h1 x ?_).trans this
      unfold InMemory at *
      rw [h3.base, h2]; exact hx
    · exact this
    · exact this
  · intro s hs f hf
    have h1 := h.inv s hs
    have ht := h.twin s hs f hf
    rw [bind_eq, bind_eq]
    cases e1 : m s with
    | ok a s1 =>
      rw [e1] at ht h1
      cases e2 : m { s with space := f } with
      | ok b s2 =>
        rw [e2] at ht
        obtain ⟨hab, g1, g2, g3⟩ := ht
        subst hab
        simp only
        have := (hk a (hP _ _ _ e1)).twin s1 h1 s2.space g2
        rw [← g1] at this
        have hp := (hk a (hP _ _ _ e1)).pages s1 h1
        have hsm := (hk a (hP _ _ _ e1)).same s1 h1
        have conv : ∀ t1 t2 : St, t1.base = s1.base → t1.pages = s1.pages → TwinSt s2.space t1 t2 → TwinSt f t1 t2 := by
          intro t1 t2 hb hp ⟨q1, q2, q3⟩
          refine ⟨q1, q2, fun x hx => (q3 x hx).trans (g3 x ?_)⟩
          unfold InMemory at *
          rw [← hb, ← hp]; exact hx
        revert this hp hsm
        generalize k a s1 = o1
        generalize k a s2 = o2
        intro this hp hsm
        cases o1 <;> cases o2 <;> first | exact this.elim | skip
        · exact ⟨this.1, conv _ _ hsm.base hp this.2⟩
        · exact ⟨this.1, conv _ _ hsm.base hp this.2⟩
        · exact conv _ _ hsm.base hp this
      | exit n s2 => rw [e2] at ht; exact ht.elim
      | wait s2 => rw [e2] at ht; exact ht.elim
    | exit n s1 =>
      rw [e1] at ht
      cases e2 : m { s with space := f } with
      | ok b s2 => rw [e2] at ht; exact ht.elim
      | exit n s2 => rw [e2] at ht; exact ht
      | wait s2 => rw [e2] at ht; exact ht.elim
    | wait s1 =>
      rw [e1] at ht
      cases e2 : m { s with space := f } with
      | ok b s2 => rw [e2] at ht; exact ht.elim
      | exit n s2 => rw [e2] at ht; exact ht.elim
      | wait s2 => rw [e2] at ht; exact ht

theorem Good.bind {α β : Type} {m : M α} {k : α → M β} (h : Good m) (hk : ∀ a, Good (k a)) : Good (m >>= k) :=
  Good.bind' (fun _ => True) (fun _ _ _ _ => trivial) h fun a _ => hk a

theorem Good.ite {α : Type} {c : Prop} [Decidable c] {m n : M α} (h1 : Good m) (h2 : Good n) : Good (if c then m else n) := by
  split
  · exact h1
  · exact h2

/-- Steps which leave the memory and what is invariant alone. -/
theorem Good.of {α : Type} (m : M α) (h : ∀ s, Rt.Inv s → (∃ o d i k n, n ≤ 16 ∧ (m s).st = { s with out := o, dbg := d, inp := i, kern := k, randomAvail := n }) ∧
    ∀ f : File, (∀ x, InMemory s x → f x = s.space x) →
      match m s with
      | .ok a s1 => m { s with space := f } = .ok a { s1 with space := f }
      | .exit n s1 => m { s with space := f } = .exit n { s1 with space := f }
      | .wait s1 => m { s with space := f } = .wait { s1 with space := f }) : Good m := by
  have key : ∀ s, Rt.Inv s → ∃ o d i k n, n ≤ 16 ∧ (m s).st = { s with out := o, dbg := d, inp := i, kern := k, randomAvail := n } := fun s hs => (h s hs).1
  refine ⟨?_, ?_, ?_, ?_, ?_⟩
  · intro s hs
    obtain ⟨o, d, i, k, n, hn, e⟩ := key s hs
    rw [e]; exact ⟨hs.base, hs.limit, hs.pages, hs.acc, hn⟩
  · intro s hs
    obtain ⟨o, d, i, k, n, hn, e⟩ := key s hs
    rw [e]; exact ⟨rfl, rfl, rfl⟩
  · intro s hs
    obtain ⟨o, d, i, k, n, hn, e⟩ := key s hs
    rw [e]
  · intro s hs x _
    obtain ⟨o, d, i, k, n, hn, e⟩ := key s hs
    rw [e]
  · intro s hs f hf
    obtain ⟨o, d, i, k, n, hn, e⟩ := key s hs
    have h2 := (h s hs).2 f hf
    revert e h2
    generalize m s = r
    intro e h2
    have tw : ∀ s1 : St, s1 = { s with out := o, dbg := d, inp := i, kern := k, randomAvail := n } → TwinSt f s1 { s1 with space := f } := by
      intro s1 hs1
      subst hs1
      exact TwinSt.refl f _ hf
    cases r with
    | ok a s1 => simp only at h2; rw [h2]; exact ⟨rfl, tw s1 e⟩
    | exit n s1 => simp only at h2; rw [h2]; exact ⟨rfl, tw s1 e⟩
    | wait s1 => simp only at h2; rw [h2]; exact tw s1 e

theorem good_ld (n ea : Nat) : Good (ld n ea) := by
  refine Good.of _ fun s hs => ⟨?_, fun f hf => ?_⟩
  · unfold ld
    split <;> exact ⟨s.out, s.dbg, s.inp, s.kern, s.randomAvail, hs.avail, rfl⟩
  · unfold ld
    by_cases h : ea + n ≤ s.pages * 65536
    · have e : ImageFile.read f (s.base + ea) n = ImageFile.read s.space (s.base + ea) n :=
        read_ext _ _ _ _ _ fun k hk => hf _ ⟨by omega, by omega⟩
      simp only [if_pos h, e]
    · simp only [if_neg h]

theorem ld_lt (n ea : Nat) (s s' : St) (v : Nat) (h : ld n ea s = .ok v s') : v < 256 ^ n := by
  unfold ld at h
  split at h
  · cases h
    have := unle_lt (ImageFile.read s.space (s.base + ea) n)
    simpa [ImageFile.read] using this
  · cases h

theorem good_st (n ea v : Nat) : Good (st n ea v) := by
  have hw : ∀ (s : St) (x : Nat), ea + n ≤ s.pages * 65536 → ¬ InMemory s x → ¬ (s.base + ea ≤ x ∧ x < s.base + ea + (le n v).length) := by
    intro s x h hx
    unfold InMemory at hx
    rw [length_le]
    omega
  refine ⟨?_, ?_, ?_, ?_, ?_⟩
  · intro s hs; unfold st; split <;> exact ⟨hs.base, hs.limit, hs.pages, hs.acc, hs.avail⟩
  · intro s hs; unfold st; split <;> exact ⟨rfl, rfl, rfl⟩
  · intro s hs; unfold st; split <;> rfl
  · intro s hs x hx
    unfold st
    split
    · rename_i h
      simp only [Out.st, ImageFile.write]
      rw [if_neg (hw s x h hx)]
    · rfl
  · intro s hs f hf
    unfold st
    by_cases h : ea + n ≤ s.pages * 65536
    · simp only [if_pos h]
      refine ⟨rfl, rfl, fun x hx => ?_, fun x hx => ?_⟩
      · simp only [ImageFile.write]
        split
        · rfl
        · exact hf x hx
      · simp only [ImageFile.write]
        rw [if_neg (hw s x h hx)]
    · simp only [if_neg h]
      exact ⟨rfl, TwinSt.refl f s hf⟩

theorem good_write (a : Arch) (addr len : Nat) (ha : addr < w32) (hl : len < w32) : Good (rtWrite a addr len) := by
  refine Good.of _ fun s hs => ⟨?_, fun f hf => ?_⟩
  · simp only [rtWrite]
    repeat' split
    all_goals exact ⟨_, s.dbg, s.inp, _, s.randomAvail, hs.avail, rfl⟩
  · simp only [rtWrite]
    rw [prologue_space a s f addr len, prologue_exact a s hs addr len ha hl]
    by_cases h0 : len = 0
    · simp only [if_pos h0]
    · simp only [if_neg h0]
      by_cases h1 : addr + len ≤ s.pages * 65536
      · simp only [if_pos h1]
        cases hk : s.kern with
        | nil => simp [hk]
        | cons r k =>
          cases r with
          | wrote m =>
            simp only
            by_cases h2 : m ≤ len
            · have e : ImageFile.read f (s.base + addr) m = ImageFile.read s.space (s.base + addr) m :=
                read_ext _ _ _ _ _ fun k hk => hf _ ⟨by omega, by omega⟩
              simp only [if_pos h2, e]
              by_cases h3 : 0 < m
              · simp only [if_pos h3]
              · simp only [if_neg h3, Rt.exit]
            · simp [if_neg h2, hk]
          | err e =>
            simp only
            by_cases he : e = Rt.EAGAIN ∨ e = EINTR
            · simp only [if_pos he]
            · simp only [if_neg he, Rt.exit]
          | got b => simp [hk]
          | poll i o => simp [hk]
          | done => simp [hk]
      · simp only [if_neg h1, Rt.exit]

theorem good_read (a : Arch) (addr len : Nat) (ha : addr < w32) (hl : len < w32) : Good (rtRead a addr len) := by
  have hw : ∀ (s : St) (b : Bytes) (x : Nat), addr + len ≤ s.pages * 65536 → b.length ≤ len → ¬ InMemory s x → ¬ (s.base + addr ≤ x ∧ x < s.base + addr + b.length) := by
    intro s b x h hb hx
    unfold InMemory at hx
    omega
  have call : ∀ s, rtRead a addr len s = Rt.call a (.read addr len) s := fun _ => rfl
  refine ⟨fun s hs => ?_, fun s hs => ?_, fun s hs => ?_, fun s hs => ?_, fun s hs f hf => ?_⟩
  · exact (call_inv a s hs (.read addr len) ⟨ha, hl⟩).1
  · exact (call_inv a s hs (.read addr len) ⟨ha, hl⟩).2.1
  · simp only [rtRead]
    repeat' split
    all_goals rfl
  · exact (call_inv a s hs (.read addr len) ⟨ha, hl⟩).2.2
  · simp only [rtRead]
    rw [prologue_space a s f addr len, prologue_exact a s hs addr len ha hl]
    by_cases h0 : len = 0
    · simp only [if_pos h0]; exact ⟨rfl, TwinSt.refl f s hf⟩
    · simp only [if_neg h0]
      by_cases h1 : addr + len ≤ s.pages * 65536
      · simp only [if_pos h1]
        cases hk : s.kern with
        | nil => exact ⟨by simp [hk], hf, fun _ _ => rfl⟩
        | cons r k =>
          cases r with
          | got b =>
            simp only
            by_cases h2 : b.length ≤ len
            · simp only [if_pos h2]
              refine ⟨rfl, rfl, fun x hx => ?_, fun x hx => ?_⟩
              · simp only [ImageFile.write]
                split
                · rfl
                · exact hf x hx
              · simp only [ImageFile.write]
                rw [if_neg (hw s b x h1 h2 hx)]
            · simp only [if_neg h2]; exact ⟨by simp [hk], hf, fun _ _ => rfl⟩
          | err e =>
            simp only
            by_cases he : e = Rt.EAGAIN ∨ e = EINTR
            · simp only [if_pos he]; exact ⟨rfl, rfl, hf, fun _ _ => rfl⟩
            · simp only [if_neg he, Rt.exit]; exact ⟨rfl, rfl, hf, fun _ _ => rfl⟩
          | wrote m => exact ⟨by simp [hk], hf, fun _ _ => rfl⟩
          | poll i o => exact ⟨by simp [hk], hf, fun _ _ => rfl⟩
          | done => exact ⟨by simp [hk], hf, fun _ _ => rfl⟩
      · simp only [if_neg h1, Rt.exit]; exact ⟨rfl, rfl, hf, fun _ _ => rfl⟩

theorem good_debug (a : Arch) (addr len : Nat) (ha : addr < w32) (hl : len < w32) : Good (rtDebug a addr len) := by
  refine Good.of _ fun s hs => ⟨?_, fun f hf => ?_⟩
  · obtain ⟨d, r, hd⟩ := debug_frame a s.kern s addr len
    exact ⟨s.out, _, s.inp, r, s.randomAvail, hs.avail, hd⟩
  · have := debug_alike a s.kern s hs f hf addr len ha hl
    simp only [rtDebug]
    revert this
    generalize debugLoop a s addr len s.kern = x
    generalize debugLoop a { s with space := f } addr len s.kern = y
    intro this
    cases x <;> cases y <;> simp only at this <;> first | exact this.elim | skip
    · rw [this]
    · rw [this.1, this.2]
    · rw [this]

theorem good_poll (i o : Nat) : Good (rtPoll i o) := by
  refine Good.of _ fun s hs => ⟨?_, fun f hf => ?_⟩
  · simp only [rtPoll]
    repeat' split
    all_goals exact ⟨s.out, s.dbg, s.inp, _, s.randomAvail, hs.avail, rfl⟩
  · simp only [rtPoll]
    cases hk : s.kern with
    | nil => simp [hk]
    | cons r k =>
      cases r with
      | poll x y =>
        simp only
        by_cases h1 : ¬ (PollResp i x ∧ PollResp o y ∧ (x ≠ 0 ∨ y ≠ 0))
        · simp only [if_pos h1, hk]
        · simp only [if_neg h1]
          by_cases h2 : x &&& pollHup ≠ 0
          · simp only [if_pos h2]
          · simp only [if_neg h2]
            by_cases h3 : x ||| POLLIN ≠ POLLIN
            · simp only [if_pos h3, Rt.exit]
            · simp only [if_neg h3]
              by_cases h4 : y ||| POLLOUT ≠ POLLOUT
              · simp only [if_pos h4, Rt.exit]
              · simp only [if_neg h4]
      | err e =>
        simp only
        by_cases he : e = Rt.EAGAIN ∨ e = EINTR
        · simp only [if_pos he]
        · simp only [if_neg he, Rt.exit]
      | wrote m => simp [hk]
      | got b => simp [hk]
      | done => simp [hk]

theorem good_random : Good rtRandom := by
  refine Good.of _ fun s hs => ⟨?_, fun f hf => ?_⟩
  · have := hs.avail
    unfold rtRandom
    split
    · exact ⟨s.out, s.dbg, s.inp, s.kern, s.randomAvail, hs.avail, rfl⟩
    · exact ⟨s.out, s.dbg, s.inp, s.kern, s.randomAvail - 1, by omega, rfl⟩
  · unfold rtRandom
    by_cases h : s.randomAvail = 0
    · simp only [if_pos h]
    · simp only [if_neg h]

theorem good_ldBind {β : Type} (ea : Nat) {k : Nat → M β} (hk : ∀ v, v < w32 → Good (k v)) : Good (ld 4 ea >>= k) :=
  Good.bind' (fun v => v < w32) (fun s a s' h => ld_lt 4 ea s s' a h) (good_ld 4 ea) hk

theorem good_writeLoop (a : Arch) (n iov x : Nat) : Good (writeLoop a n iov x) := by
  induction n generalizing iov x with
  | zero => exact Good.pure _
  | succ n ih =>
    unfold writeLoop
    refine good_ldBind _ fun l hl => good_ldBind _ fun b hb => (good_write a b l hb hl).bind fun m => ?_
    exact Good.ite (Good.pure _) (ih _ _)

theorem good_readLoop (a : Arch) (n iov x : Nat) : Good (readLoop a n iov x) := by
  induction n generalizing iov x with
  | zero => exact Good.pure _
  | succ n ih =>
    unfold readLoop
    refine good_ldBind _ fun l hl => good_ldBind _ fun b hb => (good_read a b l hb hl).bind fun m => ?_
    exact Good.ite (Good.pure _) (ih _ _)

theorem good_debugVec (a : Arch) (n iov x : Nat) : Good (debugVec a n iov x) := by
  induction n generalizing iov x with
  | zero => exact Good.pure _
  | succ n ih =>
    unfold debugVec
    exact good_ldBind _ fun l hl => good_ldBind _ fun b hb => (good_debug a b l hb hl).bind fun _ => ih _ _

theorem good_putEvent (out u e t n : Nat) : Good (putEvent out u e t n) :=
  (good_st _ _ _).bind fun _ => (good_st _ _ _).bind fun _ => (good_st _ _ _).bind fun _ => (good_st _ _ _).bind fun _ => good_st _ _ _

theorem good_pollFd (sub t fd : Nat) (v : PollVars) : Good (pollFd sub t fd v) := by
  refine Good.ite (Good.ite ?_ ?_) (Good.ite ?_ (Good.pure _))
  · exact (good_ld _ _).bind fun _ => Good.pure _
  · exact (good_ld _ _).bind fun _ => Good.pure _
  · exact (good_ld _ _).bind fun _ => (good_st _ _ _).bind fun _ => (good_st _ _ _).bind fun _ => Good.pure _

theorem good_pollStd (sub t fd : Nat) (v : PollVars) : Good (pollStd sub t fd v) :=
  Good.ite ((good_ld _ _).bind fun _ => (good_putEvent _ _ _ _ _).bind fun _ => Good.pure _) (Good.pure _)

theorem good_pollLoop (n sub : Nat) (v : PollVars) : Good (pollLoop n sub v) := by
  induction n generalizing sub v with
  | zero => exact Good.pure _
  | succ n ih =>
    unfold pollLoop
    exact (good_ld _ _).bind fun t => Good.ite (Good.pure _) (Good.ite (Good.exit _)
      ((good_ld _ _).bind fun fd => (good_pollFd _ _ _ _).bind fun v => (good_pollStd _ _ _ _).bind fun v => ih _ _))

theorem good_pollEvent (r e u t : Nat) (v : PollVars) : Good (pollEvent r e u t v) :=
  Good.ite ((good_putEvent _ _ _ _ _).bind fun _ => Good.pure _) (Good.pure _)

theorem good_pollFinish (n : Nat) (v : PollVars) : Good (pollFinish n v) :=
  (good_poll _ _).bind fun _ => (good_pollEvent _ _ _ _ _).bind fun _ => (good_pollEvent _ _ _ _ _).bind fun _ => (good_st _ _ _).bind fun _ => Good.pure _

theorem good_randomGet (buf len : Nat) : Good (randomGet buf len) := by
  induction len generalizing buf with
  | zero => unfold randomGet; exact Good.pure _
  | succ n ih => unfold randomGet; exact good_random.bind fun v => Good.ite ((good_st _ _ _).bind fun _ => ih _) (Good.exit _)

/-- Every library function, with any arguments. -/
theorem good_lib (a : Arch) (rtTime : Nat → M Nat) (ht : ∀ n, Good (rtTime n)) (c : LibCall) : Good (libCall a rtTime c) := by
  cases c with
  | argsGet x y => exact Good.pure _
  | argsSizesGet x y => exact (good_st _ _ _).bind fun _ => (good_st _ _ _).bind fun _ => Good.pure _
  | clockResGet x y => exact Good.ite (Good.pure _) ((good_st _ _ _).bind fun _ => Good.pure _)
  | clockTimeGet x y z => exact Good.ite (Good.pure _) (Good.ite ((ht _).bind fun _ => (good_st _ _ _).bind fun _ => Good.pure _) (Good.exit _))
  | environGet x y =>
    exact (good_st _ _ _).bind fun _ => (good_st _ _ _).bind fun _ => (good_st _ _ _).bind fun _ => (good_st _ _ _).bind fun _ => (good_st _ _ _).bind fun _ =>
      (good_st _ _ _).bind fun _ => (good_st _ _ _).bind fun _ => (good_st _ _ _).bind fun _ => (good_st _ _ _).bind fun _ => (good_st _ _ _).bind fun _ => Good.pure _
  | environSizesGet x y => exact (good_st _ _ _).bind fun _ => (good_st _ _ _).bind fun _ => Good.pure _
  | io r rl nr s sl ns fl =>
    refine Good.bind ?_ fun _ => Good.pure _
    exact (Good.ite (good_poll _ _) (Good.pure _)).bind fun f => (Good.ite (good_writeLoop _ _ _ _) (Good.pure _)).bind fun n =>
      (Good.ite (good_st _ _ _) (Good.pure _)).bind fun _ => (Good.ite (good_readLoop _ _ _ _) (Good.pure _)).bind fun n => Good.ite (good_st _ _ _) (Good.pure _)
  | fd => exact Good.pure _
  | fdClose x => exact Good.ite (Good.pure _) (Good.exit _)
  | fdFdstatGet x y =>
    exact Good.ite (Good.pure _) ((good_st _ _ _).bind fun _ => (good_st _ _ _).bind fun _ => (good_st _ _ _).bind fun _ => (good_st _ _ _).bind fun _ => Good.pure _)
  | fdFdstatSetFlags x y => exact Good.ite (Good.pure _) (Good.pure _)
  | fdFdstatSetRights x y z =>
    exact Good.ite (Good.pure _) (Good.ite (Good.pure _) (Good.ite (Good.ite (Good.pure _) (Good.pure _)) (Good.ite (Good.pure _) (Good.ite (Good.pure _) (Good.ite (Good.pure _)
      (Good.ite (Good.pure _) (Good.exit _)))))))
  | fdFilestatGet x y =>
    exact Good.ite (Good.pure _) ((good_st _ _ _).bind fun _ => (good_st _ _ _).bind fun _ => (good_st _ _ _).bind fun _ => (good_st _ _ _).bind fun _ => (good_st _ _ _).bind fun _ =>
      (good_st _ _ _).bind fun _ => (good_st _ _ _).bind fun _ => (good_st _ _ _).bind fun _ => Good.pure _)
  | fdRead x y z w =>
    exact Good.ite (Good.pure _) (Good.ite (Good.pure _) (Good.ite (Good.pure _) ((good_readLoop _ _ _ _).bind fun _ => (good_st _ _ _).bind fun _ =>
      Good.ite (Good.pure _) (Good.pure _))))
  | fdRenumber x y => exact Good.ite (Good.pure _) (Good.ite (Good.pure _) (Good.exit _))
  | fdStub x => exact Good.ite (Good.pure _) (Good.pure _)
  | fdWrite x y z w =>
    exact Good.ite (Good.pure _) (Good.ite (Good.pure _) ((Good.ite (good_writeLoop _ _ _ _) (good_debugVec _ _ _ _)).bind fun _ => (good_st _ _ _).bind fun _ =>
      Good.ite (Good.pure _) (Good.pure _)))
  | pathStub => exact Good.pure _
  | pollOneoff x y z w =>
    refine (good_pollLoop _ _ _).bind fun r => ?_
    cases r with
    | inl e => exact Good.pure _
    | inr v =>
      exact good_pollFinish _ _
  | procExit x => exact Good.bind (Good.exit _) fun _ => Good.pure _
  | procRaise x => exact Good.exit _
  | randomGet x y => exact good_randomGet _ _
  | schedYield => exact Good.pure _
  | sockStub x => exact Good.ite (Good.pure _) (Good.pure _)

/-! ### Histories of programs -/

/-- The states of a program's process: a program runs its own code, which accesses its memory, grows it and calls library functions. -/
inductive LReach (a : Arch) (rtTime : Nat → M Nat) (i : Info) : St → Prop where
  | load (space : File) (acc0 : Nat → Bool) (k : List Resp) : LReach a rtTime i (load i space acc0 k)
  | mem {s : St} (f : File) : LReach a rtTime i s → (∀ x, ¬ InMemory s x → f x = s.space x) → LReach a rtTime i { s with space := f }
  | grow {s s' : St} (inc r : Nat) : LReach a rtTime i s → inc < w32 → growMemory a inc s = .ok r s' → LReach a rtTime i s'
  | lib {s s' : St} (c : LibCall) (r : Nat) : LReach a rtTime i s → libCall a rtTime c s = .ok r s' → LReach a rtTime i s'

theorem lreach_inv (a : Arch) (rtTime : Nat → M Nat) (ht : ∀ n, Good (rtTime n)) (i : Info) (hv : i.Valid) (s : St) (h : LReach a rtTime i s) : Rt.Inv s ∧ Fixed i s := by
  induction h with
  | load space acc0 k => exact ⟨load_inv i hv space acc0 k, ⟨rfl, rfl, rfl⟩⟩
  | mem f _ _ ih => exact ⟨inv_space ih.1 f, ⟨ih.2.base, ih.2.limit, ih.2.random⟩⟩
  | @grow s s' inc r _ hi hs ih =>
    have h1 := call_inv a s ih.1 (.growMemory inc) hi
    simp only [Rt.call, hs] at h1
    exact ⟨h1.1, ⟨h1.2.1.base.trans ih.2.base, h1.2.1.limit.trans ih.2.limit, h1.2.1.random.trans ih.2.random⟩⟩
  | @lib s s' c r _ hs ih =>
    have g := good_lib a rtTime ht c
    have h1 := g.inv s ih.1
    have h2 := g.same s ih.1
    rw [hs] at h1 h2
    exact ⟨h1, ⟨h2.base.trans ih.2.base, h2.limit.trans ih.2.limit, h2.random.trans ih.2.random⟩⟩

/-- After any history, whatever library function the program calls with whatever arguments, and however the call ends: no memory outside of the program's has changed, and the
same would have happened (same result, same output, same input consumed, same changes) whatever is in it. -/
theorem lib_confined (a : Arch) (rtTime : Nat → M Nat) (ht : ∀ n, Good (rtTime n)) (i : Info) (hv : i.Valid) (s : St) (h : LReach a rtTime i s) (c : LibCall) :
    (∀ x, ¬ InMemory s x → (libCall a rtTime c s).st.space x = s.space x) ∧
    ∀ f : File, (∀ x, InMemory s x → f x = s.space x) → Twin f (libCall a rtTime c s) (libCall a rtTime c { s with space := f }) :=
  have hi := (lreach_inv a rtTime ht i hv s h).1
  ⟨(good_lib a rtTime ht c).frame s hi, (good_lib a rtTime ht c).twin s hi⟩

end Gate.AbiLib
