import Verif.Start
namespace Gate.Start
open Gate Gate.Loader

theorem Ends.det {w : World} {s : State} {o p : Outcome} (h : Ends w s o) : Ends w s p → o = p := by
  induction h with
  | now e => intro h; cases h with
    | now e' => rw [e] at e'; cases e'; rfl
    | next e' => rw [e] at e'; cases e'
  | next e _ ih => intro h; cases h with
    | now e' => rw [e] at e'; cases e'
    | next e' h' => rw [e] at e'; cases e'; exact ih h'

section
variable {w : World} {f : Reg → Nat} {z : Bool} {k : Option Call} {c : List Line} {o : Outcome}

theorem ends_inl {s t : State} (h : step w s = .inl t) : Ends w s o ↔ Ends w t o := by
  constructor
  · intro e; cases e with
    | now e' => rw [h] at e'; cases e'
    | next e' h' => rw [h] at e'; cases e'; exact h'
  · exact .next h

theorem ends_inr {s : State} {p : Outcome} (h : step w s = .inr p) : Ends w s o ↔ p = o := by
  constructor
  · intro e; cases e with
    | now e' => rw [h] at e'; cases e'; rfl
    | next e' h' => rw [h] at e'; cases e'
  · rintro rfl; exact .now h

theorem s_lab (l : Label) : Ends w ⟨.lab l :: c, f, z, k⟩ o ↔ Ends w ⟨c, f, z, k⟩ o := ends_inl rfl
theorem s_mov (d r : Reg) : Ends w ⟨.ins (.mov d r) :: c, f, z, k⟩ o ↔ Ends w ⟨c, put f d (f r), z, k⟩ o := ends_inl rfl
theorem s_mov32 (d r : Reg) : Ends w ⟨.ins (.mov32 d r) :: c, f, z, k⟩ o ↔ Ends w ⟨c, put f d (f r % 2 ^ 32), z, k⟩ o := ends_inl rfl
theorem s_movi (d : Reg) (n : Nat) : Ends w ⟨.ins (.movi d n) :: c, f, z, k⟩ o ↔ Ends w ⟨c, put f d n, z, k⟩ o := ends_inl rfl
theorem s_addi (d : Reg) (n : Nat) : Ends w ⟨.ins (.addi d n) :: c, f, z, k⟩ o ↔ Ends w ⟨c, put f d ((f d + n) % 2 ^ 64), z, k⟩ o := ends_inl rfl
theorem s_cmp (r : Reg) (n : Nat) : Ends w ⟨.ins (.cmp r n) :: c, f, z, k⟩ o ↔ Ends w ⟨c, f, f r == n, k⟩ o := ends_inl rfl
theorem s_jmp (l : Label) : Ends w ⟨.ins (.jmp l) :: c, f, z, k⟩ o ↔ Ends w ⟨after l (text w.arch), f, z, k⟩ o := ends_inl rfl
theorem s_je (l : Label) : Ends w ⟨.ins (.je l) :: c, f, z, k⟩ o ↔ Ends w ⟨if z then after l (text w.arch) else c, f, z, k⟩ o := by
  rw [ends_inl (t := if z then ⟨after l (text w.arch), f, z, k⟩ else ⟨c, f, z, k⟩) rfl]
  cases z <;> rfl
theorem s_jne (l : Label) : Ends w ⟨.ins (.jne l) :: c, f, z, k⟩ o ↔ Ends w ⟨if z then c else after l (text w.arch), f, z, k⟩ o := by
  rw [ends_inl (t := if z then ⟨c, f, z, k⟩ else ⟨after l (text w.arch), f, z, k⟩) rfl]
  cases z <;> rfl
theorem s_load {d a : Reg} {v : Nat} (h : w.mem (f a) = some v) : Ends w ⟨.ins (.load d a) :: c, f, z, k⟩ o ↔ Ends w ⟨c, put f d v, z, k⟩ o :=
  ends_inl (by simp only [step, exec, h])
theorem s_cmpm {a : Reg} {n v : Nat} (h : w.mem (f a) = some v) : Ends w ⟨.ins (.cmpm a n) :: c, f, z, k⟩ o ↔ Ends w ⟨c, f, v == n, k⟩ o :=
  ends_inl (by simp only [step, exec, h])
theorem s_syscall : Ends w ⟨.ins .syscall :: c, f, z, k⟩ o ↔ (if f (sysNum w.arch) = exitGroup w.arch then .exit (f (sysArg w.arch) % 2 ^ 32) k else .astray) = o := ends_inr rfl

theorem p_same (r : Reg) (v : Nat) : put f r v r = v := by simp [put]
theorem p_other {r x : Reg} (v : Nat) (h : x ≠ r) : put f r v x = f x := by simp [put, h]
end

/-- The end of the text. -/
theorem ends_exit (w : World) (f : Reg → Nat) (z : Bool) (k : Option Call) (o : Outcome) :
    Ends w ⟨after .exit (text w.arch), f, z, k⟩ o ↔ .exit (f (sysArg w.arch) % 2 ^ 32) k = o := by
  cases h : w.arch with
  | x86 =>
    show Ends w ⟨[.ins (.movi .rax 231), .ins .syscall, .ins .trap], f, z, k⟩ o ↔ _
    rw [s_movi, s_syscall, h]
    simp [sysNum, sysArg, exitGroup, put]
  | arm =>
    show Ends w ⟨[.ins (.movi .x8 94), .ins .syscall, .ins .trap], f, z, k⟩ o ↔ _
    rw [s_movi, s_syscall, h]
    simp [sysNum, sysArg, exitGroup, put]

/-- Arguments or environment variables. -/
theorem ends_notEmpty (w : World) (f : Reg → Nat) (z : Bool) (o : Outcome) :
    Ends w ⟨after .vectorNotEmpty (text w.arch), f, z, none⟩ o ↔ .exit 36 none = o := by
  cases h : w.arch with
  | x86 =>
    show Ends w ⟨[.ins (.movi .rdi 36), .lab .exit, .ins (.movi .rax 231), .ins .syscall, .ins .trap], f, z, none⟩ o ↔ _
    rw [s_movi, s_lab]
    have := ends_exit w (put f .rdi 36) z none o
    rw [h] at this
    rw [show ([.ins (.movi .rax 231), .ins .syscall, .ins .trap] : List Line) = after .exit (text .x86) from rfl, this]
    rfl
  | arm =>
    show Ends w ⟨[.ins (.movi .x0 36), .lab .exit, .ins (.movi .x8 94), .ins .syscall, .ins .trap], f, z, none⟩ o ↔ _
    rw [s_movi, s_lab]
    have := ends_exit w (put f .x0 36) z none o
    rw [h] at this
    rw [show ([.ins (.movi .x8 94), .ins .syscall, .ins .trap] : List Line) = after .exit (text .arm) from rfl, this]
    rfl

/-- What is found in the rest of the auxiliary vector, at address p. -/
def searched (w : World) (argc p : Nat) (auxv : List (Nat × Nat)) : Outcome :=
  match findVdso auxv with
  | none => .exit 37 none
  | some base => mainEnd w argc base (p + 16 * (before auxv + 1))

def flat (auxv : List (Nat × Nat)) : List Nat := auxv.flatMap fun p => [p.1, p.2]

theorem flat_cons (x y : Nat) (l : List (Nat × Nat)) : flat ((x, y) :: l) = x :: y :: flat l := rfl

/-- main being called, and what follows. -/
theorem ends_main (w : World) (f : Reg → Nat) (z : Bool) (o : Outcome) (v : Nat) (hm : w.mem (f (args w.arch).2.2) = some v) (hp : f (args w.arch).2.2 + 8 < 2 ^ 64) :
    Ends w ⟨after .vdsoFound (text w.arch), f, z, none⟩ o ↔ mainEnd w (f (args w.arch).1) v (f (args w.arch).2.2 + 8) = o := by
  cases h : w.arch with
  | x86 =>
    rw [h] at hm hp
    replace hm : w.mem (f .rdx) = some v := hm
    replace hp : f .rdx + 8 < 2 ^ 64 := hp
    show Ends w ⟨.ins (.load .rsi .rdx) :: .ins (.addi .rdx 8) :: .ins .callMain :: .ins (.mov32 .rdi .rax) :: .ins (.jmp .exit) :: _, f, z, none⟩ o ↔ mainEnd w (f .rdi) v (f .rdx + 8) = o
    rw [s_load hm, s_addi]
    have e : (put f .rsi v .rdx + 8) % 2 ^ 64 = f .rdx + 8 := by
      rw [p_other _ (by decide)]
      exact Nat.mod_eq_of_lt hp
    rw [e]
    unfold mainEnd
    cases hw : w.main with
    | none =>
      refine ends_inr ?_
      simp only [step, exec, hw, h]
      rfl
    | some r =>
      refine (ends_inl (t := ⟨_, put (put w.junk .rsp (f .rsp)) .rax r, z, some ⟨f .rdi, v, f .rdx + 8⟩⟩) (by simp only [step, exec, hw, h]; rfl)).trans ?_
      rw [s_mov32, s_jmp, ends_exit, h]
      simp [sysArg, put]
  | arm =>
    rw [h] at hm hp
    replace hm : w.mem (f .x2) = some v := hm
    replace hp : f .x2 + 8 < 2 ^ 64 := hp
    show Ends w ⟨.ins (.load .x1 .x2) :: .ins (.addi .x2 8) :: .ins .callMain :: .ins (.jmp .exit) :: _, f, z, none⟩ o ↔ mainEnd w (f .x0) v (f .x2 + 8) = o
    rw [s_load hm, s_addi]
    have e : (put f .x1 v .x2 + 8) % 2 ^ 64 = f .x2 + 8 := by
      rw [p_other _ (by decide)]
      exact Nat.mod_eq_of_lt hp
    rw [e]
    unfold mainEnd
    cases hw : w.main with
    | none =>
      refine ends_inr ?_
      simp only [step, exec, hw, h]
      rfl
    | some r =>
      refine (ends_inl (t := ⟨_, put (put w.junk .sp (f .sp)) .x0 r, z, some ⟨f .x0, v, f .x2 + 8⟩⟩) (by simp only [step, exec, hw, h]; rfl)).trans ?_
      rw [s_jmp, ends_exit, h]
      simp [sysArg, put]

/-- The register of the auxiliary vector entry's type. -/
def typeReg : Arch → Reg
  | .x86 => .rbx
  | .arm => .x1

/-- The registers after an iteration. -/
def moved (a : Arch) (f : Reg → Nat) (p t : Nat) : Reg → Nat := put (put (put f (args a).2.2 p) (typeReg a) t) (args a).2.2 (p + 8)

/-- An iteration of the loop. -/
theorem ends_loop (w : World) (f : Reg → Nat) (z : Bool) (o : Outcome) (p t v : Nat) (hf : f (args w.arch).2.2 + 8 = p) (hp : p + 16 < 2 ^ 64)
    (ht : w.mem p = some t) (hv : w.mem (p + 8) = some v) :
    Ends w ⟨after .vdsoLoop (text w.arch), f, z, none⟩ o ↔
      if t = 33 then mainEnd w (f (args w.arch).1) v (p + 16) = o
      else if t = 0 then .exit 37 none = o
      else Ends w ⟨after .vdsoLoop (text w.arch), moved w.arch f p t, false, none⟩ o := by
  cases h : w.arch with
  | x86 =>
    rw [h] at hf
    replace hf : f .rdx + 8 = p := hf
    show Ends w ⟨.ins (.addi .rdx 8) :: .ins (.load .rbx .rdx) :: .ins (.addi .rdx 8) :: .ins (.cmp .rbx 33) :: .ins (.je .vdsoFound) :: .ins (.cmp .rbx 0) :: .ins (.jne .vdsoLoop) ::
      .ins (.movi .rdi 37) :: .ins (.jmp .exit) :: _, f, z, none⟩ o ↔ _
    rw [s_addi, hf, Nat.mod_eq_of_lt (by omega : p < 2 ^ 64), s_load (v := t) (by rw [p_same]; exact ht), s_addi, p_other (f := put f .rdx p) t (by decide), p_same,
      Nat.mod_eq_of_lt (by omega : p + 8 < 2 ^ 64), s_cmp, p_other (r := .rdx) _ (by decide), p_same, s_je]
    by_cases h33 : t = 33
    · subst h33
      simp only [beq_self_eq_true, if_true]
      rw [ends_main w _ _ o v (by rw [h]; exact hv) (by rw [h]; show p + 8 + 8 < _; omega), h]
      exact Iff.rfl
    · have e33 : (t == 33) = false := by simpa using h33
      simp only [e33, Bool.false_eq_true, if_false, h33]
      rw [s_cmp, p_other (r := .rdx) _ (by decide), p_same, s_jne]
      by_cases h0 : t = 0
      · subst h0
        simp only [beq_self_eq_true, if_true]
        rw [s_movi, s_jmp, ends_exit, h]
        simp [sysArg, put]
      · have e0 : (t == 0) = false := by simpa using h0
        simp only [e0, Bool.false_eq_true, if_false, h0, h]
        exact Iff.rfl
  | arm =>
    rw [h] at hf
    replace hf : f .x2 + 8 = p := hf
    show Ends w ⟨.ins (.addi .x2 8) :: .ins (.load .x1 .x2) :: .ins (.addi .x2 8) :: .ins (.cmp .x1 33) :: .ins (.je .vdsoFound) :: .ins (.cmp .x1 0) :: .ins (.jne .vdsoLoop) ::
      .ins (.movi .x0 37) :: .ins (.jmp .exit) :: _, f, z, none⟩ o ↔ _
    rw [s_addi, hf, Nat.mod_eq_of_lt (by omega : p < 2 ^ 64), s_load (v := t) (by rw [p_same]; exact ht), s_addi, p_other (f := put f .x2 p) t (by decide), p_same,
      Nat.mod_eq_of_lt (by omega : p + 8 < 2 ^ 64), s_cmp, p_other (r := .x2) _ (by decide), p_same, s_je]
    by_cases h33 : t = 33
    · subst h33
      simp only [beq_self_eq_true, if_true]
      rw [ends_main w _ _ o v (by rw [h]; exact hv) (by rw [h]; show p + 8 + 8 < _; omega), h]
      exact Iff.rfl
    · have e33 : (t == 33) = false := by simpa using h33
      simp only [e33, Bool.false_eq_true, if_false, h33]
      rw [s_cmp, p_other (r := .x2) _ (by decide), p_same, s_jne]
      by_cases h0 : t = 0
      · subst h0
        simp only [beq_self_eq_true, if_true]
        rw [s_movi, s_jmp, ends_exit, h]
        simp [sysArg, put]
      · have e0 : (t == 0) = false := by simpa using h0
        simp only [e0, Bool.false_eq_true, if_false, h0, h]
        exact Iff.rfl

theorem moved_args (a : Arch) (f : Reg → Nat) (p t : Nat) : moved a f p t (args a).1 = f (args a).1 ∧ moved a f p t (args a).2.2 = p + 8 := by
  cases a <;> exact ⟨rfl, rfl⟩

/-- The loop, over the rest of the auxiliary vector. -/
theorem ends_search (w : World) (o : Outcome) (x : Nat) (l : List (Nat × Nat)) (hl : ∀ q ∈ l, q.1 ≠ 0) :
    ∀ (f : Reg → Nat) (z : Bool) (p : Nat), f (args w.arch).2.2 + 8 = p → p + 8 * (flat (l ++ [(0, x)])).length < 2 ^ 64 →
      (∀ i v, (flat (l ++ [(0, x)]))[i]? = some v → w.mem (p + 8 * i) = some v) →
      (Ends w ⟨after .vdsoLoop (text w.arch), f, z, none⟩ o ↔ searched w (f (args w.arch).1) p (l ++ [(0, x)]) = o) := by
  induction l with
  | nil =>
    intro f z p hf hp hm
    rw [ends_loop w f z o p 0 x hf hp (hm 0 0 rfl) (hm 1 x rfl)]
    exact Iff.rfl
  | cons q l ih =>
    obtain ⟨t, v⟩ := q
    intro f z p hf hp hm
    replace hp : p + 8 * (t :: v :: flat (l ++ [(0, x)])).length < 2 ^ 64 := hp
    replace hm : ∀ i u, (t :: v :: flat (l ++ [(0, x)]))[i]? = some u → w.mem (p + 8 * i) = some u := hm
    simp only [List.length_cons] at hp
    have h0 : t ≠ 0 := hl (t, v) (by simp)
    rw [ends_loop w f z o p t v hf (by omega) (hm 0 t rfl) (hm 1 v rfl)]
    simp only [h0, if_false]
    unfold searched
    rw [List.cons_append]
    unfold findVdso before
    by_cases h33 : t = 33
    · simp only [h33, if_true]
    · simp only [h33, h0, if_false]
      rw [ih (fun q hq => hl q (by simp [hq])) _ _ (p + 16) (by rw [(moved_args w.arch f p t).2]) (by omega)
        (fun i u hu => by have := hm (i + 2) u hu; rw [show p + 16 + 8 * i = p + 8 * (i + 2) by omega]; exact this), (moved_args w.arch f p t).1]
      unfold searched
      rw [show p + 16 * (before (l ++ [(0, x)]) + 1 + 1) = p + 16 + 16 * (before (l ++ [(0, x)]) + 1) by omega]

/-- Both routines: what happens for whatever the kernel has put on the stack. -/
def spec (w : World) (sp : Nat) (regs : Reg → Nat) (argv env : List Nat) (auxv : List (Nat × Nat)) : Outcome :=
  if argv ≠ [] ∨ env ≠ [] then .exit 36 none
  else match findVdso auxv with
    | none => .exit 37 none
    | some base => mainEnd w (argcOf w regs) base (sp + 24 + 16 * (before auxv + 1))

theorem start_exact (w : World) (sp : Nat) (regs : Reg → Nat) (argv env : List Nat) (auxv : List (Nat × Nat)) (ha : Proper auxv) (he : ∀ x ∈ env, x ≠ 0)
    (hs : OnStack w sp (words argv env auxv)) (o : Outcome) : Ends w (start w sp regs) o ↔ o = spec w sp regs argv env auxv := by
  obtain ⟨hb, hm⟩ := hs
  obtain ⟨l, x, rfl, hl⟩ := ha
  have m0 := hm 0 argv.length rfl
  have hlen : 8 * 5 ≤ 8 * (words argv env (l ++ [(0, x)])).length := by simp [words]; omega
  have m2 : argv = [] → ∃ e, w.mem (sp + 8 + 8) = some e ∧ (e = 0 ↔ env = []) := by
    rintro rfl
    cases env with
    | nil => exact ⟨0, hm 2 0 rfl, by simp⟩
    | cons e env => exact ⟨e, hm 2 e rfl, by simpa using he e (by simp)⟩
  have search : ∀ a, w.arch = a → env = [] → argv = [] → ∀ f z, f (args a).2.2 = sp + 16 →
      (Ends w ⟨after .vdsoLoop (text a), f, z, none⟩ o ↔ searched w (f (args a).1) (sp + 24) (l ++ [(0, x)]) = o) := by
    rintro a rfl rfl rfl f z hf
    refine ends_search w o x l hl f z (sp + 24) (by rw [hf]) ?_ fun i v hi => ?_
    · have : (words [] [] (l ++ [(0, x)])).length = (flat (l ++ [(0, x)])).length + 3 := by simp [words, flat]
      omega
    · rw [show sp + 24 + 8 * i = sp + 8 * (i + 3) by omega]
      exact hm (i + 3) v hi
  rw [eq_comm (a := o)]
  unfold spec
  cases h : w.arch with
  | x86 =>
    unfold start
    rw [h]
    show Ends w ⟨.ins (.mov .rdx .rsp) :: .ins (.load .rdi .rdx) :: .ins (.cmp .rdi 0) :: .ins (.jne .vectorNotEmpty) :: .ins (.addi .rdx 8) :: .ins (.addi .rdx 8) :: _, put regs .rsp sp, false, none⟩ o ↔ _
    rw [s_mov, p_same, s_load (v := argv.length) (by rw [p_same]; exact m0), s_cmp, p_same, s_jne]
    by_cases hv : argv = []
    · subst hv
      obtain ⟨e, m2, hz⟩ := m2 rfl
      rw [if_pos (by rfl), s_addi, p_other (f := put (put regs .rsp sp) .rdx sp) _ (by decide), p_same, Nat.mod_eq_of_lt (by omega : sp + 8 < 2 ^ 64), s_addi, p_same,
        Nat.mod_eq_of_lt (by omega : sp + 8 + 8 < 2 ^ 64)]
      rw [s_cmpm (v := e) (by rw [p_same]; exact m2), s_jne]
      by_cases hn : env = []
      · rw [if_pos (by rw [(hz.2 hn)]; rfl), s_lab, if_neg (by simp [hn])]
        rw [show argcOf w regs = 0 by unfold argcOf; rw [h]]
        exact search _ h hn rfl _ _ rfl
      · rw [if_neg (by simpa using fun e0 => hn (hz.1 e0)), if_pos (Or.inr hn), ends_notEmpty]
    · have hv' : (argv.length == 0) = false := by simpa using hv
      rw [hv', if_neg (by decide), if_pos (Or.inl hv), ends_notEmpty]
  | arm =>
    unfold start
    rw [h]
    show Ends w ⟨.ins (.mov .x2 .sp) :: .ins (.load .x1 .x2) :: .ins (.cmp .x1 0) :: .ins (.jne .vectorNotEmpty) :: .ins (.addi .x2 8) :: .ins (.addi .x2 8) :: _, put regs .sp sp, false, none⟩ o ↔ _
    rw [s_mov, p_same, s_load (v := argv.length) (by rw [p_same]; exact m0), s_cmp, p_same, s_jne]
    by_cases hv : argv = []
    · subst hv
      obtain ⟨e, m2, hz⟩ := m2 rfl
      rw [if_pos (by rfl), s_addi, p_other (f := put (put regs .sp sp) .x2 sp) _ (by decide), p_same, Nat.mod_eq_of_lt (by omega : sp + 8 < 2 ^ 64), s_addi, p_same,
        Nat.mod_eq_of_lt (by omega : sp + 8 + 8 < 2 ^ 64)]
      rw [s_load (v := e) (by rw [p_same]; exact m2), s_cmp, p_same, s_jne]
      by_cases hn : env = []
      · rw [if_pos (by rw [(hz.2 hn)]; rfl), s_lab, if_neg (by simp [hn])]
        rw [show argcOf w regs = regs .x0 by unfold argcOf; rw [h]]
        exact search _ h hn rfl _ _ rfl
      · rw [if_neg (by simpa using fun e0 => hn (hz.1 e0)), if_pos (Or.inr hn), ends_notEmpty]
    · have hv' : (argv.length == 0) = false := by simpa using hv
      rw [hv', if_neg (by decide), if_pos (Or.inl hv), ends_notEmpty]

/-- Arguments or environment variables: the process exits with an error, without main having been called. -/
theorem refused (w : World) (sp : Nat) (regs : Reg → Nat) (argv env : List Nat) (auxv : List (Nat × Nat)) (ha : Proper auxv) (he : ∀ x ∈ env, x ≠ 0)
    (hs : OnStack w sp (words argv env auxv)) : Ends w (start w sp regs) (.exit 36 none) ↔ argv ≠ [] ∨ env ≠ [] := by
  rw [start_exact w sp regs argv env auxv ha he hs]
  unfold spec
  constructor
  · intro h
    by_cases hc : argv ≠ [] ∨ env ≠ []
    · exact hc
    · rw [if_neg hc] at h
      cases hv : findVdso auxv with
      | none => rw [hv] at h; cases h
      | some b =>
        rw [hv] at h
        simp only [mainEnd] at h
        cases hw : w.main with
        | none => rw [hw] at h; cases h
        | some v => rw [hw] at h; simp at h
  · intro h; rw [if_pos h]

/-- Otherwise main is called, with the first vDSO address of the auxiliary vector, whatever else is in the vector, and the process exits with what main returns. -/
theorem main_called (w : World) (sp : Nat) (regs : Reg → Nat) (pre post : List (Nat × Nat)) (base x : Nat) (hpre : ∀ p ∈ pre, p.1 ≠ 0 ∧ p.1 ≠ 33) (hpost : ∀ p ∈ post, p.1 ≠ 0)
    (hs : OnStack w sp (words [] [] (pre ++ (33, base) :: post ++ [(0, x)]))) (o : Outcome) :
    Ends w (start w sp regs) o ↔ o = mainEnd w (argcOf w regs) base (sp + 8 * (3 + 2 * (pre.length + 1))) := by
  rw [start_exact w sp regs [] [] _ ⟨pre ++ (33, base) :: post, x, rfl, ?_⟩ (by simp) hs]
  · have e : ∀ pre : List (Nat × Nat), (∀ p ∈ pre, p.1 ≠ 0 ∧ p.1 ≠ 33) → findVdso (pre ++ (33, base) :: post ++ [(0, x)]) = some base ∧ before (pre ++ (33, base) :: post ++ [(0, x)]) = pre.length := by
      intro pre hpre
      induction pre with
      | nil => exact ⟨rfl, rfl⟩
      | cons p pre ih =>
        obtain ⟨t, v⟩ := p
        have h1 := hpre (t, v) (by simp)
        have := ih fun q hq => hpre q (by simp [hq])
        simp only [List.cons_append, List.append_assoc] at this ⊢
        simp only [findVdso, before, if_neg h1.1, if_neg h1.2, this, List.length_cons, and_self]
    unfold spec
    rw [if_neg (by simp), (e pre hpre).1, (e pre hpre).2]
    rw [show sp + 24 + 16 * (pre.length + 1) = sp + 8 * (3 + 2 * (pre.length + 1)) by omega]
  · intro p hp
    simp only [List.mem_append, List.mem_cons] at hp
    obtain hp | rfl | hp := hp
    · exact (hpre p hp).1
    · show (33 : Nat) ≠ 0; decide
    · exact hpost p hp

/-- Without a vDSO. -/
theorem no_vdso (w : World) (sp : Nat) (regs : Reg → Nat) (l : List (Nat × Nat)) (x : Nat) (hl : ∀ p ∈ l, p.1 ≠ 0 ∧ p.1 ≠ 33)
    (hs : OnStack w sp (words [] [] (l ++ [(0, x)]))) (o : Outcome) : Ends w (start w sp regs) o ↔ o = .exit 37 none := by
  rw [start_exact w sp regs [] [] _ ⟨l, x, rfl, fun p hp => (hl p hp).1⟩ (by simp) hs]
  have e : findVdso (l ++ [(0, x)]) = none := by
    clear hs
    induction l with
    | nil => rfl
    | cons p l ih =>
      obtain ⟨t, v⟩ := p
      have h1 := hl (t, v) (by simp)
      simp only [List.cons_append, findVdso, if_neg h1.1, if_neg h1.2]
      exact ih fun q hq => hl q (by simp [hq])
  unfold spec
  rw [if_neg (by simp), e]

/-- The model of the loader (C144) begins as the routines do. -/
theorem agrees (w : World) (sp : Nat) (regs : Reg → Nat) (argv env : List Nat) (e : Loader.Env) (ha : Proper e.auxv) (he : ∀ x ∈ env, x ≠ 0)
    (hargc : e.argc = argv.length) (henv : e.envEmpty = env.isEmpty) (hs : OnStack w sp (words argv env e.auxv)) (o : Outcome) (ho : Ends w (start w sp regs) o) :
    (∀ c, o = .exit c none → (Loader.load e).2 = .exit c) ∧
    ((∀ c, o ≠ .exit c none) → e.argc = 0 ∧ e.envEmpty = true ∧ ∃ base, findVdso e.auxv = some base ∧ o = mainEnd w (argcOf w regs) base (sp + 24 + 16 * (before e.auxv + 1))) := by
  have hv : e.argc ≠ 0 ∨ e.envEmpty = false ↔ argv ≠ [] ∨ env ≠ [] := by
    rw [hargc, henv]
    cases argv <;> cases env <;> simp
  rw [start_exact w sp regs argv env e.auxv ha he hs] at ho
  subst ho
  unfold spec Loader.load
  by_cases hc : argv ≠ [] ∨ env ≠ []
  · rw [if_pos hc, if_pos (hv.2 hc)]
    exact ⟨fun c h => by cases h; rfl, fun h => absurd rfl (h 36)⟩
  · rw [if_neg hc, if_neg (fun h => hc (hv.1 h))]
    have hz : e.argc = 0 ∧ e.envEmpty = true := by
      have := fun h => hc (hv.1 h)
      simpa using this
    cases hf : findVdso e.auxv with
    | none => exact ⟨fun c h => by cases h; rfl, fun h => absurd rfl (h 37)⟩
    | some base =>
      refine ⟨fun c h => ?_, fun _ => ⟨hz.1, hz.2, base, rfl, rfl⟩⟩
      simp only [mainEnd] at h
      cases hw : w.main with
      | none => rw [hw] at h; cases h
      | some v => rw [hw] at h; simp at h

/-- A memory with the words at an address, and nothing else. -/
def memOf (sp : Nat) (ws : List Nat) (a : Nat) : Option Nat := if sp ≤ a ∧ (a - sp) % 8 = 0 then ws[(a - sp) / 8]? else none

theorem memOf_onStack (w : World) (sp : Nat) (ws : List Nat) (hw : w.mem = memOf sp ws) (h : sp + 8 * ws.length < 2 ^ 64) : OnStack w sp ws := by
  refine ⟨h, fun i v hi => ?_⟩
  rw [hw]
  unfold memOf
  rw [if_pos ⟨by omega, by omega⟩, show (sp + 8 * i - sp) / 8 = i by omega, hi]

/-- The hypotheses are met: a vector with the hardware capabilities and the page size before the vDSO; nothing but the vector is readable. -/
example (a : Arch) (regs : Reg → Nat) : let w : World := ⟨a, memOf 0x7ffff000 (words [] [] [(16, 33), (6, 4096), (33, 0x7fff8000), (3, 64), (0, 0)]), some 44, fun _ => 7⟩
    Ends w (start w 0x7ffff000 regs) (.exit 44 (some ⟨argcOf w regs, 0x7fff8000, 0x7ffff000 + 72⟩)) :=
  (main_called ⟨a, memOf 0x7ffff000 (words [] [] [(16, 33), (6, 4096), (33, 0x7fff8000), (3, 64), (0, 0)]), some 44, fun _ => 7⟩ 0x7ffff000 regs [(16, 33), (6, 4096)] [(3, 64)] 0x7fff8000 0
    (by decide) (by decide) (memOf_onStack _ _ _ rfl (by decide)) _).2 rfl

/-- With an argument. -/
example (a : Arch) (regs : Reg → Nat) : let w : World := ⟨a, memOf 0x7ffff000 (words [0x7ffff800] [] [(33, 0x7fff8000), (0, 0)]), none, fun _ => 7⟩
    Ends w (start w 0x7ffff000 regs) (.exit 36 none) :=
  (refused ⟨a, memOf 0x7ffff000 (words [0x7ffff800] [] [(33, 0x7fff8000), (0, 0)]), none, fun _ => 7⟩ 0x7ffff000 regs [0x7ffff800] [] [(33, 0x7fff8000), (0, 0)]
    ⟨[(33, 0x7fff8000)], 0, rfl, by decide⟩ (by decide) (memOf_onStack _ _ _ rfl (by decide))).2 (by decide)

end Gate.Start
