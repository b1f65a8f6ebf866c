import Verif.LibWasmProps
/-
C167: what a program which the library has stopped does when it's resumed. The library's functions (the bytes, see C166) are executed with an arbitrary rt_stop: it ends the process, or, in a later process in
which the program is resumed, returns a number (0 with today's runtime), with whatever the state is then.

Not modelled: that the operand stack, local variables and memory are kept when resuming; see C35, C115.
-/
namespace Gate.Wasm
open Gate Gate.Rt Gate.AbiLib
open Gate.Auth (str)

/-- The runtime's functions, with resuming. -/
def resHost (a : Arch) (t stop : Nat → M Nat) (imports : List Import) : Host := fun f st =>
  match imports[f]?.bind imported with
  | none => none
  | some name => if name = str "stop" then match st with
      | x :: st => some (stop x >>= fun v => pure (v :: st))
      | _ => none
    else rtCall a t name st

/-- A call, as `callBytes`. -/
def callResumed (a : Arch) (t stop : Nat → M Nat) (F : Nat) (name : Bytes) (args : List Nat) : M (Option (List Nat)) :=
  match decode libraryWASM with
  | none => pure none
  | some m => invoke m (resHost a t stop m.imports) F (nums name) args

section
variable (a : Arch) (t stop : Nat → M Nat) (F : Nat)

abbrev hostR : Host := resHost a t stop lib.imports

abbrev runR (c : Code) (l : List Nat) : M (Option (List Nat)) := c.exec (hostR a t stop) F l [] >>= fun r => pure (finish r)

theorem callResumed_eq (name : Bytes) (args : List Nat) (n : Nat) (c : Code)
    (h : ((lib.exports.find? fun e => e.1 = nums name).bind fun e => lib.codes[e.2 - lib.imports.length]?) = some (n, c)) :
    callResumed a t stop F name args = runR a t stop F c (args ++ List.replicate n 0) := by
  unfold callResumed invoke
  rw [decoded]
  simp only [h]

section
variable (k : List Nat → M R)
theorem r_debug (x y : Nat) (st : List Nat) : callHost (hostR a t stop) 0 (y :: x :: st) k = rtDebug a x y >>= fun _ => k st := bind_assoc ..
theorem r_poll (x y : Nat) (st : List Nat) : callHost (hostR a t stop) 2 (y :: x :: st) k = rtPoll x y >>= fun v => k (v :: st) := bind_assoc ..
theorem r_random (st : List Nat) : callHost (hostR a t stop) 3 st k = rtRandom >>= fun v => k (v :: st) := bind_assoc ..
theorem r_read (x y : Nat) (st : List Nat) : callHost (hostR a t stop) 4 (y :: x :: st) k = rtRead a x y >>= fun v => k (v :: st) := bind_assoc ..
theorem r_stop (x : Nat) (st : List Nat) : callHost (hostR a t stop) 5 (x :: st) k = stop x >>= fun v => k (v :: st) := bind_assoc ..
theorem r_time (x : Nat) (st : List Nat) : callHost (hostR a t stop) 6 (x :: st) k = t x >>= fun v => k (v :: st) := bind_assoc ..
theorem r_write (x y : Nat) (st : List Nat) : callHost (hostR a t stop) 7 (y :: x :: st) k = rtWrite a x y >>= fun v => k (v :: st) := bind_assoc ..
end

attribute [local irreducible] ld AbiLib.st rtStop rtDebug rtPoll rtRandom rtRead rtWrite iterate b2n

open Lean.Parser.Tactic in
/-- Symbolic execution. -/
macro "wasmr" "[" ls:simpLemma,* "]" : tactic => `(tactic| ((first | simp only [$ls,*] | skip); simp only [runR, ↓e_nil, ↓e_cons, ↓e_block, ↓e_loop, ↓e_ite, ↓e_br, ↓e_brIf, ↓e_ret, ↓e_call, ↓e_drop, ↓e_set, ↓e_load, ↓e_store, ↓e_const, ↓e_eqz, ↓e_eq, ↓e_ne, ↓e_ltu, ↓e_ges, ↓e_geu, ↓e_add, ↓e_sub, ↓e_and, ↓e_or, ↓e_eq64, ↓e_ne64, ↓e_and64, ↓e_wrap, ↓e_get0, ↓l_set0, ↓e_get1, ↓l_set1, ↓e_get2, ↓l_set2, ↓e_get3, ↓l_set3, ↓e_get4, ↓l_set4, ↓e_get5, ↓l_set5, ↓e_get6, ↓l_set6, ↓e_get7, ↓l_set7, ↓e_get8, ↓l_set8, ↓e_get9, ↓l_set9, ↓e_get10, ↓l_set10, ↓e_get11, ↓l_set11, ↓b_none, ↓b_next, ↓b_br0, ↓b_br1, ↓b_br2, ↓b_br3, ↓b_ret, ↓l_next, ↓l_br0, ↓l_br1, ↓l_br2, ↓l_br3, ↓l_ret, ↓f_next, ↓f_ret, ↓iterate_succ, ↓r_debug, ↓r_poll, ↓r_random, ↓r_read, ↓r_stop, ↓r_time, ↓r_write, ↓pure_bind, ↓bind_assoc, ↓ite_bind, ite_b2n, b2n_or,
  b2n_and, badFd_iff, bad2_iff, List.nil_append, List.cons_append, Nat.add_zero, ↓reduceIte, Nat.reduceEqDiff, ne_eq, not_false_eq_true, not_true_eq_false]))


/-- Stopping again, for as long as 0 is returned; at most n times. -/
def again (stop : M Nat) : Nat → M (Option Nat)
  | 0 => pure none
  | n + 1 => stop >>= fun v => if v = 0 then again stop n else pure (some v)

theorem fd_close_loop (k : List Nat → List Nat → M R) (g : R → M (Option (List Nat))) (x : Nat) (hk : ∀ v, (k [x, v] [] >>= g) = pure (some [v % w32])) (hn : g none = pure none) :
    ∀ N r, (iterate (fun l => loop_fd_close_0.exec (hostR a t stop) F l []) [] k N [x, r] >>= g) = (again (stop 127) N >>= fun r => pure (r.map fun v => [v % w32])) := by
  intro N
  induction N with
  | zero => intro r; unfold iterate; exact hn
  | succ N ih =>
    intro r
    rw [iterate_succ]
    have hb : ∀ h : R → M R, (loop_fd_close_0.exec (hostR a t stop) F [x, r] [] >>= h) =
        (stop 127 >>= fun v => if v = 0 then h (some (.br 0, [x, v], [])) else h (some (.next, [x, v], []))) := by
      intro h
      wasmr [loop_fd_close_0]
    rw [hb]
    simp only [again, bind_assoc, ite_bind, pure_bind, l_br0, l_next, List.append_nil, hk]
    refine bind_congr _ _ _ fun v => ?_
    by_cases h : v = 0
    · subst h
      simp only [if_true]
      exact ih 0
    · simp only [h, if_false]
      rfl

theorem fd_renumber_loop (k : List Nat → List Nat → M R) (g : R → M (Option (List Nat))) (x y : Nat) (hk : ∀ v, (k [x, y, v] [] >>= g) = pure (some [v % w32])) (hn : g none = pure none) :
    ∀ N r, (iterate (fun l => loop_fd_renumber_0.exec (hostR a t stop) F l []) [] k N [x, y, r] >>= g) = (again (stop 127) N >>= fun r => pure (r.map fun v => [v % w32])) := by
  intro N
  induction N with
  | zero => intro r; unfold iterate; exact hn
  | succ N ih =>
    intro r
    rw [iterate_succ]
    have hb : ∀ h : R → M R, (loop_fd_renumber_0.exec (hostR a t stop) F [x, y, r] [] >>= h) =
        (stop 127 >>= fun v => if v = 0 then h (some (.br 0, [x, y, v], [])) else h (some (.next, [x, y, v], []))) := by
      intro h
      wasmr [loop_fd_renumber_0]
    rw [hb]
    simp only [again, bind_assoc, ite_bind, pure_bind, l_br0, l_next, List.append_nil, hk]
    refine bind_congr _ _ _ fun v => ?_
    by_cases h : v = 0
    · subst h
      simp only [if_true]
      exact ih 0
    · simp only [h, if_false]
      rfl

theorem fd_fdstat_set_rights_loop (k : List Nat → List Nat → M R) (g : R → M (Option (List Nat))) (x y z : Nat) (hk : ∀ v, (k [x, y, z, v] [] >>= g) = pure (some [v % w32])) (hn : g none = pure none) :
    ∀ N r, (iterate (fun l => loop_fd_fdstat_set_rights_0.exec (hostR a t stop) F l []) [] k N [x, y, z, r] >>= g) = (again (stop 127) N >>= fun r => pure (r.map fun v => [v % w32])) := by
  intro N
  induction N with
  | zero => intro r; unfold iterate; exact hn
  | succ N ih =>
    intro r
    rw [iterate_succ]
    have hb : ∀ h : R → M R, (loop_fd_fdstat_set_rights_0.exec (hostR a t stop) F [x, y, z, r] [] >>= h) =
        (stop 127 >>= fun v => if v = 0 then h (some (.br 0, [x, y, z, v], [])) else h (some (.next, [x, y, z, v], []))) := by
      intro h
      wasmr [loop_fd_fdstat_set_rights_0]
    rw [hb]
    simp only [again, bind_assoc, ite_bind, pure_bind, l_br0, l_next, List.append_nil, hk]
    refine bind_congr _ _ _ fun v => ?_
    by_cases h : v = 0
    · subst h
      simp only [if_true]
      exact ih 0
    · simp only [h, if_false]
      rfl

/-- What a function does when a deficiency has been run into: it stops, and stops again for as long as the resumed call returns 0; its result is what is returned then. -/
def deficient (stop : Nat → M Nat) (F : Nat) : M (Option (List Nat)) := again (stop 127) F >>= fun r => pure (r.map fun v => [v % w32])

theorem close_resumed (x : Nat) : callResumed a t stop F (str "fd_close") [x] = if badFd x then pure (some [8]) else deficient stop F := by
  rw [callResumed_eq a t stop F _ _ 1 code_fd_close (by decide +kernel)]
  show runR a t stop F code_fd_close [x, 0] = _
  wasmr [code_fd_close]
  rw [fd_close_loop a t stop F _ _ x (by intro v; wasmr []) (by rfl)]
  rfl

theorem renumber_resumed (x y : Nat) : callResumed a t stop F (str "fd_renumber") [x, y] =
    if badFd x || badFd y then pure (some [8]) else if x = y then pure (some [0]) else deficient stop F := by
  rw [callResumed_eq a t stop F _ _ 1 code_fd_renumber (by decide +kernel)]
  show runR a t stop F code_fd_renumber [x, y, 0] = _
  wasmr [code_fd_renumber]
  rw [fd_renumber_loop a t stop F _ _ x y (by intro v; wasmr []) (by rfl)]
  rfl

/-- With a good descriptor which isn't the standard input, and rights which are only a part of those it has. -/
theorem rights_resumed (x y : Nat) (hx : badFd x = false) (h0 : x ≠ 0) (hy : (x = 4 ∧ y ≠ 0x42 ∧ y &&& 0xffffffffffffffbd = 0) ∨ (x ≠ 4 ∧ y = 0)) :
    callResumed a t stop F (str "fd_fdstat_set_rights") [x, y, 0] = deficient stop F := by
  rw [callResumed_eq a t stop F _ _ 1 code_fd_fdstat_set_rights (by decide +kernel)]
  show runR a t stop F code_fd_fdstat_set_rights [x, y, 0, 0] = _
  have hb : ¬ (x = 3 ∨ 5 ≤ x) := by rw [← badFd_iff]; simp [hx]
  wasmr [code_fd_fdstat_set_rights]
  rw [fd_fdstat_set_rights_loop a t stop F _ _ x y 0 (by intro v; wasmr []) (by rfl)]
  simp only [hb, if_false, h0]
  obtain ⟨rfl, h1, h2⟩ | ⟨h1, rfl⟩ := hy
  · simp only [h1, h2, if_true, if_false, not_true_eq_false]
    rfl
  · have h12 : x = 1 ∨ x = 2 := by omega
    obtain rfl | rfl := h12
    · wasmr []
      rfl
    · wasmr []
      rfl

theorem clock_loop (k : List Nat → List Nat → M R) (g : R → M (Option (List Nat))) (x y z : Nat) (hx : ¬ x < 2)
    (hk : ∀ v, g (some (.br 1, [x, y, z, v], [])) = (AbiLib.st 8 z v >>= fun _ => pure (some [0]))) (hn : g none = pure none) :
    ∀ N r, (iterate (fun l => loop_clock_time_get_0.exec (hostR a t stop) F l []) [] k N [x, y, z, r] >>= g) =
      (again (stop 127) N >>= fun r => match r with
        | none => pure none
        | some v => AbiLib.st 8 z v >>= fun _ => pure (some [0])) := by
  intro N
  induction N with
  | zero => intro r; unfold iterate; exact hn
  | succ N ih =>
    intro r
    rw [iterate_succ]
    have hb : ∀ h : R → M R, (loop_clock_time_get_0.exec (hostR a t stop) F [x, y, z, r] [] >>= h) =
        (stop 127 >>= fun v => if v = 0 then h (some (.br 0, [x, y, z, v], [])) else h (some (.br 2, [x, y, z, v], []))) := by
      intro h
      wasmr [loop_clock_time_get_0, hx]
      simp only [hx, if_false, ite_not]
    rw [hb]
    simp only [again, bind_assoc, ite_bind, pure_bind, l_br0, l_br2, hk]
    refine bind_congr _ _ _ fun v => ?_
    by_cases h : v = 0
    · subst h
      simp only [if_true]
      exact ih 0
    · simp only [h, if_false]

/-- Clocks of processes and threads: the time is what is returned. -/
theorem clock_resumed (x y z : Nat) (hx : 2 ≤ x) (h4 : x < 4) : callResumed a t stop F (str "clock_time_get") [x, y, z] =
    (again (stop 127) F >>= fun r => match r with
      | none => pure none
      | some v => AbiLib.st 8 z v >>= fun _ => pure (some [0])) := by
  rw [callResumed_eq a t stop F _ _ 1 code_clock_time_get (by decide +kernel)]
  show runR a t stop F code_clock_time_get [x, y, z, 0] = _
  have e : (4 ≤ x) = False := by simp; omega
  wasmr [code_clock_time_get]
  simp only [e, if_false]
  rw [clock_loop a t stop F _ _ x y z (by omega) (by intro v; wasmr []) (by rfl)]

/-- Stopping over and over, whatever is returned; at most n times. -/
def forever (stop : M Nat) : Nat → M (Option (List Nat))
  | 0 => pure none
  | n + 1 => stop >>= fun _ => forever stop n

theorem exit_loop (k : List Nat → List Nat → M R) (g : R → M (Option (List Nat))) (x : Nat) (hn : g none = pure none) :
    ∀ N, (iterate (fun l => loop_proc_exit_0.exec (hostR a t stop) F l []) [] k N [x] >>= g) = forever (stop x) N := by
  intro N
  induction N with
  | zero => unfold iterate; exact hn
  | succ N ih =>
    rw [iterate_succ]
    have hb : ∀ h : R → M R, (loop_proc_exit_0.exec (hostR a t stop) F [x] [] >>= h) = (stop x >>= fun _ => h (some (.br 0, [x], []))) := by
      intro h
      wasmr [loop_proc_exit_0]
    rw [hb]
    simp only [forever, bind_assoc, l_br0]
    exact bind_congr _ _ _ fun v => ih

/-- proc_exit stops forever: with status 2 (terminated, success) or 3 (terminated, failure). -/
theorem exit_resumed (x : Nat) : callResumed a t stop F (str "proc_exit") [x] = forever (stop (if x = 0 then 2 else 3)) F := by
  rw [callResumed_eq a t stop F _ _ 0 code_proc_exit (by decide +kernel)]
  show runR a t stop F code_proc_exit [x] = _
  wasmr [code_proc_exit]
  rw [exit_loop a t stop F _ _ _ (by rfl)]
  unfold b2n
  by_cases h : x = 0 <;> simp [h]

/-- proc_raise doesn't stop again. -/
theorem raise_resumed (x : Nat) : callResumed a t stop F (str "proc_raise") [x] = (stop 127 >>= fun v => pure (some [v % w32])) := by
  rw [callResumed_eq a t stop F _ _ 0 code_proc_raise (by decide +kernel)]
  show runR a t stop F code_proc_raise [x] = _
  wasmr [code_proc_raise]

theorem bind_ok {α β : Type} {m : M α} {f : α → M β} {s s' : St} {v : α} (h : m s = .ok v s') : (m >>= f) s = f v s' := by
  show M.bind m f s = _
  unfold M.bind
  rw [h]

/-- What a bind which returned came from. -/
theorem of_bind {α β : Type} {m : M α} {f : α → M β} {s s' : St} {r : β} (h : (m >>= f) s = .ok r s') : ∃ v s1, m s = .ok v s1 ∧ f v s1 = .ok r s' := by
  replace h : M.bind m f s = .ok r s' := h
  unfold M.bind at h
  cases hm : m s with
  | ok v s1 => rw [hm] at h; exact ⟨v, s1, rfl, h⟩
  | exit => rw [hm] at h; cases h
  | wait => rw [hm] at h; cases h

/-- The type of the subscription at the address is EVENTTYPE_CLOCK. -/
def ClockAt (sub : Nat) (s : St) : Prop := ld 1 (sub + 8) s = .ok 0 s

theorem poll_loop_resumed (k : List Nat → List Nat → M R) (g : R → M (Option (List Nat))) (hn : g none = pure none) (sub x1 n x3 : Nat) (hs : n ≠ 0)
    (keep : ∀ s v s', stop 127 s = .ok v s' → ClockAt sub s → ClockAt sub s') :
    ∀ N ty x5 x6 x7 x8 x9 x10 x11 s, ClockAt sub s → ∀ r s',
      (iterate (fun l => loop_poll_oneoff_0.exec (hostR a t stop) F l []) [] k N [sub, x1, n, x3, ty, x5, x6, x7, x8, x9, x10, x11] >>= g) s = .ok r s' → r = none := by
  intro N
  induction N with
  | zero =>
    intro ty x5 x6 x7 x8 x9 x10 x11 s _ r s' h
    unfold iterate at h
    replace h : g none s = .ok r s' := h
    rw [hn] at h
    cases h
    rfl
  | succ N ih =>
    intro ty x5 x6 x7 x8 x9 x10 x11 s hc r s' h
    rw [iterate_succ, bind_assoc] at h
    have hb : ∀ h : R → M (Option (List Nat)), (loop_poll_oneoff_0.exec (hostR a t stop) F [sub, x1, n, x3, ty, x5, x6, x7, x8, x9, x10, x11] [] >>= h) s =
        (stop 127 >>= fun _ => h (some (.br 0, [sub, x1, n, x3, 0, x5, x6, x7, x8, x9, x10, x11], []))) s := by
      intro h
      wasmr [loop_poll_oneoff_0]
      simp only [hs, if_false]
      rw [bind_ok hc]
      wasmr []
      rfl
    rw [hb] at h
    obtain ⟨v, s1, hst, h'⟩ := of_bind h
    exact ih _ _ _ _ _ _ _ _ s1 (keep _ _ _ hst hc) r s' h'

/-- poll_oneoff, when the first subscription is for a clock, and it's still there when resumed: the call doesn't return, whatever rt_stop returns. -/
theorem poll_resumed (sub out n nout : Nat) (hn : n ≠ 0) (keep : ∀ s v s', stop 127 s = .ok v s' → ClockAt sub s → ClockAt sub s')
    (s : St) (hc : ClockAt sub s) (r : Option (List Nat)) (s' : St)
    (h : callResumed a t stop F (str "poll_oneoff") [sub, out, n, nout] s = .ok r s') : r = none := by
  rw [callResumed_eq a t stop F _ _ 8 code_poll_oneoff (by decide +kernel)] at h
  replace h : runR a t stop F code_poll_oneoff [sub, out, n, nout, 0, 0, 0, 0, 0, 0, 0, 0] s = .ok r s' := h
  have e : ∃ k g, g none = pure none ∧ runR a t stop F code_poll_oneoff [sub, out, n, nout, 0, 0, 0, 0, 0, 0, 0, 0] =
      (iterate (fun l => loop_poll_oneoff_0.exec (hostR a t stop) F l []) [] k F [sub, out, n, nout, 0, 0, 0, 0, 0, 0, 0, 0] >>= g) := by
    wasmr [code_poll_oneoff]
    exact ⟨_, _, rfl, rfl⟩
  obtain ⟨k, g, hg, e⟩ := e
  rw [e] at h
  exact poll_loop_resumed a t stop F k g hg sub out n nout hn keep F _ _ _ _ _ _ _ _ s hc r s' h

/-- rt_stop of the runtime, when it returns at all: in a resumed process, 0. -/
def ReturnsZero (stop : Nat → M Nat) : Prop := ∀ n s v s', stop n s = .ok v s' → v = 0

theorem again_none (hz : ReturnsZero stop) (n : Nat) : ∀ s r s', again (stop 127) n s = .ok r s' → r = none := by
  induction n with
  | zero => intro s r s' h; cases h; rfl
  | succ n ih =>
    intro s r s' h
    obtain ⟨v, s1, h1, h2⟩ := of_bind h
    cases hz _ _ _ _ h1
    exact ih s1 r s' h2

theorem deficient_none (hz : ReturnsZero stop) (s : St) (r : Option (List Nat)) (s' : St) (h : deficient stop F s = .ok r s') : r = none := by
  obtain ⟨v, s1, h1, h2⟩ := of_bind h
  cases again_none stop hz F _ _ _ h1
  cases h2
  rfl

theorem forever_none (n : Nat) (x : Nat) : ∀ s r s', forever (stop x) n s = .ok r s' → r = none := by
  induction n with
  | zero => intro s r s' h; cases h; rfl
  | succ n ih =>
    intro s r s' h
    obtain ⟨v, s1, h1, h2⟩ := of_bind h
    exact ih s1 r s' h2

/-- The calls which are deficient in the same way whatever the state is. -/
inductive Deficient : Bytes → List Nat → Prop
  | close {x : Nat} : badFd x = false → Deficient (str "fd_close") [x]
  | renumber {x y : Nat} : badFd x = false → badFd y = false → x ≠ y → Deficient (str "fd_renumber") [x, y]
  | rights {x y : Nat} : badFd x = false → x ≠ 0 → (x = 4 ∧ y ≠ 0x42 ∧ y &&& 0xffffffffffffffbd = 0) ∨ (x ≠ 4 ∧ y = 0) → Deficient (str "fd_fdstat_set_rights") [x, y, 0]
  | clock {x y z : Nat} : 2 ≤ x → x < 4 → Deficient (str "clock_time_get") [x, y, z]
  | exit {x : Nat} : Deficient (str "proc_exit") [x]

/-- The full property (see `raise_refuted`), for all but proc_raise: a call which the library can't carry out doesn't return, however many times the program is resumed. `none`: the call is still executing after
any number of iterations. -/
theorem stopped_again_partial (name : Bytes) (args : List Nat) (hd : Deficient name args) (hz : ReturnsZero stop) (s : St) (r : Option (List Nat)) (s' : St)
    (h : callResumed a t stop F name args s = .ok r s') : r = none := by
  cases hd with
  | close hx => rw [close_resumed, hx] at h; exact deficient_none stop F hz s r s' h
  | renumber hx hy hxy =>
    rw [renumber_resumed, hx, hy] at h
    simp only [Bool.or_self, Bool.false_eq_true, if_false, hxy] at h
    exact deficient_none stop F hz s r s' h
  | rights hx h0 hy => rw [rights_resumed a t stop F _ _ hx h0 hy] at h; exact deficient_none stop F hz s r s' h
  | clock h2 h4 =>
    rw [clock_resumed a t stop F _ _ _ h2 h4] at h
    obtain ⟨v, s1, h1, h2⟩ := of_bind h
    cases again_none stop hz F _ _ _ h1
    cases h2
    rfl
  | exit => rw [exit_resumed] at h; exact forever_none stop F _ s r s' h

/-- When it's stopped, it's with status 127 (ABI deficiency), before anything has been done; the program which has exited is stopped with its status. -/
theorem stops_first (name : Bytes) (args : List Nat) (hd : Deficient name args) (hF : 0 < F) (s s' : St) (x : Nat) (hne : name ≠ str "proc_exit")
    (hs : stop 127 s = .exit x s') : callResumed a t stop F name args s = .exit x s' := by
  obtain ⟨F, rfl⟩ : ∃ n, F = n + 1 := ⟨F - 1, by omega⟩
  have ha : again (stop 127) (F + 1) s = .exit x s' := by
    show M.bind (stop 127) _ s = _
    unfold M.bind
    rw [hs]
  have hdf : deficient stop (F + 1) s = .exit x s' := by
    show M.bind (again (stop 127) (F + 1)) _ s = _
    unfold M.bind
    rw [ha]
  cases hd with
  | close hx => rw [close_resumed, hx]; exact hdf
  | renumber hx hy hxy =>
    rw [renumber_resumed, hx, hy]
    simp only [Bool.or_self, Bool.false_eq_true, if_false, hxy]
    exact hdf
  | rights hx h0 hy => rw [rights_resumed a t stop (F + 1) _ _ hx h0 hy]; exact hdf
  | clock h2 h4 =>
    rw [clock_resumed a t stop (F + 1) _ _ _ h2 h4]
    show M.bind (again (stop 127) (F + 1)) _ s = _
    unfold M.bind
    rw [ha]
  | exit => exact absurd rfl hne

/-- The full property is false: proc_raise stops the program with an ABI deficiency, too, but when the program is resumed, the call returns 0 (success) although no signal has been raised. -/
theorem raise_refuted (x : Nat) : ∃ stop : Nat → M Nat, ReturnsZero stop ∧
    (∀ s, callResumed a t stop F (str "proc_raise") [x] s = .ok (some [0]) s) ∧
    (∀ s, callResumed a t (fun n => rtStop n) F (str "proc_raise") [x] s = rtStop (α := Option (List Nat)) 127 s) := by
  refine ⟨fun _ => pure 0, ?_, ?_, ?_⟩
  · intro n s v s' h; cases h; rfl
  · intro s; rw [raise_resumed]; rfl
  · intro s; rw [raise_resumed, stop_bind]

theorem random_body_resumed {β : Type} (g : R → M β) (buf len res v : Nat) :
    (loop_random_get_0.exec (hostR a t stop) F [buf, len, res, v] [] >>= g) =
      if len = 0 then g (some (.br 1, [buf, len, res, v], []))
      else rtRandom >>= fun v =>
        if ges32 v 0 then AbiLib.st 1 buf v >>= fun _ => g (some (.br 0, [(buf + 1) % w32, (len + w32 - 1) % w32, res, v], []))
        else stop 127 >>= fun r => if r = 0 then g (some (.br 0, [buf, len, r, v], [])) else g (some (.br 1, [buf, len, r, v], [])) := by
  wasmr [loop_random_get_0]
  simp only [ite_not]

/-- How many times more the loop of random_get has to draw a byte: those which it writes are at increasing addresses. Drawing `len` bytes, stopping and trying again whenever there is none. -/
def draw (stop : M Nat) : Nat → Nat → Nat → M (Option (List Nat))
  | 0, _, _ => pure none
  | _ + 1, _, 0 => pure (some [0])
  | n + 1, buf, len + 1 => rtRandom >>= fun v =>
    if ges32 v 0 then AbiLib.st 1 buf v >>= fun _ => draw stop n ((buf + 1) % w32) len
    else stop >>= fun r => if r = 0 then draw stop n buf (len + 1) else pure (some [r % w32])

theorem random_loop_resumed (k : List Nat → List Nat → M R) (g : R → M (Option (List Nat))) (hn : g none = pure none)
    (hg : ∀ buf len r v, g (some (.br 0, [buf, len, r, v], [])) = pure (some [r % w32])) :
    ∀ N buf len v, len < w32 → (iterate (fun l => loop_random_get_0.exec (hostR a t stop) F l []) [] k N [buf, len, 0, v] >>= g) = draw (stop 127) N buf len := by
  intro N
  induction N with
  | zero => intro buf len v _; unfold iterate; exact hn
  | succ N ih =>
    intro buf len v hl
    rw [iterate_succ, bind_assoc, random_body_resumed]
    cases len with
    | zero => simp only [if_true, l_br1, pure_bind, hg]; rfl
    | succ len =>
      simp only [Nat.succ_ne_zero, if_false, l_br0, l_br1, pure_bind, hg, draw, sub_one len hl]
      refine bind_congr _ _ _ fun v => ?_
      by_cases h : ges32 v 0
      · simp only [h, if_true]
        exact bind_congr _ _ _ fun _ => ih _ _ _ (by omega)
      · simp only [h, if_false]
        refine bind_congr _ _ _ fun r => ?_
        by_cases hr : r = 0
        · subst hr
          simp only [if_true]
          exact ih _ _ _ hl
        · simp only [hr, if_false]

/-- random_get tries again when resumed, from where it was: no byte is drawn twice, and none is left out. -/
theorem random_resumed (x y : Nat) (hy : y < w32) : callResumed a t stop F (str "random_get") [x, y] = draw (stop 127) F x y := by
  rw [callResumed_eq a t stop F _ _ 2 code_random_get (by decide +kernel)]
  show runR a t stop F code_random_get [x, y, 0, 0] = _
  wasmr [code_random_get]
  exact random_loop_resumed a t stop F _ _ (by rfl) (by intros; wasmr []) _ _ _ _ hy

end

/-- The hypotheses are met. -/
example : Deficient (str "fd_close") [4] ∧ Deficient (str "fd_renumber") [0, 4] ∧ Deficient (str "fd_fdstat_set_rights") [4, 2, 0] ∧ Deficient (str "fd_fdstat_set_rights") [1, 0, 0] ∧
    Deficient (str "clock_time_get") [2, 0, 8] ∧ Deficient (str "proc_exit") [1] ∧ ReturnsZero (fun _ => pure 0) :=
  ⟨.close (by decide), .renumber (by decide) (by decide) (by decide), .rights (by decide) (by decide) (by decide), .rights (by decide) (by decide) (by decide), .clock (by decide) (by decide), .exit, by
    intro n s v s' h; cases h; rfl⟩

/-- A subscription for a clock at 0: memory of zeros. -/
example : ClockAt 0 { exState with space := fun _ => 0 } := by
  unfold ClockAt ld
  rw [if_pos (by decide)]
  rfl

end Gate.Wasm
