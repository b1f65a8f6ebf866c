import Verif.LibBytes
/-
The embedded library (runtime/abi/library.go) does what its model (AbiLib.lean) does.
-/
namespace Gate.Wasm
open Gate Gate.Rt Gate.AbiLib

/-! ### The module -/

/-- The bytes are the encoding of `lib`. -/
theorem decoded : decode libraryWASM = some lib := by decide +kernel

/-! ### Equations of the monad -/

theorem pure_bind {α β : Type} (a : α) (f : α → M β) : (pure a >>= f) = f a := (rfl)

theorem bind_assoc {α β γ : Type} (m : M α) (f : α → M β) (g : β → M γ) : (m >>= f >>= g) = (m >>= fun x => f x >>= g) := by
  funext s
  show M.bind (M.bind m f) g s = M.bind m (fun x => M.bind (f x) g) s
  unfold M.bind
  cases m s <;> rfl

theorem bind_pure {α : Type} (m : M α) : (m >>= fun x => pure x) = m := by
  funext s
  show M.bind m _ s = m s
  unfold M.bind
  cases m s <;> rfl

theorem stop_bind {α β : Type} (n : Nat) (f : α → M β) : (rtStop n >>= f) = rtStop n := (rfl)

theorem ite_bind {α β : Type} (c : Prop) [Decidable c] (m n : M α) (f : α → M β) : ((if c then m else n) >>= f) = if c then m >>= f else n >>= f := by
  split <;> rfl

theorem b2n_ne (c : Prop) [Decidable c] : (b2n c ≠ 0) = c := by unfold b2n; split <;> simp_all

theorem ite_b2n {α : Type} (c : Prop) [Decidable c] (x y : α) : (if b2n c ≠ 0 then x else y) = if c then x else y := by
  unfold b2n; by_cases h : c <;> simp [h]

theorem badFd_iff (x : Nat) : (badFd x = true) = (x = 3 ∨ 5 ≤ x) := by simp [badFd]

theorem bad2_iff (x y : Nat) : ((badFd x || badFd y) = true) = ((x = 3 ∨ 5 ≤ x) ∨ (y = 3 ∨ 5 ≤ y)) := by simp [badFd]

theorem b2n_or (p q : Prop) [Decidable p] [Decidable q] : (b2n p ||| b2n q) = b2n (p ∨ q) := by
  unfold b2n; by_cases hp : p <;> by_cases hq : q <;> simp [hp, hq]

theorem b2n_and (p q : Prop) [Decidable p] [Decidable q] : (b2n p &&& b2n q) = b2n (p ∧ q) := by
  unfold b2n; by_cases hp : p <;> by_cases hq : q <;> simp [hp, hq]

/-! ### The imported functions, by index -/

section
variable (a : Arch) (t : Nat → M Nat)

/-- The runtime's functions for the library. -/
abbrev host : Host := rtHost a t lib.imports

theorem host_debug (x y : Nat) (st : List Nat) : host a t 0 (y :: x :: st) = some (rtDebug a x y >>= fun _ => pure st) := (rfl)
theorem host_poll (x y : Nat) (st : List Nat) : host a t 2 (y :: x :: st) = some (rtPoll x y >>= fun v => pure (v :: st)) := (rfl)
theorem host_random (st : List Nat) : host a t 3 st = some (rtRandom >>= fun v => pure (v :: st)) := (rfl)
theorem host_read (x y : Nat) (st : List Nat) : host a t 4 (y :: x :: st) = some (rtRead a x y >>= fun v => pure (v :: st)) := (rfl)
theorem host_stop (x : Nat) (st : List Nat) : host a t 5 (x :: st) = some (rtStop x) := (rfl)
theorem host_time (x : Nat) (st : List Nat) : host a t 6 (x :: st) = some (t x >>= fun v => pure (v :: st)) := (rfl)
theorem host_write (x y : Nat) (st : List Nat) : host a t 7 (y :: x :: st) = some (rtWrite a x y >>= fun v => pure (v :: st)) := (rfl)

variable (F : Nat)

/-- The outcome of a function's code. -/
abbrev run (c : Code) (l : List Nat) : M (Option (List Nat)) := c.exec (host a t) F l [] >>= fun r => pure (finish r)

/-- A result. -/
abbrev result (m : M Nat) : M (Option (List Nat)) := m >>= fun v => pure (some [v])

/-! ### Equations of execution -/

section
variable {H : Host} {F : Nat} {l st : List Nat} {k : List Nat → List Nat → M R} {x y v n f : Nat}
theorem e_nil : Code.exec H F .nil l st = pure (some (.next, l, st)) := (rfl)
theorem e_cons {i : Instr} {c : Code} : Code.exec H F (.cons i c) l st = i.exec H F l st fun l st => c.exec H F l st := (rfl)
theorem e_block {b : Code} : Instr.exec H F (.block b) l st k = b.exec H F l [] >>= leaveBlock st k := (rfl)
theorem e_loop {b : Code} : Instr.exec H F (.loop b) l st k = iterate (fun l => b.exec H F l []) st k F l := (rfl)
theorem e_ite {r : Bool} {t e : Code} : Instr.exec H F (.ite r t e) l (x :: st) k = if x ≠ 0 then t.exec H F l [] >>= leaveBlock st k else e.exec H F l [] >>= leaveBlock st k := by
  rw [← ite_bind]; rfl
theorem e_br : Instr.exec H F (.br n) l st k = pure (some (.br n, l, st)) := (rfl)
theorem e_brIf : Instr.exec H F (.brIf n) l (x :: st) k = if x ≠ 0 then pure (some (.br n, l, st)) else k l st := (rfl)
theorem e_ret : Instr.exec H F .ret l st k = pure (some (.ret, l, st)) := (rfl)
theorem e_call : Instr.exec H F (.call f) l st k = callHost H f st fun st => k l st := (rfl)
theorem e_drop : Instr.exec H F .drop l (x :: st) k = k l st := (rfl)
theorem e_set : Instr.exec H F (.set n) l (v :: st) k = k (l.set n v) st := (rfl)
theorem e_load {off : Nat} : Instr.exec H F (.load n off) l (x :: st) k = ld n (x + off) >>= fun v => k l (v :: st) := (rfl)
theorem e_store {off : Nat} : Instr.exec H F (.store n off) l (v :: x :: st) k = AbiLib.st n (x + off) v >>= fun _ => k l st := (rfl)
theorem e_const : Instr.exec H F (.const v) l st k = k l (v :: st) := (rfl)
theorem e_eqz : Instr.exec H F .i32Eqz l (x :: st) k = k l (b2n (x = 0) :: st) := (rfl)
theorem e_eq : Instr.exec H F .i32Eq l (y :: x :: st) k = k l (b2n (x = y) :: st) := (rfl)
theorem e_ne : Instr.exec H F .i32Ne l (y :: x :: st) k = k l (b2n (x ≠ y) :: st) := (rfl)
theorem e_ltu : Instr.exec H F .i32LtU l (y :: x :: st) k = k l (b2n (x < y) :: st) := (rfl)
theorem e_ges : Instr.exec H F .i32GeS l (y :: x :: st) k = k l (b2n (ges32 x y) :: st) := (rfl)
theorem e_geu : Instr.exec H F .i32GeU l (y :: x :: st) k = k l (b2n (y ≤ x) :: st) := (rfl)
theorem e_add : Instr.exec H F .i32Add l (y :: x :: st) k = k l ((x + y) % w32 :: st) := (rfl)
theorem e_sub : Instr.exec H F .i32Sub l (y :: x :: st) k = k l ((x + w32 - y) % w32 :: st) := (rfl)
theorem e_and : Instr.exec H F .i32And l (y :: x :: st) k = k l ((x &&& y) :: st) := (rfl)
theorem e_or : Instr.exec H F .i32Or l (y :: x :: st) k = k l ((x ||| y) :: st) := (rfl)
theorem e_eq64 : Instr.exec H F .i64Eq l (y :: x :: st) k = k l (b2n (x = y) :: st) := (rfl)
theorem e_ne64 : Instr.exec H F .i64Ne l (y :: x :: st) k = k l (b2n (x ≠ y) :: st) := (rfl)
theorem e_and64 : Instr.exec H F .i64And l (y :: x :: st) k = k l ((x &&& y) :: st) := (rfl)
theorem e_wrap : Instr.exec H F .i32Wrap l (x :: st) k = k l (x % w32 :: st) := (rfl)
variable {x0 x1 x2 x3 x4 x5 x6 x7 x8 x9 x10 x11 : Nat}
theorem e_get0 : Instr.exec H F (.get 0) (x0 :: l) st k = k (x0 :: l) (x0 :: st) := (rfl)
theorem l_set0 : (x0 :: l).set 0 v = v :: l := (rfl)
theorem e_get1 : Instr.exec H F (.get 1) (x0 :: x1 :: l) st k = k (x0 :: x1 :: l) (x1 :: st) := (rfl)
theorem l_set1 : (x0 :: x1 :: l).set 1 v = x0 :: v :: l := (rfl)
theorem e_get2 : Instr.exec H F (.get 2) (x0 :: x1 :: x2 :: l) st k = k (x0 :: x1 :: x2 :: l) (x2 :: st) := (rfl)
theorem l_set2 : (x0 :: x1 :: x2 :: l).set 2 v = x0 :: x1 :: v :: l := (rfl)
theorem e_get3 : Instr.exec H F (.get 3) (x0 :: x1 :: x2 :: x3 :: l) st k = k (x0 :: x1 :: x2 :: x3 :: l) (x3 :: st) := (rfl)
theorem l_set3 : (x0 :: x1 :: x2 :: x3 :: l).set 3 v = x0 :: x1 :: x2 :: v :: l := (rfl)
theorem e_get4 : Instr.exec H F (.get 4) (x0 :: x1 :: x2 :: x3 :: x4 :: l) st k = k (x0 :: x1 :: x2 :: x3 :: x4 :: l) (x4 :: st) := (rfl)
theorem l_set4 : (x0 :: x1 :: x2 :: x3 :: x4 :: l).set 4 v = x0 :: x1 :: x2 :: x3 :: v :: l := (rfl)
theorem e_get5 : Instr.exec H F (.get 5) (x0 :: x1 :: x2 :: x3 :: x4 :: x5 :: l) st k = k (x0 :: x1 :: x2 :: x3 :: x4 :: x5 :: l) (x5 :: st) := (rfl)
theorem l_set5 : (x0 :: x1 :: x2 :: x3 :: x4 :: x5 :: l).set 5 v = x0 :: x1 :: x2 :: x3 :: x4 :: v :: l := (rfl)
theorem e_get6 : Instr.exec H F (.get 6) (x0 :: x1 :: x2 :: x3 :: x4 :: x5 :: x6 :: l) st k = k (x0 :: x1 :: x2 :: x3 :: x4 :: x5 :: x6 :: l) (x6 :: st) := (rfl)
theorem l_set6 : (x0 :: x1 :: x2 :: x3 :: x4 :: x5 :: x6 :: l).set 6 v = x0 :: x1 :: x2 :: x3 :: x4 :: x5 :: v :: l := (rfl)
theorem e_get7 : Instr.exec H F (.get 7) (x0 :: x1 :: x2 :: x3 :: x4 :: x5 :: x6 :: x7 :: l) st k = k (x0 :: x1 :: x2 :: x3 :: x4 :: x5 :: x6 :: x7 :: l) (x7 :: st) := (rfl)
theorem l_set7 : (x0 :: x1 :: x2 :: x3 :: x4 :: x5 :: x6 :: x7 :: l).set 7 v = x0 :: x1 :: x2 :: x3 :: x4 :: x5 :: x6 :: v :: l := (rfl)
theorem e_get8 : Instr.exec H F (.get 8) (x0 :: x1 :: x2 :: x3 :: x4 :: x5 :: x6 :: x7 :: x8 :: l) st k = k (x0 :: x1 :: x2 :: x3 :: x4 :: x5 :: x6 :: x7 :: x8 :: l) (x8 :: st) := (rfl)
theorem l_set8 : (x0 :: x1 :: x2 :: x3 :: x4 :: x5 :: x6 :: x7 :: x8 :: l).set 8 v = x0 :: x1 :: x2 :: x3 :: x4 :: x5 :: x6 :: x7 :: v :: l := (rfl)
theorem e_get9 : Instr.exec H F (.get 9) (x0 :: x1 :: x2 :: x3 :: x4 :: x5 :: x6 :: x7 :: x8 :: x9 :: l) st k = k (x0 :: x1 :: x2 :: x3 :: x4 :: x5 :: x6 :: x7 :: x8 :: x9 :: l) (x9 :: st) := (rfl)
theorem l_set9 : (x0 :: x1 :: x2 :: x3 :: x4 :: x5 :: x6 :: x7 :: x8 :: x9 :: l).set 9 v = x0 :: x1 :: x2 :: x3 :: x4 :: x5 :: x6 :: x7 :: x8 :: v :: l := (rfl)
theorem e_get10 : Instr.exec H F (.get 10) (x0 :: x1 :: x2 :: x3 :: x4 :: x5 :: x6 :: x7 :: x8 :: x9 :: x10 :: l) st k = k (x0 :: x1 :: x2 :: x3 :: x4 :: x5 :: x6 :: x7 :: x8 :: x9 :: x10 :: l) (x10 :: st) := (rfl)
theorem l_set10 : (x0 :: x1 :: x2 :: x3 :: x4 :: x5 :: x6 :: x7 :: x8 :: x9 :: x10 :: l).set 10 v = x0 :: x1 :: x2 :: x3 :: x4 :: x5 :: x6 :: x7 :: x8 :: x9 :: v :: l := (rfl)
theorem e_get11 : Instr.exec H F (.get 11) (x0 :: x1 :: x2 :: x3 :: x4 :: x5 :: x6 :: x7 :: x8 :: x9 :: x10 :: x11 :: l) st k = k (x0 :: x1 :: x2 :: x3 :: x4 :: x5 :: x6 :: x7 :: x8 :: x9 :: x10 :: x11 :: l) (x11 :: st) := (rfl)
theorem l_set11 : (x0 :: x1 :: x2 :: x3 :: x4 :: x5 :: x6 :: x7 :: x8 :: x9 :: x10 :: x11 :: l).set 11 v = x0 :: x1 :: x2 :: x3 :: x4 :: x5 :: x6 :: x7 :: x8 :: x9 :: x10 :: v :: l := (rfl)
theorem b_none (below : List Nat) : leaveBlock below k none = pure none := (rfl)
theorem b_next (below : List Nat) : leaveBlock below k (some (.next, l, st)) = k l (st ++ below) := (rfl)
theorem b_br0 (below : List Nat) : leaveBlock below k (some (.br 0, l, st)) = k l below := (rfl)
theorem b_br1 (below : List Nat) : leaveBlock below k (some (.br 1, l, st)) = pure (some (.br 0, l, st)) := (rfl)
theorem b_br2 (below : List Nat) : leaveBlock below k (some (.br 2, l, st)) = pure (some (.br 1, l, st)) := (rfl)
theorem b_br3 (below : List Nat) : leaveBlock below k (some (.br 3, l, st)) = pure (some (.br 2, l, st)) := (rfl)
theorem b_ret (below : List Nat) : leaveBlock below k (some (.ret, l, st)) = pure (some (.ret, l, st)) := (rfl)
variable {again : List Nat → M R}
theorem l_next (below : List Nat) : leaveLoop below again k (some (.next, l, st)) = k l (st ++ below) := (rfl)
theorem l_br0 (below : List Nat) : leaveLoop below again k (some (.br 0, l, st)) = again l := (rfl)
theorem l_br1 (below : List Nat) : leaveLoop below again k (some (.br 1, l, st)) = pure (some (.br 0, l, st)) := (rfl)
theorem l_br2 (below : List Nat) : leaveLoop below again k (some (.br 2, l, st)) = pure (some (.br 1, l, st)) := (rfl)
theorem l_br3 (below : List Nat) : leaveLoop below again k (some (.br 3, l, st)) = pure (some (.br 2, l, st)) := (rfl)
theorem l_ret (below : List Nat) : leaveLoop below again k (some (.ret, l, st)) = pure (some (.ret, l, st)) := (rfl)
theorem f_next : finish (some (.next, l, st)) = some st := (rfl)
theorem f_ret : finish (some (.ret, l, st)) = some st := (rfl)
end

theorem iterate_succ (body : List Nat → M R) (below : List Nat) (k : List Nat → List Nat → M R) (n : Nat) (l : List Nat) :
    iterate body below k (n + 1) l = body l >>= leaveLoop below (iterate body below k n) k := (rfl)

section
variable (k : List Nat → M R)
theorem c_debug (x y : Nat) (st : List Nat) : callHost (host a t) 0 (y :: x :: st) k = rtDebug a x y >>= fun _ => k st := bind_assoc ..
theorem c_poll (x y : Nat) (st : List Nat) : callHost (host a t) 2 (y :: x :: st) k = rtPoll x y >>= fun v => k (v :: st) := bind_assoc ..
theorem c_random (st : List Nat) : callHost (host a t) 3 st k = rtRandom >>= fun v => k (v :: st) := bind_assoc ..
theorem c_read (x y : Nat) (st : List Nat) : callHost (host a t) 4 (y :: x :: st) k = rtRead a x y >>= fun v => k (v :: st) := bind_assoc ..
theorem c_stop (x : Nat) (st : List Nat) : callHost (host a t) 5 (x :: st) k = rtStop x := (rfl)
theorem c_time (x : Nat) (st : List Nat) : callHost (host a t) 6 (x :: st) k = t x >>= fun v => k (v :: st) := bind_assoc ..
theorem c_write (x y : Nat) (st : List Nat) : callHost (host a t) 7 (y :: x :: st) k = rtWrite a x y >>= fun v => k (v :: st) := bind_assoc ..
end

attribute [local irreducible] ld AbiLib.st rtStop rtDebug rtPoll rtRandom rtRead rtWrite iterate b2n

open Lean.Parser.Tactic in
/-- Symbolic execution. -/
macro "wasm" "[" ls:simpLemma,* "]" : tactic => `(tactic| ((first | simp only [$ls,*] | skip); simp only [run, result, ↓e_nil, ↓e_cons, ↓e_block, ↓e_loop, ↓e_ite, ↓e_br, ↓e_brIf, ↓e_ret, ↓e_call, ↓e_drop, ↓e_set, ↓e_load, ↓e_store, ↓e_const, ↓e_eqz, ↓e_eq, ↓e_ne, ↓e_ltu, ↓e_ges, ↓e_geu, ↓e_add, ↓e_sub, ↓e_and, ↓e_or, ↓e_eq64, ↓e_ne64, ↓e_and64, ↓e_wrap, ↓e_get0, ↓l_set0, ↓e_get1, ↓l_set1, ↓e_get2, ↓l_set2, ↓e_get3, ↓l_set3, ↓e_get4, ↓l_set4, ↓e_get5, ↓l_set5, ↓e_get6, ↓l_set6, ↓e_get7, ↓l_set7, ↓e_get8, ↓l_set8, ↓e_get9, ↓l_set9, ↓e_get10, ↓l_set10, ↓e_get11, ↓l_set11, ↓b_none, ↓b_next, ↓b_br0, ↓b_br1, ↓b_br2, ↓b_br3, ↓b_ret, ↓l_next, ↓l_br0, ↓l_br1, ↓l_br2, ↓l_br3, ↓l_ret, ↓f_next, ↓f_ret, ↓iterate_succ, ↓c_debug, ↓c_poll, ↓c_random, ↓c_read, ↓c_stop, ↓c_time, ↓c_write, ↓pure_bind, ↓bind_assoc, ↓stop_bind, ↓ite_bind, ite_b2n, b2n_or,
  b2n_and, badFd_iff, bad2_iff, List.nil_append, List.cons_append, Nat.add_zero, ↓reduceIte, Nat.reduceEqDiff, ne_eq, not_false_eq_true, not_true_eq_false]))

theorem args_get (x y : Nat) : run a t F code_args_get [x, y] = result (argsGet x y) := by
  wasm [code_args_get, argsGet]

theorem args_sizes_get (x y : Nat) : run a t F code_args_sizes_get [x, y] = result (argsSizesGet x y) := by
  wasm [code_args_sizes_get, argsSizesGet]

theorem clock_res_get (x y : Nat) : run a t F code_clock_res_get [x, y] = result (clockResGet x y) := by
  wasm [code_clock_res_get, clockResGet]

theorem clock_time_get (x y z : Nat) : run a t (F + 1) code_clock_time_get [x, y, z, 0] = result (clockTimeGet t x y z) := by
  wasm [code_clock_time_get, loop_clock_time_get_0, clockTimeGet]

theorem environ_get (x y : Nat) : run a t F code_environ_get [x, y] = result (environGet x y) := by
  wasm [code_environ_get, environGet]

theorem environ_sizes_get (x y : Nat) : run a t F code_environ_sizes_get [x, y] = result (environSizesGet x y) := by
  wasm [code_environ_sizes_get, environSizesGet]

theorem fd : run a t F code_fd [] = result AbiLib.fd := by
  wasm [code_fd, AbiLib.fd]

theorem fd_close (x : Nat) : run a t (F + 1) code_fd_close [x, 0] = result (fdClose x) := by
  wasm [code_fd_close, loop_fd_close_0, fdClose]

theorem fd_fdstat_get (x y : Nat) : run a t F code_fd_fdstat_get [x, y, 0, 0] = result (fdFdstatGet x y) := by
  wasm [code_fd_fdstat_get, fdFdstatGet]
  by_cases h1 : x = 1 ∨ x = 2
  · have h4 : ¬ x = 4 := by omega
    simp only [h1, h4, if_true, if_false]
  · simp only [h1, if_false]
    by_cases h4 : x = 4
    · simp only [h4, if_true]
    · simp only [h4, if_false]

theorem fd_fdstat_set_flags (x y : Nat) : run a t F code_fd_fdstat_set_flags [x, y] = result (fdFdstatSetFlags x y) := by
  wasm [code_fd_fdstat_set_flags, fdFdstatSetFlags]

theorem fd_fdstat_set_rights (x y z : Nat) : run a t (F + 1) code_fd_fdstat_set_rights [x, y, z, 0] = result (fdFdstatSetRights x y z) := by
  wasm [code_fd_fdstat_set_rights, loop_fd_fdstat_set_rights_0, fdFdstatSetRights]
  by_cases h1 : x = 1 ∨ x = 2
  · have h4 : ¬ x = 4 := by omega
    simp only [h1, h4, if_true, if_false, true_and, false_and]
  · by_cases h4 : x = 4
    · simp only [h1, if_false, false_and]
      simp only [h4, if_true, true_and]
    · simp only [h1, h4, if_false, false_and]

theorem fd_filestat_get (x y : Nat) : run a t F code_fd_filestat_get [x, y] = result (fdFilestatGet x y) := by
  wasm [code_fd_filestat_get, fdFilestatGet]

theorem fd_renumber (x y : Nat) : run a t (F + 1) code_fd_renumber [x, y, 0] = result (fdRenumber x y) := by
  wasm [code_fd_renumber, loop_fd_renumber_0, fdRenumber]

theorem fd_stub_i32 (x : Nat) : run a t F code_fd_stub_i32 [x] = result (fdStub x) := by
  wasm [code_fd_stub_i32, fdStub]

theorem fd_stub_i32i32 (x x1 : Nat) : run a t F code_fd_stub_i32i32 [x, x1] = result (fdStub x) := by
  wasm [code_fd_stub_i32i32, fdStub]

theorem fd_stub_i32i64 (x x1 : Nat) : run a t F code_fd_stub_i32i64 [x, x1] = result (fdStub x) := by
  wasm [code_fd_stub_i32i64, fdStub]

theorem fd_stub_i32i32i32 (x x1 x2 : Nat) : run a t F code_fd_stub_i32i32i32 [x, x1, x2] = result (fdStub x) := by
  wasm [code_fd_stub_i32i32i32, fdStub]

theorem fd_stub_i32i64i64 (x x1 x2 : Nat) : run a t F code_fd_stub_i32i64i64 [x, x1, x2] = result (fdStub x) := by
  wasm [code_fd_stub_i32i64i64, fdStub]

theorem fd_stub_i32i64i32i32 (x x1 x2 x3 : Nat) : run a t F code_fd_stub_i32i64i32i32 [x, x1, x2, x3] = result (fdStub x) := by
  wasm [code_fd_stub_i32i64i32i32, fdStub]

theorem fd_stub_i32i64i64i32 (x x1 x2 x3 : Nat) : run a t F code_fd_stub_i32i64i64i32 [x, x1, x2, x3] = result (fdStub x) := by
  wasm [code_fd_stub_i32i64i64i32, fdStub]

theorem fd_stub_i32i32i32i64i32 (x x1 x2 x3 x4 : Nat) : run a t F code_fd_stub_i32i32i32i64i32 [x, x1, x2, x3, x4] = result (fdStub x) := by
  wasm [code_fd_stub_i32i32i32i64i32, fdStub]

theorem path_stub_i32i32i32 (x x1 x2 : Nat) : run a t F code_path_stub_i32i32i32 [x, x1, x2] = result (pathStub) := by
  wasm [code_path_stub_i32i32i32, pathStub]

theorem path_stub_i32i32i32i32i32 (x x1 x2 x3 x4 : Nat) : run a t F code_path_stub_i32i32i32i32i32 [x, x1, x2, x3, x4] = result (pathStub) := by
  wasm [code_path_stub_i32i32i32i32i32, pathStub]

theorem path_stub_i32i32i32i32i32i32 (x x1 x2 x3 x4 x5 : Nat) : run a t F code_path_stub_i32i32i32i32i32i32 [x, x1, x2, x3, x4, x5] = result (pathStub) := by
  wasm [code_path_stub_i32i32i32i32i32i32, pathStub]

theorem path_stub_i32i32i32i32i32i32i32 (x x1 x2 x3 x4 x5 x6 : Nat) : run a t F code_path_stub_i32i32i32i32i32i32i32 [x, x1, x2, x3, x4, x5, x6] = result (pathStub) := by
  wasm [code_path_stub_i32i32i32i32i32i32i32, pathStub]

theorem path_stub_i32i32i32i32i64i64i32 (x x1 x2 x3 x4 x5 x6 : Nat) : run a t F code_path_stub_i32i32i32i32i64i64i32 [x, x1, x2, x3, x4, x5, x6] = result (pathStub) := by
  wasm [code_path_stub_i32i32i32i32i64i64i32, pathStub]

theorem path_stub_i32i32i32i32i32i64i64i32i32 (x x1 x2 x3 x4 x5 x6 x7 x8 : Nat) : run a t F code_path_stub_i32i32i32i32i32i64i64i32i32 [x, x1, x2, x3, x4, x5, x6, x7, x8] = result (pathStub) := by
  wasm [code_path_stub_i32i32i32i32i32i64i64i32i32, pathStub]

theorem sock_recv (x x1 x2 x3 x4 x5 : Nat) : run a t F code_sock_recv [x, x1, x2, x3, x4, x5] = result (sockStub x) := by
  wasm [code_sock_recv, sockStub]

theorem sock_send (x x1 x2 x3 x4 : Nat) : run a t F code_sock_send [x, x1, x2, x3, x4] = result (sockStub x) := by
  wasm [code_sock_send, sockStub]

theorem sock_shutdown (x x1 : Nat) : run a t F code_sock_shutdown [x, x1] = result (sockStub x) := by
  wasm [code_sock_shutdown, sockStub]

theorem proc_exit (x : Nat) : run a t (F + 1) code_proc_exit [x] = (procExit x >>= fun _ => pure (some [])) := by
  wasm [code_proc_exit, loop_proc_exit_0, procExit]
  unfold b2n Process.procExit
  rfl

theorem proc_raise (x : Nat) : run a t F code_proc_raise [x] = result (procRaise x) := by
  wasm [code_proc_raise, procRaise]

theorem sched_yield : run a t F code_sched_yield [] = result schedYield := by
  wasm [code_sched_yield, schedYield]

/-! ### Functions with loops -/

theorem sub_one (n : Nat) (h : n + 1 < w32) : (n + 1 + w32 - 1) % w32 = n := by
  simp only [w32] at h ⊢
  omega

theorem not_succ (n : Nat) : (n + 1 = 0) = False := by simp

theorem bind_congr {α β : Type} (m : M α) (f g : α → M β) (h : ∀ x, f x = g x) : (m >>= f) = (m >>= g) := by rw [funext h]

theorem fd_read_body {β : Type} (g : R → M β) (x iov len p acc bl n : Nat) :
    (loop_fd_read_0.exec (host a t) F [x, iov, len, p, acc, bl, n] [] >>= g) =
      if len = 0 then g (some (.br 1, [x, iov, len, p, acc, bl, n], []))
      else ld 4 (iov + 4) >>= fun bl => ld 4 iov >>= fun b => rtRead a b bl >>= fun n =>
        if ¬ n = bl then g (some (.br 1, [x, iov, len, p, (acc + n) % w32, bl, n], []))
        else g (some (.br 0, [x, (iov + 8) % w32, (len + w32 - 1) % w32, p, (acc + n) % w32, bl, n], [])) := by
  wasm [loop_fd_read_0]

theorem fd_read_loop {β : Type} (k : List Nat → List Nat → M R) (g : R → M β) (G : Nat → M β) (x p : Nat)
    (hg : ∀ iov len acc bl n, g (some (.br 0, [x, iov, len, p, acc, bl, n], [])) = G acc) (len : Nat) :
    ∀ N iov acc bl n, len < N → len < w32 →
      (iterate (fun l => loop_fd_read_0.exec (host a t) F l []) [] k N [x, iov, len, p, acc, bl, n] >>= g) = (readLoop a len iov acc >>= G) := by
  induction len with
  | zero =>
    intro N iov acc bl n hN hl
    obtain ⟨N, rfl⟩ : ∃ M, N = M + 1 := ⟨N - 1, by omega⟩
    rw [iterate_succ, bind_assoc, fd_read_body]
    wasm [readLoop]
    exact hg ..
  | succ len ih =>
    intro N iov acc bl n hN hl
    obtain ⟨N, rfl⟩ : ∃ M, N = M + 1 := ⟨N - 1, by omega⟩
    rw [iterate_succ, bind_assoc, fd_read_body]
    wasm [readLoop]
    simp only [sub_one len hl, hg]
    refine bind_congr _ _ _ fun bl => bind_congr _ _ _ fun b => bind_congr _ _ _ fun n => ?_
    rw [ih _ _ _ _ _ (by omega) (by omega)]

theorem fd_read (x y z w : Nat) (hz : z < w32) (hF : w32 ≤ F) : run a t F code_fd_read [x, y, z, w, 0, 0, 0] = result (fdRead a x y z w) := by
  wasm [code_fd_read, fdRead]
  rw [fd_read_loop a t F _ _ (fun n => st 4 w n >>= fun _ => if n ≠ 0 then pure (some [0]) else pure (some [6])) _ _ (by intros; wasm []) _ _ _ _ _ _ (by omega) hz]

theorem fd_write_body {β : Type} (g : R → M β) (x iov len p acc bl n : Nat) :
    (loop_fd_write_0.exec (host a t) F [x, iov, len, p, acc, bl, n] [] >>= g) =
      if len = 0 then g (some (.br 2, [x, iov, len, p, acc, bl, n], []))
      else ld 4 (iov + 4) >>= fun bl => ld 4 iov >>= fun b => rtWrite a b bl >>= fun n =>
        if ¬ n = bl then g (some (.br 2, [x, iov, len, p, (acc + n) % w32, bl, n], []))
        else g (some (.br 0, [x, (iov + 8) % w32, (len + w32 - 1) % w32, p, (acc + n) % w32, bl, n], [])) := by
  wasm [loop_fd_write_0]

theorem fd_write_loop {β : Type} (k : List Nat → List Nat → M R) (g : R → M β) (G : Nat → M β) (x p : Nat)
    (hg : ∀ iov len acc bl n, g (some (.br 1, [x, iov, len, p, acc, bl, n], [])) = G acc) (len : Nat) :
    ∀ N iov acc bl n, len < N → len < w32 →
      (iterate (fun l => loop_fd_write_0.exec (host a t) F l []) [] k N [x, iov, len, p, acc, bl, n] >>= g) = (writeLoop a len iov acc >>= G) := by
  induction len with
  | zero =>
    intro N iov acc bl n hN hl
    obtain ⟨N, rfl⟩ : ∃ M, N = M + 1 := ⟨N - 1, by omega⟩
    rw [iterate_succ, bind_assoc, fd_write_body]
    wasm [writeLoop]
    exact hg ..
  | succ len ih =>
    intro N iov acc bl n hN hl
    obtain ⟨N, rfl⟩ : ∃ M, N = M + 1 := ⟨N - 1, by omega⟩
    rw [iterate_succ, bind_assoc, fd_write_body]
    wasm [writeLoop]
    simp only [sub_one len hl, hg]
    refine bind_congr _ _ _ fun bl => bind_congr _ _ _ fun b => bind_congr _ _ _ fun n => ?_
    rw [ih _ _ _ _ _ (by omega) (by omega)]

theorem fd_debug_body {β : Type} (g : R → M β) (x iov len p acc bl n : Nat) :
    (loop_fd_write_1.exec (host a t) F [x, iov, len, p, acc, bl, n] [] >>= g) =
      if len = 0 then g (some (.br 2, [x, iov, len, p, acc, bl, n], []))
      else ld 4 (iov + 4) >>= fun bl => ld 4 iov >>= fun b => rtDebug a b bl >>= fun _ =>
        g (some (.br 0, [x, (iov + 8) % w32, (len + w32 - 1) % w32, p, (acc + bl) % w32, bl, n], [])) := by
  wasm [loop_fd_write_1]

theorem fd_debug_loop {β : Type} (k : List Nat → List Nat → M R) (g : R → M β) (G : Nat → M β) (x p : Nat)
    (hg : ∀ iov len acc bl n, g (some (.br 1, [x, iov, len, p, acc, bl, n], [])) = G acc) (len : Nat) :
    ∀ N iov acc bl n, len < N → len < w32 →
      (iterate (fun l => loop_fd_write_1.exec (host a t) F l []) [] k N [x, iov, len, p, acc, bl, n] >>= g) = (debugVec a len iov acc >>= G) := by
  induction len with
  | zero =>
    intro N iov acc bl n hN hl
    obtain ⟨N, rfl⟩ : ∃ M, N = M + 1 := ⟨N - 1, by omega⟩
    rw [iterate_succ, bind_assoc, fd_debug_body]
    wasm [debugVec]
    exact hg ..
  | succ len ih =>
    intro N iov acc bl n hN hl
    obtain ⟨N, rfl⟩ : ∃ M, N = M + 1 := ⟨N - 1, by omega⟩
    rw [iterate_succ, bind_assoc, fd_debug_body]
    wasm [debugVec]
    simp only [sub_one len hl]
    refine bind_congr _ _ _ fun bl => bind_congr _ _ _ fun b => bind_congr _ _ _ fun n => ?_
    rw [ih _ _ _ _ _ (by omega) (by omega)]

theorem fd_write (x y z w : Nat) (hz : z < w32) (hF : w32 ≤ F) : run a t F code_fd_write [x, y, z, w, 0, 0, 0] = result (fdWrite a x y z w) := by
  wasm [code_fd_write, fdWrite]
  rw [fd_write_loop a t F _ _ (fun n => st 4 w n >>= fun _ => if n ≠ 0 then pure (some [0]) else pure (some [6])) _ _ (by intros; wasm []) _ _ _ _ _ _ (by omega) hz]
  rw [fd_debug_loop a t F _ _ (fun n => st 4 w n >>= fun _ => if n ≠ 0 then pure (some [0]) else pure (some [6])) _ _ (by intros; wasm []) _ _ _ _ _ _ (by omega) hz]

theorem random_bind {β : Type} (f g : Nat → M β) (h : ∀ v, v < w32 → f v = g v) : (rtRandom >>= f) = (rtRandom >>= g) := by
  funext s
  show M.bind rtRandom f s = M.bind rtRandom g s
  unfold M.bind rtRandom
  by_cases h0 : s.randomAvail = 0
  · simp only [h0, if_true]
    rw [h _ (by decide)]
  · simp only [h0, if_false]
    rw [h _ (Nat.lt_of_lt_of_le (UInt8.toNat_lt _) (by decide))]

theorem ges32_zero (v : Nat) (h : v < w32) : ges32 v 0 = (v < 2147483648) := by
  unfold ges32
  simp only [w32] at h ⊢
  apply propext
  omega

theorem random_body {β : Type} (g : R → M β) (buf len res v : Nat) :
    (loop_random_get_0.exec (host a t) F [buf, len, res, v] [] >>= g) =
      if len = 0 then g (some (.br 1, [buf, len, res, v], []))
      else rtRandom >>= fun v =>
        if ges32 v 0 then st 1 buf v >>= fun _ => g (some (.br 0, [(buf + 1) % w32, (len + w32 - 1) % w32, res, v], []))
        else rtStop 127 := by
  wasm [loop_random_get_0]

theorem random_loop {β : Type} (k : List Nat → List Nat → M R) (g : R → M β) (G : Nat → M β) (res : Nat)
    (hg : ∀ buf len v, g (some (.br 0, [buf, len, res, v], [])) = G 0) (len : Nat) :
    ∀ N buf v, len < N → len < w32 →
      (iterate (fun l => loop_random_get_0.exec (host a t) F l []) [] k N [buf, len, res, v] >>= g) = (randomGet buf len >>= G) := by
  induction len with
  | zero =>
    intro N buf v hN hl
    obtain ⟨N, rfl⟩ : ∃ M, N = M + 1 := ⟨N - 1, by omega⟩
    rw [iterate_succ, bind_assoc, random_body]
    wasm [randomGet]
    exact hg ..
  | succ len ih =>
    intro N buf v hN hl
    obtain ⟨N, rfl⟩ : ∃ M, N = M + 1 := ⟨N - 1, by omega⟩
    rw [iterate_succ, bind_assoc, random_body]
    wasm [randomGet]
    simp only [sub_one len hl]
    refine random_bind _ _ fun v hv => ?_
    simp only [ges32_zero v hv]
    by_cases h : v < 2147483648
    · simp only [h, if_true]
      refine bind_congr _ _ _ fun _ => ?_
      rw [ih _ _ _ (by omega) (by omega)]
    · simp only [h, if_false]

theorem random_get (x y : Nat) (hy : y < w32) (hF : w32 ≤ F) : run a t F code_random_get [x, y, 0, 0] = result (randomGet x y) := by
  wasm [code_random_get]
  rw [random_loop a t F _ _ (fun v => pure (some [v])) _ (by intros; wasm []; rfl) _ _ _ _ (by omega) hy]

theorem poll_body {β : Type} (g : R → M β) (sub nsub nout ty fd res : Nat) (v : PollVars) :
    (loop_poll_oneoff_0.exec (host a t) F [sub, v.out, nsub, nout, ty, fd, v.reading, v.writing, v.readUserdata, v.writeUserdata, res, v.nout] [] >>= g) =
      if nsub = 0 then g (some (.br 1, [sub, v.out, nsub, nout, ty, fd, v.reading, v.writing, v.readUserdata, v.writeUserdata, res, v.nout], []))
      else ld 1 (sub + 8) >>= fun ty =>
        if 3 ≤ ty then g (some (.ret, [sub, v.out, nsub, nout, ty, fd, v.reading, v.writing, v.readUserdata, v.writeUserdata, res, v.nout], [28]))
        else if ty = 0 then rtStop 127
        else ld 4 (sub + 16) >>= fun fd =>
          pollFd sub ty fd v >>= fun v =>
          pollStd sub ty fd v >>= fun v =>
          g (some (.br 0, [(sub + 56) % w32, v.out, (nsub + w32 - 1) % w32, nout, ty, fd, v.reading, v.writing, v.readUserdata, v.writeUserdata, res, v.nout], [])) := by
  wasm [loop_poll_oneoff_0, pollFd, pollStd, putEvent]
  by_cases h0 : nsub = 0
  · simp only [h0, if_true]
  · simp only [h0, if_false]
    refine bind_congr _ _ _ fun ty => ?_
    by_cases h3 : 3 ≤ ty
    · simp only [h3, if_true]
    · simp only [h3, if_false]
      by_cases hz : ty = 0
      · simp only [hz, if_true]
      · simp only [hz, if_false]
        refine bind_congr _ _ _ fun fd => ?_
        have : ty = 1 ∨ ty = 2 := by omega
        have e12 : ((1 : Nat) = 2) = False := by simp
        have e21 : ((2 : Nat) = 1) = False := by simp
        obtain rfl | rfl := this
        · simp only [e12, if_true, if_false, and_false]
        · simp only [e21, if_true, if_false, and_true]

/-- What the loop's end is followed by. -/
def afterPoll {β : Type} (G : Nat ⊕ PollVars → M β) (sub nsub nout ty fd res : Nat) (v : PollVars) (g : R → M β) : Prop :=
  g (some (.br 0, [sub, v.out, nsub, nout, ty, fd, v.reading, v.writing, v.readUserdata, v.writeUserdata, res, v.nout], [])) = G (.inr v) ∧
  g (some (.ret, [sub, v.out, nsub, nout, ty, fd, v.reading, v.writing, v.readUserdata, v.writeUserdata, res, v.nout], [28])) = G (.inl 28)

theorem poll_loop {β : Type} (k : List Nat → List Nat → M R) (g : R → M β) (G : Nat ⊕ PollVars → M β) (nout res : Nat)
    (hg : ∀ sub nsub ty fd v, afterPoll G sub nsub nout ty fd res v g) (nsub : Nat) :
    ∀ N sub ty fd v, nsub < N → nsub < w32 →
      (iterate (fun l => loop_poll_oneoff_0.exec (host a t) F l []) [] k N
        [sub, v.out, nsub, nout, ty, fd, v.reading, v.writing, v.readUserdata, v.writeUserdata, res, v.nout] >>= g) = (pollLoop nsub sub v >>= G) := by
  induction nsub with
  | zero =>
    intro N sub ty fd v hN hl
    obtain ⟨N, rfl⟩ : ∃ M, N = M + 1 := ⟨N - 1, by omega⟩
    rw [iterate_succ, bind_assoc, poll_body]
    wasm [pollLoop]
    exact (hg ..).1
  | succ nsub ih =>
    intro N sub ty fd v hN hl
    obtain ⟨N, rfl⟩ : ∃ M, N = M + 1 := ⟨N - 1, by omega⟩
    rw [iterate_succ, bind_assoc, poll_body]
    wasm [pollLoop]
    simp only [sub_one nsub hl]
    refine bind_congr _ _ _ fun ty => ?_
    by_cases h3 : 3 ≤ ty
    · simp only [h3, if_true]
      exact (hg ..).2
    · simp only [h3, if_false]
      by_cases hz : ty = 0
      · simp only [hz, if_true]
      · simp only [hz, if_false]
        refine bind_congr _ _ _ fun fd => bind_congr _ _ _ fun v => bind_congr _ _ _ fun v => ?_
        rw [ih _ _ _ _ _ (by omega) (by omega)]

theorem poll_oneoff (x y z w : Nat) (hz : z < w32) (hF : w32 ≤ F) :
    run a t F code_poll_oneoff [x, y, z, w, 0, 0, 0, 0, 0, 0, 0, 0] = result (pollOneoff x y z w) := by
  wasm [code_poll_oneoff, pollOneoff]
  rw [poll_loop a t F _ _ (fun r => match r with
    | .inl e => pure (some [e])
    | .inr v => pollFinish w v >>= fun e => pure (some [e])) _ _ (by
      intro sub nsub ty fd v
      unfold afterPoll
      wasm [pollFinish, pollEvent, putEvent]
      exact ⟨trivial, trivial⟩) _ _ _ _ _ { out := y } (by omega) hz]
  refine bind_congr _ _ _ fun r => ?_
  cases r <;> rfl

/-! `io` in parts. -/

def skip : Instr := .block (.cons (.const 1) <| .cons (.brIf 0) <| .cons (.call 1) <| .nil)
def ioEnd : Code := .cons (.get 2) <| .cons (.ite false (.cons (.get 2) <| .cons (.get 8) <| .cons (.store 4 0) <| .nil) (.nil)) <| .cons skip <| .nil
def ioRecv : Code := .cons skip <| .cons (.const 0) <| .cons (.set 8) <| .cons (.get 7) <| .cons (.const 1) <| .cons .i32And <|
  .cons (.ite false (.cons (.block (.cons (.loop loop_io_1) <| .nil)) <| .nil) (.nil)) <| ioEnd
def ioMid : Code := .cons (.get 5) <| .cons (.ite false (.cons (.get 5) <| .cons (.get 8) <| .cons (.store 4 0) <| .nil) (.nil)) <| ioRecv
def ioSend : Code := .cons skip <| .cons (.get 7) <| .cons (.const 4) <| .cons .i32And <|
  .cons (.ite false (.cons (.block (.cons (.loop loop_io_0) <| .nil)) <| .nil) (.nil)) <| ioMid
theorem code_io_eq : code_io = (.cons skip <| .cons (.const 5) <| .cons (.set 7) <| .cons (.get 6) <| .cons (.const 1) <| .cons .i32And <|
  .cons (.ite false (.cons (.const 1) <| .cons (.get 4) <| .cons (.ite true (.cons (.const 4) <| .nil) (.cons (.const 0) <| .nil)) <| .cons (.call 2) <| .cons (.set 7) <| .nil) (.nil)) <|
  ioSend) := rfl

theorem io_send_body {β : Type} (g : R → M β) (r rl nr s sl ns fl f acc bl n : Nat) :
    (loop_io_0.exec (host a t) F [r, rl, nr, s, sl, ns, fl, f, acc, bl, n] [] >>= g) =
      if sl = 0 then g (some (.br 1, [r, rl, nr, s, sl, ns, fl, f, acc, bl, n], []))
      else ld 4 (s + 4) >>= fun bl => ld 4 s >>= fun b => rtWrite a b bl >>= fun n =>
        if ¬ n = bl then g (some (.br 1, [r, rl, nr, s, sl, ns, fl, f, (acc + n) % w32, bl, n], []))
        else g (some (.br 0, [r, rl, nr, (s + 8) % w32, (sl + w32 - 1) % w32, ns, fl, f, (acc + n) % w32, bl, n], [])) := by
  wasm [loop_io_0]

theorem io_send_loop {β : Type} (k : List Nat → List Nat → M R) (g : R → M β) (G : Nat → M β) (r rl nr ns fl f : Nat)
    (hg : ∀ s sl acc bl n, g (some (.br 0, [r, rl, nr, s, sl, ns, fl, f, acc, bl, n], [])) = G acc) (sl : Nat) :
    ∀ N s acc bl n, sl < N → sl < w32 →
      (iterate (fun l => loop_io_0.exec (host a t) F l []) [] k N [r, rl, nr, s, sl, ns, fl, f, acc, bl, n] >>= g) = (writeLoop a sl s acc >>= G) := by
  induction sl with
  | zero =>
    intro N iov acc bl n hN hl
    obtain ⟨N, rfl⟩ : ∃ M, N = M + 1 := ⟨N - 1, by omega⟩
    rw [iterate_succ, bind_assoc, io_send_body]
    wasm [writeLoop]
    exact hg ..
  | succ len ih =>
    intro N iov acc bl n hN hl
    obtain ⟨N, rfl⟩ : ∃ M, N = M + 1 := ⟨N - 1, by omega⟩
    rw [iterate_succ, bind_assoc, io_send_body]
    wasm [writeLoop]
    simp only [sub_one len hl, hg]
    refine bind_congr _ _ _ fun bl => bind_congr _ _ _ fun b => bind_congr _ _ _ fun n => ?_
    rw [ih _ _ _ _ _ (by omega) (by omega)]

theorem io_recv_body {β : Type} (g : R → M β) (r rl nr s sl ns fl f acc bl n : Nat) :
    (loop_io_1.exec (host a t) F [r, rl, nr, s, sl, ns, fl, f, acc, bl, n] [] >>= g) =
      if rl = 0 then g (some (.br 1, [r, rl, nr, s, sl, ns, fl, f, acc, bl, n], []))
      else ld 4 (r + 4) >>= fun bl => ld 4 r >>= fun b => rtRead a b bl >>= fun n =>
        if ¬ n = bl then g (some (.br 1, [r, rl, nr, s, sl, ns, fl, f, (acc + n) % w32, bl, n], []))
        else g (some (.br 0, [(r + 8) % w32, (rl + w32 - 1) % w32, nr, s, sl, ns, fl, f, (acc + n) % w32, bl, n], [])) := by
  wasm [loop_io_1]

theorem io_recv_loop {β : Type} (k : List Nat → List Nat → M R) (g : R → M β) (G : Nat → M β) (nr s sl ns fl f : Nat)
    (hg : ∀ r rl acc bl n, g (some (.br 0, [r, rl, nr, s, sl, ns, fl, f, acc, bl, n], [])) = G acc) (rl : Nat) :
    ∀ N r acc bl n, rl < N → rl < w32 →
      (iterate (fun l => loop_io_1.exec (host a t) F l []) [] k N [r, rl, nr, s, sl, ns, fl, f, acc, bl, n] >>= g) = (readLoop a rl r acc >>= G) := by
  induction rl with
  | zero =>
    intro N iov acc bl n hN hl
    obtain ⟨N, rfl⟩ : ∃ M, N = M + 1 := ⟨N - 1, by omega⟩
    rw [iterate_succ, bind_assoc, io_recv_body]
    wasm [readLoop]
    exact hg ..
  | succ len ih =>
    intro N iov acc bl n hN hl
    obtain ⟨N, rfl⟩ : ∃ M, N = M + 1 := ⟨N - 1, by omega⟩
    rw [iterate_succ, bind_assoc, io_recv_body]
    wasm [readLoop]
    simp only [sub_one len hl, hg]
    refine bind_congr _ _ _ fun bl => bind_congr _ _ _ fun b => bind_congr _ _ _ fun n => ?_
    rw [ih _ _ _ _ _ (by omega) (by omega)]

section
variable (r rl nr s sl ns fl f acc bl n : Nat)

theorem io_end : run a t F ioEnd [r, rl, nr, s, sl, ns, fl, f, acc, bl, n] = (ioStore nr acc >>= fun _ => pure (some [])) := by
  wasm [ioEnd, skip, ioStore]

theorem io_recv (hr : rl < w32) (hF : w32 ≤ F) : run a t F ioRecv [r, rl, nr, s, sl, ns, fl, f, acc, bl, n] =
    (ioWhen f 1 (readLoop a rl r 0) >>= fun x => ioStore nr x >>= fun _ => pure (some [])) := by
  have h := io_end a t F
  simp only [run] at h
  wasm [ioRecv, skip, ioWhen]
  rw [io_recv_loop a t F _ _ (fun x => ioStore nr x >>= fun _ => pure (some [])) _ _ _ _ _ _ (by intros; wasm []; exact h ..) _ _ _ _ _ _ (by omega) hr, h]

theorem io_mid (hr : rl < w32) (hF : w32 ≤ F) : run a t F ioMid [r, rl, nr, s, sl, ns, fl, f, acc, bl, n] =
    (ioStore ns acc >>= fun _ => ioWhen f 1 (readLoop a rl r 0) >>= fun x => ioStore nr x >>= fun _ => pure (some [])) := by
  have h := fun r rl nr s sl ns fl f acc bl n h => io_recv a t F r rl nr s sl ns fl f acc bl n h hF
  simp only [run] at h
  wasm [ioMid]
  simp only [h _ _ _ _ _ _ _ _ _ _ _ hr]
  wasm [ioStore]

theorem io_send (hr : rl < w32) (hs : sl < w32) (hF : w32 ≤ F) : run a t F ioSend [r, rl, nr, s, sl, ns, fl, f, 0, bl, n] =
    (ioWhen f 4 (writeLoop a sl s 0) >>= fun y => ioStore ns y >>= fun _ => ioWhen f 1 (readLoop a rl r 0) >>= fun x => ioStore nr x >>= fun _ => pure (some [])) := by
  have h := fun r rl nr s sl ns fl f acc bl n h => io_mid a t F r rl nr s sl ns fl f acc bl n h hF
  simp only [run] at h
  wasm [ioSend, skip]
  rw [io_send_loop a t F _ _ (fun y => ioStore ns y >>= fun _ => ioWhen f 1 (readLoop a rl r 0) >>= fun x => ioStore nr x >>= fun _ => pure (some [])) _ _ _ _ _ _
    (by intros; wasm []; exact h _ _ _ _ _ _ _ _ _ _ _ hr) _ _ _ _ _ _ (by omega) hs, h _ _ _ _ _ _ _ _ _ _ _ hr]
  conv => rhs; rw [ioWhen, ite_bind]
  rfl
end

theorem io (r rl nr s sl ns fl : Nat) (hs : sl < w32) (hr : rl < w32) (hF : w32 ≤ F) :
    run a t F code_io [r, rl, nr, s, sl, ns, fl, 0, 0, 0, 0] = (AbiLib.io a r rl nr s sl ns fl >>= fun _ => pure (some [])) := by
  have h := fun f => io_send a t F r rl nr s sl ns fl f 0 0 hr hs hF
  simp only [run] at h
  wasm [code_io_eq, skip, AbiLib.io]
  simp only [h]
  wasm [ioFilter]
  by_cases h0 : sl = 0 <;> simp only [h0, not_true_eq_false, not_false_eq_true, if_true, if_false]
end
end Gate.Wasm
