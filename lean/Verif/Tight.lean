import Verif.ProcessProps
import Verif.Rt
import Verif.WebActions
import Verif.Source
import Verif.ScopeAliasProps
import Verif.ReqContext
import Verif.Files
import Verif.Resolver
import Verif.Debugger
import Verif.RespondProps
import Verif.Creds
import Verif.PacketProps
import Verif.WriteStream
import Verif.Container
/-
Exact statements which automatically generated wrong programs asked for (seeded/LOG.jsonl): each of them determines a behaviour which the
theorems of the property didn't.
-/

namespace Gate.Process

/-- C24: a nonzero result is always the exit status of a process which exited, after the I/O loop ended normally. -/
theorem result_is_status (io : IoEnd) (st : Option Nat) (k : Bool) (h : (serve io st k).result ≠ 0) :
    io = .ok ∧ ∃ w, st = some w ∧ exited w = true ∧ exitStatus w = (serve io st k).result ∧ exitStatus w ≤ 3 := by
  cases io with
  | badProgram => exact absurd rfl h
  | failed => exact absurd rfl h
  | ok =>
    refine ⟨rfl, ?_⟩
    cases st with
    | none => exact absurd rfl h
    | some w =>
      refine ⟨w, rfl, ?_⟩
      simp only [serve] at h ⊢
      grind

example : (serve .ok (some (exitWait 3)) false).result = 3 := by decide

end Gate.Process

namespace Gate.Rt

/-- C91: what a failing write to the output pipe does: the process exits with status 5, unless it would have blocked or was interrupted. -/
theorem write_error (a : Arch) (s : St) (addr len start n e : Nat) (k : List Resp) (hp : prologue a s addr len = .io start n)
    (hk : s.kern = .err e :: k) :
    rtWrite a addr len s = if e = 11 ∨ e = 4 then .ok 0 { s with kern := k } else .exit 5 { s with kern := k } := by
  simp only [rtWrite, hp, hk]; split <;> rfl

/-- C91: a write of nothing is an error, too. -/
theorem write_nothing (a : Arch) (s : St) (addr len start n : Nat) (k : List Resp) (hp : prologue a s addr len = .io start n)
    (hk : s.kern = .wrote 0 :: k) : ∃ s', rtWrite a addr len s = .exit 5 s' ∧ s'.kern = k := by
  refine ⟨{ s with out := s.out ++ ImageFile.read s.space start 0, kern := k }, ?_, rfl⟩
  simp [rtWrite, hp, hk, exit, errWrite]

/-- C91: what a failing read of the input pipe does: status 4. -/
theorem read_error (a : Arch) (s : St) (addr len start n e : Nat) (k : List Resp) (hp : prologue a s addr len = .io start n)
    (hk : s.kern = .err e :: k) :
    rtRead a addr len s = if e = 11 ∨ e = 4 then .ok 0 { s with kern := k } else .exit 4 { s with kern := k } := by
  simp only [rtRead, hp, hk]; split <;> rfl

/-- C93: a failing write to the debug pipe: status 6. -/
theorem debug_error (a : Arch) (s : St) (addr len start n e : Nat) (k : List Resp) (hp : prologue a s addr len = .io start n)
    (hk : s.kern = .err e :: k) (he : e ≠ 4) :
    rtDebug a addr len s = .exit 6 { s with kern := k } := by
  simp only [rtDebug, hk]; unfold debugLoop; simp only [hp, if_neg he]

end Gate.Rt

namespace Gate.Web

/-- C72: a missing mandatory parameter: a GET request without a query is answered without content, anything else with an error, and no
operation is performed. -/
theorem missing_param (r : Req) (q : Query) (key : String) (h : ∀ v, (key, v) ∉ q) :
    (r.raw = false ∧ r.get = true → popLast r q key = ([.noContent], none)) ∧
    (¬ (r.raw = false ∧ r.get = true) → popLast r q key = ([.error "missing query param"], none)) := by
  have hv : values q key = [] := by
    simp only [values, List.map_eq_nil_iff, List.filter_eq_nil_iff]
    intro p hp hk
    exact h p.2 (by have : p.1 = key := by simpa using hk
                    rw [← this]; exact hp)
  constructor
  · rintro ⟨h1, h2⟩; simp [popLast, hv, h1, h2]
  · intro hn
    have : (!r.raw && r.get) = false := by
      cases h1 : r.raw <;> cases h2 : r.get <;> simp_all
    simp [popLast, hv, this, fail]

example : ∀ v, ("function", v) ∉ ([("action", "call")] : Query) := by intro v; simp

end Gate.Web

namespace Gate.Source

/-- C112: a source which answers 404 makes the request fail with "module not found"; one which answers with anything but 200 and 404 (and
206 with HTTP) makes it fail with an internal error. -/
theorem status_outcome (m : Nat) (r : Resp) :
    (r.status = 404 → toUpload (httpOpen m r) = .error .moduleNotFound ∧ toUpload (ipfsOpen m r) = .error .moduleNotFound) ∧
    (r.status ≠ 200 → r.status ≠ 404 → toUpload (ipfsOpen m r) = .error (.other (Auth.str "source")) ∧
      (r.status ≠ 206 → toUpload (httpOpen m r) = .error (.other (Auth.str "source")))) := by
  constructor
  · intro h; simp [httpOpen, ipfsOpen, toUpload, h]
  · intro h1 h2
    refine ⟨by simp [ipfsOpen, toUpload, h1, h2], fun h3 => by simp [httpOpen, toUpload, h1, h2, h3]⟩

end Gate.Source

namespace Gate.ScopeAlias

theorem fin_inClass : ∀ n : Fin 256, inClass (UInt8.ofNat n.val) = true ↔ UInt8.ofNat n.val ∈ Auth.str "abcdefghijklmnopqrstuvwxyz0123456789-._" := by
  decide +kernel
theorem fin_isWord' : ∀ n : Fin 256, isWord (UInt8.ofNat n.val) = true ↔
    UInt8.ofNat n.val ∈ Auth.str "ABCDEFGHIJKLMNOPQRSTUVWXYZabcdefghijklmnopqrstuvwxyz0123456789_" := by
  decide +kernel

/-- C116: the characters of the expression's class. -/
theorem class_chars (c : UInt8) : inClass c = true ↔ c ∈ Auth.str "abcdefghijklmnopqrstuvwxyz0123456789-._" := by
  have := fin_inClass ⟨c.toNat, c.toNat_lt⟩
  simpa using this

/-- C116: the word characters of the expression. -/
theorem boundary_chars (c : UInt8) : isWord c = true ↔ c ∈ Auth.str "ABCDEFGHIJKLMNOPQRSTUVWXYZabcdefghijklmnopqrstuvwxyz0123456789_" := by
  have := fin_isWord' ⟨c.toNat, c.toNat_lt⟩
  simpa using this

end Gate.ScopeAlias

namespace Gate.ReqContext

/-- C115: the operation of a context without details is the unspecified one. -/
theorem op_unset (h : Heap) (c : Ctx) (hc : c.ref = none) : op h c = 0 := by simp [op, hc]

end Gate.ReqContext

namespace Gate.Files

/-- C46: a panic happens exactly when a nil reference must be duplicated, or the count was already gone; otherwise the number of panics
stays. -/
theorem panics_exact (s s' : St) (l : Label) (h : step s l = some s') :
    s'.panics = s.panics + (match l with
      | .mustRef i => if s.refs[i]? = some .nil ∨ s.count ≤ 0 then 1 else 0
      | .ref i => if s.refs[i]? ≠ some .nil ∧ s.count ≤ 0 then 1 else 0
      | .dec => if s.count ≤ 0 then 1 else 0
      | _ => 0) := by
  cases l <;> simp only [step] at h <;> grind [addRef]

example : step ⟨1, [.nil], 0, 0, 0, 0, 0⟩ (.mustRef 0) = some ⟨1, [.nil], 0, 0, 0, 0, 1⟩ := by decide

end Gate.Files

namespace Gate.Resolver
open Gate.Auth (str)

/-- C103: which slot has what: the run-time's own code (runtime/loader/x86_64/runtime.S:50,258,261,458,485,491,510) and the compiler's
generated code find their data at these places. -/
theorem slots_exact : slot (-11) = some .clockGettime ∧ slot (-10) = some .timeBase ∧ slot (-9) = some .timeMask ∧ slot (-8) = some .random0 ∧
    slot (-7) = some .random1 ∧ slot (-5) = some .growPages ∧ slot (-4) = some .memoryAddr ∧ slot (-3) = some .currentMemory ∧
    slot (-2) = some .growMemory ∧ slot (-1) = some .trapHandler := by
  decide +kernel

/-- C103: there are eighteen slots before the address, and nothing else. -/
theorem slots_range (i : Int) : (slot i).isSome = true ↔ -18 ≤ i ∧ i ≤ -1 := by
  have hv : vector.map (·.1) = [-18, -17, -16, -15, -14, -13, -12, -11, -10, -9, -8, -7, -6, -5, -4, -3, -2, -1] := by decide +kernel
  have : (slot i).isSome = true ↔ i ∈ vector.map (·.1) := by
    simp only [slot, Option.isSome_map, List.find?_isSome, List.mem_map, decide_eq_true_eq]
  rw [this, hv]
  simp only [List.mem_cons, List.not_mem_nil, or_false]
  omega

end Gate.Resolver

namespace Gate.Dbg

/-- C70: if the rebuilt program is taken into use, then the instance uses its own program from then on, and its configuration is the
requested one. -/
theorem apply_exact (i : Inst) (old new : Config) (i' : Inst) (r : Option Config) (h : apply i old new = .ok i' r) :
    i'.alt = true ∧ i'.running = i.running ∧ r = none ∧
      ∃ c, i'.image = some c ∧ c.info = new.info ∧ c.breaks.list = new.breaks.list := by
  unfold apply at h
  cases hi : i.image with
  | none => rw [hi] at h; exact absurd h (by simp)
  | some img =>
    rw [hi] at h; simp only at h
    split at h
    · injection h with h1 h2
      subst h1; subst h2
      refine ⟨rfl, rfl, rfl, _, rfl, rfl, ?_⟩
      simp only [setBreakpoints]; split
      · next h => exact h.2
      · rfl
    · exact absurd h (by simp)

end Gate.Dbg

namespace Gate.Respond
open Gate.Auth (str)

/-- C110: the event type which the monitor gets for each error, `none` for an internal one. -/
def expectedEvent : Err → Option Fail
  | .unauthorized _ => some .authDenied
  | .forbidden _ => some .resourceDenied
  | .resourceLimit _ => some .resourceLimit
  | .rateLimited _ _ => some .rateLimit
  | .functionNotFound _ => some .functionNotFound
  | .moduleNotFound => some .moduleNotFound
  | .instanceNotFound => some .instanceNotFound
  | .failRequest t _ | .wrapped t _ _ => some t
  | .badProgram _ => some .programError
  | .badModule _ _ => some .moduleError
  | .publicErr _ | .runtime _ _ | .other _ => none

/-- C110: the text which the client gets for each error. -/
def expectedText : Err → Bytes
  | .unauthorized s | .resourceLimit s | .functionNotFound s | .failRequest _ s | .badProgram s | .publicErr s => s
  | .forbidden _ => str "access denied"
  | .rateLimited _ _ => str "request rate limit exceeded"
  | .moduleNotFound => str "module not found"
  | .instanceNotFound => str "instance not found"
  | .wrapped _ _ p | .badModule _ p => p
  | .runtime _ _ | .other _ => str "internal server error"

/-- C110: event type and text of every error. -/
theorem events_exact (identity : Bytes) (e : Err) :
    (respond identity e).request = expectedEvent e ∧ (respond identity e).text = expectedText e := by
  cases e <;> exact ⟨rfl, rfl⟩

end Gate.Respond

namespace Gate.Creds

theorem fin_isSpace : ∀ n : Fin 256, isSpace (UInt8.ofNat n.val) = true ↔ n.val ∈ [9, 10, 11, 12, 13, 32] := by decide +kernel

/-- C126: the characters which are trimmed. -/
theorem space_chars (c : UInt8) : isSpace c = true ↔ c.toNat ∈ [9, 10, 11, 12, 13, 32] := by
  have := fin_isSpace ⟨c.toNat, c.toNat_lt⟩
  simpa using this

end Gate.Creds

namespace Gate.Packet

/-- C01: access beyond the end of a packet panics, and no other does. -/
theorem get_panics_iff (b : Bytes) (off k : Nat) : getLE b off k = .panic ↔ b.length < off + k := by
  unfold getLE
  by_cases h : off + k ≤ b.length
  · rw [if_pos h]; simp; omega
  · rw [if_neg h]; simp; omega

/-- C03: `MakeFlow` makes a packet of one entry, which is read back. -/
theorem makeFlow_exact (c id inc : Int) (hid : -2 ^ 31 ≤ id ∧ id < 2 ^ 31) (hinc : -2 ^ 31 ≤ inc ∧ inc < 2 ^ 31) :
    ∃ b, makeFlow c id inc = .ok b ∧ b.length = 16 ∧ flowNum b = 1 ∧ flowGet b 0 = .ok (id, inc) := by
  obtain ⟨b, hb, hl, hn⟩ := makeFlows_num c 1
  obtain ⟨b', h1, h2, h3, _⟩ := flow_set_get b 0 (by omega) id inc hid hinc
  refine ⟨b', by simp [makeFlow, hb, h1], by omega, ?_, h3⟩
  rw [← hn]; unfold flowNum; rw [h2]

end Gate.Packet

namespace Gate.WriteStream

/-- C09: the circular buffer of a started stream has the size of the capacity and starts with the data which was restored. -/
theorem start_buffer (st : StreamState.State) (w : Bool) (s : St) (h : start st w = some s) (hd : st.data.length ≤ st.cap) :
    s.buf.length = s.size ∧ s.size = st.cap ∧ s.buf.take st.data.length = st.data := by
  unfold start at h
  split at h
  · cases h
  · injection h with h; subst h
    simp; omega

end Gate.WriteStream

namespace Gate.Container

/-- C129: the address space limit: three times 2 GiB and six pages. -/
theorem address_space : limitAS = 3 * 2147483648 + 6 * 4096 := by decide

/-- C129: a failure to set the file descriptor limit doesn't prevent the child from becoming the executor; the failure of any other step
(but the check of the parent, which can't fail) does. -/
theorem only_nofile_optional (c : Cfg) (fail die : Nat → Bool) (dead : Bool) (k : K) (a : Act) (as : List Act) (hd : die as.length = false) :
    run c fail die dead k (.nofile :: as) = run c fail die dead k as ∧
    (a ≠ .nofile → a ≠ .checkParent → fail as.length = true → run c fail die dead k (a :: as) = .failed) := by
  constructor
  · simp only [run, hd, optional, needsCaps]; simp; intro _; rfl
  · intro h1 h2 h3
    have ho : optional a = false := by cases a <;> first | rfl | exact absurd rfl h1
    simp [run, hd, h2, h3, ho]

end Gate.Container
