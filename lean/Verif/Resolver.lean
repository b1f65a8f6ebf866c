import Verif.Auth
/-
Model of runtime/abi/abi.go (ImportResolver), of the exports of runtime/abi/library.wat, and of the runtime's import vector (runtime/loader/loader.c:441-460).
Strings are byte lists. Signatures are lists of parameter types with an optional result.

C103: which imports a program may have.
-/
namespace Gate.Resolver
open Gate.Auth (str)

inductive Ty where
  | i32 | i64 | f32 | f64
deriving DecidableEq, Repr

/-- wa.FuncType. -/
structure Sig where
  params : List Ty
  result : Option Ty
deriving DecidableEq, Repr

/-- What a call of ResolveFunc comes to. `panic`: Go panic with a string, which isn't turned into an error by anyone (server.go:1423-1437). -/
inductive Out where
  | ok (index : Nat)
  | unsupported
  | wrongSignature
  | panic
deriving DecidableEq, Repr

/-- A signature with result i32. -/
def sg (ps : List Ty) : Sig := ⟨ps, some .i32⟩

open Ty in
/-- Exports of library.wat, lines 19-607, in their order; function indexes start after the imports (lines 8-15). -/
def exports : List (Bytes × Sig) :=
  [(str "args_get", sg [i32, i32]), (str "args_sizes_get", sg [i32, i32]), (str "clock_res_get", sg [i32, i32]), (str "clock_time_get", sg [i32, i64, i32]),
   (str "environ_get", sg [i32, i32]), (str "environ_sizes_get", sg [i32, i32]), (str "io", ⟨[i32, i32, i32, i32, i32, i32, i32], none⟩), (str "fd", sg []),
   (str "fd_close", sg [i32]), (str "fd_fdstat_get", sg [i32, i32]), (str "fd_fdstat_set_flags", sg [i32, i32]), (str "fd_fdstat_set_rights", sg [i32, i64, i64]),
   (str "fd_filestat_get", sg [i32, i32]), (str "fd_read", sg [i32, i32, i32, i32]), (str "fd_renumber", sg [i32, i32]), (str "fd_stub_i32", sg [i32]),
   (str "fd_stub_i32i32", sg [i32, i32]), (str "fd_stub_i32i64", sg [i32, i64]), (str "fd_stub_i32i32i32", sg [i32, i32, i32]),
   (str "fd_stub_i32i64i64", sg [i32, i64, i64]), (str "fd_stub_i32i64i32i32", sg [i32, i64, i32, i32]), (str "fd_stub_i32i64i64i32", sg [i32, i64, i64, i32]),
   (str "fd_stub_i32i32i32i64i32", sg [i32, i32, i32, i64, i32]), (str "fd_write", sg [i32, i32, i32, i32]), (str "path_stub_i32i32i32", sg [i32, i32, i32]),
   (str "path_stub_i32i32i32i32i32", sg [i32, i32, i32, i32, i32]), (str "path_stub_i32i32i32i32i32i32", sg [i32, i32, i32, i32, i32, i32]),
   (str "path_stub_i32i32i32i32i32i32i32", sg [i32, i32, i32, i32, i32, i32, i32]), (str "path_stub_i32i32i32i32i64i64i32", sg [i32, i32, i32, i32, i64, i64, i32]),
   (str "path_stub_i32i32i32i32i32i64i64i32i32", sg [i32, i32, i32, i32, i32, i64, i64, i32, i32]), (str "poll_oneoff", sg [i32, i32, i32, i32]),
   (str "proc_exit", ⟨[i32], none⟩), (str "proc_raise", sg [i32]), (str "random_get", sg [i32, i32]), (str "sched_yield", sg []),
   (str "sock_recv", sg [i32, i32, i32, i32, i32, i32]), (str "sock_send", sg [i32, i32, i32, i32, i32]), (str "sock_shutdown", sg [i32, i32])]

abbrev numImports : Nat := 8

/-- library.ExportFunc (package wag). -/
def exportFunc (name : Bytes) : Option (Nat × Sig) :=
  (exports.zipIdx.find? fun e => e.1.1 = name).map fun e => (numImports + e.2, e.1.2)

/-- abi.go:73-76. -/
structure AbiFunction where
  name : Bytes
  random : Bool := false
deriving DecidableEq, Repr

/-- abi.go:78-81. -/
def gateFunctions : List (Bytes × AbiFunction) := [(str "fd", ⟨str "fd", false⟩), (str "io", ⟨str "io", false⟩)]

/-- abi.go:83-129. -/
def wasiFunctions : List (Bytes × AbiFunction) :=
  [(str "args_get", ⟨str "args_get", false⟩), (str "args_sizes_get", ⟨str "args_sizes_get", false⟩), (str "clock_res_get", ⟨str "clock_res_get", false⟩),
   (str "clock_time_get", ⟨str "clock_time_get", false⟩), (str "environ_get", ⟨str "environ_get", false⟩), (str "environ_sizes_get", ⟨str "environ_sizes_get", false⟩),
   (str "fd_advise", ⟨str "fd_stub_i32i64i64i32", false⟩), (str "fd_allocate", ⟨str "fs_stub_i64i64", false⟩), (str "fd_close", ⟨str "fd_close", false⟩),
   (str "fd_datasync", ⟨str "fd_stub_i32", false⟩), (str "fd_fdstat_get", ⟨str "fd_fdstat_get", false⟩), (str "fd_fdstat_set_flags", ⟨str "fd_fdstat_set_flags", false⟩),
   (str "fd_fdstat_set_rights", ⟨str "fd_fdstat_set_rights", false⟩), (str "fd_filestat_get", ⟨str "fd_filestat_get", false⟩),
   (str "fd_filestat_set_size", ⟨str "fd_stub_i32i64", false⟩), (str "fd_filestat_set_times", ⟨str "fd_stub_i32i64i64i32", false⟩),
   (str "fd_pread", ⟨str "fd_stub_i32i32i32i64i32", false⟩), (str "fd_prestat_dir_name", ⟨str "fd_stub_i32i32i32", false⟩), (str "fd_prestat_get", ⟨str "fd_stub_i32i32", false⟩),
   (str "fd_pwrite", ⟨str "fd_stub_i32i32i32i64i32", false⟩), (str "fd_read", ⟨str "fd_read", false⟩), (str "fd_readdir", ⟨str "fd_stub_i32i32i32i64i32", false⟩),
   (str "fd_renumber", ⟨str "fd_renumber", false⟩), (str "fd_seek", ⟨str "fd_stub_i32i64i32i32", false⟩), (str "fd_sync", ⟨str "fd_stub_i32", false⟩),
   (str "fd_tell", ⟨str "fd_stub_i32i32", false⟩), (str "fd_write", ⟨str "fd_write", false⟩), (str "path_create_directory", ⟨str "path_stub_i32i32i32", false⟩),
   (str "path_filestat_get", ⟨str "path_stub_i32i32i32i32i32", false⟩), (str "path_filestat_set_times", ⟨str "path_stub_i32i32i32i32i64i64i32", false⟩),
   (str "path_link", ⟨str "path_stub_i32i32i32i32i32i32i32", false⟩), (str "path_open", ⟨str "path_stub_i32i32i32i32i32i64i64i32i32", false⟩),
   (str "path_readlink", ⟨str "path_stub_i32i32i32i32i32i32", false⟩), (str "path_remove_directory", ⟨str "path_stub_i32i32i32", false⟩),
   (str "path_rename", ⟨str "path_stub_i32i32i32i32i32i32", false⟩), (str "path_symlink", ⟨str "path_stub_i32i32i32i32i32", false⟩),
   (str "path_unlink_file", ⟨str "path_stub_i32i32i32", false⟩), (str "poll_oneoff", ⟨str "poll_oneoff", false⟩), (str "proc_exit", ⟨str "proc_exit", false⟩),
   (str "proc_raise", ⟨str "proc_raise", false⟩), (str "random_get", ⟨str "random_get", true⟩), (str "sched_yield", ⟨str "sched_yield", false⟩),
   (str "sock_recv", ⟨str "sock_recv", false⟩), (str "sock_send", ⟨str "sock_send", false⟩), (str "sock_shutdown", ⟨str "sock_shutdown", false⟩)]

def lookup (t : List (Bytes × AbiFunction)) (k : Bytes) : Option AbiFunction := (t.find? fun e => e.1 = k).map (·.2)

/-! ### strings, strconv -/

/-- strings.HasPrefix with the rest. -/
def cut (p s : Bytes) : Option Bytes := if p <+: s then some (s.drop p.length) else none

/-- strings.LastIndexByte, and the parts before and after it. -/
def cutLast (c : UInt8) : Bytes → Option (Bytes × Bytes)
  | [] => none
  | x :: xs =>
    match cutLast c xs with
    | some (a, b) => some (x :: a, b)
    | none => if x = c then some ([], xs) else none

def digit (c : UInt8) : Option Nat := if 48 ≤ c.toNat ∧ c.toNat ≤ 57 then some (c.toNat - 48) else none

inductive Num where
  | val (n : Nat) | syntax | range
deriving DecidableEq, Repr

/-- The loop of strconv.ParseUint(s, 10, 32) (standard library): it returns at the first character which isn't a digit, or which makes the value too large. -/
def parseLoop (n : Nat) : Bytes → Num
  | [] => .val n
  | c :: cs =>
    match digit c with
    | none => .syntax
    | some d => if 2 ^ 32 ≤ n * 10 + d then .range else parseLoop (n * 10 + d) cs

/-- strconv.ParseUint(s, 10, 32). -/
def parseUint : Bytes → Num
  | [] => .syntax
  | s => parseLoop 0 s

/-- abi.go:208-215 -/
def allDigits (s : Bytes) : Bool := s.all fun c => (digit c).isSome

abbrev maxPacketSize : Nat := 65536

/-! ### ImportResolver -/

/-- abi.go:161-174: whether the size suffix is accepted; otherwise it's a panic. -/
def sizeOk (suffix : Bytes) : Bool :=
  if (str "0") <+: suffix then false
  else match parseUint suffix with
    | .syntax => false
    | .range => allDigits suffix
    | .val n => maxPacketSize ≤ n

/-- abi.go:139-149 -/
def env (m f : Bytes) : Bytes × Bytes :=
  if m = str "env" then
    match cut (str "__gate_") f with
    | some r => (str "gate", r)
    | none =>
      match cut (str "__wasi_") f with
      | some r => (str "wasi_snapshot_preview1", r)
      | none => (m, f)
  else (m, f)

/-- abi.go:151-180: the library function, if there is one (`none`: panic). -/
def find (m f : Bytes) : Option (Option AbiFunction) :=
  if m = str "gate" then
    match cutLast 95 f with
    | none => some none
    | some ([], _) => some none
    | some (p, suffix) =>
      match lookup gateFunctions p with
      | none => some none
      | some a => if sizeOk suffix then some (some a) else none
  else if m = str "wasi_snapshot_preview1" ∨ m = str "wasi_unstable" then some (lookup wasiFunctions f)
  else some none

/-- ResolveFunc, abi.go:135-201. The state is ImportResolver.Random. -/
def resolveFunc (random : Bool) (module field : Bytes) (sig : Sig) : Out × Bool :=
  match find (env module field).1 (env module field).2 with
  | none => (.panic, random)
  | some none => (.unsupported, random)
  | some (some a) =>
    match exportFunc a.name with
    | none => (.panic, random)
    | some (index, libsig) => if sig ≠ libsig then (.wrongSignature, random) else (.ok index, random || a.random)

structure Import where
  module : Bytes
  field : Bytes
  sig : Sig
deriving DecidableEq, Repr

/-- binding.BindImports (package wag) as used at build/build.go:172: resolves imported functions in order until there's an error. The outcome is that of the last one. -/
def bindImports (random : Bool) : List Import → List Nat × Option Out × Bool
  | [] => ([], none, random)
  | i :: is =>
    match resolveFunc random i.module i.field i.sig with
    | (.ok x, r) => let (xs, o, r') := bindImports r is; (x :: xs, o, r')
    | (o, r) => ([], some o, r)

/-! ### The import vector -/

/-- rtFunctions, abi.go:26-36, for the library's imports (library.wat:8-15). -/
def rtFunctions : List (Bytes × Int) :=
  [(str "stop", -17), (str "debug", -16), (str "write", -15), (str "read", -14), (str "poll", -13), (str "time", -12), (str "random", -6), (str "nop", -5)]

/-- What a slot of the vector has. -/
inductive Slot where
  | rt (name : Bytes) | clockGettime | timeBase | timeMask | random0 | random1 | growPages | memoryAddr | currentMemory | growMemory | trapHandler
deriving DecidableEq, Repr

/-- loader.c:441-460 -/
def vector : List (Int × Slot) :=
  [(-18, .rt (str "nop")), (-17, .rt (str "stop")), (-16, .rt (str "debug")), (-15, .rt (str "write")), (-14, .rt (str "read")), (-13, .rt (str "poll")), (-12, .rt (str "time")),
   (-11, .clockGettime), (-10, .timeBase), (-9, .timeMask), (-8, .random0), (-7, .random1), (-6, .rt (str "random")), (-5, .growPages), (-4, .memoryAddr), (-3, .currentMemory),
   (-2, .growMemory), (-1, .trapHandler)]

def slot (i : Int) : Option Slot := (vector.find? fun e => e.1 = i).map (·.2)

/-! ### Specification -/

open Ty in
/-- Functions of WASI snapshot preview 1 (as of the time of the repository: without sock_accept) and their types, from the WASI specification. -/
def wasi : List (String × Sig) :=
  [("args_get", sg [i32, i32]), ("args_sizes_get", sg [i32, i32]), ("environ_get", sg [i32, i32]), ("environ_sizes_get", sg [i32, i32]), ("clock_res_get", sg [i32, i32]),
   ("clock_time_get", sg [i32, i64, i32]), ("fd_advise", sg [i32, i64, i64, i32]), ("fd_allocate", sg [i32, i64, i64]), ("fd_close", sg [i32]), ("fd_datasync", sg [i32]),
   ("fd_fdstat_get", sg [i32, i32]), ("fd_fdstat_set_flags", sg [i32, i32]), ("fd_fdstat_set_rights", sg [i32, i64, i64]), ("fd_filestat_get", sg [i32, i32]),
   ("fd_filestat_set_size", sg [i32, i64]), ("fd_filestat_set_times", sg [i32, i64, i64, i32]), ("fd_pread", sg [i32, i32, i32, i64, i32]), ("fd_prestat_get", sg [i32, i32]),
   ("fd_prestat_dir_name", sg [i32, i32, i32]), ("fd_pwrite", sg [i32, i32, i32, i64, i32]), ("fd_read", sg [i32, i32, i32, i32]), ("fd_readdir", sg [i32, i32, i32, i64, i32]),
   ("fd_renumber", sg [i32, i32]), ("fd_seek", sg [i32, i64, i32, i32]), ("fd_sync", sg [i32]), ("fd_tell", sg [i32, i32]), ("fd_write", sg [i32, i32, i32, i32]),
   ("path_create_directory", sg [i32, i32, i32]), ("path_filestat_get", sg [i32, i32, i32, i32, i32]), ("path_filestat_set_times", sg [i32, i32, i32, i32, i64, i64, i32]),
   ("path_link", sg [i32, i32, i32, i32, i32, i32, i32]), ("path_open", sg [i32, i32, i32, i32, i32, i64, i64, i32, i32]), ("path_readlink", sg [i32, i32, i32, i32, i32, i32]),
   ("path_remove_directory", sg [i32, i32, i32]), ("path_rename", sg [i32, i32, i32, i32, i32, i32]), ("path_symlink", sg [i32, i32, i32, i32, i32]),
   ("path_unlink_file", sg [i32, i32, i32]), ("poll_oneoff", sg [i32, i32, i32, i32]), ("proc_exit", ⟨[i32], none⟩), ("proc_raise", sg [i32]), ("sched_yield", sg []),
   ("random_get", sg [i32, i32]), ("sock_recv", sg [i32, i32, i32, i32, i32, i32]), ("sock_send", sg [i32, i32, i32, i32, i32]), ("sock_shutdown", sg [i32, i32])]

/-- A decimal number without leading zeros. -/
def Decimal (s : Bytes) : Prop := s ≠ [] ∧ (∀ c ∈ s, 48 ≤ c.toNat ∧ c.toNat ≤ 57) ∧ s.head? ≠ some 48

/-- The number which the digits make. -/
def decimal (s : Bytes) : Nat := s.foldl (fun n c => n * 10 + (c.toNat - 48)) 0

end Gate.Resolver
