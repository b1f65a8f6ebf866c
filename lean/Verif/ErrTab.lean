/-
C164: the numbers and texts of the runtime's error codes: internal/error/runtime/errors.go, internal/error/runtime/runtimeerror.go,
runtime/include/errors.h, the generator internal/cmd/runtime-errors/generate.go, and the uses of the codes in the programs which exit with them.
-/
namespace Gate.ErrTab

/-! ### The files -/

/-- internal/error/runtime/errors.go:53-99 ExecutorErrors: number, name, subsystem and text. -/
def executorRows : List (Nat × String × String × String) := [
  (10, "ERR_CONT_EXEC_EXECUTOR", "runtime container", "failed to execute executor"),
  (11, "ERR_EXEC_BRK", "runtime executor", "brk call failed"),
  (12, "ERR_EXEC_PAGESIZE", "runtime executor", "sysconf PAGESIZE call failed"),
  (13, "ERR_EXEC_PDEATHSIG", "runtime executor", "failed to set process death signal"),
  (14, "ERR_EXEC_PERSONALITY_ADDR_NO_RANDOMIZE", "runtime executor", "failed to change personality to ADDR_NO_RANDOMIZE"),
  (15, "ERR_EXEC_CLEAR_CAPS", "runtime executor", "failed to clear capabilities"),
  (16, "ERR_EXEC_CLONE", "runtime executor", "clone call failed"),
  (17, "ERR_EXEC_CLOSE", "runtime executor", "file descriptor close error"),
  (18, "ERR_EXEC_SIGMASK", "runtime executor", "pthread_sigmask: failed to set mask"),
  (19, "ERR_EXEC_SYSCONF_CLK_TCK", "runtime executor", "sysconf CLK_TCK call failed"),
  (20, "ERR_EXEC_NO_NEW_PRIVS", "runtime executor", "prctl: failed to PR_SET_NO_NEW_PRIVS"),
  (21, "ERR_EXEC_FCNTL_CLOEXEC", "runtime executor", "fcntl: failed to add close-on-exec flag"),
  (22, "ERR_EXEC_FCNTL_GETFD", "runtime executor", "fcntl: failed to get file descriptor flags"),
  (23, "ERR_EXEC_SETRLIMIT_DATA", "runtime executor", "setrlimit: failed to set DATA limit"),
  (24, "ERR_EXEC_SETRLIMIT_NOFILE", "runtime executor", "setrlimit: failed to set NOFILE limit"),
  (25, "ERR_EXEC_SETRLIMIT_STACK", "runtime executor", "setrlimit: failed to set STACK limit"),
  (26, "ERR_EXEC_EPOLL_CREATE", "runtime executor", "epoll_create call failed"),
  (27, "ERR_EXEC_EPOLL_WAIT", "runtime executor", "epoll_wait call failed"),
  (28, "ERR_EXEC_EPOLL_ADD", "runtime executor", "epoll_ctl ADD call failed"),
  (29, "ERR_EXEC_EPOLL_MOD", "runtime executor", "epoll_ctl MOD call failed"),
  (30, "ERR_EXEC_RECVMMSG", "runtime executor", "recvmmsg call failed"),
  (31, "ERR_EXEC_MSG_LEN", "runtime executor", "received control message with unexpected length"),
  (32, "ERR_EXEC_MSG_CTRUNC", "runtime executor", "received truncated control message"),
  (33, "ERR_EXEC_OP", "runtime executor", "received message with unknown op type"),
  (34, "ERR_EXEC_ID_RANGE", "runtime executor", "process index out of bounds"),
  (35, "ERR_EXEC_CMSG_OP_MISMATCH", "runtime executor", "op type and control message expectation mismatch"),
  (36, "ERR_EXEC_CMSG_LEVEL", "runtime executor", "unexpected control message: not at socket level"),
  (37, "ERR_EXEC_CMSG_TYPE", "runtime executor", "unexpected control message type: no file descriptors"),
  (38, "ERR_EXEC_CMSG_LEN", "runtime executor", "unexpected control message length"),
  (39, "ERR_EXEC_CMSG_NXTHDR", "runtime executor", "multiple control message headers per recvmsg"),
  (40, "ERR_EXEC_CREATE_PROCESS_BAD_STATE", "runtime executor", "process index already in use"),
  (41, "ERR_EXEC_WAIT_PROCESS_BAD_STATE", "runtime executor", "event from pidfd with nonexistent process state"),
  (42, "ERR_EXEC_SEND", "runtime executor", "send call failed"),
  (43, "ERR_EXEC_SEND_ALIGN", "runtime executor", "sent unexpected number of bytes"),
  (44, "ERR_EXEC_POLL_OTHER_EVENTS", "runtime executor", "unexpected poll events"),
  (45, "ERR_EXEC_POLL_OTHER_ID", "runtime executor", "unknown poll event data"),
  (46, "ERR_EXEC_KILL", "runtime executor", "kill call failed"),
  (47, "ERR_EXEC_WAITPID", "runtime reaper", "waitpid call failed"),
  (48, "ERR_EXEC_PRCTL_NOT_DUMPABLE", "runtime executor", "prctl: failed to set not dumpable"),
  (49, "ERR_EXEC_PRLIMIT_CPU", "runtime executor", "prlimit CPU call failed"),
  (50, "ERR_EXEC_PROCSTAT_OPEN", "runtime executor", "failed to open /proc/<pid>/stat"),
  (51, "ERR_EXEC_PROCSTAT_READ", "runtime executor", "failed to read /proc/<pid>/stat"),
  (52, "ERR_EXEC_PROCSTAT_PARSE", "runtime executor", "/proc/<pid>/stat parse error"),
  (53, "ERR_EXEC_EPOLL_DEL", "runtime executor", "epoll_ctl DEL call failed"),
  (54, "ERR_EXEC_FSTAT", "runtime executor", "fstat call failed")]

/-- internal/error/runtime/errors.go:101-143 ProcessErrors. -/
def processRows : List (Nat × String × String × String) := [
  (4, "ERR_RT_READ", "process runtime", "read call failed"),
  (5, "ERR_RT_WRITE", "process runtime", "write call failed"),
  (6, "ERR_RT_DEBUG", "process runtime", "debug write call failed"),
  (7, "ERR_RT_MPROTECT", "process runtime", "mprotect call failed"),
  (8, "ERR_RT_MREMAP", "process runtime", "mremap call failed"),
  (9, "ERR_RT_CLOCK_GETTIME", "process runtime", "clock_gettime call failed"),
  (10, "ERR_RT_POLL", "process runtime", "poll call failed"),
  (11, "ERR_SENTINEL_PDEATHSIG", "sentinel process", "failed to set process death signal"),
  (12, "ERR_SENTINEL_CLOSE", "sentinel process", "TODO: ERR_SENTINEL_CLOSE"),
  (13, "ERR_SENTINEL_SIGSUSPEND", "sentinel process", "TODO: ERR_SENTINEL_SIGSUSPEND"),
  (14, "ERR_EXECHILD_DUP2", "process executor", "child: dup2 call failed"),
  (15, "ERR_EXECHILD_EXEC_LOADER", "process executor", "child: failed to execute loader"),
  (18, "ERR_LOAD_PDEATHSIG", "process loader", "failed to set process death signal"),
  (19, "ERR_LOAD_SETRLIMIT_NOFILE", "process loader", "child: setrlimit: failed to set NOFILE limit"),
  (20, "ERR_LOAD_SETRLIMIT_NPROC", "process loader", "child: setrlimit: failed to set NPROC limit"),
  (21, "ERR_LOAD_PRCTL_NOT_DUMPABLE", "process loader", "prctl: failed to set not dumpable"),
  (22, "ERR_LOAD_PERSONALITY_DEFAULT", "process loader", "failed to set default personality"),
  (23, "ERR_LOAD_READ_INFO", "process loader", "failed to read image info from input fd"),
  (24, "ERR_LOAD_MAGIC_1", "process loader", "magic number #1 mismatch"),
  (25, "ERR_LOAD_MAGIC_2", "process loader", "magic number #2 mismatch"),
  (26, "ERR_LOAD_MMAP_VECTOR", "process loader", "failed to allocate import vector via mmap"),
  (27, "ERR_LOAD_MPROTECT_VECTOR", "process loader", "mprotect: import vector write-protection failed"),
  (28, "ERR_LOAD_MMAP_TEXT", "process loader", "failed to mmap text section of image"),
  (29, "ERR_LOAD_MMAP_STACK", "process loader", "failed to mmap stack section of image"),
  (30, "ERR_LOAD_MMAP_HEAP", "process loader", "failed to mmap globals/memory section of image"),
  (31, "ERR_LOAD_CLOSE_STATE", "process loader", "failed to close program state fd"),
  (32, "ERR_LOAD_MUNMAP_STACK", "process loader", "failed to munmap initial stack"),
  (33, "ERR_LOAD_SIGACTION", "process loader", "sigaction call failed"),
  (34, "ERR_LOAD_MUNMAP_LOADER", "process loader", "failed to munmap loader .text and .rodata"),
  (35, "ERR_LOAD_SECCOMP", "process loader", "seccomp call failed"),
  (36, "ERR_LOAD_ARG_ENV", "process loader", "loader executed with arguments or environment"),
  (37, "ERR_LOAD_NO_VDSO", "process loader", "vdso address not found in auxiliary vector"),
  (39, "ERR_LOAD_FCNTL_INPUT", "process loader", "failed to set input file flags"),
  (40, "ERR_LOAD_FCNTL_OUTPUT", "process loader", "failed to set output file flags"),
  (41, "ERR_LOAD_MPROTECT_HEAP", "process loader", "mprotect: globals/memory protection failed"),
  (42, "ERR_LOAD_CLOSE_TEXT", "process loader", "failed to close program text fd"),
  (43, "ERR_LOAD_SETPRIORITY", "process loader", "TODO: ERR_LOAD_SETPRIORITY"),
  (44, "ERR_LOAD_NO_CLOCK_GETTIME", "process loader", "clock_gettime not found in vDSO ELF"),
  (45, "ERR_LOAD_CLOCK_GETTIME", "process loader", "clock_gettime call failed"),
  (46, "ERR_LOAD_READ_TEXT", "process loader", "failed to read text section of image"),
  (47, "ERR_LOAD_MREMAP_HEAP", "process loader", "failed to mremap globals/memory section of image")]

/-- internal/error/runtime/errors.go:5-51. -/
def goConsts : List (String × Nat) := [
  ("ERR_CONT_EXEC_EXECUTOR", 10), ("ERR_EXEC_BRK", 11), ("ERR_EXEC_PAGESIZE", 12), ("ERR_EXEC_PDEATHSIG", 13),
  ("ERR_EXEC_PERSONALITY_ADDR_NO_RANDOMIZE", 14), ("ERR_EXEC_CLEAR_CAPS", 15), ("ERR_EXEC_CLONE", 16), ("ERR_EXEC_CLOSE", 17),
  ("ERR_EXEC_SIGMASK", 18), ("ERR_EXEC_SYSCONF_CLK_TCK", 19), ("ERR_EXEC_NO_NEW_PRIVS", 20), ("ERR_EXEC_FCNTL_CLOEXEC", 21),
  ("ERR_EXEC_FCNTL_GETFD", 22), ("ERR_EXEC_SETRLIMIT_DATA", 23), ("ERR_EXEC_SETRLIMIT_NOFILE", 24), ("ERR_EXEC_SETRLIMIT_STACK", 25),
  ("ERR_EXEC_EPOLL_CREATE", 26), ("ERR_EXEC_EPOLL_WAIT", 27), ("ERR_EXEC_EPOLL_ADD", 28), ("ERR_EXEC_EPOLL_MOD", 29),
  ("ERR_EXEC_RECVMMSG", 30), ("ERR_EXEC_MSG_LEN", 31), ("ERR_EXEC_MSG_CTRUNC", 32), ("ERR_EXEC_OP", 33), ("ERR_EXEC_ID_RANGE", 34),
  ("ERR_EXEC_CMSG_OP_MISMATCH", 35), ("ERR_EXEC_CMSG_LEVEL", 36), ("ERR_EXEC_CMSG_TYPE", 37), ("ERR_EXEC_CMSG_LEN", 38),
  ("ERR_EXEC_CMSG_NXTHDR", 39), ("ERR_EXEC_CREATE_PROCESS_BAD_STATE", 40), ("ERR_EXEC_WAIT_PROCESS_BAD_STATE", 41),
  ("ERR_EXEC_SEND", 42), ("ERR_EXEC_SEND_ALIGN", 43), ("ERR_EXEC_POLL_OTHER_EVENTS", 44), ("ERR_EXEC_POLL_OTHER_ID", 45),
  ("ERR_EXEC_KILL", 46), ("ERR_EXEC_WAITPID", 47), ("ERR_EXEC_PRCTL_NOT_DUMPABLE", 48), ("ERR_EXEC_PRLIMIT_CPU", 49),
  ("ERR_EXEC_PROCSTAT_OPEN", 50), ("ERR_EXEC_PROCSTAT_READ", 51), ("ERR_EXEC_PROCSTAT_PARSE", 52), ("ERR_EXEC_EPOLL_DEL", 53),
  ("ERR_EXEC_FSTAT", 54)]

/-- runtime/include/errors.h, Executor and Process. -/
def headerExecutor : List (String × Nat) := [
  ("ERR_CONT_EXEC_EXECUTOR", 10), ("ERR_EXEC_BRK", 11), ("ERR_EXEC_PAGESIZE", 12), ("ERR_EXEC_PDEATHSIG", 13),
  ("ERR_EXEC_PERSONALITY_ADDR_NO_RANDOMIZE", 14), ("ERR_EXEC_CLEAR_CAPS", 15), ("ERR_EXEC_CLONE", 16), ("ERR_EXEC_CLOSE", 17),
  ("ERR_EXEC_SIGMASK", 18), ("ERR_EXEC_SYSCONF_CLK_TCK", 19), ("ERR_EXEC_NO_NEW_PRIVS", 20), ("ERR_EXEC_FCNTL_CLOEXEC", 21),
  ("ERR_EXEC_FCNTL_GETFD", 22), ("ERR_EXEC_SETRLIMIT_DATA", 23), ("ERR_EXEC_SETRLIMIT_NOFILE", 24), ("ERR_EXEC_SETRLIMIT_STACK", 25),
  ("ERR_EXEC_EPOLL_CREATE", 26), ("ERR_EXEC_EPOLL_WAIT", 27), ("ERR_EXEC_EPOLL_ADD", 28), ("ERR_EXEC_EPOLL_MOD", 29),
  ("ERR_EXEC_RECVMMSG", 30), ("ERR_EXEC_MSG_LEN", 31), ("ERR_EXEC_MSG_CTRUNC", 32), ("ERR_EXEC_OP", 33), ("ERR_EXEC_ID_RANGE", 34),
  ("ERR_EXEC_CMSG_OP_MISMATCH", 35), ("ERR_EXEC_CMSG_LEVEL", 36), ("ERR_EXEC_CMSG_TYPE", 37), ("ERR_EXEC_CMSG_LEN", 38),
  ("ERR_EXEC_CMSG_NXTHDR", 39), ("ERR_EXEC_CREATE_PROCESS_BAD_STATE", 40), ("ERR_EXEC_WAIT_PROCESS_BAD_STATE", 41),
  ("ERR_EXEC_SEND", 42), ("ERR_EXEC_SEND_ALIGN", 43), ("ERR_EXEC_POLL_OTHER_EVENTS", 44), ("ERR_EXEC_POLL_OTHER_ID", 45),
  ("ERR_EXEC_KILL", 46), ("ERR_EXEC_WAITPID", 47), ("ERR_EXEC_PRCTL_NOT_DUMPABLE", 48), ("ERR_EXEC_PRLIMIT_CPU", 49),
  ("ERR_EXEC_PROCSTAT_OPEN", 50), ("ERR_EXEC_PROCSTAT_READ", 51), ("ERR_EXEC_PROCSTAT_PARSE", 52), ("ERR_EXEC_EPOLL_DEL", 53),
  ("ERR_EXEC_FSTAT", 54)]
def headerProcess : List (String × Nat) := [
  ("ERR_RT_READ", 4), ("ERR_RT_WRITE", 5), ("ERR_RT_DEBUG", 6), ("ERR_RT_MPROTECT", 7), ("ERR_RT_MREMAP", 8),
  ("ERR_RT_CLOCK_GETTIME", 9), ("ERR_RT_POLL", 10), ("ERR_SENTINEL_PDEATHSIG", 11), ("ERR_SENTINEL_CLOSE", 12),
  ("ERR_SENTINEL_SIGSUSPEND", 13), ("ERR_EXECHILD_DUP2", 14), ("ERR_EXECHILD_EXEC_LOADER", 15), ("ERR_LOAD_PDEATHSIG", 18),
  ("ERR_LOAD_SETRLIMIT_NOFILE", 19), ("ERR_LOAD_SETRLIMIT_NPROC", 20), ("ERR_LOAD_PRCTL_NOT_DUMPABLE", 21),
  ("ERR_LOAD_PERSONALITY_DEFAULT", 22), ("ERR_LOAD_READ_INFO", 23), ("ERR_LOAD_MAGIC_1", 24), ("ERR_LOAD_MAGIC_2", 25),
  ("ERR_LOAD_MMAP_VECTOR", 26), ("ERR_LOAD_MPROTECT_VECTOR", 27), ("ERR_LOAD_MMAP_TEXT", 28), ("ERR_LOAD_MMAP_STACK", 29),
  ("ERR_LOAD_MMAP_HEAP", 30), ("ERR_LOAD_CLOSE_STATE", 31), ("ERR_LOAD_MUNMAP_STACK", 32), ("ERR_LOAD_SIGACTION", 33),
  ("ERR_LOAD_MUNMAP_LOADER", 34), ("ERR_LOAD_SECCOMP", 35), ("ERR_LOAD_ARG_ENV", 36), ("ERR_LOAD_NO_VDSO", 37),
  ("ERR_LOAD_FCNTL_INPUT", 39), ("ERR_LOAD_FCNTL_OUTPUT", 40), ("ERR_LOAD_MPROTECT_HEAP", 41), ("ERR_LOAD_CLOSE_TEXT", 42),
  ("ERR_LOAD_SETPRIORITY", 43), ("ERR_LOAD_NO_CLOCK_GETTIME", 44), ("ERR_LOAD_CLOCK_GETTIME", 45), ("ERR_LOAD_READ_TEXT", 46),
  ("ERR_LOAD_MREMAP_HEAP", 47)]

/-- The programs which exit with the codes: the container's first program (internal/container/child/container.go:337), the executor, its child
before it executes the loader (runtime/executor/executor.c:72-89), and the loader with the runtime which it leaves in the process. -/
inductive Who where
  | container | executor | child | loader
deriving DecidableEq, Repr

/-- The uses in runtime/executor/executor.c, runtime/loader and internal/container/child/container.go. -/
def uses : List (String × Who) := [
  ("ERR_EXECHILD_DUP2", .child), ("ERR_EXECHILD_EXEC_LOADER", .child), ("ERR_EXEC_BRK", .executor), ("ERR_EXEC_CLEAR_CAPS", .executor),
  ("ERR_EXEC_CLONE", .executor), ("ERR_EXEC_CLOSE", .executor), ("ERR_EXEC_CMSG_LEN", .executor), ("ERR_EXEC_CMSG_LEVEL", .executor),
  ("ERR_EXEC_CMSG_NXTHDR", .executor), ("ERR_EXEC_CMSG_OP_MISMATCH", .executor), ("ERR_EXEC_CMSG_TYPE", .executor),
  ("ERR_EXEC_CREATE_PROCESS_BAD_STATE", .executor), ("ERR_EXEC_EPOLL_ADD", .executor), ("ERR_EXEC_EPOLL_CREATE", .executor),
  ("ERR_EXEC_EPOLL_DEL", .executor), ("ERR_EXEC_EPOLL_MOD", .executor), ("ERR_EXEC_EPOLL_WAIT", .executor),
  ("ERR_EXEC_FCNTL_CLOEXEC", .executor), ("ERR_EXEC_FCNTL_GETFD", .executor), ("ERR_EXEC_FSTAT", .executor),
  ("ERR_EXEC_ID_RANGE", .executor), ("ERR_EXEC_KILL", .executor), ("ERR_EXEC_MSG_CTRUNC", .executor), ("ERR_EXEC_MSG_LEN", .executor),
  ("ERR_EXEC_NO_NEW_PRIVS", .executor), ("ERR_EXEC_OP", .executor), ("ERR_EXEC_PAGESIZE", .executor), ("ERR_EXEC_PDEATHSIG", .executor),
  ("ERR_EXEC_PERSONALITY_ADDR_NO_RANDOMIZE", .executor), ("ERR_EXEC_POLL_OTHER_EVENTS", .executor),
  ("ERR_EXEC_POLL_OTHER_ID", .executor), ("ERR_EXEC_PRCTL_NOT_DUMPABLE", .executor), ("ERR_EXEC_PRLIMIT_CPU", .executor),
  ("ERR_EXEC_PROCSTAT_OPEN", .executor), ("ERR_EXEC_PROCSTAT_PARSE", .executor), ("ERR_EXEC_PROCSTAT_READ", .executor),
  ("ERR_EXEC_RECVMMSG", .executor), ("ERR_EXEC_SEND", .executor), ("ERR_EXEC_SEND_ALIGN", .executor),
  ("ERR_EXEC_SETRLIMIT_DATA", .executor), ("ERR_EXEC_SETRLIMIT_NOFILE", .executor), ("ERR_EXEC_SETRLIMIT_STACK", .executor),
  ("ERR_EXEC_SIGMASK", .executor), ("ERR_EXEC_SYSCONF_CLK_TCK", .executor), ("ERR_EXEC_WAITPID", .executor),
  ("ERR_EXEC_WAIT_PROCESS_BAD_STATE", .executor), ("ERR_LOAD_CLOCK_GETTIME", .loader), ("ERR_LOAD_CLOSE_STATE", .loader),
  ("ERR_LOAD_CLOSE_TEXT", .loader), ("ERR_LOAD_FCNTL_INPUT", .loader), ("ERR_LOAD_FCNTL_OUTPUT", .loader), ("ERR_LOAD_MAGIC_1", .loader),
  ("ERR_LOAD_MAGIC_2", .loader), ("ERR_LOAD_MMAP_HEAP", .loader), ("ERR_LOAD_MMAP_STACK", .loader), ("ERR_LOAD_MMAP_TEXT", .loader),
  ("ERR_LOAD_MMAP_VECTOR", .loader), ("ERR_LOAD_MPROTECT_HEAP", .loader), ("ERR_LOAD_MPROTECT_VECTOR", .loader),
  ("ERR_LOAD_MREMAP_HEAP", .loader), ("ERR_LOAD_NO_CLOCK_GETTIME", .loader), ("ERR_LOAD_PDEATHSIG", .loader),
  ("ERR_LOAD_PERSONALITY_DEFAULT", .loader), ("ERR_LOAD_PRCTL_NOT_DUMPABLE", .loader), ("ERR_LOAD_READ_INFO", .loader),
  ("ERR_LOAD_READ_TEXT", .loader), ("ERR_LOAD_SETRLIMIT_NOFILE", .loader), ("ERR_LOAD_SETRLIMIT_NPROC", .loader),
  ("ERR_LOAD_MUNMAP_STACK", .loader), ("ERR_LOAD_SIGACTION", .loader), ("ERR_LOAD_MUNMAP_LOADER", .loader),
  ("ERR_LOAD_SECCOMP", .loader), ("ERR_RT_CLOCK_GETTIME", .loader), ("ERR_RT_DEBUG", .loader), ("ERR_RT_MPROTECT", .loader),
  ("ERR_RT_MREMAP", .loader), ("ERR_RT_POLL", .loader), ("ERR_RT_READ", .loader), ("ERR_RT_WRITE", .loader),
  ("ERR_LOAD_ARG_ENV", .loader), ("ERR_LOAD_NO_VDSO", .loader), ("ERR_CONT_EXEC_EXECUTOR", .container)]

/-! ### The tables -/

/-- internal/error/runtime/runtimeerror.go:11-15. -/
structure Entry where
  define : String
  subsys : String
  text : String
deriving DecidableEq, Repr

/-- An array literal with indexes. -/
def array (n : Nat) (rows : List (Nat × String × String × String)) : List Entry :=
  (List.range n).map fun i =>
    match rows.find? (fun r => r.1 == i) with
    | some r => ⟨r.2.1, r.2.2.1, r.2.2.2⟩
    | none => ⟨"", "", ""⟩

inductive Cat where
  | executor | process
deriving DecidableEq, Repr

structure Tables where
  executor : List Entry
  process : List Entry
deriving DecidableEq, Repr

def Tables.get (t : Tables) : Cat → List Entry
  | .executor => t.executor
  | .process => t.process

def committed : Tables := ⟨array 55 executorRows, array 48 processRows⟩

/-- The result of looking an exit code up. -/
inductive Described where
  | known (e : Entry)
  | unknown
  | panic
deriving DecidableEq, Repr

/-- internal/error/runtime/runtimeerror.go:20-40: ExecutorError and ProcessError; indexing with a negative number panics. -/
def describe (t : Tables) (c : Cat) (code : Int) : Described :=
  if code < (t.get c).length then
    if code < 0 then .panic
    else
      match (t.get c)[code.toNat]? with
      | some e => if e.define ≠ "" then .known e else .unknown
      | none => .unknown
  else .unknown

/-- Whose table an exit code is looked up in: internal/container/parent.go:141 and runtime/process.go:301. -/
def Who.cat : Who → Cat
  | .container | .executor => .executor
  | .child | .loader => .process

/-! ### The generator -/

def isUpper (c : Char) : Bool := ('A' ≤ c && c ≤ 'Z') || ('0' ≤ c && c ≤ '9')

/-- generate.go:126 and the leftmost, longest match: the first class doesn't have the underscore. -/
def matchAt (s : List Char) : Option (List Char) :=
  match s with
  | 'E' :: 'R' :: 'R' :: '_' :: r =>
    let a := r.takeWhile isUpper
    match r.dropWhile isUpper with
    | '_' :: r2 =>
      let b := r2.takeWhile fun c => isUpper c || c == '_'
      if a = [] ∨ b = [] then none else some (['E', 'R', 'R', '_'] ++ a ++ '_' :: b)
    | _ => none
  | _ => none

/-- FindAll, generate.go:140; `n`: at least the length. -/
def findAll : Nat → List Char → List (List Char)
  | 0, _ => []
  | _ + 1, [] => []
  | n + 1, c :: s =>
    match matchAt (c :: s) with
    | some m => m :: findAll n ((c :: s).drop m.length)
    | none => findAll n s

/-- generate.go:23-32, 152: the subsystem is the part between the first two underscores. -/
def subsystem (name : List Char) : Option (Cat × String) :=
  let k := String.ofList ((name.drop 4).takeWhile isUpper)
  [("CONT", (Cat.executor, "runtime container")), ("EXEC", (.executor, "runtime executor")), ("EXECHILD", (.process, "process executor")),
   ("LOAD", (.process, "process loader")), ("REAP", (.executor, "runtime reaper")), ("RT", (.process, "process runtime")),
   ("SEND", (.executor, "runtime executor")), ("SENTINEL", (.process, "sentinel process"))].lookup k

def Tables.has (t : Tables) (name : String) : Bool := t.executor.any (fun e => e.define == name) || t.process.any (fun e => e.define == name)

def Tables.append (t : Tables) (c : Cat) (e : Entry) : Tables :=
  match c with
  | .executor => { t with executor := t.executor ++ [e] }
  | .process => { t with process := t.process ++ [e] }

/-- generate.go:140-166; `none`: log.Fatal. -/
def addName (t : Tables) (m : List Char) : Option Tables :=
  if t.has (String.ofList m) then some t
  else
    match subsystem m with
    | none => none
    | some (c, sub) => some (t.append c ⟨String.ofList m, sub, ""⟩)

def addNames (t : Tables) : List (List Char) → Option Tables
  | [] => some t
  | m :: ms => (addName t m).bind fun t => addNames t ms

def maxErrors : Nat := 100

/-- generate.go:34-56: `files` are in the order of their names. -/
def generate (t : Tables) (files : List (List Char)) : Option Tables :=
  match addNames t (files.flatMap fun s => findAll (s.length + 1) s) with
  | none => none
  | some t' => if t'.executor.length > maxErrors ∨ t'.process.length > maxErrors then none else some t'

/-- generate.go:65-69, 78-88, 112-121: the names with their numbers, as they are printed to errors.go and errors.h. -/
def numbered (es : List Entry) : List (String × Nat) := (es.zipIdx.filter fun x => x.1.define ≠ "").map fun x => (x.1.define, x.2)

/-- generate.go:82-84, 95-99 and runtime/process.go:450: package runtime can be compiled. (strings.TrimSpace knows more kinds of white space.) -/
def initialized (t : Tables) : Bool :=
  (t.executor ++ t.process).all fun e => e.define = "" || !(e.text.toList.all Char.isWhitespace)

/-! ### Specification -/

/-- The error has this number. -/
def Number (t : Tables) (c : Cat) (n : Nat) (name : String) : Prop := ∃ e, (t.get c)[n]? = some e ∧ e.define = name ∧ name ≠ ""

/-- No name has two numbers. -/
def Unique (t : Tables) : Prop := ∀ c n c' n' name, Number t c n name → Number t c' n' name → c = c' ∧ n = n'

/-- Some part of the text is such a name, which isn't a part of a longer one: it's matched. -/
def Mentions (files : List (List Char)) (m : List Char) : Prop := ∃ s ∈ files, m ∈ findAll (s.length + 1) s

/-! ### Properties of the files -/

/-- C164: the numbers of the C programs are those of the Go packages. -/
theorem header_go : headerExecutor = numbered committed.executor ∧ headerProcess = numbered committed.process ∧ goConsts = headerExecutor := by
  decide +kernel

def numberIn (t : Tables) (c : Cat) (name : String) : Option Nat := (t.get c).findIdx? fun e => e.define == name

def firstWord (s : String) : List Char := s.toList.takeWhile (· != ' ')

def useOk (u : String × Who) : Bool :=
  match numberIn committed u.2.cat u.1 with
  | none => false
  | some n => (u.2.cat == .process && decide (4 ≤ n ∧ n < 100)) || (u.2.cat == .executor && decide (2 ≤ n ∧ n < 126))

theorem uses_ok : uses.all useOk = true := by decide +kernel

theorem numberIn_number (t : Tables) (c : Cat) (name : String) (n : Nat) (hn : name ≠ "") (h : numberIn t c name = some n) : Number t c n name := by
  unfold numberIn at h
  rw [List.findIdx?_eq_some_iff_getElem] at h
  obtain ⟨hl, he, -⟩ := h
  exact ⟨_, List.getElem?_eq_getElem hl, by simpa using he, hn⟩

theorem uses_named : uses.all (fun u => u.1 != "") = true := by decide +kernel

/-- C164: each code which one of the programs exits with has a number in the table in which that program's exit codes are looked up, and the number
isn't one which means something else: the results 0-3 and traps 100-127 of processes, 0 and 1 of executors and the codes of a shell. -/
theorem use_numbered (name : String) (w : Who) (h : (name, w) ∈ uses) :
    ∃ n, Number committed w.cat n name ∧ (w.cat = .process → 4 ≤ n ∧ n < 100) ∧ (w.cat = .executor → 2 ≤ n ∧ n < 126) := by
  have h1 := List.all_eq_true.1 uses_ok _ h
  have h2 := List.all_eq_true.1 uses_named _ h
  simp only [bne_iff_ne, ne_eq] at h2
  unfold useOk at h1
  cases hn : numberIn committed w.cat name with
  | none => simp [hn] at h1
  | some n =>
    rw [hn] at h1
    refine ⟨n, numberIn_number _ _ _ _ h2 hn, ?_, ?_⟩ <;> intro hc <;> rw [hc] at h1
    · exact of_decide_eq_true (by simpa using h1)
    · exact of_decide_eq_true (by simpa using h1)

/-- C164: looking such a number up finds the name's own entry. -/
theorem describe_number (t : Tables) (c : Cat) (n : Nat) (name : String) (h : Number t c n name) :
    ∃ e, describe t c n = .known e ∧ e.define = name := by
  obtain ⟨e, h1, h2, h3⟩ := h
  have hl : n < (t.get c).length := (List.getElem?_eq_some_iff.1 h1).1
  refine ⟨e, ?_, h2⟩
  unfold describe
  rw [if_pos (by omega), if_neg (by omega)]
  simp [h1, h2, h3]

/-- C164: a number which has no name is reported as unknown, and a negative one panics (exit codes aren't negative). -/
theorem describe_unknown (t : Tables) (c : Cat) (n : Nat) (h : ¬ ∃ name, Number t c n name) : describe t c n = .unknown := by
  unfold describe
  split
  · rw [if_neg (by omega)]
    cases he : (t.get c)[(n : Int).toNat]? with
    | none => rfl
    | some e =>
      simp only [ne_eq, ite_not]
      by_cases hd : e.define = ""
      · rw [if_pos hd]
      · exact absurd ⟨e.define, e, by simpa using he, rfl, hd⟩ h
  · rfl

theorem describe_panic (t : Tables) (c : Cat) (code : Int) : describe t c code = .panic ↔ code < 0 := by
  unfold describe
  constructor
  · intro h
    split at h
    · split at h
      · assumption
      · split at h
        · split at h <;> cases h
        · cases h
    · cases h
  · intro h
    rw [if_pos (by omega), if_pos h]

def described (u : String × Who) : Bool :=
  match numberIn committed u.2.cat u.1 with
  | none => false
  | some n => match (committed.get u.2.cat)[n]? with
    | none => false
    | some e => firstWord e.text != "TODO:".toList && e.text != "" && e.subsys != ""

/-- C164: the codes in use have a description. -/
theorem uses_described : uses.all described = true := by decide +kernel

/-- Some others have a reminder in its place. -/
theorem todo_unused : (committed.process.filter fun e => firstWord e.text == "TODO:".toList).map Entry.define =
      ["ERR_SENTINEL_CLOSE", "ERR_SENTINEL_SIGSUSPEND", "ERR_LOAD_SETPRIORITY"] ∧
    (committed.executor.filter fun e => firstWord e.text == "TODO:".toList) = [] ∧
    ∀ x ∈ ["ERR_SENTINEL_CLOSE", "ERR_SENTINEL_SIGSUSPEND", "ERR_LOAD_SETPRIORITY"], uses.all (fun u => u.1 != x) = true := by
  decide +kernel

def names (t : Tables) : List String := ((t.executor ++ t.process).map Entry.define).filter (· != "")

theorem committed_nodup : (names committed).Nodup := by decide +kernel

/-! ### Properties of the generator -/

theorem ofList_ne (m : List Char) (h : m ≠ []) : String.ofList m ≠ "" := by
  intro he
  apply h
  have := congrArg String.toList he
  simpa using this

theorem matchAt_ne (s m : List Char) (h : matchAt s = some m) : m ≠ [] := by
  unfold matchAt at h
  split at h
  · simp only at h
    split at h
    · split at h
      · cases h
      · cases h; simp
    · cases h
  · cases h

theorem findAll_ne (n : Nat) (s m : List Char) (h : m ∈ findAll n s) : m ≠ [] := by
  induction n generalizing s with
  | zero => simp [findAll] at h
  | succ n ih =>
    cases s with
    | nil => simp [findAll] at h
    | cons c s =>
      simp only [findAll] at h
      cases hm : matchAt (c :: s) with
      | none => rw [hm] at h; exact ih _ h
      | some m' =>
        rw [hm] at h
        rcases List.mem_cons.1 h with rfl | h
        · exact matchAt_ne _ _ hm
        · exact ih _ h

theorem get_append (t : Tables) (c c' : Cat) (e : Entry) : (t.append c e).get c' = if c' = c then t.get c' ++ [e] else t.get c' := by
  cases c <;> cases c' <;> rfl

theorem has_iff (t : Tables) (name : String) (hn : name ≠ "") : t.has name = true ↔ ∃ c n, Number t c n name := by
  simp only [Tables.has, Bool.or_eq_true, List.any_eq_true, beq_iff_eq]
  constructor
  · rintro (⟨e, he, rfl⟩ | ⟨e, he, rfl⟩)
    · obtain ⟨n, hl, h⟩ := List.mem_iff_getElem.1 he
      exact ⟨.executor, n, e, by rw [← h]; exact List.getElem?_eq_getElem hl, rfl, hn⟩
    · obtain ⟨n, hl, h⟩ := List.mem_iff_getElem.1 he
      exact ⟨.process, n, e, by rw [← h]; exact List.getElem?_eq_getElem hl, rfl, hn⟩
  · rintro ⟨c, n, e, h1, h2, -⟩
    have := List.mem_of_getElem? h1
    cases c
    · exact .inl ⟨e, this, h2⟩
    · exact .inr ⟨e, this, h2⟩

/-- The numbers of the second are those of the first and further ones. -/
def Extends (t t' : Tables) : Prop := ∀ c, ∃ new, t'.get c = t.get c ++ new

theorem addName_extends (t t' : Tables) (m : List Char) (h : addName t m = some t') : Extends t t' := by
  unfold addName at h
  split at h
  · cases h; exact fun c => ⟨[], by simp⟩
  · split at h
    · cases h
    · next c sub _ =>
      cases h
      intro c'
      rw [get_append]
      split
      · exact ⟨_, rfl⟩
      · exact ⟨[], by simp⟩

theorem extends_trans (a b c : Tables) (h1 : Extends a b) (h2 : Extends b c) : Extends a c := by
  intro k
  obtain ⟨x, hx⟩ := h1 k
  obtain ⟨y, hy⟩ := h2 k
  exact ⟨x ++ y, by rw [hy, hx, List.append_assoc]⟩

theorem number_extends (t t' : Tables) (h : Extends t t') (c : Cat) (n : Nat) (name : String) (hn : Number t c n name) : Number t' c n name := by
  obtain ⟨e, h1, h2⟩ := hn
  obtain ⟨new, hx⟩ := h c
  refine ⟨e, ?_, h2⟩
  rw [hx, List.getElem?_append_left (List.getElem?_eq_some_iff.1 h1).1]
  exact h1

theorem addName_has (t t' : Tables) (m : List Char) (hm : m ≠ []) (h : addName t m = some t') : ∃ c n, Number t' c n (String.ofList m) := by
  unfold addName at h
  split at h
  · next hh => cases h; exact (has_iff t _ (ofList_ne m hm)).1 hh
  · split at h
    · cases h
    · next c sub _ =>
      cases h
      refine ⟨c, (t.get c).length, ⟨String.ofList m, sub, ""⟩, ?_, rfl, ofList_ne m hm⟩
      rw [get_append, if_pos rfl]
      simp

theorem number_append (t : Tables) (c c' : Cat) (n : Nat) (e : Entry) (name : String) (h : Number (t.append c e) c' n name) :
    Number t c' n name ∨ (c' = c ∧ n = (t.get c).length ∧ e.define = name) := by
  obtain ⟨x, h1, h2, h3⟩ := h
  rw [get_append] at h1
  split at h1
  · next hc =>
    subst hc
    rw [List.getElem?_append] at h1
    split at h1
    · exact .inl ⟨x, h1, h2, h3⟩
    · next hl =>
      have : n - (t.get c').length = 0 := by
        have := (List.getElem?_eq_some_iff.1 h1).1
        simp at this; omega
      rw [this] at h1
      simp at h1
      exact .inr ⟨rfl, by omega, by rw [h1]; exact h2⟩
  · exact .inl ⟨x, h1, h2, h3⟩

theorem addName_unique (t t' : Tables) (m : List Char) (hm : m ≠ []) (u : Unique t) (h : addName t m = some t') : Unique t' := by
  unfold addName at h
  split at h
  · cases h; exact u
  · next hh =>
    split at h
    · cases h
    · next c sub _ =>
      cases h
      have hno : ∀ k n, ¬ Number t k n (String.ofList m) := fun k n hx => hh ((has_iff t _ (ofList_ne m hm)).2 ⟨k, n, hx⟩)
      intro c1 n1 c2 n2 name h1 h2
      rcases number_append t c c1 n1 _ name h1 with g1 | ⟨rfl, rfl, e1⟩
      · rcases number_append t c c2 n2 _ name h2 with g2 | ⟨rfl, rfl, e2⟩
        · exact u _ _ _ _ _ g1 g2
        · rw [← e2] at g1; exact absurd g1 (hno _ _)
      · rcases number_append t c1 c2 n2 _ name h2 with g2 | ⟨rfl, rfl, e2⟩
        · rw [← e1] at g2; exact absurd g2 (hno _ _)
        · exact ⟨rfl, rfl⟩

theorem addNames_all (t t' : Tables) (ms : List (List Char)) (hm : ∀ m ∈ ms, m ≠ []) (h : addNames t ms = some t') :
    Extends t t' ∧ (∀ m ∈ ms, ∃ c n, Number t' c n (String.ofList m)) ∧ (Unique t → Unique t') := by
  induction ms generalizing t with
  | nil => cases h; exact ⟨fun c => ⟨[], by simp⟩, by simp, id⟩
  | cons m ms ih =>
    simp only [addNames] at h
    cases h1 : addName t m with
    | none => rw [h1] at h; cases h
    | some t1 =>
      rw [h1] at h
      obtain ⟨a, b, c⟩ := ih t1 (fun x hx => hm x (by simp [hx])) h
      refine ⟨extends_trans _ _ _ (addName_extends t t1 m h1) a, ?_, fun u => c (addName_unique t t1 m (hm m (by simp)) u h1)⟩
      intro x hx
      rcases List.mem_cons.1 hx with rfl | hx
      · obtain ⟨k, n, hn⟩ := addName_has t t1 x (hm x (by simp)) h1
        exact ⟨k, n, number_extends t1 t' a k n _ hn⟩
      · exact b x hx

theorem generate_names (t t' : Tables) (files : List (List Char)) (h : generate t files = some t') :
    addNames t (files.flatMap fun s => findAll (s.length + 1) s) = some t' ∧ t'.executor.length ≤ 100 ∧ t'.process.length ≤ 100 := by
  unfold generate at h
  split at h
  · cases h
  · next x hx =>
    split at h
    · cases h
    · next hl =>
      cases h
      have e : maxErrors = 100 := rfl
      exact ⟨hx, by omega, by omega⟩

/-- C164: a new generation of the tables keeps the numbers of all errors, whatever the sources are. -/
theorem stable (t t' : Tables) (files : List (List Char)) (h : generate t files = some t') (c : Cat) (n : Nat) (name : String)
    (hn : Number t c n name) : Number t' c n name ∧ (t'.get c)[n]? = (t.get c)[n]? := by
  have hg := generate_names t t' files h
  have hx := (addNames_all t t' _ (fun m hm => by
    obtain ⟨s, -, hs⟩ := List.mem_flatMap.1 hm
    exact findAll_ne _ _ _ hs) hg.1).1
  refine ⟨number_extends t t' hx c n name hn, ?_⟩
  obtain ⟨e, h1, -⟩ := hn
  obtain ⟨new, hnew⟩ := hx c
  rw [hnew, List.getElem?_append_left (List.getElem?_eq_some_iff.1 h1).1]

/-- C164: every error which the sources mention has exactly one number then, and it's below 100. -/
theorem numbers (t t' : Tables) (files : List (List Char)) (u : Unique t) (h : generate t files = some t') (m : List Char) (hm : Mentions files m) :
    ∃ c n, Number t' c n (String.ofList m) ∧ n < 100 ∧ ∀ c' n', Number t' c' n' (String.ofList m) → c' = c ∧ n' = n := by
  have hg := generate_names t t' files h
  have hx := addNames_all t t' _ (fun m hm => by
    obtain ⟨s, -, hs⟩ := List.mem_flatMap.1 hm
    exact findAll_ne _ _ _ hs) hg.1
  obtain ⟨s, hs1, hs2⟩ := hm
  obtain ⟨c, n, hn⟩ := hx.2.1 m (List.mem_flatMap.2 ⟨s, hs1, hs2⟩)
  refine ⟨c, n, hn, ?_, fun c' n' hn' => hx.2.2 u c' n' c n _ hn' hn⟩
  obtain ⟨e, h1, -⟩ := hn
  have := (List.getElem?_eq_some_iff.1 h1).1
  cases c
  · exact Nat.lt_of_lt_of_le this hg.2.1
  · exact Nat.lt_of_lt_of_le this hg.2.2

theorem addNames_known (t : Tables) (ms : List (List Char)) (hm : ∀ m ∈ ms, t.has (String.ofList m) = true) : addNames t ms = some t := by
  induction ms with
  | nil => rfl
  | cons m ms ih =>
    have h1 : addName t m = some t := if_pos (hm m (by simp))
    simp only [addNames, h1, Option.bind_some]
    exact ih fun x hx => hm x (by simp [hx])

/-- C164: generating again changes nothing. -/
theorem idempotent (t t' : Tables) (files : List (List Char)) (h : generate t files = some t') : generate t' files = some t' := by
  have hg := generate_names t t' files h
  have hne : ∀ m ∈ files.flatMap (fun s => findAll (s.length + 1) s), m ≠ [] := fun m hm => by
    obtain ⟨s, -, hs⟩ := List.mem_flatMap.1 hm
    exact findAll_ne _ _ _ hs
  have hx := addNames_all t t' _ hne hg.1
  unfold generate
  rw [addNames_known t' _ fun m hm => (has_iff t' _ (ofList_ne m (hne m hm))).2 (hx.2.1 m hm)]
  have e : maxErrors = 100 := rfl
  simp only
  rw [if_neg (by omega)]

/-- C164: after new errors have appeared, nothing is compiled until they have a description. -/
theorem new_described (t t' : Tables) (files : List (List Char)) (h : generate t files = some t') (m : List Char) (hm : Mentions files m)
    (hno : ¬ ∃ c n, Number t c n (String.ofList m)) : initialized t' = false := by
  have hg := generate_names t t' files h
  have hne : ∀ m ∈ files.flatMap (fun s => findAll (s.length + 1) s), m ≠ [] := fun m hm => by
    obtain ⟨s, -, hs⟩ := List.mem_flatMap.1 hm
    exact findAll_ne _ _ _ hs
  -- New entries have no text.
  have key : ∀ (ms : List (List Char)) (t t' : Tables), (∀ m ∈ ms, m ≠ []) → addNames t ms = some t' → ∀ c, ∃ new, t'.get c = t.get c ++ new ∧ ∀ e ∈ new, e.text = "" := by
    intro ms
    induction ms with
    | nil => intro t t' _ h c; cases h; exact ⟨[], by simp⟩
    | cons m ms ih =>
      intro t t' hm h c
      simp only [addNames] at h
      cases h1 : addName t m with
      | none => rw [h1] at h; cases h
      | some t1 =>
        rw [h1] at h
        obtain ⟨new, e1, e2⟩ := ih t1 t' (fun x hx => hm x (by simp [hx])) h c
        unfold addName at h1
        split at h1
        · cases h1; exact ⟨new, e1, e2⟩
        · split at h1
          · cases h1
          · next k sub _ =>
            cases h1
            rw [get_append] at e1
            split at e1
            · refine ⟨[⟨String.ofList m, sub, ""⟩] ++ new, by rw [e1]; simp, ?_⟩
              intro e he
              rcases List.mem_append.1 he with he | he
              · rw [List.mem_singleton.1 he]
              · exact e2 e he
            · exact ⟨new, e1, e2⟩
  obtain ⟨s, hs1, hs2⟩ := hm
  obtain ⟨c, n, e, h1, h2, h3⟩ := (addNames_all t t' _ hne hg.1).2.1 m (List.mem_flatMap.2 ⟨s, hs1, hs2⟩)
  obtain ⟨new, e1, e2⟩ := key _ t t' hne hg.1 c
  have he : e.text = "" := by
    rw [e1, List.getElem?_append] at h1
    split at h1
    · exact absurd ⟨c, n, e, h1, h2, h3⟩ hno
    · exact e2 e (List.mem_of_getElem? h1)
  have hmem : e ∈ t'.executor ++ t'.process := by
    rw [e1] at h1
    have := List.mem_of_getElem? h1
    rw [← e1] at this
    cases c
    · exact List.mem_append_left _ this
    · exact List.mem_append_right _ this
  apply Bool.eq_false_iff.2
  intro hall
  have := List.all_eq_true.1 hall e hmem
  simp [he, h2, h3] at this

/-- What's printed to the header has the numbers of the tables, and no others. -/
theorem numbered_iff (t : Tables) (c : Cat) (n : Nat) (name : String) : (name, n) ∈ numbered (t.get c) ↔ Number t c n name := by
  simp only [numbered, List.mem_map, List.mem_filter, Prod.mk.injEq]
  constructor
  · rintro ⟨⟨e, i⟩, ⟨h1, h2⟩, h3, h4⟩
    simp only at h2 h3 h4
    subst h3 h4
    refine ⟨e, ?_, rfl, by simpa using h2⟩
    exact (List.mk_mem_zipIdx_iff_getElem?).1 h1
  · rintro ⟨e, h1, h2, h3⟩
    exact ⟨(e, n), ⟨(List.mk_mem_zipIdx_iff_getElem?).2 h1, by simpa [h2] using h3⟩, h2, rfl⟩

theorem two_le_count {l : List String} {name : String} (i j : Nat) (hne : i ≠ j) (h1 : l[i]? = some name) (h2 : l[j]? = some name) :
    2 ≤ l.count name := by
  induction l generalizing i j with
  | nil => simp at h1
  | cons x l ih =>
    cases i with
    | zero =>
      simp at h1; subst h1
      cases j with
      | zero => exact absurd rfl hne
      | succ j =>
        have : x ∈ l := List.mem_of_getElem? (by simpa using h2)
        have := List.count_pos_iff.2 this
        rw [List.count_cons_self]; omega
    | succ i =>
      cases j with
      | zero =>
        simp at h2; subst h2
        have : x ∈ l := List.mem_of_getElem? (by simpa using h1)
        have := List.count_pos_iff.2 this
        rw [List.count_cons_self]; omega
      | succ j =>
        have := ih i j (by omega) (by simpa using h1) (by simpa using h2)
        rw [List.count_cons]; omega

theorem nodup_unique (t : Tables) (h : (names t).Nodup) : Unique t := by
  have hd : ∀ name : String, name ≠ "" → ((t.executor ++ t.process).map Entry.define).count name ≤ 1 := by
    intro name hn
    have := List.nodup_iff_count.1 h name
    rw [names, List.count_filter (by simpa using hn)] at this
    exact this
  intro c n c' n' name h1 h2
  obtain ⟨e, a1, a2, a3⟩ := h1
  obtain ⟨e', b1, b2, -⟩ := h2
  -- Positions in the concatenation.
  let pos : Cat → Nat → Nat := fun c n => match c with | .executor => n | .process => t.executor.length + n
  have hp : ∀ c n e, (t.get c)[n]? = some e → e.define = name → ((t.executor ++ t.process).map Entry.define)[pos c n]? = some name := by
    intro c n e h he
    rw [List.getElem?_map]
    cases c
    · have h' : t.executor[n]? = some e := h
      show Option.map Entry.define (t.executor ++ t.process)[n]? = _
      rw [List.getElem?_append_left (List.getElem?_eq_some_iff.1 h').1, h']
      simp [he]
    · have h' : t.process[n]? = some e := h
      show Option.map Entry.define (t.executor ++ t.process)[t.executor.length + n]? = _
      rw [List.getElem?_append_right (by omega), Nat.add_sub_cancel_left, h']
      simp [he]
  have p1 := hp c n e a1 a2
  have p2 := hp c' n' e' b1 b2
  have heq : pos c n = pos c' n' := by
    apply Classical.byContradiction
    intro hne
    have h2 : 2 ≤ ((t.executor ++ t.process).map Entry.define).count name := by
      apply two_le_count _ _ hne p1 p2
    have := hd name a3
    omega
  cases c <;> cases c'
  · exact ⟨rfl, heq⟩
  · have := (List.getElem?_eq_some_iff.1 a1).1
    simp only [pos, Tables.get] at heq this
    omega
  · have := (List.getElem?_eq_some_iff.1 b1).1
    simp only [pos, Tables.get] at heq this
    omega
  · simp only [pos] at heq
    exact ⟨rfl, by omega⟩

/-- C164: no error of the committed tables has two numbers. -/
theorem committed_unique : Unique committed := nodup_unique _ committed_nodup

/-! ### Examples -/

example : findAll 100 "die(ERR_EXEC_CLOSE); // ERR_ ERR_X_ XERR_LOAD_NEW_1,".toList = ["ERR_EXEC_CLOSE".toList, "ERR_LOAD_NEW_1".toList] := by decide +kernel

/-- A new error of the loader gets number 48, and the tables are not complete then. -/
example : (generate committed ["ERR_EXEC_CLOSE ERR_LOAD_NEW_1".toList]).map (fun t => (numberIn t .process "ERR_LOAD_NEW_1", initialized t)) = some (some 48, false) := by
  decide +kernel

example : generate committed ["ERR_NEW_SUBSYSTEM".toList] = none := by decide +kernel
example : initialized committed = true := by decide +kernel
example : ("ERR_LOAD_SECCOMP", Who.loader) ∈ uses := by decide +kernel
example : Mentions ["ERR_EXEC_CLOSE ERR_LOAD_NEW_1".toList] "ERR_LOAD_NEW_1".toList := ⟨_, List.mem_singleton.2 rfl, by decide +kernel⟩

end Gate.ErrTab
