import Verif.RtSys
/-
Model of the library which implements the functions programs can import: runtime/abi/library.wat, on top of the runtime functions (Rt.lean).
An access of memory out of its bounds is a trap (the signal handler's exit status is 105, runtime.S:166-196), and has no other effect.
Arguments are 32-bit or 64-bit numbers. `$reserved` is never called (`br_if 0 (i32.const 1)`).

Simplification: a program which has been stopped (rt_stop) or suspended (at an implicit call site) can be resumed in another process; here, the process's exit is the end.
After rt_stop, the resumed process's rt_stop returns 0, and the loops around it stop again.
-/
namespace Gate.AbiLib
open Gate Gate.ImageFile Gate.Rt

/-- i32.load8_u, i32.load, i64.load. -/
def ld (n ea : Nat) : M Nat := fun s =>
  if ea + n ≤ s.pages * 65536 then .ok (unle (ImageFile.read s.space (s.base + ea) n)) s else .exit exitOob s

/-- i32.store8, i32.store16, i32.store, i64.store. -/
def st (n ea v : Nat) : M Unit := fun s =>
  if ea + n ≤ s.pages * 65536 then .ok () { s with space := ImageFile.write s.space (s.base + ea) (le n v) } else .exit exitOob s

/-- WASI error numbers. -/
abbrev EAGAIN : Nat := 6
abbrev EBADF : Nat := 8
abbrev EINVAL : Nat := 28
abbrev ENOENT : Nat := 44
abbrev ENOTSOCK : Nat := 57
abbrev EPERM : Nat := 63
abbrev ESPIPE : Nat := 70
abbrev ENOTCAPABLE : Nat := 76

/-- The condition in every function which takes a descriptor, e.g. library.wat:157-159. -/
def badFd (fd : Nat) : Bool := fd == 3 || decide (5 ≤ fd)

/-- ABIDeficiency. -/
abbrev deficiency : Nat := 127

/-- library.wat:19-24. -/
def argsGet (_argv _argvbuf : Nat) : M Nat := pure 0

/-- library.wat:26-33. -/
def argsSizesGet (argc argvbufsize : Nat) : M Nat := do
  st 4 argc 0
  st 4 argvbufsize 0
  pure 0

/-- library.wat:35-43. -/
def clockResGet (id buf : Nat) : M Nat :=
  if 4 ≤ id then pure EINVAL
  else do
    st 8 buf 1000000000
    pure 0

/-- library.wat:45-63. `rtTime`: see Process.lean. -/
def clockTimeGet (rtTime : Nat → M Nat) (id _precision buf : Nat) : M Nat :=
  if 4 ≤ id then pure EINVAL
  else if id < 2 then do
    let t ← rtTime ((id + 5) % w32)
    st 8 buf t
    pure 0
  else rtStop deficiency

/-- library.wat:65-80. -/
def environGet (env envbuf : Nat) : M Nat := do
  st 8 (envbuf + 0) 0x4942415f45544147
  st 8 (envbuf + 8) 0x4e4f49535245565f
  st 8 (envbuf + 16) 0x5f4554414700303d
  st 8 (envbuf + 24) 0x54414700343d4446
  st 8 (envbuf + 32) 0x45535f58414d5f45
  st 8 (envbuf + 40) 0x3d455a49535f444e
  st 8 (envbuf + 48) 0x0000003633353536
  st 4 (env + 0) envbuf
  st 4 (env + 4) ((envbuf + 19) % w32)
  st 4 (env + 8) ((envbuf + 29) % w32)
  pure 0

/-- library.wat:82-89. -/
def environSizesGet (envlen envbufsize : Nat) : M Nat := do
  st 4 envlen 3
  st 4 envbufsize 56
  pure 0

/-- The loop which writes buffers with rt_write, library.wat:114-126 and 401-411: it ends at the first buffer which isn't written completely. -/
def writeLoop (a : Arch) : Nat → Nat → Nat → M Nat
  | 0, _, xfer => pure xfer
  | len + 1, iov, xfer => do
    let buflen ← ld 4 (iov + 4)
    let buf ← ld 4 (iov + 0)
    let n ← rtWrite a buf buflen
    let xfer := (xfer + n) % w32
    if n ≠ buflen then pure xfer else writeLoop a len ((iov + 8) % w32) xfer

/-- The loop which reads to buffers with rt_read, library.wat:131-143 and 268-279. -/
def readLoop (a : Arch) : Nat → Nat → Nat → M Nat
  | 0, _, xfer => pure xfer
  | len + 1, iov, xfer => do
    let buflen ← ld 4 (iov + 4)
    let buf ← ld 4 (iov + 0)
    let n ← rtRead a buf buflen
    let xfer := (xfer + n) % w32
    if n ≠ buflen then pure xfer else readLoop a len ((iov + 8) % w32) xfer

/-- The loop which writes buffers with rt_debug, library.wat:412-421. -/
def debugVec (a : Arch) : Nat → Nat → Nat → M Nat
  | 0, _, xfer => pure xfer
  | len + 1, iov, xfer => do
    let buflen ← ld 4 (iov + 4)
    let buf ← ld 4 (iov + 0)
    rtDebug a buf buflen
    debugVec a len ((iov + 8) % w32) ((xfer + buflen) % w32)

/-- The events which io looks at, library.wat:104-111: without GATE_IO_WAIT (1) both. -/
def ioFilter (sendlen flags : Nat) : M Nat := if flags &&& 1 ≠ 0 then rtPoll 1 (if sendlen ≠ 0 then 4 else 0) else pure 5

/-- Sending or receiving if the event is there, library.wat:113, 130. -/
def ioWhen (filter event : Nat) (m : M Nat) : M Nat := if filter &&& event ≠ 0 then m else pure 0

/-- Storing a count if it's wanted, library.wat:127-128, 143-144. -/
def ioStore (ptr n : Nat) : M Unit := if ptr ≠ 0 then st 4 ptr n else pure ()

/-- library.wat:91-145. -/
def io (a : Arch) (recv recvlen nrecv send sendlen nsent flags : Nat) : M Unit :=
  ioFilter sendlen flags >>= fun filter =>
  ioWhen filter 4 (writeLoop a sendlen send 0) >>= fun sent =>
  ioStore nsent sent >>= fun _ =>
  ioWhen filter 1 (readLoop a recvlen recv 0) >>= fun received =>
  ioStore nrecv received

/-- library.wat:147-150. -/
def fd : M Nat := pure 4

/-- library.wat:152-164. -/
def fdClose (fd : Nat) : M Nat := if badFd fd then pure EBADF else rtStop deficiency

/-- library.wat:166-187. -/
def fdFdstatGet (fd buf : Nat) : M Nat :=
  if badFd fd then pure EBADF
  else do
    let rights := if fd = 1 ∨ fd = 2 then 0x40 else 0
    let flags := if fd = 4 then 4 else 0
    let rights := if fd = 4 then 0x42 else rights
    st 1 (buf + 0) 0
    st 2 (buf + 2) flags
    st 8 (buf + 8) rights
    st 8 (buf + 16) 0
    pure 0

/-- library.wat:189-197. -/
def fdFdstatSetFlags (fd _flags : Nat) : M Nat := if badFd fd then pure EBADF else pure EPERM

/-- library.wat:199-231. -/
def fdFdstatSetRights (fd base inheriting : Nat) : M Nat :=
  if badFd fd then pure EBADF
  else if inheriting ≠ 0 then pure ENOTCAPABLE
  else if fd = 0 then (if base = 0 then pure 0 else pure ENOTCAPABLE)
  else if (fd = 1 ∨ fd = 2) ∧ base = 0x40 then pure 0
  else if (fd = 1 ∨ fd = 2) ∧ base ≠ 0 then pure ENOTCAPABLE
  else if fd = 4 ∧ base = 0x42 then pure 0
  else if fd = 4 ∧ base &&& 0xffffffffffffffbd ≠ 0 then pure ENOTCAPABLE
  else rtStop deficiency

/-- library.wat:233-249. -/
def fdFilestatGet (fd buf : Nat) : M Nat :=
  if badFd fd then pure EBADF
  else do
    st 8 (buf + 0) 0
    st 8 (buf + 8) 0
    st 1 (buf + 16) 0
    st 4 (buf + 20) 0
    st 4 (buf + 24) 0
    st 8 (buf + 32) 0
    st 8 (buf + 40) 0
    st 8 (buf + 48) 0
    pure 0

/-- library.wat:251-284. -/
def fdRead (a : Arch) (fd iov iovlen nread : Nat) : M Nat :=
  if badFd fd then pure EBADF
  else if fd = 0 then pure EPERM
  else if fd ≠ 4 then pure EINVAL
  else do
    let n ← readLoop a iovlen iov 0
    st 4 nread n
    if n ≠ 0 then pure 0 else pure EAGAIN

/-- library.wat:286-303. -/
def fdRenumber (from_ to : Nat) : M Nat :=
  if badFd from_ || badFd to then pure EBADF
  else if from_ = to then pure 0
  else rtStop deficiency

/-- library.wat:305-382 fd_stub_*. -/
def fdStub (fd : Nat) : M Nat := if badFd fd then pure EBADF else pure ESPIPE

/-- library.wat:384-426. -/
def fdWrite (a : Arch) (fd iov iovlen nwritten : Nat) : M Nat :=
  if badFd fd then pure EBADF
  else if fd = 0 then pure EINVAL
  else
    (if fd = 4 then writeLoop a iovlen iov 0 else debugVec a iovlen iov 0) >>= fun n =>
    st 4 nwritten n >>= fun _ =>
    if n ≠ 0 then pure 0 else pure EAGAIN

/-- library.wat:428-462 path_stub_*. -/
def pathStub : M Nat := pure ENOENT

/-- The local variables of poll_oneoff. -/
structure PollVars where
  out : Nat
  nout : Nat := 0
  reading : Nat := 0
  writing : Nat := 0
  readUserdata : Nat := 0
  writeUserdata : Nat := 0

/-- An event for a standard output, library.wat:504-508, 517-521, 525-529. -/
def putEvent (out userdata error type nbytes : Nat) : M Unit := do
  st 8 (out + 0) userdata
  st 2 (out + 8) error
  st 1 (out + 10) type
  st 8 (out + 16) nbytes
  st 2 (out + 24) 0

/-- library.wat:487-500: subscriptions of the gate descriptor are combined, and bad descriptors are reported. -/
def pollFd (sub type fd : Nat) (v : PollVars) : M PollVars :=
  if fd = 4 then
    if type = 1 then do
      let u ← ld 8 (sub + 0)
      pure { v with reading := 1, readUserdata := u }
    else do
      let u ← ld 8 (sub + 0)
      pure { v with writing := 4, writeUserdata := u }
  else if 3 ≤ fd then do
    let u ← ld 8 (sub + 0)
    st 8 (v.out + 0) u
    st 2 (v.out + 8) EBADF
    pure { v with out := (v.out + 32) % w32, nout := (v.nout + 1) % w32 }
  else pure v

/-- library.wat:501-510: standard outputs are always ready. -/
def pollStd (sub type fd : Nat) (v : PollVars) : M PollVars :=
  if (fd = 1 ∨ fd = 2) ∧ type = 2 then do
    let u ← ld 8 (sub + 0)
    putEvent v.out u 0 2 1
    pure { v with out := (v.out + 32) % w32, nout := (v.nout + 1) % w32 }
  else pure v

/-- The loop of poll_oneoff, library.wat:479-513. `.inl`: the function returns that. -/
def pollLoop : Nat → Nat → PollVars → M (Nat ⊕ PollVars)
  | 0, _, v => pure (.inr v)
  | nsub + 1, sub, v =>
    ld 1 (sub + 8) >>= fun type =>
    if 3 ≤ type then pure (.inl EINVAL)
    else if type = 0 then rtStop deficiency
    else
      ld 4 (sub + 16) >>= fun fd =>
      pollFd sub type fd v >>= fun v =>
      pollStd sub type fd v >>= fun v =>
      pollLoop nsub ((sub + 56) % w32) v

/-- library.wat:517-532: an event of the gate descriptor. -/
def pollEvent (result event userdata type : Nat) (v : PollVars) : M PollVars :=
  if result &&& event ≠ 0 then do
    putEvent v.out userdata 0 type 65536
    pure { v with out := (v.out + 32) % w32, nout := (v.nout + 1) % w32 }
  else pure v

/-- library.wat:514-535. -/
def pollFinish (nout : Nat) (v : PollVars) : M Nat :=
  rtPoll v.reading v.writing >>= fun result =>
  pollEvent result 1 v.readUserdata 1 v >>= fun v =>
  pollEvent result 4 v.writeUserdata 2 v >>= fun v =>
  st 4 nout v.nout >>= fun _ =>
  pure 0

/-- library.wat:464-535. -/
def pollOneoff (sub out nsub nout : Nat) : M Nat :=
  pollLoop nsub sub { out := out } >>= fun r =>
  match r with
  | .inl e => pure e
  | .inr v => pollFinish nout v

/-- library.wat:537-544. -/
def procExit (status : Nat) : M Unit := rtStop (Process.procExit status)

/-- library.wat:546-550. -/
def procRaise (_signal : Nat) : M Nat := rtStop deficiency

/-- library.wat:552-572: rt_random's negative result is -1. -/
def randomGet : Nat → Nat → M Nat
  | _, 0 => pure 0
  | buf, len + 1 => do
    let v ← rtRandom
    if v < 2147483648 then do
      st 1 buf v
      randomGet ((buf + 1) % w32) len
    else rtStop deficiency

/-- library.wat:574-577. -/
def schedYield : M Nat := pure 0

/-- library.wat:579-607 sock_recv, sock_send, sock_shutdown. -/
def sockStub (fd : Nat) : M Nat := if badFd fd then pure EBADF else pure ENOTSOCK

/-- A call of a library function with its arguments. For stubs, the arguments which aren't looked at are left out. -/
inductive LibCall where
  | argsGet (argv argvbuf : Nat) | argsSizesGet (argc argvbufsize : Nat) | clockResGet (id buf : Nat) | clockTimeGet (id precision buf : Nat)
  | environGet (env envbuf : Nat) | environSizesGet (envlen envbufsize : Nat) | io (recv recvlen nrecv send sendlen nsent flags : Nat) | fd
  | fdClose (fd : Nat) | fdFdstatGet (fd buf : Nat) | fdFdstatSetFlags (fd flags : Nat) | fdFdstatSetRights (fd base inheriting : Nat)
  | fdFilestatGet (fd buf : Nat) | fdRead (fd iov iovlen nread : Nat) | fdRenumber (from_ to : Nat) | fdStub (fd : Nat) | fdWrite (fd iov iovlen nwritten : Nat)
  | pathStub | pollOneoff (sub out nsub nout : Nat) | procExit (status : Nat) | procRaise (signal : Nat) | randomGet (buf len : Nat) | schedYield | sockStub (fd : Nat)
deriving DecidableEq, Repr

/-- Functions without a result: zero. -/
def libCall (a : Arch) (rtTime : Nat → M Nat) : LibCall → M Nat
  | .argsGet x y => argsGet x y
  | .argsSizesGet x y => argsSizesGet x y
  | .clockResGet x y => clockResGet x y
  | .clockTimeGet x y z => clockTimeGet rtTime x y z
  | .environGet x y => environGet x y
  | .environSizesGet x y => environSizesGet x y
  | .io r rl nr s sl ns fl => do io a r rl nr s sl ns fl; pure 0
  | .fd => fd
  | .fdClose x => fdClose x
  | .fdFdstatGet x y => fdFdstatGet x y
  | .fdFdstatSetFlags x y => fdFdstatSetFlags x y
  | .fdFdstatSetRights x y z => fdFdstatSetRights x y z
  | .fdFilestatGet x y => fdFilestatGet x y
  | .fdRead x y z w => fdRead a x y z w
  | .fdRenumber x y => fdRenumber x y
  | .fdStub x => fdStub x
  | .fdWrite x y z w => fdWrite a x y z w
  | .pathStub => pathStub
  | .pollOneoff x y z w => pollOneoff x y z w
  | .procExit x => do procExit x; pure 0
  | .procRaise x => procRaise x
  | .randomGet x y => randomGet x y
  | .schedYield => schedYield
  | .sockStub x => sockStub x

end Gate.AbiLib
