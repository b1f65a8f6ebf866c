# Formal model of tsavola/gate in Lean 4

Scope: the Go (and a part of the C) sources in `/repo` are read as text; nothing
is built or run.  The model lives in `lean/Verif/`.  Each area has

* a *model* module (`Verif/<Area>.lean`): a total, computable transcription of
  the code, each definition citing the file and lines it models and naming each
  simplification;
* a *properties* module (`Verif/<Area>Props.lean`): a small specification
  written independently of the code, and the theorems, each followed by an
  `example` that instantiates its hypotheses on a concrete non-trivial case.

Properties that the code does **not** have are stated as proved negations with
a concrete (or universally quantified) witness execution, next to the strongest
true part we could prove, whose name ends with `_partial`.

## Conventions

* Bytes are `List UInt8`; Go's fixed-size integers are `Nat`/`Int` with explicit
  wrap-around (`% 2^32`, sign conversion), so overflow behaviour is in the model.
* A Go function that may return an error or panic is modelled with an explicit
  result type (`Res.ok / Res.err / Res.panic`); a Go panic (slice out of range,
  nil dereference, `make` with negative length) is a modelled outcome.
* Goroutines are modelled as labelled transition systems: one step per atomic
  action; theorems quantify over every finite sequence of steps (every schedule).
* External parties (reader, writer, kernel, services, program, clock, random
  source, signature check) are arbitrary: step labels or function parameters.

## Plan per property

| Id | What is modelled | How it is proved |
|----|------------------|------------------|
| C01 | header encoders/decoders of package packet on byte lists | list/LE lemmas, for all values |
| C02 | `Align`, `Buf.Split`, `DataBuf.Split` | case analysis; the documented empty remainder is false: negation by witness, partial for long remainders |
| C03 | `FlowBuf` accessors | LE round trip + list update lemmas |
| C04 | `binary.Uvarint/PutUvarint` semantics and package varint | induction on the value / the bytes |
| C05, C06 | `State.Marshal/Unmarshal`, `Stream` | composition of C04 |
| C07, C08 | `ReadStream` as transition system of both sides | invariant by induction over steps; C08 is false: witness schedule, partial |
| C09, C10, C11, C12 | `WriteStream` ring buffer and `Transfer` as transition system | refinement to a FIFO queue; C11/C12 are false for wrapped/restored buffers: witnesses, partial |
| C13, C14, C15 | `subjectReadLoop` over an arbitrary chunked byte source, `splitBufferedPackets`, `checkServicePacket`, `handlePacket` | induction over packets / bytes |
| C16, C17 | `handleServicesPacket`, `makeServicesPacket` | induction over names; C17 false for more than 256 restored services: witness, partial |
| C18, C19, C20 | `ioLoop` as transition system; padding formula | invariant; C19 false: witness, partial |
| C21, C22, C23 | registry chain, discovery, service buffers over suspend/resume cycles | induction over histories; C23 false: witness, partial |
| C24 | wait status decoding and the `Serve` decision | case analysis over all statuses |
| C25, C26, C27 | `execProcess` compare-and-swap protocol, id pool, executor tables | invariants by induction over interleavings; C26, C27 false: witness, partial |
| C28 | ring queue of executor.c | refinement to FIFO queue |
| C29 | `chanSharder.NewProcess` | witness of the panic; partial for the true fragment |
| C30 | `RandAddr` | arithmetic |
| C31, C32, C33 | snapshot encoders and decoders | round trip by induction |
| C34 | sort/dedup, breakpoint operations | list lemmas |
| C35, C36, C37 | stack export/import over abstract call maps | induction over frames; C36, C37 false: witness, partial |
| C38-C42 | token verification, nonce table, scope, principal ids | decision logic, LTS for nonces; C40, C42 false in general: witness, partial |
| C43, C44, C45 | server objects (programs, accounts, instances) as a transition system | invariants over histories |
| C46, C47 | file reference count LTS; `WriteVecAt` loop over kernel responses | invariants / induction |
| C48, C49, C50 | request handlers' decision logic; entry resolution | case analysis; C49 false: witness |
| C51, C52 | `ReadStream` model of C07 | both false: witnesses (C51 for every size limit), partial |
| C53 | `WriteStream` model of C09 with the state encoder of C05 | false: panics in every wrapped and every overdrawn state; partial |
| C55 | Registry.catalog map building | invariant: the map equals lookup composed with discoverability |
| C56 | StartServing / Discover / Suspend | exact success condition of restoring; counterexample |
| C54 | read loop + splitBufferedPackets + ioLoop error branch | framing of a concatenation; counterexample run |
| C57, C58 | executor identifier pool, `Executor.lean` | invariants over the transition system; concrete runs for the failures |
| C59 | time masking of runtime.S (`maskBits`, `timeX86`, `timeArm`) | arithmetic; refuted at second boundaries |
| C60 | monotonic clock snapshot of loader.c/runtime.S/process.go | induction over suspend/resume history |
| C62 | buffer section reader over arbitrary bytes | totality by cases; counterexample for the allocation bound |
| C61 | `image.Snapshot` layout computation over arbitrary parts | list slicing lemmas and arithmetic; counterexamples for the four failing layouts |
| C66 | the token handling functions with panics as outcomes | exact characterisation of the panicking inputs |
| C65 | the server transition system of C43 | invariant: the registry's reference is never dropped |
| C67 | the web handlers of C48 | the actions of the query are a permutation of the operation's names, by following the pops |
| C68 | the web handlers of C48 | every operation leaf of every handler |
| C69 | the loader table as a state machine over the sequence of sections | equivalence with the documented order by induction on the sequence |
| C70 | _debug with nil dereferences and panics as outcomes | case analysis; the crashing class is exhibited for all instances |
| C35 C36 C37 | CallStack: image/stack.go over words; abstract well-formed stacks with native and portable images | inverse by induction over frames; no-crash by strong induction on the buffer; refutations by concrete buffers / for all programs |
| C71 | IoLoop | bound on pending packets by induction over the run |
| C72 | Web handlers (WebActions) | per-handler invariant: consumed names ⊆ operation's parameters, rest of the query empty at the operation |
| C45, C73–C79 | server/instance.go and its callers as a transition system, one label per critical section (Lifecycle) | invariant over phases, by induction on histories; refutations by universally quantified lemmas and concrete histories |
| C80 | Lifecycle.lean's step relation; transient flag | exact characterization of the flag after a step |
| C81 | the lifecycle paired with the program's stored flag | counterexample run; invariant under the missing condition |
| C82–C85, C63, C64 | Program and instance files as functions from offsets to bytes, with manifests as records; NewInstance, build, snapshot, checkMutation and storage as functions on them (ImageFile.lean) | byte-for-byte equality of the stack, globals and memory read from the resulting files, for all sizes; histories by induction |
| C86 | Storage: state machine at system call granularity, with disk contents as sets of possible states | invariant over all histories; refutations by concrete runs |
| C87 | Storage | invariant + stability along any run |
| C88 | Storage: link counts and O_TMPFILE linkability | invariant; `Dead` states closed under every step |
| C89 | Manifest: header and protobuf encoding to the byte | equational, induction over field lists |
| C90 | Seccomp.lean: BPF interpreter and the filter as data | SeccompProps.lean: execution lemma per instruction, exact decision |
| C91 | Rt.lean: runtime functions with register widths, kernel responses as input | RtProps/RtMore.lean: invariant over histories; noninterference by comparing two runs |
| C92 | Rt.lean growMemory | RtMore.lean: invariant |
| C93 | Rt.lean debugLoop | RtSys.lean: induction on the kernel's responses; refutation for aarch64 |
| C94 | Rt.lean rtRandom | RtSys.lean: induction on histories |
| C95 | Rt.lean rtPoll | RtSys.lean: case analysis on bits |
| C96 | AbiLib.lean: all functions of library.wat, on the runtime functions of Rt.lean | AbiLibProps.lean: compositional frame and noninterference predicate for the monad, by cases on functions and induction on loops |
| C97, C98, C99 | AbiLib.lean fdWrite, fdRead, io | AbiLibIo.lean, AbiLibMore.lean: induction on vectors with memory frames |
| C100 | AbiLib.lean pollOneoff | AbiLibPoll.lean: induction on subscriptions; refutations in AbiLibMisc.lean |
| C101 | AbiLib.lean environGet, randomGet, procExit, badFd, fdFilestatGet | AbiLibMisc.lean: direct, induction on lengths |
| C102 | Suspend.lean: signal handler and time call as a transition system, one transition per instruction which touches the suspend state | invariant over all interleavings; refutations for every vDSO which saves the register |
| C103 | Resolver.lean: import resolver, library exports and signatures, ParseUint loop, loader vector | ResolverProps.lean: case analysis on names, induction over digits and imports, complete tables by kernel evaluation |
| C104 | CopyRange.lean: copyFileRange with its fallback, one system call at a time | invariant (copied prefix) over kernel answers; measure for termination; refutations at the end of file |
| C105 | Principals' strings (Auth), uuid.Parse v1.0.0 and the storage key functions on byte strings. | Character classes of accepted ids by slices; last-dot splitting (Resolver.cutLast). |
| C106 | New and its loading loops on a list of files with load outcomes, reference counts and Shutdown; buffers' outcome from Sections.loadBuffers. | Induction on the file lists. |
| C107 | restore and Suspend of the origin service on bytes, over the stream marshaling of StreamState. | Induction on the number of streams; loop invariant of distinct ids and sane streams. |
| C108 | The origin service as a transition system: any number of Connect calls, the serving goroutine, drainRestored, wakeup channel; ghost counters. | Inductive invariants on counts of call states, stream ownership and the program's view of streams. |
| C109 | Same transition system, from the state in which the program has stopped. | Decreasing rank and progress (ownership of unstopped streams); stuck states by invariants over all schedules. |
| C110 | Respond.lean: error types as method sets, the type switch, both writers | RespondProps.lean: case analysis over all method sets; arithmetic for Retry-After |
| C111 | Upload.lean: checks and registration as separate steps of a server with any number of concurrent requests; hash and compiler as parameters | UploadProps.lean: invariant over all histories; monotonicity of the programs map |
| C112 | Source.lean: OpenURI of both sources as functions of the response; contract of server.Source as specification | SourceProps.lean: case analysis; composition with Upload |
| C113 | Access.lean: policies, authorized_keys parsing over lines | AccessProps.lean: induction on lines and files |
| C114 | The monitor as a transition system: any number of calls of the monitor function, the loop (idle, delivering, answering, crashed), any number of subscribers with buffered channels. | Invariant over all runs (what a subscriber was given is a prefix of what was taken since its subscription; owed item accounting); refutations as stable states (`blocked_refuted`, `stuck_refuted`: no run leads out) with reachability for every buffer size. |
| C115 | Contexts as values with references to a heap of detail objects (server/context.go). | Equational proofs about reports before and after derivation; aliasing refutations for every heap. |
| C116 | The alias expression's matching (greedy prefix), ComputeAliases, Register, resolve and context scopes over byte strings. | `matchAlias_iff` against a relational specification of the last word; counting argument for uniqueness; stability under further registrations by induction. |
| C117, C118 | One service instance which answers calls one at a time (identity, catalog), the server's send loop, the I/O loop's relevant steps, snapshot buffers. | Invariant relating calls, messages on the way, the pending call, and answers; refutations by schedules for every call content. |
| C119, C120 | service/grpc/grpc.go: the key map's critical sections as atomic steps; the forwarding goroutine, the stream, the two contexts and the I/O loop's receiving as a transition system; Handle as a fold. | Reference count invariant; invariant which accounts for every packet received (given, held, buffered); unique decomposition of the buffer; bounded progress measure; refutations by schedules for every packet of invalid length. |
| C121, C122, C123 | cmd/gate-daemon: the shared context variable and the lazily received server; context trees with cancellation and the instances' I/O loops. | Interleaving semantics; invariants; stable-state refutation of liveness; invariant about why an instance is suspended. |
| C124 | Websocket.lean: steps of `websocketReadWriter.Read/Write/CloseRead` and handler, observations as a log | WebsocketProps.lean: phase, lock and log invariants by induction over runs |
| C125 | RequestId.lean: generator goroutine and channel | induction over runs; arithmetic over start times |
| C126 | Creds.lean: parsing of subordinate id files, allocation, mappings | CredsProps.lean: inductive characterization of grants, loop lemmas |
| C127 | Prepare.lean: making goroutine, channel, requests | permutation invariant over runs |
| C128 | CopyDebug.lean: loop over a model of `bufio.Writer` with a failing log | induction over the output |
| C129 | Container.lean: child's steps with failure oracle and parent's death; parent's steps | exec only after all mandatory steps; state at exec computed |
| C130, C131 | WebRoute.lean: origin configuration and check, the mux with its patterns, the handlers' switches, CORS headers | WebRouteProps.lean: relational specification of fields and of the naming scheme; equivalence over all paths |
| C132 | Descriptor functions of the library (AbiLibFd), on the model of AbiLib. | Case analysis over descriptors; bit lemmas for masks. |
| C133 | ExecLoop: the executor's main loop as a transition system with the kernel's choices as labels | invariants Flow (wakeups), Hist (requests), Procs (processes); quiescence; a budget which decreases |
| C134 | the same, with descriptor accounting (install, RLIMIT_NOFILE) | invariant Crowd; reachable states with n processes by induction |
| C135 | the same | after shutdown the log grows by reaping only; refutation run |
| C136 | the same | a cycle of steps from every such state; refuted |
| C137 | ExecStat: strrchr, sscanf and the arithmetic | for every command name and number |
| C138 | Requests: every API function of server.go as a program with deferred calls, panics and checks decided by an oracle | all executions are in an enumerated set (run_mem, by induction on programs); the kernel evaluates the test of each; soundness of the tests proved |
| C139 | as C138; resources are numbered, releases and transfers are logged | as C138; exact characterization of imbalance |
| C140 | as C138; events are logged | as C138 |
| C141 | as C138; panics which aren't errors | as C138 |
| C142 | as C138; lasting changes are logged | as C138 |
| C143 | loader.c, start.S and enter as a list of system calls which can each fail, on an address space (address → protection and backing) | the final space is computed symbolically and compared with a separate `layout`, then consequences |
| C144 | encoding of imageInfo, receive_info, vDSO lookup, Start's conversions | parts of a concatenation; case analysis; forward execution of the loader's steps |
| C145 | the state file's contents as written by the loader | invariant over steps, with or without failures; checkMutation of C83's model |
| C146 | include/gate.h: digit loops with their buffers as a recursion that fails on a write outside; signed overflow as failure; packed structures as member lists with computed offsets; 32-bit alignment macro | induction against `Nat.toDigits`/`toString`; bit-by-bit equality for the mask; field loads equal the host's packet accessors |
| C147 | cmd/gate/main/debug.go traceStack over word lists, with the index expressions of the two loops | induction over frames for stacks in portable representation; strong induction over arbitrary data; composed with C35's export/import theorems |
| C148 | cmd/gate/main/remote.go commands, makeURL, net/url escaping, composed with the WebRoute/WebActions server model (Client.lean) | case analysis of all commands against a table of meanings; encode/parse round trip by induction |
| C149 | `Token.lean`: base64 and the token functions of webapi.go, makeAuthorization of remote.go with net/url's parsing of addresses, mustParseBearerToken; JSON, Ed25519 and the identity file are parameters with round-trip hypotheses (`Sound`, met by `example_sound`) | equivalence of acceptance with the clock window and scope count through C37's decision theorem; audience computed for all addresses of two forms; refutation for host:port |
| C150 | `LocalCmd.lean`: the local command table with argument counting from the usage strings, the bus calls, and the daemon's method table down to server operations | case analysis of all commands and argument shapes against a separate table of meanings; refutation for the debugger's Download method |
| C151 | `Download.lean`: load.go's download as the list of states the files go through, with failures of every step as parameters | all states of the list by induction over the reads; refutation for the temporary file |
| C152 | request.go's header checks, byte by byte (`Accept`), and the handlers' use of them | decomposition of the header (`Names`), agreement with RFC 7231 for lower-case positive ranges, refutations |
| C153 | extension.go, grpc/config, grpc/executable and services.go (`SvcStart`) | `Words` relation for configuration strings, induction over commands, targets and extensions, `Holds` invariant of registration; pipe schedules as a transition system |
| C154 | gate-server's main2 as a computation with effects (startup, stages with their conditions), HTTP handlers around the API, and a transition system of the main and watcher goroutines | stage lemmas composed with a bind rule (serves_iff, serves_acts); iff characterizations of net.SplitHostPort and the mux' pattern collisions; invariants and a decreasing measure for stopping; refutations as concrete or general configurations and runs |
| C155 | repl.go: results of successive reads of pipes and websockets, the showing loop, writes, and a transition system of the command's end | inductions over messages and lines; refutation for all connections with two messages, deadlock state |
| C156 | program file as a sparse byte function; build calls as labels, vectored write from Files.lean, snapshots as copies (ProgFile) | invariant of the build relating each part of the file to what was put (ProgFileProps), induction over snapshots (ProgFileThms) |
| C157 | state-and-failure monad over open files and mappings, system calls succeed or fail by an arbitrary function; deferred functions as combinators (ImgRes) | ownership rules for the combinators; an invariant of the build's files and mappings (ImgResProps) |
| C158 | The handler of one websocket connection as a transition system in product with the monitor of C114 (other subscribers and callers arbitrary); write failures and the context are choices of the schedule. JSON encoding and the mux' path cleaning aren't modelled | invariant over all runs; refutation by a run |
| C159 | The instance with its configuration (the functions of C34/C70), the rebuilt program, saved addresses and the text of its process; the compiler is an arbitrary function from breakpoints to distinct positions | invariants over all event lists; refutations for every compiler whose texts differ |
| C160 | ContRes, ContResProps | functions with deferred calls over an oracle of failing system calls; symbolic execution of each function for all oracles |
| C161 | RtDaemon | the choice of the listener over a file system; the accept loop over all sequences of results |
| C162 | The dashboard's handlers table as a list of property assignments over JavaScript property names, frames as the server encodes them (event type table and JSON field names from event.pb.go), the page's connection states | invariant over event sequences; refutation by the absence of a type field in every event |
| C163 | strconv.ParseUint(…,10,31), the slice name, path.Join by components, the choice of factory; the directory's reference count with all interleavings of execute, Close and the sender | induction on strings; invariant on the reference count |
| C164 | The Go tables, the C header and the uses as data; the generator over arbitrary texts; the lookup functions | evaluation by the kernel over the complete tables; induction over the matched names for the generator |
| C165 | packettest.go, fmt.go and the assertions of packet.go over arbitrary byte strings, with panics as outcomes | equivalence with a byte-level specification; induction over flow entries |
| C166 | The bytes of library.go, a decoder of the WebAssembly binary format, and a semantics of the instructions on top of the runtime's functions | kernel evaluation of the decoder; symbolic execution of each function; induction over the iterations of its loops |
| C167 | The bytes of C166 executed with an arbitrary rt_stop which may return (a resumed process) | Loop equations by induction on the iteration bound; never returns if only 0 is returned; refutation for proc_raise |
| C168 | Start, StartProps: the instructions of both _start routines as text with labels, registers, flag, partial memory | execution equations per instruction; induction over the auxiliary vector |
| C169 | The web handlers as programs over a response writer (header map, what was sent, body), the server's operations and the environment arbitrary; a table of what each action stands for | case analysis over actions and results by symbolic execution; refutation by a concrete websocket call |
| C170 | Monitors as functions from reports to printed lines, strconv.Quote over runes and invalid bytes | induction over histories; a reader of quoted texts with a round-trip proof |
| C171 | All instances of an account, each with the life cycle of C45's model, a common storage, the account's map as the registered ones | invariants of one instance and of the map, over all histories; refutations by histories |
| C172 | Locks: every API call and the instance driver as a nondeterministic program of lock sections, touches of guarded data, finite work and blocking; goroutines interleave | Compositional `Safe` judgement over program shapes, then an invariant relating mutex owners to the goroutines' remaining actions; deadlock with a calling-back monitor by explicit execution |
| C173 | one instance; goroutines which wait for, hold or don't need the mutex; which fields each function accesses; log of process events | inductive invariant: at most one goroutine is responsible for the run, and its place in the run determines the history of the process |
| C174 | the same model, with events for using a nil image, process or services | the same invariant; executions which refute the rest |
| C175 | byte arrays with slices, and everything that writes to them: uploads, launches, packets in both directions, stream writes, and what an instance leaves when it stops; origin states parsed as in C107 | frame invariant: no step writes to an array which existed before it, unless an origin state has buffered data; the exception is executed |
| C176 | The startup checks with a resolver that may answer differently every time; static entries' checks and registration; net/http's mux (clean paths, longest match, slash redirects), the static handler and ServeFile's name check on bytes. | Invariant of path cleaning (`walk`) by induction on elements; case analysis of the handler; concrete configuration. |
| C177 | Logs with calls, instances, copying goroutines and pipes, for any number of instances, as a transition system. | Invariant over all executions (`Good`), accounting for unclosed logs and late writes by history predicates. |
| C178 | `parseBreakpoints` with strconv.ParseUint/Atoi, strings.SplitN, path.Join, sort.Sort and sort.Search on bytes and lists; debug information as lists of line entries, subprograms and instruction offsets. | Specification `Means` by three rules; `mem ↔` lemmas for sorting, binary search, path suffixes; digits by induction. |
| C179 | `ExecWire`: the 4-byte requests and 8-byte statuses as bytes (two's complement, little-endian), the receiver's buffer across reads, and the encoding of kill/suspend/close in one int16 | induction over the reads: a prefix of the stream decodes to the complete statuses and less than one; round trips of the integers by omega |
| C180 | `BusFiles`: the bus methods with descriptors as functions of world and failure oracle, with panics, deferred calls and ownership transfers | composition: what a launch does, then what a call does around it, from any world; case analysis of the oracle only within a function |
| C181 | Shutdown.lean: instances' phases, Shutdown's signalling and waiting, requests' critical sections as steps of a transition system | ShutdownProps.lean: an invariant by induction on executions (12 clauses); refutations by concrete executions |
| C182 | ClientPipes.lean: a pipe with a capacity, the copying goroutine, the daemon's reads and answer, the command's exit, as two transition systems | ClientPipesProps.lean: invariants by induction on executions; progress by cases; refutations for all modules and outputs |
| C183 | CallRun.lean: a call's thread and suspension goroutine, the instance's runs, and other clients' operations as a transition system | CallRunProps.lean: an invariant by induction on executions (14 clauses); refutations by concrete executions |
| C184 | `DaemonMain.lean`: mainResult as a sequence of steps which may fail, with deferred releases | all paths at once by compositional lemmas (Says/Lens); the releases by a stack discipline; refutations by concrete runs |
| C185 | `Outcome.lean`: statuses as the bus and JSON carry them, what's said of them, exit statuses, the websocket client's loop | all statuses by cases; text injectivity; the websocket client composed with the reachable states of C124's model (`Ws.Reach`) |

Not expressible in a model of this codebase: that the machine code which package
wag generates means what the WebAssembly program means (the compiler isn't in
this repository), that the Linux kernel enforces seccomp, cgroups, namespaces and
memory protections as documented, and the security of Ed25519 and SHA-384.  They
appear only as parameters or as the named system calls' documented effects.  The
runtime's assembly (Rt, Suspend, Process), the seccomp filter (Seccomp), the C
loader and executor (Loader…, ExecLoop…, Ring) and the embedded WebAssembly
library (Wasm, LibWasm) are modelled.

## What is modelled, file by file

Generated by `tools/covdoc.py` from the citations in the modules. A file being listed means that the listed modules model functions of it, with the lines cited beside
each definition and the simplifications named there; lines which are cited nowhere aren't modelled.

| File | Modules |
|---|---|
| `build/build.go` | BufAlias, DbgText, Entry, ImageFile, ImgRes, Resolver, Sections |
| `cmd/gate-daemon/main/daemoncmd.go` | BusFiles, CallRun, Daemon, DaemonMain, DaemonWeb, DebugLog, LocalCmd, Outcome, SvcStart |
| `cmd/gate-runtime/main/runtimecmd.go` | ContRes, RtDaemon |
| `cmd/gate-server/main/servercmd.go` | Access, Log, Startup, SvcStart |
| `cmd/gate/main/clientcmd.go` | Client, LocalCmd, LocalCmdProps |
| `cmd/gate/main/debug.go` | Breakpoints, LocalCmd, Trace |
| `cmd/gate/main/load.go` | Download |
| `cmd/gate/main/local.go` | CallRun, Client, ClientPipes, LocalCmd, Outcome, Repl |
| `cmd/gate/main/remote.go` | Client, Outcome, Repl, Token, TokenProps |
| `cmd/gate/main/repl.go` | Repl |
| `image/build.go` | CopyRange, Entry, ImageFile, ImageFileMore, ImageFileProps, ImgRes, LibWasmProps, Manifest, ProgFile, Upload |
| `image/copyfilerange.go` | CopyRange, ImageFile |
| `image/filesystem.go` | CopyRange, ImageFile, ImgRes, Lifecycle, Manifest, ProgFile, Restart, Storage |
| `image/instance.go` | CopyRange, DbgText, Debugger, Entry, ImageFile, ImageFileMore, ImgRes, Lifecycle, LoaderFail, LoaderProps, LoaderThms, Manifest, ProgFile, SectionsProps, Storage |
| `image/linkat.go` | Storage |
| `image/memory.go` | CopyRange, ImageFile, ImgRes, Lifecycle, Restart, Storage |
| `image/memory_memfd.go` | ImgRes |
| `image/mmap.go` | ImgRes |
| `image/objectmap.go` | ProgFile |
| `image/openat.go` | ImgRes |
| `image/prepare.go` | Prepare |
| `image/program.go` | DbgText, Debugger, Entry, LoaderProps, LoaderThms, ProgFile, Restart, RestartProps, Sections, Upload |
| `image/snapshot.go` | DbgText, ImageFile, ImgRes, Leb, ProgFile, Sections, SectionsProps, SnapLayout |
| `image/stack.go` | CallStack, ImageFile |
| `include/gate.h` | GateH |
| `internal/build/resolve.go` | Entry |
| `internal/cmd/abi-library/generate.go` | LibWasmProps, Wasm |
| `internal/cmd/event-types/generate.go` | Log |
| `internal/cmd/runtime-errors/generate.go` | ErrTab |
| `internal/container/cgroup.go` | UserGroup |
| `internal/container/child/capset.go` | Container |
| `internal/container/child/container.go` | Container, ErrTab |
| `internal/container/common/common.go` | Creds |
| `internal/container/common/sandbox_enabled.go` | Container |
| `internal/container/cred.go` | Creds |
| `internal/container/namespace.go` | Container, Creds |
| `internal/container/parent.go` | ContRes, Container, Creds, ErrTab |
| `internal/error/badmodule/badmodule.go` | Respond, RespondProps |
| `internal/error/badprogram/badprogram.go` | Respond |
| `internal/error/notfound/notfound.go` | Respond |
| `internal/error/public/publicerror.go` | Respond |
| `internal/error/resourcelimit/resourcelimit.go` | Respond |
| `internal/error/runtime/errors.go` | ErrTab |
| `internal/error/runtime/runtimeerror.go` | ErrTab, Respond |
| `internal/executable/addr.go` | Process |
| `internal/executable/runtime.go` | ImageFile |
| `internal/file/file.go` | CopyRange, Files, ImgRes |
| `internal/file/fileref.go` | Files, UserGroup |
| `internal/manifest/manifest.go` | Debugger, Entry, ImageFile, Manifest |
| `internal/manifest/manifest.proto` | Manifest, Sections |
| `internal/manifest/sort.go` | Debugger |
| `internal/principal/principalid.go` | Auth, ReqContext, Restart |
| `internal/principal/principalkey.go` | Auth |
| `internal/services/services.go` | SvcStart |
| `internal/sys/socketpair.go` | ContRes |
| `internal/varint/varint.go` | Varint |
| `packet/fmt.go` | PacketCheck |
| `packet/packet.go` | Packet, PacketCheck |
| `packet/packetio/read.go` | Origin, ReadStream, Websocket |
| `packet/packetio/state.go` | BufAlias, StreamState |
| `packet/packetio/stream.go` | StreamState, Websocket |
| `packet/packetio/write.go` | BufAlias, Origin, OriginState, OriginStateProps, WriteStream, WriteStreamProps |
| `packet/packettest.go` | PacketCheck |
| `runtime/abi/abi.go` | LibWasmProps, LoaderState, Resolver, Wasm |
| `runtime/abi/library.go` | LibBytes, LibWasm, LibWasmProps, Wasm |
| `runtime/config.go` | ContRes, ExecLoopRefute |
| `runtime/container.go` | ContRes, Creds |
| `runtime/debug.go` | CopyDebug, DebugLog |
| `runtime/executor.go` | ContRes, ExecLoop, ExecLoopDeath, ExecWire, Executor, UserGroup |
| `runtime/executor/executor.c` | ErrTab, ExecLoop, ExecStat, ExecWire, Executor, Ring |
| `runtime/group.go` | UserGroup |
| `runtime/include/errors.h` | ErrTab, ExecLoop, Rt, Start |
| `runtime/include/runtime.h` | ContResProps, Loader, Seccomp |
| `runtime/io.go` | BufAlias, CallSvc, Daemon, Framing, Grpc, IoLoop, Origin |
| `runtime/loader/aarch64/loader.h` | Loader |
| `runtime/loader/aarch64/runtime.S` | Loader, Process, Rt, Seccomp, Suspend |
| `runtime/loader/aarch64/start.S` | Start |
| `runtime/loader/loader.c` | ImageFile, ImageFileMore, ImageFileProps, Loader, Process, Resolver, Rt, Start, Suspend, Wasm |
| `runtime/loader/seccomp.S` | Seccomp |
| `runtime/loader/x86_64/loader.h` | Loader, LoaderThms |
| `runtime/loader/x86_64/runtime.S` | Loader, Process, Rt, Suspend, Tight |
| `runtime/loader/x86_64/start.S` | Start |
| `runtime/prefork.go` | Prepare |
| `runtime/process.go` | DbgText, DebugLog, ErrTab, Executor, InstRace, Loader, LoaderThms, Process, ProcessProps, UserGroup |
| `runtime/runtime.go` | Framing |
| `runtime/service.go` | Services |
| `runtime/shard.go` | Sharder |
| `runtime/system/usergroup.go` | UserGroup |
| `scope/program/system/system.go` | ScopeAliasProps, UserGroup |
| `scope/scope.go` | Auth, Daemon, ScopeAlias |
| `server/access.go` | Access, Respond, RespondProps, Upload |
| `server/account.go` | InstIds, Locks, Requests, Restart, Server |
| `server/api/api.go` | Upload |
| `server/api/server.pb.go` | Client, Outcome |
| `server/api/server.proto` | Lifecycle, Process |
| `server/context.go` | Daemon, ReqContext |
| `server/database/sql/sql.go` | Auth, Nonce |
| `server/detail/detail.proto` | ReqContext |
| `server/event/event.pb.go` | Dash, Log |
| `server/event/event.proto` | Respond |
| `server/event/type.gen.go` | Log |
| `server/instance.go` | BufAlias, BusFiles, CallRun, Daemon, DbgText, DebugLog, Debugger, InstRace, Lifecycle, Locks, OriginStop, Restart, Shutdown |
| `server/internal/error/failrequest/failrequest.go` | Respond, RespondProps |
| `server/internal/error/resourcenotfound/resourcenotfound.go` | Respond |
| `server/lock.go` | InstRace, Locks |
| `server/monitor/monitor.go` | Monitor, WebMon |
| `server/monitor/webmonitor/dashboard.html` | Dash |
| `server/monitor/webmonitor/dashboard.js` | Dash |
| `server/monitor/webmonitor/webmonitor.go` | Dash, Monitor, MonitorProps, WebMon |
| `server/monitorutil.go` | Log |
| `server/program.go` | ClientPipes, DbgText, Entry, ImgRes, LifecycleMore, Locks, Restart, Server, Upload |
| `server/ratelimit.go` | Respond |
| `server/search.go` | Debugger |
| `server/server.go` | Auth, BufAlias, CallRun, Daemon, DbgText, DebugLog, Debugger, Entry, InstIds, InstRace, Lifecycle, LifecycleMore, Locks, Log, Requests, Resolver, RespondProps, Restart, Server, Shutdown, Source, Startup, Upload, WebActions, WebResp |
| `server/serverconfig.go` | Restart |
| `server/source.go` | Requests, Source, SourceProps |
| `server/sshkeys/authorized_keys.go` | Access |
| `server/upload.go` | BusFiles, ClientPipes, Requests, Upload |
| `server/web/api/webapi.go` | Auth, Outcome, Token, WebActions, WebRoute |
| `server/web/content.go` | Accept, Upload, WebResp |
| `server/web/handler.go` | Accept, Auth, CallRun, Client, Daemon, Outcome, ReqContextProps, Requests, Startup, TokenProps, Upload, WebActions, WebResp, WebRespProps, WebRoute, Websocket |
| `server/web/handlerconfig.go` | WebRoute |
| `server/web/jwt.go` | Auth, Nonce, Token, WebResp |
| `server/web/report.go` | Respond |
| `server/web/request.go` | Accept, Respond, WebActions, WebResp, WebRoute |
| `server/web/requestid.go` | RequestId |
| `server/web/response.go` | Accept, Respond, WebRoute |
| `server/web/verify.go` | Auth, Nonce |
| `server/web/websocket.go` | Outcome, Respond, Websocket |
| `service/catalog/catalog.go` | CallSvc |
| `service/extension.go` | SvcStart |
| `service/grpc/config/config.go` | SvcStart |
| `service/grpc/executable/executable.go` | SvcStart |
| `service/grpc/grpc.go` | Grpc, SvcStart |
| `service/identity/identity.go` | CallSvc |
| `service/origin/connector.go` | OriginProto, OriginStateProps |
| `service/origin/instance.go` | BufAlias, Origin, OriginState |
| `service/origin/stream.go` | BufAliasProps |
| `service/registry.go` | BufAlias, CallSvc, Grpc, Locks, Origin, Services |
| `snapshot/buffers.go` | BufAlias, Sections |
| `snapshot/snapshot.go` | ImageFile |
| `snapshot/wasm/wasm.go` | EntryProps, Sections |
| `source/http/http.go` | Source |
| `source/ipfs/ipfs.go` | Source |

Not modelled:

* generated protobuf code; the message fields which matter are in the models of the code using them: `internal/manifest/manifest.pb.go`, `internal/webserverapi/webserverapi.pb.go`, `server/detail/detail.pb.go`, `server/monitor/monitor.pb.go`, `service/grpc/api/service.pb.go`, `service/grpc/api/service_grpc.pb.go`
* protobuf schemas: `internal/webserverapi/webserverapi.proto`, `server/monitor/monitor.proto`, `service/grpc/api/service.proto`
* only calls the package's Main or implements a flag, interface or package comment: no behaviour of its own: `cmd/gate-daemon/main.go`, `cmd/gate-runtime/main.go`, `cmd/gate-server/main.go`, `cmd/gate/main.go`, `doc.go`, `facile/doc.go`, `internal/bus/bus.go`, `internal/defaultlog/defaultlog.go`, `internal/error/subsystem/subsystem.go`, `internal/sys/doc.go`, `packet/packetio/chan.go`, `packet/packetservice.go`, `prebuild.go`, `principal/instanceid.go`, `principal/principal.go`, `runtime/container/config.go`, `runtime/loader/poll.S`, `runtime/logger.go`, `server/contenterror.go`, `server/logger.go`, `server/monitor/webmonitor/logger.go`, `server/op.go`, `service/grpc/executable/log.go`, `service/origin/chan.go`
* build variants (debug builds, other platforms, where a binary is found) which the models don't distinguish: `cmd/gate/main/text_disabled.go`, `cmd/gate/main/text_enabled.go`, `image/memory_ashmem.go`, `internal/container/binary_dummy.go`, `internal/container/binary_execdir.go`, `internal/container/child/binary_embed.go`, `internal/container/child/binary_execdir.go`, `internal/container/child/binary_linux_amd64.go`, `internal/container/child/binary_linux_arm64.go`, `internal/container/child/debug_disabled.go`, `internal/container/child/debug_enabled.go`, `internal/container/child/limit_fsize.go`, `internal/container/child/limit_fsize_arm64.go`, `internal/container/child/memfd.go`, `internal/container/common/sandbox_disabled.go`, `internal/debug/debug.go`, `internal/debug/nodebug.go`, `packet/nofmt.go`, `runtime/container/binary_execdir.go`, `runtime/include/debug.h`, `runtime/loader/debug.h`
* a system call and its error: modelled at the callers as one action which may fail: `image/fdatasync.go`, `image/ftruncate.go`, `internal/sys/caps.go`, `runtime/include/aarch64/syscall.h`, `runtime/include/align.h`, `runtime/include/attribute.h`, `runtime/include/x86_64/syscall.h`, `runtime/pipe.go`, `runtime/socketpair.go`
* test programs and test helpers: `internal/test/fuzz/fuzz.go`, `internal/test/fuzz/fuzzutil/fuzzutil.go`, `internal/test/grpc-service/test.go`, `internal/test/service-ext/test.go`, `runtime/loader/test/signal.c`, `runtime/loader/test/stack.c`, `runtime/loader/test/stack.py`
* another embedding of the runtime (Android), not used by the server: `facile/image.go`, `facile/runtime.go`
* not reached so far: `image/section.go`, `image/storage.go`, `internal/cmdconf/cmdconf.go`, `internal/protojson/protojson.go`, `server/database/database.go`, `server/event/fail.go`, `server/web/api/debug/webdebug.go`, `server/web/api/sshkey/sshjwk.go`, `trap/trapid.go`
* outside the repository, and parameters or arbitrary parties in the models: the wag compiler and its generated machine code, the Go runtime and standard library (except where a function is transcribed and said to be),
  the Linux kernel, systemd, protobuf encoding where not transcribed, Ed25519 and SHA-384 (as arbitrary functions, assumed injective only where a theorem says so), SQL databases beyond the statements used.

## Trusted base

* Lean 4.33.0 kernel; axioms allowed: `propext`, `Classical.choice`,
  `Quot.sound` (checked per theorem with `#print axioms`, see the last section).
* The transcription from Go/C to Lean, by reading; each definition cites its
  source lines.

## Axioms of each claimed theorem

Generated by tools/axioms.py from `#print axioms` of the 1180 theorems in MANIFEST.json. All of the axioms are Lean's own; names are relative to `Gate.`.

**Quot.sound** (1): Sections: hostile_count.

**no axioms** (30): Process: exit_100_is_success, finer_than_resolution; Sections: globals_disagree; Entry: resolutions_disagree, hidden_exports_disagree, late_snapshot_disagrees; OriginState: bad_buffer_refuted; ScopeAlias: empty_grants_nothing; Grpc: handled_twice_refuted; Container: address_space; ExecStat: second_refuted; GateH: sizes, header_fields, data_fields; Client: debug_break_refuted; SvcStart: execute_leak_refuted, close_hangs_refuted, closeResult_first; Dash: first_shown, handlers_undefined; ErrTab: header_go; Wasm: all_bytes; Start.Ends: det; BusFiles: closed_refuted, ex_callFile, ex_refused; CallRun: canceled, closed; DaemonMain: run, bus_unwatched.

**propext** (137): Packet: split_doc_false; ReadStream: start_no_panic, eof_not_always_sent, finish_loses_subscription; WriteStream: wrapped_reachable; IoLoop: kept_input_misaligned, suspend_mid_packet; Services: nearest_unique, stale_state_replayed; Executor: kill_after_other_call_ignored, kill_after_suspend_lost, status_misattributed, receiver_crashes, executor_dies, wrong_process_killed; Sections: readSnapshot_total; Dbg: apply_spec, apply_exact; Nonce: replay_race; Files: released_file_resurrected; Process: arm_clock_goes_back; ImageFile: snapshot_metadata, killed_runs_again, built_exceeds_limit, limit_wraps, limit_negative, store_load_fs_partial, built_unloadable; Seccomp: convention_ignored; Rt: write_error, write_nothing, read_error; AbiLib: fd_write_empty_refuted, poll_std_waits_refuted, proc_exit, good_descriptor, fixed_descriptors, wrong_direction, fd_is_4; Suspend: arm_suspend_known_partial; Origin: restored_write_aborts_refuted, closed_connects_refuted, read_blocks_stop_refuted; Respond: close_code; Access: owner_stable; ReqContext: op_unset; CallSvc: pending_kept, stop_progress_partial, stuck_refuted; Daemon: not_before, not_aborted, hangs_refuted, hangs_reachable_refuted, launch_reachable_refuted, done_request; Ws: read_progress, input_exact, cancel_exact; Creds: start_mappings, same_ids_refuted, needless_ids_refuted; Prepare: conserved, answered; CopyDebug: line_flushed; Container: exec_state, sandboxed, disabled_keeps_host, parent_configures, only_nofile_optional; Requests: snapshot_unauthorized_refuted, start_failure_refuted, store_failure_refuted, old_log_refuted, alt_image_refuted, resume_failure_refuted, crash_instance_refuted; Loader: failed_load_manifest, untouched_manifest; GateH: header_prefix; Client: remote_debug_refuted; Download: atomic, failure_keeps, unwritable; Accept: contentType_duplicate; SvcStart: close_returns_iff, read_prefix, shadowed_refuted, output_lost_refuted; Startup: drain_refuted; Repl: local_shown, remote_closed, end_refuted, show_last; ProgFile: map_lost_refuted, module_overwritten_refuted; ContRes: wait_nil_iff, wait_unexpected; RtDaemon: only_socket, all_handled, removed_refuted; Dash: reconnects, type_undefined, no_type_field, good_new, good_step; Wasm: checksum; WebResp: ws_silent, ws_location_refuted; Locks: curious_monitor_deadlocks; InstRace: first_run, concurrent, debug_crashes, apply_crashes, info_crashes; BufAlias: buffers_unchanged_refuted, exCrafted_spans; DebugLog: exStart, exSuspended; ExecWire: shuts_down, ex_statuses, ex_requests, ex_reads; BusFiles: garbage, call_kills; ClientPipes: output_refuted; CallRun: usual, kill_refuted, suspend_refuted, answer_refuted, unstored_refuted; DaemonMain: released, caps_first, ready_unheard; Outcome: bus_details, json_text, one_ambiguous, ws_refuted.

**propext, Quot.sound** (320): Packet: get_panics_iff, makeFlows_num; Varint: scan_put, len_put, scan_value; StreamState: marshal_unmarshal, stream_marshal_unmarshal; ReadStream: flow_control, suspend_state, eof_once_partial, eof_at_most_once, packet_size_partial; WriteStream: start_buffer; Services: reply_spec, discover_spec, discover_history; Process: signal_exit, status_cases, grow_failure_reported_as_success, addresses_valid, fixed_text, addresses_injective, arm_time_wrong, monotonic_clock; Executor: decided_once, first_kill_is_requested_partial, capacity_lost; Sharder: two_executors_panic, no_executors_panic, wrong_channel_removed; Leb: before_offset, wasmU_bytes; Sections: memory_section, data_section; Dbg: sortDedup_spec, search_spec, search_found, union_spec, complement_spec, debug_config, too_many_refused, breakpoints_always_valid, debug_no_crash_partial, debug_crashes_on_change, debug_crashes; CallStack: import_crashes, export_crashes, initial_stack_never_imported; Nonce: nonce_once_partial; Auth: matchAlias_spec, register_nodup; Server: failed_start_breaks_module, isolation, registry_keeps; Life: transitions, final_forever, resume_iff, refused_while_running, transient_disappears, disappears_only, gone_forever, listed_nonexistent, wait_blocks, released, crash_iff, no_crash_partial, info_crash, debug_crash, exit_status, killed_status, failure_status, status_recorded_partial, status_misrecorded, stored_not_final, stored_terminated, stored_partial, running_not_stored, refused_resume_partial, resume_failure_loses, resume_function_ignored, resumed_enters_nothing, snapshot_running_partial, snapshot_transient_destroys, waited_running, transience, persistent_remains, stored_with_program_partial; Files: vector_write_terminates; Entry: resolved_has_address; IoLoop: unexpected_is_error, backpressure; SnapLayout: manOf_places; ImageFile: upload_metadata, read_stack_safe, read_globals_safe, loaded_unchanged, new_instance_vars, snapshot_unstarted; Storage: crash_consistent_partial, store_content, crash_manifest_partial, running_invisible_partial, store_failure_refuted, unstore_failure_refuted, durable, stored_survives, goodRun_reach, store_again_mem, store_first_fs, never_stored_again; Manifest: marshal_elsewhere, dec_enc, instance_manifest_fits; Rt: debug_error, poll_result, poll_output_closed; AbiLib: bad_descriptor, set_rights; Suspend: x86_suspend_known_partial, suspended_or_exhausted, arm_suspend_lost_refuted, x86_stray_refuted; CopyRange: newInstance_range, hangs_refuted, short_copy_refuted, mapped_copy_partial, mapped_short_refuted; OriginState: suspend_restore; Origin: restored_close_aborts_refuted, max_conns_refuted; Upload: gzip_padded_refuted; Source: http_chunked_refuted, ipfs_limit, ipfs_exact, ipfs_negative_refuted; Monitor: not_killed, call_returns, stopped_releases, current_nil, counted_crashes_refuted, no_counted, blocked_refuted, stuck_refuted, stuck_reachable_refuted, prompt_killed_refuted; ScopeAlias: matchAlias_iff, names_sorted; CallSvc: answered_twice_refuted, call_lost_refuted, identity_answer, identity_lawful, stuck_reachable_refuted; Grpc: framed_unique, finishes, short_crashes_refuted, length_crashes_refuted, canceled_refuted, handled_once_partial; Daemon: contains_context, own_scope_partial, other_scope_refuted, contexts_kept_refuted, served_partial, bus_goes_on, call_goes_on, launch_goes_on_partial, launch_suspended_refuted; Ws: one_writer, no_race, protocol, one_hint, read_after_hint, broken_is_final, output_exact, write_count, no_deadlock; ReqId: got_eq, distinct, increasing, distinct_restart_partial, restart_repeats_refuted, exact_ids; Creds: parseInt_iff, space_chars; Prepare: nothing_leaks, instances_total, programs_partial, programs_panic_refuted, stale_errors_refuted; CopyDebug: log_exact, log_prefix, log_complete; Container: starts, orphan_partial, orphan_child_partial, parent_order; ExecLoop: close_kills_refuted; ExecStat: ticks_exact; Requests: policy_first_partial, refused_no_effect_partial, success_reports, failure_reports, pin_reports, event_kind_refuted, crash_partial, anonymous_final_refuted, success_effects, success_passes, failure_effects, failure_instance_partial, update_effect; Loader: startInfo_exact; GateH: debug_str, align_wraps; Client: parseQuery_encode, unescape_escape, arrives; Token: decode64_encode64; Download: success, leftover_refuted, replaced_refuted; SvcStart: fields_iff, close_all, execute_balanced, logged_lines, last_line_refuted; Repl: remote_shown, sent_lines; ImgRes: build_released, build_closed_once, newBuild_ok, closeBuild_ok, newInstance_owns, snapshot_owns, load_owns, storeMem_owns, newFilesystem_owns, closed_twice_refuted, build_all; WebMon: checkOrigin_iff, checkOrigin_empty, run_example, slow_example; DbgText: told_in_use, continues_iff, snapshot_iff, unchanged_continues, verify_iff, set_suspended_refuted; ContRes: wait_code_iff, negative_refuted, leak_refuted, tcp_refuted; RtDaemon: numbers_grow; Dash: event_refuted, instances_iff, negative_refuted, restart_iff; UserGroup: slice_closed, parseUint_iff; ErrTab: describe_number, describe_unknown, describe_panic, numbered_iff; PacketCheck: call_iff, info_iff, data_iff, importCall_iff, importData_iff, mustBe_iff, string_panic_iff, twice_refuted; WebResp: ws_connect; Log: internal, multi, unquote_quote; InstIds: launch_iff, early_refuted, early_later, stale_refuted; Locks: touched_by_holder, no_race, unlocked_by_holder, holder_proceeds, mutex_is_freed, deadlock_free; InstRace: never_wakes; BufAlias: shared, split_rest, initPacket_says; Breakpoints: number_value, number_read, expr_loc, expr_other, expr_empty, digit_iff; ExecWire: not_closing; BusFiles: closed_once; Shutdown: usual, canceled_error, shutdown_refuted, resumed_refuted, aborted_refuted, started_refuted, anonymous_refuted; ClientPipes: pull_succeeds, import_stuck, lost_exactly; DaemonMain: status, ready_iff, given_iff, server_iff, second, lost_running; Outcome: ws_eq, ws_without_input, ws_input, local_zero_refuted, post_zero_refuted, details_differ.

**propext, Classical.choice, Quot.sound** (692): Packet: make_fields, setCode_fields, setIndex_fields, setSize_fields, makeData_fields, setDataNote_fields, split_partial, dataSplit_prefix, align_spec, split_short_remainder_not_empty, flow_set_get, makeFlow_exact; Varint: scan_total; StreamState: unmarshal_total; WriteStream: fifo, write_accepted_iff, credit_bound, within_credit_accepted, credit_replenished, suspend_partial, suspend_wrapped, restored_transfer_fails, closed_stream_not_restorable, suspend_marshal_partial, wrapped_suspend_panics, overdrawn_suspend_panics; Framing: framing, framing_total, split_total, split_exact, check_spec, handle_spec, handled_is_deliverable, event_padding, init_message; Services: discovery_request, parseNames_iff, handle_total_partial, fresh_never_panics_partial, restored_many_panics, lookup_spec, lookup_valid, clone_isolated, register_spec, restore_spec, state_restored_partial, stale_state_always, catalog_spec, restorable_partial, not_restorable; IoLoop: order, order_refused, stop_saves, resume_messages, kept_input_aligned_partial, suspend_framing_partial, eof_partial, initially_pending; Process: normal_exit, trap_exit, other_exit, report_sound, program_end_reported, result_is_status, time_accurate, time_resolution_partial, granularity; Executor: identifiers_conserved, quiet_identifiers_safe_partial, capacity_accounted_partial; Ring: statuses_fifo, poll_room, send_possible, send_resumes; Sharder: outcome_sound_partial, ready_taken_partial, distribution_panics, all_empty; Leb: i64_const, i32_const, put_undisturbed, wasmS_range; Sections: buffers_roundtrip, no_buffers, load_stored_buffers_fails, globals_section, stack_section, export_wrap, global_roundtrip, snapshot_roundtrip, read_total_partial; CallStack: export_native, export_sound, import_portable, import_sound, export_import, export_import_data, import_export, import_no_crash_partial; Auth: expiration_window, expiration_reason, token_accepted, scope_accepted, scope_granted, alias_unique, own_name, own_name_counterexample, shared_account_iff, separate_accounts_partial, shared_account_example, local_account_example, local_account_iff, token_crash, token_crash_example, token_crash_local_example; Nonce: once_while_valid, replay_without_expiry; Server: references, references_partial, closed_while_referenced, only_known, never_released; Files: closed_at_most_once, closed_after_last_reference, open_iff_referenced, held_reference_never_panics, first_reference_of_released_panics_partial, panics_exact, vector_write_complete, vector_write_prefix, vector_write_error, write_at_exact; Web: instance_action_sound, instance_action_refused, instance_action_complete, repeated_kill, one_effect_partial, one_effect_source_partial, suspended_call_performed, put_actions, post_known_actions, actions_known_partial, suspend_ignored, anonymous_call, known_module_authorized, no_excess_parameters, function_names, missing_param; Entry: program_resolution, resolutions_agree_partial, resolutions_disagree_iff, built_and_stored_agree_partial, built_and_stored_agree_unnamed, accepted_iff; ReadStream: restored_packet_too_large; SnapLayout: snapshot_layout_partial, no_table_panics, no_exports_panic, second_generation_panics, custom_between_corrupts, uploaded_frame_corrupts; ImageFile: accepted_wf, rejected_iff, new_instance_state, new_instance_wf, build_program_state, build_both_state, built_like_new, new_instance_limit, built_limit_partial, store_load_mem, snapshot_restores_partial, snapshot_data, snapshot_stack, snapshot_wf; Life: trap_status, waited_status_partial, stored_without_program; Storage: holds_loads; Manifest: header_round_trip, oversize_unloadable, wrong_tag, unmarshal_safe, instance_proto_round_trip, instance_manifest_round_trip; Seccomp: x86_exact, arm_allows, arm_exact_refuted, i386_refuted, text_protected, grow_passes; Rt: call_confined, call_independent, memory_accessible, out_of_bounds, prologue_exact, reach_inv, grow_refused, grow_works, memory_limit, grow_failed_arm, grow_failed_x86_refuted, debug_x86, debug_arm_partial, debug_arm_refuted, debug_arm_trap_refuted, random_once, random_run; AbiLib: lib_confined, fd_write_gate, fd_write_all, fd_write_std, fd_read_gate, fd_read_all, io_gate, io_send_all, poll_oneoff, poll_std_blocks_refuted, poll_duplicate_refuted, poll_preview1_refuted, environ, random_get, fd_filestat_size_refuted, fdstat_get, fd_filestat_exact; Resolver: wasi_resolves_partial, wasi_unsupported, gate_resolves, gate_unsupported, module_unsupported, panic_iff, type_sound, build_imports, sizeOk_iff, vector_matches, fd_allocate_panics_refuted, gate_panics_refuted, nop_mismatch_refuted, slots_exact, slots_range; CopyRange: copied_prefix, copied_exactly, copied_exactly_kernel, terminates, newInstance_copied; Restart: key_roundtrip, key_unique, key_injective, key_file_name, validID_nodot, uuid_alias_refuted, starts_iff, own_storage_starts, started_state, failure_closes, one_bad_file_refuted, stored_buffers_refuted, missing_panics_refuted; OriginState: restore_total, restored_not_writable_refuted, goodBuf_iff; Origin: accepted_le_calls, one_at_a_time, no_lost_wakeup, own_stream, obedient_not_aborted, close_releases, down_ended, stop_bounded, stop_completes, stop_stuck_refuted, read_blocks_stop; Respond: no_leak, internal_text, denied_text, status_exact, status_500_iff, event_exact, challenge_iff, retry_after, retry_too_early_refuted, client_faults_500_refuted, close_iff, close_missing_refuted, constants_delivered, http_exact, events_exact; Upload: accepted, rejected, wrong_hash, programs_sound, download_exact_partial, roundtrip_partial, again_partial, never_removed_refuted, poisoned_refuted, download_padded_refuted, too_short, gzip_refuted, upper_case_refuted, bad_hash_500_refuted; Source: http_contract_partial, http_limit, http_part_whole, http_exact, http_upload, http_unavailable_refuted, ipfs_negative_refused, ipfs_poison_refuted, range_header, status_outcome; Access: authorize_iff, authorize_sound, parse_ok_iff, decisions, limits_nonzero, limits_exact, trailing_comment_refuted, options_ignored_refuted, zero_limit_refuted, default_limits; Monitor: events_fifo, given_prefix, given_all, subscribed_open, blocked_reachable_refuted, double_close_refuted; ReqContext: report_principal, derive_report, op_report, iface_report, addr_report, detached_report, op_context, derive_keeps_partial, detach_erases_refuted, access_changes_refuted; ScopeAlias: compute_iff, names_registered, resolve_cases, resolve_alias, resolve_ambiguous, resolve_idem, name_itself, punctuation_refuted, resolve_stable, grants_iff, alias_chars, word_chars, class_chars, boundary_chars; CallSvc: once_each_partial, once_each_flags_partial, catalog_lawful; Grpc: same_process_same_key, other_process_other_key, remembered_iff_partial, leaked_refuted, no_crash_partial, given_in_order, nothing_lost_partial; Creds: alloc_spec, alloc_complete, isolated_uid_partial, not_root_partial, root_refuted; Prepare: given_once, bounded, stops; Container: orphan_refuted; WebRoute: forbidden_iff, origins_spec, local_checks, foreign_refused_partial, no_origin_served, cors_origin, second_origin_refuted, cache_refuted, route_iff, supported_iff, no_effect, cors_methods_partial, instance_list_cors_refuted, allow_sound, allow_refuted, features_answer, cors_headers, listing; ExecLoop: in_order, signals_right, statuses_once, terminated, quiescent, settles, gets_there, deaths, deaths_proper, survives, full_house, executor_dies_refuted, death_when_closed, no_signals, waits_for_exit, spins_refuted, dies_refuted; ExecStat: time_left, grows; Requests: resources_partial, resources_exact; Loader: program_space, write_xor_execute, writable_is_state, memory_confined, runtime_view, decode_encode, receive_sent, receive_strict, isClockGettime_iff, findClock_spec, start_to_program, entered_state, library_calls, load_keeps; GateH: debug_uint, debug_hex, debug_ptr, debug_int, debug_int_min, debug_int_undefined, debug_int_wrap, align_same; Trace: trace_stack, trace_sound, trace_exported, trace_imported; Client: performs_partial, launch_source_refuted, show_unpins_refuted, bad_argument_refuted; Token: client_accepted, local_accepted, wrong_audience, audience_url, audience_host, parseBearer_ok, host_port_audience, host_port_foreign, host_port_refuted, digit_port_refuted, example_sound, local_only; LocalCmd: performs_partial, no_panic, accepts_range, debug_performs, dispatch_known, debug_download_refuted; Accept: acceptsText_iff, acceptsApplication_iff, trailer_iff, rfc_partial, weight_refuted, case_refuted, quoted_refuted, contentType_iff, decode_iff, coding_refuted, takes_partial, refused_iff, served, unasked_refuted; SvcStart: init_ok_iff, init_conns, failed_closes, panicked_closes, config_iff, programConfig_other, available, blank_refuted, path_refuted, reserved_refuted, targets_events; Startup: splitHost_iff, joinRoot_clean, joinRoot_name, mem_sources, serves_iff, serves_acts, serves_built, fails_quietly, no_panic_partial, joinRoot_refuted, panic_refuted, executors_refuted, port_refuted, monitor_refuted, monitorOrigins_iff, main_api_iff, plain_api, index, index_refuted, alive, closed, ends, progress, monitorOrigins_configured; Repl: remote_refuted; ProgFile: survives, state_survives, finish_no_panic, putMap_prefix, putMap_all, snapshot_state; ImgRes: loadMem_owns; WebMon: route_iff, frames_shape, all_sent, closed_why, ended_unsubscribed, leaving_ends, waits, close_noticed_refuted; DbgText: race_refuted, restart_refuted; ContRes: err_clean, ok_owns, panic_why, caller_kept, handle_clean, ids_int16, terminated_refuted; RtDaemon: listens_iff, bound_owner, panic_iff, takeover_refuted; UserGroup: other_iff, users_iff, own_slice, distinct, parseError_iff, inside, outside_refuted, slice_is; ErrTab: use_numbered, uses_described, todo_unused, committed_unique, stable, numbers, idempotent, new_described; PacketCheck: flow_iff, isStream_iff, make_header; Wasm: library_meaning, exports_agree, imports_known, reserved_slot, decoded, stopped_again_partial, stops_first, raise_refuted, close_resumed, renumber_resumed, rights_resumed, clock_resumed, exit_resumed, raise_resumed, poll_resumed, random_resumed; Start: start_exact, refused, main_called, no_vdso, agrees; WebResp: answered, told_, did, gave, location, killed, closed, status_untold, ws_call, ws_location_partial; Log: types, types_all, logs, logs_default, logs_web, one_line, error_kept; InstIds: one_at_a_time, no_crosstalk, later_safe, lost_forever, kept, freed, freeable; InstRace: no_race, process_used_by_one, process_life, process_closed, stopped_once, drives_its_process, rival_resumes, wakes, crash_needs; BufAlias: buffers_unchanged_partial, buffers_conserved, launched, spans_data, suspend_unbuffered, flows; DaemonWeb: started_local_partial, listening_refuted, confined, foreign, allowed, served, api_reached, redirects, clean_clean, clean_no_up, ex_started, ex_requests, ex_registered, ex_foreign_origin, ex_root; DebugLog: closed_once, closed_partial, suspended_never, exclusive, written_open_partial, complete, closed_final, can_finish, written_open_refuted; Breakpoints: means, fails_iff, fits_iff, ex_order, ex_inOrder, ex_break, ex_fatal, inside_refuted, number_means, number_understood, notation_unique, line_means, names_refuted, names_fixed; ExecWire: delivered, delivered_all, room, requested; Shutdown: idle_shutdown, stopped_and_stored, all_signalled, all_stopped, all_stored, nothing_new, order, error_only, aborted_only, anonymous_transient, resumed_new; ClientPipes: success, prefix_, accepted_whole, copied_ok, progress, pull_progress, import_never, shown_prefix, direct_all, lost_bounded, output_fixed; CallRun: own_ended, killed_once, suspended_asked, own_only, alone, pinned_stored, kept_stored; DaemonMain: stopping_iff; Outcome: local_zero, local_silent, text_tells, post_eq, post_zero, agree.
