#!/usr/bin/env python3
"""Single source for properties.jsonl (the list of claims)."""
import json
P = []
def p(id, title, statement, quantifier, why, *anchors):
    P.append(dict(id=id, title=title, statement=statement, quantifier=quantifier,
                  why_tests_cant=why, anchors=list(anchors)))

p("C01", "Packet header fields round-trip",
  "A packet built for a service code, domain and content size has exactly the header plus content length, and reading code, domain, index and encoded size back from the built (and size-stamped) buffer returns the values that were put in; setting one header field never changes another field or the content.",
  "every 16-bit code, every 4-bit domain, every index byte, every packet length up to 2^32-1, every content",
  "The value space of headers and buffer lengths is unbounded; unit tests pick a few.",
  "packet/packet.go: Make, SetSize, EncodedSize, SetCode, Code, Domain, SetIndex, Index, Content")
p("C02", "Splitting a packet buffer yields a prefix and an independent remainder",
  "Splitting a packet buffer at a prefix length gives a first part of exactly that length with unchanged bytes, and a second part that starts at the next 8-byte boundary; the second part either is empty or carries a copy of the header. (The documentation promises: if the buffer is too short for the second part, the length of the second buffer will be zero.)",
  "every buffer, header size and prefix length",
  "The claim is about all buffer lengths and split points, including the boundary where the remainder is shorter than a header.",
  "packet/packet.go: Align, Buf.Split, DataBuf.Split")
p("C03", "Flow packet entries are independent",
  "A flow packet made for n entries reports n entries; storing (id, increment) at entry i is read back exactly at i, and leaves the header and every other entry as they were, for every 32-bit signed value.",
  "every n, every entry index, every pair of 32-bit signed values, every previous content",
  "Aliasing between entries and sign conversion must be excluded for all indices and values.",
  "packet/packet.go: MakeFlows, FlowBuf.Num, FlowBuf.Get, FlowBuf.Set")
p("C04", "Varint encoding is exact and self-delimiting",
  "Scanning the varint encoding of any non-negative 31-bit integer, followed by arbitrary further bytes, yields that integer and exactly those further bytes; the announced encoded length is the number of bytes written and is at most five; scanning any byte string never fails abnormally, and any value it returns is a non-negative 31-bit integer and any bytes it returns are a proper suffix of the input.",
  "every 31-bit value, every trailing byte string; every input byte string",
  "All 2^31 values times all suffixes, and all hostile inputs, cannot be enumerated by tests.",
  "internal/varint/varint.go: Scan, Len, Put")
p("C05", "Stream state survives suspension byte-exactly",
  "Marshaling a stream state (flags, subscription, buffered data) into a buffer of the announced size fills exactly that size, and unmarshaling those bytes followed by arbitrary other bytes returns the same flags, subscription and data, and leaves exactly the other bytes; this composes for a bidirectional stream's two states.",
  "every representable state that is not contradictory, every data content within the limit, every trailing bytes",
  "Data contents and trailing snapshot bytes are unbounded.",
  "packet/packetio/state.go: State.Marshal, State.MarshaledSize, State.Unmarshal",
  "packet/packetio/stream.go: Stream.Marshal, Stream.Unmarshal, Stream.MarshaledSize")
p("C06", "Hostile stream state is rejected or valid",
  "Unmarshaling a stream state from arbitrary bytes either returns an error or a state whose buffered data does not exceed the limit, whose flags and subscription are non-negative 31-bit values, and which is not contradictory (a stream that has finished sending has no buffered data and is not reading); the unconsumed tail is always a suffix of the input.",
  "every byte string and every size limit",
  "Snapshots are attacker-controlled; the claim is about all inputs.",
  "packet/packetio/state.go: State.Unmarshal")
p("C07", "Inbound stream flow control",
  "Whatever the interleaving of subscription increments, wakeups, cancellation and packet hand-offs, and whatever the reader returns, the total number of data bytes sent to the program plus the bytes held for it never exceeds the total the program subscribed to; the bytes sent are a prefix of the bytes read, in order; each packet carries at most the maximum send size.",
  "every schedule of the two sides, every reader behaviour (short reads, empty reads, errors, data together with EOF), every restored state",
  "Requires reasoning over all interleavings and all reader behaviours.",
  "packet/packetio/read.go: ReadStream.Transfer, Subscribe, FinishSubscription, StopTransfer")
p("C08", "Inbound stream end-of-file is signalled exactly once",
  "When the reader reaches its end or the stream is cancelled, and the program keeps accepting packets, the program receives exactly one end-of-file packet, after all data, before the transfer finishes.",
  "every schedule and reader behaviour",
  "Depends on which of several events coincide; tests exercise a few schedules.",
  "packet/packetio/read.go: ReadStream.Transfer")
p("C09", "Outbound stream buffer is a FIFO queue",
  "Whatever the interleaving of writes by the program and writes to the connection, the bytes delivered to the connection followed by the bytes still buffered are exactly the concatenation of the accepted writes: nothing is lost, duplicated, reordered or invented, a write that would overflow the buffer is rejected as a whole without effect, for every power-of-two buffer size and beyond 2^32 total bytes.",
  "every power-of-two buffer size, every interleaving of writes and partial connection writes, any total volume",
  "Circular buffer offsets wrap at the buffer size and at 2^32; tests cover short runs.",
  "packet/packetio/write.go: MakeWriteStream, WriteStream.Write, WriteStream.Transfer")
p("C10", "Outbound stream flow advertisement is safe",
  "The flow credit advertised to the program never exceeds what has been delivered plus the buffer capacity less one, so a program which never writes more than its credit never gets a buffer overflow error; and credit is only replenished by bytes actually delivered.",
  "every interleaving of flow packets, program writes and connection writes",
  "Credit accounting must hold at each point of each schedule.",
  "packet/packetio/write.go: WriteStream.Write, WriteStream.Transfer")
p("C11", "Suspending an outbound stream keeps exactly the undelivered bytes",
  "When an outbound stream's transfer is stopped, the data kept in its state for the snapshot is exactly the bytes that were accepted from the program but not delivered, in order.",
  "every reachable position of the circular buffer at the stop point",
  "The stop can occur with any pair of buffer offsets, including wrapped ones.",
  "packet/packetio/write.go: WriteStream.Transfer (lines 253-270)")
p("C12", "A restored outbound stream continues",
  "An outbound stream whose state was suspended, marshaled and unmarshaled again continues to deliver the kept bytes and to grant credit after restoration.",
  "every reachable suspended state",
  "Needs every suspended state, not one sample.",
  "packet/packetio/write.go: WriteStream.Transfer, bufferSize", "packet/packetio/state.go: State.Unmarshal")
p("C13", "Program output is framed into packets independently of chunking",
  "For every sequence of packets a program writes (each padded to 8 bytes), the runtime sees exactly those packets in that order however the pipe splits the bytes and whatever the padding bytes are; a packet whose declared size is below the header size or above the maximum is reported as a program error and nothing after it is interpreted.",
  "every packet sequence, every chunking, every cut into already buffered and still unread bytes",
  "Chunk boundaries are chosen by the kernel scheduler.",
  "runtime/io.go: subjectReadLoop")
p("C14", "Buffered program output in a snapshot is decoded safely",
  "Splitting a snapshot's buffered output yields, for every byte string, either an error or messages and a tail whose concatenation is the input, where every message has a valid size, a non-negative code below the number of services, a known domain and, for data packets, a full data header; concatenated valid messages plus a partial packet split back into exactly those messages and that partial packet.",
  "every byte string and number of services",
  "Snapshots are attacker-controlled input.",
  "runtime/io.go: splitBufferedPackets, checkServicePacket")
p("C15", "Program packets are validated before reaching services",
  "A packet received from the program is handed to services only if its code is a discovered service's index, its domain is call, info, flow or data, and a data packet has a full data header; service discovery packets are never handed to services; everything else ends the program with an ABI violation.",
  "every packet byte string and every number of discovered services",
  "All packet contents are possible.",
  "runtime/io.go: handlePacket, checkServicePacket", "runtime/service.go: handleServicesPacket")
p("C16", "Service discovery request parsing",
  "A discovery packet listing names of length 1 to 127 registers exactly those names in order; a truncated or out-of-range name is an error; at most 256 services exist in total, the excess names are ignored; the reply announces the count of all services and one state byte each.",
  "every packet content, every name list, every current number of services",
  "All packet contents and service counts are possible.",
  "runtime/service.go: handleServicesPacket, makeServicesPacket")
p("C17", "Service discovery never crashes the host",
  "Handling a discovery packet returns a reply or a program error for every packet and every number of already discovered services, including service lists restored from a snapshot.",
  "every packet and every number of restored services",
  "Restored service lists are unbounded and attacker-controlled.",
  "runtime/service.go: handleServicesPacket", "snapshot/wasm/wasm.go: ReadBufferSectionHeader")
p("C18", "I/O loop preserves message order and loses nothing",
  "In every run of the I/O loop, the messages delivered to services, followed by those still queued, are exactly the restored and received service packets in order, and the events written to the program, followed by those still queued, are exactly the restored input, the initial service state and the services' messages and discovery replies in order; when the program stops with buffers being kept, all queued messages and undelivered events end up in the snapshot buffers, once each and in order.",
  "every interleaving of select branches and every suspension point",
  "The select statement picks branches nondeterministically; suspension can hit any point.",
  "runtime/io.go: ioLoop")
p("C19", "Input kept over suspension stays decodable by the program",
  "The input kept in a snapshot, when written to the resumed program, consists of packets each starting at an 8-byte boundary, as the program's ABI requires.",
  "every sequence of undelivered events and every set of bytes left in the pipe",
  "Depends on which events were pending at the suspension point.",
  "runtime/io.go: ioLoop (lines 183-197), subjectWriteLoop")
p("C20", "Events are padded to packet alignment",
  "Each event written to the program is followed by zero padding to the next multiple of eight bytes, at most seven bytes, and none when already aligned; outgoing packets have their size field equal to their length.",
  "every event length",
  "Bit-trick formula must hold for every length.",
  "runtime/io.go: subjectWriteLoop, initMessagePacket")
p("C21", "Service registry lookup finds the right implementation",
  "Registering factories and looking up names behaves as a map with parent fallback: a lookup returns the factory registered last under that name in the nearest registry of the clone chain; cloning and registering in a clone never changes lookups in the original; names with invalid characters or lengths are refused.",
  "every sequence of registrations and clones",
  "All histories of registrations.",
  "service/registry.go: register, checkString, Clone, lookup, catalog")
p("C22", "Service discovery is stable, unique and positional",
  "Successive discoveries assign consecutive indices; indices and names already assigned never change; an available service discovered twice is an error (an unknown name may be repeated); the returned availability list has one entry per discovered name in order, and an index is usable exactly if the registry has the service.",
  "every sequence of discovery calls and every registry content",
  "All histories of discovery calls.",
  "service/registry.go: Discover, NumServices, StartServing")
p("C23", "Pending service calls are not replayed by suspend/resume",
  "A service's suspended state is delivered to the service at most once: if a service reports no state when suspended, its next restoration starts without old state.",
  "every number of suspend/resume cycles and every service behaviour",
  "Needs multi-cycle histories.",
  "service/registry.go: StartServing (lines 222-236), Suspend")
p("C24", "Process exit status maps to the documented trap",
  "The trap and result reported for a finished process are determined by its wait status and whether kill was requested: exit codes 0-3 are a normal exit with that result, 100-127 the corresponding trap, a kill request turns exit, suspension, breakpoint and ABI deficiency into killed but never masks a program fault, SIGKILL without a kill request is an internal error, and any other status is an error.",
  "every 32-bit wait status and both kill-request values",
  "All wait statuses.",
  "runtime/process.go: Process.Serve, Result")
p("C25", "Kill and suspend requests are decided once",
  "Among any concurrent kill, suspend and finalize calls on a process exactly one takes effect; a kill is reported as killed exactly when the kill call won; a process identifier is handed back at most once.",
  "every interleaving of any number of concurrent callers",
  "Races between concurrent callers.",
  "runtime/executor.go: killSuspend, finalize, killRequested")
p("C26", "A kill request kills",
  "After Kill has been called on a live process, a kill request for it reaches the executor.",
  "every history of calls on the process",
  "Depends on the order of concurrent Suspend and Kill calls.",
  "runtime/executor.go: killSuspend", "runtime/process.go: Kill, Suspend")
p("C27", "Process identifiers are not shared by live processes",
  "At every moment the identifiers of processes that the executor still tracks are distinct, and an exit status is attributed to the process that exited.",
  "every history of process creations, kills, suspensions and exits",
  "Needs histories where identifiers are recycled while the old process is still dying.",
  "runtime/executor.go: execute, killSuspend, finalize, sender, receiver", "runtime/executor/executor.c: receive_ops, wait_process")
p("C28", "Executor exit statuses are queued without loss",
  "The executor's status queue behaves as a FIFO: every reaped process's status is sent exactly once and in order, however partially the socket accepts them, and the ring buffer never overflows, because the number of events handled per round is limited by the free slots.",
  "every schedule of process exits, socket readiness and partial sends",
  "Overflow needs specific schedules with ring wraparound.",
  "runtime/executor/executor.c: send_queue_length, send_queue_avail, send_queued, wait_process, executor")
p("C29", "Process distribution never fails while an executor can serve",
  "Taking a process from a set of process channels returns a process, an error of the chosen channel or the context's error, for every number of channels and every random choice; it tries each other channel at most once before blocking on the first choice.",
  "every number of channels, every random choice sequence and every channel readiness",
  "Random choices and channel readiness.",
  "runtime/shard.go: chanSharder.NewProcess")
p("C30", "Randomized addresses are valid and disjoint",
  "Randomized text, heap and stack addresses are page aligned, within their declared ranges, and the regions cannot overlap as long as text is within 8 GiB and heap within 8 GiB.",
  "every random input and every power-of-two page size from 4 KiB to 64 KiB",
  "All 2^96 random inputs.",
  "internal/executable/addr.go: RandAddr", "runtime/process.go: getRand")
p("C31", "Signed LEB128 encoding in snapshots is decodable",
  "The signed varint written for a constant in a snapshot decodes, by the WebAssembly binary format's rules, to the same 32- or 64-bit value, in at most 5 or 10 bytes, with nothing after it disturbed.",
  "every 64-bit signed value and every trailing bytes",
  "All 2^64 values.",
  "image/snapshot.go: putVarint, putGlobals")
p("C32", "Snapshot buffer section decodes to the suspended buffers",
  "The buffer section header written into a snapshot, read back by the loader, gives the same input and output lengths, service names in order and service buffer lengths; the data that follows slices into exactly the services' buffers, the input and the output.",
  "every list of services and buffer contents within the format's limits",
  "Unbounded contents.",
  "image/snapshot.go: makeBufferSectionHeader, writeBufferSectionDataAt", "snapshot/wasm/wasm.go: ReadBufferSectionHeader")
p("C33", "Snapshot metadata section decodes to the suspended state",
  "The snapshot section written into a module decodes to the same flags, trap, result, monotonic time and breakpoint list.",
  "every snapshot metadata value",
  "Unbounded breakpoint lists and 64-bit times; negative results.",
  "image/snapshot.go: makeSnapshotSection", "snapshot/wasm/wasm.go: ReadSnapshotSection")
p("C34", "Breakpoint lists behave as sets",
  "Sorting and deduplicating breakpoints keeps exactly the given offsets, strictly increasing; the debugger's set, add and remove operations on an instance's breakpoints are set replacement, union and difference; more than the permitted number is refused.",
  "every list of 64-bit offsets and every sequence of operations",
  "Unbounded lists and histories.",
  "internal/manifest/sort.go: SortDedupUint64", "server/search.go: searchUint64", "server/instance.go: _debug")
p("C35", "Stack export and import are inverse",
  "Exporting a suspended call stack to its portable form and importing it with the same program restores exactly the same native stack: every return address, link and local value.",
  "every call map, every well-formed stack of any depth, any text address",
  "Unbounded stack depth and contents.",
  "image/stack.go: exportStack, importStack")
p("C36", "Importing a hostile stack never crashes",
  "Importing stack data from a snapshot returns an error or success for every byte string and call map.",
  "every stack byte string of 8-byte multiples, every call map",
  "Attacker-controlled input.",
  "image/stack.go: importStack")
p("C37", "An instance suspended before starting can be restored",
  "The initial stack of an instance which has not started yet exports to a form that import accepts and restores.",
  "every start and entry address combination",
  "Depends on the agreement of two encoders.",
  "image/stack.go: putInitStack, exportStack, importStack")
p("C38", "Token acceptance window",
  "A token is accepted with respect to time exactly if it has not expired and expires at most 15 minutes from now (or has no expiry and local authorization is enabled), for every 64-bit expiry value, including those where the subtraction overflows.",
  "every 64-bit expiry, every clock value of the next 100 billion years",
  "All 64-bit values including overflow.",
  "server/web/verify.go: mustVerifyExpiration")
p("C39", "Token authentication decision",
  "A request is attributed to a principal only if the token's signature verifies with that principal's key and its audience (if any) names this server; unsigned tokens are attributed to the local principal only when local authorization is enabled; a token never authenticates as a principal other than its key.",
  "every token content and server configuration",
  "All token contents.",
  "server/web/jwt.go: mustParseJWT, mustParseJWTHeader", "server/web/verify.go")
p("C40", "A token with a nonce is accepted at most once",
  "No two requests carrying the same principal and nonce are accepted while the token is valid.",
  "every interleaving of requests and clock ticks",
  "Depends on the clock advancing between two checks.",
  "server/web/verify.go: mustVerifyNonce, mustVerifyExpiration", "server/database/sql/sql.go: CheckNonce")
p("C41", "Scope limits",
  "A token scope is accepted exactly if it has at most ten space-separated tokens, and the accepted tokens joined by spaces are the original string; the operation scope check succeeds exactly for granted scopes after alias resolution.",
  "every scope string and every registered name set",
  "All strings.",
  "server/web/verify.go: mustValidateScope", "scope/scope.go: Context, ContextContains, ComputeAliases")
p("C42", "Different principals have different accounts",
  "Two principals with different identifiers never share an account: one cannot see or use the other's modules and instances.",
  "every pair of principal identifiers",
  "The set of all key encodings.",
  "internal/principal/principalid.go: ParseID, Raw, LocalID", "internal/principal/principalkey.go: parseEd25519Key", "server/server.go: accounts")
p("C43", "Program references are counted correctly",
  "In every history of uploads, pins, unpins, launches, snapshots, instance deletions and shutdown, a program's image is closed exactly when no account, instance, registry entry or operation in progress refers to it, never while referenced and never twice.",
  "every history of server operations by any number of principals",
  "Unbounded histories.",
  "server/program.go: ref, unref", "server/account.go", "server/server.go")
p("C44", "Module and instance ownership isolation",
  "An operation by one principal never changes the modules or instances visible to another principal, and a principal can only reach modules it has pinned (or publicly cached content it proves to know) and instances it created.",
  "every history of server operations by any number of principals",
  "Unbounded histories and pairs of principals.",
  "server/server.go", "server/account.go")
p("C45", "Instance lifecycle",
  "An instance's state only moves along the documented transitions; a terminated or killed instance is never resumed; resume, snapshot and delete are refused while it is running; a transient instance disappears when it stops; waiters are released exactly when it stops.",
  "every history of instance operations and process outcomes",
  "Unbounded histories.",
  "server/instance.go")
p("C46", "File references are counted correctly",
  "A shared file is closed exactly when the last reference is released, never earlier and never twice, and referencing a released file panics instead of resurrecting it.",
  "every history of reference operations in any interleaving",
  "Unbounded histories.",
  "internal/file/fileref.go: Own, MustRef, Ref, Unref")
p("C47", "Vectored writes are complete",
  "Writing two buffers as a vector writes exactly their concatenation, in order and once, at consecutive offsets, however the kernel splits the writes and however often it asks to retry, and terminates when every write makes progress.",
  "every pair of buffers and every sequence of partial writes, EAGAIN and EINTR",
  "Partial writes are rare and chosen by the kernel.",
  "internal/file/file.go: WriteVecAt, WriteVec")
p("C48", "Instance action requests map to one operation",
  "A POST request for an instance performs the operation its action parameters name: kill and suspend are mutually exclusive and may be combined with wait; repeated or unknown actions are refused without performing any operation.",
  "every list of action parameters",
  "All parameter combinations.",
  "server/web/handler.go: handlePostInstance, handlePostModuleSource")
p("C49", "A request answered with an error performs no operation",
  "A module source request which is answered with 'unsupported action' does not also perform the call.",
  "every query",
  "All parameter combinations.",
  "server/web/handler.go: handlePostModuleSource")
p("C50", "Entry function resolution",
  "The two implementations of entry function resolution (on a module being built and on a stored program) agree; an explicit function is refused when the program has an implicit start, and _start is implicit.",
  "every export table, entry name and started flag",
  "All export tables.",
  "internal/build/resolve.go: ResolveEntryFunc", "image/program.go: ResolveEntryFunc")
p("C51", "Packets sent from an inbound stream fit the maximum send size",
  "Every data packet which an inbound stream sends to the program, including one restored from a snapshot, is at most as large as the configured maximum send size.",
  "every serialized state accepted by the restore, every reader and schedule",
  "The restored size is attacker-chosen and the limit is off by a header.",
  "packet/packetio/read.go: Transfer", "packet/packetio/stream.go: Unmarshal")
p("C52", "A subscription made before finishing is honoured",
  "When the program subscribes to n bytes and then finishes its subscription, the stream still reads up to n bytes from its reader before it signals end-of-file.",
  "every schedule of the subscribing side and the transferring side",
  "Depends on the interleaving between two atomic loads.",
  "packet/packetio/read.go: Subscribe, FinishSubscription, Transfer")
p("C53", 'Suspending an outbound stream never crashes the host',
  "After an outbound stream's transfer has stopped, its state can be marshaled without a crash, whatever the program wrote.",
  'every schedule and every program behaviour, including one that ignores its credit',
  'Depends on ring positions at the stop point and on a misbehaving program.',
  'packet/packetio/write.go: Transfer', 'packet/packetio/state.go: MarshaledSize', 'internal/varint/varint.go: Len')
p("C55", 'Catalog lists exactly the discoverable services',
  'The service catalog of a registry contains a name and revision exactly if looking the name up finds an implementation which is discoverable in the context, and contains each name once.',
  'every history of registrations and clones, every context',
  'Depends on arbitrary chains of overriding registries.',
  'service/registry.go: Registry.Catalog, Registry.catalog')
p("C56", 'A suspended list of services can be restored',
  'The list of services saved when an instance is suspended is accepted when the instance is resumed, whatever services the registry has by then.',
  'every list of discovered names and every registry at resume time',
  'Needs registries that differ between suspend and resume.',
  'service/registry.go: Registry.StartServing, discoverer.Discover, discoverer.Suspend')
p("C54", 'Suspending a program while it writes a packet keeps its state',
  'Suspending a program at any moment, including when only a part of a packet it is writing has reached the runtime, keeps the instance resumable, and the packets seen before and after are those of an uninterrupted run.',
  'every program output and every point of suspension',
  "The suspension point is a race between the program's writes and the suspend signal.",
  'runtime/io.go: subjectReadLoop, ioLoop, splitBufferedPackets', 'runtime/process.go: Process.Serve')
p("C57", 'Process capacity is not lost',
  'An executor created for n processes can always run n processes at a time again once the earlier ones have ended; cancelling a creation does not reduce the capacity.',
  'every history of creations, cancellations, kills and exits',
  'The identifier is lost only if the context ends in a window between two channel operations.',
  'runtime/executor.go: execute, ids, finalize', 'runtime/process.go: newProcess')
p("C58", "A process is signalled only on its own handle's request",
  'A kill or suspend request affects only the process on whose handle it was made, and neither the executor process nor its receiver crashes because of the order of requests and exits.',
  'every history of creations, kills, suspensions and exits',
  "Depends on which of two ready channels the sender's select picks while an identifier is being reused.",
  'runtime/executor.go: sender, killSuspend, finalize, receiver', 'runtime/executor/executor.c: receive_ops')
p("C59", 'Time resolution policy',
  'A program that reads the clock through the runtime sees times that are no finer than the configured time resolution of its process policy, that never run ahead of the host clock, and that preserve the order of the host clock readings.',
  'every configured resolution and every pair of host clock readings',
  'the readings come from the host at run time and the masking is in assembly; tests sample a few readings',
  'runtime/process.go:Process.Start', 'runtime/loader/x86_64/runtime.S', 'runtime/loader/aarch64/runtime.S', 'runtime/loader/loader.c')
p("C60", 'Monotonic clock across resumes',
  'The monotonic clock which a program observes never goes backwards, including across any number of suspends and resumes on hosts with unrelated boot times.',
  'every history of suspensions, resumptions and clock readings',
  'depends on host boot times and on arbitrarily many snapshots',
  'runtime/process.go:Process.Start', 'runtime/loader/x86_64/runtime.S', 'runtime/loader/aarch64/runtime.S', 'runtime/loader/loader.c')
p("C62", "Reading a snapshot's buffer section takes bounded memory",
  'Reading the buffer section of an uploaded snapshot never fails by panicking, and the amount of service state and output it allocates is bounded by the size of the section.',
  'every byte sequence offered as a buffer section',
  'the section is attacker-controlled and its length fields are arbitrary',
  'snapshot/wasm/wasm.go: ReadBufferSectionHeader', 'build/build.go: BufferSectionLoader')
p("C61", "A snapshot's module is the program with its state replaced",
  "The module downloaded after taking a snapshot of an instance has the program's own types, imports, functions, tables, exports, elements, code and custom sections byte for byte, no start section, the instance's memory, globals, buffers and stack instead of the initial ones, and exports hidden exactly if the instance is suspended or final; the new program's description gives the exact place of each section. Any program which can be instantiated can be snapshotted, also one made by a snapshot.",
  'every module layout, state and history of snapshots',
  'section layouts are unbounded in number, and depend on absent sections and custom sections in any place',
  'image/snapshot.go: Snapshot, mapOldSection, mapNewSection', 'image/build.go: FinishProgram', 'image/section.go')
p("C65", 'Modules nobody uses are released',
  "When no account pins a module, no instance runs it and no operation uses it, the server releases the module's image.",
  'every history of uploads, pins, unpins, launches, deletions and snapshots',
  'Needs the reference graph over unbounded histories; a unit test looks at one program at a time',
  'server/server.go: mergeProgramRef, refProgram', 'server/program.go: unref')
p("C66", 'Handling a token never crashes',
  'Every authorization token, however malformed and whoever sent it, is answered with acceptance or an authorization error; the request handler does not crash.',
  'every token content and server configuration',
  'Attacker-controlled input.',
  'server/web/jwt.go: mustParseJWTHeader', 'server/web/verify.go: mustVerifyNonce')
p("C67", 'No action parameter is silently ignored',
  'When a request on a known module performs an operation, every action value in the query is reflected in that operation: the actions are exactly those the operation stands for, each once.',
  'all known-module PUT and POST requests: any query with any multiset of action values, any parameters',
  'the combination of action values in a query is unbounded and the handlers peel them off one by one',
  'server/web/handler.go: handlePutKnownModule, handlePostKnownModule, popOptionalActionParam')
p("C68", 'Without authorization only a transient, unpinned call can be had',
  'A request without an authorization token can obtain no operation other than a call which is transient and which does not pin the module.',
  'all requests to all handlers with any query and headers',
  'every handler has its own decision tree; a missed authorization test in any of its leaves breaks the claim',
  'server/web/handler.go: handlePutKnownModule, handlePostKnownModule, handleGetKnownModule, handlePostModuleSource', 'server/web/request.go')
p("C69", 'Snapshot sections are accepted exactly in their documented order',
  "A module's gate.snapshot, gate.export, gate.buffer and gate.stack sections are accepted if and only if each of snapshot, buffer and stack appears at most once, the others come after the snapshot section, buffer and stack are between the code and data sections with the buffer first, and no function is called when there is a stack.",
  'all sequences of custom sections before, between and after the code and data sections',
  'the loaders replace each other while sections are being read; the number of section sequences is unbounded',
  'build/build.go: InstallEarlySnapshotLoaders, InstallSnapshotDataLoaders, InstallLateSnapshotLoaders', 'snapshot/wasm/wasm.go: Section constants')
p("C70", 'No debug request crashes the handler',
  'Every debug request for an instance is either carried out or refused with an error, whatever the operation, the configuration given, the program and the state of the instance.',
  'all debug requests on all instances of all programs',
  'the operations read optional structures of three objects; the failing combinations depend on how the program came to be',
  'server/instance.go: _debug', 'image/program.go: DebugInfo, Breakpoints', 'server/server.go: DebugInstance, asError')
p("C71", 'Back pressure',
  'While the program runs, no more than one packet from the program and one packet from the services is held in between, besides what was restored with the instance: nothing more is read before those have been passed on.',
  'every history of packets in both directions, every schedule',
  'Needs all interleavings of the program, the services and the loop.',
  'runtime/io.go: ioLoop')
p("C72", 'No query parameter is ignored',
  "For every request handled by the web API's module and instance endpoints: if the request gets an operation performed, then every parameter of its query (by name) is one which that operation makes use of; a request with any other parameter performs nothing.",
  'all requests: any query, any repetition and order of parameters, any headers, any endpoint method',
  'the query is an arbitrary multiset of names and values; every handler branch must end by refusing the rest',
  'server/web/handler.go handleGetKnownModule', 'server/web/handler.go handlePostInstance', 'server/web/request.go mustNotHaveParams', 'server/web/request.go popOptionalLastParam')
p("C73", 'Instance operations never crash',
  'Whatever the history of operations on an instance and their interleaving, no operation on it makes the handler panic with a nil dereference or a double close of a channel.',
  'all histories and interleavings of launch, start, resume, stop, delete, snapshot, info, update, debug, wait; all process outcomes and start failures',
  'needs particular races between clients and failures of system calls',
  'server/instance.go info', 'server/instance.go _debug', 'server/instance.go startOrAnnihilate', 'server/instance.go drive')
p("C74", 'The status tells how the program ended',
  'When an instance stops, its reported status is determined by the process: exit codes 0 and 1 mean halted (terminated if transient), 2 and 3 terminated, with the lowest bit as result; the resumable traps mean suspended and other traps killed, with the trap as cause; after a kill request it is killed; internal failures and protocol violations mean killed with that cause. The image of the instance records the same status.',
  'all instances in all histories, all exit statuses and traps',
  'the combination of process outcome, transience, state validation and storage failure',
  'server/instance.go drive', 'server/instance.go trapStatus', 'runtime/process.go Serve')
p("C75", 'The storage knows the status of a stopped instance',
  'A persistent instance which has stopped is in the storage, and what is stored tells if it may be continued: it is marked final exactly if the instance has been terminated or killed.',
  'all histories of an instance',
  'requires relating the stored file to the in-memory status at every point of every history',
  'server/instance.go drive', 'image/instance.go SetFinal', 'image/filesystem.go storeInstance')
p("C76", 'A failed resumption leaves the instance as it was',
  "If an instance can't be resumed, whether the request is refused or the process can't be started, the instance is still suspended or halted, and can be resumed, snapshotted or deleted later.",
  'all states of an instance, all failures',
  'needs system call failures at particular points',
  'server/instance.go startOrAnnihilate', 'server/server.go _runOrDeleteInstance', 'server/server.go ResumeInstance')
p("C77", 'Resuming a halted instance calls the requested function',
  'When a halted instance is resumed with a function name, the program is entered at that function.',
  'all halted instances, all function names',
  'unbounded histories; no test inspects the entry address after a resumption',
  'server/instance.go _doResume', 'server/server.go ResumeInstance', 'image/instance.go CheckMutation')
p("C78", 'Taking a snapshot of a running instance lets it go on',
  'A snapshot requested of a running instance is taken and the instance goes on running.',
  'all running instances, all ways in which the process reacts to the suspension',
  'depends on the race between suspension, transience and cleanup',
  'server/server.go Snapshot', 'server/instance.go drive')
p("C79", 'Waiting for an instance reports a stopped instance',
  'A wait which is not cancelled returns a status which is not running.',
  'all interleavings of waiters with stops and resumptions',
  'a race between the waiter and another client',
  'server/instance.go Wait', 'server/server.go Snapshot', 'server/server.go Shutdown')
p("C80", 'Persistence is one-way and only by request',
  'An instance launched as transient becomes persistent exactly when a suspension is requested while it runs or an update asks for persistence while it exists; it never becomes transient again, and a persistent instance still exists after it stops.',
  'every instance, every history of requests, process outcomes and faults',
  'A test observes a few request orders; the claim excludes any other way to change the property in any history.',
  'server/instance.go Suspend, update, cleanup', 'server/server.go SuspendInstance, UpdateInstance')
p("C81", "A stored instance's program is stored",
  "Whenever an instance's state is in the persistent storage, the program it was made from is there too.",
  'every launch mode and every history of requests and process outcomes of an instance',
  'Depends on the order of updates, suspensions and stops.',
  'server/server.go UpdateInstance, SuspendInstance, _registerProgramRefInstance', 'server/program.go _ensureStorage')
p("C82", "New instances have the program's state",
  "An instance created from a program holds exactly the program's call stack, globals and memory contents, whether the instance was made together with the program by an upload or later from the stored program; memory beyond the initialised data is zero.",
  'all programs, page sizes up to 64K, stack sizes, entry functions and memory limits',
  'the offsets depend on page rounding of arbitrary sizes; a test fixes a handful of sizes',
  'image/instance.go NewInstance', 'image/build.go FinishText, FinishProgram, FinishInstance')
p("C83", 'Instance memory limit',
  "The maximum memory size recorded for an instance never exceeds the limit given by its access policy nor the program's own limit, and an instance is refused if its memory already exceeds the limit.",
  'all programs and memory limits',
  'all combinations of limits and sizes, including rounding',
  'image/instance.go maxInstanceMemory, NewInstance', 'build/build.go SetMaxMemorySize, alignMemorySize', 'image/build.go FinishInstance')
p("C84", 'Storing and loading an instance keeps its state',
  'An instance which is stored and loaded again has the same manifest, call stack, globals and memory, with each of the storage implementations.',
  'all instances and all histories of creating, killing, running, checking and storing them',
  'depends on the history of dirty flags as well as on sizes',
  'image/filesystem.go storeInstance, LoadInstance', 'image/memory.go storeInstance, copyInstance, LoadInstance', 'image/instance.go Store, CheckMutation, SetFinal, SetResult', 'image/build.go FinishInstance')
p("C85", "A snapshot program holds the instance's state",
  "The program made by snapshotting an instance has the instance's globals and memory, and its call stack if the instance is suspended; an instance created from it continues in the same state.",
  'all programs, instances and page sizes',
  'page rounding and offsets for arbitrary sizes',
  'image/snapshot.go Snapshot', 'image/instance.go NewInstance')
p("C63", 'Snapshot metadata',
  'The trap, result, termination state, monotonic time and breakpoints of an instance are carried to its snapshot and to the instances restored from it.',
  'all instances and snapshots',
  'which of several metadata records is used depends on the history',
  'image/snapshot.go Snapshot', 'image/build.go FinishProgram', 'internal/manifest/manifest.go')
p("C64", 'What a process leaves in its state file is rejected or well-formed',
  'Whatever bytes an untrusted process leaves in its shared stack and memory mapping, checking the instance afterwards either rejects it or leaves an instance whose sizes are within its file, and whose stack and globals can be read without faults.',
  'all file contents written by a process',
  'all 2^n contents of the mapping',
  'image/instance.go CheckMutation, checkStack, readStack, Globals')
p("C86", 'Crash consistency of the instance storage',
  "After a crash at any point, whatever is found in the instance storage under a name is byte for byte a file which Store was asked to store under that name, with the manifest it had then; a running process's writes never show up there.",
  'every history of creating, running, storing, unstoring, mutating, closing and loading any number of instances, every failure of a system call, every crash point, and every subset of unsynced bytes and directory entries reaching the disk; with and without PersistentMemory',
  "crash points and the disk's freedom to keep or lose unsynced data cannot be enumerated by tests",
  'image/filesystem.go:storeInstance', 'image/memory.go:storeInstance', 'image/instance.go:Unstore', 'image/instance.go:BeginMutation')
p("C87", 'A stored instance survives crashes',
  'Once Store has returned, the stored file is found with the same contents after a crash at any later time, whatever happens to other instances, until Unstore, BeginMutation or Close is called on the instance.',
  'every history before and after, every crash point, every set of concurrently handled instances',
  'it is about all later crash points and interleavings',
  'image/filesystem.go:storeInstance', 'image/memory.go:storeInstance', 'image/instance.go:Store')
p("C88", 'An instance can be stored again after it has run',
  'An instance which was stored, and then run, can be stored again: with PersistentMemory always when the name is free, with Filesystem only if its file has never been linked; a Filesystem instance which has been unstored can never be stored again.',
  'every reachable state and every continuation without a crash',
  'the failure depends on a kernel rule (O_TMPFILE files can be linked once) and on the whole history of the file',
  'image/filesystem.go:newInstanceFile', 'image/filesystem.go:storeInstance', 'image/memory.go:storeInstance', 'image/linkat.go:linkTempFile', 'image/instance.go:Unstore')
p("C89", 'Manifests are read back as they were written',
  'A manifest which is written to an image file is read back the same if it is at most 4088 bytes, and refused otherwise; a file with another tag is refused; reading never looks outside the header page; every instance manifest fits. Writing changes nothing outside its bytes.',
  'every manifest, every previous file content, every offset and tag',
  'all manifest values and file contents',
  'image/filesystem.go:marshalManifest', 'image/filesystem.go:unmarshalManifest', 'image/filesystem.go:LoadInstance', 'internal/manifest/manifest.proto')
p("C90", 'System call sandbox',
  'Once a program process has installed its filter, the kernel lets through exactly the system calls which the runtime needs (reading, writing, polling, exiting, returning from signals, and making less than 4 GiB of memory in the heap address range readable and writable but not executable), and kills the process for every other one, whatever its number and arguments.',
  'every system call number and all argument values, on both architectures',
  "The filter must refuse all of the 2^32 numbers and 2^64 argument combinations which aren't needed; a test tries a handful.",
  'runtime/loader/seccomp.S', 'runtime/include/runtime.h', 'internal/executable/addr.go')
p("C91", 'Runtime accesses only program memory',
  "Whatever addresses and lengths a program gives to the runtime's input, output and debug functions, the runtime reads and writes nothing outside of the program's current linear memory: a buffer which isn't entirely in it is reported as an out-of-bounds trap without a system call, and what the call does and outputs doesn't depend on any other memory of the process.",
  'every history of a process, every call with any 32-bit arguments, any response of the kernel, both architectures',
  "It's a security boundary: every address and length, incl. those which wrap around, after every growth of the memory.",
  'runtime/loader/x86_64/runtime.S: io_prologue, rt_read, rt_write, rt_debug', 'runtime/loader/aarch64/runtime.S: io_prologue, rt_read, rt_write, rt_debug', 'runtime/loader/loader.c')
p("C92", 'Growing of memory',
  'Memory never shrinks and never exceeds the limit it was started with; growing beyond it returns -1 and changes nothing; growing within it returns the old size and all of the memory is then accessible; if the kernel refuses, the process fails with an error.',
  'every history of a process, every increment, both architectures',
  'Every current size and increment incl. those which overflow.',
  'runtime/loader/x86_64/runtime.S: grow_memory', 'runtime/loader/aarch64/runtime.S: grow_memory', 'runtime/loader/loader.c')
p("C93", 'Debug output',
  'What a program writes to the debug output comes out unchanged, in order and completely, however many pieces the kernel takes it in and however often it is interrupted, unless the debug output is closed.',
  'every buffer, every sequence of kernel responses, both architectures',
  'Partial writes and interruptions depend on timing.',
  'runtime/loader/x86_64/runtime.S: rt_debug', 'runtime/loader/aarch64/runtime.S: rt_debug')
p("C94", 'Random bytes are used once',
  'The random bytes which a program gets are those which its process was given, each at most once; after 16 of them the result says that there are no more.',
  'every history of a process, any interleaving of calls, both architectures',
  'Must hold for every number and interleaving of calls.',
  'runtime/loader/x86_64/runtime.S: rt_random', 'runtime/loader/aarch64/runtime.S: rt_random', 'runtime/loader/loader.c')
p("C95", 'Polling',
  "Polling returns no event which wasn't asked for; it returns none only if the input has been hung up or the call was interrupted; a broken output is an internal error.",
  'every set of events asked for by the library and every response of the kernel',
  'Every combination of events which the kernel may report.',
  'runtime/loader/x86_64/runtime.S: rt_poll', 'runtime/loader/aarch64/runtime.S: rt_poll')
p("C96", "Library functions are confined to the program's memory",
  "After any history of a process (memory growth, changes made by the program to its own memory, calls of library functions), whatever function of the library (WASI and gate functions) the program calls with whatever arguments: no memory of the process outside of the program's linear memory is changed, however the call ends; and the call's outcome, its output and its changes don't depend on what is outside of the linear memory.",
  'all histories, memory contents, library functions, arguments, kernel responses, architectures',
  'Requires every pointer, length and kernel response; addresses wrap.',
  'runtime/abi/library.wat', 'runtime/loader/x86_64/runtime.S', 'runtime/loader/aarch64/runtime.S')
p("C97", 'fd_write',
  "fd_write to the gate descriptor outputs a prefix of the concatenation of the buffers, and to standard output or error (on x86-64) the whole of it to the debug output; it stores the number of bytes (modulo 2^32) and returns 0, or EAGAIN if it's zero. (Also if there was nothing to write.)",
  'all histories, vectors (also overlapping), memory contents, partial writes',
  'Requires every vector and every sequence of partial writes.',
  'runtime/abi/library.wat: fd_write', 'runtime/loader/x86_64/runtime.S: rt_write, rt_debug')
p("C98", 'fd_read',
  "fd_read from the gate descriptor stores the received data to the beginning of the buffers in order, changes no other memory than the buffers and the count, stores the number of bytes (modulo 2^32), and returns 0, or EAGAIN if it's zero.",
  "all histories, vectors, memory contents, partial reads; buffers, vector and count don't overlap",
  'Requires every vector and every sequence of partial reads.',
  'runtime/abi/library.wat: fd_read', 'runtime/loader/x86_64/runtime.S: rt_read')
p("C99", 'io',
  "The gate function io, whatever its flags, outputs a prefix of the send buffers' contents and stores received data to the beginning of the receive buffers, and stores the lengths of these (modulo 2^32).",
  "all histories, vectors, flags, memory contents, kernel responses; counts don't overlap with each other or the receive buffers, receive buffers don't overlap",
  'Requires every vector and response.',
  'runtime/abi/library.wat: io')
p("C100", 'poll_oneoff',
  'When poll_oneoff succeeds it has stored at most as many events as there are subscriptions, every event has the userdata of a subscription, and nothing else is changed in memory; otherwise it returns EINVAL. It returns when a subscribed event is there; every subscription whose event is there gets an event; subscriptions of both supported WASI versions are understood.',
  'all histories, subscriptions, memory contents, kernel responses',
  'Requires every list of subscriptions and every result of polling.',
  'runtime/abi/library.wat: poll_oneoff')
p("C101", 'Other library functions',
  "The environment is that which is documented, with correct sizes and pointers. random_get gives each byte of random data once, or stops the program when there isn't enough. proc_exit terminates the program with a result which tells if the status was zero. Unknown descriptors are EBADF for all functions, without effects, and others aren't. fd_filestat_get fills in the structure.",
  'all histories, addresses, lengths, descriptors',
  'Requires every address, amount and descriptor.',
  'runtime/abi/library.wat')
p("C102", "A suspend signal isn't lost",
  "Whenever a suspend signal is delivered to a program's process - in the program's own code, in the runtime, or in the vDSO's clock_gettime - then by the time the program next executes its own code, the next suspension check sees it, and the program gets suspended (not killed for stack exhaustion); without a signal it never is. The signal handler accesses no memory other than the process's own runtime variables.",
  'every interleaving of program steps, time calls and signals, at every instruction of the clock_gettime call, any vDSO length',
  'The window is a few instructions wide; hitting each with a signal requires control over the scheduling of signals.',
  'runtime/loader/x86_64/runtime.S: signal_handler, .Ltime', 'runtime/loader/aarch64/runtime.S: signal_handler, .Ltime', 'runtime/loader/x86_64/runtime.S: trap_handler')
p("C103", "A program's imports are bound to the API functions of the same name and type, or refused with an error",
  "A program which imports functions of the gate module (with a receive size of at least 64 kB as a name suffix) or of WASI (by either module name, or from env with a prefix) gets each import bound to the function of that name, iff the imported type equals the API's; anything else is refused as an error about the program, never by a crash. Random numbers are made available to exactly those programs which import random_get.",
  'all module and field names (any bytes), all types, any list of imports',
  'Names are arbitrary byte strings and suffixes are arbitrary digit strings; tests try a handful.',
  'runtime/abi/abi.go: ImportResolver.ResolveFunc, gateFunctions, wasiFunctions, rtFunctions', 'runtime/abi/library.wat: exports', 'runtime/loader/loader.c: import vector', 'build/build.go: BindFunctions')
p("C104", 'Copying between image files is complete or reported',
  'When the state of a program or an instance is copied from file to file (creating instances, taking snapshots, building), then success means that exactly the requested range has been copied, regardless of how the kernel splits the transfers or refuses to copy between the file systems; a failure leaves only a correct prefix; nothing outside of the range is touched; and the operation finishes.',
  'every sequence of kernel answers (short counts, interrupts, errors, EXDEV at any point), every range, any contents',
  "Short transfers and cross-device refusals in the midst of a copy don't occur in tests.",
  'image/copyfilerange.go: copyFileRange, fileRangeWriter', 'internal/file/file.go: ReadAt, WriteAt', 'image/instance.go: NewInstance', 'image/filesystem.go: newProgramFile, newInstanceFile')
p("C105", "An instance's file name identifies it and stays within the storage directory",
  'The name under which an instance is stored tells exactly its owner and its id: parsing the name gives both back, any name which is accepted is the name of the instance it gives, two different instances (of the same or of different owners) never share a name, and no name contains a slash or is a directory reference, whatever id the client has chosen.',
  'all principals and all instance ids accepted by the server, all file names',
  'Instance ids are chosen by clients and principals contain arbitrary keys; tests use a few of each.',
  'server/instance.go: validateInstanceID, instanceStorageKey, parseInstanceStorageKey', 'server/server.go: _loadInstanceDuringInit', 'principal/id.go: ParseID')
p("C106", 'A server starts with everything it has stored, or fails cleanly',
  "A server starts iff it is configured and every stored program and instance can be loaded; a started server has exactly the stored programs, belonging to the given principal; if it doesn't start, every program which was opened is closed. A server can be restarted with the files which it has itself stored.",
  'every content of the storage (valid, damaged and disappearing files, in any order), any owner',
  'Needs all combinations of damaged files and the position of the first one.',
  'server/server.go: New, _loadProgramDuringInit, _loadInstanceDuringInit, Shutdown', 'server/account.go: ensureRefProgram', 'server/program.go: unref', 'image/program.go: LoadBuffers', 'image/memory.go: persistMem.LoadInstance', 'image/filesystem.go: LoadProgram, LoadInstance')
p("C107", "The origin service's state survives suspension",
  "Whatever bytes are given as the state of the origin service, restoring either fails with an error or gives pending accept calls and streams with distinct ids whose buffers and flow states are within limits; it doesn't panic, provided that the configured buffer size is a power of two. Suspending and restoring gives back the pending accept calls and the streams, in the state in which they were, so that the program can go on using them.",
  'all state byte strings, all suspended states and all buffer sizes',
  'The input is attacker-supplied (uploaded snapshots) and the property must hold for every byte string, and the roundtrip for every set of streams.',
  'service/origin/instance.go:57-106 (restore), 318-346 (Suspend)', 'service/origin/stream.go', 'packet/packetio/stream.go', 'packet/packetio/write.go:39-48')
p("C108", 'Connections are given to the program one accept call each, with streams of their own',
  'However calls of Connect, accept calls and other packets from the program, ends of connections, cancellations and the closing of the connector interleave: the program is told of at most as many connections as it has called for, and of all of them eventually if there are connections; every connection has a stream id of its own as long as it lasts; a program which follows the protocol is not aborted by the service; after the connector has been closed Connect returns nil; at most MaxConns connections are open.',
  'all interleavings of any number of Connect calls, program packets and connection events, from every restored state',
  "Goroutine interleavings, the buffered wakeup channel and select's choice can't be enumerated by tests.",
  'service/origin/instance.go:124-292 (Handle, connect, drainRestored)', 'service/origin/connector.go (Connect, Close, MaxConns)')
p("C109", 'Stopping the origin service completes',
  'When the program has stopped, Shutdown and Suspend of the origin service return, after all its transfers have ended.',
  'all reachable states when the program stops, and all schedules from there',
  'Termination under every schedule; deadlocks show only in rare interleavings.',
  'service/origin/instance.go:294-311 (shutdown)', 'service/origin/stream.go', 'runtime/io.go:78-87', 'server/instance.go:218')
p("C110", 'Error responses tell clients what they may know, and whose fault it was',
  "For every error a request can fail with, the response (HTTP status, headers and body; websocket close frame) depends only on the error's public part; the status is 4xx with the right challenge or Retry-After header for the client's faults, and 500 with an internal event for everything else.",
  'all error values (any combination of marker methods), all identities, all texts, all remaining times of rate limits',
  'Tests try a few errors; no leakage and the exact classification are statements about all error values.',
  'server/web/response.go:respondServerError', 'server/web/websocket.go:WriteError', 'internal/error/public/publicerror.go:Error', 'server/access.go', 'server/ratelimit.go:RetryAfter')
p("C111", 'Modules are stored under the hash of their content, and come back as they were uploaded',
  "An upload is accepted only if the content was received completely, has the declared hash, and fits the limits; the module's id is its content's hash; a rejected upload changes nothing; a pinned module can be downloaded as it was uploaded; and anyone who has the module can upload it again.",
  'all histories of concurrent uploads, pins, unpins and instance terminations; all contents, declared lengths and hashes; any hash function and compiler',
  'Interleavings and declared values are unbounded; the failure needs a particular history.',
  'server/server.go:UploadModule', 'server/server.go:ModuleContent', 'server/server.go:_refProgram', 'server/server.go:_mergeProgramRef', 'server/program.go:_buildProgram', 'server/upload.go', 'server/web/content.go:mustDecodeContent', 'image/build.go:NewBuild')
p("C112", 'Module sources respect the size limit and announce exact lengths',
  "A source opens an object only if it's within the size limit, the opened content gives exactly the announced number of bytes, an object that's too large is reported as such and a missing one as not found.",
  'all responses of the origin server, all limits, all objects',
  "The origin server's responses are outside of the tests' control.",
  'source/http/http.go:OpenURI', 'source/http/http.go:parseContentRange', 'source/ipfs/ipfs.go:OpenURI', 'server/source.go:Source', 'server/server.go:SourceModule')
p("C113", 'Access is granted to the keys of the authorized keys files and to no one else',
  "With the authorized keys policy, a principal gets access if and only if its key is in a parsed file, with that file's uid (given only within the system scope); a key never changes its owner; policies which aren't configured get their defaults; NoAccess denies and PublicAccess grants everything.",
  'all sequences of files, successful or not; all principals, scopes and configurations',
  'Files and their order are unbounded.',
  'server/sshkeys/authorized_keys.go:Parse', 'server/sshkeys/authorized_keys.go:Authorize', 'server/access.go:AccessConfig', 'server/access.go:NoAccess', 'server/access.go:PublicAccess', 'cmd/gate-server/main/servercmd.go:main2')
p("C114", 'Monitoring subscribers see every event in order, and reporting an event never harms the server',
  "Events reach each subscriber of the monitor in the order in which they were reported, from the time of its subscription, none skipped or repeated; a subscriber is dropped only if the monitor's buffer has been found full and the subscriber hasn't kept up. Reporting an event returns in bounded time, whatever the subscribers do, and neither reporting, subscribing nor unsubscribing crashes the server or stops the monitor.",
  "all buffer sizes, channel capacities, numbers of reporting goroutines and subscribers, and all interleavings of them with the monitor's loop",
  'Interleavings are unbounded; the failures need particular schedules.',
  'server/monitor/monitor.go:New', 'server/monitor/monitor.go:Subscribe', 'server/monitor/monitor.go:Unsubscribe', 'server/monitor/monitor.go:loop', 'server/monitor/monitor.go:update', 'server/web/webmonitor/webmonitor.go')
p("C115", 'Events and access decisions carry the details of the request they belong to',
  "An event reports the principal, interface, request number, address and operation of the context in which it was made; deriving a context changes exactly what it's derived with and doesn't affect the original context nor events reported already; events of detached instances don't tell the requester's address.",
  'all contexts, sequences of derivations, and heaps of shared detail objects',
  'Contexts share mutable objects; sequences of derivations are unbounded.',
  'server/context.go:ContextDetail', 'server/context.go:ContextWithOp', 'server/context.go:detachedContext', 'server/context.go:ContextWithRequestAddr')
p("C116", 'Scope aliases stand for exactly one registered name, and grant nothing else',
  "The alias of a scope name is its last word; an alias given in a token stands for the registered name which has it, if there's exactly one, and otherwise for nothing; a registered name stands for itself; registering more names never makes an alias stand for another name; a token grants the names it gives, or gives aliases of, and no others.",
  "all scope strings, all sequences of registrations, all tokens' scopes",
  'Names and registration orders are unbounded.',
  'scope/scope.go:MatchAlias', 'scope/scope.go:ComputeAliases', 'scope/scope.go:Register', 'scope/scope.go:Names', 'scope/context.go', 'server/scope.go')
p("C117", 'Calls of the identity and catalog services are answered exactly once, over suspensions',
  'Each call which a program makes to the identity or catalog service is answered exactly once, in order, with the answer which belongs to it, also if the program is suspended and resumed, any number of times, between the call and its answer.',
  'all sequences of calls, and all interleavings of calls, replies, cancellations, suspensions and resumptions',
  'Suspension may happen at any point of the exchange, any number of times.',
  'service/identity/identity.go', 'service/catalog/catalog.go', 'service/registry.go:StartServing', 'service/registry.go:Suspend', 'runtime/io.go:ioLoop')
p("C118", 'Suspending or stopping completes while services are answering',
  'When a program has stopped or is being suspended, its services are stopped and the operation completes, whatever the services are doing.',
  'all states of a service in the middle of a call; all schedules',
  'The failure depends on the moment at which the program stops.',
  'runtime/io.go:ioLoop', 'service/registry.go:serve', 'service/identity/identity.go:Handle', 'service/catalog/catalog.go:Handle')
p("C119", 'gRPC services can tell by the process key which instances belong to the same process',
  "All instances of remote services which belong to one process are given the same key, instances of different processes different keys, also when they're created concurrently; a key is kept exactly as long as some instance of its process exists.",
  'all interleavings of creations, failures, shutdowns and suspensions of any number of service instances of any number of processes',
  'Races between lookup and insertion; unbounded numbers.',
  'service/grpc/grpc.go:getProcKey', 'service/grpc/grpc.go:putProcKey', 'service/grpc/grpc.go:CreateInstance', 'service/registry.go:StartServing')
p("C120", "Messages between programs and gRPC services arrive in order, once, and survive suspension; a service can't harm the server",
  "A program receives what the remote service sends, in order, none skipped or repeated, with the service's code; the service receives what the program sends likewise; on suspension, whatever hasn't arrived is in the snapshot, and can be told apart; suspending finishes; whatever the remote service sends, the server isn't crashed.",
  'all sequences of packets of any lengths in both directions, all interleavings with cancellation, suspension and closing',
  'Interleavings of two goroutines, a stream and two contexts; arbitrary bytes from a remote peer.',
  'service/grpc/grpc.go:receiveForward', 'service/grpc/grpc.go:receiveBuffer', 'service/grpc/grpc.go:mustBePacket', 'service/grpc/grpc.go:Handle', 'service/grpc/grpc.go:Suspend', 'runtime/io.go:initMessagePacket')
p("C121", 'A program started through the daemon has the scope which its caller gave',
  'The scope of a program which is called, launched or resumed through the daemon is the one given in that very call, whatever other calls have been made before or are made at the same time; contexts are released when calls end.',
  'all sequences and interleavings of calls with all scopes',
  'Depends on interleavings of concurrent calls.',
  'cmd/gate-daemon/main/daemoncmd.go:methods', 'cmd/gate-daemon/main/daemoncmd.go:authorizeScope', 'scope/scope.go:Context')
p("C122", "Calls made during the daemon's initialization are served when it's done",
  "A call which is made at any time, also before the daemon has been initialized, gets to the server once it has been initialized, not before, and doesn't fail unless the daemon is terminated.",
  'any number of calls, all interleavings with the initialization and termination',
  'Depends on interleavings of concurrent calls.',
  'cmd/gate-daemon/main/daemoncmd.go:methods', 'cmd/gate-daemon/main/daemoncmd.go:main2')
p("C123", 'Instances go on running after the request which started them has ended',
  'An instance which has been launched or resumed goes on until it ends by itself or somebody asks for its suspension or death, also when the request which started it has been answered. A called instance goes on as long as the client is there.',
  'all sequences of requests, responses, disconnections and instances, through the web and the bus',
  'Depends on what happens after the response, at any time.',
  'server/context.go:detachedContext', 'server/server.go:_runOrDeleteInstance', 'server/web/handler.go:handleLaunch', 'server/web/handler.go:handleInstanceResume', 'runtime/io.go:ioLoop')
p("C124", 'Output, hints and the final status share a websocket connection without mixing',
  'However reading of input, writing of output and the request handler interleave: the connection is never written to by two goroutines at the same time; the client sees the reply, then output and at most one input hint, then the status and the close message; the hint precedes the first wait for input; after a failed write nothing more is written but the final status; what Write reports as written has been sent, in order; input is delivered as sent, and reading never reports nothing without an error.',
  'all interleavings of the handler, the reading and the writing goroutine at the granularity of shared memory accesses; all outcomes of connection operations; all sequences of buffers and frames',
  'Data races and lost exclusion show only under rare schedules.',
  'server/web/websocket.go:65-183 (websocketReadWriter)', 'server/web/handler.go:1103-1116, 1361-1389', 'packet/packetio/stream.go:89-107 (Transfer)')
p("C125", 'Request identifiers are unique',
  'Every web request gets an identifier which no other request gets, also after the server has been restarted; identifiers grow with time.',
  'all numbers of requests and all interleavings of requests and the generator; all start times',
  'Uniqueness is about all pairs of requests of unbounded histories.',
  'server/web/requestid.go', 'server/web/handlerconfig.go (NewRequestID)')
p("C126", "The container's host ids are unprivileged, distinct and the user's own",
  "The host ids under which the container and the executor run are those which have been configured; unconfigured ones are in the subordinate range which the id file gives to the server's user, are not root's nor the server's own, and differ from each other and from configured ones. If the range has free ids, allocation succeeds. Containers which don't need ids start without them.",
  'all contents of the subuid and subgid files, user names, own ids and configurations',
  'The space of files and configurations is unbounded; wrong ids show as missing isolation, not as failures.',
  'internal/container/cred.go (subIDMap, ParseCreds)', 'internal/container/namespace.go (setupNamespace, configureUserNamespace)', 'runtime/container.go (startContainer)')
p("C127", 'Resources made in advance are used once and never leak',
  "Files and processes which are made in advance are each given to one request or released; when the context is done the rest is released and waiting requests get an error; at most the configured number is idle. Preparing never crashes, and an error is reported only for a resource which couldn't be made for the request.",
  'all interleavings of the making goroutine, requests and cancellation; all buffer sizes',
  'Leaks depend on the moment of the cancellation.',
  'image/prepare.go', 'runtime/prefork.go')
p("C128", 'Debug output gets to the log line by line, and a broken log never blocks a program',
  "The debug log gets the program's debug output in order, with the last line ended, complete when the program's end is reported; complete lines are visible at once; if the log fails, it has a prefix, the program can go on writing, and its end is reported.",
  'all debug outputs of any length, all failures of the log at any write',
  'Buffer boundaries and failures can be anywhere.',
  'runtime/debug.go (copyDebug)', 'runtime/process.go:213-256, 288-290')
p("C129", 'The executor is started only inside a complete sandbox',
  "Whichever system call fails and whenever the server dies, the executor is either not started or started with everything which the configuration calls for: no capabilities, the container's ids, no supplementary groups, an empty read-only root, its own process file system and limits; the child doesn't go on before the parent has configured it, and is killed if configuring fails; it never outlives the server.",
  "all configurations, all sets of failing steps, all moments of the parent's death",
  "Failures of single system calls and the parent's death at each point can't be provoked by unit tests.",
  'internal/container/child/container.go (childMain, furnishNamespaces)', 'internal/container/child/capset.go', 'internal/container/parent.go (Start)')
p("C130", 'Web requests of foreign origins are refused',
  'Unless the configuration has the origin "*", a request with an Origin header of which any part isn\'t a configured origin is refused before anything is done for it; a handler with unsecured local authorization always checks. Permission (Access-Control-Allow-Origin) is given only to origins which have passed the check, and a permission can be used by every configured origin.',
  'all configured origin lists, request headers, paths, methods and queries',
  'The set of header values and configurations is unbounded; that nothing is done on refusal is about every resource and method.',
  'server/web/handler.go:newHandler', 'server/web/handler.go:NewHandlerWithUnsecuredLocalAuthorization', 'server/web/request.go:mustBeAllowedOrigin', 'server/web/response.go:setAccessControl')
p("C131", 'Paths and methods of the web API',
  "A path under the API's prefix leads to the resource it names (features, module sources, known modules, source modules, instances) with its identifier, and any other path is not found. Methods which a resource doesn't have are refused without effect, the answer names the methods it has, and pages of allowed origins are offered all of them. Feature queries are answered with what was asked for.",
  'all paths, prefixes, sets of module sources, methods, queries',
  'Paths are unbounded and the multiplexer chooses the longest of overlapping patterns; equivalence with the naming scheme needs a proof over all of them.',
  'server/web/handler.go:newHandler', 'server/web/handler.go:newKnownModuleHandler', 'server/web/handler.go:newModuleSourceHandler', 'server/web/handler.go:newInstanceHandler', 'server/web/handler.go:handleGetFeatures')
p("C132", 'Descriptor rights',
  "A program sees four descriptors with fixed rights: fd_fdstat_get reports them, fd_fdstat_set_rights succeeds exactly when the rights stay as they are, refuses to add any, and stops the program if some would be taken away; descriptors cannot be closed, renumbered to others, seeked, or used as sockets, and reading or writing in a direction which the rights don't allow is an error; none of this changes anything.",
  'all descriptors, rights, flags and states of a process',
  'There are 2^64 rights masks for each descriptor, and the claim is about the whole state of the process.',
  'runtime/abi/library.wat')
p("C133", 'The executor process handles every request once and reports every process once',
  'Requests to the executor process are handled in the order in which they were made, each exactly once; a kill or suspend request reaches the process that was last created with the identifier and nothing else; every process is reported exactly once, after it has exited; there are no lost wakeups, and unless the peer closes the connection the executor takes only a bounded number of steps before it waits; when it terminates by itself, all requests have been handled and all statuses have been sent.',
  'All requests, all interleavings of requests, process exits, epoll events (edge-triggered control socket, level-triggered pidfds) and partial sends, and all batch sizes.',
  'A lost wakeup, a reordering or a doubled status happens only with particular interleavings of kernel events, of which there are unboundedly many.',
  'runtime/executor/executor.c: executor, receive_ops, send_queued, wait_process, initiate_shutdown')
p("C134", 'The executor process dies only of malformed requests',
  "While the connection is open, the executor process dies only because of a request that runtime.Executor doesn't make, or a creation with the identifier of a process that still exists; in particular, it doesn't run out of file descriptors with up to MaxProcs processes.",
  'All histories of requests and exits, and all ways in which requests are batched.',
  'The limit is reached only with thousands of processes and particular batches.',
  'runtime/executor/executor.c: NOFILE, receive_ops, create_process', 'runtime/config.go: MaxProcs')
p("C135", 'Closing an executor kills its processes',
  'Executor.Close kills all processes: after it has been called, all processes get killed and Close returns.',
  'All states in which an executor is closed, and all behaviours of processes.',
  "It depends on processes which don't exit by themselves.",
  'runtime/executor.go: Executor.Close', 'runtime/executor/executor.c: initiate_shutdown, executor')
p("C136", 'An executor process whose peer is gone waits for its processes quietly',
  'When the peer closes the connection, the executor process stops accepting requests and waits for its processes to exit without consuming CPU time, and then terminates.',
  'All states in which the connection is closed.',
  "It needs a peer which dies at particular moments, and the absence of an endless loop isn't observable in a test.",
  'runtime/executor/executor.c: executor, initiate_shutdown, send_queued')
p("C137", 'A suspended process has about a second of CPU time left',
  "A process which is told to suspend itself may use more than half a second and at most one and a half seconds of CPU time before it's killed, whatever its name is, how much it has used and what the clock's frequency is.",
  'All command names, all field values, all CPU times, all clock frequencies.',
  'Names with parentheses, spaces and digits, and arithmetic for all values.',
  'runtime/executor/executor.c: get_process_cpu_ticks, suspend_process')
p("C138", 'A request refused by the access policy has no effect',
  "If the server's access policy refuses an API call, then the call returns an error and has neither changed the server's, the account's nor any instance's state, nor reported an event, nor acquired any resource (program reference, image, process, services).",
  'every API function of the server which takes a context, every configuration of options and server state, every combination of failing and passing checks',
  "The refusal can come with every combination of options and states; each function's order of operations must be considered for every way it can fail.",
  'server/server.go:UploadModule', 'server/server.go:NewInstance', 'server/server.go:Snapshot', 'server/server.go:ResumeInstance')
p("C139", 'Every resource of a request is released exactly once',
  "Whatever fails while a request is handled, each resource which was acquired (content stream, debug log, build, program image and reference, instance image, process, services) is released once, or has been passed on to the server's data structures, to the instance or to the goroutine which drives it - never lost, and never released twice.",
  'every API function, every configuration of options and state, every combination of failing and passing checks (including handlers which crash)',
  'There are thousands of paths through nested deferred calls and ownership transfers; tests exercise a handful of them.',
  'server/server.go:_loadUnknownModuleInstance', 'server/server.go:_runOrDeleteInstance', 'server/instance.go:startOrAnnihilate', 'server/program.go:_buildProgram')
p("C140", 'Events tell what requests did',
  'A request which succeeds has reported exactly the events of its operation, in order; one which fails has reported an initial part of them only, so that the event of the operation itself is reported only if it succeeded. ModulePin is reported once for each pin which changed something.',
  'every API function, every configuration of options and state, every combination of failing and passing checks',
  'An event could be missing, repeated, or too early on any of the paths through the functions.',
  'server/server.go:UploadModule', 'server/server.go:_loadUnknownModule', 'server/server.go:Snapshot', 'server/event/event.go')
p("C141", 'No request crashes its handler',
  "An API function returns, or returns an error, whatever the request is: it doesn't panic with anything which isn't turned into an error.",
  'every API function, every configuration of options and state, every combination of failing and passing checks',
  'A nil dereference can be in a combination of options and state which no test has.',
  'server/server.go:asError', 'server/instance.go:store', 'server/instance.go:startOrAnnihilate', 'server/server.go:PinModule')
p("C142", 'A successful request has had its effects; a failed one leaves no instance behind',
  "A request which succeeds has made exactly the lasting changes of its operation, in order (storing and registering the program, pinning it, creating and storing or starting the instance, and so on). One which fails has made an initial part of them at most; if it has created an instance, then it has deleted it; and it hasn't deleted an instance which existed before it.",
  'every API function, every configuration of options and state, every combination of failing and passing checks',
  'Each change could be missing or left undone on any of the paths through the functions.',
  'server/server.go:_registerProgramRefInstance', 'server/server.go:_runOrDeleteInstance', 'server/server.go:deleteNonexistentInstance', 'server/instance.go:startOrAnnihilate')
p("C143", "Address space of a program's process",
  "When a program's code starts to execute in its process, the process's address space is exactly: the runtime page and the program's text (readable and executable, not writable), the stack, and the globals and linear memory in use (readable and writable, not executable, and all of it the instance's state file, each byte at one address), the rest of the linear memory's reservation (inaccessible), and the kernel's vDSO. Nothing is both writable and executable, the loader itself is gone, and an access of the linear memory with any 32-bit index and 31-bit offset reaches the memory in use or faults.",
  'all image informations which Start can send (addresses, sizes, random data), all architectures, page sizes from 4 KiB to 64 KiB, all addresses',
  "tests run a few programs; an address which is wrongly mapped at some combination of sizes and random addresses isn't noticed by them",
  'runtime/loader/loader.c main', 'runtime/loader/x86_64/loader.h enter', 'runtime/loader/aarch64/loader.h enter', 'runtime/process.go Start')
p("C144", "What the runtime sends is what the program's process gets",
  "For all programs, states and random data the image information which Process.Start sends is decoded by the loader to the same values, no field is truncated, the descriptors are told apart, only a message of exactly that form is accepted, the clock function is found if and only if the vDSO has it, and (unless system calls fail or the instance is suspended) the process starts the program's code at the enter routine, if the stack is empty, and otherwise at the resume routine, with the memory address and limit, random data, time base and mask which were meant, with signal handlers and the system call filter in place.",
  'all programs, instance states, random data, debug flags, vDSO symbol tables; all messages',
  "the encoding is shared between Go and C, and a unit test of either side doesn't see a disagreement of layouts or boundaries",
  'runtime/process.go Start, imageInfo', 'runtime/loader/loader.c receive_info, main, clock_gettime', 'runtime/loader/x86_64/start.S')
p("C145", 'A process which fails to load loses nothing',
  "Whichever system call of the loader fails, whatever message it receives, and if it's suspended before the program starts: the stack in use, globals and memory of the instance's state file are what they were, and the state is accepted without a change to its manifest; if the program's code is executed then the state is marked as unusable until the program stops.",
  'all failures of system calls, messages, states, both architectures',
  "there is no way to make the loader's system calls fail one by one in a test",
  'runtime/loader/loader.c main', 'image/instance.go CheckMutation, checkStack', 'runtime/loader/x86_64/runtime.S runtime_init')
p("C146", 'gate.h: debug output and packet structures',
  "For user programs written in C: the debug functions write the decimal (hexadecimal) digits of their argument, with a sign if it is negative, for every 64-bit value, without writing outside of their buffers; strings are written up to the first zero byte; the packet structures have the host's layout, so that what a program reads from a packet is what the host wrote, and the alignment macro calculates the host's alignment. Exceptions found: for the least int64_t the negation overflows (undefined behaviour in C); GATE_ALIGN_PACKET wraps around to zero for the last 7 sizes; the host ignores the domain's upper four bits.",
  'all 64-bit numbers, all byte strings, all packets',
  'The number ranges are infinite for practical purposes and the failing values are single points.',
  'include/gate.h:__gate_debug_hex', 'include/gate.h:__gate_debug_uint', 'include/gate.h:__gate_debug_int', 'include/gate.h:GATE_ALIGN_PACKET', 'include/gate.h:struct gate_packet', 'packet/packet.go')
p("C147", 'Debugger backtraces',
  "The backtrace of a suspended program lists exactly its calls in progress, the innermost first, each with its function, the call's place and its values: the parameters (taken from the caller's pushed values) first and then the function's own values, each in the order of being pushed. It terminates for every stack data; it does not fail for exported stacks which fit the program's types, in particular not for any stack that was imported from a user's snapshot; and a successful trace of arbitrary data shows the calls and values which are in the data.",
  'all call maps, all stacks, all stack data',
  'Stacks of any depth and any shape; off-by-one indexes matter only for some combinations of parameter and variable counts.',
  'cmd/gate/main/debug.go:traceStack', 'image/stack.go:exportStack')
p("C148", "The gate program's remote commands do at the server what they say",
  "For every configuration and arguments (module and instance names, function, tags of any bytes), the request which a `gate ADDRESS command` sends makes the server perform exactly the operation that the command means, with the given arguments, on the named resource; percent-encoding of paths and query parameters loses nothing.  (False of: launching a module of a source, the debug command, and arguments which aren't names.)",
  'all configurations, commands, names, tag and function byte strings, address path prefixes and server source configurations',
  'client and server agree only by two separately written tables, and the arguments range over all byte strings',
  'cmd/gate/main/remote.go remoteCommands, doHTTP, makeURL', 'cmd/gate/main/local.go push', 'server/web/handler.go handlePostKnownModule, handlePutKnownModule, handlePostInstance', 'server/web/api/webapi.go')
p("C149", "The command-line client's tokens are accepted by the server they are made for",
  "When the command-line client is given the address of a server and an Ed25519 identity, the Authorization header it sends is accepted by that server, the request is attributed to the identity's key with exactly the configured scopes, provided that the client's clock is at most 60 seconds behind and at most 14 minutes ahead of the server's and that at most ten scopes are configured; a server with another identity refuses it; with an empty identity file and a server that trusts local requests the request is the local principal's.",
  'every identity key, address, scope configuration, pair of clocks and server configuration',
  'Addresses, scopes, keys and clock differences are unbounded; tests use one address form (with scheme) and one clock.',
  'cmd/gate/main/remote.go: makeAuthorization', 'server/web/api/webapi.go: AuthorizationBearerEd25519, AuthorizationBearerLocal, unsignedBearer, PublicKeyEd25519', 'server/web/jwt.go: mustParseBearerToken', 'server/web/handler.go: identity')
p("C150", "The gate program's local commands make the daemon do what they say",
  "Every command line of the gate program without an address, with any configuration, either prints the usage (exactly when the command is unknown or the number of arguments is wrong) or makes the daemon perform exactly the documented operations, on the arguments, tags, scope, files and debug log which the user gave; it never fails by indexing its arguments. The debugger's commands get what they need from the daemon.",
  'every command name, argument list and configuration',
  'Method names, argument order and types are matched at run time by the message bus; tests call the daemon for a few commands only.',
  'cmd/gate/main/local.go: localCommands, daemonCallInstanceWaiter', 'cmd/gate/main/clientcmd.go: Main', 'cmd/gate/main/debug.go: debug, build', 'cmd/gate-daemon/main/daemoncmd.go: methods, doCall, doLaunch, invokeOptions, moduleOptions')
p("C151", 'Exporting a module never leaves a half-written file at the destination',
  'When the gate program exports a module to a file, then at every point where it can be killed the destination has either what it had or the complete module whose length was announced; success means that the complete module is there (or was written to the device or standard output); failure changes nothing: neither the destination nor other files.',
  'every destination, announced length, sequence of reads, failure of any step, and kill point',
  "Kill points and failing steps can't be enumerated by tests of the happy path.",
  'cmd/gate/main/load.go: download', 'cmd/gate/main/remote.go: exportRemote, checkCopy', 'cmd/gate/main/local.go: exportLocalModule')
p("C152", 'Content negotiation of the web interface',
  "A client never gets a response body of a media type which its Accept headers don't allow: it's answered 406 (and nothing is done) instead, and a client which allows the type gets the content. Request content is taken exactly if its Content-Type is the required one, with or without parameters, and its Content-Encoding is supported. The trailing status header is sent exactly to clients which ask for trailers.",
  'All values of all the headers, as byte strings; all handlers which produce content',
  "Header values are arbitrary strings with lists, white space, parameters, weights and letter case; tests use a few browsers' headers",
  'server/web/request.go: acceptsText, acceptsJSON, acceptsTrailers, mustAcceptApplication, mustHaveContentType', 'server/web/content.go: mustDecodeContent', 'server/web/handler.go: handleGetFeatures, handleInstanceUpdate, handleInstanceDebug')
p("C153", "Configured services are available to instances, or the server doesn't start",
  'When the server starts, every gRPC service program of the configuration has been executed with the configured path and arguments and every target has been dialed with the configured options, in order; unless one of them fails (other than an optional target), in which case an error is returned and everything which was started and opened is closed. The options of an extension are its own. Services with equal names are refused at startup, and instances get each configured service. Closing terminates the programs, and what they write to their error output gets logged.',
  'All configuration strings, extensions, services of the peers, failures, and schedules of the error output pipe',
  'The strings, the failing step and the schedule are arbitrary; tests run one well-behaved program',
  'service/grpc/config/config.go: Conf.Init, Conf.Register, Conf.Close', 'service/grpc/executable/executable.go: Execute, Conn.Close, logErrorOutput', 'service/extension.go: Config, Init', 'internal/services/services.go: Init')
p("C154", "The server program starts with exactly what it's configured to, or fails before telling that it's ready",
  "gate-server gets to serve exactly if its configuration is complete and everything which it refers to is available; then it has all of its listeners, executors and databases, and has given up its privileges, before it notifies that it's ready, and it serves what is configured (access policy, storage, authority, sources, nonce database). Otherwise it ends with an error message, without having told that it's ready or having served anything. With TLS, plain HTTP doesn't give access to the web API. The server serves as long as its executors live; when one dies, it takes no more requests, and ends after having finished those in progress.",
  'all configurations, all combinations of failing operations, all request paths and methods, all interleavings of requests, the executor watcher and the main goroutine',
  "Tests start servers with a few configurations; the combinations of options and failures, and the race between the shutdown goroutine and the returning main function, can't be enumerated.",
  'cmd/gate-server/main/servercmd.go: main2, newHTTPSHandler, newHTTPHandler, handle', 'server/web/handler.go: newHandler', 'server/server.go: New')
p("C155", 'The repl command shows what the instance sends and sends what is typed',
  'The output which an instance sends to a repl command is shown completely and in order until the connection ends; every typed line is sent once and in order; and the command ends when the user ends the input.',
  'all sequences of messages and chunks, all typed lines, all interleavings of typing, the output reader and the program',
  'The chunking of output to messages is up to timing, and tests send single messages.',
  'cmd/gate/main/repl.go: repl, websocketConn.Read, websocketConn.Write, replWebsocket', 'cmd/gate/main/local.go: repl command', 'cmd/gate/main/remote.go: repl command')
p("C156", "A program's object map, text and module come back from its file",
  "However a program's text and module are written in pieces and whatever state (stack, globals, memory) is written meanwhile, with or without an instance built along, the object map, the text and the module of the program are the original ones after it has been stored and loaded, also for snapshots and snapshots of snapshots; the parts of the file never overwrite each other, and finishing the text never panics.",
  'all object maps, module and text sizes within the parts of the file, all sequences of writes, all ways in which the kernel splits and retries the writing of the object map, any number of snapshots',
  "the parts of a sparse file of 18 GiB are at fixed offsets, and the object map is copied or written depending on how the module's size is related to page boundaries; tests can't try all sizes, and don't see failing writes",
  'image/build.go NewBuild, FinishText, FinishProgram', 'image/objectmap.go', 'image/filesystem.go storeProgram, loadProgram', 'image/snapshot.go Snapshot', 'image/program.go NewModuleReader')
p("C157", 'Files and mappings of images are released exactly once',
  'Whatever system calls fail: building a program and an instance, making an instance, taking a snapshot, loading and storing either leave open exactly what they return, or nothing, and leave nothing mapped; also if the user of a build gives up at any point and closes it. No file which belongs to someone else is ever closed, and none is closed twice.',
  'all sequences of failures of system calls, all configurations of a build, and all points at which its user gives up',
  'it takes failing system calls at each point of each function, combined with deferred functions, to find a leak or a double close',
  'image/build.go', 'image/instance.go NewInstance', 'image/snapshot.go Snapshot', 'image/filesystem.go', 'image/memory.go', 'internal/file/file.go Close', 'server/program.go _buildProgram')
p("C158", 'Web monitor clients see the state and then every event in order, and are let in by origin',
  "A websocket connection to the monitor is accepted iff no origins are configured, or the request's (first) Origin header is one of the configured ones. Its client is sent the state, then every event since its subscription in order without gaps, then at most one close message as the last one: try-again-later only if the monitor's buffer was full, going-away only if the server was stopped. A connection which has ended isn't subscribed any more.",
  "all schedules of monitor calls, other subscribers, write failures, cancellations and clients' disconnections; all headers and origin lists",
  "the frames depend on the interleaving of the monitor's loop, its callers and slow clients",
  'server/monitor/webmonitor/webmonitor.go: checkOrigin, Handler, handle', 'server/monitor/monitor.go: Subscribe, Unsubscribe, loop')
p("C159", 'Debugging an instance changes neither where it is nor what it does',
  "Changing an instance's debug configuration leaves its execution state as it was: when it's resumed, it goes on at the call sites (or with the functions) where it was suspended; snapshots of it have them; the breakpoints which clients are told are those in the text with which it's run; a module is accepted only if all its breakpoints have been set.",
  'all histories of debug requests (with concurrent rebuilds becoming ready in any order), resumptions, suspensions and server restarts; all compilers (layouts of text by breakpoints)',
  'whether a saved address fits the text depends on the whole history of rebuilds, runs and restarts',
  'server/instance.go: _debug, apply, startOrAnnihilate, _snapshot', 'server/server.go: DebugInstance', 'server/program.go: _rebuildProgramImage', 'build/build.go: CodeConfig, VerifyBreakpoints', 'image/instance.go: NewInstance, CheckMutation', 'image/snapshot.go: Snapshot')
p("C160", 'Starting an executor leaves nothing behind when it fails',
  "Creating an executor either fails and leaves the server process with the files and children it had, or succeeds with one new connection and, if it is not given a connection or a daemon, one new container process which has got the control socket, the loader, the executor and the cgroup under the descriptor numbers it expects; the caller's files stay open; the runtime daemon, when it is done with a connection, has closed it once and has no file or process left of it, whatever failed; waiting for a container reports no error exactly if it was told to terminate and exited with zero.",
  'all configurations, all sets of failing system calls, all states of the process',
  "Unit tests can't make each single system call of a start fail.",
  'runtime/executor.go NewExecutor', 'runtime/container.go startContainer dialContainerDaemon', 'internal/sys/socketpair.go SocketFilePair', 'internal/container/parent.go Start Wait', 'cmd/gate-runtime/main/runtimecmd.go handle')
p("C161", 'The runtime daemon serves one socket and removes only sockets',
  "gate-runtime listens to the one Unix socket which it has been passed and has no setting, or to the one which the setting names and has been passed none, or doesn't start; it removes or replaces nothing but the named socket; it handles each accepted connection, gives the clients different numbers, and goes on after errors.",
  'all settings, passed sockets, contents of the file system and sequences of accept results',
  'Tests try a few configurations; the statement is about all of them.',
  'cmd/gate-runtime/main/runtimecmd.go Main')
p("C162", 'The monitoring dashboard shows what the server reports',
  "The web monitor's dashboard shows the server's counts of programs and instances from the first frame of a connection on, follows each reported event (an instance's creation adds one, its deletion takes one away, others change nothing) and lists each event by its name; it tells a restart of the server exactly if the server's start time has changed; it always has a connection or is about to make one, and says Not connected exactly while no frames come.",
  'all sequences of frames, errors, closings and timeouts; all events which the server can send',
  'There are no tests of the page, and the statement is about every event and every history of connections.',
  'server/monitor/webmonitor/dashboard.js', 'server/monitor/webmonitor/webmonitor.go Handler', 'server/event/event.pb.go')
p("C163", "A user's processes go to the user's own slice",
  "A process factory which groups users' processes makes the process of a request without a user id with the default factory, and that of a request with one in the directory of the systemd slice of exactly that number, or fails: a user id which isn't a decimal number below 2^31 opens no directory, nothing else of it gets into the path, and different numbers have different slices. However the call and the executor interleave, the slice's directory is open when it is passed to the executor, and is closed exactly once. Cgroup directories stay below the hierarchy's root.",
  "all user id strings, all sets of existing directories, all interleavings of the call and the executor's sender",
  'Tests try a few user ids and one schedule.',
  'runtime/system/usergroup.go GroupUserProcesses', 'runtime/group.go OpenCgroup', 'internal/container/cgroup.go OpenCgroupFD', 'internal/file/fileref.go Ref', 'runtime/executor.go execute')
p("C164", 'Error codes of the runtime have stable numbers and the right descriptions',
  "Each error code which the container, the executor, its child or the loader exits with has one number, the same in C and Go, in the table in which that program's exit codes are looked up; the number collides with none of the results and traps of processes; looking it up gives its own description, and other exit codes are reported as unknown. Regenerating the tables from any sources keeps all numbers, gives each mentioned error exactly one number below 100, changes nothing the second time, and prevents compilation until new errors are described.",
  'all exit codes, all error codes in the sources, all source texts given to the generator',
  "No test looks at exit codes which don't occur, or at future versions of the sources.",
  'internal/error/runtime/errors.go', 'internal/error/runtime/runtimeerror.go ExecutorError ProcessError', 'runtime/include/errors.h', 'internal/cmd/runtime-errors/generate.go', 'runtime/executor/executor.c', 'runtime/loader/loader.c')
p("C165", 'Packet checks accept exactly the well-formed packets, and packets can be printed',
  "The validity checks of service packets never panic and accept exactly the packets which are long enough, have the given code and domain and, for streams, no negative stream or increment and no partial entries; importing returns the packet itself or an error; the assertions panic exactly for packets of other domains or too short ones; what the package makes is valid; a packet's text can be made of all packets with a complete header, and shows each of their entries once.",
  'all byte strings, codes and domains',
  'Tests check a few packets.',
  'packet/packettest.go IsValidCall IsValidInfo IsValidFlow IsValidData ImportCall ImportData', 'packet/packet.go MustBeCall MustBeInfo MustBeFlow MustBeData IsStream', 'packet/fmt.go String')
p("C166", 'The embedded library binary behaves as the library model',
  "The bytes which every program is linked with (the library embedded in the server) decode to a module which exports exactly the documented functions with their signatures. Executed by the semantics of WebAssembly on top of the runtime's functions, every exported function, for all arguments of its types, in all states of the program's memory and for all responses of the kernel, has the same outcome, the same result and the same effects as the model of the library which the other properties are proved about; it never gets stuck, all of its loops end, and it never calls the reserved runtime function (whose slot of the vector isn't code). The checksum recorded in programs is that of the embedded bytes.",
  'all exported functions, arguments, process states, kernel responses, both architectures',
  'A test calls functions with some arguments against one kernel; the generated bytes are separate from the text they are generated from.',
  'runtime/abi/library.go: libraryWASM, LibraryChecksum', 'runtime/abi/library.wat', 'runtime/abi/abi.go: init', 'internal/cmd/abi-library/generate.go: main')
p("C167", 'Resuming a program which the library has stopped',
  "A program calls a library function which the system can't carry out (ABI deficiency): closing or renumbering a descriptor, dropping rights, reading a process clock, polling a clock, or raising a signal. The instance is stopped with status 127 before anything has been done. When it's resumed, the call doesn't pretend to have succeeded: it's stopped again, however many times it's resumed, for as long as the runtime has no other answer. A program which has exited never continues. Getting random data continues from where it was.",
  'every function, arguments, memory contents, number of times resumed, and result of the resumed runtime call',
  'A test resumes an instance once; the claim is about every number of resumptions and every state the process is resumed in.',
  'runtime/abi/library.wat: clock_time_get, fd_close, fd_fdstat_set_rights, fd_renumber, poll_oneoff, proc_exit, proc_raise, random_get', 'runtime/abi/library.go: libraryWASM', 'runtime/loader/x86_64/runtime.S: rt_stop', 'server/instance.go: stateString')
p("C168", 'A process begins only as the runtime starts it',
  "The program in which user code is going to run is started with an empty argument list and environment, and needs the kernel's vDSO for the time. Whatever the kernel has put on the new process's stack (arguments, environment variables, and any auxiliary vector, with entries in any order), the process either calls the loader with the first vDSO address in the vector, and exits with what the loader returns, or, if there's an argument or an environment variable, exits with the error for that, or, if there's no vDSO, exits with the error for that. It reads nothing but the vector, and doesn't depend on the other registers.",
  'every stack contents, register contents, memory outside the vector, loader result, and both architectures',
  "It's assembly run before anything can be observed; tests execute it with the one auxiliary vector which their kernel provides.",
  'runtime/loader/x86_64/start.S: _start', 'runtime/loader/aarch64/start.S: _start', 'runtime/include/errors.h: ERR_LOAD_ARG_ENV, ERR_LOAD_NO_VDSO', 'runtime/loader/loader.c: main')
p("C169", 'What a client of the web API is told',
  "Every action of the web API asks the server for exactly the one operation it stands for, with the request's parameters, and only when the request is authorized as the action requires and its content can be decoded; otherwise for none. A refusal or failure is answered with an error response, never a success code. A success is answered with the action's own status code, body, and exactly these headers: the location of every module which was kept at the client's request and whose URL the request didn't already have, and of no other; the instance's id if the client may use it; the status of the program where it was waited for; content length and type. The status of a called program follows as a trailer if the client accepts trailers. A called program is killed exactly once when the call is over, nothing else is, and opened content is closed once, last.",
  "all actions with all parameters, all results of authorization and decoding, all results of the server's operations, HTTP and websocket",
  "The combinations of actions, results and options are unbounded, and the header map's contents depend on the order of writes and the response's beginning.",
  'server/web/handler.go handleModuleList', 'server/web/handler.go handleCall', 'server/web/handler.go handleCallWebsocket', 'server/web/handler.go handleLaunch', 'server/web/handler.go handleInstanceWaiter', 'server/web/handler.go handleInstanceConnect', 'server/web/handler.go handleInstanceUpdate')
p("C170", "The server's log shows each internal failure once, and can't be forged through error texts",
  "Of every history of reported events, the error log gets exactly the internal failures, in order, and the event log (when verbose) exactly the others; a web monitor or any other combined monitor doesn't change that, and sees every event itself. Each event is one line: no error text breaks the line or hides where it ends, and it can be read back exactly. Event types have unique names and numbers.",
  'all histories of events, all error texts (including invalid UTF-8), all monitors',
  'Error texts are arbitrary bytes, partly chosen by clients; histories are unbounded.',
  'server/monitorutil.go MultiMonitor', 'server/monitorutil.go ErrorEventLogger', 'server/monitorutil.go ErrorLogger', 'server/monitorutil.go printToLogger', 'server/event/type.gen.go EventType', 'internal/cmd/event-types/generate.go')
p("C171", 'An instance id names one instance at a time, and operations never reach another instance of the same id',
  "Whatever instances are launched, run, deleted and launched again under the same ids by any number of clients: at every moment at most one of an account's instances is found by an id; of launches with the same id one gets it and the others are refused; an operation or a late removal on an earlier instance neither affects a later one nor what is stored of it; a removed instance is never found again; and the id of an instance which has been reported to be gone can be used again.",
  'all histories of launches and of critical sections of operations on all instances ever launched, including failing ones',
  'Requires particular interleavings of requests with the ends of earlier instances.',
  'server/server.go _registerProgramRefInstance', 'server/server.go deleteNonexistentInstance', 'server/server.go _checkAccountInstanceID', 'server/account.go _checkUniqueInstanceID', 'server/instance.go drive')
p("C172", "API calls can't deadlock the server or race for its state",
  "However API calls and running instances are interleaved: the server's, an account's and an instance's guarded state is only touched by the goroutine holding the mutex which guards it; a mutex is only unlocked by its holder; whoever holds one of the server's mutexes holds no other, and waits neither for another mutex nor for a client, a program or an instance, so that every call waiting for a mutex gets it after finitely many steps of the holder alone.  This presupposes a monitor function which doesn't call the server: one which does (on ModuleInfo, module pinning or instance stop events) deadlocks it.",
  'all monitor functions, all assignments of API call sequences and instance drivers to goroutines, all outcomes of conditions, loops and panics in the calls, all schedules',
  'Deadlocks and data races depend on rare interleavings of arbitrarily many goroutines; tests run a few.',
  'server/lock.go', 'server/server.go:Server', 'server/instance.go:Instance', 'server/program.go:program._ensureStorage')
p("C173", "An instance's process, services and buffers are used by one goroutine at a time, and every process is started, served and closed in order",
  'However an instance is started, connected to, suspended, killed, resumed (also by several clients at once), snapshotted, debugged and deleted: the accesses to its state never race, although the goroutine which runs the program uses the process, the services and the snapshot buffers without the mutex; at most one goroutine at a time starts, serves or closes a process (as the runtime requires); every process that is allocated is started at most once, serves at most once and only after it was started, is closed at most once, after everything else, and is closed by the time that nobody is responsible for it; and the channel which tells of the end of a run is never closed twice, which would be a panic.',
  'all numbers of goroutines and processes, all sequences of API calls, all outcomes of starting, resuming and storing, all schedules',
  "A race needs a client's call at a certain point of a run; tests don't reach the points.",
  'server/instance.go: startOrAnnihilate, stop, _doResume, drive, connect, _snapshot', 'server/server.go: ResumeInstance, _runOrDeleteInstance, _registerProgramRefInstance, closeInstanceResources', 'runtime/process.go: Start, Serve, Close')
p("C174", "No API call uses the image of an instance which doesn't have it any more",
  'Whatever other clients do to an instance at the same time, starting, running, stopping, resuming, snapshotting and deleting it use its image, process and services only while it has them. Reading its information and debugging it do so, too: a call which comes too late fails with an error for its client.',
  'all sequences of API calls of any number of goroutines, all schedules',
  'The call has to find the instance before another call deletes it, and use it afterwards.',
  'server/instance.go: startOrAnnihilate, drive, info, _debug, instanceRebuild.apply, _annihilate', 'server/server.go: DebugInstance, Instances, InstanceInfo, asError')
p("C175", 'The snapshot buffers of a program are never changed by the instances which are launched from it',
  "A program's snapshot buffers (the messages in flight, the unread input and the service states of the module which was uploaded, or of the instance which was snapshotted) are given to every instance which is launched from the program without copying their contents. Whatever those instances, their programs and the services do, and whichever of them run at the same time, the buffers keep saying what they said; and what an instance has when it stops is exactly what it had in flight, in order, in arrays of its own.",
  "all uploaded modules' buffers and all ways in which they overlap in memory, any number of instances launched from the same buffers, all packets, all interleavings of the instances, their services and their writes to streams, all spare capacities",
  'It is about aliasing between instances which have nothing else to do with each other (possibly of different users), over their whole lives, and the damage is visible only in an instance which is launched later',
  'snapshot/buffers.go Buffers', 'runtime/io.go ioLoop, splitBufferedPackets, initMessagePacket', 'packet/packetio/state.go State.Unmarshal', 'packet/packetio/write.go WriteStream.Write', 'server/server.go newInstance')
p("C176", "The daemon's web interface starts only on local names, and serves only configured static files",
  "When gate-daemon starts its HTTP interface, the listening host and every configured origin resolve to loopback addresses (at startup), at least one origin is configured, and the static URIs are distinct, well formed and don't replace the API's root. Afterwards a static request yields a file only with GET or HEAD, from no origin or the daemon's own, and the file is a configured one or lies (lexically) within the configured directory which stands for the path; any other origin is forbidden and never allowed; other clean paths reach the API; redirects are to clean paths and end after at most one more.",
  'every configuration, resolver behaviour, set of static entries, and request (method, path, Origin header)',
  'the configurations, paths and dot-dot spellings are unbounded, and resolution may differ between lookups',
  ('cmd/gate-daemon/main/daemoncmd.go', 'verifyLoopbackHost, newHTTPHandler, newStaticHTTPHandler'))
p("C177", 'A debug log given with a call is closed exactly once, after everything has been written to it',
  "Every debug log which is given to the server when an instance is launched or resumed is closed exactly once: by the call if it fails before an instance has got the log, otherwise when the instance which got it has stopped or failed to start. No two instances write to the same log. When an instance stops without an internal failure, everything which its program has written as debug output is in the log before it's closed, and nothing is written to a closed log.",
  'every interleaving of launches, resumptions, starts, failures, debug output, copying, broken logs, and deletions, of any number of instances',
  "it depends on which goroutine gets to copy, close or fail first, and on every path that an instance's life can take",
  ('server/instance.go', 'InvokeOptions.Close, takeDebugLog, newInstance, startOrAnnihilate, stop, _doResume, drive'), ('runtime/process.go', 'Process.Start, Serve'), ('runtime/debug.go', 'copyDebug'), ('cmd/gate-daemon/main/daemoncmd.go', 'invokeOptions, doLaunch, resumeInstance'))
p("C178", 'Break expressions of the debug command mean exactly the offsets which they say',
  "`gate debug INSTANCE break|delete EXPRESSION...` requests exactly the offsets which its expressions mean, or fails without a request if some expression means nothing. A number (decimal, or prefixed 0x, 0o, 0b, 0; underscores between digits) is an offset itself; FILE:LINE is the first address of the line in every source file of the debug information whose last path components are FILE's; a name is the first instruction at or after the start of every function which has the name.",
  'every list of expressions (byte strings), all debug information (line tables, subprograms, instruction maps) of any size, and every iteration order of the map of files',
  'expressions and debug information are unbounded, and map iteration order is unspecified',
  ('cmd/gate/main/debug.go', 'parseBreakpoints, asUint64, lineAddrs'))
p("C179", 'Exit statuses and operations get through between the runtime and the executor process as they were sent',
  "However the bytes of the exit statuses which the executor process sends are split when the runtime reads them, the statuses which have arrived completely have been delivered with the identifiers and wait statuses which were sent, in order, none of them twice; at most seven bytes are waiting for the rest, and there's always room for the largest message that the executor process sends. A creation, kill or suspension of any process identifier that the runtime gives out is received by the executor process as that operation on that identifier, and only closing the executor shuts it down.",
  'every sequence of statuses (16-bit identifiers, 32-bit wait statuses), every partition of the byte stream into reads, every process identifier',
  'the kernel chooses how the stream is split, and all identifiers and statuses are possible',
  ('runtime/executor.go', 'sender, receiver, killSuspend, finalize'), ('runtime/executor/executor.c', 'struct exec_request, struct exec_status, receive_ops, send_queued, wait_process'))
p("C180", 'Files passed with calls of the daemon are closed exactly once',
  "Every file which is passed with a call of the daemon's bus methods is closed exactly once, whether the call succeeds or fails at any point: when the call ends, when the goroutine, server or instance which has got it is done with it, and never twice. Nothing else is closed. An instance which was created by a Call or CallFile method is killed when the method ends, whatever happens in between.",
  'every bus method which has file parameters, and every combination of failures, refusals and ownership transfers during the call',
  'descriptor leaks and double closes show only on particular failure paths, and a double close hits an unrelated file',
  ('cmd/gate-daemon/main/daemoncmd.go', 'methods, doCall, doLaunch, resumeInstance, connectInstance, uploadModule, moduleUpload, invokeOptions'), ('server/instance.go', 'InvokeOptions.Close'), ('server/upload.go', 'ModuleUpload'))
p("C181", 'When the server has been shut down, nothing runs and everything persistent is stored',
  "When Shutdown has returned without an error (and its context wasn't canceled), every instance has been told to stop and has stopped, every persistent one's state is in the storage (unless storing it failed), nothing new can be registered or found, and an error is returned only if the context was canceled.",
  'every interleaving of a shutdown with launches, resumptions, stops, updates and cancelation, for any number of instances and requests',
  "A test shuts down an idle server; which requests are between two of their critical sections at that moment, and what the processes do while they're being signalled and waited for, is a matter of schedules.",
  ('server/server.go', 'Server.Shutdown, Server.ResumeInstance, Server._registerProgramRefInstance, Server._runOrDeleteInstance, Server._getInstanceBorrowProgram'), ('server/instance.go', 'Instance.Wait, Instance.suspend, Instance.Kill, Instance.startOrAnnihilate, Instance._doResume, Instance.drive'))
p("C182", "What the gate program's local commands pass through pipes arrives whole, and the commands end",
  'Uploading a module through a pipe (import, pull) succeeds exactly when the daemon has got and accepted the whole of it, and always comes to an end; everything which an instance writes to the connection of a call or io command has got to the standard output when the command is done.',
  'every module or output, pipe capacity, and interleaving of the goroutine which copies, the daemon, and the command',
  'How much of a pipe has been copied when a process exits is a matter of scheduling; a hang is a state without steps, which tests see only as slowness (and with regular files there are no pipes).',
  ('cmd/gate/main/local.go', 'localCommands, openStdio, copyStdin, copyStdout, closeFiles, daemonCall'))
p("C183", 'A call operates only on the run which it has started, and leaves nothing running behind',
  "When a call (web or bus) has ended, the instance run which it started isn't running on; what it kills, suspends and reports the status of is that run only; it suspends only if it has been asked to; and an instance which it leaves behind has its program in the storage.",
  "every interleaving of a call, its suspension request, its client's disappearance, and other clients' suspending, persisting and resuming of the same instance",
  "The window between a call's last look at the instance and the signal which it sends is a few instructions; a test can't make another client's requests fall into it.",
  ('cmd/gate-daemon/main/daemoncmd.go', 'doCall'), ('server/web/handler.go', 'handleCall, handleCallWebsocket'), ('server/instance.go', 'Instance.Wait, Instance.Kill, Instance.Suspend, Instance.drive'), ('server/server.go', 'Server.SuspendInstance, Server.ResumeInstance'))
p("C184", 'Starting and stopping the daemon',
  "Whatever step of its start fails, the local daemon releases what it has acquired, each thing once and in the reverse order (the server is shut down before the bus connection, the storage and the executor are closed), and its exit status says what happened: 0 when a signal has stopped it (and only then systemd is told that it's stopping), 3 when another daemon has the name, 1 otherwise. It tells systemd that it's ready and gives its bus methods the server exactly if all steps have succeeded and the name is its own. A second daemon never creates a server.",
  'every combination of failing steps, configuration, answer of the bus and moment at which the web interface or the bus connection fails',
  "the tests don't start the daemon; failures of the bus, of systemd's socket or of a listening address at a given step can't be provoked one by one",
  ('cmd/gate-daemon/main/daemoncmd.go', 'Main, mainResult, methods'), ('server/server.go', 'Server.Shutdown'))
p("C185", 'What the command tells about the end of a program',
  "The command which calls a program ends with the program's result as its exit status if the program has terminated by itself, and otherwise says the state and cause which the server has reported; what's said is different for different states, causes and results. The exit status is 0 only if the program has succeeded. Which way the call is made (local daemon, web request, websocket) makes no difference to that, nor does the program's use of input.",
  "every status, every sequence of messages which the server's websocket handler can send, under every interleaving of its goroutines",
  'the command ends the process which a test would run in; whether the server asks for input before the program ends depends on scheduling',
  ('cmd/gate/main/local.go', 'call, statusString, daemonCallWaitInstance'), ('cmd/gate/main/remote.go', 'call, callPost, callWebsocket, unmarshalStatus'), ('server/web/api/webapi.go', 'Status.String'), ('server/web/websocket.go', 'connectionStatusInputMessage, writeInputHint'))
if __name__ == "__main__":
    with open("/verif/properties.jsonl", "w") as f:
        for x in P:
            f.write(json.dumps(x) + "\n")
    print(len(P))
