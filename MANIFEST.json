{
 "claims": [
  {
   "property": "C01",
   "status": "proved",
   "theorems": [
    "Gate.Packet.make_fields",
    "Gate.Packet.setCode_fields",
    "Gate.Packet.setIndex_fields",
    "Gate.Packet.setSize_fields",
    "Gate.Packet.makeData_fields",
    "Gate.Packet.setDataNote_fields",
    "Gate.Packet.get_panics_iff"
   ],
   "note": "All header fields, all values."
  },
  {
   "property": "C02",
   "status": "partial",
   "theorems": [
    "Gate.Packet.split_partial",
    "Gate.Packet.dataSplit_prefix",
    "Gate.Packet.align_spec",
    "Gate.Packet.split_short_remainder_not_empty",
    "Gate.Packet.split_doc_false"
   ],
   "note": "The prefix part holds for all inputs; the documented 'empty remainder when it cannot hold a header' is refuted (split_doc_false)."
  },
  {
   "property": "C03",
   "status": "proved",
   "theorems": [
    "Gate.Packet.makeFlows_num",
    "Gate.Packet.flow_set_get",
    "Gate.Packet.makeFlow_exact"
   ],
   "note": ""
  },
  {
   "property": "C04",
   "status": "proved",
   "theorems": [
    "Gate.Varint.scan_put",
    "Gate.Varint.len_put",
    "Gate.Varint.scan_total",
    "Gate.Varint.scan_value"
   ],
   "note": ""
  },
  {
   "property": "C05",
   "status": "proved",
   "theorems": [
    "Gate.StreamState.marshal_unmarshal",
    "Gate.StreamState.stream_marshal_unmarshal"
   ],
   "note": ""
  },
  {
   "property": "C06",
   "status": "proved",
   "theorems": [
    "Gate.StreamState.unmarshal_total"
   ],
   "note": ""
  },
  {
   "property": "C07",
   "status": "proved",
   "theorems": [
    "Gate.ReadStream.flow_control",
    "Gate.ReadStream.suspend_state",
    "Gate.ReadStream.start_no_panic"
   ],
   "note": "All schedules of both sides; sizes unbounded, uint32 wrap modelled."
  },
  {
   "property": "C08",
   "status": "partial",
   "theorems": [
    "Gate.ReadStream.eof_once_partial",
    "Gate.ReadStream.eof_at_most_once",
    "Gate.ReadStream.eof_not_always_sent"
   ],
   "note": "At most once always; exactly once unless the reader returns data together with its end or the context is cancelled, where the full property is refuted (eof_not_always_sent)."
  },
  {
   "property": "C09",
   "status": "proved",
   "theorems": [
    "Gate.WriteStream.fifo",
    "Gate.WriteStream.write_accepted_iff",
    "Gate.WriteStream.start_buffer"
   ],
   "note": "Refinement of the ring to a FIFO queue over all schedules; unbounded volume (uint32 offsets wrap)."
  },
  {
   "property": "C10",
   "status": "proved",
   "theorems": [
    "Gate.WriteStream.credit_bound",
    "Gate.WriteStream.within_credit_accepted",
    "Gate.WriteStream.credit_replenished"
   ],
   "note": ""
  },
  {
   "property": "C11",
   "status": "partial",
   "theorems": [
    "Gate.WriteStream.suspend_partial",
    "Gate.WriteStream.suspend_wrapped",
    "Gate.WriteStream.wrapped_reachable"
   ],
   "note": "Holds exactly when the undelivered bytes do not wrap around; in every wrapped state it is refuted (2^32-size zero bytes are appended), and a wrapped state is reachable."
  },
  {
   "property": "C12",
   "status": "partial",
   "theorems": [
    "Gate.WriteStream.restored_transfer_fails",
    "Gate.WriteStream.closed_stream_not_restorable"
   ],
   "note": "Refuted: for every schedule of a program within its credit the restored transfer fails at once. The serialization part is C05."
  },
  {
   "property": "C13",
   "status": "proved",
   "theorems": [
    "Gate.Framing.framing",
    "Gate.Framing.framing_total"
   ],
   "note": "framing: all packet lists, paddings, chunkings and already buffered parts. suspend_in_padding (under C54) is about cutting the stream by suspension."
  },
  {
   "property": "C14",
   "status": "proved",
   "theorems": [
    "Gate.Framing.split_total",
    "Gate.Framing.split_exact"
   ],
   "note": ""
  },
  {
   "property": "C15",
   "status": "proved",
   "theorems": [
    "Gate.Framing.check_spec",
    "Gate.Framing.handle_spec",
    "Gate.Framing.handled_is_deliverable"
   ],
   "note": ""
  },
  {
   "property": "C16",
   "status": "proved",
   "theorems": [
    "Gate.Services.discovery_request",
    "Gate.Services.parseNames_iff",
    "Gate.Services.reply_spec"
   ],
   "note": ""
  },
  {
   "property": "C17",
   "status": "partial",
   "theorems": [
    "Gate.Services.handle_total_partial",
    "Gate.Services.fresh_never_panics_partial",
    "Gate.Services.restored_many_panics"
   ],
   "note": "Holds with at most 256 services (every program not restored from a snapshot). Refuted for restored lists longer than 256: negative slice length panics."
  },
  {
   "property": "C18",
   "status": "proved",
   "theorems": [
    "Gate.IoLoop.order",
    "Gate.IoLoop.order_refused",
    "Gate.IoLoop.stop_saves",
    "Gate.IoLoop.resume_messages"
   ],
   "note": "resume_messages: the kept output splits back into exactly the undelivered messages."
  },
  {
   "property": "C19",
   "status": "partial",
   "theorems": [
    "Gate.IoLoop.kept_input_aligned_partial",
    "Gate.IoLoop.kept_input_misaligned"
   ],
   "note": "Refuted in general (pending events are kept without padding); proved when all event lengths are multiples of eight."
  },
  {
   "property": "C20",
   "status": "proved",
   "theorems": [
    "Gate.Framing.event_padding",
    "Gate.Framing.init_message"
   ],
   "note": ""
  },
  {
   "property": "C21",
   "status": "proved",
   "theorems": [
    "Gate.Services.lookup_spec",
    "Gate.Services.nearest_unique",
    "Gate.Services.lookup_valid",
    "Gate.Services.clone_isolated",
    "Gate.Services.register_spec"
   ],
   "note": "Unicode categories of characters are a parameter."
  },
  {
   "property": "C22",
   "status": "proved",
   "theorems": [
    "Gate.Services.discover_spec",
    "Gate.Services.discover_history",
    "Gate.Services.restore_spec"
   ],
   "note": ""
  },
  {
   "property": "C23",
   "status": "partial",
   "theorems": [
    "Gate.Services.state_restored_partial",
    "Gate.Services.stale_state_replayed",
    "Gate.Services.stale_state_always"
   ],
   "note": "The property is false: the saved state is not cleared when an instance is restored (assignment to a loop copy); the refutation and the part that holds are proved."
  },
  {
   "property": "C24",
   "status": "proved",
   "theorems": [
    "Gate.Process.normal_exit",
    "Gate.Process.trap_exit",
    "Gate.Process.other_exit",
    "Gate.Process.signal_exit",
    "Gate.Process.status_cases",
    "Gate.Process.report_sound",
    "Gate.Process.program_end_reported",
    "Gate.Process.exit_100_is_success",
    "Gate.Process.grow_failure_reported_as_success",
    "Gate.Process.result_is_status"
   ],
   "note": "Every wait status and every way the I/O loop ends. Findings proved beside it: exit code 100 is reported as trap 0 (exit/success), and on x86-64 a failed memory growth call ends up as a success report. The wag trap numbering (0..10) is assumed from the trap package and server.proto."
  },
  {
   "property": "C25",
   "status": "proved",
   "theorems": [
    "Gate.Executor.decided_once",
    "Gate.Executor.identifiers_conserved"
   ],
   "note": "All interleavings of the atomic steps of callers, sender, receiver and executor process; executor death ends a run."
  },
  {
   "property": "C26",
   "status": "partial",
   "theorems": [
    "Gate.Executor.first_kill_is_requested_partial",
    "Gate.Executor.kill_after_other_call_ignored",
    "Gate.Executor.kill_after_suspend_lost"
   ],
   "note": "Refuted in general: a kill after a suspend is ignored (kill_after_suspend_lost).  Holds when the kill is the first call on the process."
  },
  {
   "property": "C27",
   "status": "partial",
   "theorems": [
    "Gate.Executor.quiet_identifiers_safe_partial",
    "Gate.Executor.status_misattributed",
    "Gate.Executor.receiver_crashes",
    "Gate.Executor.executor_dies"
   ],
   "note": "Refuted in general: an identifier returns to the pool when the kill request is queued, so a later status can be attributed to the wrong process, and the receiver or the executor can crash.  Holds for all runs where an identifier is only reused when quiet."
  },
  {
   "property": "C28",
   "status": "proved",
   "theorems": [
    "Gate.Ring.statuses_fifo",
    "Gate.Ring.poll_room",
    "Gate.Ring.send_possible",
    "Gate.Ring.send_resumes"
   ],
   "note": "All schedules of child deaths and sends of the executor's status queue. Assumes that the kernel accepts whole status records in a send."
  },
  {
   "property": "C29",
   "status": "partial",
   "theorems": [
    "Gate.Sharder.outcome_sound_partial",
    "Gate.Sharder.ready_taken_partial",
    "Gate.Sharder.distribution_panics",
    "Gate.Sharder.two_executors_panic",
    "Gate.Sharder.no_executors_panic",
    "Gate.Sharder.wrong_channel_removed",
    "Gate.Sharder.all_empty"
   ],
   "note": "The distribution claim is refuted: the distributing select panics for most histories with several executors. What holds of each returned process (it comes from a configured executor, and a ready one is taken) is proved; the failures are proved as theorems."
  },
  {
   "property": "C30",
   "status": "proved",
   "theorems": [
    "Gate.Process.addresses_valid",
    "Gate.Process.fixed_text",
    "Gate.Process.addresses_injective"
   ],
   "note": "All random inputs, page sizes 4096..65536."
  },
  {
   "property": "C31",
   "status": "proved",
   "theorems": [
    "Gate.Leb.i64_const",
    "Gate.Leb.i32_const",
    "Gate.Leb.put_undisturbed",
    "Gate.Leb.before_offset",
    "Gate.Leb.wasmU_bytes",
    "Gate.Leb.wasmS_range"
   ],
   "note": "Encoders proved against a decoder written from the WebAssembly specification."
  },
  {
   "property": "C32",
   "status": "partial",
   "theorems": [
    "Gate.Sections.buffers_roundtrip",
    "Gate.Sections.no_buffers",
    "Gate.Sections.load_stored_buffers_fails",
    "Gate.Sections.memory_section",
    "Gate.Sections.globals_section",
    "Gate.Sections.data_section",
    "Gate.Sections.stack_section",
    "Gate.Sections.export_wrap",
    "Gate.Sections.globals_disagree",
    "Gate.Sections.global_roundtrip"
   ],
   "note": "The round trip through a section is proved for all buffers (and the other sections' makers against the WebAssembly format); reading buffers back through a stored program fails for every non-empty buffers (the byte range includes the section's frame), proved as load_stored_buffers_fails."
  },
  {
   "property": "C33",
   "status": "proved",
   "theorems": [
    "Gate.Sections.snapshot_roundtrip",
    "Gate.Sections.readSnapshot_total"
   ],
   "note": "For all snapshot metadata and all byte sequences."
  },
  {
   "property": "C34",
   "status": "proved",
   "theorems": [
    "Gate.Dbg.sortDedup_spec",
    "Gate.Dbg.search_spec",
    "Gate.Dbg.search_found",
    "Gate.Dbg.union_spec",
    "Gate.Dbg.complement_spec",
    "Gate.Dbg.debug_config",
    "Gate.Dbg.apply_spec",
    "Gate.Dbg.too_many_refused",
    "Gate.Dbg.breakpoints_always_valid"
   ],
   "note": "Go's sort.Sort is trusted to sort; sort.Search's binary search is modelled. Operations which crash instead of succeeding are C70."
  },
  {
   "property": "C35",
   "status": "proved",
   "theorems": [
    "Gate.CallStack.export_native",
    "Gate.CallStack.export_sound",
    "Gate.CallStack.import_portable",
    "Gate.CallStack.import_sound",
    "Gate.CallStack.export_import",
    "Gate.CallStack.export_import_data",
    "Gate.CallStack.import_export"
   ],
   "note": "For every call map with distinct return addresses and every well-formed stack of any depth. wag's FindCall and FindFunc are trusted to find the site or function with the address."
  },
  {
   "property": "C36",
   "status": "partial",
   "theorems": [
    "Gate.CallStack.import_no_crash_partial",
    "Gate.CallStack.import_crashes",
    "Gate.CallStack.export_crashes"
   ],
   "note": "Refuted for the code: stack data which ends in the middle of a frame crashes the import (slice out of range); proved never to crash for all other data."
  },
  {
   "property": "C37",
   "status": "partial",
   "theorems": [
    "Gate.CallStack.initial_stack_never_imported"
   ],
   "note": "Refuted for the code: the initial stack (stack offset 16) is rejected by import for every program, start and entry function."
  },
  {
   "property": "C38",
   "status": "proved",
   "theorems": [
    "Gate.Auth.expiration_window",
    "Gate.Auth.expiration_reason"
   ],
   "note": "Clock assumed to be between 1970 and 2^62 seconds; expiration_reason: the reason given is right for every expiry later than -2^62."
  },
  {
   "property": "C39",
   "status": "proved",
   "theorems": [
    "Gate.Auth.token_accepted"
   ],
   "note": "Exact characterisation (if and only if) of accepted tokens and of the principal; JSON parsing and Ed25519 verification are arbitrary functions."
  },
  {
   "property": "C40",
   "status": "partial",
   "theorems": [
    "Gate.Nonce.nonce_once_partial",
    "Gate.Nonce.once_while_valid",
    "Gate.Nonce.replay_race",
    "Gate.Nonce.replay_without_expiry"
   ],
   "note": "At most one acceptance until the token expires, in every interleaving. Missing: a request whose expiry was checked in the token's last second is accepted again if the nonce table is purged in the next second (replay_race), and on a local-authorization server signed tokens without expiry can be replayed any number of times (replay_without_expiry). Database failures end in refusal; servers with different clocks sharing a database are not modelled."
  },
  {
   "property": "C41",
   "status": "proved",
   "theorems": [
    "Gate.Auth.scope_accepted",
    "Gate.Auth.scope_granted",
    "Gate.Auth.alias_unique",
    "Gate.Auth.matchAlias_spec",
    "Gate.Auth.own_name",
    "Gate.Auth.own_name_counterexample",
    "Gate.Auth.register_nodup"
   ],
   "note": "Alias resolution makes a registered name stand for another one only if it ends in a non-word character (own_name, own_name_counterexample). Newlines in scope strings: the regular expression's dot does not match them, which makes no difference to the result."
  },
  {
   "property": "C42",
   "status": "partial",
   "theorems": [
    "Gate.Auth.shared_account_iff",
    "Gate.Auth.separate_accounts_partial",
    "Gate.Auth.shared_account_example",
    "Gate.Auth.local_account_example",
    "Gate.Auth.local_account_iff"
   ],
   "note": "Holds for canonically encoded keys. Refuted in general: the decoder ignores two bits of the last character, so four identifiers share an account, and the local principal shares the account of the all-zero key."
  },
  {
   "property": "C43",
   "status": "partial",
   "theorems": [
    "Gate.Server.references",
    "Gate.Server.references_partial",
    "Gate.Server.closed_while_referenced",
    "Gate.Server.failed_start_breaks_module"
   ],
   "note": "References are exact in histories where no instance start fails (references_partial); for all histories the count plus the number of failed starts equals the number of references (references). The error path of _runOrDeleteInstance drops the program reference twice, so the unrestricted claim is false: closed_while_referenced, failed_start_breaks_module."
  },
  {
   "property": "C44",
   "status": "proved",
   "theorems": [
    "Gate.Server.isolation",
    "Gate.Server.only_known"
   ],
   "note": "isolation: steps by one principal leave every other principal's modules and instances unchanged; only_known: a principal only ever holds modules whose contents it presented. The existence oracle of upload-by-hash (a length mismatch error reveals a known hash) is not modelled."
  },
  {
   "property": "C45",
   "status": "proved",
   "theorems": [
    "Gate.Life.transitions",
    "Gate.Life.final_forever",
    "Gate.Life.resume_iff",
    "Gate.Life.refused_while_running",
    "Gate.Life.transient_disappears",
    "Gate.Life.disappears_only",
    "Gate.Life.gone_forever",
    "Gate.Life.listed_nonexistent",
    "Gate.Life.wait_blocks",
    "Gate.Life.released"
   ],
   "note": "All interleavings of the clients' operations at the granularity of the instance's critical sections, with arbitrary process outcomes and failures. A run which could not be started (C76) also releases its waiters."
  },
  {
   "property": "C46",
   "status": "partial",
   "theorems": [
    "Gate.Files.closed_at_most_once",
    "Gate.Files.closed_after_last_reference",
    "Gate.Files.open_iff_referenced",
    "Gate.Files.held_reference_never_panics",
    "Gate.Files.first_reference_of_released_panics_partial",
    "Gate.Files.released_file_resurrected",
    "Gate.Files.panics_exact"
   ],
   "note": "Everything but the last clause for all interleavings; referencing a released file panics the first time only: the panicking call leaves the count incremented, so the next one succeeds (released_file_resurrected)."
  },
  {
   "property": "C47",
   "status": "proved",
   "theorems": [
    "Gate.Files.vector_write_complete",
    "Gate.Files.vector_write_prefix",
    "Gate.Files.vector_write_error",
    "Gate.Files.vector_write_terminates",
    "Gate.Files.write_at_exact"
   ],
   "note": "All buffers, offsets and kernel behaviours. The kernel's answers are an arbitrary list; the kernel writes a prefix of what it is given."
  },
  {
   "property": "C48",
   "status": "partial",
   "theorems": [
    "Gate.Web.instance_action_sound",
    "Gate.Web.instance_action_refused",
    "Gate.Web.instance_action_complete",
    "Gate.Web.repeated_kill"
   ],
   "note": "Sound, complete and refusing for every query; the part saying that repeated actions are refused is false of the code: kill, suspend and wait may be repeated (repeated_kill)."
  },
  {
   "property": "C49",
   "status": "partial",
   "theorems": [
    "Gate.Web.one_effect_partial",
    "Gate.Web.one_effect_source_partial",
    "Gate.Web.suspended_call_performed"
   ],
   "note": "Holds for every handler except a module source POST with both call and suspend, where the code answers unsupported action and then performs the call (missing return; suspended_call_performed)."
  },
  {
   "property": "C50",
   "status": "partial",
   "theorems": [
    "Gate.Entry.program_resolution",
    "Gate.Entry.resolutions_agree_partial",
    "Gate.Entry.resolutions_disagree_iff",
    "Gate.Entry.resolutions_disagree",
    "Gate.Entry.resolved_has_address",
    "Gate.Entry.built_and_stored_agree_partial",
    "Gate.Entry.built_and_stored_agree_unnamed",
    "Gate.Entry.hidden_exports_disagree",
    "Gate.Entry.late_snapshot_disagrees"
   ],
   "note": "Resolution on a stored program is characterised exactly; the implementations agree exactly when no unstarted _start export has another type. False of the code otherwise, and also for hidden exports and for a snapshot section after the code."
  },
  {
   "property": "C51",
   "status": "partial",
   "theorems": [
    "Gate.ReadStream.packet_size_partial",
    "Gate.ReadStream.restored_packet_too_large"
   ],
   "note": "Holds unless data is restored with more than MaxSendSize-16 bytes, where it is refuted for every MaxSendSize."
  },
  {
   "property": "C52",
   "status": "partial",
   "theorems": [
    "Gate.ReadStream.finish_loses_subscription"
   ],
   "note": "Refuted by a schedule."
  },
  {
   "property": "C53",
   "status": "partial",
   "theorems": [
    "Gate.WriteStream.suspend_marshal_partial",
    "Gate.WriteStream.wrapped_suspend_panics",
    "Gate.WriteStream.overdrawn_suspend_panics",
    "Gate.WriteStream.wrapped_reachable"
   ],
   "note": "Holds for unwrapped streams within credit; refuted for every wrapped state and every overdrawn state."
  },
  {
   "property": "C54",
   "status": "partial",
   "theorems": [
    "Gate.IoLoop.suspend_framing_partial",
    "Gate.IoLoop.eof_partial",
    "Gate.IoLoop.suspend_mid_packet",
    "Gate.IoLoop.unexpected_is_error"
   ],
   "note": "Refuted when a part of a packet is in the pipe; proved for suspension at plain end-of-file. See also Gate.Framing.suspend_in_padding."
  },
  {
   "property": "C55",
   "status": "proved",
   "theorems": [
    "Gate.Services.catalog_spec"
   ],
   "note": ""
  },
  {
   "property": "C56",
   "status": "partial",
   "theorems": [
    "Gate.Services.restorable_partial",
    "Gate.Services.not_restorable",
    "Gate.Services.restore_spec"
   ],
   "note": "Holds for distinct names; refuted for a repeated unknown name."
  },
  {
   "property": "C57",
   "status": "partial",
   "theorems": [
    "Gate.Executor.capacity_accounted_partial",
    "Gate.Executor.capacity_lost"
   ],
   "note": "Refuted: cancellation between receiving the identifier and handing over the request loses it forever.  The accounting part holds."
  },
  {
   "property": "C58",
   "status": "partial",
   "theorems": [
    "Gate.Executor.quiet_identifiers_safe_partial",
    "Gate.Executor.wrong_process_killed",
    "Gate.Executor.receiver_crashes",
    "Gate.Executor.executor_dies"
   ],
   "note": "Refuted: a stale kill request can kill the process which got the identifier.  Holds for all runs where an identifier is only reused when quiet."
  },
  {
   "property": "C59",
   "status": "partial",
   "theorems": [
    "Gate.Process.time_accurate",
    "Gate.Process.time_resolution_partial",
    "Gate.Process.finer_than_resolution",
    "Gate.Process.arm_time_wrong",
    "Gate.Process.granularity"
   ],
   "note": "Proved: accuracy, order and the mask granularity within a second. The full claim is false: the mask restarts at each second, so two readings around a second boundary may be closer than the resolution (finer_than_resolution); the aarch64 runtime uses a wrong nanosecond factor (arm_time_wrong)."
  },
  {
   "property": "C60",
   "status": "partial",
   "theorems": [
    "Gate.Process.monotonic_clock",
    "Gate.Process.arm_clock_goes_back"
   ],
   "note": "Proved for the x86-64 runtime for every history; for the aarch64 runtime the claim is refuted (arm_clock_goes_back)."
  },
  {
   "property": "C61",
   "status": "partial",
   "theorems": [
    "Gate.SnapLayout.snapshot_layout_partial",
    "Gate.SnapLayout.manOf_places",
    "Gate.SnapLayout.no_table_panics",
    "Gate.SnapLayout.no_exports_panic",
    "Gate.SnapLayout.second_generation_panics",
    "Gate.SnapLayout.custom_between_corrupts",
    "Gate.SnapLayout.uploaded_frame_corrupts"
   ],
   "note": "Proved for all modules with sections in plain order which have table and export sections. The rest is refuted by theorems: modules without a table or export section and every second-generation snapshot panic, custom sections between standard ones and uploaded hidden exports give a corrupted module."
  },
  {
   "property": "C62",
   "status": "partial",
   "theorems": [
    "Gate.Sections.read_total_partial",
    "Gate.Sections.hostile_count"
   ],
   "note": "Reading is total; that allocation is bounded by the section's size is refuted by hostile_count: seven bytes make the reader allocate 2^32-1 service records."
  },
  {
   "property": "C63",
   "status": "partial",
   "theorems": [
    "Gate.ImageFile.snapshot_metadata",
    "Gate.ImageFile.killed_runs_again",
    "Gate.ImageFile.upload_metadata"
   ],
   "note": "What does hold: the new program has the old program's metadata. The instance's own trap, result and final flag aren't in the snapshot program: the snapshot of a killed instance can be run again (killed_runs_again); an upload keeps only the time and breakpoints of a snapshot section (upload_metadata)."
  },
  {
   "property": "C64",
   "status": "proved",
   "theorems": [
    "Gate.ImageFile.accepted_wf",
    "Gate.ImageFile.rejected_iff",
    "Gate.ImageFile.read_stack_safe",
    "Gate.ImageFile.read_globals_safe",
    "Gate.ImageFile.loaded_unchanged"
   ],
   "note": "The file contents after the run are arbitrary. accepted_wf: the checked instance is well-formed; rejected_iff says exactly which stack variables are rejected."
  },
  {
   "property": "C65",
   "status": "partial",
   "theorems": [
    "Gate.Server.registry_keeps",
    "Gate.Server.never_released"
   ],
   "note": "Refuted for the code: the server's program registry holds a reference to every program ever registered until shutdown (registry_keeps), so none is released (never_released). What does hold about release is C43."
  },
  {
   "property": "C66",
   "status": "partial",
   "theorems": [
    "Gate.Auth.token_crash",
    "Gate.Auth.token_crash_example",
    "Gate.Auth.token_crash_local_example"
   ],
   "note": "Refuted: exact condition of crashes (token_crash); a token with alg EdDSA and no jwk crashes the handler, as does an unsigned token with a nonce on a local server with nonce storage. All other tokens are answered."
  },
  {
   "property": "C67",
   "status": "partial",
   "theorems": [
    "Gate.Web.put_actions",
    "Gate.Web.post_known_actions",
    "Gate.Web.actions_known_partial",
    "Gate.Web.suspend_ignored"
   ],
   "note": "Exact for launch and whenever suspend is absent; false of the code otherwise: a suspend action next to call, pin or unpin is dropped silently (suspend_ignored)."
  },
  {
   "property": "C68",
   "status": "proved",
   "theorems": [
    "Gate.Web.anonymous_call",
    "Gate.Web.known_module_authorized"
   ],
   "note": "All nine handlers with action parameters."
  },
  {
   "property": "C69",
   "status": "proved",
   "theorems": [
    "Gate.Entry.accepted_iff"
   ],
   "note": "An equivalence for all section sequences. Section contents are assumed well-formed here (their parsing is C31 and C32); the nesting of the standard export section in gate.export is wag's."
  },
  {
   "property": "C70",
   "status": "partial",
   "theorems": [
    "Gate.Dbg.debug_no_crash_partial",
    "Gate.Dbg.debug_crashes_on_change",
    "Gate.Dbg.debug_crashes",
    "Gate.Dbg.apply_exact"
   ],
   "note": "Holds for instances of snapshot programs, for the written operations with a configuration. False of the code otherwise: any change on an instance of an ordinary program dereferences its missing snapshot record; an omitted configuration is dereferenced; reading globals or memory panics."
  },
  {
   "property": "C71",
   "status": "proved",
   "theorems": [
    "Gate.IoLoop.backpressure",
    "Gate.IoLoop.initially_pending"
   ],
   "note": "After the process has died its remaining output is read without this limit (runtime/io.go:121-150)."
  },
  {
   "property": "C72",
   "status": "proved",
   "theorems": [
    "Gate.Web.no_excess_parameters",
    "Gate.Web.function_names",
    "Gate.Web.missing_param"
   ],
   "note": "The names only: a repeated action value such as suspend next to pin is C67."
  },
  {
   "property": "C73",
   "status": "partial",
   "theorems": [
    "Gate.Life.crash_iff",
    "Gate.Life.no_crash_partial",
    "Gate.Life.info_crash",
    "Gate.Life.debug_crash"
   ],
   "note": "Exact characterisation of the crashes: listing an instance whose resumption failed to start, and debugging an instance which was deleted meanwhile (both reachable). Everything else never crashes. The debug operation is followed to its first access of the image only (the rest is C70)."
  },
  {
   "property": "C74",
   "status": "partial",
   "theorems": [
    "Gate.Life.exit_status",
    "Gate.Life.trap_status",
    "Gate.Life.killed_status",
    "Gate.Life.failure_status",
    "Gate.Life.status_recorded_partial",
    "Gate.Life.status_misrecorded"
   ],
   "note": "The reported status is as stated in all cases. The image records it if nothing failed internally and the program was run; otherwise refuted (status_misrecorded: killed by an internal error, recorded as terminated)."
  },
  {
   "property": "C75",
   "status": "partial",
   "theorems": [
    "Gate.Life.stored_not_final",
    "Gate.Life.stored_terminated",
    "Gate.Life.stored_partial",
    "Gate.Life.running_not_stored"
   ],
   "note": "Refuted: the image is stored before the status is put in it, so in no history is a stored image marked final unless the program was a final snapshot. That the instance is stored when it stops without failures, and is not while it runs, is proved."
  },
  {
   "property": "C76",
   "status": "partial",
   "theorems": [
    "Gate.Life.refused_resume_partial",
    "Gate.Life.resume_failure_loses"
   ],
   "note": "Holds for refused requests. Refuted for every suspended instance whose process can't be started: the image is closed and the instance is lost."
  },
  {
   "property": "C77",
   "status": "partial",
   "theorems": [
    "Gate.Life.resume_iff",
    "Gate.Life.resume_function_ignored",
    "Gate.Life.resumed_enters_nothing"
   ],
   "note": "That a function name is required is resume_iff. The rest is refuted: the name is not used, and a process of a halted instance is started without an entry function."
  },
  {
   "property": "C78",
   "status": "partial",
   "theorems": [
    "Gate.Life.snapshot_running_partial",
    "Gate.Life.snapshot_transient_destroys"
   ],
   "note": "Proved for persistent instances which get suspended, when no other client interferes. Refuted for every transient instance: the suspension destroys it and there is no snapshot."
  },
  {
   "property": "C79",
   "status": "partial",
   "theorems": [
    "Gate.Life.waited_status_partial",
    "Gate.Life.waited_running"
   ],
   "note": "Holds unless the instance has been resumed between the stop and the waiter's look at the status, or the run could not be started; refuted otherwise."
  },
  {
   "property": "C80",
   "status": "proved",
   "theorems": [
    "Gate.Life.transience",
    "Gate.Life.persistent_remains"
   ],
   "note": "Quantified over every step of the lifecycle model."
  },
  {
   "property": "C81",
   "status": "partial",
   "theorems": [
    "Gate.Life.stored_with_program_partial",
    "Gate.Life.stored_without_program"
   ],
   "note": "Refuted as stated: UpdateInstance with Persist does not store the program. Proved for histories without such an update, if the instance was not launched transient, unpinned and not started."
  },
  {
   "property": "C82",
   "status": "proved",
   "theorems": [
    "Gate.ImageFile.new_instance_state",
    "Gate.ImageFile.new_instance_wf",
    "Gate.ImageFile.new_instance_vars",
    "Gate.ImageFile.build_program_state",
    "Gate.ImageFile.build_both_state",
    "Gate.ImageFile.built_like_new"
   ],
   "note": "For page sizes up to 64 KiB and stack sizes up to about 2 GiB. new_instance_vars (the loader's variables start as zero) is for pages up to 8 KiB: with larger pages the call stack may share the first page with the variables."
  },
  {
   "property": "C83",
   "status": "partial",
   "theorems": [
    "Gate.ImageFile.new_instance_limit",
    "Gate.ImageFile.built_limit_partial",
    "Gate.ImageFile.built_exceeds_limit",
    "Gate.ImageFile.limit_wraps",
    "Gate.ImageFile.limit_negative"
   ],
   "note": "Holds for instances created from stored programs, with limits under 4 GiB. For an instance created together with its program the limit of the access policy is rounded up to a whole WebAssembly page (built_exceeds_limit: 100000 becomes 131072). Limits of 4 GiB and more, and negative ones, are truncated to 32 bits (limit_wraps, limit_negative)."
  },
  {
   "property": "C84",
   "status": "partial",
   "theorems": [
    "Gate.ImageFile.store_load_mem",
    "Gate.ImageFile.store_load_fs_partial",
    "Gate.ImageFile.built_unloadable"
   ],
   "note": "Memory and PersistentMemory storage: for every well-formed instance. Filesystem storage: for every history of an instance created by NewInstance; an instance created together with its program isn't marked dirty and is stored without its manifest unless it is modified first, so that it can't be loaded (built_unloadable)."
  },
  {
   "property": "C85",
   "status": "partial",
   "theorems": [
    "Gate.ImageFile.snapshot_restores_partial",
    "Gate.ImageFile.snapshot_data",
    "Gate.ImageFile.snapshot_stack",
    "Gate.ImageFile.snapshot_wf",
    "Gate.ImageFile.snapshot_unstarted"
   ],
   "note": "Holds for instances which have a call stack and for halted or terminated ones. The snapshot of a suspended instance which was never started gets a call stack of 24 zero bytes (snapshot_unstarted)."
  },
  {
   "property": "C86",
   "status": "partial",
   "theorems": [
    "Gate.Storage.crash_consistent_partial",
    "Gate.Storage.store_content",
    "Gate.Storage.crash_manifest_partial",
    "Gate.Storage.running_invisible_partial",
    "Gate.Storage.holds_loads",
    "Gate.Storage.store_failure_refuted",
    "Gate.Storage.unstore_failure_refuted"
   ],
   "note": "Holds for PersistentMemory always. With Filesystem it holds provided that an instance isn't stored again or run after its Store failed at the directory sync or its Unstore failed; without that it is false (store_failure_refuted, unstore_failure_refuted), since the instance forgets that its file is linked. The disk model is an assumption. Builds through FinishInstance are excluded for the manifest (C82)."
  },
  {
   "property": "C87",
   "status": "proved",
   "theorems": [
    "Gate.Storage.durable",
    "Gate.Storage.stored_survives",
    "Gate.Storage.goodRun_reach"
   ],
   "note": ""
  },
  {
   "property": "C88",
   "status": "partial",
   "theorems": [
    "Gate.Storage.store_again_mem",
    "Gate.Storage.store_first_fs",
    "Gate.Storage.never_stored_again"
   ],
   "note": "never_stored_again shows the property false of Filesystem instances, assuming Linux's rule that an inode whose links have all been removed can't be linked; the rest is proved."
  },
  {
   "property": "C89",
   "status": "partial",
   "theorems": [
    "Gate.Manifest.header_round_trip",
    "Gate.Manifest.oversize_unloadable",
    "Gate.Manifest.wrong_tag",
    "Gate.Manifest.unmarshal_safe",
    "Gate.Manifest.marshal_elsewhere",
    "Gate.Manifest.dec_enc",
    "Gate.Manifest.instance_manifest_fits",
    "Gate.Manifest.instance_proto_round_trip",
    "Gate.Manifest.instance_manifest_round_trip"
   ],
   "note": "Instance manifests are modelled to the byte (protobuf encoding) and always fit. A program manifest of more than 4088 bytes is stored but can't be loaded (oversize_unloadable); whether such a program can exist depends on wag's export limits, which aren't modelled."
  },
  {
   "property": "C90",
   "status": "partial",
   "theorems": [
    "Gate.Seccomp.x86_exact",
    "Gate.Seccomp.arm_allows",
    "Gate.Seccomp.arm_exact_refuted",
    "Gate.Seccomp.convention_ignored",
    "Gate.Seccomp.i386_refuted",
    "Gate.Seccomp.text_protected",
    "Gate.Seccomp.grow_passes"
   ],
   "note": "x86-64: exact. aarch64: one more call (number 3) gets through, as the jump for an unmatched number lands on the comparison of the protection argument. The architecture and convention of the call isn't looked at, so i386 calls are matched by number."
  },
  {
   "property": "C91",
   "status": "proved",
   "theorems": [
    "Gate.Rt.call_confined",
    "Gate.Rt.call_independent",
    "Gate.Rt.memory_accessible",
    "Gate.Rt.out_of_bounds",
    "Gate.Rt.prologue_exact",
    "Gate.Rt.reach_inv",
    "Gate.Rt.write_error",
    "Gate.Rt.write_nothing",
    "Gate.Rt.read_error"
   ],
   "note": ""
  },
  {
   "property": "C92",
   "status": "partial",
   "theorems": [
    "Gate.Rt.grow_refused",
    "Gate.Rt.grow_works",
    "Gate.Rt.memory_limit",
    "Gate.Rt.grow_failed_arm",
    "Gate.Rt.grow_failed_x86_refuted"
   ],
   "note": "On x86-64 a failed mprotect ends the process with status 0 (the page aligned address is in the status register), which is reported as a successful exit."
  },
  {
   "property": "C93",
   "status": "partial",
   "theorems": [
    "Gate.Rt.debug_x86",
    "Gate.Rt.debug_arm_partial",
    "Gate.Rt.debug_arm_refuted",
    "Gate.Rt.debug_arm_trap_refuted",
    "Gate.Rt.debug_error"
   ],
   "note": "x86-64: proved. aarch64: if the kernel takes only a part of the buffer, the low half of an absolute address is stored as the relative one: the program gets an out-of-bounds trap (or wrong data is output)."
  },
  {
   "property": "C94",
   "status": "proved",
   "theorems": [
    "Gate.Rt.random_once",
    "Gate.Rt.random_run"
   ],
   "note": ""
  },
  {
   "property": "C95",
   "status": "proved",
   "theorems": [
    "Gate.Rt.poll_result",
    "Gate.Rt.poll_output_closed"
   ],
   "note": ""
  },
  {
   "property": "C96",
   "status": "proved",
   "theorems": [
    "Gate.AbiLib.lib_confined"
   ],
   "note": "Noninterference and frame for all functions of the library. rt_time's implementation is a parameter which is assumed to have the property."
  },
  {
   "property": "C97",
   "status": "partial",
   "theorems": [
    "Gate.AbiLib.fd_write_gate",
    "Gate.AbiLib.fd_write_all",
    "Gate.AbiLib.fd_write_std",
    "Gate.AbiLib.fd_write_empty_refuted"
   ],
   "note": "Proved for the gate descriptor on both architectures (and that everything is written if it's accepted), and for standard output on x86-64: on aarch64 a partial debug write traps (C93). That EAGAIN means that the call could be retried is refuted: writing nothing is EAGAIN."
  },
  {
   "property": "C98",
   "status": "proved",
   "theorems": [
    "Gate.AbiLib.fd_read_gate",
    "Gate.AbiLib.fd_read_all"
   ],
   "note": ""
  },
  {
   "property": "C99",
   "status": "proved",
   "theorems": [
    "Gate.AbiLib.io_gate",
    "Gate.AbiLib.io_send_all"
   ],
   "note": ""
  },
  {
   "property": "C100",
   "status": "partial",
   "theorems": [
    "Gate.AbiLib.poll_oneoff",
    "Gate.AbiLib.poll_std_blocks_refuted",
    "Gate.AbiLib.poll_std_waits_refuted",
    "Gate.AbiLib.poll_duplicate_refuted",
    "Gate.AbiLib.poll_preview1_refuted"
   ],
   "note": "The bound, the userdata and the memory effects are proved. Refuted: with subscriptions of standard output only, the call blocks until it's interrupted or the input is hung up; of two subscriptions of reading only the latter gets an event; preview1's subscriptions have another size and two of them are an error."
  },
  {
   "property": "C101",
   "status": "partial",
   "theorems": [
    "Gate.AbiLib.environ",
    "Gate.AbiLib.random_get",
    "Gate.AbiLib.proc_exit",
    "Gate.AbiLib.bad_descriptor",
    "Gate.AbiLib.good_descriptor",
    "Gate.AbiLib.fd_filestat_size_refuted"
   ],
   "note": "All proved but the last, which is refuted: half of the file size is left as it was."
  },
  {
   "property": "C102",
   "status": "partial",
   "theorems": [
    "Gate.Suspend.x86_suspend_known_partial",
    "Gate.Suspend.arm_suspend_known_partial",
    "Gate.Suspend.suspended_or_exhausted",
    "Gate.Suspend.arm_suspend_lost_refuted",
    "Gate.Suspend.x86_stray_refuted"
   ],
   "note": "Proved for a vDSO function that doesn't use the callee-saved register for something else; refuted otherwise: on aarch64 the signal gets lost, on x86-64 the handler uses an unrelated value as the base address of its stack variables."
  },
  {
   "property": "C103",
   "status": "partial",
   "theorems": [
    "Gate.Resolver.wasi_resolves_partial",
    "Gate.Resolver.wasi_unsupported",
    "Gate.Resolver.gate_resolves",
    "Gate.Resolver.gate_unsupported",
    "Gate.Resolver.module_unsupported",
    "Gate.Resolver.panic_iff",
    "Gate.Resolver.type_sound",
    "Gate.Resolver.build_imports",
    "Gate.Resolver.sizeOk_iff",
    "Gate.Resolver.vector_matches",
    "Gate.Resolver.fd_allocate_panics_refuted",
    "Gate.Resolver.gate_panics_refuted",
    "Gate.Resolver.nop_mismatch_refuted",
    "Gate.Resolver.slots_exact",
    "Gate.Resolver.slots_range"
   ],
   "note": "Exact outcome for all names and types. Refuted where it says 'never by a crash': importing fd_allocate, or a gate function with an unacceptable size suffix, panics with a non-error value. panic_iff says exactly when."
  },
  {
   "property": "C104",
   "status": "partial",
   "theorems": [
    "Gate.CopyRange.copied_prefix",
    "Gate.CopyRange.copied_exactly",
    "Gate.CopyRange.copied_exactly_kernel",
    "Gate.CopyRange.terminates",
    "Gate.CopyRange.newInstance_range",
    "Gate.CopyRange.newInstance_copied",
    "Gate.CopyRange.hangs_refuted",
    "Gate.CopyRange.short_copy_refuted",
    "Gate.CopyRange.mapped_copy_partial",
    "Gate.CopyRange.mapped_short_refuted"
   ],
   "note": "Proved when the source file extends over the range (as files created by the storages do: newInstance_copied). Refuted otherwise: the loop never ends at the end of the source file, and the fallback succeeds with less. The mapped variant (ashmem) isn't complete if the kernel reads less than asked for."
  },
  {
   "property": "C105",
   "status": "proved",
   "theorems": [
    "Gate.Restart.key_roundtrip",
    "Gate.Restart.key_unique",
    "Gate.Restart.key_injective",
    "Gate.Restart.key_file_name",
    "Gate.Restart.validID_nodot",
    "Gate.Restart.uuid_alias_refuted"
   ],
   "note": "Proved about names. uuid_alias_refuted: the ids aren't canonical, so two instances can have the same UUID spelled differently (that isn't claimed otherwise). google/uuid v1.0.0, as pinned by go.mod, is modelled."
  },
  {
   "property": "C106",
   "status": "partial",
   "theorems": [
    "Gate.Restart.starts_iff",
    "Gate.Restart.own_storage_starts",
    "Gate.Restart.started_state",
    "Gate.Restart.failure_closes",
    "Gate.Restart.one_bad_file_refuted",
    "Gate.Restart.stored_buffers_refuted",
    "Gate.Restart.missing_panics_refuted"
   ],
   "note": "Refuted for stored programs which are snapshots with buffers (loading the buffers always fails), and for PersistentMemory with a disappearing file (nil dereference). Instances are not restored at all by New: started_state says so. Missing: the loaded images' contents (C-properties of Sections/ImageFile)."
  },
  {
   "property": "C107",
   "status": "partial",
   "theorems": [
    "Gate.OriginState.restore_total",
    "Gate.OriginState.suspend_restore",
    "Gate.OriginState.restored_not_writable_refuted",
    "Gate.OriginState.bad_buffer_refuted",
    "Gate.OriginState.goodBuf_iff"
   ],
   "note": "restore_total: errors or sane distinct streams for every input; suspend_restore: accept calls and stream states are given back. Refuted part: a restored stream has no room for the program's data (restored_not_writable_refuted); a buffer size with other than one bit set makes restoring (and connecting) panic (bad_buffer_refuted). Byte-level model of the marshaling."
  },
  {
   "property": "C108",
   "status": "partial",
   "theorems": [
    "Gate.Origin.accepted_le_calls",
    "Gate.Origin.one_at_a_time",
    "Gate.Origin.no_lost_wakeup",
    "Gate.Origin.own_stream",
    "Gate.Origin.obedient_not_aborted",
    "Gate.Origin.close_releases",
    "Gate.Origin.restored_write_aborts_refuted",
    "Gate.Origin.restored_close_aborts_refuted",
    "Gate.Origin.closed_connects_refuted",
    "Gate.Origin.max_conns_refuted"
   ],
   "note": "Transition system over unboundedly many calls. Proved: counting, no lost wakeup, own streams, obedient programs aren't aborted (instance without restored streams), Close releases blocked calls. Refuted: programs with restored streams which write to them are aborted; Connect calls after Close may succeed; MaxConns isn't enforced (n connections for every n)."
  },
  {
   "property": "C109",
   "status": "partial",
   "theorems": [
    "Gate.Origin.down_ended",
    "Gate.Origin.stop_bounded",
    "Gate.Origin.stop_completes",
    "Gate.Origin.stop_stuck_refuted",
    "Gate.Origin.read_blocks_stop",
    "Gate.Origin.read_blocks_stop_refuted"
   ],
   "note": "Proved: if contexts are done or the connector is closed, every schedule without new reads is bounded (rank) and can't end before the service is down. Refuted without that: a Connect call whose reply is pending blocks shutdown for ever, and a connection blocked in a read blocks it until the read returns."
  },
  {
   "property": "C110",
   "status": "partial",
   "theorems": [
    "Gate.Respond.no_leak",
    "Gate.Respond.internal_text",
    "Gate.Respond.denied_text",
    "Gate.Respond.status_exact",
    "Gate.Respond.status_500_iff",
    "Gate.Respond.event_exact",
    "Gate.Respond.challenge_iff",
    "Gate.Respond.retry_after",
    "Gate.Respond.retry_too_early_refuted",
    "Gate.Respond.client_faults_500_refuted",
    "Gate.Respond.close_code",
    "Gate.Respond.close_iff",
    "Gate.Respond.close_missing_refuted",
    "Gate.Respond.constants_delivered",
    "Gate.Respond.http_exact",
    "Gate.Respond.events_exact"
   ],
   "note": "No leakage, exact status and event classification, challenge and Retry-After presence are proved for all errors. Refuted: Retry-After is rounded down, so an obedient client is too early; four kinds of client faults are reported as internal failures with status 500; an error text longer than 123 bytes is never delivered over websocket."
  },
  {
   "property": "C111",
   "status": "partial",
   "theorems": [
    "Gate.Upload.accepted",
    "Gate.Upload.rejected",
    "Gate.Upload.wrong_hash",
    "Gate.Upload.programs_sound",
    "Gate.Upload.download_exact_partial",
    "Gate.Upload.roundtrip_partial",
    "Gate.Upload.again_partial",
    "Gate.Upload.never_removed_refuted",
    "Gate.Upload.poisoned_refuted",
    "Gate.Upload.download_padded_refuted",
    "Gate.Upload.too_short",
    "Gate.Upload.gzip_refuted",
    "Gate.Upload.gzip_padded_refuted",
    "Gate.Upload.upper_case_refuted",
    "Gate.Upload.bad_hash_500_refuted"
   ],
   "note": "Identity by hash, limits and completeness hold for all histories. Exact download and repeated upload hold if every declared length is the content's length; refuted otherwise: a declared length which is too long is accepted from anyone (websocket call), and makes the exact upload of the same module fail for everyone until the server restarts, because programs are never removed. Also refuted: compressed uploads, upper case hashes, malformed hashes (status 500)."
  },
  {
   "property": "C112",
   "status": "partial",
   "theorems": [
    "Gate.Source.http_contract_partial",
    "Gate.Source.http_limit",
    "Gate.Source.http_part_whole",
    "Gate.Source.http_exact",
    "Gate.Source.http_upload",
    "Gate.Source.http_chunked_refuted",
    "Gate.Source.http_unavailable_refuted",
    "Gate.Source.ipfs_limit",
    "Gate.Source.ipfs_exact",
    "Gate.Source.ipfs_negative_refuted",
    "Gate.Source.ipfs_negative_refused",
    "Gate.Source.ipfs_poison_refuted",
    "Gate.Source.range_header",
    "Gate.Source.status_outcome"
   ],
   "note": "The limit holds for all responses, and the contract for HTTP responses with a Content-Length; exact behaviour with honest servers. Refuted: partial responses without Content-Length, negative and wrong lengths from IPFS, streams without length and empty objects are failures."
  },
  {
   "property": "C113",
   "status": "partial",
   "theorems": [
    "Gate.Access.authorize_iff",
    "Gate.Access.authorize_sound",
    "Gate.Access.owner_stable",
    "Gate.Access.parse_ok_iff",
    "Gate.Access.decisions",
    "Gate.Access.limits_nonzero",
    "Gate.Access.limits_exact",
    "Gate.Access.trailing_comment_refuted",
    "Gate.Access.options_ignored_refuted",
    "Gate.Access.zero_limit_refuted",
    "Gate.Access.default_limits"
   ],
   "note": "Exact grant condition and ownership are proved. Refuted: a comment or an empty line after the last key is an error, key options (expiry, restrictions) are ignored, and a limit of zero means the default limit."
  },
  {
   "property": "C114",
   "status": "partial",
   "theorems": [
    "Gate.Monitor.events_fifo",
    "Gate.Monitor.given_prefix",
    "Gate.Monitor.given_all",
    "Gate.Monitor.subscribed_open",
    "Gate.Monitor.not_killed",
    "Gate.Monitor.call_returns",
    "Gate.Monitor.stopped_releases",
    "Gate.Monitor.current_nil",
    "Gate.Monitor.counted_crashes_refuted",
    "Gate.Monitor.no_counted",
    "Gate.Monitor.blocked_refuted",
    "Gate.Monitor.blocked_reachable_refuted",
    "Gate.Monitor.stuck_refuted",
    "Gate.Monitor.stuck_reachable_refuted",
    "Gate.Monitor.prompt_killed_refuted",
    "Gate.Monitor.double_close_refuted"
   ],
   "note": "Order, completeness and the reason for being dropped are proved for all interleavings, as are the cases in which calls return. The rest of the property is false of the code, and its negation is proved: New leaves the counters' pointer nil, so the first counted event crashes the process; a call which found the buffer full blocks as long as nobody subscribes; a Subscribe whose caller gives up between request and answer stops the loop for good; a subscriber with room in its channel may be dropped; unsubscribing after having been dropped may close a closed channel."
  },
  {
   "property": "C115",
   "status": "partial",
   "theorems": [
    "Gate.ReqContext.report_principal",
    "Gate.ReqContext.derive_report",
    "Gate.ReqContext.op_report",
    "Gate.ReqContext.iface_report",
    "Gate.ReqContext.addr_report",
    "Gate.ReqContext.detached_report",
    "Gate.ReqContext.op_context",
    "Gate.ReqContext.derive_keeps_partial",
    "Gate.ReqContext.detach_erases_refuted",
    "Gate.ReqContext.access_changes_refuted",
    "Gate.ReqContext.op_unset"
   ],
   "note": "What a derived context reports is proved in full. That the original context and reported events are unaffected holds only when the details are copied (principal not yet in them: derive_keeps_partial); otherwise the shared object is modified in place, and the negation is proved for anonymous requests."
  },
  {
   "property": "C116",
   "status": "partial",
   "theorems": [
    "Gate.ScopeAlias.matchAlias_iff",
    "Gate.ScopeAlias.compute_iff",
    "Gate.ScopeAlias.names_registered",
    "Gate.ScopeAlias.names_sorted",
    "Gate.ScopeAlias.resolve_cases",
    "Gate.ScopeAlias.resolve_alias",
    "Gate.ScopeAlias.resolve_ambiguous",
    "Gate.ScopeAlias.resolve_idem",
    "Gate.ScopeAlias.name_itself",
    "Gate.ScopeAlias.punctuation_refuted",
    "Gate.ScopeAlias.resolve_stable",
    "Gate.ScopeAlias.grants_iff",
    "Gate.ScopeAlias.empty_grants_nothing",
    "Gate.ScopeAlias.alias_chars",
    "Gate.ScopeAlias.word_chars",
    "Gate.ScopeAlias.class_chars",
    "Gate.ScopeAlias.boundary_chars"
   ],
   "note": "Proved in full for names with at least one word character; for a name made of punctuation only, 'a registered name stands for itself' is false, and that's proved (punctuation_refuted)."
  },
  {
   "property": "C117",
   "status": "partial",
   "theorems": [
    "Gate.CallSvc.once_each_partial",
    "Gate.CallSvc.once_each_flags_partial",
    "Gate.CallSvc.pending_kept",
    "Gate.CallSvc.answered_twice_refuted",
    "Gate.CallSvc.call_lost_refuted",
    "Gate.CallSvc.identity_answer",
    "Gate.CallSvc.identity_lawful",
    "Gate.CallSvc.catalog_lawful"
   ],
   "note": "Proved for all runs in which the serving context isn't canceled (once_each_partial), and for those in which nothing is replayed or dropped. With cancellation, as it happens when a client disconnects, the property is false: an answer may be given twice, a call may be lost (proved)."
  },
  {
   "property": "C118",
   "status": "partial",
   "theorems": [
    "Gate.CallSvc.stop_progress_partial",
    "Gate.CallSvc.stuck_refuted",
    "Gate.CallSvc.stuck_reachable_refuted"
   ],
   "note": "Completion is proved when the service isn't sending its reply, or the context has been canceled. Otherwise the property is false: the I/O loop waits for the services without canceling their context, and a service which is sending its reply never returns (proved, with reachability)."
  },
  {
   "property": "C119",
   "status": "partial",
   "theorems": [
    "Gate.Grpc.same_process_same_key",
    "Gate.Grpc.other_process_other_key",
    "Gate.Grpc.remembered_iff_partial",
    "Gate.Grpc.leaked_refuted"
   ],
   "note": "Sameness and difference of keys are proved for all interleavings. That keys are released is proved unless a start of services has failed halfway; in that case it's false: the key is kept forever (proved)."
  },
  {
   "property": "C120",
   "status": "partial",
   "theorems": [
    "Gate.Grpc.no_crash_partial",
    "Gate.Grpc.given_in_order",
    "Gate.Grpc.nothing_lost_partial",
    "Gate.Grpc.framed_unique",
    "Gate.Grpc.finishes",
    "Gate.Grpc.short_crashes_refuted",
    "Gate.Grpc.length_crashes_refuted",
    "Gate.Grpc.canceled_refuted",
    "Gate.Grpc.handled_once_partial",
    "Gate.Grpc.handled_twice_refuted"
   ],
   "note": "Proved for services which send packets of valid length and as long as the context isn't canceled from outside. Otherwise false, and refuted: a packet of less than 8 or more than 65536 bytes crashes the server; cancellation loses packets and aborts; a packet may be handled twice if its answer is lost."
  },
  {
   "property": "C121",
   "status": "partial",
   "theorems": [
    "Gate.Daemon.contains_context",
    "Gate.Daemon.own_scope_partial",
    "Gate.Daemon.other_scope_refuted",
    "Gate.Daemon.contexts_kept_refuted"
   ],
   "note": "Proved when no other call sets its scope between a call's own two steps. For concurrent calls it's false: the closures assign to a shared variable, and a program may get another call's scope (proved for all scopes); contexts pile up (proved)."
  },
  {
   "property": "C122",
   "status": "partial",
   "theorems": [
    "Gate.Daemon.not_before",
    "Gate.Daemon.not_aborted",
    "Gate.Daemon.served_partial",
    "Gate.Daemon.hangs_refuted",
    "Gate.Daemon.hangs_reachable_refuted"
   ],
   "note": "Never before, and never failing, are proved; so is being served for all calls except those which wait for the channel while another one has taken the server from it: those hang until termination (proved, with reachability by two calls)."
  },
  {
   "property": "C123",
   "status": "partial",
   "theorems": [
    "Gate.Daemon.bus_goes_on",
    "Gate.Daemon.call_goes_on",
    "Gate.Daemon.launch_goes_on_partial",
    "Gate.Daemon.launch_suspended_refuted",
    "Gate.Daemon.launch_reachable_refuted",
    "Gate.Daemon.done_request"
   ],
   "note": "Proved for instances started through the bus and for calls. For web launches and resumptions it's false: detachedContext keeps the request's cancellation, and net/http cancels the context when the handler returns, upon which the I/O loop suspends the instance (proved for every such state)."
  },
  {
   "property": "C124",
   "status": "proved",
   "theorems": [
    "Gate.Ws.one_writer",
    "Gate.Ws.no_race",
    "Gate.Ws.protocol",
    "Gate.Ws.one_hint",
    "Gate.Ws.read_after_hint",
    "Gate.Ws.broken_is_final",
    "Gate.Ws.output_exact",
    "Gate.Ws.write_count",
    "Gate.Ws.no_deadlock",
    "Gate.Ws.read_progress",
    "Gate.Ws.input_exact",
    "Gate.Ws.cancel_exact"
   ],
   "note": "Transition system with one reading and one writing goroutine (as Stream.Transfer has) and the handler; exclusion by mutex-and-flag invariant, observations by log invariants."
  },
  {
   "property": "C125",
   "status": "partial",
   "theorems": [
    "Gate.ReqId.got_eq",
    "Gate.ReqId.distinct",
    "Gate.ReqId.increasing",
    "Gate.ReqId.distinct_restart_partial",
    "Gate.ReqId.restart_repeats_refuted",
    "Gate.ReqId.exact_ids"
   ],
   "note": "Unique and increasing within a process; unique over restarts if at most a million requests per elapsed millisecond; refuted for a restart within the same millisecond or after the clock was set back."
  },
  {
   "property": "C126",
   "status": "partial",
   "theorems": [
    "Gate.Creds.alloc_spec",
    "Gate.Creds.alloc_complete",
    "Gate.Creds.start_mappings",
    "Gate.Creds.isolated_uid_partial",
    "Gate.Creds.not_root_partial",
    "Gate.Creds.root_refuted",
    "Gate.Creds.same_ids_refuted",
    "Gate.Creds.needless_ids_refuted",
    "Gate.Creds.parseInt_iff",
    "Gate.Creds.space_chars"
   ],
   "note": "Proved for all files and configurations: kept, in range, distinct, not own; complete. Refuted: a range starting at -1 makes the container root's; ids configured equal are accepted; containers without need for ids (namespaces disabled or single id) can't be started without a subuid entry."
  },
  {
   "property": "C127",
   "status": "partial",
   "theorems": [
    "Gate.Prepare.conserved",
    "Gate.Prepare.given_once",
    "Gate.Prepare.nothing_leaks",
    "Gate.Prepare.bounded",
    "Gate.Prepare.stops",
    "Gate.Prepare.answered",
    "Gate.Prepare.instances_total",
    "Gate.Prepare.programs_partial",
    "Gate.Prepare.programs_panic_refuted",
    "Gate.Prepare.stale_errors_refuted"
   ],
   "note": "Conservation as a permutation of everything made, by induction over runs. Refuted: PreparePrograms and PrepareProcesses panic with a buffer size of zero or less; errors made in advance are given to later requests."
  },
  {
   "property": "C128",
   "status": "proved",
   "theorems": [
    "Gate.CopyDebug.log_exact",
    "Gate.CopyDebug.log_prefix",
    "Gate.CopyDebug.log_complete",
    "Gate.CopyDebug.line_flushed"
   ],
   "note": "Model of the loop over bufio.Writer; failures of the log at any write and byte."
  },
  {
   "property": "C129",
   "status": "partial",
   "theorems": [
    "Gate.Container.exec_state",
    "Gate.Container.sandboxed",
    "Gate.Container.disabled_keeps_host",
    "Gate.Container.starts",
    "Gate.Container.orphan_partial",
    "Gate.Container.orphan_child_partial",
    "Gate.Container.orphan_refuted",
    "Gate.Container.parent_order",
    "Gate.Container.parent_configures",
    "Gate.Container.address_space",
    "Gate.Container.only_nofile_optional"
   ],
   "note": "The state at exec is a function of the configuration, whatever fails. Refuted part: with namespaces the executor may be started although the parent has died, because the credential change clears the signal and the check looks for process 1."
  },
  {
   "property": "C130",
   "status": "partial",
   "theorems": [
    "Gate.WebRoute.forbidden_iff",
    "Gate.WebRoute.origins_spec",
    "Gate.WebRoute.local_checks",
    "Gate.WebRoute.foreign_refused_partial",
    "Gate.WebRoute.no_origin_served",
    "Gate.WebRoute.cors_origin",
    "Gate.WebRoute.second_origin_refuted",
    "Gate.WebRoute.cache_refuted"
   ],
   "note": "Exact refusal condition, local handlers, and permissions are proved for all requests. Missing and refuted: of several Origin headers only the first is looked at; cacheable answers name one origin without a Vary header, so another configured origin can't use a cached one."
  },
  {
   "property": "C131",
   "status": "partial",
   "theorems": [
    "Gate.WebRoute.route_iff",
    "Gate.WebRoute.supported_iff",
    "Gate.WebRoute.no_effect",
    "Gate.WebRoute.cors_methods_partial",
    "Gate.WebRoute.instance_list_cors_refuted",
    "Gate.WebRoute.allow_sound",
    "Gate.WebRoute.allow_refuted",
    "Gate.WebRoute.features_answer",
    "Gate.WebRoute.cors_headers",
    "Gate.WebRoute.listing"
   ],
   "note": "Routing, methods and feature queries are exact. Refuted: the instance directory's cross-origin permission omits POST (the only way to list instances); the Allow header never names GET and HEAD."
  },
  {
   "property": "C132",
   "status": "proved",
   "theorems": [
    "Gate.AbiLib.set_rights",
    "Gate.AbiLib.fdstat_get",
    "Gate.AbiLib.fixed_descriptors",
    "Gate.AbiLib.wrong_direction",
    "Gate.AbiLib.fd_is_4",
    "Gate.AbiLib.fd_filestat_exact"
   ],
   "note": "For both architectures and all states."
  },
  {
   "property": "C133",
   "status": "proved",
   "theorems": [
    "Gate.ExecLoop.in_order",
    "Gate.ExecLoop.signals_right",
    "Gate.ExecLoop.statuses_once",
    "Gate.ExecLoop.terminated",
    "Gate.ExecLoop.quiescent",
    "Gate.ExecLoop.settles",
    "Gate.ExecLoop.gets_there"
   ],
   "note": "The kernel's epoll, sockets and pidfds are modelled by their documented behaviour (see the module's comment). Assumes that a blocking send gets room eventually."
  },
  {
   "property": "C134",
   "status": "partial",
   "theorems": [
    "Gate.ExecLoop.deaths",
    "Gate.ExecLoop.deaths_proper",
    "Gate.ExecLoop.survives",
    "Gate.ExecLoop.full_house",
    "Gate.ExecLoop.executor_dies_refuted",
    "Gate.ExecLoop.death_when_closed"
   ],
   "note": "Refuted at MaxProcs: NOFILE leaves no room for the descriptors of a batch of creations, so five creations received at once kill the executor and all its processes when 16379 processes exist (executor_dies_refuted). Proved for less than 16005 processes."
  },
  {
   "property": "C135",
   "status": "partial",
   "theorems": [
    "Gate.ExecLoop.no_signals",
    "Gate.ExecLoop.waits_for_exit",
    "Gate.ExecLoop.close_kills_refuted"
   ],
   "note": "Refuted: after the connection has been shut down, no signal is ever sent, and the executor waits for the processes to exit by themselves; Close hangs if one doesn't."
  },
  {
   "property": "C136",
   "status": "partial",
   "theorems": [
    "Gate.ExecLoop.spins_refuted",
    "Gate.ExecLoop.dies_refuted",
    "Gate.ExecLoop.death_when_closed"
   ],
   "note": "Refuted: every hangup event re-arms itself by EPOLL_CTL_MOD, so the executor loops without waiting while it has processes; and the first status which it tries to send after that kills it."
  },
  {
   "property": "C137",
   "status": "proved",
   "theorems": [
    "Gate.ExecStat.ticks_exact",
    "Gate.ExecStat.time_left",
    "Gate.ExecStat.second_refuted",
    "Gate.ExecStat.grows"
   ],
   "note": "The comment in the code says that it rounds up to a second; second_refuted shows that it rounds to the nearest."
  },
  {
   "property": "C138",
   "status": "partial",
   "theorems": [
    "Gate.Requests.policy_first_partial",
    "Gate.Requests.refused_no_effect_partial",
    "Gate.Requests.snapshot_unauthorized_refuted"
   ],
   "note": "Proved for all API functions except Snapshot; refuted for it: it suspends a running instance before asking the policy, and if refused, the resumption is refused, too (server.go:896-921). `act`, `have_` and `Before` are the specification."
  },
  {
   "property": "C139",
   "status": "partial",
   "theorems": [
    "Gate.Requests.resources_partial",
    "Gate.Requests.resources_exact",
    "Gate.Requests.start_failure_refuted",
    "Gate.Requests.store_failure_refuted",
    "Gate.Requests.old_log_refuted",
    "Gate.Requests.alt_image_refuted"
   ],
   "note": "An exact characterization is proved: resources are balanced unless one of the listed defects is met; each of them is shown to occur (refutations): reference dropped twice when a process doesn't start, image lost when a suspended instance can't be stored, debug log of an instance created suspended lost on resumption and deletion, rebuilt program image lost on deletion."
  },
  {
   "property": "C140",
   "status": "proved",
   "theorems": [
    "Gate.Requests.success_reports",
    "Gate.Requests.failure_reports",
    "Gate.Requests.pin_reports",
    "Gate.Requests.event_kind_refuted"
   ],
   "note": "`report` is the specification; it gives the kinds of module events as they are in the code, which are wrong for modules from a source and for uploads without a hash (event_kind_refuted)."
  },
  {
   "property": "C141",
   "status": "partial",
   "theorems": [
    "Gate.Requests.crash_partial",
    "Gate.Requests.anonymous_final_refuted"
   ],
   "note": "Proved that only PinModule and Snapshot without the pin option (a programming error of the caller), and anonymous calls which create a transient instance which isn't to be run, can crash; refuted for the latter: a module with a final snapshot, called anonymously, crashes the handler."
  },
  {
   "property": "C142",
   "status": "partial",
   "theorems": [
    "Gate.Requests.success_effects",
    "Gate.Requests.success_passes",
    "Gate.Requests.failure_effects",
    "Gate.Requests.failure_instance_partial",
    "Gate.Requests.update_effect",
    "Gate.Requests.resume_failure_refuted",
    "Gate.Requests.crash_instance_refuted"
   ],
   "note": "`changes` and `handed` are the specification. Refuted: a resumption whose process doesn't start deletes the suspended instance; a handler which crashes (C141) leaves the instance."
  },
  {
   "property": "C143",
   "status": "proved",
   "theorems": [
    "Gate.Loader.program_space",
    "Gate.Loader.write_xor_execute",
    "Gate.Loader.writable_is_state",
    "Gate.Loader.memory_confined",
    "Gate.Loader.runtime_view"
   ],
   "note": "assumes that the kernel's own mappings (vDSO) are not writable; Fits is shown for all Start's information by start_to_program"
  },
  {
   "property": "C144",
   "status": "proved",
   "theorems": [
    "Gate.Loader.decode_encode",
    "Gate.Loader.receive_sent",
    "Gate.Loader.receive_strict",
    "Gate.Loader.isClockGettime_iff",
    "Gate.Loader.findClock_spec",
    "Gate.Loader.startInfo_exact",
    "Gate.Loader.start_to_program",
    "Gate.Loader.entered_state",
    "Gate.Loader.library_calls"
   ],
   "note": "wag's routine addresses are constants from outside of the repository"
  },
  {
   "property": "C145",
   "status": "proved",
   "theorems": [
    "Gate.Loader.load_keeps",
    "Gate.Loader.failed_load_manifest",
    "Gate.Loader.untouched_manifest"
   ],
   "note": ""
  },
  {
   "property": "C146",
   "status": "partial",
   "theorems": [
    "Gate.GateH.debug_uint",
    "Gate.GateH.debug_hex",
    "Gate.GateH.debug_ptr",
    "Gate.GateH.debug_int",
    "Gate.GateH.debug_int_min",
    "Gate.GateH.debug_int_undefined",
    "Gate.GateH.debug_int_wrap",
    "Gate.GateH.debug_str",
    "Gate.GateH.sizes",
    "Gate.GateH.header_fields",
    "Gate.GateH.data_fields",
    "Gate.GateH.header_prefix",
    "Gate.GateH.align_same",
    "Gate.GateH.align_wraps"
   ],
   "note": "gate_debug_int of the least int64_t is undefined behaviour (refuted by debug_int_min; with wrapping addition it is right, debug_int_wrap); GATE_ALIGN_PACKET is zero for sizes above 2^32-8 (align_wraps)."
  },
  {
   "property": "C147",
   "status": "proved",
   "theorems": [
    "Gate.Trace.trace_stack",
    "Gate.Trace.trace_sound",
    "Gate.Trace.trace_exported",
    "Gate.Trace.trace_imported"
   ],
   "note": "The call map (wag's InsnMap) is trusted to be what GoodMap says. DWARF lookup and printing are not modelled."
  },
  {
   "property": "C148",
   "status": "partial",
   "theorems": [
    "Gate.Client.performs_partial",
    "Gate.Client.parseQuery_encode",
    "Gate.Client.unescape_escape",
    "Gate.Client.arrives",
    "Gate.Client.launch_source_refuted",
    "Gate.Client.show_unpins_refuted",
    "Gate.Client.bad_argument_refuted",
    "Gate.Client.remote_debug_refuted",
    "Gate.Client.debug_break_refuted"
   ],
   "note": "performs_partial is the whole property for names as arguments, apart from the launch of a module source and remote debugging, of which the property is false (proved refutations), as it is of other arguments than names."
  },
  {
   "property": "C149",
   "status": "partial",
   "theorems": [
    "Gate.Token.client_accepted",
    "Gate.Token.local_accepted",
    "Gate.Token.wrong_audience",
    "Gate.Token.audience_url",
    "Gate.Token.audience_host",
    "Gate.Token.decode64_encode64",
    "Gate.Token.parseBearer_ok",
    "Gate.Token.host_port_audience",
    "Gate.Token.host_port_foreign",
    "Gate.Token.host_port_refuted",
    "Gate.Token.digit_port_refuted",
    "Gate.Token.example_sound",
    "Gate.Token.local_only"
   ],
   "note": "Holds for addresses with a scheme, and for host names without port (audience_url, audience_host, client_accepted). The full property is false of the code: for \"host:port\", which the client accepts as an address and sends requests to, the token's audience is \"host:port\" itself and every server refuses it (host_port_refuted), and for \"127.0.0.1:8080\" the program ends (digit_port_refuted)."
  },
  {
   "property": "C150",
   "status": "partial",
   "theorems": [
    "Gate.LocalCmd.performs_partial",
    "Gate.LocalCmd.no_panic",
    "Gate.LocalCmd.accepts_range",
    "Gate.LocalCmd.debug_performs",
    "Gate.LocalCmd.dispatch_known",
    "Gate.LocalCmd.debug_download_refuted"
   ],
   "note": "All commands but debug are proved in full (performs_partial). The debugger's backtrace, bt and dumptext commands (and breakpoints at source locations) call the bus method Download, which doesn't exist: they always fail (debug_download_refuted)."
  },
  {
   "property": "C151",
   "status": "partial",
   "theorems": [
    "Gate.Download.atomic",
    "Gate.Download.success",
    "Gate.Download.failure_keeps",
    "Gate.Download.unwritable",
    "Gate.Download.leftover_refuted",
    "Gate.Download.replaced_refuted"
   ],
   "note": "Destination atomicity holds (atomic, success, failure_keeps). The last part is false: log.Fatal skips the deferred removal, so that every failure after the temporary file's creation leaves it behind (leftover_refuted); also, an existing file's mode becomes 0600 and a symbolic link is replaced (replaced_refuted). Failures of the operating system (power loss) aren't modelled."
  },
  {
   "property": "C152",
   "status": "partial",
   "theorems": [
    "Gate.Accept.acceptsText_iff",
    "Gate.Accept.acceptsApplication_iff",
    "Gate.Accept.trailer_iff",
    "Gate.Accept.rfc_partial",
    "Gate.Accept.weight_refuted",
    "Gate.Accept.case_refuted",
    "Gate.Accept.quoted_refuted",
    "Gate.Accept.contentType_iff",
    "Gate.Accept.contentType_duplicate",
    "Gate.Accept.decode_iff",
    "Gate.Accept.coding_refuted",
    "Gate.Accept.takes_partial",
    "Gate.Accept.refused_iff",
    "Gate.Accept.served",
    "Gate.Accept.unasked_refuted"
   ],
   "note": "Byte-exact characterisation of all checks for all headers. The full property is false of the code: weights are ignored (q=0), media types and content codings are compared case-sensitively, commas in quoted parameters separate, and the debug action and the feature query without parameters answer in JSON to everyone."
  },
  {
   "property": "C153",
   "status": "partial",
   "theorems": [
    "Gate.SvcStart.fields_iff",
    "Gate.SvcStart.init_ok_iff",
    "Gate.SvcStart.init_conns",
    "Gate.SvcStart.failed_closes",
    "Gate.SvcStart.panicked_closes",
    "Gate.SvcStart.close_all",
    "Gate.SvcStart.config_iff",
    "Gate.SvcStart.programConfig_other",
    "Gate.SvcStart.available",
    "Gate.SvcStart.execute_balanced",
    "Gate.SvcStart.close_returns_iff",
    "Gate.SvcStart.logged_lines",
    "Gate.SvcStart.read_prefix",
    "Gate.SvcStart.blank_refuted",
    "Gate.SvcStart.path_refuted",
    "Gate.SvcStart.reserved_refuted",
    "Gate.SvcStart.shadowed_refuted",
    "Gate.SvcStart.execute_leak_refuted",
    "Gate.SvcStart.close_hangs_refuted",
    "Gate.SvcStart.last_line_refuted",
    "Gate.SvcStart.output_lost_refuted",
    "Gate.SvcStart.targets_events",
    "Gate.SvcStart.closeResult_first"
   ],
   "note": "Success condition, connections, closing and availability are exact. The full property is false of the code: blank strings and a command with nothing but a path crash the program (the latter leaves the connection), services named like built-in ones are silently replaced, extensions named grpc or origin can't be configured, Close hangs if the program doesn't watch its connection, and error output may be lost."
  },
  {
   "property": "C154",
   "status": "partial",
   "theorems": [
    "Gate.Startup.splitHost_iff",
    "Gate.Startup.joinRoot_clean",
    "Gate.Startup.joinRoot_name",
    "Gate.Startup.mem_sources",
    "Gate.Startup.serves_iff",
    "Gate.Startup.serves_acts",
    "Gate.Startup.serves_built",
    "Gate.Startup.fails_quietly",
    "Gate.Startup.no_panic_partial",
    "Gate.Startup.joinRoot_refuted",
    "Gate.Startup.panic_refuted",
    "Gate.Startup.executors_refuted",
    "Gate.Startup.port_refuted",
    "Gate.Startup.monitor_refuted",
    "Gate.Startup.monitorOrigins_iff",
    "Gate.Startup.main_api_iff",
    "Gate.Startup.plain_api",
    "Gate.Startup.index",
    "Gate.Startup.index_refuted",
    "Gate.Startup.alive",
    "Gate.Startup.closed",
    "Gate.Startup.ends",
    "Gate.Startup.progress",
    "Gate.Startup.drain_refuted",
    "Gate.Startup.monitorOrigins_configured"
   ],
   "note": "Refuted by the code: missing origins, host name, directory or a colliding source name is a panic instead of an error; a server without executors starts; the inferred authority lacks the port; the monitor is served with privileges; an invalid index status panics; when an executor dies, the program may end (and close its databases) without waiting for the requests in progress or stopping the instances."
  },
  {
   "property": "C155",
   "status": "partial",
   "theorems": [
    "Gate.Repl.local_shown",
    "Gate.Repl.remote_shown",
    "Gate.Repl.remote_closed",
    "Gate.Repl.sent_lines",
    "Gate.Repl.remote_refuted",
    "Gate.Repl.end_refuted",
    "Gate.Repl.show_last"
   ],
   "note": "Refuted by the code: websocketConn.Read returns io.EOF at the end of each message, so that only the first message is shown by the remote command; and the command waits for the end of output before it closes the input."
  },
  {
   "property": "C156",
   "status": "partial",
   "theorems": [
    "Gate.ProgFile.survives",
    "Gate.ProgFile.state_survives",
    "Gate.ProgFile.finish_no_panic",
    "Gate.ProgFile.putMap_prefix",
    "Gate.ProgFile.putMap_all",
    "Gate.ProgFile.map_lost_refuted",
    "Gate.ProgFile.module_overwritten_refuted",
    "Gate.ProgFile.snapshot_state"
   ],
   "note": "proved for kernels which don't fail the vectored write of the object map, and sizes within the parts. Refuted otherwise: the error of writing the object map is ignored, and the stored program comes back with a wrong map (map_lost_refuted); with 4 GiB of memory initial data overwrites the module (module_overwritten_refuted)"
  },
  {
   "property": "C157",
   "status": "partial",
   "theorems": [
    "Gate.ImgRes.build_released",
    "Gate.ImgRes.build_closed_once",
    "Gate.ImgRes.newBuild_ok",
    "Gate.ImgRes.closeBuild_ok",
    "Gate.ImgRes.newInstance_owns",
    "Gate.ImgRes.snapshot_owns",
    "Gate.ImgRes.load_owns",
    "Gate.ImgRes.loadMem_owns",
    "Gate.ImgRes.storeMem_owns",
    "Gate.ImgRes.newFilesystem_owns",
    "Gate.ImgRes.closed_twice_refuted",
    "Gate.ImgRes.build_all"
   ],
   "note": "refuted in one respect: if mapping the instance's file fails in FinishText, the file is closed there and again by Close, which gets an error for it but closes nothing else (closed_twice_refuted)"
  },
  {
   "property": "C158",
   "status": "partial",
   "theorems": [
    "Gate.WebMon.checkOrigin_iff",
    "Gate.WebMon.checkOrigin_empty",
    "Gate.WebMon.route_iff",
    "Gate.WebMon.frames_shape",
    "Gate.WebMon.all_sent",
    "Gate.WebMon.closed_why",
    "Gate.WebMon.ended_unsubscribed",
    "Gate.WebMon.leaving_ends",
    "Gate.WebMon.waits",
    "Gate.WebMon.run_example",
    "Gate.WebMon.slow_example",
    "Gate.WebMon.close_noticed_refuted"
   ],
   "note": "Everything stated is proved for all schedules. Refuted beside it: that a connection is ended when its client closes it (nobody reads the websocket, so the close handler is never called); it stays subscribed until the next event."
  },
  {
   "property": "C159",
   "status": "partial",
   "theorems": [
    "Gate.DbgText.told_in_use",
    "Gate.DbgText.continues_iff",
    "Gate.DbgText.snapshot_iff",
    "Gate.DbgText.unchanged_continues",
    "Gate.DbgText.verify_iff",
    "Gate.DbgText.set_suspended_refuted",
    "Gate.DbgText.race_refuted",
    "Gate.DbgText.restart_refuted"
   ],
   "note": "Exact conditions are proved for every history and every compiler. The property itself is false of the code with every compiler whose texts differ by breakpoints: saved return addresses (and entry addresses) aren't translated when the program is rebuilt, when a rebuild becomes ready while the instance is running, when a snapshot is made of an instance which has been run with breakpoints (the map of the program's own text is used), and when the server is restarted (the rebuilt program is lost). Without changes of breakpoints it's proved. wag's compiler isn't available and is a parameter."
  },
  {
   "property": "C160",
   "status": "partial",
   "theorems": [
    "Gate.ContRes.err_clean",
    "Gate.ContRes.ok_owns",
    "Gate.ContRes.panic_why",
    "Gate.ContRes.caller_kept",
    "Gate.ContRes.handle_clean",
    "Gate.ContRes.wait_nil_iff",
    "Gate.ContRes.wait_code_iff",
    "Gate.ContRes.wait_unexpected",
    "Gate.ContRes.ids_int16",
    "Gate.ContRes.negative_refuted",
    "Gate.ContRes.leak_refuted",
    "Gate.ContRes.tcp_refuted",
    "Gate.ContRes.terminated_refuted"
   ],
   "note": "Refuted in general: two descriptors leak if the socket pair can't be made non-blocking, a negative process limit panics after the container has been started and leaves it behind, a connection which isn't a Unix socket panics; and the daemon logs an error even for a container which has terminated normally. Finalizers are not modelled."
  },
  {
   "property": "C161",
   "status": "partial",
   "theorems": [
    "Gate.RtDaemon.listens_iff",
    "Gate.RtDaemon.only_socket",
    "Gate.RtDaemon.bound_owner",
    "Gate.RtDaemon.panic_iff",
    "Gate.RtDaemon.all_handled",
    "Gate.RtDaemon.numbers_grow",
    "Gate.RtDaemon.takeover_refuted",
    "Gate.RtDaemon.removed_refuted"
   ],
   "note": "Refuted in part: a second daemon takes over the socket of one which is running, and a start which fails may have removed it."
  },
  {
   "property": "C162",
   "status": "partial",
   "theorems": [
    "Gate.Dash.event_refuted",
    "Gate.Dash.instances_iff",
    "Gate.Dash.negative_refuted",
    "Gate.Dash.first_shown",
    "Gate.Dash.restart_iff",
    "Gate.Dash.reconnects",
    "Gate.Dash.type_undefined",
    "Gate.Dash.handlers_undefined",
    "Gate.Dash.no_type_field",
    "Gate.Dash.good_new",
    "Gate.Dash.good_step"
   ],
   "note": "The events part is refuted: the dashboard expects the type inside the event and old event names, so that each frame is taken for an instance deletion (event_refuted), the count is right exactly after deletions (instances_iff) and gets negative (negative_refuted). The first frame, restarts and reconnection are proved as stated."
  },
  {
   "property": "C163",
   "status": "partial",
   "theorems": [
    "Gate.UserGroup.other_iff",
    "Gate.UserGroup.users_iff",
    "Gate.UserGroup.own_slice",
    "Gate.UserGroup.distinct",
    "Gate.UserGroup.parseError_iff",
    "Gate.UserGroup.inside",
    "Gate.UserGroup.outside_refuted",
    "Gate.UserGroup.slice_closed",
    "Gate.UserGroup.parseUint_iff",
    "Gate.UserGroup.slice_is"
   ],
   "note": "Proved in full for user ids and the descriptor. Refuted for the operator's configured process cgroup name, which may contain .. (outside_refuted); proved below the root without such components (inside)."
  },
  {
   "property": "C164",
   "status": "proved",
   "theorems": [
    "Gate.ErrTab.header_go",
    "Gate.ErrTab.use_numbered",
    "Gate.ErrTab.describe_number",
    "Gate.ErrTab.describe_unknown",
    "Gate.ErrTab.describe_panic",
    "Gate.ErrTab.uses_described",
    "Gate.ErrTab.todo_unused",
    "Gate.ErrTab.committed_unique",
    "Gate.ErrTab.stable",
    "Gate.ErrTab.numbers",
    "Gate.ErrTab.idempotent",
    "Gate.ErrTab.new_described",
    "Gate.ErrTab.numbered_iff"
   ],
   "note": "The tables, the header and the list of uses are transcribed from the files (the uses by text search for ERR_ names); todo_unused lists the unused entries whose text is a reminder; a negative code panics (describe_panic), which an exit status never is."
  },
  {
   "property": "C165",
   "status": "partial",
   "theorems": [
    "Gate.PacketCheck.call_iff",
    "Gate.PacketCheck.info_iff",
    "Gate.PacketCheck.flow_iff",
    "Gate.PacketCheck.data_iff",
    "Gate.PacketCheck.importCall_iff",
    "Gate.PacketCheck.importData_iff",
    "Gate.PacketCheck.mustBe_iff",
    "Gate.PacketCheck.isStream_iff",
    "Gate.PacketCheck.make_header",
    "Gate.PacketCheck.string_panic_iff",
    "Gate.PacketCheck.twice_refuted"
   ],
   "note": "All proved except the last part, which is refuted: the text of a flow or data buffer has the entries twice (twice_refuted)."
  },
  {
   "property": "C166",
   "status": "proved",
   "theorems": [
    "Gate.Wasm.library_meaning",
    "Gate.Wasm.exports_agree",
    "Gate.Wasm.imports_known",
    "Gate.Wasm.reserved_slot",
    "Gate.Wasm.checksum",
    "Gate.Wasm.all_bytes",
    "Gate.Wasm.decoded"
   ],
   "note": "The semantics of the used part of WebAssembly 1.0 and its binary format are part of the model (Wasm.lean); package wag's compilation isn't, nor are suspensions at implicit call sites."
  },
  {
   "property": "C167",
   "status": "partial",
   "theorems": [
    "Gate.Wasm.stopped_again_partial",
    "Gate.Wasm.stops_first",
    "Gate.Wasm.raise_refuted",
    "Gate.Wasm.close_resumed",
    "Gate.Wasm.renumber_resumed",
    "Gate.Wasm.rights_resumed",
    "Gate.Wasm.clock_resumed",
    "Gate.Wasm.exit_resumed",
    "Gate.Wasm.raise_resumed",
    "Gate.Wasm.poll_resumed",
    "Gate.Wasm.random_resumed"
   ],
   "note": "Executed from the embedded bytes (decoder and semantics of C166), with an arbitrary runtime stop call. The full property is false of proc_raise: when resumed, the call returns 0 although no signal has been raised (raise_refuted); everything else stops again. poll_resumed: for a clock as the first subscription. That operand stack, locals and memory survive resuming is a hypothesis here (see C35, C115)."
  },
  {
   "property": "C168",
   "status": "proved",
   "theorems": [
    "Gate.Start.start_exact",
    "Gate.Start.refused",
    "Gate.Start.main_called",
    "Gate.Start.no_vdso",
    "Gate.Start.agrees",
    "Gate.Start.Ends.det"
   ],
   "note": "Each instruction of both routines, executed over a memory in which only the vector needs to be readable. agrees: the model of the loader begins in the same way. The aarch64 routine leaves the argument count as what the kernel put in x0 (main doesn't use it)."
  },
  {
   "property": "C169",
   "status": "partial",
   "theorems": [
    "Gate.WebResp.answered",
    "Gate.WebResp.told_",
    "Gate.WebResp.did",
    "Gate.WebResp.gave",
    "Gate.WebResp.location",
    "Gate.WebResp.killed",
    "Gate.WebResp.closed",
    "Gate.WebResp.status_untold",
    "Gate.WebResp.ws_call",
    "Gate.WebResp.ws_silent",
    "Gate.WebResp.ws_connect",
    "Gate.WebResp.ws_location_refuted",
    "Gate.WebResp.ws_location_partial"
   ],
   "note": "Proved for all HTTP actions (routed: pinning a known module in a call is refused earlier). Refuted for websocket calls: a call of a known module with the pin action is answered with the module's location although nothing was pinned (ws_location_refuted); otherwise proved (ws_location_partial). Without trailers a client isn't told the status of its call (status_untold)."
  },
  {
   "property": "C170",
   "status": "proved",
   "theorems": [
    "Gate.Log.types",
    "Gate.Log.types_all",
    "Gate.Log.internal",
    "Gate.Log.logs",
    "Gate.Log.logs_default",
    "Gate.Log.multi",
    "Gate.Log.logs_web",
    "Gate.Log.unquote_quote",
    "Gate.Log.one_line",
    "Gate.Log.error_kept"
   ],
   "note": "The event's own text is assumed to have no newline (protobuf's text format quotes strings)."
  },
  {
   "property": "C171",
   "status": "partial",
   "theorems": [
    "Gate.InstIds.one_at_a_time",
    "Gate.InstIds.launch_iff",
    "Gate.InstIds.no_crosstalk",
    "Gate.InstIds.later_safe",
    "Gate.InstIds.lost_forever",
    "Gate.InstIds.kept",
    "Gate.InstIds.freed",
    "Gate.InstIds.freeable",
    "Gate.InstIds.early_refuted",
    "Gate.InstIds.early_later",
    "Gate.InstIds.stale_refuted"
   ],
   "note": "Proved, except that an id can be used again when its instance has been reported to be gone: a transient instance's id stays taken for a moment after its end was reported (early_refuted), until its removal which is always due (freeable, freed); and a failed resumption leaves a stored file which prevents storing a new instance by the id (stale_refuted)."
  },
  {
   "property": "C172",
   "status": "partial",
   "theorems": [
    "Gate.Locks.touched_by_holder",
    "Gate.Locks.no_race",
    "Gate.Locks.unlocked_by_holder",
    "Gate.Locks.holder_proceeds",
    "Gate.Locks.mutex_is_freed",
    "Gate.Locks.deadlock_free",
    "Gate.Locks.curious_monitor_deadlocks"
   ],
   "note": "The lock structure of every method of Server and Instance; finite work inside sections (image storage, executor socket) is assumed to end.  Full claim refuted for monitors which call back: curious_monitor_deadlocks."
  },
  {
   "property": "C173",
   "status": "proved",
   "theorems": [
    "Gate.InstRace.no_race",
    "Gate.InstRace.process_used_by_one",
    "Gate.InstRace.process_life",
    "Gate.InstRace.process_closed",
    "Gate.InstRace.stopped_once",
    "Gate.InstRace.drives_its_process",
    "Gate.InstRace.first_run",
    "Gate.InstRace.concurrent",
    "Gate.InstRace.rival_resumes",
    "Gate.InstRace.wakes",
    "Gate.InstRace.never_wakes"
   ],
   "note": "For any number of goroutines on one instance. Fields are modelled by who accesses them and when; a race is two goroutines both about to access the same field, one of them writing. What goroutines do with a process pointer after getting it from getProcess (Kill, Suspend, which the runtime allows at any time) and with services after connect isn't modelled."
  },
  {
   "property": "C174",
   "status": "partial",
   "theorems": [
    "Gate.InstRace.crash_needs",
    "Gate.InstRace.debug_crashes",
    "Gate.InstRace.apply_crashes",
    "Gate.InstRace.info_crashes"
   ],
   "note": "Proved exactly which calls can use a nil image, and when. Refuted for those: debugging an instance which another client has just deleted, and listing instances while one fails to be resumed, are nil pointer dereferences, which asError doesn't turn into an error (server/server.go:1432)."
  },
  {
   "property": "C175",
   "status": "partial",
   "theorems": [
    "Gate.BufAlias.buffers_unchanged_partial",
    "Gate.BufAlias.buffers_unchanged_refuted",
    "Gate.BufAlias.buffers_conserved",
    "Gate.BufAlias.launched",
    "Gate.BufAlias.spans_data",
    "Gate.BufAlias.suspend_unbuffered",
    "Gate.BufAlias.exCrafted_spans",
    "Gate.BufAlias.shared",
    "Gate.BufAlias.flows",
    "Gate.BufAlias.split_rest",
    "Gate.BufAlias.initPacket_says"
   ],
   "note": "Proved if no module is uploaded with a state of the origin service which has data buffered for a connection (the service itself never makes such a state: suspend_unbuffered), and refuted otherwise: the restored stream's buffer is a part of the program's array, and what the instance's program writes to the stream is stored in it, so that the other instances launched from the program get it."
  },
  {
   "property": "C176",
   "status": "partial",
   "theorems": [
    "Gate.DaemonWeb.started_local_partial",
    "Gate.DaemonWeb.listening_refuted",
    "Gate.DaemonWeb.confined",
    "Gate.DaemonWeb.foreign",
    "Gate.DaemonWeb.allowed",
    "Gate.DaemonWeb.served",
    "Gate.DaemonWeb.api_reached",
    "Gate.DaemonWeb.redirects",
    "Gate.DaemonWeb.clean_clean",
    "Gate.DaemonWeb.clean_no_up",
    "Gate.DaemonWeb.ex_started",
    "Gate.DaemonWeb.ex_requests",
    "Gate.DaemonWeb.ex_registered",
    "Gate.DaemonWeb.ex_foreign_origin",
    "Gate.DaemonWeb.ex_root"
   ],
   "note": "Partial: the name of the listening address is verified at startup but resolved again when listening, so the socket needn't be local (listening_refuted). Symbolic links below the configured directories aren't modelled; net/http's mux and ServeFile are modelled from the standard library's documented behaviour."
  },
  {
   "property": "C177",
   "status": "partial",
   "theorems": [
    "Gate.DebugLog.closed_once",
    "Gate.DebugLog.closed_partial",
    "Gate.DebugLog.suspended_never",
    "Gate.DebugLog.exclusive",
    "Gate.DebugLog.written_open_partial",
    "Gate.DebugLog.complete",
    "Gate.DebugLog.closed_final",
    "Gate.DebugLog.can_finish",
    "Gate.DebugLog.exStart",
    "Gate.DebugLog.written_open_refuted",
    "Gate.DebugLog.exSuspended"
   ],
   "note": "Partial because the code refutes the rest: a log given for an instance which is created without a process (launched suspended, or from a final snapshot) is never closed, even if the instance is resumed or deleted (suspended_never; exSuspended meets its hypothesis); and if an instance's services fail, its log is closed while output may still be copied to it (written_open_partial is exact, written_open_refuted). Line buffering is C128's."
  },
  {
   "property": "C178",
   "status": "partial",
   "theorems": [
    "Gate.Breakpoints.means",
    "Gate.Breakpoints.fails_iff",
    "Gate.Breakpoints.number_value",
    "Gate.Breakpoints.number_read",
    "Gate.Breakpoints.expr_loc",
    "Gate.Breakpoints.expr_other",
    "Gate.Breakpoints.expr_empty",
    "Gate.Breakpoints.fits_iff",
    "Gate.Breakpoints.ex_order",
    "Gate.Breakpoints.ex_inOrder",
    "Gate.Breakpoints.ex_break",
    "Gate.Breakpoints.ex_fatal",
    "Gate.Breakpoints.inside_refuted",
    "Gate.Breakpoints.number_means",
    "Gate.Breakpoints.number_understood",
    "Gate.Breakpoints.notation_unique",
    "Gate.Breakpoints.digit_iff",
    "Gate.Breakpoints.line_means",
    "Gate.Breakpoints.names_refuted",
    "Gate.Breakpoints.names_fixed"
   ],
   "note": "Proved of a daemon which has the method that the command asks the module with (names_fixed: DownloadModule); refuted of the actual one: the command calls Download, which does not exist, so FILE:LINE and function names always fail, and only numbers work (names_refuted). Instructions are assumed to be in the order of the source (wag compiles functions in one pass). inside_refuted notes that the offsets needn't be inside of the function or the code: functions without instructions, and lines of functions which have been removed by a linker (address 0)."
  },
  {
   "property": "C179",
   "status": "proved",
   "theorems": [
    "Gate.ExecWire.delivered",
    "Gate.ExecWire.delivered_all",
    "Gate.ExecWire.room",
    "Gate.ExecWire.requested",
    "Gate.ExecWire.shuts_down",
    "Gate.ExecWire.not_closing",
    "Gate.ExecWire.ex_statuses",
    "Gate.ExecWire.ex_requests",
    "Gate.ExecWire.ex_reads"
   ],
   "note": ""
  },
  {
   "property": "C180",
   "status": "partial",
   "theorems": [
    "Gate.BusFiles.closed_once",
    "Gate.BusFiles.garbage",
    "Gate.BusFiles.call_kills",
    "Gate.BusFiles.closed_refuted",
    "Gate.BusFiles.ex_callFile",
    "Gate.BusFiles.ex_refused"
   ],
   "note": "closed_once says exactly which files are closed. The full property is refuted (closed_refuted): a module file which isn't a regular file isn't closed by CallFile and LaunchFile, nor DownloadModule's if the module isn't found (they wait for garbage collection: garbage), and nothing is closed if the daemon's initialization has failed. That the server closes a module's stream and an instance its debug log is C139's and C177's. The goroutine of doCall keeps the suspension file until the client closes or writes to its end, which may be long after the call."
  },
  {
   "property": "C181",
   "status": "partial",
   "theorems": [
    "Gate.Shutdown.idle_shutdown",
    "Gate.Shutdown.stopped_and_stored",
    "Gate.Shutdown.all_signalled",
    "Gate.Shutdown.all_stopped",
    "Gate.Shutdown.all_stored",
    "Gate.Shutdown.nothing_new",
    "Gate.Shutdown.order",
    "Gate.Shutdown.error_only",
    "Gate.Shutdown.aborted_only",
    "Gate.Shutdown.anonymous_transient",
    "Gate.Shutdown.usual",
    "Gate.Shutdown.canceled_error",
    "Gate.Shutdown.shutdown_refuted",
    "Gate.Shutdown.resumed_refuted",
    "Gate.Shutdown.aborted_refuted",
    "Gate.Shutdown.started_refuted",
    "Gate.Shutdown.anonymous_refuted",
    "Gate.Shutdown.resumed_new"
   ],
   "note": "The full property is refuted by the code: a resumption which had looked its instance up before the shutdown makes it run after Shutdown has returned nil, without anyone telling it to stop (resumed_refuted); an instance which Shutdown itself sees running is reported with ctx.Err(), which is nil (aborted_refuted); an instance which is registered but not started isn't waited for (started_refuted); anonymous instances' states are ignored when the context is canceled (anonymous_refuted). It's proved for every execution in which no request is starting or resuming an instance at the moment of the shutdown (idle_shutdown), and for all executions with the exceptions characterised (all_signalled, all_stopped)."
  },
  {
   "property": "C182",
   "status": "partial",
   "theorems": [
    "Gate.ClientPipes.success",
    "Gate.ClientPipes.prefix_",
    "Gate.ClientPipes.accepted_whole",
    "Gate.ClientPipes.copied_ok",
    "Gate.ClientPipes.progress",
    "Gate.ClientPipes.pull_progress",
    "Gate.ClientPipes.pull_succeeds",
    "Gate.ClientPipes.import_never",
    "Gate.ClientPipes.import_stuck",
    "Gate.ClientPipes.shown_prefix",
    "Gate.ClientPipes.direct_all",
    "Gate.ClientPipes.lost_bounded",
    "Gate.ClientPipes.output_refuted",
    "Gate.ClientPipes.lost_exactly",
    "Gate.ClientPipes.output_fixed"
   ],
   "note": "The full property is refuted by the code: the import command never closes the write end of the pipe which it makes for anything but a regular file, while the daemon reads to the end, so it hangs (import_stuck, import_never; unless the garbage collector closes the file: progress); and when the standard output is a terminal, call and io exit without waiting for the goroutine which copies the output, so its end may be lost (output_refuted), up to what fits into the pipe and io.Copy's buffer (lost_bounded, lost_exactly). It's proved for pull and for output which isn't copied (pull_progress, success, direct_all)."
  },
  {
   "property": "C183",
   "status": "partial",
   "theorems": [
    "Gate.CallRun.own_ended",
    "Gate.CallRun.killed_once",
    "Gate.CallRun.suspended_asked",
    "Gate.CallRun.own_only",
    "Gate.CallRun.alone",
    "Gate.CallRun.pinned_stored",
    "Gate.CallRun.kept_stored",
    "Gate.CallRun.usual",
    "Gate.CallRun.canceled",
    "Gate.CallRun.closed",
    "Gate.CallRun.kill_refuted",
    "Gate.CallRun.suspend_refuted",
    "Gate.CallRun.answer_refuted",
    "Gate.CallRun.unstored_refuted"
   ],
   "note": "The run which the call started never outlives it (own_ended), and without suspension or persistence requests a call is on its own (alone). The rest is refuted by the code: if another client has suspended and resumed the instance, the call's deferred Kill kills the resumed process (kill_refuted), a late suspension byte suspends it (suspend_refuted) and the call waits for it and answers with its status (answer_refuted): nothing ties the signals to a run; it holds when nobody resumes the instance during the call (own_only). And suspending through the bus call's file doesn't store the program of an unpinned module, as SuspendInstance does (unstored_refuted; else kept_stored, pinned_stored)."
  },
  {
   "property": "C184",
   "status": "partial",
   "theorems": [
    "Gate.DaemonMain.released",
    "Gate.DaemonMain.status",
    "Gate.DaemonMain.stopping_iff",
    "Gate.DaemonMain.ready_iff",
    "Gate.DaemonMain.given_iff",
    "Gate.DaemonMain.server_iff",
    "Gate.DaemonMain.second",
    "Gate.DaemonMain.caps_first",
    "Gate.DaemonMain.run",
    "Gate.DaemonMain.bus_unwatched",
    "Gate.DaemonMain.ready_unheard",
    "Gate.DaemonMain.lost_running"
   ],
   "note": "Partial because refuted in part: ready is told although the web interface can't listen (ready_unheard), and nothing watches the bus connection: when it's lost the daemon goes on, and its shutdown then has a canceled context, so that instances may be running when the executor is closed (lost_running)."
  },
  {
   "property": "C185",
   "status": "partial",
   "theorems": [
    "Gate.Outcome.local_zero",
    "Gate.Outcome.local_silent",
    "Gate.Outcome.text_tells",
    "Gate.Outcome.bus_details",
    "Gate.Outcome.json_text",
    "Gate.Outcome.post_eq",
    "Gate.Outcome.post_zero",
    "Gate.Outcome.agree",
    "Gate.Outcome.ws_eq",
    "Gate.Outcome.ws_without_input",
    "Gate.Outcome.ws_input",
    "Gate.Outcome.local_zero_refuted",
    "Gate.Outcome.post_zero_refuted",
    "Gate.Outcome.one_ambiguous",
    "Gate.Outcome.ws_refuted",
    "Gate.Outcome.details_differ"
   ],
   "note": "Partial because refuted in part: the websocket client takes the server's input hint for the status, so a call of an uploaded module fails as RUNNING as soon as the program can get input (ws_input, ws_refuted); the local command ends with 0 when a program has been suspended abnormally (local_zero_refuted); the web client ends with 1 when a program has halted successfully (post_zero_refuted)."
  }
 ]
}