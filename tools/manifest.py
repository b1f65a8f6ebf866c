"""Generates /verif/MANIFEST.json and checks that every named theorem exists."""
import json, re, glob
C = []
def c(pid, status, ns, theorems, note):
    C.append({"property": pid, "status": status,
              "theorems": ["Gate.%s.%s" % (ns, t) if not t.startswith("Gate.") else t for t in theorems.split()],
              "note": note})
c("C01", "proved", "Packet", "make_fields setCode_fields setIndex_fields setSize_fields makeData_fields setDataNote_fields get_panics_iff", "All header fields, all values.")
c("C02", "partial", "Packet", "split_partial dataSplit_prefix align_spec split_short_remainder_not_empty split_doc_false",
  "The prefix part holds for all inputs; the documented 'empty remainder when it cannot hold a header' is refuted (split_doc_false).")
c("C03", "proved", "Packet", "makeFlows_num flow_set_get makeFlow_exact", "")
c("C04", "proved", "Varint", "scan_put len_put scan_total scan_value", "")
c("C05", "proved", "StreamState", "marshal_unmarshal stream_marshal_unmarshal", "")
c("C06", "proved", "StreamState", "unmarshal_total", "")
c("C07", "proved", "ReadStream", "flow_control suspend_state start_no_panic", "All schedules of both sides; sizes unbounded, uint32 wrap modelled.")
c("C08", "partial", "ReadStream", "eof_once_partial eof_at_most_once eof_not_always_sent",
  "At most once always; exactly once unless the reader returns data together with its end or the context is cancelled, where the full property is refuted (eof_not_always_sent).")
c("C51", "partial", "ReadStream", "packet_size_partial restored_packet_too_large", "Holds unless data is restored with more than MaxSendSize-16 bytes, where it is refuted for every MaxSendSize.")
c("C52", "partial", "ReadStream", "finish_loses_subscription", "Refuted by a schedule.")
c("C09", 'proved', 'WriteStream', 'fifo write_accepted_iff start_buffer',
  'Refinement of the ring to a FIFO queue over all schedules; unbounded volume (uint32 offsets wrap).')
c("C10", 'proved', 'WriteStream', 'credit_bound within_credit_accepted credit_replenished',
  '')
c("C11", 'partial', 'WriteStream', 'suspend_partial suspend_wrapped wrapped_reachable',
  'Holds exactly when the undelivered bytes do not wrap around; in every wrapped state it is refuted (2^32-size zero bytes are appended), and a wrapped state is reachable.')
c("C12", 'partial', 'WriteStream', 'restored_transfer_fails closed_stream_not_restorable',
  'Refuted: for every schedule of a program within its credit the restored transfer fails at once. The serialization part is C05.')
c("C53", 'partial', 'WriteStream', 'suspend_marshal_partial wrapped_suspend_panics overdrawn_suspend_panics wrapped_reachable',
  'Holds for unwrapped streams within credit; refuted for every wrapped state and every overdrawn state.')
c("C13", 'proved', 'Framing', 'framing framing_total',
  'framing: all packet lists, paddings, chunkings and already buffered parts. suspend_in_padding (under C54) is about cutting the stream by suspension.')
c("C14", 'proved', 'Framing', 'split_total split_exact',
  '')
c("C15", 'proved', 'Framing', 'check_spec handle_spec handled_is_deliverable',
  '')
c("C20", 'proved', 'Framing', 'event_padding init_message',
  '')
c("C16", 'proved', 'Services', 'discovery_request parseNames_iff reply_spec',
  '')
c("C17", 'partial', 'Services', 'handle_total_partial fresh_never_panics_partial restored_many_panics',
  'Holds with at most 256 services (every program not restored from a snapshot). Refuted for restored lists longer than 256: negative slice length panics.')
c("C21", 'proved', 'Services', 'lookup_spec nearest_unique lookup_valid clone_isolated register_spec',
  'Unicode categories of characters are a parameter.')
c("C22", 'proved', 'Services', 'discover_spec discover_history restore_spec',
  '')
c("C23", 'partial', 'Services', 'state_restored_partial stale_state_replayed stale_state_always',
  'The property is false: the saved state is not cleared when an instance is restored (assignment to a loop copy); the refutation and the part that holds are proved.')
c("C55", 'proved', 'Services', 'catalog_spec',
  '')
c("C56", 'partial', 'Services', 'restorable_partial not_restorable restore_spec',
  'Holds for distinct names; refuted for a repeated unknown name.')
c("C18", 'proved', 'IoLoop', 'order order_refused stop_saves resume_messages',
  'resume_messages: the kept output splits back into exactly the undelivered messages.')
c("C19", 'partial', 'IoLoop', 'kept_input_aligned_partial kept_input_misaligned',
  'Refuted in general (pending events are kept without padding); proved when all event lengths are multiples of eight.')
c("C54", 'partial', 'IoLoop', 'suspend_framing_partial eof_partial suspend_mid_packet unexpected_is_error',
  'Refuted when a part of a packet is in the pipe; proved for suspension at plain end-of-file. See also Gate.Framing.suspend_in_padding.')
c("C25", 'proved', 'Executor', 'decided_once identifiers_conserved',
  'All interleavings of the atomic steps of callers, sender, receiver and executor process; executor death ends a run.')
c("C26", 'partial', 'Executor', 'first_kill_is_requested_partial kill_after_other_call_ignored kill_after_suspend_lost',
  'Refuted in general: a kill after a suspend is ignored (kill_after_suspend_lost).  Holds when the kill is the first call on the process.')
c("C27", 'partial', 'Executor', 'quiet_identifiers_safe_partial status_misattributed receiver_crashes executor_dies',
  'Refuted in general: an identifier returns to the pool when the kill request is queued, so a later status can be attributed to the wrong process, and the receiver or the executor can crash.  Holds for all runs where an identifier is only reused when quiet.')
c("C57", 'partial', 'Executor', 'capacity_accounted_partial capacity_lost',
  'Refuted: cancellation between receiving the identifier and handing over the request loses it forever.  The accounting part holds.')
c("C58", 'partial', 'Executor', 'quiet_identifiers_safe_partial wrong_process_killed receiver_crashes executor_dies',
  'Refuted: a stale kill request can kill the process which got the identifier.  Holds for all runs where an identifier is only reused when quiet.')
c("C24", 'proved', 'Process', 'normal_exit trap_exit other_exit signal_exit status_cases report_sound program_end_reported exit_100_is_success grow_failure_reported_as_success result_is_status',
  'Every wait status and every way the I/O loop ends. Findings proved beside it: exit code 100 is reported as trap 0 (exit/success), and on x86-64 a failed memory growth call ends up as a success report. The wag trap numbering (0..10) is assumed from the trap package and server.proto.')
c("C28", 'proved', 'Ring', 'statuses_fifo poll_room send_possible send_resumes',
  "All schedules of child deaths and sends of the executor's status queue. Assumes that the kernel accepts whole status records in a send.")
c("C30", 'proved', 'Process', 'addresses_valid fixed_text addresses_injective',
  'All random inputs, page sizes 4096..65536.')
c("C59", 'partial', 'Process', 'time_accurate time_resolution_partial finer_than_resolution arm_time_wrong granularity',
  'Proved: accuracy, order and the mask granularity within a second. The full claim is false: the mask restarts at each second, so two readings around a second boundary may be closer than the resolution (finer_than_resolution); the aarch64 runtime uses a wrong nanosecond factor (arm_time_wrong).')
c("C60", 'partial', 'Process', 'monotonic_clock arm_clock_goes_back',
  'Proved for the x86-64 runtime for every history; for the aarch64 runtime the claim is refuted (arm_clock_goes_back).')
c("C29", 'partial', 'Sharder', 'outcome_sound_partial ready_taken_partial distribution_panics two_executors_panic no_executors_panic wrong_channel_removed all_empty',
  'The distribution claim is refuted: the distributing select panics for most histories with several executors. What holds of each returned process (it comes from a configured executor, and a ready one is taken) is proved; the failures are proved as theorems.')
c("C31", 'proved', 'Leb', 'i64_const i32_const put_undisturbed before_offset wasmU_bytes wasmS_range',
  'Encoders proved against a decoder written from the WebAssembly specification.')
c("C32", 'partial', 'Sections', 'buffers_roundtrip no_buffers load_stored_buffers_fails memory_section globals_section data_section stack_section export_wrap globals_disagree global_roundtrip',
  "The round trip through a section is proved for all buffers (and the other sections' makers against the WebAssembly format); reading buffers back through a stored program fails for every non-empty buffers (the byte range includes the section's frame), proved as load_stored_buffers_fails.")
c("C33", 'proved', 'Sections', 'snapshot_roundtrip readSnapshot_total',
  'For all snapshot metadata and all byte sequences.')
c("C62", 'partial', 'Sections', 'read_total_partial hostile_count',
  "Reading is total; that allocation is bounded by the section's size is refuted by hostile_count: seven bytes make the reader allocate 2^32-1 service records.")
c("C61", 'partial', 'SnapLayout', 'snapshot_layout_partial manOf_places no_table_panics no_exports_panic second_generation_panics custom_between_corrupts uploaded_frame_corrupts',
  'Proved for all modules with sections in plain order which have table and export sections. The rest is refuted by theorems: modules without a table or export section and every second-generation snapshot panic, custom sections between standard ones and uploaded hidden exports give a corrupted module.')
c("C43", 'partial', 'Server', 'references references_partial closed_while_referenced failed_start_breaks_module',
  'References are exact in histories where no instance start fails (references_partial); for all histories the count plus the number of failed starts equals the number of references (references). The error path of _runOrDeleteInstance drops the program reference twice, so the unrestricted claim is false: closed_while_referenced, failed_start_breaks_module.')
c("C44", 'proved', 'Server', 'isolation only_known',
  "isolation: steps by one principal leave every other principal's modules and instances unchanged; only_known: a principal only ever holds modules whose contents it presented. The existence oracle of upload-by-hash (a length mismatch error reveals a known hash) is not modelled.")
c("C65", 'partial', 'Server', 'registry_keeps never_released',
  "Refuted for the code: the server's program registry holds a reference to every program ever registered until shutdown (registry_keeps), so none is released (never_released). What does hold about release is C43.")
c("C38", 'proved', 'Auth', 'expiration_window expiration_reason',
  'Clock assumed to be between 1970 and 2^62 seconds; expiration_reason: the reason given is right for every expiry later than -2^62.')
c("C39", 'proved', 'Auth', 'token_accepted',
  'Exact characterisation (if and only if) of accepted tokens and of the principal; JSON parsing and Ed25519 verification are arbitrary functions.')
c("C40", 'partial', 'Nonce', 'nonce_once_partial once_while_valid replay_race replay_without_expiry',
  "At most one acceptance until the token expires, in every interleaving. Missing: a request whose expiry was checked in the token's last second is accepted again if the nonce table is purged in the next second (replay_race), and on a local-authorization server signed tokens without expiry can be replayed any number of times (replay_without_expiry). Database failures end in refusal; servers with different clocks sharing a database are not modelled.")
c("C41", 'proved', 'Auth', 'scope_accepted scope_granted alias_unique matchAlias_spec own_name own_name_counterexample register_nodup',
  "Alias resolution makes a registered name stand for another one only if it ends in a non-word character (own_name, own_name_counterexample). Newlines in scope strings: the regular expression's dot does not match them, which makes no difference to the result.")
c("C42", 'partial', 'Auth', 'shared_account_iff separate_accounts_partial shared_account_example local_account_example local_account_iff',
  'Holds for canonically encoded keys. Refuted in general: the decoder ignores two bits of the last character, so four identifiers share an account, and the local principal shares the account of the all-zero key.')
c("C66", 'partial', 'Auth', 'token_crash token_crash_example token_crash_local_example',
  'Refuted: exact condition of crashes (token_crash); a token with alg EdDSA and no jwk crashes the handler, as does an unsigned token with a nonce on a local server with nonce storage. All other tokens are answered.')
c("C48", 'partial', 'Web', 'instance_action_sound instance_action_refused instance_action_complete repeated_kill',
  'Sound, complete and refusing for every query; the part saying that repeated actions are refused is false of the code: kill, suspend and wait may be repeated (repeated_kill).')
c("C49", 'partial', 'Web', 'one_effect_partial one_effect_source_partial suspended_call_performed',
  'Holds for every handler except a module source POST with both call and suspend, where the code answers unsupported action and then performs the call (missing return; suspended_call_performed).')
c("C67", 'partial', 'Web', 'put_actions post_known_actions actions_known_partial suspend_ignored',
  'Exact for launch and whenever suspend is absent; false of the code otherwise: a suspend action next to call, pin or unpin is dropped silently (suspend_ignored).')
c("C68", 'proved', 'Web', 'anonymous_call known_module_authorized',
  'All nine handlers with action parameters.')
c("C46", 'partial', 'Files', 'closed_at_most_once closed_after_last_reference open_iff_referenced held_reference_never_panics first_reference_of_released_panics_partial released_file_resurrected panics_exact',
  'Everything but the last clause for all interleavings; referencing a released file panics the first time only: the panicking call leaves the count incremented, so the next one succeeds (released_file_resurrected).')
c("C47", 'proved', 'Files', 'vector_write_complete vector_write_prefix vector_write_error vector_write_terminates write_at_exact',
  "All buffers, offsets and kernel behaviours. The kernel's answers are an arbitrary list; the kernel writes a prefix of what it is given.")
c("C50", 'partial', 'Entry', 'program_resolution resolutions_agree_partial resolutions_disagree_iff resolutions_disagree resolved_has_address built_and_stored_agree_partial built_and_stored_agree_unnamed hidden_exports_disagree late_snapshot_disagrees',
  'Resolution on a stored program is characterised exactly; the implementations agree exactly when no unstarted _start export has another type. False of the code otherwise, and also for hidden exports and for a snapshot section after the code.')
c("C69", 'proved', 'Entry', 'accepted_iff',
  "An equivalence for all section sequences. Section contents are assumed well-formed here (their parsing is C31 and C32); the nesting of the standard export section in gate.export is wag's.")
c("C34", 'proved', 'Dbg', 'sortDedup_spec search_spec search_found union_spec complement_spec debug_config apply_spec too_many_refused breakpoints_always_valid',
  "Go's sort.Sort is trusted to sort; sort.Search's binary search is modelled. Operations which crash instead of succeeding are C70.")
c("C70", 'partial', 'Dbg', 'debug_no_crash_partial debug_crashes_on_change debug_crashes apply_exact',
  'Holds for instances of snapshot programs, for the written operations with a configuration. False of the code otherwise: any change on an instance of an ordinary program dereferences its missing snapshot record; an omitted configuration is dereferenced; reading globals or memory panics.')
c("C35", 'proved', 'CallStack', 'export_native export_sound import_portable import_sound export_import export_import_data import_export',
  "For every call map with distinct return addresses and every well-formed stack of any depth. wag's FindCall and FindFunc are trusted to find the site or function with the address.")
c("C36", 'partial', 'CallStack', 'import_no_crash_partial import_crashes export_crashes',
  'Refuted for the code: stack data which ends in the middle of a frame crashes the import (slice out of range); proved never to crash for all other data.')
c("C37", 'partial', 'CallStack', 'initial_stack_never_imported',
  'Refuted for the code: the initial stack (stack offset 16) is rejected by import for every program, start and entry function.')
c("C71", 'proved', 'IoLoop', 'backpressure initially_pending',
  'After the process has died its remaining output is read without this limit (runtime/io.go:121-150).')
c("C72", 'proved', 'Web', 'no_excess_parameters function_names missing_param',
  'The names only: a repeated action value such as suspend next to pin is C67.')
c("C45", 'proved', 'Life', 'transitions final_forever resume_iff refused_while_running transient_disappears disappears_only gone_forever listed_nonexistent wait_blocks released',
  "All interleavings of the clients' operations at the granularity of the instance's critical sections, with arbitrary process outcomes and failures. A run which could not be started (C76) also releases its waiters.")
c("C73", 'partial', 'Life', 'crash_iff no_crash_partial info_crash debug_crash',
  'Exact characterisation of the crashes: listing an instance whose resumption failed to start, and debugging an instance which was deleted meanwhile (both reachable). Everything else never crashes. The debug operation is followed to its first access of the image only (the rest is C70).')
c("C74", 'partial', 'Life', 'exit_status trap_status killed_status failure_status status_recorded_partial status_misrecorded',
  'The reported status is as stated in all cases. The image records it if nothing failed internally and the program was run; otherwise refuted (status_misrecorded: killed by an internal error, recorded as terminated).')
c("C75", 'partial', 'Life', 'stored_not_final stored_terminated stored_partial running_not_stored',
  'Refuted: the image is stored before the status is put in it, so in no history is a stored image marked final unless the program was a final snapshot. That the instance is stored when it stops without failures, and is not while it runs, is proved.')
c("C76", 'partial', 'Life', 'refused_resume_partial resume_failure_loses',
  "Holds for refused requests. Refuted for every suspended instance whose process can't be started: the image is closed and the instance is lost.")
c("C77", 'partial', 'Life', 'resume_iff resume_function_ignored resumed_enters_nothing',
  'That a function name is required is resume_iff. The rest is refuted: the name is not used, and a process of a halted instance is started without an entry function.')
c("C78", 'partial', 'Life', 'snapshot_running_partial snapshot_transient_destroys',
  'Proved for persistent instances which get suspended, when no other client interferes. Refuted for every transient instance: the suspension destroys it and there is no snapshot.')
c("C79", 'partial', 'Life', 'waited_status_partial waited_running',
  "Holds unless the instance has been resumed between the stop and the waiter's look at the status, or the run could not be started; refuted otherwise.")
c("C80", 'proved', 'Life', 'transience persistent_remains',
  'Quantified over every step of the lifecycle model.')
c("C81", 'partial', 'Life', 'stored_with_program_partial stored_without_program',
  'Refuted as stated: UpdateInstance with Persist does not store the program. Proved for histories without such an update, if the instance was not launched transient, unpinned and not started.')
c("C82", 'proved', 'ImageFile', 'new_instance_state new_instance_wf new_instance_vars build_program_state build_both_state built_like_new',
  "For page sizes up to 64 KiB and stack sizes up to about 2 GiB. new_instance_vars (the loader's variables start as zero) is for pages up to 8 KiB: with larger pages the call stack may share the first page with the variables.")
c("C83", 'partial', 'ImageFile', 'new_instance_limit built_limit_partial built_exceeds_limit limit_wraps limit_negative',
  'Holds for instances created from stored programs, with limits under 4 GiB. For an instance created together with its program the limit of the access policy is rounded up to a whole WebAssembly page (built_exceeds_limit: 100000 becomes 131072). Limits of 4 GiB and more, and negative ones, are truncated to 32 bits (limit_wraps, limit_negative).')
c("C84", 'partial', 'ImageFile', 'store_load_mem store_load_fs_partial built_unloadable',
  "Memory and PersistentMemory storage: for every well-formed instance. Filesystem storage: for every history of an instance created by NewInstance; an instance created together with its program isn't marked dirty and is stored without its manifest unless it is modified first, so that it can't be loaded (built_unloadable).")
c("C85", 'partial', 'ImageFile', 'snapshot_restores_partial snapshot_data snapshot_stack snapshot_wf snapshot_unstarted',
  'Holds for instances which have a call stack and for halted or terminated ones. The snapshot of a suspended instance which was never started gets a call stack of 24 zero bytes (snapshot_unstarted).')
c("C63", 'partial', 'ImageFile', 'snapshot_metadata killed_runs_again upload_metadata',
  "What does hold: the new program has the old program's metadata. The instance's own trap, result and final flag aren't in the snapshot program: the snapshot of a killed instance can be run again (killed_runs_again); an upload keeps only the time and breakpoints of a snapshot section (upload_metadata).")
c("C64", 'proved', 'ImageFile', 'accepted_wf rejected_iff read_stack_safe read_globals_safe loaded_unchanged',
  'The file contents after the run are arbitrary. accepted_wf: the checked instance is well-formed; rejected_iff says exactly which stack variables are rejected.')
c("C86", 'partial', 'Storage', 'crash_consistent_partial store_content crash_manifest_partial running_invisible_partial holds_loads store_failure_refuted unstore_failure_refuted',
  "Holds for PersistentMemory always. With Filesystem it holds provided that an instance isn't stored again or run after its Store failed at the directory sync or its Unstore failed; without that it is false (store_failure_refuted, unstore_failure_refuted), since the instance forgets that its file is linked. The disk model is an assumption. Builds through FinishInstance are excluded for the manifest (C82).")
c("C87", 'proved', 'Storage', 'durable stored_survives goodRun_reach',
  '')
c("C88", 'partial', 'Storage', 'store_again_mem store_first_fs never_stored_again',
  "never_stored_again shows the property false of Filesystem instances, assuming Linux's rule that an inode whose links have all been removed can't be linked; the rest is proved.")
c("C89", 'partial', 'Manifest', 'header_round_trip oversize_unloadable wrong_tag unmarshal_safe marshal_elsewhere dec_enc instance_manifest_fits instance_proto_round_trip instance_manifest_round_trip',
  "Instance manifests are modelled to the byte (protobuf encoding) and always fit. A program manifest of more than 4088 bytes is stored but can't be loaded (oversize_unloadable); whether such a program can exist depends on wag's export limits, which aren't modelled.")
c("C90", 'partial', 'Seccomp', 'x86_exact arm_allows arm_exact_refuted convention_ignored i386_refuted text_protected grow_passes',
  "x86-64: exact. aarch64: one more call (number 3) gets through, as the jump for an unmatched number lands on the comparison of the protection argument. The architecture and convention of the call isn't looked at, so i386 calls are matched by number.")
c("C91", 'proved', 'Rt', 'call_confined call_independent memory_accessible out_of_bounds prologue_exact reach_inv write_error write_nothing read_error',
  '')
c("C92", 'partial', 'Rt', 'grow_refused grow_works memory_limit grow_failed_arm grow_failed_x86_refuted',
  'On x86-64 a failed mprotect ends the process with status 0 (the page aligned address is in the status register), which is reported as a successful exit.')
c("C93", 'partial', 'Rt', 'debug_x86 debug_arm_partial debug_arm_refuted debug_arm_trap_refuted debug_error',
  'x86-64: proved. aarch64: if the kernel takes only a part of the buffer, the low half of an absolute address is stored as the relative one: the program gets an out-of-bounds trap (or wrong data is output).')
c("C94", 'proved', 'Rt', 'random_once random_run',
  '')
c("C95", 'proved', 'Rt', 'poll_result poll_output_closed',
  '')
c("C96", 'proved', 'AbiLib', 'lib_confined',
  "Noninterference and frame for all functions of the library. rt_time's implementation is a parameter which is assumed to have the property.")
c("C97", 'partial', 'AbiLib', 'fd_write_gate fd_write_all fd_write_std fd_write_empty_refuted',
  "Proved for the gate descriptor on both architectures (and that everything is written if it's accepted), and for standard output on x86-64: on aarch64 a partial debug write traps (C93). That EAGAIN means that the call could be retried is refuted: writing nothing is EAGAIN.")
c("C98", 'proved', 'AbiLib', 'fd_read_gate fd_read_all',
  '')
c("C99", 'proved', 'AbiLib', 'io_gate io_send_all',
  '')
c("C100", 'partial', 'AbiLib', 'poll_oneoff poll_std_blocks_refuted poll_std_waits_refuted poll_duplicate_refuted poll_preview1_refuted',
  "The bound, the userdata and the memory effects are proved. Refuted: with subscriptions of standard output only, the call blocks until it's interrupted or the input is hung up; of two subscriptions of reading only the latter gets an event; preview1's subscriptions have another size and two of them are an error.")
c("C101", 'partial', 'AbiLib', 'environ random_get proc_exit bad_descriptor good_descriptor fd_filestat_size_refuted',
  'All proved but the last, which is refuted: half of the file size is left as it was.')
c("C102", 'partial', 'Suspend', 'x86_suspend_known_partial arm_suspend_known_partial suspended_or_exhausted arm_suspend_lost_refuted x86_stray_refuted',
  "Proved for a vDSO function that doesn't use the callee-saved register for something else; refuted otherwise: on aarch64 the signal gets lost, on x86-64 the handler uses an unrelated value as the base address of its stack variables.")
c("C103", 'partial', 'Resolver', 'wasi_resolves_partial wasi_unsupported gate_resolves gate_unsupported module_unsupported panic_iff type_sound build_imports sizeOk_iff vector_matches fd_allocate_panics_refuted gate_panics_refuted nop_mismatch_refuted slots_exact slots_range',
  "Exact outcome for all names and types. Refuted where it says 'never by a crash': importing fd_allocate, or a gate function with an unacceptable size suffix, panics with a non-error value. panic_iff says exactly when.")
c("C104", 'partial', 'CopyRange', 'copied_prefix copied_exactly copied_exactly_kernel terminates newInstance_range newInstance_copied hangs_refuted short_copy_refuted mapped_copy_partial mapped_short_refuted',
  "Proved when the source file extends over the range (as files created by the storages do: newInstance_copied). Refuted otherwise: the loop never ends at the end of the source file, and the fallback succeeds with less. The mapped variant (ashmem) isn't complete if the kernel reads less than asked for.")
c("C105", 'proved', 'Restart', 'key_roundtrip key_unique key_injective key_file_name validID_nodot uuid_alias_refuted',
  "Proved about names. uuid_alias_refuted: the ids aren't canonical, so two instances can have the same UUID spelled differently (that isn't claimed otherwise). google/uuid v1.0.0, as pinned by go.mod, is modelled.")
c("C106", 'partial', 'Restart', 'starts_iff own_storage_starts started_state failure_closes one_bad_file_refuted stored_buffers_refuted missing_panics_refuted',
  "Refuted for stored programs which are snapshots with buffers (loading the buffers always fails), and for PersistentMemory with a disappearing file (nil dereference). Instances are not restored at all by New: started_state says so. Missing: the loaded images' contents (C-properties of Sections/ImageFile).")
c("C107", 'partial', 'OriginState', 'restore_total suspend_restore restored_not_writable_refuted bad_buffer_refuted goodBuf_iff',
  "restore_total: errors or sane distinct streams for every input; suspend_restore: accept calls and stream states are given back. Refuted part: a restored stream has no room for the program's data (restored_not_writable_refuted); a buffer size with other than one bit set makes restoring (and connecting) panic (bad_buffer_refuted). Byte-level model of the marshaling.")
c("C108", 'partial', 'Origin', 'accepted_le_calls one_at_a_time no_lost_wakeup own_stream obedient_not_aborted close_releases restored_write_aborts_refuted restored_close_aborts_refuted closed_connects_refuted max_conns_refuted',
  "Transition system over unboundedly many calls. Proved: counting, no lost wakeup, own streams, obedient programs aren't aborted (instance without restored streams), Close releases blocked calls. Refuted: programs with restored streams which write to them are aborted; Connect calls after Close may succeed; MaxConns isn't enforced (n connections for every n).")
c("C109", 'partial', 'Origin', 'down_ended stop_bounded stop_completes stop_stuck_refuted read_blocks_stop read_blocks_stop_refuted',
  "Proved: if contexts are done or the connector is closed, every schedule without new reads is bounded (rank) and can't end before the service is down. Refuted without that: a Connect call whose reply is pending blocks shutdown for ever, and a connection blocked in a read blocks it until the read returns.")
c("C110", 'partial', 'Respond', 'no_leak internal_text denied_text status_exact status_500_iff event_exact challenge_iff retry_after retry_too_early_refuted client_faults_500_refuted close_code close_iff close_missing_refuted constants_delivered http_exact events_exact',
  'No leakage, exact status and event classification, challenge and Retry-After presence are proved for all errors. Refuted: Retry-After is rounded down, so an obedient client is too early; four kinds of client faults are reported as internal failures with status 500; an error text longer than 123 bytes is never delivered over websocket.')
c("C111", 'partial', 'Upload', 'accepted rejected wrong_hash programs_sound download_exact_partial roundtrip_partial again_partial never_removed_refuted poisoned_refuted download_padded_refuted too_short gzip_refuted gzip_padded_refuted upper_case_refuted bad_hash_500_refuted',
  "Identity by hash, limits and completeness hold for all histories. Exact download and repeated upload hold if every declared length is the content's length; refuted otherwise: a declared length which is too long is accepted from anyone (websocket call), and makes the exact upload of the same module fail for everyone until the server restarts, because programs are never removed. Also refuted: compressed uploads, upper case hashes, malformed hashes (status 500).")
c("C112", 'partial', 'Source', 'http_contract_partial http_limit http_part_whole http_exact http_upload http_chunked_refuted http_unavailable_refuted ipfs_limit ipfs_exact ipfs_negative_refuted ipfs_negative_refused ipfs_poison_refuted range_header status_outcome',
  'The limit holds for all responses, and the contract for HTTP responses with a Content-Length; exact behaviour with honest servers. Refuted: partial responses without Content-Length, negative and wrong lengths from IPFS, streams without length and empty objects are failures.')
c("C113", 'partial', 'Access', 'authorize_iff authorize_sound owner_stable parse_ok_iff decisions limits_nonzero limits_exact trailing_comment_refuted options_ignored_refuted zero_limit_refuted default_limits',
  'Exact grant condition and ownership are proved. Refuted: a comment or an empty line after the last key is an error, key options (expiry, restrictions) are ignored, and a limit of zero means the default limit.')
c("C114", 'partial', 'Monitor', 'events_fifo given_prefix given_all subscribed_open not_killed call_returns stopped_releases current_nil counted_crashes_refuted no_counted blocked_refuted blocked_reachable_refuted stuck_refuted stuck_reachable_refuted prompt_killed_refuted double_close_refuted',
  "Order, completeness and the reason for being dropped are proved for all interleavings, as are the cases in which calls return. The rest of the property is false of the code, and its negation is proved: New leaves the counters' pointer nil, so the first counted event crashes the process; a call which found the buffer full blocks as long as nobody subscribes; a Subscribe whose caller gives up between request and answer stops the loop for good; a subscriber with room in its channel may be dropped; unsubscribing after having been dropped may close a closed channel.")
c("C115", 'partial', 'ReqContext', 'report_principal derive_report op_report iface_report addr_report detached_report op_context derive_keeps_partial detach_erases_refuted access_changes_refuted op_unset',
  'What a derived context reports is proved in full. That the original context and reported events are unaffected holds only when the details are copied (principal not yet in them: derive_keeps_partial); otherwise the shared object is modified in place, and the negation is proved for anonymous requests.')
c("C116", 'partial', 'ScopeAlias', 'matchAlias_iff compute_iff names_registered names_sorted resolve_cases resolve_alias resolve_ambiguous resolve_idem name_itself punctuation_refuted resolve_stable grants_iff empty_grants_nothing alias_chars word_chars class_chars boundary_chars',
  "Proved in full for names with at least one word character; for a name made of punctuation only, 'a registered name stands for itself' is false, and that's proved (punctuation_refuted).")
c("C117", 'partial', 'CallSvc', 'once_each_partial once_each_flags_partial pending_kept answered_twice_refuted call_lost_refuted identity_answer identity_lawful catalog_lawful',
  "Proved for all runs in which the serving context isn't canceled (once_each_partial), and for those in which nothing is replayed or dropped. With cancellation, as it happens when a client disconnects, the property is false: an answer may be given twice, a call may be lost (proved).")
c("C118", 'partial', 'CallSvc', 'stop_progress_partial stuck_refuted stuck_reachable_refuted',
  "Completion is proved when the service isn't sending its reply, or the context has been canceled. Otherwise the property is false: the I/O loop waits for the services without canceling their context, and a service which is sending its reply never returns (proved, with reachability).")
c("C119", 'partial', 'Grpc', 'same_process_same_key other_process_other_key remembered_iff_partial leaked_refuted',
  "Sameness and difference of keys are proved for all interleavings. That keys are released is proved unless a start of services has failed halfway; in that case it's false: the key is kept forever (proved).")
c("C120", 'partial', 'Grpc', 'no_crash_partial given_in_order nothing_lost_partial framed_unique finishes short_crashes_refuted length_crashes_refuted canceled_refuted handled_once_partial handled_twice_refuted',
  "Proved for services which send packets of valid length and as long as the context isn't canceled from outside. Otherwise false, and refuted: a packet of less than 8 or more than 65536 bytes crashes the server; cancellation loses packets and aborts; a packet may be handled twice if its answer is lost.")
c("C121", 'partial', 'Daemon', 'contains_context own_scope_partial other_scope_refuted contexts_kept_refuted',
  "Proved when no other call sets its scope between a call's own two steps. For concurrent calls it's false: the closures assign to a shared variable, and a program may get another call's scope (proved for all scopes); contexts pile up (proved).")
c("C122", 'partial', 'Daemon', 'not_before not_aborted served_partial hangs_refuted hangs_reachable_refuted',
  'Never before, and never failing, are proved; so is being served for all calls except those which wait for the channel while another one has taken the server from it: those hang until termination (proved, with reachability by two calls).')
c("C123", 'partial', 'Daemon', 'bus_goes_on call_goes_on launch_goes_on_partial launch_suspended_refuted launch_reachable_refuted done_request',
  "Proved for instances started through the bus and for calls. For web launches and resumptions it's false: detachedContext keeps the request's cancellation, and net/http cancels the context when the handler returns, upon which the I/O loop suspends the instance (proved for every such state).")
c("C124", 'proved', 'Ws', 'one_writer no_race protocol one_hint read_after_hint broken_is_final output_exact write_count no_deadlock read_progress input_exact cancel_exact',
  'Transition system with one reading and one writing goroutine (as Stream.Transfer has) and the handler; exclusion by mutex-and-flag invariant, observations by log invariants.')
c("C125", 'partial', 'ReqId', 'got_eq distinct increasing distinct_restart_partial restart_repeats_refuted exact_ids',
  'Unique and increasing within a process; unique over restarts if at most a million requests per elapsed millisecond; refuted for a restart within the same millisecond or after the clock was set back.')
c("C126", 'partial', 'Creds', 'alloc_spec alloc_complete start_mappings isolated_uid_partial not_root_partial root_refuted same_ids_refuted needless_ids_refuted parseInt_iff space_chars',
  "Proved for all files and configurations: kept, in range, distinct, not own; complete. Refuted: a range starting at -1 makes the container root's; ids configured equal are accepted; containers without need for ids (namespaces disabled or single id) can't be started without a subuid entry.")
c("C127", 'partial', 'Prepare', 'conserved given_once nothing_leaks bounded stops answered instances_total programs_partial programs_panic_refuted stale_errors_refuted',
  'Conservation as a permutation of everything made, by induction over runs. Refuted: PreparePrograms and PrepareProcesses panic with a buffer size of zero or less; errors made in advance are given to later requests.')
c("C128", 'proved', 'CopyDebug', 'log_exact log_prefix log_complete line_flushed',
  'Model of the loop over bufio.Writer; failures of the log at any write and byte.')
c("C129", 'partial', 'Container', 'exec_state sandboxed disabled_keeps_host starts orphan_partial orphan_child_partial orphan_refuted parent_order parent_configures address_space only_nofile_optional',
  'The state at exec is a function of the configuration, whatever fails. Refuted part: with namespaces the executor may be started although the parent has died, because the credential change clears the signal and the check looks for process 1.')
c("C130", 'partial', 'WebRoute', 'forbidden_iff origins_spec local_checks foreign_refused_partial no_origin_served cors_origin second_origin_refuted cache_refuted',
  "Exact refusal condition, local handlers, and permissions are proved for all requests. Missing and refuted: of several Origin headers only the first is looked at; cacheable answers name one origin without a Vary header, so another configured origin can't use a cached one.")
c("C131", 'partial', 'WebRoute', 'route_iff supported_iff no_effect cors_methods_partial instance_list_cors_refuted allow_sound allow_refuted features_answer cors_headers listing',
  "Routing, methods and feature queries are exact. Refuted: the instance directory's cross-origin permission omits POST (the only way to list instances); the Allow header never names GET and HEAD.")
c("C132", 'proved', 'AbiLib', 'set_rights fdstat_get fixed_descriptors wrong_direction fd_is_4 fd_filestat_exact',
  'For both architectures and all states.')
c("C133", 'proved', 'ExecLoop', 'in_order signals_right statuses_once terminated quiescent settles gets_there',
  "The kernel's epoll, sockets and pidfds are modelled by their documented behaviour (see the module's comment). Assumes that a blocking send gets room eventually.")
c("C134", 'partial', 'ExecLoop', 'deaths deaths_proper survives full_house executor_dies_refuted death_when_closed',
  'Refuted at MaxProcs: NOFILE leaves no room for the descriptors of a batch of creations, so five creations received at once kill the executor and all its processes when 16379 processes exist (executor_dies_refuted). Proved for less than 16005 processes.')
c("C135", 'partial', 'ExecLoop', 'no_signals waits_for_exit close_kills_refuted',
  "Refuted: after the connection has been shut down, no signal is ever sent, and the executor waits for the processes to exit by themselves; Close hangs if one doesn't.")
c("C136", 'partial', 'ExecLoop', 'spins_refuted dies_refuted death_when_closed',
  'Refuted: every hangup event re-arms itself by EPOLL_CTL_MOD, so the executor loops without waiting while it has processes; and the first status which it tries to send after that kills it.')
c("C137", 'proved', 'ExecStat', 'ticks_exact time_left second_refuted grows',
  'The comment in the code says that it rounds up to a second; second_refuted shows that it rounds to the nearest.')
c("C138", 'partial', 'Requests', 'policy_first_partial refused_no_effect_partial snapshot_unauthorized_refuted',
  'Proved for all API functions except Snapshot; refuted for it: it suspends a running instance before asking the policy, and if refused, the resumption is refused, too (server.go:896-921). `act`, `have_` and `Before` are the specification.')
c("C139", 'partial', 'Requests', 'resources_partial resources_exact start_failure_refuted store_failure_refuted old_log_refuted alt_image_refuted',
  "An exact characterization is proved: resources are balanced unless one of the listed defects is met; each of them is shown to occur (refutations): reference dropped twice when a process doesn't start, image lost when a suspended instance can't be stored, debug log of an instance created suspended lost on resumption and deletion, rebuilt program image lost on deletion.")
c("C140", 'proved', 'Requests', 'success_reports failure_reports pin_reports event_kind_refuted',
  '`report` is the specification; it gives the kinds of module events as they are in the code, which are wrong for modules from a source and for uploads without a hash (event_kind_refuted).')
c("C141", 'partial', 'Requests', 'crash_partial anonymous_final_refuted',
  "Proved that only PinModule and Snapshot without the pin option (a programming error of the caller), and anonymous calls which create a transient instance which isn't to be run, can crash; refuted for the latter: a module with a final snapshot, called anonymously, crashes the handler.")
c("C142", 'partial', 'Requests', 'success_effects success_passes failure_effects failure_instance_partial update_effect resume_failure_refuted crash_instance_refuted',
  "`changes` and `handed` are the specification. Refuted: a resumption whose process doesn't start deletes the suspended instance; a handler which crashes (C141) leaves the instance.")
c("C143", 'proved', 'Loader', 'program_space write_xor_execute writable_is_state memory_confined runtime_view',
  "assumes that the kernel's own mappings (vDSO) are not writable; Fits is shown for all Start's information by start_to_program")
c("C144", 'proved', 'Loader', 'decode_encode receive_sent receive_strict isClockGettime_iff findClock_spec startInfo_exact start_to_program entered_state library_calls',
  "wag's routine addresses are constants from outside of the repository")
c("C145", 'proved', 'Loader', 'load_keeps failed_load_manifest untouched_manifest',
  '')
c("C146", 'partial', 'GateH', 'debug_uint debug_hex debug_ptr debug_int debug_int_min debug_int_undefined debug_int_wrap debug_str sizes header_fields data_fields header_prefix align_same align_wraps',
  'gate_debug_int of the least int64_t is undefined behaviour (refuted by debug_int_min; with wrapping addition it is right, debug_int_wrap); GATE_ALIGN_PACKET is zero for sizes above 2^32-8 (align_wraps).')
c("C147", 'proved', 'Trace', 'trace_stack trace_sound trace_exported trace_imported',
  "The call map (wag's InsnMap) is trusted to be what GoodMap says. DWARF lookup and printing are not modelled.")
c("C148", 'partial', 'Client', 'performs_partial parseQuery_encode unescape_escape arrives launch_source_refuted show_unpins_refuted bad_argument_refuted remote_debug_refuted debug_break_refuted',
  'performs_partial is the whole property for names as arguments, apart from the launch of a module source and remote debugging, of which the property is false (proved refutations), as it is of other arguments than names.')
c("C149", 'partial', 'Token', 'client_accepted local_accepted wrong_audience audience_url audience_host decode64_encode64 parseBearer_ok host_port_audience host_port_foreign host_port_refuted digit_port_refuted example_sound local_only',
  'Holds for addresses with a scheme, and for host names without port (audience_url, audience_host, client_accepted). The full property is false of the code: for "host:port", which the client accepts as an address and sends requests to, the token\'s audience is "host:port" itself and every server refuses it (host_port_refuted), and for "127.0.0.1:8080" the program ends (digit_port_refuted).')
c("C150", 'partial', 'LocalCmd', 'performs_partial no_panic accepts_range debug_performs dispatch_known debug_download_refuted',
  "All commands but debug are proved in full (performs_partial). The debugger's backtrace, bt and dumptext commands (and breakpoints at source locations) call the bus method Download, which doesn't exist: they always fail (debug_download_refuted).")
c("C151", 'partial', 'Download', 'atomic success failure_keeps unwritable leftover_refuted replaced_refuted',
  "Destination atomicity holds (atomic, success, failure_keeps). The last part is false: log.Fatal skips the deferred removal, so that every failure after the temporary file's creation leaves it behind (leftover_refuted); also, an existing file's mode becomes 0600 and a symbolic link is replaced (replaced_refuted). Failures of the operating system (power loss) aren't modelled.")
c("C152", 'partial', 'Accept', 'acceptsText_iff acceptsApplication_iff trailer_iff rfc_partial weight_refuted case_refuted quoted_refuted contentType_iff contentType_duplicate decode_iff coding_refuted takes_partial refused_iff served unasked_refuted',
  'Byte-exact characterisation of all checks for all headers. The full property is false of the code: weights are ignored (q=0), media types and content codings are compared case-sensitively, commas in quoted parameters separate, and the debug action and the feature query without parameters answer in JSON to everyone.')
c("C153", 'partial', 'SvcStart', 'fields_iff init_ok_iff init_conns failed_closes panicked_closes close_all config_iff programConfig_other available execute_balanced close_returns_iff logged_lines read_prefix blank_refuted path_refuted reserved_refuted shadowed_refuted execute_leak_refuted close_hangs_refuted last_line_refuted output_lost_refuted targets_events closeResult_first',
  "Success condition, connections, closing and availability are exact. The full property is false of the code: blank strings and a command with nothing but a path crash the program (the latter leaves the connection), services named like built-in ones are silently replaced, extensions named grpc or origin can't be configured, Close hangs if the program doesn't watch its connection, and error output may be lost.")
c("C154", 'partial', 'Startup', 'splitHost_iff joinRoot_clean joinRoot_name mem_sources serves_iff serves_acts serves_built fails_quietly no_panic_partial joinRoot_refuted panic_refuted executors_refuted port_refuted monitor_refuted monitorOrigins_iff main_api_iff plain_api index index_refuted alive closed ends progress drain_refuted monitorOrigins_configured',
  'Refuted by the code: missing origins, host name, directory or a colliding source name is a panic instead of an error; a server without executors starts; the inferred authority lacks the port; the monitor is served with privileges; an invalid index status panics; when an executor dies, the program may end (and close its databases) without waiting for the requests in progress or stopping the instances.')
c("C155", 'partial', 'Repl', 'local_shown remote_shown remote_closed sent_lines remote_refuted end_refuted show_last',
  'Refuted by the code: websocketConn.Read returns io.EOF at the end of each message, so that only the first message is shown by the remote command; and the command waits for the end of output before it closes the input.')
c("C156", 'partial', 'ProgFile', 'survives state_survives finish_no_panic putMap_prefix putMap_all map_lost_refuted module_overwritten_refuted snapshot_state',
  "proved for kernels which don't fail the vectored write of the object map, and sizes within the parts. Refuted otherwise: the error of writing the object map is ignored, and the stored program comes back with a wrong map (map_lost_refuted); with 4 GiB of memory initial data overwrites the module (module_overwritten_refuted)")
c("C157", 'partial', 'ImgRes', 'build_released build_closed_once newBuild_ok closeBuild_ok newInstance_owns snapshot_owns load_owns loadMem_owns storeMem_owns newFilesystem_owns closed_twice_refuted build_all',
  "refuted in one respect: if mapping the instance's file fails in FinishText, the file is closed there and again by Close, which gets an error for it but closes nothing else (closed_twice_refuted)")
c("C158", 'partial', 'WebMon', 'checkOrigin_iff checkOrigin_empty route_iff frames_shape all_sent closed_why ended_unsubscribed leaving_ends waits run_example slow_example close_noticed_refuted',
  'Everything stated is proved for all schedules. Refuted beside it: that a connection is ended when its client closes it (nobody reads the websocket, so the close handler is never called); it stays subscribed until the next event.')
c("C159", 'partial', 'DbgText', 'told_in_use continues_iff snapshot_iff unchanged_continues verify_iff set_suspended_refuted race_refuted restart_refuted',
  "Exact conditions are proved for every history and every compiler. The property itself is false of the code with every compiler whose texts differ by breakpoints: saved return addresses (and entry addresses) aren't translated when the program is rebuilt, when a rebuild becomes ready while the instance is running, when a snapshot is made of an instance which has been run with breakpoints (the map of the program's own text is used), and when the server is restarted (the rebuilt program is lost). Without changes of breakpoints it's proved. wag's compiler isn't available and is a parameter.")
c("C160", 'partial', 'ContRes', 'err_clean ok_owns panic_why caller_kept handle_clean wait_nil_iff wait_code_iff wait_unexpected ids_int16 negative_refuted leak_refuted tcp_refuted terminated_refuted',
  "Refuted in general: two descriptors leak if the socket pair can't be made non-blocking, a negative process limit panics after the container has been started and leaves it behind, a connection which isn't a Unix socket panics; and the daemon logs an error even for a container which has terminated normally. Finalizers are not modelled.")
c("C161", 'partial', 'RtDaemon', 'listens_iff only_socket bound_owner panic_iff all_handled numbers_grow takeover_refuted removed_refuted',
  'Refuted in part: a second daemon takes over the socket of one which is running, and a start which fails may have removed it.')
c("C162", 'partial', 'Dash', 'event_refuted instances_iff negative_refuted first_shown restart_iff reconnects type_undefined handlers_undefined no_type_field good_new good_step',
  'The events part is refuted: the dashboard expects the type inside the event and old event names, so that each frame is taken for an instance deletion (event_refuted), the count is right exactly after deletions (instances_iff) and gets negative (negative_refuted). The first frame, restarts and reconnection are proved as stated.')
c("C163", 'partial', 'UserGroup', 'other_iff users_iff own_slice distinct parseError_iff inside outside_refuted slice_closed parseUint_iff slice_is',
  "Proved in full for user ids and the descriptor. Refuted for the operator's configured process cgroup name, which may contain .. (outside_refuted); proved below the root without such components (inside).")
c("C164", 'proved', 'ErrTab', 'header_go use_numbered describe_number describe_unknown describe_panic uses_described todo_unused committed_unique stable numbers idempotent new_described numbered_iff',
  'The tables, the header and the list of uses are transcribed from the files (the uses by text search for ERR_ names); todo_unused lists the unused entries whose text is a reminder; a negative code panics (describe_panic), which an exit status never is.')
c("C165", 'partial', 'PacketCheck', 'call_iff info_iff flow_iff data_iff importCall_iff importData_iff mustBe_iff isStream_iff make_header string_panic_iff twice_refuted',
  'All proved except the last part, which is refuted: the text of a flow or data buffer has the entries twice (twice_refuted).')
c("C166", 'proved', 'Wasm', 'library_meaning exports_agree imports_known reserved_slot checksum all_bytes decoded',
  "The semantics of the used part of WebAssembly 1.0 and its binary format are part of the model (Wasm.lean); package wag's compilation isn't, nor are suspensions at implicit call sites.")
c("C167", 'partial', 'Wasm', 'stopped_again_partial stops_first raise_refuted close_resumed renumber_resumed rights_resumed clock_resumed exit_resumed raise_resumed poll_resumed random_resumed',
  'Executed from the embedded bytes (decoder and semantics of C166), with an arbitrary runtime stop call. The full property is false of proc_raise: when resumed, the call returns 0 although no signal has been raised (raise_refuted); everything else stops again. poll_resumed: for a clock as the first subscription. That operand stack, locals and memory survive resuming is a hypothesis here (see C35, C115).')
c("C168", 'proved', 'Start', 'start_exact refused main_called no_vdso agrees Ends.det',
  "Each instruction of both routines, executed over a memory in which only the vector needs to be readable. agrees: the model of the loader begins in the same way. The aarch64 routine leaves the argument count as what the kernel put in x0 (main doesn't use it).")
c("C169", 'partial', 'WebResp', 'answered told_ did gave location killed closed status_untold ws_call ws_silent ws_connect ws_location_refuted ws_location_partial',
  "Proved for all HTTP actions (routed: pinning a known module in a call is refused earlier). Refuted for websocket calls: a call of a known module with the pin action is answered with the module's location although nothing was pinned (ws_location_refuted); otherwise proved (ws_location_partial). Without trailers a client isn't told the status of its call (status_untold).")
c("C170", 'proved', 'Log', 'types types_all internal logs logs_default multi logs_web unquote_quote one_line error_kept',
  "The event's own text is assumed to have no newline (protobuf's text format quotes strings).")
c("C171", 'partial', 'InstIds', 'one_at_a_time launch_iff no_crosstalk later_safe lost_forever kept freed freeable early_refuted early_later stale_refuted',
  "Proved, except that an id can be used again when its instance has been reported to be gone: a transient instance's id stays taken for a moment after its end was reported (early_refuted), until its removal which is always due (freeable, freed); and a failed resumption leaves a stored file which prevents storing a new instance by the id (stale_refuted).")
c("C172", 'partial', 'Locks', 'touched_by_holder no_race unlocked_by_holder holder_proceeds mutex_is_freed deadlock_free curious_monitor_deadlocks',
  'The lock structure of every method of Server and Instance; finite work inside sections (image storage, executor socket) is assumed to end.  Full claim refuted for monitors which call back: curious_monitor_deadlocks.')
c("C173", 'proved', 'InstRace', 'no_race process_used_by_one process_life process_closed stopped_once drives_its_process first_run concurrent rival_resumes wakes never_wakes',
  "For any number of goroutines on one instance. Fields are modelled by who accesses them and when; a race is two goroutines both about to access the same field, one of them writing. What goroutines do with a process pointer after getting it from getProcess (Kill, Suspend, which the runtime allows at any time) and with services after connect isn't modelled.")
c("C174", 'partial', 'InstRace', 'crash_needs debug_crashes apply_crashes info_crashes',
  "Proved exactly which calls can use a nil image, and when. Refuted for those: debugging an instance which another client has just deleted, and listing instances while one fails to be resumed, are nil pointer dereferences, which asError doesn't turn into an error (server/server.go:1432).")
c("C175", 'partial', 'BufAlias', 'buffers_unchanged_partial buffers_unchanged_refuted buffers_conserved launched spans_data suspend_unbuffered exCrafted_spans shared flows split_rest initPacket_says',
  "Proved if no module is uploaded with a state of the origin service which has data buffered for a connection (the service itself never makes such a state: suspend_unbuffered), and refuted otherwise: the restored stream's buffer is a part of the program's array, and what the instance's program writes to the stream is stored in it, so that the other instances launched from the program get it.")
c("C176", 'partial', 'DaemonWeb', 'started_local_partial listening_refuted confined foreign allowed served api_reached redirects clean_clean clean_no_up ex_started ex_requests ex_registered ex_foreign_origin ex_root',
  "Partial: the name of the listening address is verified at startup but resolved again when listening, so the socket needn't be local (listening_refuted). Symbolic links below the configured directories aren't modelled; net/http's mux and ServeFile are modelled from the standard library's documented behaviour.")
c("C177", 'partial', 'DebugLog', 'closed_once closed_partial suspended_never exclusive written_open_partial complete closed_final can_finish exStart written_open_refuted exSuspended',
  "Partial because the code refutes the rest: a log given for an instance which is created without a process (launched suspended, or from a final snapshot) is never closed, even if the instance is resumed or deleted (suspended_never; exSuspended meets its hypothesis); and if an instance's services fail, its log is closed while output may still be copied to it (written_open_partial is exact, written_open_refuted). Line buffering is C128's.")
c("C178", 'partial', 'Breakpoints', 'means fails_iff number_value number_read expr_loc expr_other expr_empty fits_iff ex_order ex_inOrder ex_break ex_fatal inside_refuted number_means number_understood notation_unique digit_iff line_means names_refuted names_fixed',
  "Proved of a daemon which has the method that the command asks the module with (names_fixed: DownloadModule); refuted of the actual one: the command calls Download, which does not exist, so FILE:LINE and function names always fail, and only numbers work (names_refuted). Instructions are assumed to be in the order of the source (wag compiles functions in one pass). inside_refuted notes that the offsets needn't be inside of the function or the code: functions without instructions, and lines of functions which have been removed by a linker (address 0).")
c("C179", 'proved', 'ExecWire', 'delivered delivered_all room requested shuts_down not_closing ex_statuses ex_requests ex_reads',
  '')
c("C180", 'partial', 'BusFiles', 'closed_once garbage call_kills closed_refuted ex_callFile ex_refused',
  "closed_once says exactly which files are closed. The full property is refuted (closed_refuted): a module file which isn't a regular file isn't closed by CallFile and LaunchFile, nor DownloadModule's if the module isn't found (they wait for garbage collection: garbage), and nothing is closed if the daemon's initialization has failed. That the server closes a module's stream and an instance its debug log is C139's and C177's. The goroutine of doCall keeps the suspension file until the client closes or writes to its end, which may be long after the call.")
c("C181", 'partial', 'Shutdown', 'idle_shutdown stopped_and_stored all_signalled all_stopped all_stored nothing_new order error_only aborted_only anonymous_transient usual canceled_error shutdown_refuted resumed_refuted aborted_refuted started_refuted anonymous_refuted resumed_new',
  "The full property is refuted by the code: a resumption which had looked its instance up before the shutdown makes it run after Shutdown has returned nil, without anyone telling it to stop (resumed_refuted); an instance which Shutdown itself sees running is reported with ctx.Err(), which is nil (aborted_refuted); an instance which is registered but not started isn't waited for (started_refuted); anonymous instances' states are ignored when the context is canceled (anonymous_refuted). It's proved for every execution in which no request is starting or resuming an instance at the moment of the shutdown (idle_shutdown), and for all executions with the exceptions characterised (all_signalled, all_stopped).")
c("C182", 'partial', 'ClientPipes', 'success prefix_ accepted_whole copied_ok progress pull_progress pull_succeeds import_never import_stuck shown_prefix direct_all lost_bounded output_refuted lost_exactly output_fixed',
  "The full property is refuted by the code: the import command never closes the write end of the pipe which it makes for anything but a regular file, while the daemon reads to the end, so it hangs (import_stuck, import_never; unless the garbage collector closes the file: progress); and when the standard output is a terminal, call and io exit without waiting for the goroutine which copies the output, so its end may be lost (output_refuted), up to what fits into the pipe and io.Copy's buffer (lost_bounded, lost_exactly). It's proved for pull and for output which isn't copied (pull_progress, success, direct_all).")
c("C183", 'partial', 'CallRun', 'own_ended killed_once suspended_asked own_only alone pinned_stored kept_stored usual canceled closed kill_refuted suspend_refuted answer_refuted unstored_refuted',
  "The run which the call started never outlives it (own_ended), and without suspension or persistence requests a call is on its own (alone). The rest is refuted by the code: if another client has suspended and resumed the instance, the call's deferred Kill kills the resumed process (kill_refuted), a late suspension byte suspends it (suspend_refuted) and the call waits for it and answers with its status (answer_refuted): nothing ties the signals to a run; it holds when nobody resumes the instance during the call (own_only). And suspending through the bus call's file doesn't store the program of an unpinned module, as SuspendInstance does (unstored_refuted; else kept_stored, pinned_stored).")
c("C184", 'partial', 'DaemonMain', 'released status stopping_iff ready_iff given_iff server_iff second caps_first run bus_unwatched ready_unheard lost_running',
  "Partial because refuted in part: ready is told although the web interface can't listen (ready_unheard), and nothing watches the bus connection: when it's lost the daemon goes on, and its shutdown then has a canceled context, so that instances may be running when the executor is closed (lost_running).")
c("C185", 'partial', 'Outcome', 'local_zero local_silent text_tells bus_details json_text post_eq post_zero agree ws_eq ws_without_input ws_input local_zero_refuted post_zero_refuted one_ambiguous ws_refuted details_differ',
  "Partial because refuted in part: the websocket client takes the server's input hint for the status, so a call of an uploaded module fails as RUNNING as soon as the program can get input (ws_input, ws_refuted); the local command ends with 0 when a program has been suspended abnormally (local_zero_refuted); the web client ends with 1 when a program has halted successfully (post_zero_refuted).")
#--MORE--
def load_theorems():
    names = set()
    for f in glob.glob("/verif/lean/Verif/**/*.lean", recursive=True):
        ns = []
        for l in open(f):
            m = re.match(r"\s*namespace (\S+)", l)
            if m: ns.append(m.group(1))
            m = re.match(r"\s*end (\S+)", l)
            if m and ns and ns[-1] == m.group(1): ns.pop()
            m = re.match(r"\s*(?:@\[[^\]]*\]\s*)?(?:private\s+)?theorem (\S+)", l)
            if m: names.add(".".join(ns + [m.group(1)]))
    return names
if __name__ == "__main__":
    N = load_theorems()
    for x in C:
        for t in x["theorems"]:
            if t not in N: print("MISSING", x["property"], t)
    ids = [json.loads(l)["id"] for l in open("/verif/properties.jsonl")]
    have = {x["property"] for x in C}
    print("no claim yet:", [i for i in ids if i not in have], "unknown:", [h for h in have if h not in ids])
    C.sort(key=lambda x: int(x["property"][1:]))
    json.dump({"claims": C}, open("/verif/MANIFEST.json", "w"), indent=1)
