{
 "claims": [
  {
   "property": "C01",
   "status": "proved",
   "theorems": [
    "Pywasm.Props.C01_unsigned_round_trip",
    "Pywasm.Props.C01_negative_raises"
   ],
   "note": ""
  },
  {
   "property": "C02",
   "status": "proved",
   "theorems": [
    "Pywasm.Props.C02_signed_round_trip"
   ],
   "note": ""
  },
  {
   "property": "C03",
   "status": "proved",
   "theorems": [
    "Pywasm.Props.C03_readers_total",
    "Pywasm.Props.C03_exhaustive",
    "Pywasm.Props.C03_encoding_minimal"
   ],
   "note": ""
  },
  {
   "property": "C04",
   "status": "proved",
   "theorems": [
    "Pywasm.Props.C04_wrapping_ops_exact"
   ],
   "note": ""
  },
  {
   "property": "C05",
   "status": "partial",
   "theorems": [
    "Pywasm.Props.C05_division_partial",
    "Pywasm.Props.C05_division64_partial",
    "Pywasm.Props.C05_i64_div_u_partial",
    "Pywasm.Props.C05_i64_div_u_false"
   ],
   "note": "false for i64.div_u with quotient >= 2^63 (OverflowError), exact characterisation proved; all others proved"
  },
  {
   "property": "C06",
   "status": "proved",
   "theorems": [
    "Pywasm.Props.C06_bit_counts"
   ],
   "note": ""
  },
  {
   "property": "C07",
   "status": "proved",
   "theorems": [
    "Pywasm.Props.C07_comparisons"
   ],
   "note": ""
  },
  {
   "property": "C08",
   "status": "proved",
   "theorems": [
    "Pywasm.Props.C08_width_conversions",
    "Pywasm.Props.C08_reinterpret"
   ],
   "note": ""
  },
  {
   "property": "C09",
   "status": "proved",
   "theorems": [
    "Pywasm.Props.C09_host_int_round_trip",
    "Pywasm.Props.C09_host_v128_round_trip",
    "Pywasm.Props.C09_host_f64_round_trip",
    "Pywasm.Props.C09_signed_unsigned_views"
   ],
   "note": ""
  },
  {
   "property": "C10",
   "status": "proved",
   "theorems": [
    "Pywasm.Props.C10_load",
    "Pywasm.Props.C10_load_lane"
   ],
   "note": ""
  },
  {
   "property": "C11",
   "status": "proved",
   "theorems": [
    "Pywasm.Props.C11_store",
    "Pywasm.Props.C11_store_lane",
    "Pywasm.Props.C11_load_after_store"
   ],
   "note": ""
  },
  {
   "property": "C12",
   "status": "partial",
   "theorems": [
    "Pywasm.Props.C12_memory_size",
    "Pywasm.Props.C12_memory_grow",
    "Pywasm.Props.C12_history_partial",
    "Pywasm.Props.C12_never_shrinks",
    "Pywasm.Props.C12_max_zero_false"
   ],
   "note": "everything except a declared maximum of 0, which the code treats as no maximum (C12_max_zero_false)"
  },
  {
   "property": "C13",
   "status": "proved",
   "theorems": [
    "Pywasm.Props.C13_memory_copy",
    "Pywasm.Props.C13_memory_fill",
    "Pywasm.Props.C13_memory_init",
    "Pywasm.Props.C13_data_drop",
    "Pywasm.Props.C13_dropped_for_good"
   ],
   "note": ""
  },
  {
   "property": "C14",
   "status": "partial",
   "theorems": [
    "Pywasm.Props.C14_table_get",
    "Pywasm.Props.C14_table_set",
    "Pywasm.Props.C14_table_size",
    "Pywasm.Props.C14_table_grow",
    "Pywasm.Props.C14_table_fill",
    "Pywasm.Props.C14_table_copy",
    "Pywasm.Props.C14_table_init",
    "Pywasm.Props.C14_elem_drop",
    "Pywasm.Props.C14_dropped_for_good",
    "Pywasm.Props.C14_history",
    "Pywasm.Props.C14_max_zero_false"
   ],
   "note": "everything except a declared maximum of 0, which the code treats as no maximum (C14_max_zero_false)"
  },
  {
   "property": "C15",
   "status": "proved",
   "theorems": [
    "Pywasm.Props.C15_immutable_globals",
    "Pywasm.Props.C15_immutable_globals_step",
    "Pywasm.Props.C52_global_set"
   ],
   "note": "for every host that itself only extends the store"
  },
  {
   "property": "C16",
   "status": "proved",
   "theorems": [
    "Pywasm.Props.C16_store_stable",
    "Pywasm.Props.C16_step_stable",
    "Pywasm.Props.C16_functions"
   ],
   "note": "for every host that itself only extends the store"
  },
  {
   "property": "C17",
   "status": "partial",
   "theorems": [
    "Pywasm.Props.C17_returns_partial",
    "Pywasm.Props.C17_traps_partial",
    "Pywasm.Props.C17_complete_partial",
    "Pywasm.Props.C17_returns_covered_partial",
    "Pywasm.Props.C17_traps_covered_partial",
    "Pywasm.Props.C17_complete_covered_partial",
    "Pywasm.Props.C17_returns_exactly",
    "Pywasm.Props.C17_traps_exactly",
    "Pywasm.Props.C17_bad_div_raises"
   ],
   "note": "simulation of the structured reference interpreter for all code, until the run comes to an i64.div_u with a quotient of 2^63 or more (C05, raises OverflowError) or a branch to the label of a called function (C22); no exception at all for code with neither"
  },
  {
   "property": "C18",
   "status": "proved",
   "theorems": [
    "Pywasm.Props.C18_call_enters",
    "Pywasm.Props.C18_return",
    "Pywasm.Props.C18_fall_off_end"
   ],
   "note": "per-step statements; the whole-call statement is part of C17_returns_partial through Ref.call"
  },
  {
   "property": "C19",
   "status": "proved",
   "theorems": [
    "Pywasm.Props.C19_call_traps_when_deep",
    "Pywasm.Props.C19_step_bound",
    "Pywasm.Props.C19_frames_bounded"
   ],
   "note": ""
  },
  {
   "property": "C20",
   "status": "proved",
   "theorems": [
    "Pywasm.Props.C20_clean_and_arity"
   ],
   "note": ""
  },
  {
   "property": "C21",
   "status": "partial",
   "theorems": [
    "Pywasm.Props.C21_trap_poisons_false",
    "Pywasm.Props.C21_trapped_code_goes_on_false",
    "Pywasm.Props.C21_cleared_partial"
   ],
   "note": "false of the code: stacks are not cleared after a trap, and the next call may execute the rest of the trapped function before it returns (both by counterexample). C21_cleared_partial: if the embedder empties the stacks after the exception, the next call of a validated session returns the results of the reference interpreter on the store left by the trap, traps with its store, runs on, or meets one of the two deviations (C05, C22)."
  },
  {
   "property": "C22",
   "status": "partial",
   "theorems": [
    "Pywasm.Props.C22_outermost_partial",
    "Pywasm.Props.C22_called_function_false"
   ],
   "note": "holds for the invoked function, false for called functions (proved)"
  },
  {
   "property": "C23",
   "status": "partial",
   "theorems": [
    "Pywasm.Props.C23_unknown_export",
    "Pywasm.Props.C23_wrong_arity",
    "Pywasm.Props.C23_bad_argument",
    "Pywasm.Props.C23_conversion",
    "Pywasm.Props.C23_kind_unchecked_false"
   ],
   "note": "the export kind is not checked by the code (counterexample proved); the rest is proved"
  },
  {
   "property": "C24",
   "status": "partial",
   "theorems": [
    "Pywasm.Props.C24_reference",
    "Pywasm.Props.C24_valid_programs_partial",
    "Pywasm.Props.C24_valid_programs_covered_partial",
    "Pywasm.Props.C24_valid_programs_exactly",
    "Pywasm.Props.C24_results_partial",
    "Pywasm.Props.C24_instruction",
    "Pywasm.Props.C24_instance_partial",
    "Pywasm.Props.C24_session_partial",
    "Pywasm.Props.C24_session_call_partial",
    "Pywasm.Props.C24_exported_call_partial"
   ],
   "note": "every invocation of a validated function in a well-typed store returns typed results, traps where the specification traps, or runs forever, and the store stays well typed; instantiation of valid modules keeps the store well typed, so whole sessions do not go wrong. Missing: runs that come to one of the two deviations (C05, C22), where the claim is false"
  },
  {
   "property": "C25",
   "status": "partial",
   "theorems": [
    "Pywasm.Props.C25_check_partial",
    "Pywasm.Props.C25_reject_partial",
    "Pywasm.Props.C25_missing",
    "Pywasm.Props.C25_max_zero_false"
   ],
   "note": "everything except a declared maximum of 0, which the code treats as no maximum (C25_max_zero_false)"
  },
  {
   "property": "C26",
   "status": "proved",
   "theorems": [
    "Pywasm.Props.C26_index_spaces",
    "Pywasm.Props.C26_exports",
    "Pywasm.Props.C26_lookup"
   ],
   "note": "for every host that itself only extends the store"
  },
  {
   "property": "C27",
   "status": "proved",
   "theorems": [
    "Pywasm.Props.C27_initialised",
    "Pywasm.Props.C27_data_misfit",
    "Pywasm.Props.C27_elem_misfit"
   ],
   "note": "for validated initialisers and freshly decoded segment buffers (see C28)"
  },
  {
   "property": "C28",
   "status": "partial",
   "theorems": [
    "Pywasm.Props.C28_decoded_again_partial",
    "Pywasm.Props.C28_second_instance_false",
    "Pywasm.Props.C28_passive_false",
    "Pywasm.Props.C28_passive_partial"
   ],
   "note": "false of the code: data.drop empties the decoded module; holds when the module is decoded again, and when the module has neither active data segments nor a start function"
  },
  {
   "property": "C29",
   "status": "proved",
   "theorems": [
    "Pywasm.Props.C29_decode_inverts_encoding",
    "Pywasm.Props.C29_decode_inst",
    "Pywasm.Props.C29_unambiguous",
    "Pywasm.Props.C29_recursion_limit"
   ],
   "note": "C29_recursion_limit shows that the bound on the nesting (Python recursion limit, a parameter) cannot be dropped"
  },
  {
   "property": "C30",
   "status": "partial",
   "theorems": [
    "Pywasm.Props.C30_decode_inverts_encoding_partial",
    "Pywasm.Props.C30_wrong_header_rejected"
   ],
   "note": "proved for files with at most 32 sections; with more, sections are lost (C31)"
  },
  {
   "property": "C31",
   "status": "partial",
   "theorems": [
    "Pywasm.Props.C31_custom_sections_ignored_partial",
    "Pywasm.Props.C31_boundary",
    "Pywasm.Props.C31_refuted",
    "Pywasm.Props.C31_sections_ignored"
   ],
   "note": "the property is false: everything after 32 sections is ignored; proved for at most 32 sections, and C31_boundary shows that with more something is always left unread"
  },
  {
   "property": "C32",
   "status": "proved",
   "theorems": [
    "Pywasm.Props.C32_vector_int",
    "Pywasm.Props.C32_lanes_of_result",
    "Pywasm.Props.C32_lanewise",
    "Pywasm.Props.C32_extract_replace"
   ],
   "note": "Every integer vector instruction, all stacks; meaning in Spec/SimdOps.lean (vecSem, laneSem)."
  },
  {
   "property": "C33",
   "status": "proved",
   "theorems": [
    "Pywasm.Props.C33_bitwise",
    "Pywasm.Props.C33_shuffle"
   ],
   "note": "Bitwise instructions, swizzle and shuffle for all vectors and selectors."
  },
  {
   "property": "C34",
   "status": "partial",
   "theorems": [
    "Pywasm.Props.C34_f32_abs_neg",
    "Pywasm.Props.C34_f64_abs_neg",
    "Pywasm.Props.C34_f64_copysign",
    "Pywasm.Props.C34_f32_copysign_partial",
    "Pywasm.Props.C34_copysign_quiets",
    "Pywasm.Props.C08_reinterpret"
   ],
   "note": "f32.copysign goes through a double and quiets signalling NaNs (C34_copysign_quiets); everything else holds"
  },
  {
   "property": "C35",
   "status": "partial",
   "theorems": [
    "Pywasm.Props.C35_f64_min_max_partial",
    "Pywasm.Props.C35_f32_min_max_partial",
    "Pywasm.Props.C35_zeros_wrong"
   ],
   "note": "false on zeros of different sign (C35_zeros_wrong); the rest is proved"
  },
  {
   "property": "C36",
   "status": "partial",
   "theorems": [
    "Pywasm.Props.C36_rounding_partial",
    "Pywasm.Props.C36_zero_sign_lost"
   ],
   "note": "the sign of zero results is lost (C36_zero_sign_lost); the rest is proved"
  },
  {
   "property": "C37",
   "status": "proved",
   "theorems": [
    "Pywasm.Props.C37_trunc",
    "Pywasm.Props.C37_trunc_sat"
   ],
   "note": ""
  },
  {
   "property": "C38",
   "status": "partial",
   "theorems": [
    "Pywasm.Props.C38_convert_partial",
    "Pywasm.Props.C38_convert_i64_partial",
    "Pywasm.Props.C38_rounds_twice",
    "Pywasm.Props.C38_promote_demote"
   ],
   "note": "f32.convert_i64_s/u round twice (C38_rounds_twice); everything else is proved"
  },
  {
   "property": "C39",
   "status": "proved",
   "theorems": [
    "Pywasm.Props.wasi_table_grows",
    "Pywasm.Props.wasi_closed_stays_closed",
    "Pywasm.Props.wasi_closed_for_ever",
    "Pywasm.Props.wasi_open_number",
    "Pywasm.Props.wasi_open_distinct"
   ],
   "note": "over all histories of the 46 WASI functions, any host operating system"
  },
  {
   "property": "C40",
   "status": "partial",
   "theorems": [
    "Pywasm.Props.wasi_rights_partial",
    "Pywasm.Props.wasi_trunc_right",
    "Pywasm.Props.wasi_set_rights",
    "Pywasm.Props.wasi_rights_never_grow",
    "Pywasm.Props.wasi_poll_right",
    "Pywasm.Props.wasi_create_right_refuted",
    "Pywasm.Props.wasi_pread_right_refuted"
   ],
   "note": "every right the code checks gates its call; false of the code for PATH_CREATE_FILE (path_open with CREAT) and FD_SEEK (fd_pread/fd_pwrite), counterexamples proved"
  },
  {
   "property": "C41",
   "status": "partial",
   "theorems": [
    "Pywasm.Props.wasi_open_rights_partial",
    "Pywasm.Props.wasi_open_amplifies_refuted"
   ],
   "note": "false of the code (counterexample proved): path_open takes the rights from its arguments; proved: the new descriptor has exactly the rights asked for"
  },
  {
   "property": "C42",
   "status": "partial",
   "theorems": [
    "Pywasm.Props.wasi_escape_partial",
    "Pywasm.Props.wasi_inside_unlink",
    "Pywasm.Props.wasi_open_confined_partial",
    "Pywasm.Props.wasi_beside_refuted",
    "Pywasm.Props.wasi_guest_root_refuted",
    "Pywasm.Props.wasi_guest_name_refuted"
   ],
   "note": "paths that leave by more than a common name prefix are refused without a host effect; false of the code for sibling directories sharing a name prefix, for \"/\" and for the guest name (counterexamples proved)"
  },
  {
   "property": "C43",
   "status": "partial",
   "theorems": [
    "Pywasm.Props.wasi_args_given",
    "Pywasm.Props.wasi_args_sizes_partial",
    "Pywasm.Props.wasi_environ_sizes_partial",
    "Pywasm.Props.wasi_args_get_partial",
    "Pywasm.Props.wasi_environ_get_partial",
    "Pywasm.Props.wasi_args_refuted",
    "Pywasm.Props.wasi_args_get_cut",
    "Pywasm.Props.wasi_environ_get_cut",
    "Pywasm.Props.wasi_args_sizes_cut",
    "Pywasm.Props.wasi_environ_sizes_cut",
    "Pywasm.Props.wasi_cut_iff"
   ],
   "note": "proved for ASCII strings; false of the code for others (lengths counted in characters), counterexample proved, and what the code does with any strings proved: each is found cut to as many bytes as it has characters"
  },
  {
   "property": "C44",
   "status": "proved",
   "theorems": [
    "Pywasm.Props.wasi_fd_write",
    "Pywasm.Props.wasi_fd_write_pipe",
    "Pywasm.Props.wasi_fd_pwrite",
    "Pywasm.Props.wasi_fd_read",
    "Pywasm.Props.wasi_fd_read_pipe",
    "Pywasm.Props.wasi_fd_pread",
    "Pywasm.Props.wasi_stored"
   ],
   "note": "for iovec arrays and buffers inside memory, buffers apart from the iovec array, and a host that reads at most the length asked"
  },
  {
   "property": "C45",
   "status": "proved",
   "theorems": [
    "Pywasm.Props.wasi_closed_once",
    "Pywasm.Props.wasi_open_is_live"
   ],
   "note": "assuming the host gives each open a descriptor not in use (Fresh)"
  },
  {
   "property": "C46",
   "status": "partial",
   "theorems": [
    "Pywasm.Props.wasi_seek_moves",
    "Pywasm.Props.wasi_seek_partial",
    "Pywasm.Props.wasi_seek_refuted",
    "Pywasm.Props.wasi_seek_before_start"
   ],
   "note": "false of the code: whence END moves the offset before a failing check (counterexample proved); wasi_seek_before_start says exactly what it does then"
  },
  {
   "property": "C47",
   "status": "partial",
   "theorems": [
    "Pywasm.Props.wasi_renumber_partial",
    "Pywasm.Props.wasi_renumber_succeeds",
    "Pywasm.Props.wasi_renumber_self_closes"
   ],
   "note": "proved for different descriptors; renumbering onto itself closes the descriptor (proved)"
  },
  {
   "property": "C48",
   "status": "proved",
   "theorems": [
    "Pywasm.Props.C48_returns_zero",
    "Pywasm.Props.C48_returns_code",
    "Pywasm.Props.C48_only_codes",
    "Pywasm.Props.C48_raises",
    "Pywasm.Props.C48_clean",
    "Pywasm.Props.C48_clean_stacks",
    "Pywasm.Props.C48_system_exit_refuted",
    "Pywasm.Props.C48_close_error_refuted"
   ],
   "note": "for return_on_exit (the default) and a host whose close does not fail; the code is the signed value of the i32 the guest passed. Without return_on_exit SystemExit passes main and leaves the stacks as they are (both counterexamples proved)"
  },
  {
   "property": "C49",
   "status": "partial",
   "theorems": [
    "Pywasm.Props.wasi_memory_partial",
    "Pywasm.Props.wasi_memory_grows_refuted",
    "Pywasm.Props.wasi_memory_inserts_refuted",
    "Pywasm.Props.wasi_readlink_buffer_refuted"
   ],
   "note": "all 46 calls, for ranges inside memory and a host that respects the sizes it is asked for (fd_readdir and path_readlink: with ASCII names); false of the code for pointers outside memory (memory grows) and for other names (buffer overrun), counterexamples proved"
  },
  {
   "property": "C50",
   "status": "partial",
   "theorems": [
    "Pywasm.Props.wasi_prestat_others_partial",
    "Pywasm.Props.wasi_prestat_get",
    "Pywasm.Props.wasi_prestat_dir_name",
    "Pywasm.Props.wasi_preopens",
    "Pywasm.Props.wasi_prestat_refuted"
   ],
   "note": "succeeds for all preopened directories and fails for all descriptors from 3+number of directories; false of the code for the standard streams 0-2 (counterexample proved)"
  },
  {
   "property": "C51",
   "status": "proved",
   "theorems": [
    "Pywasm.Props.C51_out_of_table",
    "Pywasm.Props.C51_null",
    "Pywasm.Props.C51_type_mismatch",
    "Pywasm.Props.C51_enters"
   ],
   "note": ""
  },
  {
   "property": "C52",
   "status": "proved",
   "theorems": [
    "Pywasm.Props.C52_drop",
    "Pywasm.Props.C52_select",
    "Pywasm.Props.C52_select_type",
    "Pywasm.Props.C52_local_get",
    "Pywasm.Props.C52_local_set",
    "Pywasm.Props.C52_local_tee",
    "Pywasm.Props.C52_global_get",
    "Pywasm.Props.C52_global_set",
    "Pywasm.Props.C52_i32_const",
    "Pywasm.Props.C52_i64_const",
    "Pywasm.Props.C52_ref_null",
    "Pywasm.Props.C52_ref_func",
    "Pywasm.Props.C52_ref_is_null"
   ],
   "note": ""
  },
  {
   "property": "C53",
   "status": "proved",
   "theorems": [
    "Pywasm.Props.C53_host_call",
    "Pywasm.Props.C53_bad_result_raises"
   ],
   "note": ""
  },
  {
   "property": "C54",
   "status": "partial",
   "theorems": [
    "Pywasm.Props.wasi_set_times_partial",
    "Pywasm.Props.wasi_set_times_contradiction",
    "Pywasm.Props.wasi_mtime_now_refuted",
    "Pywasm.Props.wasi_set_flags_partial",
    "Pywasm.Props.wasi_nonblock_refuted"
   ],
   "note": "false of the code for MTIM_NOW and for NONBLOCK (counterexamples proved); the other flags proved"
  },
  {
   "property": "C55",
   "status": "proved",
   "theorems": [
    "Pywasm.Props.C55_returns_only_when_done"
   ],
   "note": ""
  },
  {
   "property": "C56",
   "status": "partial",
   "theorems": [
    "Pywasm.Props.wasi_readdir_partial",
    "Pywasm.Props.wasi_listing",
    "Pywasm.Props.wasi_readdir_pages_partial",
    "Pywasm.Props.wasi_readdir_any",
    "Pywasm.Props.wasi_readdir_pages_any",
    "Pywasm.Props.wasi_readdir_name_refuted",
    "Pywasm.Props.wasi_readdir_buffer_refuted"
   ],
   "note": "proved for ASCII names and a directory that does not change meanwhile; false of the code for other names (counterexamples proved), and what the code does with any names proved: every entry once and in order, but each name cut to as many bytes as it has characters, and the last going over the end of the buffer"
  },
  {
   "property": "C57",
   "status": "proved",
   "theorems": [
    "Pywasm.Props.C57_compare"
   ],
   "note": ""
  },
  {
   "property": "C58",
   "status": "proved",
   "theorems": [
    "Pywasm.Props.C58_arith",
    "Pywasm.Props.C58_sqrt",
    "Pywasm.Props.C38_promote_demote",
    "Pywasm.Props.roundsTo_unique",
    "Pywasm.Props.nearestSqrt_unique"
   ],
   "note": ""
  },
  {
   "property": "C59",
   "status": "proved",
   "theorems": [
    "Pywasm.Props.C59_only_complete_sections",
    "Pywasm.Props.C59_truncated_rejected"
   ],
   "note": ""
  },
  {
   "property": "C60",
   "status": "partial",
   "theorems": [
    "Pywasm.Props.C60_short_data_accepted",
    "Pywasm.Props.C60_trailing_bytes_accepted",
    "Pywasm.Props.C82_accepted_partial"
   ],
   "note": "the property is false: short data segments and trailing bytes of a section are accepted; C82 says exactly what is"
  },
  {
   "property": "C61",
   "status": "partial",
   "theorems": [
    "Pywasm.Props.wasi_after_main_partial",
    "Pywasm.Props.wasi_after_main_refuted"
   ],
   "note": "false of the code: main closes the host descriptors and leaves the guest entries open; proved exactly which of the guest descriptors are still backed: 0, 1 and 2 (character devices are not counted)"
  },
  {
   "property": "C62",
   "status": "partial",
   "theorems": [
    "Pywasm.Props.wasi_poll_timeout_partial",
    "Pywasm.Props.wasi_poll_absolute_refuted",
    "Pywasm.Props.wasi_poll_padding_refuted"
   ],
   "note": "relative timeouts proved; false of the code for absolute times: the wait is the clock minus the time instead of the time minus the clock"
  },
  {
   "property": "C63",
   "status": "partial",
   "theorems": [
    "Pywasm.Props.wasi_fdstat_get_partial",
    "Pywasm.Props.wasi_fdstat_get_refuted"
   ],
   "note": "proved for non-negative right sets; raises for a descriptor opened with negative (all ones) rights"
  },
  {
   "property": "C64",
   "status": "proved",
   "theorems": [
    "Pywasm.Props.wasi_poll_events"
   ],
   "note": "for subscriptions and events inside memory, defined clocks, and clock subscriptions whose padding is zero (with other padding the clock is not found: wasi_poll_padding_refuted)"
  },
  {
   "property": "C65",
   "status": "proved",
   "theorems": [
    "Pywasm.Props.C65_step_raises",
    "Pywasm.Props.C65_only_hosts_raise",
    "Pywasm.Props.C65_invocate_raises",
    "Pywasm.Props.C65_invocate_only_hosts"
   ],
   "note": "both directions, for call and call_indirect, within the instruction budget of the model"
  },
  {
   "property": "C66",
   "status": "proved",
   "theorems": [
    "Pywasm.Props.C66_bind",
    "Pywasm.Props.C66_memory",
    "Pywasm.Props.host_row",
    "Pywasm.Props.callOf_name",
    "Pywasm.Props.callOf_all"
   ],
   "note": "all 46 functions, with the signatures of WASI preview 1"
  },
  {
   "property": "C67",
   "status": "proved",
   "theorems": [
    "Pywasm.Props.C67_guests_only_call",
    "Pywasm.Props.C67_closed_once"
   ],
   "note": "for embedders whose own host functions leave the Preview1 object alone"
  },
  {
   "property": "C68",
   "status": "partial",
   "theorems": [
    "Pywasm.Props.wasi_closes_all_partial",
    "Pywasm.Props.wasi_leak_device_refuted",
    "Pywasm.Props.wasi_leak_renumber_refuted"
   ],
   "note": "false of the code: a character device opened by path_open is never closed, and main does not close what the guest renumbered onto 0, 1 or 2; proved up to those, for a host whose stat does not fail on open descriptors"
  },
  {
   "property": "C69",
   "status": "partial",
   "theorems": [
    "Pywasm.Props.C69_unary",
    "Pywasm.Props.C69_binary",
    "Pywasm.Props.C69_arith",
    "Pywasm.Props.C69_compare",
    "Pywasm.Props.C69_f64_pmin_pmax",
    "Pywasm.Props.C69_f64_abs_neg",
    "Pywasm.Props.C69_f32_pmin_pmax_partial",
    "Pywasm.Props.C69_f32_abs_neg_partial",
    "Pywasm.Props.C69_quiets_false",
    "Pywasm.Props.C69_covers"
   ],
   "note": "false of the code for f32x4.abs, neg, pmin and pmax on signalling NaNs, which it quiets (counterexample proved); proved for every other operand of those four and for every operand of the other 48 instructions"
  },
  {
   "property": "C70",
   "status": "partial",
   "theorems": [
    "Pywasm.Props.C70_callback_false",
    "Pywasm.Props.C70_caught_callback_false",
    "Pywasm.Props.C70_callback_never_returns",
    "Pywasm.Props.C70_without_callbacks_partial",
    "Pywasm.Props.C70_returning_partial"
   ],
   "note": "false of the code: both invocations use the same stacks, so an invocation during which a host function has called back never returns (proved for every program and every host function that does not catch what its callbacks raise, with a concrete program as counterexample), and may return a wrong result if the host function catches it. Proved: the invocations that return without a callback are exactly those of the machine whose host functions do not call back"
  },
  {
   "property": "C71",
   "status": "partial",
   "theorems": [
    "Pywasm.Props.C71_path_operation",
    "Pywasm.Props.C71_filestat",
    "Pywasm.Props.C71_open",
    "Pywasm.Props.C71_readlink_partial",
    "Pywasm.Props.C71_readlink_any",
    "Pywasm.Props.C71_times_partial",
    "Pywasm.Props.C71_readlink_refuted",
    "Pywasm.Props.C71_times_refuted"
   ],
   "note": "false of the code for path_readlink of targets that are not ASCII (writes behind the buffer; C71_readlink_any says what it does) and path_filestat_set_times of links themselves (takes the kept time from the target), counterexamples proved; proved for everything else"
  },
  {
   "property": "C72",
   "status": "partial",
   "theorems": [
    "Pywasm.Props.C72_reported_partial",
    "Pywasm.Props.C72_raised",
    "Pywasm.Props.C72_missing_refuted",
    "Pywasm.Props.C72_access_refuted"
   ],
   "note": "false of the code for errors it has no except clause for, which are raised, and for EACCES, which becomes PERM; proved which errors of which operations are reported, and that the others are raised"
  },
  {
   "property": "C73",
   "status": "partial",
   "theorems": [
    "Pywasm.Props.C73_open_flags_partial",
    "Pywasm.Props.C73_flags_refuted"
   ],
   "note": "false of the code for NONBLOCK, DSYNC, RSYNC and SYNC, which are recorded but not given to the host; proved bit by bit for all other flags and rights (Linux flag numbers)"
  },
  {
   "property": "C74",
   "status": "partial",
   "theorems": [
    "Pywasm.Props.C74_filestat_partial",
    "Pywasm.Props.C74_removed_refuted"
   ],
   "note": "false of the code for removed or replaced files, since the attributes are asked for by name; proved that what the host has under that name is stored"
  },
  {
   "property": "C75",
   "status": "partial",
   "theorems": [
    "Pywasm.Props.C75_time_partial",
    "Pywasm.Props.C75_random",
    "Pywasm.Props.C75_unknown_clock_refuted"
   ],
   "note": "false of the code for clock numbers above 3, which succeed with time 0; proved for the four clocks and for random_get"
  },
  {
   "property": "C76",
   "status": "partial",
   "theorems": [
    "Pywasm.Props.C76_tell",
    "Pywasm.Props.C76_sync",
    "Pywasm.Props.C76_set_size",
    "Pywasm.Props.C76_advise",
    "Pywasm.Props.C76_allocate_inside",
    "Pywasm.Props.C76_allocate_partial",
    "Pywasm.Props.C76_allocate_refuted",
    "Pywasm.Props.C76_datasync_refuted"
   ],
   "note": "false of the code for fd_datasync, which does nothing, and for fd_allocate on a host that writes less than it was given; proved for the other calls"
  },
  {
   "property": "C77",
   "status": "partial",
   "theorems": [
    "Pywasm.Props.C77_no_sockets",
    "Pywasm.Props.C77_send",
    "Pywasm.Props.C77_recv_partial",
    "Pywasm.Props.C77_shutdown",
    "Pywasm.Props.C77_truncated_refuted",
    "Pywasm.Props.C77_accept_refuted"
   ],
   "note": "false of the code: sock_accept never succeeds (its constructor call lacks an argument) and sock_recv reports every short message as truncated; proved for the rest, and that no history from a constructed Preview1 has a socket at all"
  },
  {
   "property": "C78",
   "status": "partial",
   "theorems": [
    "Pywasm.Props.C78_instantiates",
    "Pywasm.Props.C78_start_called",
    "Pywasm.Props.C78_raises",
    "Pywasm.Props.C78_misfit",
    "Pywasm.Props.C78_outcomes_partial",
    "Pywasm.Props.C78_session_partial"
   ],
   "note": "result and store are exactly those of a one-function specification, for all valid modules; missing: start functions whose run meets a branch to a function label or an i64.div_u with a quotient of 2^63 or more (false there, C05/C22), stores with more than 2^31 functions, descriptions instantiated before (C28)"
  },
  {
   "property": "C79",
   "status": "partial",
   "theorems": [
    "Pywasm.Props.C79_file_partial",
    "Pywasm.Props.C79_program_partial",
    "Pywasm.Props.C79_any_file_partial",
    "Pywasm.Props.C79_any_program_partial"
   ],
   "note": "composition of C30, C78 and C24. Sessions are not restricted: if a run meets neither deviation (i64.div_u with a quotient of 2^63 or more, C05; a branch to a function label, C22) it does what the specification says, for all valid modules; missing: more than 32 sections (C31), nesting beyond the recursion limit (C29), runs that meet a deviation, where the claim is false of the code; the any_file theorems are about any file of less than 4 GiB the decoder accepts, well formed or not"
  },
  {
   "property": "C80",
   "status": "partial",
   "theorems": [
    "Pywasm.Props.C80_options",
    "Pywasm.Props.C80_options_bad",
    "Pywasm.Props.C80_int_argument",
    "Pywasm.Props.C80_int_argument_exact",
    "Pywasm.Props.C80_hex_argument",
    "Pywasm.Props.C80_hex_argument_exact",
    "Pywasm.Props.C80_arity",
    "Pywasm.Props.C80_unreadable",
    "Pywasm.Props.C80_call_partial",
    "Pywasm.Props.C80_environment",
    "Pywasm.Props.C80_wasi_partial",
    "Pywasm.Props.C80_any_file",
    "Pywasm.Props.C80_any_call_partial",
    "Pywasm.Props.C80_wasi_bad_options",
    "Pywasm.Props.C80_wasi_no_directory",
    "Pywasm.Props.C80_wasi_any_file",
    "Pywasm.Props.C80_any_wasi_partial"
   ],
   "note": "missing: what C79 and C81 miss; Python float() is an arbitrary function and int() is modelled on ASCII strings. The any theorems speak of arbitrary files of less than 4 GiB"
  },
  {
   "property": "C81",
   "status": "partial",
   "theorems": [
    "Pywasm.Props.wasi_host_ok",
    "Pywasm.Props.C81_main_partial"
   ],
   "note": "Sessions are not restricted: if a run meets neither deviation (i64.div_u with a quotient of 2^63 or more, C05; a branch to a function label, C22) it does what the specification says, for all valid modules; missing: runs that meet one, where the claim is false of the code. An exception the host raises when main closes the descriptors takes the place of the outcome"
  },
  {
   "property": "C82",
   "status": "partial",
   "theorems": [
    "Pywasm.Props.C82_accepted_partial",
    "Pywasm.Props.C82_expression",
    "Pywasm.Props.C82_encodings_accepted",
    "Pywasm.Props.C82_unambiguous",
    "Pywasm.Props.C82_rejected",
    "Pywasm.Props.C82_loaded",
    "Pywasm.Props.C82_refuted",
    "Pywasm.Props.C82_long_number",
    "Pywasm.Props.C82_long_number_else"
   ],
   "note": "the property is false: 32 sections at most are read, unknown sections, trailing bytes, short data and more are accepted. Proved instead: the exact set of files accepted, as a grammar (Spec/Accepted.lean) that consists of the rules of the specification and of rules marked loose; files of 4 GiB or more are not covered"
  },
  {
   "property": "C83",
   "status": "partial",
   "theorems": [
    "Pywasm.Props.C83_float",
    "Pywasm.Props.C83_vector",
    "Pywasm.Props.C83_numeric",
    "Pywasm.Props.C83_signalling_wrong"
   ],
   "note": "the property is false: f64 min, max, ceil, floor, trunc and nearest return signalling NaNs, and C34, C35, C36, C38 and C69 list further wrong results; proved as an equivalence: the result is allowed exactly if the operands are not among those listed in Spec/FloatDev.lean"
  },
  {
   "property": "C84",
   "status": "partial",
   "theorems": [
    "Pywasm.Props.C84_conforming",
    "Pywasm.Props.C84_invoke_partial",
    "Pywasm.Props.C84_unlisted",
    "Pywasm.Props.C84_exact",
    "Pywasm.Props.C84_exported_call_partial",
    "Pywasm.Props.C84_program_partial",
    "Pywasm.Props.C84_exported_call",
    "Pywasm.Props.C84_wrong"
   ],
   "note": "false of programs that come to the operands listed in Spec/FloatDev.lean (C84_wrong) or to a deviation (C05, C22); proved for all other runs against a reference interpreter that is given any numeric results the specification allows; no exception at all for code with none of the 31 instructions that have listed operands, no branch to a function label and no i64.div_u"
  },
  {
   "property": "C85",
   "status": "partial",
   "theorems": [
    "Pywasm.Props.C85_off",
    "Pywasm.Props.C85_on",
    "Pywasm.Props.C85_load_partial",
    "Pywasm.Props.C85_call_partial",
    "Pywasm.Props.C85_refuted"
   ],
   "note": "the property is false for numbers of more than 4300 digits, which raise ValueError when they are printed (C85_refuted); proved for all others, and in general up to a ValueError. print is assumed to succeed"
  },
  {
   "property": "C86",
   "status": "partial",
   "theorems": [
    "Pywasm.Props.C86_listing_partial",
    "Pywasm.Props.C86_names",
    "Pywasm.Props.C86_refuted"
   ],
   "note": "the property is false: else branches are not listed and the type of a function body is printed as 0; all other lines are proved exact"
  },
  {
   "property": "C87",
   "status": "proved",
   "theorems": [
    "Pywasm.Props.C87_trace",
    "Pywasm.Props.C87_call",
    "Pywasm.Props.C87_last"
   ],
   "note": "how Python prints a float argument is a parameter"
  },
  {
   "property": "C88",
   "status": "partial",
   "theorems": [
    "Pywasm.Props.C88_untouched_partial",
    "Pywasm.Props.C88_unobserved_partial",
    "Pywasm.Props.C88_steps_partial",
    "Pywasm.Props.C88_instantiate_partial",
    "Pywasm.Props.C88_calls_partial",
    "Pywasm.Props.C88_alone_partial",
    "Pywasm.Props.C88_plain_of_valid",
    "Pywasm.Props.C88_wasi_keeps",
    "Pywasm.Props.C88_wasi_partial",
    "Pywasm.Props.C88_refuted"
   ],
   "note": "the property is false: a valid module without imports can forge a function reference with table.fill after a branch to the label of a called function (C88_refuted); proved for code without table.fill whose tables and segments are of function references, and for all code up to the first call_indirect that meets a forged reference"
  },
  {
   "property": "C89",
   "status": "proved",
   "theorems": [
    "Pywasm.Props.C89_reads",
    "Pywasm.Props.C89_wasi",
    "Pywasm.Props.C89_wasm",
    "Pywasm.Props.C89_refuses",
    "Pywasm.Props.C89_dashed",
    "Pywasm.Props.C89_help",
    "Pywasm.Props.C89_version",
    "Pywasm.Props.C89_exit_code"
   ],
   "note": "argparse is modelled after CPython 3.11.10 for these declarations; digits in negative numbers are ASCII digits"
  },
  {
   "property": "C90",
   "status": "partial",
   "theorems": [
    "Pywasm.Props.C90_get_partial",
    "Pywasm.Props.C90_put_partial",
    "Pywasm.Props.C90_put_unsigned_partial",
    "Pywasm.Props.C90_put_signed_partial",
    "Pywasm.Props.C90_put_u8",
    "Pywasm.Props.C90_get_number",
    "Pywasm.Props.C90_get_u8",
    "Pywasm.Props.C90_read_back",
    "Pywasm.Props.C90_guest_reads",
    "Pywasm.Props.C90_host_reads",
    "Pywasm.Props.C90_across_end_refuted",
    "Pywasm.Props.C90_beyond_end_refuted",
    "Pywasm.Props.C90_negative_refuted",
    "Pywasm.Props.C90_get_outside_refuted",
    "Pywasm.Props.C90_any",
    "Pywasm.Props.C90_put_number_any"
   ],
   "note": "the property is false for get and put_* that are not wholly inside the memory: they return, and put_* changes the length of the memory; negative addresses count from the end; proved for accesses inside, and for the get_* of numbers and put_u8 in all cases with addresses that are not negative"
  },
  {
   "property": "C91",
   "status": "proved",
   "theorems": [
    "Pywasm.Props.C91_exported_memory",
    "Pywasm.Props.C91_exported_global",
    "Pywasm.Props.C91_instance"
   ],
   "note": ""
  },
  {
   "property": "C92",
   "status": "proved",
   "theorems": [
    "Pywasm.Props.C92_errors",
    "Pywasm.Props.C92_guest"
   ],
   "note": "for every call, state and host"
  },
  {
   "property": "C93",
   "status": "partial",
   "theorems": [
    "Pywasm.Props.C93_genuine",
    "Pywasm.Props.C93_refuted",
    "Pywasm.Props.C93_empty_buffer",
    "Pywasm.Props.C93_pread_partial",
    "Pywasm.Props.C93_read_partial",
    "Pywasm.Props.C93_pwrite_pread_partial",
    "Pywasm.Props.C93_write_seek_read_partial"
   ],
   "note": "false of the code if a buffer read into is empty: reading stops there, and if it is the first, 0 bytes are reported, as at the end of the file. Proved for buffers that are not empty, lie in memory and do not overlap, and every host whose descriptor satisfies WasiSpec.RegularFile (an example host is shown to)"
  },
  {
   "property": "C94",
   "status": "proved",
   "theorems": [
    "Pywasm.Props.C94_history",
    "Pywasm.Props.C94_call"
   ],
   "note": "for every host whose descriptor satisfies WasiSpec.RegularFile (an example host is shown to); failing calls are C46"
  },
  {
   "property": "C95",
   "status": "proved",
   "theorems": [
    "Pywasm.Props.C95_unsigned",
    "Pywasm.Props.C95_float_bits",
    "Pywasm.Props.C95_lanes_signed",
    "Pywasm.Props.C95_lanes_unsigned",
    "Pywasm.Props.C95_lanes_float",
    "Pywasm.Props.C95_int_as_f64",
    "Pywasm.Props.C95_int_as_f32",
    "Pywasm.Props.C95_float_as_f32"
   ],
   "note": "signed numbers and references are C09"
  },
  {
   "property": "C96",
   "status": "partial",
   "theorems": [
    "Pywasm.Props.C96_pass_on_partial",
    "Pywasm.Props.C96_returnable",
    "Pywasm.Props.C96_refuted"
   ],
   "note": "false of the code for f32 signalling NaNs, which come back quiet (C96_refuted), and for null references, which cannot be returned (C96_returnable); proved for all other values"
  }
 ]
}