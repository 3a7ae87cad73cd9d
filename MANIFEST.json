{
 "claims": [
  {
   "property": "C01",
   "status": "proved",
   "theorems": [
    "VS.Map.C01_map_is_dictionary",
    "VS.Map.C01_keys_enumerated",
    "VS.Map.C01_failed_set_no_effect",
    "VS.Map.C01_other_keys_untouched"
   ],
   "note": "every history of map calls over any number of maps gives the results of plain dictionaries; key enumeration; failed sets have no effect; other keys untouched. The integer-only alias _ColorRange/_Range is part of the dictionary specification (C04_float_metadata_mismatch shows where it is visible)"
  },
  {
   "property": "C02",
   "status": "proved",
   "theorems": [
    "VS.Map.C02_copies_independent",
    "VS.Map.C02_clone_equal",
    "VS.Map.C02_copyMap_merges",
    "VS.Map.C02_freed_exactly",
    "VS.Map.C02_all_freed"
   ],
   "note": "independence under any later history on other maps, equality of fresh copies, copyMap as union, storage and arrays freed exactly with the last holder. Calls are atomic in the model"
  },
  {
   "property": "C03",
   "status": "proved",
   "theorems": [
    "VS.Map.C03_read_outcome",
    "VS.Map.C03_read_array"
   ],
   "note": "exact outcome of every element reader and of the float array reader; reading a stored null reference is undefined behaviour in the code and in the model"
  },
  {
   "property": "C04",
   "status": "partial",
   "theorems": [
    "VS.Map.C04_scalar",
    "VS.Map.C04_append",
    "VS.Map.C04_array_write",
    "VS.Map.C04_array_read_partial",
    "VS.Map.C04_array_read_exact",
    "VS.Map.C04_array_read_refuted",
    "VS.Map.C04_float_metadata_mismatch"
   ],
   "note": "proved for single values, appended values, array writes and array reads through _Range; refuted for array reads through _ColorRange (C04_array_read_refuted, exact extent in C04_array_read_exact)"
  },
  {
   "property": "C05",
   "status": "proved",
   "theorems": [
    "VS.Frame.C05_isolation",
    "VS.Frame.C05_metadata",
    "VS.Frame.C05_no_ub",
    "VS.Frame.C05_write",
    "VS.Frame.C05_wrong_source",
    "VS.Frame.C05_stale_pointer_refuted"
   ],
   "note": "Refinement to frames as values over all histories of legal calls; a pointer kept across copyFrame is outside the contract (C05_stale_pointer_refuted shows what happens). Frame properties are maps (C01, C02)."
  },
  {
   "property": "C06",
   "status": "proved",
   "theorems": [
    "VS.Frame.C06_exact",
    "VS.Frame.C06_no_leak"
   ],
   "note": "Counter equals the total of the blocks behind planes referenced by live frames; zero when all are freed."
  },
  {
   "property": "C07",
   "status": "proved",
   "theorems": [
    "VS.Memory.C07_buffer",
    "VS.Memory.C07_live_apart",
    "VS.Memory.C07_best_fit",
    "VS.Memory.C07_huge_wraps",
    "VS.Memory.Race.C07_concurrent"
   ],
   "note": "every history of calls, sequential and under every thread schedule; C07_huge_wraps shows that the asserted size bound, unchecked in release builds, is needed"
  },
  {
   "property": "C08",
   "status": "partial",
   "theorems": [
    "VS.Memory.C08_counters",
    "VS.Memory.C08_set_limit",
    "VS.Memory.C08_large_free_partial",
    "VS.Memory.C08_small_free_refuted",
    "VS.Memory.C08_no_overtrim",
    "VS.Memory.C08_no_overtrim_free",
    "VS.Memory.Race.C08_concurrent_counters"
   ],
   "note": "proved for limit changes and for returning large buffers, for every random choice; refuted for small buffers, which do not trim (C08_small_free_refuted)"
  },
  {
   "property": "C09",
   "status": "proved",
   "theorems": [
    "VS.Memory.C09_no_ub",
    "VS.Memory.C09_deleted_iff",
    "VS.Memory.C09_no_leak",
    "VS.Memory.C09_once",
    "VS.Memory.Race.C09_concurrent_no_ub",
    "VS.Memory.Race.C09_concurrent_release_refuted"
   ],
   "note": "with calls after freeCore one at a time, as include/VapourSynth4.h requires; C09_concurrent_release_refuted shows why this is required"
  },
  {
   "property": "C10",
   "status": "proved",
   "theorems": [
    "VS.Cache.C10_cache_transparent",
    "VS.Cache.C10_node_lookup"
   ],
   "note": "Cache level for every history of cache calls, and node level through all switching of caching."
  },
  {
   "property": "C11",
   "status": "proved",
   "theorems": [
    "VS.Cache.C11_limits",
    "VS.Cache.C11_no_crash",
    "VS.Cache.C11_growth_overflows",
    "VS.Cache.C11_user_floor",
    "VS.Cache.C11_trim_bytes",
    "VS.Cache.C11_node_no_crash"
   ],
   "note": "C11_growth_overflows records a defect: automatic growth overflows int if the user sets the size within two of INT_MAX; C11_no_crash shows this is the only failure."
  },
  {
   "property": "C12",
   "status": "proved",
   "theorems": [
    "VS.Cache.C12_lru_order",
    "VS.Cache.C12_lru_exact"
   ],
   "note": "Recency order after every history; exact agreement with an ideal LRU cache for stores and lookups."
  },
  {
   "property": "C13",
   "status": "proved",
   "theorems": [
    "VS.Pool.C13_callback_answers_request",
    "VS.Pool.C13_requests_distinct",
    "VS.Pool.C13_all_answered"
   ],
   "note": "for arbitrary filters and every interleaving of the critical sections; completeness when no work is left needs a graph without cycles; blocking getFrame is getFrameAsync plus a wait and is not modelled separately"
  },
  {
   "property": "C14",
   "status": "proved",
   "theorems": [
    "VS.Pool.C14_eval_equation",
    "VS.Pool.C14_result_independent_of_schedule",
    "VS.Pool.C14_same_in_all_schedules",
    "VS.Pool.C14_intermediate_frames"
   ],
   "note": "for every graph of filters that are functions of their inputs, every schedule, any part of the produced frames being found in caches, and flushes"
  },
  {
   "property": "C15",
   "status": "partial",
   "theorems": [
    "VS.Pool.C15_failed_input",
    "VS.Pool.C15_callback_result",
    "VS.Pool.C15_message_has_cause",
    "VS.Pool.C15_error_call_happens",
    "VS.Pool.C15_error_call_once",
    "VS.Pool.C15_message_nonempty_refuted"
   ],
   "note": "proved except that the message need not be non-empty: a filter may report an empty one (C15_message_nonempty_refuted)"
  },
  {
   "property": "C16",
   "status": "partial",
   "theorems": [
    "VS.Pool.C16_activation",
    "VS.Pool.C16_initial_iff_first",
    "VS.Pool.C16_ready_has_all_frames",
    "VS.Pool.C16_first_initial_refuted"
   ],
   "note": "proved except that a request from outside for a frame that does not exist calls the filter with error first (C16_first_initial_refuted)"
  },
  {
   "property": "C17",
   "status": "proved",
   "theorems": [
    "VS.Pool.C17_unordered",
    "VS.Pool.C17_frame_state",
    "VS.Pool.C17_parallel_requests",
    "VS.Pool.C17_one_call_per_computation"
   ],
   "note": "calls are intervals between their begin and their return in the trace"
  },
  {
   "property": "C18",
   "status": "partial",
   "theorems": [
    "VS.Pool.C18_no_deadlock",
    "VS.Pool.C18_never_fatal",
    "VS.Pool.C18_bounded",
    "VS.Pool.C18_progress",
    "VS.Pool.C18_end_means_answered",
    "VS.Pool.C18_eventually_answered",
    "VS.Pool.C18_completable"
   ],
   "note": "no deadlock in any reachable state of an acyclic graph with arbitrary filters; for filters that are functions of their inputs and keep to the rules the process never ends by itself, the number of steps is bounded by what was requested and a schedule that cannot be continued has answered everything. Sleeping and waking of worker threads is C85. Missing: filters that take part in cycles"
  },
  {
   "property": "C19",
   "status": "proved",
   "theorems": [
    "VS.Format.C19_decode_encode",
    "VS.Format.C19_zero_iff",
    "VS.Format.C19_injective",
    "VS.Format.C19_encode_decode"
   ],
   "note": "encode/decode for all 32 bit integers; the identifier is zero exactly for undefined or undocumented formats"
  },
  {
   "property": "C20",
   "status": "partial",
   "theorems": [
    "VS.Format.C20_query_video",
    "VS.Format.C20_struct_check",
    "VS.Format.C20_undefined_struct_refuted",
    "VS.Format.C20_query_audio",
    "VS.Format.C20_audio_struct_check",
    "VS.Format.C20_video_info",
    "VS.Format.C20_audio_info"
   ],
   "note": "exact decision of queries, struct checks and clip descriptions for all arguments; refuted for a struct with undefined family and left-over fields, which is accepted (C20_undefined_struct_refuted)"
  },
  {
   "property": "C21",
   "status": "proved",
   "theorems": [
    "VS.Format.C21_total",
    "VS.Format.C21_injective",
    "VS.Format.C21_undefined",
    "VS.Format.C21_presets",
    "VS.Format.C21_audio"
   ],
   "note": "names of valid formats are different, fit the buffer and agree with the public presets; audio names tell type, depth and channel count"
  },
  {
   "property": "C22",
   "status": "partial",
   "theorems": [
    "VS.C22_muldivRational",
    "VS.C22_reduceRational",
    "VS.C22_zero_den",
    "VS.C22_muldiv_overflow",
    "VS.C22_addRational_partial",
    "VS.C22_addRational_sameDen_partial",
    "VS.C22_addRational_not_reduced",
    "VS.C22_reduce_min_ub"
   ],
   "note": "muldiv and reduce exact for all inputs whose products fit in 64 bits and undefined behaviour otherwise; addRational is exact as a value but, as proved, not reduced when the denominators are equal"
  },
  {
   "property": "C23",
   "status": "partial",
   "theorems": [
    "VS.Plugin.C23_parse",
    "VS.Plugin.C23_unambiguous",
    "VS.Plugin.C23_register",
    "VS.Plugin.C23_reported",
    "VS.Plugin.C23_reported_v3",
    "VS.Plugin.C23_duplicate_refuted",
    "VS.Plugin.C23_any_v3_refuted"
   ],
   "note": "acceptance, meaning and reporting of signatures proved for all texts and all functions of reachable cores; as proved, duplicate argument names are accepted and the word any in a version 3 signature is reported as text that is not a signature"
  },
  {
   "property": "C24",
   "status": "proved",
   "theorems": [
    "VS.Plugin.C24_invoke",
    "VS.Plugin.C24_unknown"
   ],
   "note": "called exactly if the arguments meet the signature, for every function of every reachable core; error result otherwise"
  },
  {
   "property": "C25",
   "status": "proved",
   "theorems": [
    "VS.Plugin.C25_unique",
    "VS.Plugin.C25_lookup",
    "VS.Plugin.C25_load",
    "VS.Plugin.C25_load_error",
    "VS.Plugin.C25_forced",
    "VS.Plugin.C25_functions",
    "VS.Plugin.C25_stable"
   ],
   "note": "uniqueness, exact lookup, rejected loads without trace, forced names, function tables and stability over all histories"
  },
  {
   "property": "C26",
   "status": "partial",
   "theorems": [
    "VS.Log.C26_received",
    "VS.Log.C26_order",
    "VS.Log.C26_backlog",
    "VS.Log.C26_call",
    "VS.Log.C26_fatal",
    "VS.Log.C26_free",
    "VS.Log.C26_version3",
    "VS.Log.C26_nested_order_refuted",
    "VS.Log.C26_version3_separate"
   ],
   "note": "for every history, also when handlers log: each handler receives the kept messages and everything logged while it is installed exactly once and nothing else; in logging order when no handler logs itself, and C26_nested_order_refuted shows the order can differ when one does"
  },
  {
   "property": "C27",
   "status": "proved",
   "theorems": [
    "VS.Reorder.C27_trim",
    "VS.Reorder.C27_trim_reject",
    "VS.Reorder.C27_trim_saturated"
   ],
   "note": "legal arguments give the requested range, illegal ones an error; C27_trim_saturated records the corner where a length above INT_MAX is clamped"
  },
  {
   "property": "C28",
   "status": "proved",
   "theorems": [
    "VS.Reorder.C28_reverse",
    "VS.Reorder.C28_reverse_twice",
    "VS.Reorder.C28_loop",
    "VS.Reorder.C28_loop_reject",
    "VS.Reorder.C28_loop_forever"
   ],
   "note": "Reverse, double Reverse, Loop with finite and default counts, rejection of overlong results"
  },
  {
   "property": "C29",
   "status": "proved",
   "theorems": [
    "VS.Reorder.C29_interleave",
    "VS.Reorder.C29_interleave_single",
    "VS.Reorder.C29_interleave_reject_mismatch",
    "VS.Reorder.C29_interleave_reject_long",
    "VS.Reorder.C29_interleave_extend_overflow",
    "VS.Reorder.C29_interleave_selectEvery"
   ],
   "note": "C29_interleave_extend_overflow records that with extend the overlong case is undefined behaviour instead of an error"
  },
  {
   "property": "C30",
   "status": "proved",
   "theorems": [
    "VS.Reorder.C30_selectEvery",
    "VS.Reorder.C30_selectEvery_reject"
   ],
   "note": "frames, durations, frame rate and rejection"
  },
  {
   "property": "C31",
   "status": "proved",
   "theorems": [
    "VS.Reorder.C31_splice",
    "VS.Reorder.C31_splice_reject"
   ],
   "note": "concatenation, compatibility test and rejection"
  },
  {
   "property": "C32",
   "status": "proved",
   "theorems": [
    "VS.Reorder.C32_duplicate",
    "VS.Reorder.C32_duplicate_reject",
    "VS.Reorder.C32_delete",
    "VS.Reorder.C32_delete_reject",
    "VS.Reorder.C32_delete_undoes_duplicate",
    "VS.Reorder.C32_delete_duplicate_roundtrip",
    "VS.Reorder.C32_freeze",
    "VS.Reorder.C32_freeze_reject"
   ],
   "note": "DuplicateFrames, DeleteFrames, FreezeFrames: output, rejection, and DeleteFrames undoing DuplicateFrames"
  },
  {
   "property": "C33",
   "status": "proved",
   "theorems": [
    "VS.Audio.C33_audioTrim",
    "VS.Audio.C33_audioTrim_reject",
    "VS.Audio.C33_audioTrim_overflow"
   ],
   "note": "sample exact for every legal argument combination, only requested frames read; illegal arguments rejected unless first+length overflows 64 bits, where C33_audioTrim_overflow shows undefined behaviour"
  },
  {
   "property": "C34",
   "status": "proved",
   "theorems": [
    "VS.Audio.C34_audioLoop",
    "VS.Audio.C34_audioLoop_reject",
    "VS.Audio.C34_audioSplice",
    "VS.Audio.C34_audioSplice_reject_mismatch",
    "VS.Audio.C34_audioSplice_reject_long"
   ],
   "note": "AudioSplice (any number of clips, totals up to 64 bits) and AudioLoop with rejection of mismatched or overlong inputs"
  },
  {
   "property": "C35",
   "status": "proved",
   "theorems": [
    "VS.Audio.C35_audioReverse",
    "VS.Audio.C35_audioReverse_twice"
   ],
   "note": "reversal and double reversal"
  },
  {
   "property": "C36",
   "status": "partial",
   "theorems": [
    "VS.Audio.C36_core_enforces",
    "VS.Audio.C36_editing_filters_partial",
    "VS.Audio.C36_assumeSampleRate",
    "VS.Audio.C36_assumeSampleRate_reject",
    "VS.Audio.C36_blankAudio",
    "VS.Audio.C36_blankAudio_keep_even",
    "VS.Audio.C36_blankAudio_keep_fatal"
   ],
   "note": "proved for the editing filters, AssumeSampleRate and silent BlankAudio without keep; refuted for BlankAudio with keep (C36_blankAudio_keep_fatal). AudioGain and AudioMix are C89 and C90; the resampler is not modelled; the core's own check is (C36_core_enforces)"
  },
  {
   "property": "C37",
   "status": "proved",
   "theorems": [
    "VS.Audio.C37_shuffleChannels",
    "VS.Audio.C37_shuffleChannels_reject",
    "VS.Audio.C37_splitChannels",
    "VS.Audio.C37_split_then_shuffle"
   ],
   "note": "routing, padding, layout, exact rejection, SplitChannels and recombination"
  },
  {
   "property": "C38",
   "status": "proved",
   "theorems": [
    "VS.Life.C38_lawful",
    "VS.Life.C38_no_use_after_free",
    "VS.Life.C38_freed_at_most_once",
    "VS.Life.C38_freed_only_unreferenced",
    "VS.Life.C38_consumers_first",
    "VS.Life.C38_dependencies_last",
    "VS.Life.C38_core_deleted_last",
    "VS.Life.C38_all_freed",
    "VS.Life.C38_never_stuck",
    "VS.Life.C38_bounded",
    "VS.Life.C38_completes",
    "VS.Life.C38_bounded_stack",
    "VS.Life.C38_deep_refuted",
    "VS.Life.C38_order_refuted"
   ],
   "note": "For all histories of any number of threads. 'Never before its consumers' and 'no deep recursion' hold for filters that keep their own references to the nodes they depend on (as all filters in src/core do); for filters that only declare a dependency both fail, with witnesses C38_order_refuted and C38_deep_refuted."
  },
  {
   "property": "C39",
   "status": "partial",
   "theorems": [
    "VS.Pipe.C39_writes_prefix",
    "VS.Pipe.C39_complete_partial",
    "VS.Pipe.C39_frees_once_partial",
    "VS.Pipe.C39_requests",
    "VS.Pipe.C39_in_flight",
    "VS.Pipe.C39_error_stops",
    "VS.Pipe.C39_finishes_iff",
    "VS.Pipe.C39_never_stuck",
    "VS.Pipe.C39_bounded",
    "VS.Pipe.C39_early_exit_refuted",
    "VS.Pipe.C39_alias_refuted"
   ],
   "note": "Order, uniqueness, requests, in-flight limit, stop after an error, absence of hangs and the bound on steps hold for every history. That everything is written and freed at the end holds if the main thread does not read the counters in the middle of a callback; C39_early_exit_refuted shows that it can. C39_alias_refuted: with the clip as its own alpha clip vspipe hangs"
  },
  {
   "property": "C40",
   "status": "partial",
   "theorems": [
    "VS.Json.C40_string",
    "VS.Json.C40_integer",
    "VS.Json.C40_map_partial",
    "VS.Json.C40_file_partial",
    "VS.Json.C40_reference_refuted",
    "VS.Json.C40_range_refuted",
    "VS.Json.C40_zero_refuted",
    "VS.Json.C40_invalid_utf8_refuted",
    "VS.Json.C40_nan_refuted",
    "VS.Json.C40_large_float_refuted",
    "VS.Json.C40_audio_refuted"
   ],
   "note": "strings and integers are proved without condition beyond UTF-8 validity; maps and files for all maps whose values have a JSON counterpart; the other maps are shown by witnesses to give invalid or unfaithful JSON"
  },
  {
   "property": "C41",
   "status": "proved",
   "theorems": [
    "VS.Wave.C41_packed",
    "VS.Wave.C41_wave",
    "VS.Wave.C41_wave64",
    "VS.Wave.C41_lossless",
    "VS.Wave.C41_rate_refuted",
    "VS.Wave.C41_padding_refuted"
   ],
   "note": "packing, positions, sizes, refusals and all header fields are proved for both byte orders; the average byte rate if it fits 32 bits. C41_rate_refuted and C41_padding_refuted show the two places where the file departs from the RIFF rules"
  },
  {
   "property": "C42",
   "status": "proved",
   "theorems": [
    "VS.Cache.C42_cache_active",
    "VS.Cache.C42_inactive_empty",
    "VS.Cache.C42_active_serves",
    "VS.Cache.C42_last_only"
   ],
   "note": "Calls are atomic; a caller using cacheFrame on a node that is not linear violates an assertion and is excluded."
  },
  {
   "property": "C43",
   "status": "partial",
   "theorems": [
    "VS.Frame.C43_stride",
    "VS.Frame.C43_plane_size_partial",
    "VS.Frame.C43_new_video",
    "VS.Frame.C43_mixed_depth_refuted",
    "VS.Frame.C43_long_audio_refuted"
   ],
   "note": "Full statement refuted: newVideoFrame2 does not compare sample sizes (C43_mixed_depth_refuted), newAudioFrame does not bound the number of samples (C43_long_audio_refuted). Proved when sources have the sample size of the new frame."
  },
  {
   "property": "C44",
   "status": "partial",
   "theorems": [
    "VS.Format.C44_total",
    "VS.Format.C44_stable",
    "VS.Format.C44_unique",
    "VS.Format.C44_register",
    "VS.Format.C44_round_trip",
    "VS.Format.C44_preset",
    "VS.Format.C44_unknown_family_refuted"
   ],
   "note": "proved for all histories with colour families of the interface; C44_unknown_family_refuted shows that other numbers collide with registered formats"
  },
  {
   "property": "C45",
   "status": "proved",
   "theorems": [
    "VS.Plugin.C45_plugins",
    "VS.Plugin.C45_functions"
   ],
   "note": "complete and without repetition under arbitrary loads and registrations in between"
  },
  {
   "property": "C46",
   "status": "partial",
   "theorems": [
    "VS.Plugin.C46_loaded_partial",
    "VS.Plugin.C46_refused_partial",
    "VS.Plugin.C46_std",
    "VS.Plugin.C46_builtin_refuted"
   ],
   "note": "proved for loaded plugins and std; C46_builtin_refuted shows that the built-in resize and text units stay modifiable although not declared so"
  },
  {
   "property": "C47",
   "status": "partial",
   "theorems": [
    "VS.Plugin.C47_lines_partial",
    "VS.Plugin.C47_newlines_refuted",
    "VS.Plugin.C47_long_refuted"
   ],
   "note": "proved for contents up to 10000 characters with at least one character that is no line end; C47_newlines_refuted and C47_long_refuted show what happens otherwise"
  },
  {
   "property": "C48",
   "status": "proved",
   "theorems": [
    "VS.Video.C48_video",
    "VS.Video.C48_position"
   ],
   "note": ""
  },
  {
   "property": "C49",
   "status": "partial",
   "theorems": [
    "VS.Video.C49_y4m_partial",
    "VS.Video.C49_refused",
    "VS.Video.C49_gray_float_refuted"
   ],
   "note": "everything is recovered for YUV and for gray integer clips; gray floating point clips are written with the same header as integers (C49_gray_float_refuted)"
  },
  {
   "property": "C50",
   "status": "proved",
   "theorems": [
    "VS.Video.C50_exact",
    "VS.Video.C50_monotone"
   ],
   "note": "exact in rational arithmetic, monotone for every monotone rounding; that doubles round this way is not part of the model"
  },
  {
   "property": "C51",
   "status": "proved",
   "theorems": [
    "VS.Expr.C51_words",
    "VS.Expr.C51_words_all",
    "VS.Expr.C51_clips",
    "VS.Expr.C51_dup_swap",
    "VS.Expr.C51_dup_swap_refused",
    "VS.Expr.C51_spaces",
    "VS.Expr.C51_operators",
    "VS.Expr.C51_value",
    "VS.Expr.C51_refused"
   ],
   "note": "the conversion of a word to a constant is a parameter"
  },
  {
   "property": "C52",
   "status": "proved",
   "theorems": [
    "VS.Expr.C52_code",
    "VS.Expr.C52_row"
   ],
   "note": "for the interpreter; the code generated for x86 is not modelled"
  },
  {
   "property": "C53",
   "status": "proved",
   "theorems": [
    "VS.Expr.C53_range",
    "VS.Expr.C53_stored"
   ],
   "note": "under the stated properties of comparison and rounding, which exact arithmetic has"
  },
  {
   "property": "C54",
   "status": "partial",
   "theorems": [
    "VS.Expr.C54_local",
    "VS.Expr.C54_powers",
    "VS.Expr.C54_comparisons",
    "VS.Expr.C54_strength",
    "VS.Expr.C54_fusion",
    "VS.Expr.C54_sums_products_partial",
    "VS.Expr.C54_optimize_partial",
    "VS.Expr.C54_program_partial",
    "VS.Expr.C54_constant_refuted",
    "VS.Expr.C54_sign_refuted",
    "VS.Expr.C54_zero_power_refuted",
    "VS.Expr.C54_large_exponent_refuted"
   ],
   "note": "five of the six passes in full; the pass for sums and products and with it the whole optimizer for expressions whose square roots and fractional powers have factors that are not negative, if no constant gets lost. C54_constant_refuted, C54_sign_refuted, C54_zero_power_refuted, C54_large_exponent_refuted show what the program gets wrong"
  },
  {
   "property": "C55",
   "status": "partial",
   "theorems": [
    "VS.Pix.C55_crop",
    "VS.Pix.C55_crop_accepts",
    "VS.Pix.C55_crop_variable",
    "VS.Pix.C55_crop_props",
    "VS.Pix.C55_crop_abs",
    "VS.Pix.C55_crop_overflow_refuted"
   ],
   "note": "for all areas whose corner does not overflow `int`; C55_crop_overflow_refuted shows the overflow"
  },
  {
   "property": "C56",
   "status": "partial",
   "theorems": [
    "VS.Pix.C56_borders",
    "VS.Pix.C56_borders_accepts",
    "VS.Pix.C56_crop_borders",
    "VS.Pix.C56_borders_overflow_refuted",
    "VS.Blank.C56_sample"
   ],
   "note": "for all borders whose sums fit into `int`; C56_borders_overflow_refuted shows the overflow"
  },
  {
   "property": "C57",
   "status": "proved",
   "theorems": [
    "VS.Pix.C57_flip_vertical",
    "VS.Pix.C57_flip_horizontal",
    "VS.Pix.C57_turn180",
    "VS.Pix.C57_transpose",
    "VS.Pix.C57_flip_vertical_twice",
    "VS.Pix.C57_flip_horizontal_twice",
    "VS.Pix.C57_turn180_flips",
    "VS.Pix.C57_turn180_twice",
    "VS.Pix.C57_turn_back",
    "VS.Pix.C57_turn_twice"
   ],
   "note": ""
  },
  {
   "property": "C58",
   "status": "partial",
   "theorems": [
    "VS.Pix.C58_stack_vertical",
    "VS.Pix.C58_stack_horizontal",
    "VS.Pix.C58_stack_accepts",
    "VS.Pix.C58_stack_overflow_refuted"
   ],
   "note": "if the sum of the sizes fits into `int`; C58_stack_overflow_refuted shows the overflow"
  },
  {
   "property": "C59",
   "status": "partial",
   "theorems": [
    "VS.Pix.C59_shuffle",
    "VS.Pix.C59_split",
    "VS.Pix.C59_split_shuffle",
    "VS.Pix.C59_shuffle_refuted",
    "VS.Pix.C59_split_refuted",
    "VS.Pix.C59_families",
    "VS.Pix.C59_count_refused",
    "VS.Pix.C59_rgb_same_size"
   ],
   "note": "if the subsampling of the result exists and, for SplitPlanes, if the size is constant; C59_shuffle_refuted and C59_split_refuted show what happens otherwise"
  },
  {
   "property": "C60",
   "status": "partial",
   "theorems": [
    "VS.Pix.C60_separate",
    "VS.Pix.C60_separate_accepts",
    "VS.Pix.C60_weave_accepts",
    "VS.Pix.C60_weave",
    "VS.Pix.C60_separate_weave",
    "VS.Pix.C60_weave_overflow_refuted",
    "VS.Pix.C60_rate_refuted",
    "VS.Pix.C60_duration_refuted"
   ],
   "note": "if the double height, frame rate and duration can be represented; C60_weave_overflow_refuted, C60_rate_refuted, C60_duration_refuted show the overflows"
  },
  {
   "property": "C61",
   "status": "partial",
   "theorems": [
    "VS.FProps.C61_setFrameProp_accepts",
    "VS.FProps.C61_setFrameProp",
    "VS.FProps.C61_bad_name_ignored",
    "VS.FProps.C61_name_refuted",
    "VS.FProps.C61_setFrameProps",
    "VS.FProps.C61_setFrameProps_frame",
    "VS.FProps.C61_setFieldBased_accepts",
    "VS.FProps.C61_setFieldBased"
   ],
   "note": "for names that a property can have; C61_name_refuted shows that others are accepted and ignored"
  },
  {
   "property": "C62",
   "status": "partial",
   "theorems": [
    "VS.FProps.C62_pattern",
    "VS.FProps.C62_create",
    "VS.FProps.C62_remove_all",
    "VS.FProps.C62_remove_partial",
    "VS.FProps.C62_two_ub",
    "VS.FProps.C62_remove_refuted",
    "VS.FProps.C62_colorRange_refuted"
   ],
   "note": "the removed set is exact if the freed name can still be read; C62_two_ub and C62_remove_refuted show the use after free, C62_colorRange_refuted the name _ColorRange"
  },
  {
   "property": "C63",
   "status": "partial",
   "theorems": [
    "VS.FProps.C63_copy_all",
    "VS.FProps.C63_copy_named",
    "VS.FProps.C63_colorRange_refuted",
    "VS.FProps.C63_colorRange_fatal_refuted"
   ],
   "note": "for names other than _ColorRange and references that are not null; C63_colorRange_refuted and C63_colorRange_fatal_refuted show what happens with it"
  },
  {
   "property": "C64",
   "status": "partial",
   "theorems": [
    "VS.FProps.C64_clipToProp",
    "VS.FProps.C64_propToClip",
    "VS.FProps.C64_propToClip_missing",
    "VS.FProps.C64_propToClip_accepts",
    "VS.FProps.C64_round_trip",
    "VS.FProps.C64_audio_refuted",
    "VS.FProps.C64_clipToProp_refused",
    "VS.FProps.C64_propToClip_refused"
   ],
   "note": "for video frames; C64_audio_refuted shows that audio frames are taken for video frames"
  },
  {
   "property": "C65",
   "status": "partial",
   "theorems": [
    "VS.Merge.C65_between",
    "VS.Merge.C65_merge",
    "VS.Merge.C65_merge_float",
    "VS.Merge.C65_merge_refused",
    "VS.Merge.C65_many_weights_refuted"
   ],
   "note": "for at most three weights; C65_many_weights_refuted shows what happens otherwise. Float kernels are a parameter"
  },
  {
   "property": "C66",
   "status": "proved",
   "theorems": [
    "VS.Merge.C66_ends",
    "VS.Merge.C66_between",
    "VS.Merge.C66_masked_refused",
    "VS.Merge.C66_masked",
    "VS.Merge.C66_premultiplied",
    "VS.Merge.C66_masked_float",
    "VS.Merge.C66_masked_location",
    "VS.Merge.C66_mask_type_refuted"
   ],
   "note": "mask with a constant format; float kernels are a parameter, C66_mask_type_refuted shows that the type of the mask is not checked"
  },
  {
   "property": "C67",
   "status": "proved",
   "theorems": [
    "VS.Merge.C67_premultiply",
    "VS.Merge.C67_premultiply_float",
    "VS.Merge.C67_premultiply_refused"
   ],
   "note": "float kernel is a parameter"
  },
  {
   "property": "C68",
   "status": "proved",
   "theorems": [
    "VS.Merge.C68_diff_refused",
    "VS.Merge.C68_makeDiff",
    "VS.Merge.C68_mergeDiff",
    "VS.Merge.C68_diff_float",
    "VS.Merge.C68_round_trip"
   ],
   "note": "float kernels are a parameter"
  },
  {
   "property": "C69",
   "status": "proved",
   "theorems": [
    "VS.Merge.C69_makeFull_refused",
    "VS.Merge.C69_mergeFull_refused",
    "VS.Merge.C69_makeFull",
    "VS.Merge.C69_mergeFull",
    "VS.Merge.C69_round_trip",
    "VS.Merge.C69_out_of_range_refuted"
   ],
   "note": "for samples in the range of their format, C69_out_of_range_refuted shows why; width * 4 must fit an int"
  },
  {
   "property": "C70",
   "status": "partial",
   "theorems": [
    "VS.Lut.C70_lut_partial",
    "VS.Lut.C70_lut_refused",
    "VS.Lut.C70_silent_error_refuted",
    "VS.Lut.C70_planes_refuted"
   ],
   "note": "if only some planes are chosen, the new samples must have the size of the old ones: C70_planes_refuted; refusal needs a message of the function: C70_silent_error_refuted"
  },
  {
   "property": "C71",
   "status": "partial",
   "theorems": [
    "VS.Lut.C71_lut2_partial",
    "VS.Lut.C71_lut2_refused",
    "VS.Lut.C71_planes_refuted"
   ],
   "note": "like C70; the second clip must have the chosen planes: C71_planes_refuted"
  },
  {
   "property": "C72",
   "status": "proved",
   "theorems": [
    "VS.Pixel.C72_invert",
    "VS.Pixel.C72_invert_float",
    "VS.Pixel.C72_invert_refused",
    "VS.Pixel.C72_frame_refused",
    "VS.Pixel.C72_twice"
   ],
   "note": "float arithmetic is a parameter"
  },
  {
   "property": "C73",
   "status": "proved",
   "theorems": [
    "VS.Pixel.C73_limiter",
    "VS.Pixel.C73_limiter_refused",
    "VS.Pixel.C73_limiter_float",
    "VS.Pixel.C73_negative_refuted",
    "VS.Pixel.C73_nan_refuted"
   ],
   "note": "the range check is only exact for numbers that are not between -2 and 0: C73_negative_refuted; NaN: C73_nan_refuted"
  },
  {
   "property": "C74",
   "status": "proved",
   "theorems": [
    "VS.Pixel.C74_binarize",
    "VS.Pixel.C74_binarize_float",
    "VS.Pixel.C74_binarize_refused"
   ],
   "note": "float arithmetic is a parameter; range check as in C73"
  },
  {
   "property": "C76",
   "status": "proved",
   "theorems": [
    "VS.Generic.C76_minimum",
    "VS.Generic.C76_maximum",
    "VS.Generic.C76_float",
    "VS.Generic.C76_refused",
    "VS.Generic.C76_frame_refused"
   ],
   "note": "float samples: an uninterpreted function of the nine samples"
  },
  {
   "property": "C77",
   "status": "proved",
   "theorems": [
    "VS.Generic.C77_median",
    "VS.Generic.C77_unique",
    "VS.Generic.C77_float",
    "VS.Generic.C77_refused",
    "VS.Generic.C77_frame_refused"
   ],
   "note": "float samples: an uninterpreted function of the nine samples"
  },
  {
   "property": "C78",
   "status": "proved",
   "theorems": [
    "VS.Generic.C78_deflate",
    "VS.Generic.C78_inflate",
    "VS.Generic.C78_float",
    "VS.Generic.C78_refused",
    "VS.Generic.C78_frame_refused"
   ],
   "note": "float samples: an uninterpreted function of the nine samples"
  },
  {
   "property": "C80",
   "status": "proved",
   "theorems": [
    "VS.Generic.C80_gradient",
    "VS.Generic.C80_float",
    "VS.Generic.C80_refused",
    "VS.Generic.C80_frame_refused"
   ],
   "note": "lengths up to the rounding errors of single precision (assumed bounds); float samples: an uninterpreted function of the nine samples"
  },
  {
   "property": "C79",
   "status": "proved",
   "theorems": [
    "VS.Generic.C79_convolution",
    "VS.Generic.C79_separable",
    "VS.Generic.C79_flat",
    "VS.Generic.C79_float",
    "VS.Generic.C79_refused",
    "VS.Generic.C79_frame_refused"
   ],
   "note": "errors of single precision up to assumed bounds; float samples: an uninterpreted function of the samples under the matrix"
  },
  {
   "property": "C75",
   "status": "partial",
   "theorems": [
    "VS.Levels.C75_levels",
    "VS.Levels.C75_identity",
    "VS.Levels.C75_float",
    "VS.Levels.C75_refused",
    "VS.Levels.C75_empty_refused",
    "VS.Levels.C75_defined_refuted"
   ],
   "note": "integers: proved if the differences of the arguments are below 2^127; the claim that all finite arguments are defined is refuted (C75_defined_refuted)"
  },
  {
   "property": "C81",
   "status": "partial",
   "theorems": [
    "VS.Average.C81_average",
    "VS.Average.C81_flat",
    "VS.Average.C81_float",
    "VS.Average.C81_refused",
    "VS.Average.C81_scale_refuted"
   ],
   "note": "proved for integer clips; float samples as far as the frames, weights and the scene that the kernel gets; the claim that every positive scale is accepted is refuted (C81_scale_refuted)"
  },
  {
   "property": "C82",
   "status": "partial",
   "theorems": [
    "VS.Stats.C82_stats",
    "VS.Stats.C82_diff",
    "VS.Stats.C82_float",
    "VS.Stats.C82_refused",
    "VS.Stats.C82_name_refuted"
   ],
   "note": "proved for integer clips with planes of fewer than 2^47 samples; float samples as far as the samples the kernel gets; the claim that the properties are set for every prefix is refuted (C82_name_refuted)"
  },
  {
   "property": "C83",
   "status": "partial",
   "theorems": [
    "VS.Blur.C83_blur",
    "VS.Blur.C83_division",
    "VS.Blur.C83_bounds",
    "VS.Blur.C83_mono",
    "VS.Blur.C83_reach",
    "VS.Blur.C83_reach_float_refuted",
    "VS.Blur.C83_refuses",
    "VS.Blur.C83_planes_refuted"
   ],
   "note": "proved for sizes where width + hradius, height + vradius and the bytes of a column fit into int; arithmetic on float samples is a parameter; two claims are refuted: clips with a single plane ignore planes (C83_planes_refuted), and in float clips one NaN or infinite sample reaches beyond the radius (C83_reach_float_refuted)"
  },
  {
   "property": "C84",
   "status": "partial",
   "theorems": [
    "VS.Half.C84_widen",
    "VS.Half.C84_narrow",
    "VS.Half.C84_overflow",
    "VS.Half.C84_nan",
    "VS.Half.C84_round_trip",
    "VS.Half.C84_mono",
    "VS.Half.C84_isInf",
    "VS.Half.C84_even_refuted"
   ],
   "note": "proved for the variant without hardware support and all bit patterns, except that ties are rounded away from zero and not to even as documented (C84_even_refuted); the variant with hardware support is a conversion of the compiler"
  },
  {
   "property": "C85",
   "status": "partial",
   "theorems": [
    "VS.Work.C85_some_thread_works",
    "VS.Work.C85_without_blocking",
    "VS.Work.C85_any_memory_limit_refuted",
    "VS.Work.C85_blocking_callbacks_refuted"
   ],
   "note": "proved without further assumptions for programs in which no worker thread calls getFrame; with such calls for filters that ask lower nodes, if memory is refused only while some call is in progress that does not itself wait. Without that assumption, and for callbacks of getFrameAsync that call getFrame, the claim is refuted. Locks and condition variables are as the standard says; steps are the code between two waits"
  },
  {
   "property": "C86",
   "status": "proved",
   "theorems": [
    "VS.Work.C86_threads_bounded",
    "VS.Work.C86_calls_bounded",
    "VS.Work.C86_counts"
   ],
   "note": "for all schedules of the model of the threads"
  },
  {
   "property": "C87",
   "status": "proved",
   "theorems": [
    "VS.Work.C87_callbacks_apart",
    "VS.Work.C87_threads_follow_the_scheduler"
   ],
   "note": "for all schedules of the model of the threads"
  },
  {
   "property": "C88",
   "status": "proved",
   "theorems": [
    "VS.Work.C88_threads_end",
    "VS.Work.C88_counts_at_the_end"
   ],
   "note": "for all schedules of the model of the threads; the loop of the destructor that joins one thread after the other is not modelled as a thread of its own"
  },
  {
   "property": "C89",
   "status": "partial",
   "theorems": [
    "VS.Gain.C89_gain",
    "VS.Gain.C89_gain_float",
    "VS.Gain.C89_arguments",
    "VS.Gain.C89_unity",
    "VS.Gain.C89_any_gain_refuted",
    "VS.Gain.C89_any_length_refuted"
   ],
   "note": "proved for all finite gains and all clips whose sample numbers are an int; refuted for infinite gains (C89_any_gain_refuted) and for clipping behind sample 2^31 (C89_any_length_refuted). Double arithmetic is rounding with the usual conditions; products of float samples are a parameter"
  },
  {
   "property": "C90",
   "status": "partial",
   "theorems": [
    "VS.Gain.C90_mix",
    "VS.Gain.C90_mix_float",
    "VS.Gain.C90_arguments",
    "VS.Gain.C90_select",
    "VS.Gain.C90_any_weights_refuted",
    "VS.Gain.C90_any_length_refuted"
   ],
   "note": "proved for weights up to 2^900 in absolute value and fewer than 2^31 weights; refuted for larger finite weights (C90_any_weights_refuted) and for clipping behind sample 2^31 (C90_any_length_refuted). Which of two messages is given if several arguments are wrong is not modelled; sums of float samples are a parameter"
  },
  {
   "property": "C91",
   "status": "proved",
   "theorems": [
    "VS.Text.C91_text",
    "VS.Text.C91_lines",
    "VS.Text.C91_margin",
    "VS.Text.C91_refused",
    "VS.Text.C91_arguments",
    "VS.Text.C91_data",
    "VS.Text.C91_number",
    "VS.Text.C91_chroma_refuted"
   ],
   "note": "the texts of ClipInfo, CoreInfo and FrameProps are a parameter. Which chroma samples are erased is stated exactly; that no pixel of a character keeps color is refuted (C91_chroma_refuted)"
  },
  {
   "property": "C92",
   "status": "partial",
   "theorems": [
    "VS.Blank.C92_blank",
    "VS.Blank.C92_accepts",
    "VS.Blank.C92_refused",
    "VS.Blank.C92_overflow_refuted",
    "VS.Blank.C92_color_refuted"
   ],
   "note": "for rates whose tenfold fits into int64 if the length is computed from it (C92_overflow_refuted), and colors of 32 bit formats in range or refused (C92_color_refuted shows one that is clamped)"
  },
  {
   "property": "C93",
   "status": "proved",
   "theorems": [
    "VS.Blank.C93_fps",
    "VS.Blank.C93_refused"
   ],
   "note": ""
  },
  {
   "property": "C94",
   "status": "partial",
   "theorems": [
    "VS.Eval.C94_frameeval",
    "VS.Eval.C94_released",
    "VS.Eval.C94_ends",
    "VS.Eval.C94_modifyframe",
    "VS.Eval.C94_audio_refuted"
   ],
   "note": "for declared formats, or if no audio is returned; otherwise the process ends (C94_audio_refuted). That calls exclude each other is C17; the create functions are not part of the model"
  },
  {
   "property": "C95",
   "status": "partial",
   "theorems": [
    "VS.Resample.C95_resample",
    "VS.Resample.C95_too_long",
    "VS.Resample.C95_length",
    "VS.Resample.C95_any_ratio_refuted"
   ],
   "note": "for ratios up to 64 to 1 and results that are numbers if the output is integer (C96_any_sample_refuted). From 2^26 to 1 on creation is undefined behaviour (C95_any_ratio_refuted); between 2^23 and 2^26 to 1 nothing is claimed. Coefficients and single precision arithmetic are parameters, mixing weights those of the model"
  },
  {
   "property": "C96",
   "status": "partial",
   "theorems": [
    "VS.Resample.C96_format",
    "VS.Resample.C96_same",
    "VS.Resample.C96_arguments",
    "VS.Resample.C96_widen",
    "VS.Resample.C96_any_sample_refuted"
   ],
   "note": "float samples that are not a number are undefined behaviour if the output is integer (C96_any_sample_refuted). The conversion from double to float is a parameter"
  },
  {
   "property": "C97",
   "status": "proved",
   "theorems": [
    "VS.Resample.C97_columns",
    "VS.Resample.C97_heard",
    "VS.Resample.C97_lfe",
    "VS.Resample.C97_symmetry",
    "VS.Resample.C97_normalised",
    "VS.Resample.C97_stereo"
   ],
   "note": "about the weights as double; their conversion to float is a parameter of the model. The bound on the sum is 1 + 2^-38"
  },
  {
   "property": "C98",
   "status": "partial",
   "theorems": [
    "VS.Pem.C98_integer",
    "VS.Pem.C98_float",
    "VS.Pem.C98_refused",
    "VS.Pem.C98_single_refuted",
    "VS.Pem.C98_nan_refuted",
    "VS.Pem.C98_crossed_refuted"
   ],
   "note": "The check itself is proved for all frames and bounds. Shown not to hold: clips in single precision work without the argument upper (1 << 32 is undefined); a NaN is refused as bound (it switches the check off); bounds that admit no sample are always refused (not checked against the default). The conversion of bounds to float, the text of %f and lround of a NaN are parameters."
  },
  {
   "property": "C99",
   "status": "partial",
   "theorems": [
    "VS.Fourcc.C99_planar",
    "VS.Fourcc.C99_single",
    "VS.Fourcc.C99_two",
    "VS.Fourcc.C99_unique",
    "VS.Fourcc.C99_compression",
    "VS.Fourcc.C99_bits",
    "VS.Fourcc.C99_gray_refuted",
    "VS.Fourcc.C99_overflow_refuted",
    "VS.Fourcc.C99_alt_refuted"
   ],
   "note": "What libp2p writes within a line is not in the repository and not modelled: for packed formats the theorems say where the lines are and which packing is asked for. Sizes must fit an int; three parts are refuted: bits per pixel of gray clips, overflow of the size, modes without code. The three formats for clips of AviSynth are in the table, but only C99_unique and C99_compression speak about them."
  },
  {
   "property": "C100",
   "status": "partial",
   "theorems": [
    "VS.ExprFilter.C100_frames_partial",
    "VS.ExprFilter.C100_text",
    "VS.ExprFilter.C100_refused",
    "VS.ExprFilter.C100_undefined"
   ],
   "note": "Frames computed by the interpreter (CPU level none); of the just-in-time compiler only the memory accesses are modelled (C101). The value is that of the tree after the optimizer; where the optimizer keeps values it is that of the text (C100_text, C51, C54). If the kind of samples changes, planes with an empty expression contain old memory, which is documented (C100_undefined); C100_frames_partial excludes that case. Refusal of texts that cannot be translated is covered by C51 only. Rows of the result have to be below 2^31 bytes."
  },
  {
   "property": "C101",
   "status": "proved",
   "theorems": [
    "VS.ExprFilter.Jit.C101_within",
    "VS.ExprFilter.Jit.C101_samples"
   ],
   "note": "Each load or store of samples is modelled by its offset, size and required alignment, transcribed by hand from the emitted instructions. What the code computes, its table of constants and the encoding of the instructions are not modelled. Aligned addresses of the planes and strides made by the core are hypotheses."
  }
 ]
}