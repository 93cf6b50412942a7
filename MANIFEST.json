{"claims": [
{"property": "C01", "status": "proved", "theorems": ["Hash2.chunking"], "note": "all classes incl. nested hmac; spooky2 needs Room (byte counter does not wrap size_t); null pointers per C02"},
{"property": "C02", "status": "partial", "theorems": ["Hash2.zero_length_update_partial", "Hash2.sha2_null_update_undefined", "Hash2.sha2_null_exact"], "note": "false of SHA-2 at run time for null pointers; sha2_null_exact says exactly when; true everywhere else"},
{"property": "C03", "status": "partial", "theorems": ["Hash2.no_undefined_behaviour_partial", "Hash2.sha2_null_update_undefined", "Hash2.sha2_null_exact", "Hash2.sha2_programs_exact", "Hash2.spooky2_wrap_fails_assertion", "Hash2.spooky2_wrap_exact", "Hash2.invalid_update_faults"], "note": "false of SHA-2 with a null pointer of length 0 at run time: sha2_null_exact and sha2_programs_exact say exactly for which programs; spooky2 needs Room (its byte counter must not wrap): spooky2_wrap_exact says exactly which programs fail the assertion"},
{"property": "C04", "status": "proved", "theorems": ["Hash2.md5_rfc1321"], "note": ""},
{"property": "C05", "status": "proved", "theorems": ["Hash2.sha1_fips180"], "note": ""},
{"property": "C06", "status": "proved", "theorems": ["Hash2.sha256_fips180", "Hash2.sha224_fips180"], "note": ""},
{"property": "C07", "status": "proved", "theorems": ["Hash2.sha512_fips180", "Hash2.sha384_fips180", "Hash2.sha512_224_fips180", "Hash2.sha512_256_fips180", "Hash2.sha512_length_mod64", "Hash2.sha512_padding_exact"], "note": "FIPS 180-4 allows messages of up to 2^128 bits; the code keeps the bit count in 64 bits (finding in DESIGN.md). The first four theorems are for fewer than 2^61 bytes, sha512_length_mod64 for every message, sha512_padding_exact compares the paddings."},
{"property": "C08", "status": "proved", "theorems": ["Hash2.ripemd160_paper"], "note": ""},
{"property": "C09", "status": "proved", "theorems": ["Hash2.ripemd128_paper"], "note": ""},
{"property": "C10", "status": "proved", "theorems": ["Hash2.siphash64_key", "Hash2.siphash64_seed", "Hash2.siphash64_default"], "note": ""},
{"property": "C11", "status": "proved", "theorems": ["Hash2.siphash32_key", "Hash2.siphash32_seed", "Hash2.siphash32_default"], "note": ""},
{"property": "C12", "status": "proved", "theorems": ["Hash2.xxhash64_spec", "Hash2.xxhash64_default"], "note": "length below 2^64"},
{"property": "C13", "status": "proved", "theorems": ["Hash2.xxhash32_spec", "Hash2.xxhash32_default"], "note": "length fits size_t"},
{"property": "C14", "status": "proved", "theorems": ["Hash2.fnv1a_32_spec", "Hash2.fnv1a_64_spec"], "note": ""},
{"property": "C15", "status": "proved", "theorems": ["Hash2.hmac_rfc2104", "Hash2.hmac_md5_rfc2104", "Hash2.hmac_sha1_rfc2104", "Hash2.hmac_ripemd160_rfc2104", "Hash2.hmac_ripemd128_rfc2104", "Hash2.hmac_sha256_rfc2104", "Hash2.hmac_sha224_rfc2104", "Hash2.hmac_sha512_rfc2104", "Hash2.hmac_sha384_rfc2104", "Hash2.hmac_sha512_224_rfc2104", "Hash2.hmac_sha512_256_rfc2104"], "note": ""},
{"property": "C16", "status": "proved", "theorems": ["Hash2.repeated_result"], "note": ""},
{"property": "C17", "status": "proved", "theorems": ["Hash2.seed_zero_is_default", "Hash2.empty_seed_is_default"], "note": ""},
{"property": "C18", "status": "proved", "theorems": ["Hash2.seed_is_update_and_result", "Hash2.byte_seed_is_update_and_result", "Hash2.siphash64_byte_seed", "Hash2.siphash32_byte_seed", "Hash2.fnv1a_seed_is_update", "Hash2.fnv1a_byte_seed_is_update"], "note": "siphash keys: C10, C11; hmac keys: C15, C36; xxhash/murmur3/spooky2 seeds: C12, C13, C39"},
{"property": "C19", "status": "partial", "theorems": ["Hash2.integer_seeds_distinct_partial", "Hash2.integer_seeds_same_upper_half_distinct_partial", "Hash2.xxhash_32_seeds_exact", "Hash2.murmur3_32_seeds_exact", "Hash2.digest_seeds_exact", "Hash2.digest_seeds_distinct", "Hash2.xxhash_32_seeds_collide", "Hash2.murmur3_32_seeds_collide", "Hash2.fnv1a_32_seeds_collide", "Hash2.fnv1a_64_seeds_collide", "Hash2.integer_seeds_results_collide", "Hash2.fnv1a_32_seeds_exact", "Hash2.fnv1a_64_seeds_exact"], "note": "The full statement is false for xxhash_32, murmur3_32 and fnv1a: colliding seeds are exhibited as theorems, and for all of them the colliding pairs are characterised exactly. Proved for siphash, xxhash_64, murmur3_128, spooky2_128, and for xxhash_32/murmur3_32 among seeds with the same upper half. For the ten digests the objects differ exactly if the chaining values after the 8 bytes of the seeds do (a compression function collision would be a counterexample). The documentation's stronger sentence on results is refuted for every 32-bit algorithm."},
{"property": "C20", "status": "partial", "theorems": ["Hash2.keys_distinct_partial", "Hash2.digest_seeds_exact", "Hash2.digest_seeds_distinct", "Hash2.byte_seeds_collide", "Hash2.siphash_64_zero_key", "Hash2.siphash_32_zero_key", "Hash2.hmac_keys_collide", "Hash2.murmur3_32_seed_tail_ignored", "Hash2.murmur3_128_seed_tail_ignored", "Hash2.fnv1a_32_seeds_exact", "Hash2.fnv1a_64_seeds_exact"], "note": "The full statement is false for every algorithm (byte_seeds_collide). Proved for keys of the sizes the algorithm is designed for; for the ten digests and fnv1a characterised exactly; outside these sizes concrete collisions are proved (all-zero sip key = default, hmac k vs k++[0], murmur3 tails)."},
{"property": "C21", "status": "proved", "theorems": ["Hash2.buffers_zero_after_result", "Hash2.buffers_after_byte_seed", "Hash2.buffer_holds_only_pending"], "note": ""},
{"property": "C22", "status": "proved", "theorems": ["Hash2.platform_independent"], "note": ""},
{"property": "C23", "status": "proved", "theorems": ["Hash2.fast_path_same"], "note": "Whole programs (update, result, hash_append mixed), every algorithm, platform, flavor, type and value: constant evaluation and run time agree. Run-time SHA-2 (and HMAC over it) must not be handed a null data() (see C03)."},
{"property": "C24", "status": "proved", "theorems": ["Hash2.explicit_flavors_portable", "Hash2.explicit_messages_portable", "Hash2.native_flavor_not_portable", "Hash2.library_flavors", "Hash2.library_flavors_portable"], "note": "Results of whole programs on any two platforms; also the bytes fed. NaNs are excluded only if one platform's addition replaces them by a canonical NaN."},
{"property": "C25", "status": "proved", "theorems": ["Hash2.every_append_contributes", "Hash2.every_append_contributes_to_hash", "Hash2.empty_range_feeds_nothing"], "note": "The only types excluded are user classes whose own tag_invoke feeds nothing or a bare hash_append_range; empty_range_feeds_nothing shows that the exclusion is needed."},
{"property": "C26", "status": "proved", "theorems": ["Hash2.messages_differ", "Hash2.different_objects_differ", "Hash2.undelimited_ranges_confused"], "note": "Stated on a recorder of all bytes fed. Excludes only classes whose own tag_invoke feeds a range without its size; undelimited_ranges_confused shows that this is needed."},
{"property": "C27", "status": "proved", "theorems": ["Hash2.equal_floats_hash_equally", "Hash2.equal_doubles_hash_equally", "Hash2.equal_objects_hash_equally", "Hash2.zeros_differ_rounding_down"], "note": "Bare numbers and, by equal_objects_hash_equally, nested ones. Requires a rounding mode other than FE_DOWNWARD (part of AlgName.Runs); zeros_differ_rounding_down refutes the property without this."},
{"property": "C28", "status": "proved", "theorems": ["Hash2.unordered_any_order"], "note": "Every algorithm, every program before and after, so every reachable state and every observation of it."},
{"property": "C29", "status": "proved", "theorems": ["Hash2.container_kind_irrelevant"], "note": "Any number of such replacements at any depth; relation Same in Spec/Same.lean."},
{"property": "C30", "status": "proved", "theorems": ["Hash2.append_is_update_with_message", "Hash2.series_is_one_update", "Hash2.sha2_empty_vector_undefined", "Hash2.sha2_programs_exact", "Hash2.library_flavors"], "note": "The message is given by Spec/Messages.lean, independent of the model. sha2_empty_vector_undefined: hash_append of an empty vector is undefined behaviour for SHA-2 after a partial block (finding, see C03); sha2_programs_exact says exactly for which programs. The positive theorems exclude exactly null pointers under SHA-2."},
{"property": "C31", "status": "proved", "theorems": ["Hash2.integral_result_same", "Hash2.integral_result_injective"], "note": "All sixteen pairs of sizes."},
{"property": "C32", "status": "partial", "theorems": ["Hash2.integral_result_balanced_partial", "Hash2.uint16_to_uint8_overflow", "Hash2.uint16_to_uint8_wrapping"], "note": "False for R of two bytes and T of one: signed overflow exactly for r >= 43919 (uint16_to_uint8_overflow, a finding). Proved for all other narrowing pairs; for the pair with overflow, balance of the wrapping formula is uint16_to_uint8_wrapping. Nothing is missing that is true."},
{"property": "C33", "status": "proved", "theorems": ["Hash2.integral_result_of_digest"], "note": ""},
{"property": "C34", "status": "proved", "theorems": ["Hash2.digest_eq_iff", "Hash2.digest_ne_iff", "Hash2.digest_of_array"], "note": "std::memcmp is modelled by the sign it must return."},
{"property": "C35", "status": "proved", "theorems": ["Hash2.to_chars_writes_hex", "Hash2.to_chars_array", "Hash2.to_string_is_hex", "Hash2.to_string_injective", "Hash2.to_chars_huge"], "note": "N such that 2N is a std::ptrdiff_t; to_chars_huge shows that this is needed. operator<< with width() 0."},
{"property": "C36", "status": "proved", "theorems": ["Hash2.hmac_seed_is_key", "Hash2.hmac_long_key", "Hash2.hmac_key_zeros", "Hash2.seed_zero_is_default", "Hash2.empty_seed_is_default"], "note": ""},
{"property": "C37", "status": "proved", "theorems": ["Hash2.fnv1a_32_full_period", "Hash2.fnv1a_64_full_period", "Hash2.fnv1a_32_differences_persist", "Hash2.fnv1a_64_differences_persist"], "note": "By the theorem of Hull and Dobell (proved here), applied to the low byte and then to the rest of the state."},
{"property": "C38", "status": "proved", "theorems": ["Hash2.siphash_seeds_stay_different", "Hash2.siphash_keys_stay_different", "Hash2.spooky2_seeds_stay_different", "Hash2.xxhash_seeds_stay_different", "Hash2.xxhash64_short_results_differ", "Hash2.xxhash32_short_results_differ", "Hash2.murmur3_results_differ", "Hash2.fnv1a_results_differ"], "note": ""},
{"property": "C39", "status": "proved", "theorems": ["Hash2.murmur3_32_reference", "Hash2.murmur3_32_default", "Hash2.murmur3_128_reference", "Hash2.murmur3_128_default", "Hash2.spooky2_reference", "Hash2.spooky2_default"], "note": ""},
{"property": "C40", "status": "proved", "theorems": ["Hash2.md5_constants_are_sines", "Hash2.sha1_constants_are_roots", "Hash2.ripemd160_constants_are_roots", "Hash2.ripemd128_constants_are_roots", "Hash2.sha256_constants_are_roots", "Hash2.sha512_constants_are_roots", "Hash2.sha2_initial_values_are_roots", "Hash2.sha512t_initial_values", "Hash2.md_initial_values", "Hash2.siphash_initial_values", "Hash2.fnv_constants", "Hash2.ripemd_orders"], "note": "sines and roots are the real ones (Real.sin, Real.sqrt, x^(1/3), nth prime); the RIPEMD message orders are the permutations of the paper"},
{"property": "C41", "status": "proved", "theorems": ["Hash2.equal_objects_hash_equally"], "note": "Equal is Spec/Messages.lean's operator==."},
{"property": "C42", "status": "proved", "theorems": ["Hash2.fnv1a_notices_byte", "Hash2.murmur3_32_notices_block", "Hash2.murmur3_128_notices_block", "Hash2.xxhash_64_notices_word", "Hash2.xxhash_64_misses_word", "Hash2.xxhash_32_notices_word", "Hash2.xxhash_32_notices_any_word", "Hash2.integers_never_collide"], "note": "results of both runs exist and differ, for every seed, split and platform; xxhash_64_misses_word shows that the restriction for xxhash_64 is necessary"},
{"property": "C43", "status": "proved", "theorems": ["Hash2.objects_are_values", "Hash2.objects_are_values_any"], "note": "Copying is modelled as copying all members: no class declares copy operations."},
{"property": "C44", "status": "proved", "theorems": ["Hash2.hash_function_object", "Hash2.hash_32_64_returns_result", "Hash2.size_t_of_result_injective"], "note": "Key: the key can be appended to a new object (AlgName.Runs)."},
{"property": "C45", "status": "proved", "theorems": ["Hash2.murmur3_128_two_seeds", "Hash2.spooky2_128_two_seeds", "Hash2.murmur3_128_two_seeds_reference", "Hash2.spooky2_128_two_seeds_reference", "Hash2.murmur3_keys_results_differ", "Hash2.spooky2_keys_stay_different"], "note": "spooky2: while the byte counter does not wrap."},
{"property": "C46", "status": "proved", "theorems": ["Hash2.hash2sum_prints_hash", "Hash2.hash2sum_unknown_name"], "note": "Files below 2^61 bytes (C07); fread is modelled by the list of pieces it delivers; read errors and output are not modelled."},
{"property": "C47", "status": "proved", "theorems": ["Hash2.xxhash_128_halves"], "note": ""},
{"property": "C48", "status": "proved", "theorems": ["Hash2.Overloads.overloads_match_ways", "Hash2.Overloads.modelled_overload", "Hash2.Overloads.not_hashable"], "note": "The traits of Boost.ContainerHash and Describe are inputs of the model."},
{"property": "C49", "status": "partial", "theorems": ["Hash2.integral_result_halves_64", "Hash2.integral_result_halves_32", "Hash2.integral_result_half_distinct", "Hash2.integral_result_window_partial", "Hash2.integral_result_windows_collide"], "note": "proved for half-size narrowing with arbitrary other half, and for all parts except three, which collide (integral_result_windows_collide), and 16 to 8 bits (undefined, C32)"},
{"property": "C50", "status": "partial", "theorems": ["Hash2.round_trip_partial", "Hash2.round_trip_16_32", "Hash2.round_trip_32_64", "Hash2.round_trip_8_16_undefined"], "note": "proved for 8/32, 8/64, 16/64 bits; 16/32 and 32/64 lose exactly one pair each (the theorems give the pair), 8/16 overflows"},
{"property": "C51", "status": "proved", "theorems": ["Hash2.digest_determines_future", "Hash2.length_extension", "Hash2.fnv_result_determines_future", "Hash2.murmur3_result_determines_future", "Hash2.murmur3_extension"], "note": "The function F of length_extension is shown to exist (it is determined), not given as a program."},
{"property": "C52", "status": "proved", "theorems": ["Hash2.digest_states_exact"], "note": ""},
{"property": "C53", "status": "partial", "theorems": ["Hash2.digest_extended_output_partial", "Hash2.hmac_extended_output_partial", "Hash2.murmur3_later_results_ignore_tail", "Hash2.fnv1a_32_differences_persist", "Hash2.fnv1a_64_differences_persist"], "note": "Proved for the ten digests and hmac over them; for fnv1a in the form that objects whose first results differ have different results ever after. False for murmur3_32 and murmur3_128: murmur3_later_results_ignore_tail shows that all results but the first ignore the last incomplete block. Not stated for siphash, xxhash, spooky2, whose finalization is not provably injective."},
{"property": "C54", "status": "proved", "theorems": ["Hash2.murmur3_32_result_period", "Hash2.murmur3_128_result_period"], "note": "For fnv1a see C37."},
{"property": "C55", "status": "proved", "theorems": ["Hash2.user_append_is_update", "Hash2.user_streams", "Hash2.user_equal_objects", "Hash2.user_hmac", "Hash2.user_hmac_meets_requirements", "Hash2.library_meets_requirements"], "note": "Requirements (Spec/UserAlg.lean) are the documented requirements up to an equivalence of states the user chooses; no limit on message length"},
{"property": "C56", "status": "proved", "theorems": ["Hash2.xxhash_collisions_persist", "Hash2.xxhash_extended_output_collides"], "note": ""},
{"property": "C57", "status": "proved", "theorems": ["Hash2.seed_independent_collisions", "Hash2.murmur3_second_preimages", "Hash2.xxhash_64_second_preimages"], "note": "explicit seed-independent collisions; spooky2_128, xxhash_32, SipHash not claimed"},
{"property": "C58", "status": "proved", "theorems": ["Hash2.hash_append_documented", "Hash2.same_calls_same_results", "Hash2.documented_down_to_updates", "Hash2.range_may_be_cut", "Hash2.grouping_not_hashed", "Hash2.element_hashes_exist", "Hash2.unordered_documented"], "note": "The first bullet of the documentation (contiguously hashable types: one update with the memory of the object) is C23. The table follows the code in appending sizes with hash_append_size (the documentation says hash_append( h, f, m )), and mentions that signalling NaNs become quiet (the documentation does not). For spooky2_128 there must be room in the byte counter for the replaced program as well."},
{"property": "C59", "status": "proved", "theorems": ["Hash2.digest_collisions", "Hash2.hmac_collisions", "Hash2.object_collisions"], "note": "Relative to the standards' compression functions, which are not claimed to be collision resistant (MD5's and SHA-1's are not). Messages of 2^61 bytes and more, whose length wraps, are outside."},
{"property": "C60", "status": "proved", "theorems": ["Hash2.every_result", "Hash2.fnv_result_feeds_octet"], "note": "SHA-2 with null pointers at run time excluded (C02); spooky2 as long as its byte counter does not wrap (C03)."},
{"property": "C61", "status": "proved", "theorems": ["Hash2.watched_update_same", "Hash2.watched_result_same", "Hash2.update_work", "Hash2.update_work_count", "Hash2.result_work", "Hash2.result_work_blocks", "Hash2.history_work", "Hash2.message_work", "Hash2.finish_bounds", "Hash2.work_linear"], "note": "Block-function calls counted by an instrumented run proved equal to the plain one. For SipHash, xxHash, MurmurHash3, SpookyHash result() is straight-line code and not counted; the temporary object with which hmac hashes a long key is not part of the count."},
{"property": "C62", "status": "proved", "theorems": ["Hash2.objects_hash", "Hash2.object_hash", "Hash2.chars_hash", "Hash2.uchars_hash"], "note": "objects_hash: for any function of bytes the class computes, series of objects; object_hash: every class and constructor with a published function; chars_hash, uchars_hash: hash_append_range of characters. Where spooky2_128's counter could wrap, and for 2^61 bytes and more in the SHA-512 family, see C03 and C07."},
{"property": "C63", "status": "proved", "theorems": ["Hash2.threads_do_not_interfere", "Hash2.schedules_agree"], "note": "Granularity: one call of the library is one step (calls on different objects touch disjoint memory, all static data are constant)."},
{"property": "C64", "status": "proved", "theorems": ["Hash2.digest_is_array", "Hash2.digest_index_checked"], "note": "Requirements of the documentation (i < size(), arrays of N bytes) are the hypothesis DigestOp.Valid; the second theorem is about an index that violates it. The example runs a program with a copy that is then modified."},
{"property": "C65", "status": "proved", "theorems": ["Hash2.append_only_updates", "Hash2.contiguous_object_one_update", "Hash2.contiguous_container_two_updates", "Hash2.append_parametric", "Hash2.wrapper_hashes_the_same"], "note": "the algorithm is an arbitrary structure of functions; hash_append's calls are a list quantified before the algorithm"},
{"property": "C66", "status": "proved", "theorems": ["Hash2.fnv1a_32_runs_after", "Hash2.fnv1a_64_runs_after", "Hash2.fnv1a_32_runs", "Hash2.fnv1a_64_runs", "Hash2.fnv1a_32_short_runs", "Hash2.fnv1a_64_short_runs", "Hash2.fnv1a_32_long_run", "Hash2.fnv1a_64_long_run"], "note": "all bytes, lengths, constructors and histories; the exact table for default constructed objects"},
{"property": "C67", "status": "proved", "theorems": ["Hash2.fnv1a_32_low_bits", "Hash2.fnv1a_64_low_bits", "Hash2.fnv1a_32_parity", "Hash2.fnv1a_64_parity", "Hash2.fnv1a_32_64_agree"], "note": "all programs and constructors; parity for default constructed objects"},
{"property": "C68", "status": "proved", "theorems": ["Hash2.hmac_is_two_objects"], "note": "any H, nested hmac included; any history"},
{"property": "C69", "status": "partial", "theorems": ["Hash2.truncated_variants_partial", "Hash2.not_truncated"], "note": "The documented statement is false for all five classes (not_truncated). True for the four SHA-2 classes: the base algorithm with another initial value, truncated, in every history. Nothing is claimed for RIPEMD-128, whose compression function differs from RIPEMD-160's."},
{"property": "C70", "status": "proved", "theorems": ["Hash2.murmur3_32_block_permutes", "Hash2.xxhash_32_word_permutes", "Hash2.xxhash_64_word_permutes", "Hash2.murmur3_128_block_permutes", "Hash2.xxhash_64_integers_onto", "Hash2.xxhash_32_integers_onto", "Hash2.murmur3_32_integers_onto", "Hash2.integers_fill_buckets_evenly", "Hash2.integers_narrowed_evenly"], "note": "xxhash_32: as long as the bytes counted fit size_t."},
{"property": "C71", "status": "proved", "theorems": ["Hash2.comparable_truth", "Hash2.comparable_memcmp", "Hash2.independent_truth", "Hash2.contiguous_truth", "Hash2.contiguous_calls", "Hash2.scalar_comparable_exact", "Hash2.scalar_independent_exact", "Hash2.built_in_contiguous_exact"], "note": "Soundness for all types, given the user's specialisations for classes are right (wellFormed); exactness for built-in types."},
{"property": "C72", "status": "proved", "theorems": ["Hash2.hash_append_interrupted", "Hash2.hash_append_not_rolled_back"], "note": "hash_append_interrupted: the calls made on h pass the message; after any prefix of them the rest of the program is defined and returns what it returns after one update with the bytes passed, a prefix of the message. hash_append_not_rolled_back: h is changed (basic, not strong guarantee). Calls of update without bytes are not recorded: they change nothing (C02)."},
{"property": "C73", "status": "proved", "theorems": ["Hash2.unordered_feeds_sum", "Hash2.unordered_collisions_exact", "Hash2.unordered_common_element", "Hash2.unordered_sets_collide", "Hash2.unordered_sets_collide_32"], "note": "The colliding sets are shown to exist (pigeonhole), not exhibited. Hypotheses: the program and the programs that append one element and take the result can be run (AlgName.Runs)."},
{"property": "C74", "status": "proved", "theorems": ["Hash2.range_tells_apart", "Hash2.different_ranges_differ", "Hash2.benchmark_function_object", "Hash2.benchmark_string", "Hash2.benchmark_other_keys", "Hash2.buffer_benchmark"], "note": "Nothing may be fed after the ranges (undelimited_ranges_confused, C26)."},
{"property": "C75", "status": "proved", "theorems": ["Hash2.murmur3_32_short_key", "Hash2.murmur3_32_long_key", "Hash2.murmur3_32_wide_seed", "Hash2.murmur3_128_short_key", "Hash2.murmur3_128_padded_key", "Hash2.murmur3_128_long_key", "Hash2.spooky2_128_short_key", "Hash2.spooky2_128_padded_key", "Hash2.spooky2_128_long_key"], "note": "Equality of all results of all programs (first result for the wide seed)."},
{"property": "C76", "status": "proved", "theorems": ["Hash2.fnv1a_32_random_numbers", "Hash2.fnv1a_64_random_numbers", "Hash2.average_benchmark"], "note": "Sums are exact; the program adds doubles."},
{"property": "C77", "status": "proved", "theorems": ["Hash2.fnv1a_64_notices_six_bytes", "Hash2.fnv1a_32_notices_three_bytes", "Hash2.fnv1a_integers_never_collide", "Hash2.fnv1a_window_exact", "Hash2.fnv1a_integers_collide"], "note": "For one byte and for later results see C42 and C37."},
{"property": "C78", "status": "proved", "theorems": ["Hash2.integer_table", "Hash2.small_objects_never_collide", "Hash2.xxhash_32_notices_two_bytes"], "note": "the table is an equivalence, for each of the six hash functions and each of the four sizes; for objects of other types the implication"}
]}
