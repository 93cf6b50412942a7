# Formal model of pdimov/hash2 in Lean 4

## Files

* `properties.jsonl`   the properties C01.. in English
* `lean/Verif/Model`   executable model of the C++; every definition cites the file and lines in /repo it models
* `lean/Verif/Spec`    small specifications that do not refer to the proofs: the standards (RFC 1321, FIPS 180-4, RFC 2104, the
  RIPEMD, SipHash, XXH, FNV, MurmurHash3 and SpookyHash descriptions), the vocabulary of histories and programs, messages
* `lean/Verif/Lemmas`  helper lemmas and refinement proofs
* `lean/Verif/Props`   the property theorems, each with examples beside it that meet its hypotheses
* `lean/Verif/Tests`   the test vectors of /repo/test evaluated in the model by the kernel: evidence that the model is a
  faithful reading of the code, not proofs of properties
* `tools/transcription.py`  textual comparison of the literal parts of the model with /repo
* `tools/coverage.py`  lists the lines of the headers that no comment of the model cites
* `MANIFEST.json`      property -> theorem names
* `seeded/LOG.jsonl`   wrong programs tried against the theorems

## What is modelled, and how

**Undefined behaviour** is a distinct outcome: the model runs in `M := Except Fault`. A null pointer handed to
`std::memcpy`/`memset`/`memcmp`, an access out of bounds, arithmetic leaving an object, signed overflow, a failed
`BOOST_ASSERT`, an unsigned length that would wrap, a shift by the width, a loop that does not end and a `reinterpret_cast` in
a constant expression are `Fault`s. A theorem concluding `... = .ok rs` includes "no undefined behaviour".

**Pointers** `Ptr := null | mem bytes`: the bytes readable from the pointer up to the end of its object. `p + k` drops `k`
bytes. Aliasing between an input and the hash object is not modelled: inputs are values.

**Platform** `Env`: native byte order, constant evaluation or run time, whether the compiler has
`__builtin_is_constant_evaluated` (if not, `detail::is_constant_evaluated()` is true at run time as well) and constexpr functions
(if not, `detail::memcpy` and the like are the functions of `<cstring>`), width of `size_t` and of pointers (32 or 64 bits), whether an empty container's `data()` is null, contents of uninitialised memory, rounding
direction and treatment of NaNs. Every model function takes the `Env`; both branches of `detail::memcpy`, `memset`, `memcmp`,
`read..`, `write..` are modelled, and theorems quantify over all `Env`s.

**Words** are `BitVec 8/32/64`; byte counters are `Nat` reduced modulo 2^64 or 2^(bits of size_t), as in the code.

**Streaming engine**: all block algorithms share the shape of `update()`. It is modelled once (`Block.update`, Model/Block.lean)
with parameters for the differences between the classes (block size, counter width, presence of `if( n == 0 ) return`, clearing
of the buffer on fill, per-block loop or counted bulk loop), and one configuration per class.

**Compression functions**: hand-unrolled step lists (MD5, SHA-1, RIPEMD) are tables with one row per source line, executed in
order on named registers; SHA-2 the loops of the source; SipHash, xxHash, MurmurHash3, SpookyHash straight line code. The
specifications are written separately as the loops of the standards.

**Classes**: `AlgName` ranges over every hash algorithm of the library: fnv1a_32/64, xxhash_32/64, siphash_32/64, murmur3_32,
murmur3_128, spooky2_128, and the digests md5_128, sha1_160, sha2_224/256/384/512/512_224/512_256, ripemd_128/160 and
`hmac< D >` for every digest `D`, hmac included (any nesting depth). `exec env ctor ops` constructs an object in one of the three
ways and runs a list of calls on it.

**hash_append**: a universe `Ty` of types (integers, enumerations, pointers, floats, C arrays, ranges of four iterator kinds with
and without constant size, unordered ranges, tuples, described classes with bases, classes with a tag_invoke of their own), of
unbounded nesting, and a recursive `hashAppend` that follows the overloads and the run-time branches of hash_append.hpp over the
`HashAlg` interface, which every algorithm model implements.

## What is not modelled

* Template instantiation, concepts and overload resolution in general. Overload *selection* by the constraints of
  `do_hash_append` is modelled (C48) with the type traits of Boost.ContainerHash and Boost.Describe (`is_range`,
  `is_contiguous_range`, `is_unordered_range`, `is_tuple_like`, `is_described_class`, `describe_members`, ..) as inputs. Their
  implementation is in other libraries and not in /repo.
* `std::memcpy`, `std::memset`, `std::memcmp`, `std::fread`, containers and streams of the standard library: by their
  documented contract. `std::memcmp` by the sign of its result; `fread` by the list of pieces it delivers.
* `memcpy` of objects with padding: `is_trivially_equality_comparable` may only be specialised for classes without padding
  (as the documentation demands), and object representations of described classes are the concatenation of their members.
* `long double`, 128 bit integers and `wchar_t`-like sizes other than 1, 2, 4, 8: no overload / not in the universe.
* User-defined hash algorithms: theorems other than C55 and C65 range over the algorithms of the library; C55 is about every class that
  meets the documented requirements, C65 about every class.
* Running time (C61 counts calls of the block functions, nothing else), memory use, and cryptographic strength (collision resistance for unequal messages is not a theorem about any
  of these functions).
* The MSVC, GCC and 128-bit intrinsics branches: /repo has none that change results; `rot.hpp`, `read.hpp`, `write.hpp` are
  modelled in their portable form.
* What the compiler does with stores to dead objects: C21 is about the members of live objects. (`hmac::init` leaves its local
  `key` array, a padded copy of the key, on the stack; this is outside of the property.)
* `benchmark/` apart from its hash function objects (C74; the rest measures time), build files.

## Trusted base

* Lean 4.33.0's kernel, and `vcheck`'s replay of all modules by it.
* Axioms: `propext`, `Classical.choice`, `Quot.sound`; every theorem of the manifest depends on a subset of these. There
  are no axioms of our own, no `native_decide`, no `bv_decide`. `decide +kernel` is used for complete finite tables and for
  concrete witnesses; it is evaluated by the kernel.
* The reading of the C++ into `Verif/Model` (lines are cited; the tests of /repo re-evaluated in `Verif/Tests` support it).
  `python3 tools/transcription.py` extracts the constant tables, initial values, unrolled calls, Boolean functions and
  straight-line mixing functions from /repo and from the model and compares them item by item (976 items), and checks that
  every cited line range exists.
* The specifications in `Verif/Spec`, which stand for the standards. Test vectors of the standards are evaluated against
  them in `Verif/Props/Standards.lean` and `Verif/Tests`.

## Findings

Where a property is false of the code, the negation is a theorem with a concrete witness and the true part is a theorem
named `_partial`, or carries a hypothesis that excludes exactly the witness.

1. **SHA-2 and null pointers** (sha2.hpp:52-103). `sha2_base::update` lacks the `if( n == 0 ) return;` of the other classes.
   At run time `update( nullptr, 0 )` on an object with an incomplete block calls `std::memcpy( .., nullptr, 0 )`:
   `sha2_null_update_undefined`; exactly which programs reach it: `sha2_null_exact`. It is reached by `hash_append` of an empty vector: `sha2_empty_vector_undefined`; exactly which programs of `hash_append`, `update` and `result` calls reach it: `sha2_programs_exact`. The same for
   `hmac` over SHA-2. (C02, C03, C30)
2. **SpookyHash byte counter** (legacy/spooky2.hpp). 192 does not divide 2^32 or 2^64: when the counter wraps,
   `BOOST_ASSERT( m_ == n_ % N )` fails: `spooky2_wrap_fails_assertion`; exactly which programs fail: `spooky2_wrap_exact`. (C03)
3. **`get_integral_result< uint8_t >` of a `uint16_t`** multiplies two `int`s: signed overflow exactly for results >= 43919,
   `uint16_to_uint8_overflow`. (C32)
4. **SHA-384/512 length** (sha2.hpp). The upper half of the 128 bit length is always zero: messages of 2^61 bytes and more are not
   hashed as FIPS 180-4 demands: `sha512_length_mod64`. (C07)
5. **xxhash_32( uint64_t )** (xxhash.hpp:97-111): different seeds give the same object, `xxhash_32_seeds_collide` (exactly which: `xxhash_32_seeds_exact`); also
   `murmur3_32_seeds_collide`, `fnv1a_32_seeds_collide`, `fnv1a_64_seeds_collide`. The documentation claims that distinct seeds
   give distinct objects. (C19)
6. **Byte seeds**: an all-zero key of sixteen (eight) bytes is the default of siphash_64 (siphash_32); hmac keys `k` and `k ++ [0]`
   coincide (as RFC 2104 has it); murmur3 ignores the tail of longer seeds. (C20)
7. **`to_chars`** of a digest of more than PTRDIFF_MAX / 2 bytes writes out of bounds: `to_chars_huge`. (C35)
8. **Equal floats**: `v + 0` turns -0.0 into +0.0 unless the rounding direction is downward: `zeros_differ_rounding_down`. (C27)
9. **`hash_append_range`** of an empty range feeds nothing, and without sizes neighbouring ranges are confused:
   `empty_range_feeds_nothing`, `undelimited_ranges_confused`. (C25, C26)
10. **xxhash_32** counts bytes in `size_t`; on a 32 bit platform the test `n_ >= 16` goes wrong after 2^32 bytes. (C13: the length
    must fit `size_t`.)
11. **Ambiguous overloads**: types with a `tag_invoke` that are also ranges, described, tuple-like or enumerations, described and
    tuple-like, described and range, unordered and of constant size are ambiguous: `not_hashable`. (C48)
12. **murmur3**: results after the first ignore the last incomplete block of the message, `murmur3_later_results_ignore_tail`; so calling
    `result` repeatedly does not "effectively extend the output" (hashing_bytes.adoc). (C53)
13. **Seeds**: "instances initialized by different seeds produce different hash values" and "different seed sequences produce differently
    initialized instances" (hashing_bytes.adoc) cannot hold: `integer_seeds_results_collide`, `byte_seeds_collide`. (C19, C20)
14. **MACs**: byte seeds of the untruncated digests are prefixes of the message; digests can be extended without the key:
    `length_extension`. hashing_bytes.adoc calls all algorithms "usable as MACs". (C51)
15. Documentation: `hash_append_sized_range` and unordered ranges are documented to call `hash_append( h, f, m )`, the code calls
    `hash_append_size`; "RIPEMD-128 is a truncated variant of RIPEMD-160" is false, and so are the four
    sentences of sha2.adoc that digests are obtained by truncating those of SHA-256 and SHA-512, `not_truncated` (C69: the initial values differ); that signalling NaNs
    are hashed as quiet ones is not documented (C58).
16. **get_integral_result on parts** (C49, C50): three aligned parts collide, `integral_result_windows_collide`; widening and
    narrowing back loses {0, 0x8003} (16/32 bits) and {0, 0x80000003} (32/64 bits). test/get_integral_result_4.cpp claims the
    opposite of two of these: it shifts a 32 bit `i` by 32 and 48 (undefined) where it means a 64 bit one; its one to two byte cases
    also run into the overflow of finding 3. test/get_integral_result_5.cpp samples 65536 values and misses the last collision.
17. **Hash flooding**: "Seeding using random values is useful for preventing hash flooding attacks" fails for fnv1a, murmur3 and
    xxhash_64: families of messages that collide whatever the seed, `seed_independent_collisions`, `murmur3_second_preimages`,
    `xxhash_64_second_preimages`. (C57)
18. **FNV-1a and long runs**: 2^21 times '|' hashes like the empty message with `fnv1a_32`, and no other byte does it earlier:
    `fnv1a_32_long_run`, `fnv1a_32_short_runs`. (C66)
19. **Unordered containers and collision resistance**: an unordered container is represented by a sum of 64 bit numbers, whatever the
    algorithm: with sha2_512 there are two different sets of twelve bytes that no program tells apart, `unordered_sets_collide`. (C73)
20. **Exceptions**: `hash_append` gives the basic guarantee only, the hash object has been fed a prefix of the message when an exception
    leaves it: `hash_append_interrupted`, `hash_append_not_rolled_back`. (C72)

## Properties

| property | status | modelled | proof | theorems |
|---|---|---|---|---|
| C01 | proved | histories of update/result on every class, nested hmac included | `update` refines a pure `absorb` on (chaining state, pending bytes, counter); `absorb` satisfies the append law; induction over the history | `chunking` |
| C02 | partial | the same, with null and non-null pointers | corollary of C01; refuted for SHA-2 at run time by a witness | `zero_length_update_partial`, `sha2_null_update_undefined`, `sha2_null_exact` |
| C03 | partial | all faults of the C++ substrate as outcomes of `M` | every step of the refinement produces `.ok`; witnesses for the two ways in which it is false | `no_undefined_behaviour_partial`, `sha2_null_update_undefined`, `sha2_null_exact`, `sha2_programs_exact`, `spooky2_wrap_fails_assertion`, `spooky2_wrap_exact`, `invalid_update_faults` |
| C04 | proved | md5.hpp: 64 source lines as a table | the table is checked line by line against the loop of RFC 1321; induction over steps and blocks; padding | `md5_rfc1321` |
| C05 | proved | sha1.hpp | same, against FIPS 180-4 section 6.1 | `sha1_fips180` |
| C06 | proved | sha2.hpp, 32 bit half | message schedule array vs. recursive W_t, induction over rounds | `sha256_fips180`, `sha224_fips180` |
| C07 | proved | sha2.hpp, 64 bit half | same; the length is written modulo 2^64 bits, so the theorem needs < 2^61 bytes; `sha512_length_mod64` says what happens otherwise | `sha512_fips180`, `sha384_fips180`, `sha512_224_fips180`, `sha512_256_fips180`, `sha512_length_mod64`, `sha512_padding_exact` |
| C08 | proved | ripemd.hpp | two lines as tables against the functions, orders and shifts of the paper | `ripemd160_paper` |
| C09 | proved | ripemd.hpp | same | `ripemd128_paper` |
| C10 | proved | siphash.hpp | straight line code against the paper (independently written loop) | `siphash64_key`, `siphash64_seed`, `siphash64_default` |
| C11 | proved | siphash.hpp | same | `siphash32_key`, `siphash32_seed`, `siphash32_default` |
| C12 | proved | xxhash.hpp | buffered code against the one-shot description in the XXH specification | `xxhash64_spec`, `xxhash64_default` |
| C13 | proved | xxhash.hpp | same | `xxhash32_spec`, `xxhash32_default` |
| C14 | proved | fnv1a.hpp | fold | `fnv1a_32_spec`, `fnv1a_64_spec` |
| C15 | proved | hmac.hpp over any block hash | generic proof over a lawful hash, instantiated ten times | `hmac_rfc2104`, `hmac_md5_rfc2104`, `hmac_sha1_rfc2104`, `hmac_ripemd160_rfc2104`, `hmac_ripemd128_rfc2104`, `hmac_sha256_rfc2104`, `hmac_sha224_rfc2104`, `hmac_sha512_rfc2104`, `hmac_sha384_rfc2104`, `hmac_sha512_224_rfc2104`, `hmac_sha512_256_rfc2104` |
| C16 | proved | histories with several result() calls | a history behaves as hashing the padded log of what went before | `repeated_result` |
| C17 | proved | constructors | case analysis | `seed_zero_is_default`, `empty_seed_is_default` |
| C18 | proved | constructors | equality of runs of two programs | `seed_is_update_and_result`, `byte_seed_is_update_and_result`, `siphash64_byte_seed`, `siphash32_byte_seed`, `fnv1a_seed_is_update`, `fnv1a_byte_seed_is_update` |
| C19 | partial | integer seed constructors | injectivity of the seeding maps and of `result`; colliding seeds as witnesses where it is false | `integer_seeds_distinct_partial`, `integer_seeds_same_upper_half_distinct_partial`, `xxhash_32_seeds_exact`, `murmur3_32_seeds_exact`, `digest_seeds_exact`, `digest_seeds_distinct`, `xxhash_32_seeds_collide`, `murmur3_32_seeds_collide`, `fnv1a_32_seeds_collide`, `fnv1a_64_seeds_collide`, `integer_seeds_results_collide`, `fnv1a_32_seeds_exact`, `fnv1a_64_seeds_exact` |
| C20 | partial | byte seed constructors | same | `keys_distinct_partial`, `digest_seeds_exact`, `digest_seeds_distinct`, `byte_seeds_collide`, `siphash_64_zero_key`, `siphash_32_zero_key`, `hmac_keys_collide`, `murmur3_32_seed_tail_ignored`, `murmur3_128_seed_tail_ignored`, `fnv1a_32_seeds_exact`, `fnv1a_64_seeds_exact` |
| C21 | proved | buffer members of every class | invariant of the buffer through the engine; reachability over arbitrary histories | `buffers_zero_after_result`, `buffers_after_byte_seed`, `buffer_holds_only_pending` |
| C22 | proved | all functions over `Env` | the refined machine does not mention `Env` except for the counter width | `platform_independent` |
| C23 | proved | `hashAppend` in constant evaluation and at run time | both refine "update with the message" | `fast_path_same` |
| C24 | proved | flavors | the message depends only on the layout the flavor fixes | `explicit_flavors_portable`, `explicit_messages_portable`, `native_flavor_not_portable`, `library_flavors`, `library_flavors_portable` |
| C25 | proved | `hashAppend` | induction over the type universe: messages are non-empty | `every_append_contributes`, `every_append_contributes_to_hash`, `empty_range_feeds_nothing` |
| C26 | proved | `hashAppend` on a recorder | messages are prefix-free: induction over the type universe | `messages_differ`, `different_objects_differ`, `undelimited_ranges_confused` |
| C27 | proved | bit-level IEEE 754 addition of zero | case analysis on sign/exponent/mantissa; witness for rounding downward | `equal_floats_hash_equally`, `equal_doubles_hash_equally`, `equal_objects_hash_equally`, `zeros_differ_rounding_down` |
| C28 | proved | hash_append_unordered_range | sum of hashes is commutative; permutation induction | `unordered_any_order` |
| C29 | proved | ranges of all kinds | induction over the relation `Same` | `container_kind_irrelevant` |
| C30 | proved | `hashAppend` over every algorithm | refinement to `update` with the message of Spec/Messages | `append_is_update_with_message`, `series_is_one_update`, `sha2_empty_vector_undefined`, `sha2_programs_exact`, `library_flavors` |
| C31 | proved | get_integral_result.hpp, 16 pairs of sizes | odd multipliers are invertible | `integral_result_same`, `integral_result_injective` |
| C32 | partial | narrowing conversions | counting fibres of a multiplication by an odd number and a shift; witness of the overflow | `integral_result_balanced_partial`, `uint16_to_uint8_overflow`, `uint16_to_uint8_wrapping` |
| C33 | proved | digests | first bytes, byte order | `integral_result_of_digest` |
| C34 | proved | digest.hpp comparison | list lemmas | `digest_eq_iff`, `digest_ne_iff`, `digest_of_array` |
| C35 | proved | to_chars, to_string, operator<< | list lemmas | `to_chars_writes_hex`, `to_chars_array`, `to_string_is_hex`, `to_string_injective`, `to_chars_huge` |
| C36 | proved | hmac constructors | case analysis | `hmac_seed_is_key`, `hmac_long_key`, `hmac_key_zeros`, `seed_zero_is_default`, `empty_seed_is_default` |
| C37 | proved | fnv1a state map on a fixed byte | Hull-Dobell theorem (proved here) | `fnv1a_32_full_period`, `fnv1a_64_full_period`, `fnv1a_32_differences_persist`, `fnv1a_64_differences_persist` |
| C38 | proved | state maps | every round has an inverse | `siphash_seeds_stay_different`, `siphash_keys_stay_different`, `spooky2_seeds_stay_different`, `xxhash_seeds_stay_different`, `xxhash64_short_results_differ`, `xxhash32_short_results_differ`, `murmur3_results_differ`, `fnv1a_results_differ` |
| C39 | proved | legacy/murmur3.hpp, legacy/spooky2.hpp | against the reference descriptions | `murmur3_32_reference`, `murmur3_32_default`, `murmur3_128_reference`, `murmur3_128_default`, `spooky2_reference`, `spooky2_default` |
| C40 | proved | constant tables | interval arithmetic on real sines and roots; integer roots | `md5_constants_are_sines`, `sha1_constants_are_roots`, `ripemd160_constants_are_roots`, `ripemd128_constants_are_roots`, `sha256_constants_are_roots`, `sha512_constants_are_roots`, `sha2_initial_values_are_roots`, `sha512t_initial_values`, `md_initial_values`, `siphash_initial_values`, `fnv_constants`, `ripemd_orders` |
| C41 | proved | `hashAppend` and operator== | induction over the type universe | `equal_objects_hash_equally` |
| C42 | proved | results of two runs | injectivity of one block step with the others fixed | `fnv1a_notices_byte`, `murmur3_32_notices_block`, `murmur3_128_notices_block`, `xxhash_64_notices_word`, `xxhash_64_misses_word`, `xxhash_32_notices_word`, `xxhash_32_notices_any_word`, `integers_never_collide` |
| C43 | proved | several objects, copies | the interpreter with copies equals separate interpreters | `objects_are_values`, `objects_are_values_any` |
| C44 | proved | example/hash_*.cpp | corollary of C30, C31 | `hash_function_object`, `hash_32_64_returns_result`, `size_t_of_result_injective` |
| C45 | proved | two-argument constructors | as C38, C39 | `murmur3_128_two_seeds`, `spooky2_128_two_seeds`, `murmur3_128_two_seeds_reference`, `spooky2_128_two_seeds_reference`, `murmur3_keys_results_differ`, `spooky2_keys_stay_different` |
| C46 | proved | example/hash2sum.cpp | induction over the pieces delivered by fread | `hash2sum_prints_hash`, `hash2sum_unknown_name` |
| C47 | proved | example/xxh128_from_xxh64.cpp | corollary of C12 | `xxhash_128_halves` |
| C48 | proved | constraints of do_hash_append | complete case analysis over the trait vector | `Overloads.overloads_match_ways`, `Overloads.modelled_overload`, `Overloads.not_hashable` |
| C49 | partial | get_integral_result.hpp | halves: the closed form `hi + lo * odd`; smaller parts: the complete value table (2^8 or 2^16 entries) evaluated by the kernel | `integral_result_halves_64`, `integral_result_halves_32`, `integral_result_half_distinct`, `integral_result_window_partial`, `integral_result_windows_collide` |
| C50 | partial | get_integral_result.hpp | value tables; for 32 and 64 bits a closed form and case analysis on the two low bits | `round_trip_partial`, `round_trip_16_32`, `round_trip_32_64`, `round_trip_8_16_undefined` |
| C51 | proved | the digests and fnv1a | two logs with the same length, chaining value and incomplete block stay so under every step; after padding the block is complete; the output functions of the untruncated digests are injective | `digest_determines_future`, `length_extension`, `fnv_result_determines_future`, `murmur3_result_determines_future`, `murmur3_extension` |
| C52 | proved | the digests | the refinement relation between the object and the log of bytes fixes every member, the cleared part of the buffer included; the representation of chaining values is a bijection | `digest_states_exact` |
| C53 | partial | the digests, murmur3 | the log of bytes with i paddings is an injective function of the message (the length is in the padding); for murmur3 result() leaves the chaining value and drops the incomplete block | `digest_extended_output_partial`, `hmac_extended_output_partial`, `murmur3_later_results_ignore_tail`, `fnv1a_32_differences_persist`, `fnv1a_64_differences_persist` |
| C54 | proved | murmur3 | only the length changes, by a block per call; the finalization is injective in the length | `murmur3_32_result_period`, `murmur3_128_result_period` |
| C55 | proved | any class with the interface of a hash algorithm; hmac< H > and hash_append over it | states up to the user's equivalence are an abstract machine that the class implements; then the refinement proofs of hash_append and hmac, which are over the interface; conversely a class that implements a machine meets the requirements | `user_append_is_update`, `user_streams`, `user_equal_objects`, `user_hmac`, `user_hmac_meets_requirements`, `library_meets_requirements` |
| C56 | proved | xxhash_32, xxhash_64 | the final mix is injective, so the first result determines the value added to the accumulators; the length is rounded up to whole blocks; pigeonhole | `xxhash_collisions_persist`, `xxhash_extended_output_collides` |
| C57 | proved | Model/Fnv1a, Model/Murmur3, Model/Xxhash and the specification machines | differences of words chosen through the bijective scrambling of a block so that they become the top bit and are then taken back, whatever the state; for FNV-1a linearity above the low byte and counting; then induction on k, and the refinement of the classes to the machines | `seed_independent_collisions`, `murmur3_second_preimages`, `xxhash_64_second_preimages` |
| C58 | proved | hash_append.hpp as modelled for C23-C30 | Spec/Parts.lean is the table of the documentation, one line per bullet, as a function from a call to a list of calls, and the equivalence it generates. A program feeds a stream of tokens computed from the abstract state (Lemmas/Parts.lean, expand_toks, by induction over the program from C30); messages shift over what was fed before (message_shift, mutual induction over types); so a call and its parts feed the same stream in every state | `hash_append_documented`, `same_calls_same_results`, `documented_down_to_updates`, `range_may_be_cut`, `grouping_not_hashed`, `element_hashes_exist`, `unordered_documented` |
| C59 | proved | padding, length, buffering and hmac of the models of the digests; messages of hash_append (C26) | Merkle–Damgård reduction: from the last block backwards, either an earlier pair of calls collides or the padded messages are the same; padding is injective (the length of the message is in the last block) | `digest_collisions`, `hmac_collisions`, `object_collisions` |
| C60 | proved | all classes | the refinement theorem between the model of each class and the object of Spec/Algorithms.lean, by induction over the history | `every_result`, `fnv_result_feeds_octet` |
| C61 | proved | the model as it is, run with a block function that also writes down the block it is applied to (Spec/Work.lean) | watched = unwatched by simulation; the watched engine is an instance of the same refinement; counts by induction on the history | `watched_update_same`, `watched_result_same`, `update_work`, `update_work_count`, `result_work`, `result_work_blocks`, `history_work`, `message_work`, `finish_bounds`, `work_linear` |
| C62 | proved | hash_append, every hash algorithm, get_integral_result<uint64_t> | `Spec/Closed.lean` lists which published function each class is to compute under which constructor (`Computes`) and the 64 bit number of a result; `objects_hash` composes C30 with the value of the first result, by induction over the objects (messages only depend on the numbers of the hashes of what was fed: `message_shift`, `message_port`); `object_hash` adds C04-C15 and C39, by cases over the classes, nested hmacs by induction; `chars_hash`, `uchars_hash` are the examples of the documentation | `objects_hash`, `object_hash`, `chars_hash`, `uchars_hash` |
| C63 | proved | programs with several objects (Model/Objects.lean), any algorithm | a schedule is a list of steps with their threads; `NoRace` is the C++ condition that no object changed by one thread is used by another. `threads_do_not_interfere` by induction over the schedule: a step only depends on and changes the objects it names (`runActs_congr`). One call is one step: the code of the library keeps no state outside of the object, so a finer interleaving of calls on different objects touches disjoint memory | `threads_do_not_interfere`, `schedules_agree` |
| C64 | proved | digest.hpp:20-84, 125-131 | a small language of statements over digest objects (`Digest.Op`) with the model's accessors; the specification reads the last write of a place off the statements in reverse order; induction on the sequence | `digest_is_array`, `digest_index_checked` |
| C65 | proved | all of Model/HashAppend.lean, with the algorithm as a variable | Spec/Updates.lean defines sequences of update calls, the number of calls by type, and related outcomes; induction on the type for the calls (Lemmas/Updates.lean), a relational induction (parametricity) for the rest; the bytes passed come from the refinement theorem applied to an algorithm that keeps a transcript | `append_only_updates`, `contiguous_object_one_update`, `contiguous_container_two_updates`, `append_parametric`, `wrapper_hashes_the_same` |
| C66 | proved | fnv1a model; Spec/FnvRuns.lean is the table of periods | the low k bits after a step depend one-to-one on the low k bits before it, for every k, so 2^k steps lead back modulo 2^k (induction on k) and the period of every orbit is a power of two; from the default state the exponent is settled for the 256 bytes by kernel evaluation | `fnv1a_32_runs_after`, `fnv1a_64_runs_after`, `fnv1a_32_runs`, `fnv1a_64_runs`, `fnv1a_32_short_runs`, `fnv1a_64_short_runs`, `fnv1a_32_long_run`, `fnv1a_64_long_run` |
| C67 | proved | fnv1a model; Spec/FnvBits.lean says when two programs are alike in k bits | xor and multiplication modulo 2^w commute with reduction modulo 2^k; induction on the program, with two widths and two primes at once | `fnv1a_32_low_bits`, `fnv1a_64_low_bits`, `fnv1a_32_parity`, `fnv1a_64_parity`, `fnv1a_32_64_agree` |
| C68 | proved | hmac model over any modelled digest | the abstract hmac machine is shown by induction on the history to be two machines; the refinement theorem carries it to the code | `hmac_is_two_objects` |
| C69 | partial | models and standards of C06, C07, C09 | false: refuted on the empty message by evaluation of the model; the true part (the base algorithm from another initial value, truncated, in every history and after every constructor) by induction on the history | `truncated_variants_partial`, `not_truncated` |
| C70 | proved | xxhash, murmur3, hash_append of integers | one-to-one (C42; for xxhash_32 each of the four lanes is a chain of one-to-one steps and the lanes are added) on a finite set is onto; counting residues | `murmur3_32_block_permutes`, `xxhash_32_word_permutes`, `xxhash_64_word_permutes`, `murmur3_128_block_permutes`, `xxhash_64_integers_onto`, `xxhash_32_integers_onto`, `murmur3_32_integers_onto`, `integers_fill_buckets_evenly`, `integers_narrowed_evenly` |
| C71 | proved | Ty.triviallyComparable, endianIndependent, contiguouslyHashable, sizeOf (Model/Types.lean), hashAppend, memcmp | induction over types: the storage of an object (Spec/Traits.lean, separate from the model's object representation) is its message in native byte order, which can be decoded; a type of which the trait says independent consists of bytes; for the converse a witness (1, -0.0, an array of copies of it) for each built-in type | `comparable_truth`, `comparable_memcmp`, `independent_truth`, `contiguous_truth`, `contiguous_calls`, `scalar_comparable_exact`, `scalar_independent_exact`, `built_in_contiguous_exact` |
| C72 | proved | hash_append run with a wrapper class that records the calls of update (Spec/Exceptions.lean); a copy has a record of its own | the wrapper implements the machine of the algorithm paired with the bytes fed, so append_feeds applies to it; a prefix of the calls passes a prefix of the message; replace_ok | `hash_append_interrupted`, `hash_append_not_rolled_back` |
| C73 | proved | elementNumber: the last result of before; hash_append( h, f, x ); h.result() as a number (Spec/Unordered.lean); bytes fed as in C72 | message of the container by runs_expand; injectivity of the 8 and size bytes; pigeonhole over the C(256,12) > 2^64 (C(256,6) > 6 * 2^32 + 1) sets of bytes | `unordered_feeds_sum`, `unordered_collisions_exact`, `unordered_common_element`, `unordered_sets_collide`, `unordered_sets_collide_32` |
| C74 | proved | benchmark/unordered.cpp, benchmark/keys.cpp, hash_append_range | decoding from the last element backwards; no element has an empty message (C25); the rest from C44 | `range_tells_apart`, `different_ranges_differ`, `benchmark_function_object`, `benchmark_string`, `benchmark_other_keys`, `buffer_benchmark` |
| C75 | proved | constructors of legacy/murmur3.hpp and legacy/spooky2.hpp | equality of the constructed objects, hence of the runs of all programs | `murmur3_32_short_key`, `murmur3_32_long_key`, `murmur3_32_wide_seed`, `murmur3_128_short_key`, `murmur3_128_padded_key`, `murmur3_128_long_key`, `spooky2_128_short_key`, `spooky2_128_padded_key`, `spooky2_128_long_key` |
| C76 | proved | Model/Benchmark.lean (average), Model/Fnv.lean, Model/Integral.lean | The results over the period are every value once (C37); the fibres of get_integral_result are equally large (C32); the sum over all values of a signed type is minus half their number, by y -> ~y. | `fnv1a_32_random_numbers`, `fnv1a_64_random_numbers`, `average_benchmark` |
| C77 | proved | Model/Fnv.lean, Model/HashAppend.lean | The difference of two states after n bytes is p h_n, h_n a sum of powers of the prime p = 2^40 + 435 (2^24 + 403) with coefficients of at most 510; before the last byte it is less than 256. A relation x_0 + x_1 p + ... + x_5 p^5 = 0 modulo 2^64 with such coefficients and x_0 not 0 does not exist: the x_k are digits, to the base 435, of a multiple of 2^40, and the 7258 multiples with their 2^18 expansions are searched by the kernel (proved complete). | `fnv1a_64_notices_six_bytes`, `fnv1a_32_notices_three_bytes`, `fnv1a_integers_never_collide`, `fnv1a_window_exact`, `fnv1a_integers_collide` |
| C78 | proved | the tail of xxhash_32 (and the rest of the six hash functions), hash_append of integers | The states after the first of two bytes differ by a multiple of PRIME32_5; after the rotation by one of four values, and the kernel computes for the 255 possible differences of bytes that none of these is the difference of two second bytes times PRIME32_5. The other rows of the table are C42 and C77; for the gaps pairs of integers with the same hash value, found by a search outside, are checked in the kernel. | `integer_table`, `small_objects_never_collide`, `xxhash_32_notices_two_bytes` |

## Testing the theorems against wrong programs

A script applies an edit to a scratch copy of the model, rebuilds, replaces the body of every declaration that fails by an
admitted one, repeats until the build ends, and then asks `#print axioms` which theorems of the manifest depend on an admitted
proof. `seeded/LOG.jsonl` has one line per attempt.
