{"id": "C01", "title": "Splitting the input does not matter", "statement": "For every hash algorithm, two sequences of update() and result() calls on equally constructed objects that feed the same bytes in the same order between the same result() calls return the same results, however the bytes are split over update() calls.", "quantifier": "all algorithms (MD5, SHA-1, the six SHA-2, RIPEMD-128/160, SipHash 32/64, xxHash 32/64, FNV-1a 32/64, every HMAC), all constructors, all histories of update/result of any length, all chunkings; calls update( nullptr, 0 ) on SHA-2 classes at run time are the subject of C02", "why_tests_cant": "The number of chunkings is exponential in the message length and the buffering code has different paths for every buffer fill level; tests try a handful.", "anchors": ["include/boost/hash2/md5.hpp: md5_128::update/result", "include/boost/hash2/sha1.hpp: sha1_160::update/result", "include/boost/hash2/sha2.hpp: sha2_base::update, sha2_*::result", "include/boost/hash2/ripemd.hpp: ripemd_128/160::update/result", "include/boost/hash2/siphash.hpp: siphash_64/32::update/result", "include/boost/hash2/xxhash.hpp: xxhash_32/64::update/result", "include/boost/hash2/fnv1a.hpp: fnv1a::update/result", "include/boost/hash2/hmac.hpp: hmac::update/result"]}
{"id": "C02", "title": "A zero-length update is a no-op", "statement": "update(p,0) never changes any later result, whether or not p is null, for every algorithm and every prior history.", "quantifier": "all algorithms, all reachable states, all pointers including null", "why_tests_cant": "Every buffer fill level and every history would have to be tried, including null pointers handed over by empty containers.", "anchors": ["include/boost/hash2/md5.hpp: md5_128::update/result", "include/boost/hash2/sha1.hpp: sha1_160::update/result", "include/boost/hash2/sha2.hpp: sha2_base::update, sha2_*::result", "include/boost/hash2/ripemd.hpp: ripemd_128/160::update/result", "include/boost/hash2/siphash.hpp: siphash_64/32::update/result", "include/boost/hash2/xxhash.hpp: xxhash_32/64::update/result", "include/boost/hash2/fnv1a.hpp: fnv1a::update/result"]}
{"id": "C03", "title": "No undefined behaviour, no failed assertion", "statement": "For every history of valid calls (p points to at least n readable bytes, or n is 0) no call reads or writes out of bounds, passes a null pointer to memcpy, or trips a BOOST_ASSERT.", "quantifier": "all algorithms, all histories of valid calls, total lengths including those that wrap the internal byte counters", "why_tests_cant": "Absence of UB over all histories, including inputs beyond 4 GiB/16 EiB, cannot be sampled.", "anchors": ["include/boost/hash2/md5.hpp: md5_128::update/result", "include/boost/hash2/sha1.hpp: sha1_160::update/result", "include/boost/hash2/sha2.hpp: sha2_base::update, sha2_*::result", "include/boost/hash2/ripemd.hpp: ripemd_128/160::update/result", "include/boost/hash2/siphash.hpp: siphash_64/32::update/result", "include/boost/hash2/xxhash.hpp: xxhash_32/64::update/result", "include/boost/hash2/fnv1a.hpp: fnv1a::update/result", "include/boost/hash2/detail/memcpy.hpp", "include/boost/hash2/detail/memset.hpp", "include/boost/hash2/detail/read.hpp"]}
{"id": "C04", "title": "md5_128 computes RFC 1321 MD5", "statement": "The first result() of a default constructed md5_128 is the RFC 1321 MD5 digest of the concatenation of all updated bytes.", "quantifier": "all messages of any length, all chunkings, both byte orders, constant evaluation or not", "why_tests_cant": "2^512 blocks; a wrong entry in the step table or padding boundary can hide from a few vectors.", "anchors": ["include/boost/hash2/md5.hpp: md5_128"]}
{"id": "C05", "title": "sha1_160 computes FIPS 180-4 SHA-1", "statement": "The first result() of a default constructed sha1_160 is the SHA-1 digest of the concatenation of all updated bytes.", "quantifier": "all messages shorter than 2^61 bytes (the domain of SHA-1), all chunkings", "why_tests_cant": "as for MD5", "anchors": ["include/boost/hash2/sha1.hpp: sha1_160"]}
{"id": "C06", "title": "sha2_256 and sha2_224 compute FIPS 180-4", "statement": "The first result() of a default constructed sha2_256 / sha2_224 is the FIPS 180-4 SHA-256 / SHA-224 digest of the concatenation of all updated bytes.", "quantifier": "all messages shorter than 2^61 bytes, all chunkings; calls update( nullptr, 0 ) on SHA-2 classes at run time are the subject of C02", "why_tests_cant": "as for MD5", "anchors": ["include/boost/hash2/sha2.hpp: sha2_256_base::transform, sha2_256, sha2_224"]}
{"id": "C07", "title": "sha2_512, sha2_384, sha2_512_224, sha2_512_256 compute FIPS 180-4", "statement": "The first result() of a default constructed sha2_512, sha2_384, sha2_512_224 or sha2_512_256 is the FIPS 180-4 digest of the concatenation of all updated bytes, if these are fewer than 2^61. For 2^61 bytes or more it is the same function with the 128 bit length field reduced modulo 2^64, and then the padded message is never the one FIPS 180-4 prescribes.", "quantifier": "all messages, all chunkings; calls update( nullptr, 0 ) at run time are the subject of C02", "why_tests_cant": "as for MD5; the length boundary is far beyond what a test can feed", "anchors": ["include/boost/hash2/sha2.hpp: sha2_512_base::transform, sha2_512, sha2_384, sha2_512_224, sha2_512_256"]}
{"id": "C08", "title": "ripemd_160 computes RIPEMD-160", "statement": "The first result() of a default constructed ripemd_160 is the RIPEMD-160 digest (Dobbertin, Bosselaers, Preneel 1996) of the updated bytes.", "quantifier": "all messages, all chunkings", "why_tests_cant": "as for MD5; 160 hand-unrolled steps", "anchors": ["include/boost/hash2/ripemd.hpp: ripemd_160"]}
{"id": "C09", "title": "ripemd_128 computes RIPEMD-128", "statement": "The first result() of a default constructed ripemd_128 is the RIPEMD-128 digest of the updated bytes.", "quantifier": "all messages, all chunkings", "why_tests_cant": "as for MD5; 128 hand-unrolled steps", "anchors": ["include/boost/hash2/ripemd.hpp: ripemd_128"]}
{"id": "C10", "title": "siphash_64 computes SipHash-2-4", "statement": "The first result() of siphash_64 constructed from a 16 byte key is SipHash-2-4 of the updated bytes under that key; of a default constructed one, under the zero key; of one constructed from an integer k, under the key (k, 0).", "quantifier": "all keys, all messages, all chunkings", "why_tests_cant": "All keys and messages.", "anchors": ["include/boost/hash2/siphash.hpp: siphash_64"]}
{"id": "C11", "title": "siphash_32 computes HalfSipHash-2-4", "statement": "The first result() of siphash_32 constructed from an 8 byte key (or the same key as an integer) is HalfSipHash-2-4-32 of the updated bytes under that key.", "quantifier": "all keys, all messages, all chunkings", "why_tests_cant": "All keys and messages.", "anchors": ["include/boost/hash2/siphash.hpp: siphash_32"]}
{"id": "C12", "title": "xxhash_64 computes XXH64", "statement": "The first result() of xxhash_64(seed) is XXH64(seed) of the updated bytes.", "quantifier": "all 64-bit seeds, all messages shorter than 2^64 bytes, all chunkings", "why_tests_cant": "All seeds, messages and tail lengths.", "anchors": ["include/boost/hash2/xxhash.hpp: xxhash_64"]}
{"id": "C13", "title": "xxhash_32 computes XXH32", "statement": "The first result() of xxhash_32(seed) with seed below 2^32 is XXH32(seed) of the updated bytes.", "quantifier": "all 32-bit seeds, all messages that fit the counter, all chunkings", "why_tests_cant": "All seeds, messages and tail lengths.", "anchors": ["include/boost/hash2/xxhash.hpp: xxhash_32"]}
{"id": "C14", "title": "fnv1a computes FNV-1a", "statement": "The first result() of default constructed fnv1a_32 / fnv1a_64 is FNV-1a of the updated bytes.", "quantifier": "all messages, all chunkings", "why_tests_cant": "All messages.", "anchors": ["include/boost/hash2/fnv1a.hpp"]}
{"id": "C15", "title": "hmac<H> computes RFC 2104 HMAC", "statement": "For every algorithm H in the library with a block_size, the first result() of hmac<H>(key) is HMAC-H(key, message) of RFC 2104 for the concatenation of all updated bytes; the key may be shorter than, equal to or longer than the block.", "quantifier": "all H, all keys of any length, all messages, all chunkings; calls update( nullptr, 0 ) on SHA-2 classes at run time are the subject of C02; for the SHA-512 family fewer than 2^61 bytes in all (C07)", "why_tests_cant": "All keys and messages, key length boundary, eight algorithms.", "anchors": ["include/boost/hash2/hmac.hpp: hmac", "include/boost/hash2/md5.hpp: hmac_md5_128", "include/boost/hash2/sha2.hpp: hmac_sha2_*"]}
{"id": "C16", "title": "Repeated result() calls extend the message", "statement": "For MD5, SHA-1, SHA-2 and RIPEMD, result() may be called repeatedly and interleaved with update(); every result is the digest of the bytes fed so far in which each earlier result() call counts as having appended the standard padding of the message at that point.", "quantifier": "all histories of update/result; calls update( nullptr, 0 ) on SHA-2 classes at run time are the subject of C02", "why_tests_cant": "Unbounded interleavings.", "anchors": ["include/boost/hash2/md5.hpp: md5_128::update/result", "include/boost/hash2/sha1.hpp: sha1_160::update/result", "include/boost/hash2/sha2.hpp: sha2_base::update, sha2_*::result", "include/boost/hash2/ripemd.hpp: ripemd_128/160::update/result", "include/boost/hash2/siphash.hpp: siphash_64/32::update/result", "include/boost/hash2/xxhash.hpp: xxhash_32/64::update/result", "include/boost/hash2/fnv1a.hpp: fnv1a::update/result"]}
{"id": "C17", "title": "Seed 0 and the empty seed are the default", "statement": "Constructing from the integer 0 or from an empty byte sequence (even null) gives an object that behaves exactly like a default constructed one.", "quantifier": "all algorithms, all later histories", "why_tests_cant": "Equality of behaviour under all later histories.", "anchors": ["include/boost/hash2/md5.hpp: md5_128(uint64_t), md5_128(p,n)", "include/boost/hash2/siphash.hpp", "include/boost/hash2/xxhash.hpp", "include/boost/hash2/fnv1a.hpp", "include/boost/hash2/hmac.hpp"]}
{"id": "C18", "title": "Seeding has the documented effect", "statement": "For MD5, SHA-1, SHA-2 and RIPEMD a non-zero integer seed s behaves like update with the 8 little-endian bytes of s followed by a discarded result() (FNV-1a: without the result()); a non-empty byte seed likewise, for xxhash and siphash too, except that siphash takes 16 (8) bytes as the key. (Integer seeds of siphash and xxhash: C10 to C13; legacy algorithms: C39, C45, C75; hmac takes the bytes as the key: C15, C36.)", "quantifier": "all seeds, all later histories", "why_tests_cant": "All seeds and histories.", "anchors": ["include/boost/hash2/md5.hpp", "include/boost/hash2/sha1.hpp", "include/boost/hash2/sha2.hpp", "include/boost/hash2/ripemd.hpp", "include/boost/hash2/fnv1a.hpp", "include/boost/hash2/siphash.hpp", "include/boost/hash2/xxhash.hpp", "include/boost/hash2/hmac.hpp"]}
{"id": "C19", "title": "Distinct integer seeds give distinct instances", "statement": "Constructing from two different integers initialises the object differently ('distinct seed values cause the internal state to be initialized differently').", "quantifier": "all pairs of 64-bit seeds", "why_tests_cant": "2^127 pairs.", "anchors": ["include/boost/hash2/siphash.hpp", "include/boost/hash2/xxhash.hpp: xxhash_32(uint64_t)", "include/boost/hash2/fnv1a.hpp: fnv1a(uint64_t)", "include/boost/hash2/hmac.hpp"]}
{"id": "C20", "title": "Distinct byte seeds give distinct instances", "statement": "Constructing from two different byte sequences initialises the object differently ('different seed sequences produce differently initialized instances').", "quantifier": "all pairs of byte sequences", "why_tests_cant": "Infinitely many pairs.", "anchors": ["include/boost/hash2/siphash.hpp: siphash_64(p,n)", "include/boost/hash2/hmac.hpp: init", "include/boost/hash2/fnv1a.hpp"]}
{"id": "C21", "title": "No plaintext is left behind", "statement": "After result(), and after construction from a byte seed, the object's buffer contains only zero bytes, so no message or key byte is retained verbatim.", "quantifier": "all algorithms with a buffer, all histories ending in result()", "why_tests_cant": "A leak could occur at one fill level only.", "anchors": ["include/boost/hash2/md5.hpp: md5_128::update/result", "include/boost/hash2/sha1.hpp: sha1_160::update/result", "include/boost/hash2/sha2.hpp: sha2_base::update, sha2_*::result", "include/boost/hash2/ripemd.hpp: ripemd_128/160::update/result", "include/boost/hash2/siphash.hpp: siphash_64/32::update/result", "include/boost/hash2/xxhash.hpp: xxhash_32/64::update/result", "include/boost/hash2/fnv1a.hpp: fnv1a::update/result"]}
{"id": "C22", "title": "Results do not depend on the platform", "statement": "For every algorithm and every history the results are the same on little- and big-endian machines, in constant evaluation and at run time, in C++11 and later, by compilers with and without a builtin is_constant_evaluated, and with 32- or 64-bit size_t (for counters that have not wrapped).", "quantifier": "all histories, all platforms", "why_tests_cant": "No test machine has all the byte orders and word sizes.", "anchors": ["include/boost/hash2/detail/read.hpp", "include/boost/hash2/detail/write.hpp", "include/boost/hash2/detail/memcpy.hpp", "include/boost/hash2/detail/memset.hpp", "include/boost/hash2/detail/is_constant_evaluated.hpp", "include/boost/hash2/detail/config.hpp"]}
{"id": "C23", "title": "The contiguous fast path changes nothing", "statement": "hash_append of a contiguously hashable object or range (one update with the object's memory) feeds the algorithm the same bytes as the element-by-element path, so constant evaluation and run time agree, and compilers that choose between the two by the preprocessor.", "quantifier": "all types of the universe, all values, all algorithms, all flavors; at run time SHA-2 (and HMAC over it) must not be handed the null data() of an empty container (C03)", "why_tests_cant": "All types and values; the fast path is chosen at compile time per platform.", "anchors": ["include/boost/hash2/hash_append.hpp: hash_append, hash_append_range_", "include/boost/hash2/is_contiguously_hashable.hpp"]}
{"id": "C24", "title": "Explicit-endian flavors are portable", "statement": "With little_endian_flavor or big_endian_flavor, the bytes fed by hash_append for a value without pointers are the same on every platform.", "quantifier": "all pointer-free types and values, both byte orders, both size_t widths; NaNs only if no platform's addition canonicalises them", "why_tests_cant": "needs all platforms", "anchors": ["include/boost/hash2/flavor.hpp", "include/boost/hash2/hash_append.hpp", "include/boost/hash2/detail/write.hpp: write"]}
{"id": "C25", "title": "Every hash_append contributes", "statement": "hash_append of any value feeds at least one byte to the algorithm, including empty containers, empty arrays, empty tuples and described classes without members.", "quantifier": "all types and values, except user classes whose own tag_invoke feeds nothing or a bare hash_append_range", "why_tests_cant": "infinitely many types", "anchors": ["include/boost/hash2/hash_append.hpp: do_hash_append"]}
{"id": "C26", "title": "Message injectivity", "statement": "Appending different values of the same type feeds different bytes, and this survives concatenation: if the bytes fed for v after a prefix p equal those for v' after p', then v = v' (up to signed zero and NaN payload quieting) and p = p'. Sequences of different sizes are therefore never confused, nor are ([1],[2,3]) and ([1,2],[3]).", "quantifier": "all types without unordered containers and without user tag_invoke functions that feed a range without its size, all values with sizes below 2^(bits of size_type), all prefixes", "why_tests_cant": "All pairs of values.", "anchors": ["include/boost/hash2/hash_append.hpp"]}
{"id": "C27", "title": "Equal floating point values hash equally", "statement": "Values that compare equal (in particular +0.0 and -0.0, also nested in containers) feed the same bytes.", "quantifier": "all float/double bit patterns, bare and nested; every rounding mode but FE_DOWNWARD", "why_tests_cant": "2^64 bit patterns, in every nesting", "anchors": ["include/boost/hash2/hash_append.hpp: floating point"]}
{"id": "C28", "title": "Unordered ranges ignore order", "statement": "hash_append_unordered_range, and hash_append of an unordered container, lead to the same state for every permutation of the elements.", "quantifier": "all algorithms, all prior states, all element types and values, all permutations", "why_tests_cant": "n! permutations", "anchors": ["include/boost/hash2/hash_append.hpp: hash_append_unordered_range"]}
{"id": "C29", "title": "Container kind does not matter", "statement": "A sequence of the same elements contributes the same bytes whether held in a contiguous container, a random access container or a forward-only one; constant-size sequences likewise, and a C array equals a constant-size sequence.", "quantifier": "all element types and values", "why_tests_cant": "all types and values", "anchors": ["include/boost/hash2/hash_append.hpp: hash_append_sized_range_, do_hash_append"]}
{"id": "C30", "title": "hash_append is hashing the concatenated message", "statement": "Hashing a series of objects with hash_append gives the same result as one update() with the concatenation of the objects' messages.", "quantifier": "all algorithms, all lists of objects, all prior histories; SHA-2 (and HMAC over it) at run time must not be handed a null data() in the middle of a block (C03)", "why_tests_cant": "all objects", "anchors": ["include/boost/hash2/hash_append.hpp"]}
{"id": "C31", "title": "get_integral_result is exact or injective when not narrowing", "statement": "get_integral_result<T> returns the result itself when the widths agree and is injective when T is wider.", "quantifier": "all unsigned R and integral T with sizeof(R) <= sizeof(T)", "why_tests_cant": "2^64 values", "anchors": ["include/boost/hash2/get_integral_result.hpp"]}
{"id": "C32", "title": "get_integral_result is balanced when narrowing", "statement": "When T is narrower than R every value of T is produced by exactly 2^(bits R - bits T) values of R, and no signed overflow happens.", "quantifier": "all unsigned R and integral T with sizeof(R) > sizeof(T)", "why_tests_cant": "2^64 values", "anchors": ["include/boost/hash2/get_integral_result.hpp"]}
{"id": "C33", "title": "get_integral_result of a digest", "statement": "For array-like results get_integral_result is the little-endian value of the first 8 bytes, truncated to T.", "quantifier": "all digests, all T", "why_tests_cant": "all digests", "anchors": ["include/boost/hash2/get_integral_result.hpp", "include/boost/hash2/detail/read.hpp"]}
{"id": "C34", "title": "digest equality", "statement": "a == b holds exactly when all bytes are equal, a != b is its negation, in constant evaluation and at run time.", "quantifier": "all N, all digests", "why_tests_cant": "256^N pairs", "anchors": ["include/boost/hash2/digest.hpp", "include/boost/hash2/detail/memcmp.hpp"]}
{"id": "C35", "title": "to_chars writes lowercase hex within bounds", "statement": "to_chars(v, first, last) returns null and writes nothing if there is less room than 2N characters, else writes exactly the 2N lowercase hex digits and returns first+2N; the array overload adds a terminating zero; to_string is the 2N digits; different digests give different strings.", "quantifier": "all N of which 2N is a std::ptrdiff_t, all digests, all buffer sizes", "why_tests_cant": "all digests and sizes", "anchors": ["include/boost/hash2/digest.hpp: to_chars, to_string"]}
{"id": "C36", "title": "HMAC key normalisation", "statement": "hmac<H> constructed from a key longer than the block equals hmac<H> constructed from H(key); keys padded with zero bytes up to the block size are equivalent; the default and zero-integer constructions use the empty key; an integer seed is the key of its 8 little-endian bytes.", "quantifier": "all H, all keys", "why_tests_cant": "all keys", "anchors": ["include/boost/hash2/hmac.hpp: init"]}
{"id": "C37", "title": "FNV-1a result() sequence has full period", "statement": "Successive result() calls with no update in between return pairwise distinct values for 2^32 (2^64) calls; every update is a bijection of the state.", "quantifier": "all states, all messages", "why_tests_cant": "2^64 calls", "anchors": ["include/boost/hash2/fnv1a.hpp: result, update"]}
{"id": "C38", "title": "Different keys stay different", "statement": "Two siphash objects (two xxhash_64 objects) constructed from different integer seeds keep different states under any common sequence of update calls; for messages shorter than one block, results of xxhash_64 objects with distinct seeds are distinct.", "quantifier": "all seed pairs, all messages", "why_tests_cant": "all pairs and messages", "anchors": ["include/boost/hash2/siphash.hpp", "include/boost/hash2/xxhash.hpp"]}
{"id": "C39", "title": "murmur3_32, murmur3_128 and spooky2_128 compute their reference functions", "statement": "The first result() of the legacy algorithms equals MurmurHash3_x86_32, MurmurHash3_x64_128 and SpookyHash V2 of the updated bytes under the integer seed.", "quantifier": "all seeds, all messages that fit the counter, all chunkings", "why_tests_cant": "all seeds and messages", "anchors": ["include/boost/hash2/legacy/murmur3.hpp", "include/boost/hash2/legacy/spooky2.hpp"]}
{"id": "C40", "title": "The tables are the standard ones", "statement": "The constants in the code are the ones the standards define by formula: SHA-2 round constants are the fractional parts of cube roots of the first primes, initial values those of square roots, SHA-512/t initial values are the SHA-512 generation function's output, SHA-1 and RIPEMD constants are scaled roots, MD5's are scaled sines.", "quantifier": "all table entries", "why_tests_cant": "A copied test table repeats the same typo; the defining formula is independent.", "anchors": ["include/boost/hash2/sha2.hpp: sha2_256_constants, sha2_512_constants, init", "include/boost/hash2/md5.hpp: transform", "include/boost/hash2/sha1.hpp", "include/boost/hash2/ripemd.hpp"]}
{"id": "C41", "title": "Equal objects hash equally", "statement": "Two objects of one type that compare equal with operator== (floating point zeros of either sign, unordered containers holding the same elements in another order, at any depth) lead hash_append to the same results, whatever was hashed before and whatever follows.", "quantifier": "all algorithms, all types of the universe, all pairs of equal values, all programs around them", "why_tests_cant": "pairs of values, nesting depth and surrounding calls are unbounded", "anchors": ["include/boost/hash2/hash_append.hpp: hash_append, detail::do_hash_append"]}
{"id": "C42", "title": "A change in one place is always noticed", "statement": "For the hash functions that are built from one-to-one steps, two messages of the same length that differ in one place only never have the same hash value, whatever the seed, the splits into update calls and the platform: FNV-1a when one byte differs; MurmurHash3 (32 and 128 bits) when only bytes of one 4 or 16 byte block differ; xxhash_32 when only bytes of one aligned 4 byte word, or one of the last 1 to 3 bytes, differ (wherever, as long as the byte count fits size_t); xxhash_64 when only bytes of one word of the last incomplete stripe differ, so for every message of less than 32 bytes (for longer messages it is false, and a collision is given). Consequently two different integers never collide under hash_append with xxhash_64 (1, 4 and 8 byte integers), xxhash_32 (1, 4), murmur3_32 (1, 2, 4), murmur3_128 (all) and fnv1a (1).", "quantifier": "all seeds and byte seeds, all pairs of messages of any length that differ only in one unit, all splits, all platforms; all pairs of different integers, all flavors", "why_tests_cant": "The number of pairs of 8 byte keys is 2^127 and the claim is about every one of them and every seed; a single wrong shift or an even multiplier would make a few pairs collide and no test notice.", "anchors": ["include/boost/hash2/xxhash.hpp: xxhash_32, xxhash_64", "include/boost/hash2/murmur3.hpp: murmur3_32, murmur3_128", "include/boost/hash2/fnv1a.hpp: fnv1a_32, fnv1a_64", "include/boost/hash2/hash_append.hpp: do_hash_append (integral)"]}
{"id": "C43", "title": "copies are equivalent and independent", "statement": "Hash objects are values: in a program with any number of objects of a class, constructed, copied and assigned at any time and used in any interleaving, every result() returns what it returns in a program that consists only of the history of that object (through the object it was copied from). A copy is equivalent to the original and later calls on one do not affect the other.", "quantifier": "all algorithms, all programs over any number of objects with copies and assignments, all platforms", "why_tests_cant": "the interleavings and copy points of programs are unbounded", "anchors": ["doc/hash2/hashing_bytes.adoc:111-115", "include/boost/hash2/hmac.hpp", "include/boost/hash2/md5.hpp"]}
{"id": "C44", "title": "hash function objects for unordered containers", "statement": "The function objects built from a hash algorithm in the documentation's examples return for every key the same std::size_t on every call, whether the seeded object is kept and copied or made anew; equal keys get equal values; the value is the integral result of the hash of the key's message; with hash_32_64 it is the result bit for bit.", "quantifier": "all algorithms, seeds, key types and keys (whose message can be appended without the SHA-2 null pointer defect of C03), call sequences, platforms", "why_tests_cant": "keys, types and call sequences are unbounded", "anchors": ["example/hash_with_any_seed.cpp", "example/hash_without_seed.cpp", "example/hash_with_uint64_seed.cpp", "example/hash_with_byte_seed.cpp", "example/hash_32_64.cpp"]}
{"id": "C45", "title": "constructors with two seeds", "statement": "murmur3_128(k1,k2) and spooky2_128(k1,k2) are the reference algorithms started with these two seeds, the same objects as made from the 16 little endian bytes of k1,k2; different keys of up to 16 bytes of the same size (so different pairs) never give the same result of murmur3 in any common program, nor leave equal spooky2 objects.", "quantifier": "all pairs of seeds, all messages and chunkings, all later programs, all platforms; spooky2 while its byte counter does not wrap", "why_tests_cant": "2^128 keys and all messages", "anchors": ["include/boost/hash2/legacy/murmur3.hpp", "include/boost/hash2/legacy/spooky2.hpp"]}
{"id": "C46", "title": "hash2sum prints the standard hash of each file", "statement": "Called with one of its ten names the example program hash2sum (and md5sum) prints, for every file, the hexadecimal digest of the file's contents by the algorithm of that name, however fread splits the contents; with another name it prints no hash.", "quantifier": "all files, all ways fread delivers them, all platforms", "why_tests_cant": "files and read patterns are unbounded", "anchors": ["example/hash2sum.cpp", "example/md5sum.cpp"]}
{"id": "C47", "title": "xxhash_128 from xxhash_64", "statement": "The example class xxhash_128 returns 16 bytes: XXH64 of the message, then the second result() of the same object, each least significant byte first, on every platform.", "quantifier": "all seeds, messages, chunkings, platforms", "why_tests_cant": "unbounded messages", "anchors": ["example/xxh128_from_xxh64.cpp"]}
{"id": "C48", "title": "one overload for every hashable type", "statement": "For every combination of type traits as many do_hash_append overloads are viable as there are documented ways to hash the type, so hash_append of a type with exactly one way compiles and uses that way, and types with none or several are rejected rather than hashed in a silently chosen way.", "quantifier": "all combinations of trait answers a type can have", "why_tests_cant": "types are unbounded; tests instantiate a few", "anchors": ["include/boost/hash2/hash_append.hpp:165-404", "include/boost/hash2/has_constant_size.hpp", "include/boost/hash2/detail/has_tag_invoke.hpp"]}
{"id": "C49", "title": "narrowing keeps the parts of a result apart", "statement": "get_integral_result<T>(r) for a narrower T depends on every part of r: two values that differ only in one aligned part of the size of T and are zero elsewhere (for half-size T: whatever they are elsewhere) have different results.", "quantifier": "all pairs of sizes, all aligned parts, all values of the part (and, for half-size T, of the rest)", "why_tests_cant": "2^32 values per part and 2^64 values of the rest; the tests that enumerate parts shift out of range and so do not test what they claim", "anchors": ["include/boost/hash2/get_integral_result.hpp:24-120", "test/get_integral_result_4.cpp"]}
{"id": "C50", "title": "widening and narrowing back distinguishes values", "statement": "Converting an integer result to a wider integer with get_integral_result and back to the original size maps different values to different values.", "quantifier": "all pairs of sizes, all pairs of values", "why_tests_cant": "2^32 values; get_integral_result_5 samples 65536 of them and misses the only collision", "anchors": ["include/boost/hash2/get_integral_result.hpp:24-120", "test/get_integral_result_4.cpp", "test/get_integral_result_5.cpp"]}
{"id": "C51", "title": "a full-state digest and the byte count determine everything that follows", "statement": "For md5_128, sha1_160, sha2_256, sha2_512, ripemd_128 and ripemd_160: two objects that have processed the same number of bytes and return the same digest return the same results ever after, whatever their seeds and earlier calls; in particular the digest of m + padding + x is a function of the digest of m, the number of bytes processed and x (so a seeded digest is no MAC, and nothing but the digest and the count need be kept to resume). For fnv1a the result alone suffices. For murmur3_32 and murmur3_128 two objects with the same count, the same incomplete block and the same next result behave alike from then on (even before that result is taken), so the hash of m followed by any x is a function of the hash of m, its length, its last incomplete block and x, whatever the seed.", "quantifier": "all seeds, all histories of update and result before, all calls after, all platforms", "why_tests_cant": "it ranges over pairs of histories with equal digests and over all continuations", "anchors": ["include/boost/hash2/md5.hpp: md5_128::result", "include/boost/hash2/sha1.hpp", "include/boost/hash2/sha2.hpp", "include/boost/hash2/ripemd.hpp", "include/boost/hash2/fnv1a.hpp"]}
{"id": "C52", "title": "what a digest object remembers", "statement": "The state of an md5_128, sha1_160, sha2_*, ripemd_* object after any construction and any calls is determined by, and determines, exactly three things of the bytes processed (seed and paddings included): the chaining value of the complete blocks, the incomplete block, and the number of bytes modulo 2^64. Two objects with different histories are memberwise equal if and only if they agree in these.", "quantifier": "all pairs of constructors and histories of update and result calls, all platforms", "why_tests_cant": "it ranges over pairs of unbounded histories; no test compares states", "anchors": ["include/boost/hash2/md5.hpp", "include/boost/hash2/sha1.hpp", "include/boost/hash2/sha2.hpp", "include/boost/hash2/ripemd.hpp"]}
{"id": "C53", "title": "every further result depends on the whole message", "statement": "When result() is called repeatedly to extend the output, not only the first but every result depends on the whole message: the i-th result is a hash of an encoding of the message that loses nothing.", "quantifier": "all messages, all numbers of result calls, all seeds", "why_tests_cant": "ranges over all messages and all i; no test compares later results of different messages", "anchors": ["doc/hash2/hashing_bytes.adoc:146-163", "include/boost/hash2/murmur3.hpp: result", "include/boost/hash2/md5.hpp: result", "include/boost/hash2/sha2.hpp: result"]}
{"id": "C54", "title": "the period of repeated results of murmur3", "statement": "The results of successive result() calls on a murmur3_32 object, from the second on, are pairwise different for 2^30 calls and then repeat; on a murmur3_128 object for 2^60 calls (2^28 where std::size_t has 32 bits).", "quantifier": "all seeds, all histories, all numbers of calls", "why_tests_cant": "2^60 calls; the exact period is a statement about all pairs of call numbers", "anchors": ["doc/hash2/hashing_bytes.adoc:146-163", "include/boost/hash2/murmur3.hpp: result"]}
{"id": "C55", "title": "hash algorithms written by the user", "statement": "hash_append and hmac work with every class that meets the documented requirements on hash algorithms, not only with the algorithms of the library: hash_append is update with the message of the object, equal objects hash equally, histories that feed the same bytes return the same results, hmac<H> is RFC 2104's HMAC over the function H computes and again meets the requirements. The algorithms of the library meet the requirements themselves.", "quantifier": "all classes meeting the requirements (up to any notion of equivalence of objects), all platforms, constructions, programs, types, values, keys, messages", "why_tests_cant": "a test uses a particular class; the classes of users are an open set", "anchors": ["doc/hash2/hashing_bytes.adoc:26-150", "include/boost/hash2/hash_append.hpp", "include/boost/hash2/hmac.hpp:24-136"]}
{"id": "C56", "title": "what calling result() again does not do", "statement": "For xxhash_32 and xxhash_64, two messages that differ in the last incomplete block only and have the same first result have the same results ever after; so extending the output by calling result() again cannot tell apart short messages that collide, and there are different messages of nine bytes that no number of results tells apart.", "quantifier": "all platforms, constructions, messages, later calls", "why_tests_cant": "all pairs of messages and all later histories; the colliding pair exists by counting", "anchors": ["include/boost/hash2/xxhash.hpp:174-236", "include/boost/hash2/xxhash.hpp:425-500", "doc/hash2/hashing_bytes.adoc:170-180"]}
{"id": "C57", "title": "Collisions that no seed removes", "statement": "For fnv1a_32, fnv1a_64, murmur3_32 and murmur3_128 there are arbitrarily many different messages of the same length (2^k messages of n*k bytes for every k, with n = 1025, 2049, 8 and 32 respectively), fixed in advance, which give the same results for every seed (default, integer, byte sequence of any length), every history of earlier calls that leaves the object at a block boundary, every continuation and every platform. For MurmurHash3 every message of at least 8 (32) bytes has such a partner of the same length. For xxhash_64 any 16 bytes of the last incomplete block of the message (at a multiple of 8) can be replaced by 16 others without any seed making a difference. So, for these algorithms, seeding does not prevent hash flooding, contrary to what the documentation of the seed constructors suggests for all algorithms (hashing_bytes.adoc: seeding is \"useful for ... preventing hash flooding attacks\").", "quantifier": "all seeds and constructors, all platforms, all earlier and later calls, all k; for second preimages all messages", "why_tests_cant": "A test tries some seeds; the claim is about all 2^64 integer seeds and all byte seeds of unbounded length, and about all histories.", "anchors": ["include/boost/hash2/fnv1a.hpp: fnv1a::update", "include/boost/hash2/murmur3.hpp: murmur3_32::update_, murmur3_128::update_", "include/boost/hash2/xxhash.hpp: xxhash_64::result", "doc/hash2/hashing_bytes.adoc: Seeding"]}
{"id": "C58", "title": "hash_append has its documented effects", "statement": "Replacing any call of hash_append, hash_append_range or hash_append_size by the calls the reference documentation says it makes (the byte representation of an integer, the underlying integer of an enumeration, the address as an integer, +0 for -0 and the bits of a floating point number, the elements of a range then its size, the elements of a tuple, bases then members of a class, the calls of the user's tag_invoke, '\\x00' if nothing else would be hashed) changes no result, for every algorithm, object, flavor and platform and whatever is done before and after; likewise any number of such replacements in either direction. For objects without unordered containers these replacements lead down to plain calls of update. An unordered container is replaced by the sum of the 64 bit hash values of its elements, each got from a copy of the hash object, and its size. Consequences: a range may be cut into pieces and each appended with hash_append_range, whatever the iterators; how tuples are nested is not hashed.", "quantifier": "all algorithms, platforms, constructors, flavors, types and values, all programs before and after, any number of replacements", "why_tests_cant": "Types nest without bound, and the equivalence must hold at any point of any program; tests compare some types in fresh objects.", "anchors": ["doc/hash2/reference/hash_append.adoc: Effects of hash_append, hash_append_range, hash_append_size, hash_append_unordered_range", "include/boost/hash2/hash_append.hpp: hash_append, do_hash_append, hash_append_range, hash_append_size, hash_append_unordered_range"]}
{"id": "C59", "title": "Digests collide only where the compression function does", "statement": "If two different messages (below 2^61 bytes, passed in any pieces, objects made in the same way) have the same MD5, SHA-1, SHA-2 or RIPEMD digest, then among the calls of the standard's compression function made for the two there are two with different arguments and the same value, or (SHA-224, SHA-384, SHA-512/224, SHA-512/256 only) the last chaining values differ and are truncated to the same digest. If two different messages have the same hmac under the same key, then H maps two different messages (padded key and message, or padded key and inner hash) to the same value. If two objects of the same type that are not equal (no unordered containers, no NaNs) have the same digest, the same holds of the bytes fed for them. So padding, length, buffering, hmac and hash_append add no collisions of their own.", "quantifier": "all ten digests, all H with block_size, all keys and seeds, all pairs of messages below 2^61 bytes and splittings, all pairs of objects of delimited types, platforms and flavors", "why_tests_cant": "It is about every pair of messages; nobody can produce pairs of messages with equal SHA-2 digests to test with.", "anchors": ["include/boost/hash2/md5.hpp: update, result", "include/boost/hash2/sha1.hpp: update, result", "include/boost/hash2/sha2.hpp: update, result", "include/boost/hash2/ripemd.hpp: update, result", "include/boost/hash2/hmac.hpp: init, result", "include/boost/hash2/hash_append.hpp: hash_append"]}
{"id": "C60", "title": "Every result of every history is fixed", "statement": "For every algorithm of the library (nested hmac included), however constructed, the results of any history of update() and result() calls, the second and later ones and those after further updates included, are those of a small specification of the algorithm as an object: what processing a block does, what finishing with the incomplete block and the length does, and with which state the object continues. For FNV-1a, asking for a result acts on everything that follows as feeding the octet 0xFF does.", "quantifier": "all algorithms, platforms, constructors, histories", "why_tests_cant": "Unbounded histories; the published test vectors of SipHash, xxHash, MurmurHash3 and SpookyHash only cover first results.", "anchors": ["include/boost/hash2/siphash.hpp: result", "include/boost/hash2/xxhash.hpp: result", "include/boost/hash2/fnv1a.hpp: result", "include/boost/hash2/legacy/murmur3.hpp: result", "include/boost/hash2/legacy/spooky2.hpp: result", "include/boost/hash2/hmac.hpp: result"]}
{"id": "C61", "title": "Work is linear and independent of chunking", "statement": "An algorithm with a block size processes each block of its input once and in order: an update(p, n) on an object that holds k bytes of an incomplete block (k = bytes passed since the last result() or construction, modulo the block size B) calls the block function exactly (k + n) / B times, on the consecutive blocks of the held bytes followed by the n new ones. For the digest classes, result() calls it once or twice (once exactly when the incomplete block has room for the byte 0x80 and the length), an hmac once more than the digest it is over. The number of calls made by any history of update() and result() is therefore determined by the bytes and the requests, not by how the bytes are cut into calls, and is at most bytes/B plus two (three for HMAC) per result().", "quantifier": "all algorithms with a block size (nested hmac included), platforms, constructors, histories, chunk sizes", "why_tests_cant": "A cost bound over all histories and message lengths; tests observe digests, not how often the block function runs.", "anchors": ["include/boost/hash2/md5.hpp: update, result", "include/boost/hash2/sha2.hpp: update, result", "include/boost/hash2/xxhash.hpp: update", "include/boost/hash2/legacy/spooky2.hpp: update", "include/boost/hash2/hmac.hpp: update, result"]}
{"id": "C62", "title": "The hash of an object in closed form", "statement": "For every class of the library constructed in a way for which the published function is known (md5, sha1, the six SHA-2, ripemd, hmac with any key, siphash with no seed, an integer or a full key, xxhash, fnv1a, murmur3 and spooky2 with no seed or an integer seed), for every flavor, every object of every type hash_append supports and every platform: hash_append( h, f, v ) and h.result() return the published function (RFC 1321, FIPS 180-4, RFC 2104, ...) of the object's message as the documentation describes it, in which the hashes of the elements of unordered containers are numbers of the same function; a series of objects returns the function of the concatenation of their messages. In particular hash_append_range on chars returns the function of the characters, as example/compile_time_2.cpp relies on.", "quantifier": "every algorithm and constructor with a published function, every flavor, every (finite series of) type and value of any size, every platform", "why_tests_cant": "ranges over all object types and values, all platforms and all keys; tests compare a few literals", "anchors": ["include/boost/hash2/hash_append.hpp: hash_append, hash_append_range, hash_append_unordered_range", "include/boost/hash2/get_integral_result.hpp: get_integral_result", "example/compile_time_2.cpp", "example/compile_time.cpp", "doc/hash2/hashing_objects.adoc"]}
{"id": "C63", "title": "Threads do not interfere, under any schedule", "statement": "Several threads use hash objects at the same time: each constructs, copies and uses objects of its own, and any number of threads may copy the same unchanging object (the member of a hash function object, hash_append's copies for unordered ranges). Whatever the schedule that interleaves their steps, if each thread alone runs without undefined behaviour then so do all together, and every thread is returned exactly what it is returned when it runs alone; hence all schedules agree. This holds for the algorithms of the library and of users.", "quantifier": "every number of threads, every program of each, every interleaving, every hash algorithm, every platform and initial objects", "why_tests_cant": "the interleavings and programs are unbounded", "anchors": ["include/boost/hash2/hash_append.hpp: hash_append_unordered_range (copies)", "example/hash_with_any_seed.cpp: operator() const", "doc/hash2/hashing_bytes.adoc: copy construction and assignment", "include/boost/hash2/*.hpp: no mutable static data"]}
{"id": "C64", "title": "Digests are arrays", "statement": "A digest<N> is an array of N bytes with value semantics. After any sequence of statements that write to digest objects, through the reference returned by operator[], front() or back(), through the pointers returned by data() and begin(), by construction from an array or by assignment, each place of each object holds what the last statement that wrote to this place wrote (0 if there is none); this is what operator[], front(), back() and iteration from begin() to end() deliver, what == and != compare and what to_string prints. Writing to one object changes no other, also not one it was copied from or to. operator[] with an index that is not less than N is stopped by its assertion before anything is written.", "quantifier": "every N, every number of digest objects, every sequence of statements, every platform, run time and constant evaluation", "why_tests_cant": "Tests write to a digest once or twice; aliasing and off-by-one errors show up only for particular orders of writes, copies and indices.", "anchors": ["include/boost/hash2/digest.hpp: digest", "include/boost/hash2/digest.hpp: operator==", "include/boost/hash2/digest.hpp: operator[]", "include/boost/hash2/digest.hpp: to_string"]}
{"id": "C65", "title": "hash_append calls update and nothing else", "statement": "For an object without unordered containers, hash_append does nothing to the hash object but call update. The calls depend on the object, the flavor and the platform only: they are the same for every class, the library's or the user's, of which nothing is assumed, and whatever state the hash object is in. Each call passes readable memory (or null and zero); the bytes passed, one call after another, are the message of the object; the number of calls is known: at run time exactly one, h.update(&v, sizeof(v)), for a contiguously hashable object, exactly two for a contiguous container of such elements however many there are, otherwise the sum over the parts. With unordered containers hash_append uses copies, update, result and get_integral_result only, so it cannot tell apart classes for which these agree: a class that wraps an algorithm and forwards update and result hashes every object, of every type, as the algorithm does.", "quantifier": "all classes with update and result (no requirement on them), all their states, all types, values, flavors and platforms (floating point numbers not rounded downward for the bytes passed)", "why_tests_cant": "It ranges over all hash algorithm classes anyone may write, and over all types.", "anchors": ["include/boost/hash2/hash_append.hpp: hash_append, do_hash_append, hash_append_range_, hash_append_sized_range_, hash_append_unordered_range", "doc/hash2/reference/hash_append.adoc: Effects of hash_append"]}
{"id": "C66", "title": "FNV-1a tells runs of one byte apart by their length", "statement": "Two runs of the same byte b with lengths n and m, hashed with fnv1a_32 or fnv1a_64 after any history of calls and from any constructor, give the same result if and only if n and m are congruent modulo a power of two that is at most 2^32 (2^64), and exactly 2^32 (2^64) for every odd b. For a default constructed object the power is known for each of the 256 bytes: it is never below 2^21 (2^52), so all runs shorter than that have different hashes, and this bound is attained: 2^21 times 0x7C ('|') hashes like the empty message with fnv1a_32, and 2^52 times 0xE2 with fnv1a_64.", "quantifier": "all bytes, all run lengths, all constructors and histories, all platforms; default constructed objects for the exact table", "why_tests_cant": "test/quality.cpp (test_seq_length) compares lengths below 1024 for default constructed objects; the claim is about all lengths and all states, and the first collisions appear at lengths of 2^21 and 2^52", "anchors": ["include/boost/hash2/fnv1a.hpp: fnv1a_32::update, fnv1a_64::update, result", "test/quality.cpp: test_seq_length"]}
{"id": "C67", "title": "What the lower bits of an FNV-1a hash depend on", "statement": "The lowest k bits of every result of fnv1a_32 and fnv1a_64 depend on the lowest k bits of the bytes only: two programs that make the same calls with bytes that agree modulo 2^k get results that agree modulo 2^k. In particular the lowest bit of a default constructed object's hash is the parity of the number of odd bytes of the message (plus one), so it is blind to their order. With the same constructor and the same calls, fnv1a_32 and fnv1a_64 results agree in their lowest five bits. (So a table that picks a bucket by the lower bits, as benchmark/unordered.cpp invites with is_avalanching, sees little of the key.)", "quantifier": "all programs, constructors, k, messages and platforms", "why_tests_cant": "it relates all pairs of programs; a test compares known values", "anchors": ["include/boost/hash2/fnv1a.hpp: fnv1a_32, fnv1a_64", "benchmark/unordered.cpp: is_avalanching"]}
{"id": "C68", "title": "An hmac object is two hash objects, through any history", "statement": "For every class H with a block_size (hmac itself included), hmac<H> constructed in any way and used through any history of update and result calls returns what two objects of class H return: one is fed the key xor 0x36 and then everything the hmac object is fed, and asked whenever it is asked; the other is fed the key xor 0x5C and then each answer of the first, and is asked after each. The key is zero-padded to the block size, or first hashed by H if longer.", "quantifier": "all H, constructors, keys, histories of calls and platforms (SHA-2 without update( nullptr, 0 ) at run time, C02)", "why_tests_cant": "RFC 2104 only defines the first result; the claim covers every interleaving of update and result for every key length and every H, nested ones included", "anchors": ["include/boost/hash2/hmac.hpp: init, update, result"]}
{"id": "C69", "title": "Truncated variants of SHA-256, SHA-512 and RIPEMD-160", "statement": "As documented, sha2_224 results are those of sha2_256, and sha2_384, sha2_512_224, sha2_512_256 results those of sha2_512, truncated to the leftmost bits; ripemd_128 results are those of ripemd_160 truncated.", "quantifier": "all messages, constructors, histories of calls and platforms", "why_tests_cant": "a universally quantified relation between two classes; the unit tests check each class against its own vectors and never notice that the documented relation is false", "anchors": ["include/boost/hash2/sha2.hpp: sha2_224, sha2_384, sha2_512_224, sha2_512_256", "include/boost/hash2/ripemd.hpp: ripemd_128", "doc/hash2/reference/sha2.adoc:132,228,241,254", "doc/hash2/hashing_bytes.adoc:280-299"]}
{"id": "C70", "title": "One word of the message spreads over all hash values evenly", "statement": "With everything else of the message fixed, however the object was constructed and whatever the platform, each 32 bit (64 bit, 128 bit) hash value is the hash of exactly one choice of one aligned word: a 4 byte block anywhere for murmur3_32 and xxhash_32, an 8 byte word of the last incomplete stripe for xxhash_64, a 16 byte block anywhere for murmur3_128. So hash_append of 8 byte integers with xxhash_64 and of 4 byte integers with xxhash_32 and murmur3_32 is a permutation, and in a table with any number n of buckets the numbers of integer keys per bucket (hash value modulo n) differ by one at most. Converted by get_integral_result to a narrower type, each value is that of equally many integers.", "quantifier": "all constructors and seeds, all prefixes (of whole words) and suffixes of the message, all hash values, all numbers of buckets, all flavors and platforms", "why_tests_cant": "It counts the preimages of each of up to 2^128 values under every seed and every surrounding message.", "anchors": ["include/boost/hash2/xxhash.hpp: xxhash_32, xxhash_64", "include/boost/hash2/legacy/murmur3.hpp: murmur3_32, murmur3_128", "include/boost/hash2/hash_append.hpp: hash_append (integral)"]}
{"id": "C71", "title": "The type traits tell the truth", "statement": "If is_trivially_equality_comparable says yes for a type, then x == y is equivalent to memcmp( &x, &y, sizeof( x ) ) == 0 for all its values. If is_endian_independent says yes (for such a type), its bytes in memory are the same on little and big endian platforms. If is_contiguously_hashable says yes under the byte order of a flavor, the single update with the memory of the object feeds exactly what the overload for the type would have fed. For classes this rests on the user's specialisations being right; for arithmetic types, enumerations and pointers, and as to is_contiguously_hashable arrays of these, the traits are exact: where they say no, a value exists that refutes it.", "quantifier": "all types hash_append accepts (arrays and classes nested to any depth), all their values, all flavors and platforms", "why_tests_cant": "it ranges over an infinite family of types and all values of each; a wrong yes shows only for particular values (-0.0, a number whose bytes are no palindrome) on particular platforms", "anchors": ["include/boost/hash2/is_trivially_equality_comparable.hpp: is_trivially_equality_comparable", "include/boost/hash2/is_endian_independent.hpp: is_endian_independent", "include/boost/hash2/is_contiguously_hashable.hpp: is_contiguously_hashable", "include/boost/hash2/hash_append.hpp: hash_append", "include/boost/hash2/detail/memcmp.hpp: memcmp", "doc/hash2/reference/is_contiguously_hashable.adoc"]}
{"id": "C72", "title": "hash_append left by an exception has fed a prefix of the message", "statement": "hash_append( h, f, v ) runs user code (tag_invoke, iterators, conversions) that may throw. If it is left by an exception, at whatever point, then h has been fed a prefix of the bytes that v stands for (the copies of h that hash_append makes for unordered containers are not h, and no partial hash of theirs gets into it), and h can still be used: whatever is done with it from then on is defined, and every later result is the one returned had h.update been called once with that prefix instead. When there is no exception the calls made on h pass exactly the message. h is not rolled back.", "quantifier": "every algorithm, platform, constructor, history before, flavor, type, value, every point between two calls of update on h at which hash_append is abandoned, and every history afterwards", "why_tests_cant": "the exception may come between any two of the calls on h; tests throw at a few chosen places, if at all", "anchors": ["include/boost/hash2/hash_append.hpp: hash_append, hash_append_range, hash_append_size, hash_append_unordered_range, hash_append_range_and_size"]}
{"id": "C73", "title": "What the hash of an unordered container depends on", "statement": "For an unordered container hash_append feeds the hash object the sum modulo 2^64 of the 64 bit numbers of its elements (get_integral_result<std::uint64_t> of the result of a copy of the hash object to which the element has been appended) and the number of elements, and nothing else. So two unordered containers are fed alike exactly if these two agree; an element common to both can be left out of both without changing whether they are; containers that agree are never told apart by any later call. Collisions are unavoidable whatever the algorithm: there are two different sets of twelve bytes (six, for the 32 bit algorithms) that every program treats alike, with sha2_512 or a keyed hmac as well, so the collision resistance of a digest does not carry over to objects that contain unordered containers.", "quantifier": "every algorithm, seed or key, platform, flavor, element type, pair of containers of any size, every history before and after", "why_tests_cant": "it is an equivalence over all pairs of containers and histories; the colliding sets exist by counting, no test finds them for sha2_512 (2^64 sets)", "anchors": ["include/boost/hash2/hash_append.hpp: hash_append_unordered_range, hash_append_size", "include/boost/hash2/get_integral_result.hpp: get_integral_result", "doc/hash2/reference/hash_append.adoc: hash_append_unordered_range"]}
{"id": "C74", "title": "Ranges hashed without their size; the benchmarks' hash function objects", "statement": "hash_append_range does not append a size, and still tells ranges apart when it comes last: after the same history, two ranges, of any kinds of iterators, feed the same bytes only if they have the same length and their elements are alike one by one, also when the elements are themselves of variable size (strings). Hence the hash function objects that hash contiguous keys this way (benchmark/unordered.cpp, benchmark/keys.cpp) feed different bytes for different keys; they return for every key the same std::size_t on every call, whether the seeded hash object is kept and copied or made anew, and whichever contiguous container holds the elements; for strings it is the integral result of the hash of exactly the characters; equal keys get equal values. Keys that are not contiguous ranges are hashed as by the examples' function objects. benchmark/buffer.cpp prints the integral result of the hash of M copies of the data.", "quantifier": "all algorithms, seeds, platforms, flavors, element types whose messages are delimited, all pairs of ranges of any lengths, all sequences of calls", "why_tests_cant": "it is about all pairs of ranges, of any lengths and nesting, and all keys and call sequences", "anchors": ["include/boost/hash2/hash_append.hpp: hash_append_range", "benchmark/unordered.cpp: compute_hash_value, hash_without_seed, hash_with_uint64_seed, hash_with_byte_seed", "benchmark/keys.cpp: hasher", "benchmark/buffer.cpp"]}
{"id": "C75", "title": "Seeds of the legacy algorithms", "statement": "murmur3_32( p, n ) with 1 to 4 bytes, murmur3_128( p, n ) and spooky2_128( p, n ) with 1 to 8 bytes behave, in every later history, as the object constructed with the integer seed whose bytes these are, least significant first. murmur3_128 with 9 to 16 bytes and spooky2_128 with up to 16 bytes behave as with zeros appended up to 16 bytes, which are two integer seeds (C45). Of a longer byte seed the first 4 (16, 16) bytes are the seed, and the rest acts as an update() with a discarded result(). An integer seed of 2^32 and more makes murmur3_32 MurmurHash3_x86_32 whose seed is the lower half after having processed the upper half as a block, which is not counted.", "quantifier": "all seeds of any length, all later histories, all platforms", "why_tests_cant": "all seeds of all lengths and all histories of calls", "anchors": ["include/boost/hash2/legacy/murmur3.hpp: murmur3_32, murmur3_128 constructors", "include/boost/hash2/legacy/spooky2.hpp: spooky2_128 constructors"]}
{"id": "C76", "title": "FNV-1a as a source of random numbers", "statement": "Of 2^32 (2^64) successive results of an fnv1a_32 (fnv1a_64) object, converted by get_integral_result to an integral type T that is not wider, each value of T occurs equally often; the exact average of the values of a signed T is -1/2, so that benchmark/average.cpp, run over the period, has the sum 0.", "quantifier": "all constructors and seeds, all histories before, all platforms, all types T of at most the size of the result", "why_tests_cant": "2^32 or 2^64 results for each of the seeds and histories", "anchors": ["include/boost/hash2/fnv1a.hpp", "include/boost/hash2/get_integral_result.hpp", "benchmark/average.cpp"]}
{"id": "C77", "title": "What FNV-1a never confuses: a few consecutive bytes", "statement": "fnv1a_64 gives different results for two messages of the same length that differ only within six consecutive bytes, fnv1a_32 within three, whatever the seed, the common prefix and suffix, the splits and the platform. So two different integers of up to 4 bytes never collide under fnv1a_64, of up to 2 bytes under fnv1a_32. The numbers are exact: there are two messages of seven bytes (8 byte integers) with the same fnv1a_64 value, and two of four bytes (4 byte integers) with the same fnv1a_32 value.", "quantifier": "all constructors and seeds, all pairs of messages of any equal length, all windows, all splits, all flavors and platforms", "why_tests_cant": "2^96 pairs of contents of a window of six bytes for each of the 2^64 states before it", "anchors": ["include/boost/hash2/fnv1a.hpp", "include/boost/hash2/hash_append.hpp"]}
{"id": "C78", "title": "Which integers never collide: an exact table", "statement": "Two different integers of the same type never have the same hash value under hash_append, for any seed, flavor and platform, exactly in these cases: with fnv1a_32 for integers of 1 and 2 bytes, fnv1a_64: 1, 2 and 4, murmur3_32: 1, 2 and 4, murmur3_128: 1, 2, 4 and 8, xxhash_32: 1, 2 and 4, xxhash_64: 1, 4 and 8 (not 2: with one seed two values of unsigned short have the same hash value). In each other case two integers that collide exist. More generally xxhash_32 never confuses two messages that differ only within two consecutive bytes of the last, incomplete, 4 byte word. The same holds for objects of every type without unordered containers (float and double, pairs, small classes): if their messages have the same length n, and n is at most 3 (fnv1a_32), 6 (fnv1a_64), 4 (murmur3_32), 16 (murmur3_128), or is 1, 2 or 4 (xxhash_32), 1, 4 or 8 (xxhash_64), objects that are not equal have different hash values, whatever the seed.", "quantifier": "six hash functions, four sizes of integers, all constructors and seeds, all flavors and platforms, all pairs of different values; for the messages all lengths and splits; all types without unordered containers and ranges fed without their size, all their values that are not NaNs", "why_tests_cant": "for 2 byte integers alone 2^31 pairs for each of 2^32 seeds (and of the byte strings that are used as seeds), and the exceptions are single pairs with single seeds", "anchors": ["include/boost/hash2/xxhash.hpp: xxhash_32, xxhash_64", "include/boost/hash2/murmur3.hpp", "include/boost/hash2/fnv1a.hpp", "include/boost/hash2/hash_append.hpp"]}
