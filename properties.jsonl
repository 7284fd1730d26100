{"id": "C01", "title": "SHA-256 conforms to FIPS 180-4", "statement": "For every message of fewer than 2^61 bytes, feeding it to sha256::Engine in any number of input() calls and calling finalize() (equivalently Hash::hash, HashEngine::hash, hash_byte_chunks) returns, without panicking, exactly the FIPS 180-4 SHA-256 digest of the message.", "quantifier": "all messages, all splittings into input() calls, all build configurations on a 64-bit target (overflow checks, debug assertions, small-hash, SHA-NI or software)", "why_tests_cant": "The unit tests check three messages; the message and splitting space is infinite and the compression function has 2^768 input states.", "anchors": ["src/sha256.rs: Engine, input, finalize, process_block, software_process_block", "src/internal_macros.rs: engine_input_impl, hash_type", "src/lib.rs: HashEngine"]}
{"id": "C02", "title": "SHA-1 conforms to FIPS 180-4", "statement": "For every message of fewer than 2^61 bytes, sha1::Engine fed in any chunking and finalized returns the FIPS 180-4 SHA-1 digest and never panics.", "quantifier": "all messages, chunkings and build configurations on a 64-bit target", "why_tests_cant": "Three test vectors cannot cover all messages, lengths modulo the block size and chunkings.", "anchors": ["src/sha1.rs: Engine, finalize, process_block", "src/internal_macros.rs: engine_input_impl"]}
{"id": "C03", "title": "SHA-512 conforms to FIPS 180-4", "statement": "For every message the FIPS 180-4 standard allows (fewer than 2^128 bits), sha512::Engine fed in any chunking and finalized returns the SHA-512 digest. (The code keeps the length in a usize and encodes only a 64-bit bit count, so this can hold only for messages of fewer than 2^61 bytes.)", "quantifier": "all messages, chunkings and build configurations on a 64-bit target", "why_tests_cant": "Messages near and beyond 2^61 bytes cannot be tested, and three vectors do not cover the rest.", "anchors": ["src/sha512.rs: Engine, finalize, process_block", "src/internal_macros.rs: engine_input_impl"]}
{"id": "C04", "title": "SHA-384 conforms to FIPS 180-4", "statement": "For every message of fewer than 2^61 bytes and every chunking, sha384::Engine returns the FIPS 180-4 SHA-384 digest: SHA-512 from the SHA-384 initial value, truncated to the first 48 bytes.", "quantifier": "all messages, chunkings and build configurations on a 64-bit target", "why_tests_cant": "Five vectors cannot cover all messages.", "anchors": ["src/sha384.rs: Engine", "src/sha512.rs: Engine::sha384"]}
{"id": "C05", "title": "SHA-512/256 conforms to FIPS 180-4", "statement": "For every message of fewer than 2^61 bytes and every chunking, sha512_256::Engine returns the FIPS 180-4 SHA-512/256 digest, whose initial value is the one produced by the standard's SHA-512/t IV generation function for t=256.", "quantifier": "all messages, chunkings and build configurations on a 64-bit target", "why_tests_cant": "Five vectors cannot cover all messages.", "anchors": ["src/sha512_256.rs: Engine", "src/sha512.rs: Engine::sha512_256"]}
{"id": "C06", "title": "RIPEMD-160 conforms to its specification", "statement": "For every message of fewer than 2^61 bytes and every chunking, ripemd160::Engine returns the RIPEMD-160 digest defined by Dobbertin, Bosselaers and Preneel.", "quantifier": "all messages, chunkings and build configurations on a 64-bit target", "why_tests_cant": "160 hand-unrolled steps with hand-entered tables are exercised by four vectors only.", "anchors": ["src/ripemd160.rs: Engine, process_block!, finalize"]}
{"id": "C07", "title": "SipHash-2-4 conforms to its specification", "statement": "For all keys k0, k1 and every message, in any chunking, siphash24 (Engine::with_keys + input + finalize, Hash::hash_with_keys, Hash::hash) returns the SipHash-2-4 tag of the message as 8 little-endian bytes.", "quantifier": "all 128-bit keys, all messages, all chunkings, both endiannesses", "why_tests_cant": "The test uses one key and one family of 64 short messages; tail handling depends on every (buffered, new length) pair.", "anchors": ["src/siphash24.rs: Engine::with_keys, input, finalize, u8to64_le, compress!, Hash::hash_with_keys"]}
{"id": "C08", "title": "Chunking independence", "statement": "For every engine (SHA-1, SHA-256, SHA-384, SHA-512, SHA-512/256, RIPEMD-160, SipHash24, HMAC over any of them, tagged SHA-256) in any reachable state, input(a) followed by input(b) is observationally the same as input(a followed by b): every later midstate, n_bytes_hashed and digest agree. In particular input(&[]) changes nothing, and hash_byte_chunks(xs) equals hash(concat xs).", "quantifier": "all reachable engine states, all byte strings a and b, all continuations", "why_tests_cant": "There are infinitely many splittings and prior buffer fill levels.", "anchors": ["src/internal_macros.rs: engine_input_impl", "src/siphash24.rs: input", "src/hmac.rs: input", "src/lib.rs: hash_byte_chunks"]}
{"id": "C09", "title": "n_bytes_hashed is exact", "statement": "After any sequence of input() calls n_bytes_hashed() is the number of bytes the engine was created with (0 for new(), the tag's bytes for a tagged engine, one block for HMAC, `length` for from_midstate) plus the total number of bytes input since, as long as that number fits in usize.", "quantifier": "all call sequences on every engine", "why_tests_cant": "Counting must hold for every history.", "anchors": ["src/sha256.rs: n_bytes_hashed", "src/siphash24.rs: n_bytes_hashed", "src/hmac.rs: n_bytes_hashed", "src/sha256t.rs: n_bytes_hashed"]}
{"id": "C10", "title": "Hashing never panics below the length limits", "statement": "On a 64-bit target, for every history whose total length stays below 2^61 bytes, no input, finalize, midstate or n_bytes_hashed call panics in any build profile: no arithmetic overflow, slice index, copy_from_slice length, expect or debug assertion can fail.", "quantifier": "all histories and build profiles", "why_tests_cant": "Absence of panics is a statement about all inputs and buffer positions.", "anchors": ["src/internal_macros.rs: engine_input_impl", "src/sha256.rs: finalize, midstate", "src/sha512.rs: finalize", "src/ripemd160.rs: finalize", "src/sha1.rs: finalize", "src/siphash24.rs: input, finalize"]}
{"id": "C11", "title": "Digests have the advertised length", "statement": "Every successful finalize() returns exactly 20 (SHA-1, RIPEMD-160), 32 (SHA-256, SHA-512/256, tagged), 48 (SHA-384), 64 (SHA-512) or 8 (SipHash24) bytes; HMAC returns the length of the underlying digest.", "quantifier": "all engine states", "why_tests_cant": "Must hold for every state.", "anchors": ["src/sha256.rs: finalize", "src/sha384.rs: finalize", "src/sha512_256.rs: finalize", "src/siphash24.rs: finalize"]}
{"id": "C12", "title": "const_hash equals hash", "statement": "For every byte string, the const-context sha256::Hash::const_hash returns the same digest as sha256::Hash::hash, which is the FIPS 180-4 SHA-256 digest.", "quantifier": "all byte strings shorter than 2^61 bytes", "why_tests_cant": "The test compares lengths 0..=256 of one byte pattern; the two implementations share no padding code.", "anchors": ["src/sha256.rs: Hash::const_hash, Midstate::const_hash, copy_w, read_u32"]}
{"id": "C13", "title": "hash_tag and tagged hashing follow BIP-340", "statement": "For every tag, sha256::Midstate::hash_tag(tag) is the midstate of a SHA-256 engine after sha256(tag) || sha256(tag); and a sha256t tag whose engine is from_midstate(hash_tag(tag), 64) makes Hash::<T>::hash(msg) equal SHA256(SHA256(tag) || SHA256(tag) || msg) for every msg.", "quantifier": "all tags and messages", "why_tests_cant": "One tag is tested.", "anchors": ["src/sha256.rs: Midstate::hash_tag", "src/sha256t.rs: Engine, Tag, Hash::hash"]}
{"id": "C14", "title": "The SHA-NI path equals the software path", "statement": "For every hash state and every 64-byte block, the x86 SHA-extension block function leaves the same state as the software block function, so no answer of any program over any number of engines depends on the CPU.", "quantifier": "all 2^256 states and all 2^512 blocks; all programs of calls, also ones that catch panics and go on", "why_tests_cant": "The input space is 2^768; a test runs only the path its own CPU selects.", "anchors": ["src/sha256.rs: process_block, process_block_simd_x86_intrinsics, software_process_block"]}
{"id": "C15", "title": "small-hash does not change results", "statement": "Building with feature small-hash changes no digest, midstate, count or panic of any engine; more generally two builds with the same usize and the same overflow checks give the same answers to every program over any number of engines.", "quantifier": "all states and blocks of SHA-256, SHA-512 (hence SHA-384, SHA-512/256) and RIPEMD-160; all programs of calls, also ones that catch panics and go on", "why_tests_cant": "Two builds cannot be compared inside one unit test, and the state space is astronomically large.", "anchors": ["src/sha256.rs: small_hash, fast_hash", "src/sha512.rs: small_hash, fast_hash", "src/ripemd160.rs: small_hash, round!"]}
{"id": "C16", "title": "SHA-256 midstate resume", "statement": "Whenever n_bytes_hashed() is a multiple of 64, sha256::Engine::from_midstate(e.midstate(), e.n_bytes_hashed()) is observationally equal to e: any further inputs give the same counts, midstates and digests.", "quantifier": "all reachable engines at a block boundary, all continuations", "why_tests_cant": "Holds for all states and continuations; tests try one prefix and four continuations.", "anchors": ["src/sha256.rs: midstate, from_midstate"]}
{"id": "C17", "title": "SHA-1 midstate resume", "statement": "Same as C16 for sha1::Engine.", "quantifier": "all reachable engines at a block boundary, all continuations", "why_tests_cant": "No test covers it at all.", "anchors": ["src/sha1.rs: midstate, from_midstate"]}
{"id": "C18", "title": "SHA-512 family midstate resume", "statement": "At a block boundary, sha512/sha384/sha512_256 Engine::from_midstate(e.midstate(), e.n_bytes_hashed()) resumes e. (FALSE of the code: from_midstate splits the midstate into 4-byte chunks and converts each to [u8; 8], so it panics for every midstate and every length.)", "quantifier": "all reachable engines", "why_tests_cant": "No test calls it; the claim that it never succeeds is universal.", "anchors": ["src/sha512.rs: from_midstate (lines 123-132)", "src/sha384.rs: from_midstate", "src/sha512_256.rs: from_midstate"]}
{"id": "C19", "title": "RIPEMD-160 midstate resume", "statement": "At a block boundary, ripemd160::Engine::from_midstate(e.midstate(), e.n_bytes_hashed()) resumes e. (FALSE of the code: midstate writes little-endian words, from_midstate reads them big-endian.)", "quantifier": "all reachable engines at a block boundary", "why_tests_cant": "No test calls it.", "anchors": ["src/ripemd160.rs: midstate (74-80), from_midstate (90-99)"]}
{"id": "C20", "title": "SipHash midstate resume", "statement": "At an 8-byte boundary, siphash24::Engine::from_midstate(e.midstate(), e.n_bytes_hashed()) resumes e. (FALSE of the code: the length argument is ignored, so n_bytes_hashed restarts at 0 and the length byte of the final word is wrong unless the length is a multiple of 256; keys() are reset too.)", "quantifier": "all reachable engines at an 8-byte boundary", "why_tests_cant": "No test calls it.", "anchors": ["src/siphash24.rs: midstate, from_midstate (199-204)"]}
{"id": "C21", "title": "HMAC midstate resume", "statement": "At a block boundary, hmac::Engine::from_midstate(e.midstate(), e.n_bytes_hashed()) resumes e. (TRUE of the code only when no data beyond the key block has been input: both inner and outer engines are given the same length.)", "quantifier": "all reachable HMAC engines at a block boundary", "why_tests_cant": "No test calls it.", "anchors": ["src/hmac.rs: midstate, from_midstate (260-271)"]}
{"id": "C22", "title": "from_midstate rejects unaligned lengths", "statement": "sha1, sha256, sha512, ripemd160 and the engines built on them: from_midstate(m, length) panics for every length that is not a multiple of the block size; for sha1, sha256 and ripemd160 it succeeds for every other length.", "quantifier": "all midstates and lengths", "why_tests_cant": "Universal over lengths.", "anchors": ["src/sha256.rs: from_midstate", "src/sha1.rs: from_midstate", "src/ripemd160.rs: from_midstate", "src/sha512.rs: from_midstate"]}
{"id": "C23", "title": "HMAC conforms to RFC 2104", "statement": "For every engine E of the crate, key and message in any chunking, hmac::Engine::<E>::new(key) + input + finalize returns H((K' xor opad) || H((K' xor ipad) || message)) with K' the key, hashed first if longer than E's block size, zero-padded to the block size.", "quantifier": "all keys, messages, chunkings and underlying engines", "why_tests_cant": "Six vectors with SHA-256 only.", "anchors": ["src/hmac.rs: Engine::new, input, finalize"]}
{"id": "C24", "title": "HMAC key equivalences", "statement": "Keys longer than the block behave exactly as their digest; keys no longer than the block behave exactly as the same key followed by zero bytes up to the block size; Default is the empty key.", "quantifier": "all keys and messages", "why_tests_cant": "Universal over keys.", "anchors": ["src/hmac.rs: Engine::new, Default"]}
{"id": "C25", "title": "fixed_time_eq is equality", "statement": "For slices of equal length fixed_time_eq(a, b) returns true exactly when a and b are equal byte for byte; for slices of different lengths it panics.", "quantifier": "all byte slices", "why_tests_cant": "Tests try one- and two-byte slices.", "anchors": ["src/cmp.rs: fixed_time_eq"]}
{"id": "C26", "title": "fixed_time_eq's control flow is data independent", "statement": "The sequence of memory accesses and branches executed by fixed_time_eq depends only on the slice lengths, not on contents (at source level; the compiler and CPU are outside the model).", "quantifier": "all pairs of slices of equal length", "why_tests_cant": "A relational property over all pairs of inputs.", "anchors": ["src/cmp.rs: fixed_time_eq"]}
{"id": "C27", "title": "from_slice accepts exactly the right length", "statement": "Hash::from_slice(sl) (all hash types, hmac::Hash<N>, sha256t::Hash, sha256::Midstate) returns Ok of the same bytes when sl.len() is the hash length and otherwise FromSliceError with expected = the hash length and got = sl.len().", "quantifier": "all slices, all hash types", "why_tests_cant": "All lengths and contents.", "anchors": ["src/internal_macros.rs: from_slice", "src/hmac.rs: from_slice", "src/sha256t.rs: from_slice", "src/sha256.rs: Midstate::from_slice", "src/lib.rs: FromSliceError"]}
{"id": "C28", "title": "Byte conversions are mutually inverse", "statement": "from_byte_array/to_byte_array, as_byte_array, as_bytes, as_ref, to_bytes, index, from_bytes_ref and from_bytes_mut all expose the same bytes in the same order; two hashes are equal iff their bytes are.", "quantifier": "all hash values and indices", "why_tests_cant": "All values.", "anchors": ["src/internal_macros.rs: hash_type, hash_trait_impls, as_ref_impl"]}
{"id": "C29", "title": "Hex round trip", "statement": "Parsing the Display (or LowerHex or UpperHex) output of any hash or midstate returns the same value.", "quantifier": "all hash values, all hash types", "why_tests_cant": "All values; tests try one.", "anchors": ["src/internal_macros.rs: arr_newtype_fmt_impl, hash_trait_impls", "src/hmac.rs: Display, FromStr", "src/sha256.rs: Midstate FromStr"]}
{"id": "C30", "title": "Hex parsing accepts exactly 2N hex digits", "statement": "FromStr succeeds exactly on strings of 2*LEN ASCII hex digits of either case, in which case the value is the base-16 reading, byte order as displayed; anything else is an error and never a panic.", "quantifier": "all strings", "why_tests_cant": "All strings, including non-ASCII.", "anchors": ["src/internal_macros.rs: FromStr", "src/hmac.rs: FromStr"]}
{"id": "C31", "title": "Formatting is injective and well-formed", "statement": "Display/LowerHex (UpperHex) of a hash is exactly 2*LEN lower-case (upper-case) hex digits, two per byte in order; distinct hashes format differently; Debug is 0x followed by the Display form.", "quantifier": "all hash values", "why_tests_cant": "All values.", "anchors": ["src/internal_macros.rs: arr_newtype_fmt_impl"]}
{"id": "C32", "title": "serde round trip and rejection", "statement": "For human-readable and for binary formats, deserializing what was serialized returns the same value; a binary form of any length other than LEN and any string that is not 2*LEN hex digits is rejected with an error. A string handed over as bytes is rejected as an invalid value exactly when it is not UTF-8 (no sequence of Unicode scalar values has it as encoding), and otherwise treated as the string; a rejected string gives the error of parsing: the wrong length, or the first character that is not a hex digit.", "quantifier": "all hash values and all serialized inputs", "why_tests_cant": "All values and malformed inputs.", "anchors": ["src/serde_macros.rs: SerdeHash, HexVisitor, BytesVisitor"]}
{"id": "C33", "title": "io::Write is input", "statement": "write(buf) on any engine consumes the whole buffer, returns Ok(buf.len()), and has the effect of input(buf); flush does nothing; write_all over any sequence of buffers yields the digest of their concatenation and never fails.", "quantifier": "all engines, buffers and write sequences", "why_tests_cant": "All sequences.", "anchors": ["src/impls.rs: impl_write!"]}
{"id": "C34", "title": "SipHash integer and byte views agree", "statement": "from_engine_to_u64(e) equals Hash::from_engine(e).as_u64(), hash_to_u64_with_keys equals hash_with_keys(..).as_u64(), and from_u64/as_u64 are mutually inverse.", "quantifier": "all engine states, keys, messages, all u64 values and hashes", "why_tests_cant": "All states; finalize and from_engine_to_u64 are duplicated code.", "anchors": ["src/siphash24.rs: finalize, from_engine_to_u64, as_u64, from_u64"]}
{"id": "C35", "title": "SipHash unsafe reads stay in bounds", "statement": "No input() call on a reachable siphash24 engine performs an out-of-bounds unchecked read, in any build profile.", "quantifier": "all reachable states and data slices", "why_tests_cant": "Out-of-bounds reads are silent; all lengths and tail fills must be covered.", "anchors": ["src/siphash24.rs: load_int_le!, u8to64_le, input"]}
{"id": "C36", "title": "Hash ordering is big-endian numeric order", "statement": "The Ord of every hash type (derived, and hand-written for sha256t) is a total order consistent with Eq and equals the order of the bytes read as a big-endian number, which is also the order of the displayed hexadecimal strings.", "quantifier": "all pairs and triples of hash values", "why_tests_cant": "Order laws quantify over triples.", "anchors": ["src/internal_macros.rs: hash_type derives", "src/sha256t.rs: Ord, PartialOrd, PartialEq"]}
{"id": "C37", "title": "Engine histories behave like message logs", "statement": "For any interleaving of new, clone, input, n_bytes_hashed, midstate, from_midstate and finalize over any number of engines, every observable result equals that of a specification in which an engine is just a starting value and a list of bytes; clones are independent and observers do not disturb engines.", "quantifier": "all finite histories over all engines", "why_tests_cant": "All interleavings.", "anchors": ["src/lib.rs: HashEngine", "src/sha256.rs: Engine (Clone)", "src/internal_macros.rs: engine_input_impl"]}
{"id": "C38", "title": "Behaviour beyond the usize limit", "statement": "On a target with w-bit usize, when the total number of bytes reaches 2^w the engine's counter overflows: with overflow checks the call panics, without them the count wraps modulo 2^w and the digest's length field encodes the wrapped count (and, for 2^64 bits or more, the bit count modulo 2^64). So on 32-bit targets without overflow checks, messages of 4 GiB or more are padded to other blocks than the standard's, and for SHA-1, SHA-256, SHA-512 and RIPEMD-160 the digest is not the standard's unless the block function maps two different last blocks from the same chaining value to the same result.", "quantifier": "all histories, usize widths 16/32/64", "why_tests_cant": "Needs multi-gigabyte or 2^64-byte inputs.", "anchors": ["src/internal_macros.rs: engine_input_impl (self.length += write_len)", "src/sha256.rs: finalize"]}
{"id": "C39", "title": "Panics exactly at the length limit", "statement": "With overflow checks on, finalize of a SHA-1/SHA-256/SHA-512/RIPEMD-160 engine panics exactly when the padded length does not fit usize or 8 times the length does not fit u64; without overflow checks it never panics.", "quantifier": "all reachable engines, all build profiles", "why_tests_cant": "Requires engines with lengths near 2^61 and 2^64.", "anchors": ["src/sha256.rs: finalize", "src/sha1.rs: finalize", "src/sha512.rs: finalize", "src/ripemd160.rs: finalize"]}
{"id": "C40", "title": "Stale buffer bytes are irrelevant", "statement": "Two engines with the same chaining state, the same length and the same pending bytes behave identically whatever the rest of their internal block buffer holds; nothing from an earlier message block leaks into a later digest.", "quantifier": "all pairs of such states, all continuations", "why_tests_cant": "A relational property over all states.", "anchors": ["src/internal_macros.rs: engine_input_impl", "src/sha256.rs: finalize"]}
{"id": "C41", "title": "Padding is injective", "statement": "The block sequence compressed for a message determines the message: two different messages, of whatever lengths, are never padded to the same blocks.", "quantifier": "all pairs of messages", "why_tests_cant": "All pairs.", "anchors": ["src/sha256.rs: finalize", "src/sha512.rs: finalize", "src/ripemd160.rs: finalize", "src/sha1.rs: finalize"]}
{"id": "C42", "title": "Length extension / resuming from a digest", "statement": "For SHA-1 and SHA-256, from_midstate(digest bytes of m, padded length of m) followed by input(x) and finalize gives the digest of pad(m) || x: the documented meaning of midstates, and the reason bare hashes are not MACs.", "quantifier": "all messages m and suffixes x", "why_tests_cant": "All pairs.", "anchors": ["src/sha256.rs: midstate, from_midstate, finalize", "src/sha1.rs: from_midstate"]}
{"id": "C43", "title": "JSON schema admits every serialized hash", "statement": "For every hash type of 1 to 2^31-1 bytes, every human-readable serialization of a hash satisfies the generated JSON schema (length bounds and pattern), and the strings that deserialize are exactly those of the schema's length made only of characters of the pattern's class. (The pattern is not anchored, so the schema also admits strings that do not deserialize.)", "quantifier": "all hash values and all strings", "why_tests_cant": "All values.", "anchors": ["src/internal_macros.rs: JsonSchema", "src/hmac.rs: JsonSchema", "src/sha256t.rs: JsonSchema"]}
{"id": "C44", "title": "midstate reflects complete blocks only", "statement": "midstate() of a Merkle-Damgard engine is the serialized chaining value after exactly the complete blocks input so far; it does not change until a block is completed and does not depend on buffered bytes.", "quantifier": "all reachable engines", "why_tests_cant": "All prefixes.", "anchors": ["src/sha256.rs: midstate", "src/sha512.rs: midstate", "src/sha1.rs: midstate", "src/ripemd160.rs: midstate"]}
{"id": "C45", "title": "Tagged engine constructors agree", "statement": "For every Tag, Engine::<T>::default(), HashEngine::new() and Hash::<T>::engine() are the same engine, and Hash::<T>::hash(msg) equals from_engine after input(msg) in any chunking.", "quantifier": "all tags, messages, chunkings", "why_tests_cant": "All tags.", "anchors": ["src/sha256t.rs: Engine::default, new, Hash::engine, Hash::hash, from_engine"]}
{"id": "C46", "title": "Generic HMAC block-size limit", "statement": "hmac::Engine::new over an engine with block size above 128 panics for every key, in every build profile; at block sizes up to 128 the only panics are the underlying engine's.", "quantifier": "all engines, keys, profiles", "why_tests_cant": "Generic over user-supplied engines.", "anchors": ["src/hmac.rs: Engine::new"]}
{"id": "C47", "title": "SipHash keys are preserved", "statement": "keys() returns the keys given to with_keys after any sequence of inputs and clones; new() and default() have keys (0, 0).", "quantifier": "all keys and histories", "why_tests_cant": "All histories.", "anchors": ["src/siphash24.rs: keys, with_keys, new, Default"]}
{"id": "C48", "title": "Constants are the ones the standards derive", "statement": "The initial values and round constants written in the code are the ones the standards derive: SHA-256 and SHA-512 round constants are the first 32/64 bits of the fractional parts of the cube roots of the first 64/80 primes, their initial values those of the square roots of the first 8 primes (SHA-384: the ninth to sixteenth primes), the SHA-1 and RIPEMD-160 round constants are integer parts of 2^30 times square (cube) roots of 2, 3, 5, 7 or 10 and their initial values are the nibble sequence of the standards.", "quantifier": "all constant tables", "why_tests_cant": "Test vectors exercise the tables only through digests and cannot tell where the numbers come from.", "anchors": ["src/sha256.rs: K, Default, const_hash", "src/sha512.rs: Default, round!", "src/sha384.rs: Default", "src/sha1.rs: Default, process_block", "src/ripemd160.rs: Default, process_block"]}
{"id": "C49", "title": "Collisions reduce to the block function", "statement": "For SHA-1, SHA-256, SHA-512 and RIPEMD-160, two different messages within the length limits with equal digests contain a collision of the block function: among the calls of process_block that the two runs make there are two with different inputs (chaining value, block) and the same output. Buffering, padding and length encoding add no collisions.", "quantifier": "all pairs of messages in any pieces, all build configurations", "why_tests_cant": "No collision is known to test with; the claim is a reduction.", "anchors": ["src/sha256.rs: finalize, process_block", "src/sha1.rs: finalize, process_block", "src/sha512.rs: finalize, process_block", "src/ripemd160.rs: finalize, process_block", "src/internal_macros.rs: engine_input_impl!"]}
{"id": "C50", "title": "Overflow checks only add panics", "statement": "For every program over any number of engines that runs without a panic in a build with overflow checks, a build without them returns the same answers; so release and debug builds disagree only where the debug build panics.", "quantifier": "all programs and build configurations", "why_tests_cant": "Tests run in one profile, and the overflow needs counts near 2^61 bytes.", "anchors": ["src/internal_macros.rs: engine_input_impl!", "src/sha256.rs: finalize", "src/sha512.rs: finalize", "src/siphash24.rs: input", "src/hmac.rs: Engine"]}
{"id": "C51", "title": "Hash values made by hashing", "statement": "For every hash type, Hash::engine() is the engine's new() and default(); Hash::from_engine(e) panics exactly when e.finalize() does and otherwise holds the bytes finalize returns; Hash::hash(m) equals from_engine after inputting m in any pieces, panics included; within the length limits its bytes are the standard's digest and it displays as that digest in lower-case hexadecimal; parsing a text and comparing it with Hash::hash(m) succeeds exactly if the text is that digest in hexadecimal; sha256::Hash::const_hash and siphash24::Hash::hash_with_keys return the matching values.", "quantifier": "all hash types, messages, chunkings, texts, keys and build configurations", "why_tests_cant": "Tests compare a few vectors per type; the claim ties every constructor, the formatting and the parsing of every type together for all messages.", "anchors": ["src/internal_macros.rs: hash_type!", "src/sha256t.rs: Hash", "src/hmac.rs: Hash::engine, from_engine", "src/sha256.rs: const_hash", "src/siphash24.rs: hash_with_keys"]}
{"id": "C52", "title": "core::hash::Hash agrees with Eq", "statement": "Equal hash values feed every core::hash::Hasher the same data, values that are not equal are told apart by every Hasher whose write tells different data apart, and the hand-written implementation for sha256t::Hash feeds what the derived ones feed for the same bytes.", "quantifier": "all hash types, pairs of values and hashers", "why_tests_cant": "The contract between Eq and Hash is over all values and all hashers; a HashMap test uses one hasher and few keys.", "anchors": ["src/internal_macros.rs: hash_type!", "src/sha256t.rs: impl core::hash::Hash", "src/hmac.rs: Hash", "src/sha256.rs: Midstate"]}
{"id": "C53", "title": "Block functions are feed-forward permutations", "statement": "For every block and every difference D there is exactly one chaining state that the block function of SHA-1, SHA-256 (with and without SHA-NI) or SHA-512 moves by D word by word. So for every block and every aligned length there is exactly one midstate from which a SHA-1 or SHA-256 engine, resumed with from_midstate and given the block, ends in the same midstate.", "quantifier": "all blocks, differences and lengths", "why_tests_cant": "Existence and uniqueness over 2^160 to 2^512 states cannot be enumerated.", "anchors": ["src/sha256.rs: process_block", "src/sha256.rs: process_block_simd_x86_intrinsics", "src/sha512.rs: process_block", "src/sha1.rs: process_block", "src/sha256.rs: from_midstate", "src/sha1.rs: from_midstate"]}
{"id": "C54", "title": "SipHash absorption is a permutation of states", "statement": "For any data, every state of a siphash24 engine is reached by inputting that data from exactly one state; and two engines with different keys never have equal states after the same inputs.", "quantifier": "all states, keys, data and chunkings", "why_tests_cant": "Existence and uniqueness over 2^256 states and all pairs of 128-bit keys cannot be enumerated.", "anchors": ["src/siphash24.rs: input", "src/siphash24.rs: with_keys", "src/siphash24.rs: compress!", "src/siphash24.rs: from_midstate"]}
{"id": "C55", "title": "Only lengths decide panics and counts", "statement": "Replacing the bytes in any program over engines (inputs, keys, messages, midstate bytes) by other bytes of the same lengths never changes whether and how a call panics, the byte counts reported, or the lengths of the midstates and digests returned.", "quantifier": "all programs of calls, all algorithms, all build configurations", "why_tests_cant": "It compares pairs of executions over all byte contents; fuzzing samples single executions.", "anchors": ["src/internal_macros.rs: engine_input_impl!", "src/sha256.rs: process_block, finalize, midstate, from_midstate", "src/sha512.rs: process_block, finalize", "src/sha1.rs: process_block, finalize", "src/ripemd160.rs: process_block, finalize", "src/siphash24.rs: input, finalize", "src/hmac.rs: Engine"]}
{"id": "C56", "title": "Work is fixed by the length", "statement": "For the block-based engines, after n bytes input in any pieces exactly n / BLOCK_SIZE calls of process_block have been made, on the blocks of the message in order; hashing n bytes makes (n + L) / BLOCK_SIZE + 1 calls in all, where L is the size of the length field; finalize itself makes one or two.", "quantifier": "all messages and chunkings within the length limits", "why_tests_cant": "Calls of a private function are not observable by tests, and the count is claimed for every length and chunking.", "anchors": ["src/internal_macros.rs: engine_input_impl!", "src/sha256.rs: finalize", "src/sha512.rs: finalize", "src/sha1.rs: finalize", "src/ripemd160.rs: finalize"]}
{"id": "C57", "title": "Tagged hashes and HMAC reduce to the hash function", "statement": "If two different pairs of a tag and a message have the same BIP-340 tagged hash, the runs of SHA-256 on the two tags or on the two tagged messages contain a collision of process_block. If two different pairs of a key block and a message have the same HMAC, the inner or the outer runs of the hash function contain one; for keys of equal length it is enough that the keys or messages differ, and the keys themselves may then collide.", "quantifier": "all tags, keys and messages within the length limits, SHA-1, SHA-256, SHA-512 and RIPEMD-160, all build configurations", "why_tests_cant": "No collision is known to test with; the claim is a reduction over all pairs.", "anchors": ["src/sha256t.rs: Hash::hash", "src/sha256t.rs: Tag", "src/hmac.rs: Engine::new, finalize", "src/sha256.rs: finalize, process_block"]}
{"id": "C58", "title": "Hashing what a reader gives", "statement": "Copying a reader into an engine with std::io::copy inputs exactly the bytes read before the end of the data or the first error other than an interruption, whatever sizes the reads have; it returns that error, or else the number of bytes. For a reader without errors the digest is the hash of the bytes read.", "quantifier": "all sequences of read results, all engines with io::Write reached by any program, all build configurations", "why_tests_cant": "The documentation example that does this is under cfg(std), which is never set, so it is not even compiled; read sizes, interruptions and errors form an infinite space.", "anchors": ["src/lib.rs: crate documentation, hashing content from a reader", "src/impls.rs: io::Write for the engines", "src/internal_macros.rs: engine_input_impl!"]}
{"id": "C59", "title": "The panics there are, and no undefined behaviour", "statement": "In every program over any number of engines, the only calls that can fail are: input, finalize and hmac::Engine::new(key) with arithmetic overflow, only in builds with overflow checks; and from_midstate, whose panic is determined by the engine type and the length argument. No call reads or writes out of bounds, uses a wrong slice index or length, or fails a debug assertion. In a build without overflow checks a program that does not call from_midstate never panics. The raw pointer accesses of the SHA-NI block function are in bounds exactly if the buffer has at least 64 bytes, and only the first 64 matter.", "quantifier": "all programs of calls over all engine types, all build configurations, all buffers", "why_tests_cant": "Absence of panics and of out-of-bounds accesses over every program cannot be sampled, and out-of-bounds reads of a few bytes usually go unnoticed.", "anchors": ["src/sha256.rs: process_block_simd_x86_intrinsics", "src/siphash24.rs: input, u8to64_le, load_int_le!", "src/internal_macros.rs: engine_input_impl!", "src/sha256.rs: finalize, from_midstate", "src/sha512.rs: finalize, from_midstate", "src/hmac.rs: Engine::new"]}
{"id": "C60", "title": "Results do not depend on the target", "statement": "A program of calls on any number of engines that no overflow check stops in a build with overflow checks gets the same answers (digests, midstates, counts, other panics) in every build whose usize is at least as wide, whatever the profile, the CPU features, the endianness and the enabled code paths of either build.", "quantifier": "all programs of calls over all engine types, all pairs of builds with usize of 16, 32 or 64 bits, the first with overflow checks and no wider than the second", "why_tests_cant": "It relates runs on different hardware and profiles; a test runs in one build, and differences would first appear for counts near the limit of usize or on code paths chosen by CPU detection.", "anchors": ["src/internal_macros.rs: engine_input_impl!", "src/sha256.rs: Engine, finalize, process_block", "src/sha512.rs: Engine", "src/siphash24.rs: Engine", "src/hmac.rs: Engine", "src/lib.rs: HashEngine"]}
{"id": "C61", "title": "A midstate and a count are all an engine remembers at a block boundary", "statement": "Two engines of the same type reached by any calls, with the same n_bytes_hashed, a multiple of the block size (8 for SipHash), and the same midstate cannot be told apart by any further calls. So two messages of equal length that lead to the same midstate there have equal hashes with every continuation. The same holds for two HMAC engines made from keys, and fails for HMAC engines made by from_midstate.", "quantifier": "all pairs of reachable engines of every type, all continuations, all build configurations", "why_tests_cant": "It quantifies over pairs of histories and all continuations; stale bytes left in a buffer would influence results only for particular histories.", "anchors": ["src/internal_macros.rs: engine_input_impl!", "src/sha256.rs: midstate, finalize", "src/sha512.rs: midstate, finalize", "src/ripemd160.rs: midstate", "src/siphash24.rs: input, midstate", "src/hmac.rs: midstate, from_midstate"]}
{"id": "C62", "title": "An engine whose input panicked is still a consistent engine", "statement": "input can panic only when the length counter would overflow. If the caller catches the panic and keeps the engine, the engine cannot be told apart from one that was given a proper prefix of the slice: for the block engines the prefix that brings the count to one block below 2^usizeBits (nothing if the count is past that), for SipHash nothing at all, for HMAC what its inner engine absorbs. Programs that catch panics and go on get exactly the answers of message logs with that prefix rule.", "quantifier": "all reachable engines of every type, all slices, all programs over any number of engines, all build configurations", "why_tests_cant": "The panic needs a counter within a slice of 2^usizeBits, and the claim is about every continuation after it; no test of the crate catches a panic of input.", "anchors": ["src/internal_macros.rs: engine_input_impl!", "src/siphash24.rs: input", "src/hmac.rs: input", "src/sha384.rs: input", "src/sha512_256.rs: input", "src/sha256t.rs: input"]}
{"id": "C63", "title": "HMAC over engines written by others", "statement": "If an implementation of HashEngine computes a function H on messages up to some length, however they are split up, with blocks of at most 128 bytes and digests no longer than a block, then hmac::Engine over it computes RFC 2104 HMAC of H for every key and every split of the message, and is again such an implementation. The provided methods hash and hash_byte_chunks compute H. If digests are longer than blocks, hashed keys are cut to the block size. With blocks of more than 128 bytes every construction panics, also in builds without debug assertions. The crate's own hash engines meet the contract.", "quantifier": "all implementations of HashEngine that meet the contract, all keys, all messages, all ways to split them, all build configurations", "why_tests_cant": "It is about implementations of a trait that do not exist yet; tests can only instantiate the engines of the crate.", "anchors": ["src/hmac.rs: Engine::new, input, finalize", "src/lib.rs: HashEngine::hash, HashEngine::hash_byte_chunks"]}
{"id": "C64", "title": "With overflow checks a digest is the right one or there is none", "statement": "In a build with overflow checks, on any target with 16, 32 or 64 bit usize, hashing any message in any pieces with any engine type, and HMAC with any key, either returns exactly the digest of the specification or panics on an overflow check; it never returns a wrong digest. For the plain hash functions the digest is returned exactly if the padded length fits usize and the bit length fits 64 bits.", "quantifier": "all engine types including nested HMAC and tagged hashes, all keys, all messages, all ways to split them, all targets", "why_tests_cant": "The interesting messages are as long as the address space or longer than 2^61 bytes; tests cannot hash them and would see one target only.", "anchors": ["src/internal_macros.rs: engine_input_impl!", "src/sha256.rs: finalize", "src/sha1.rs: finalize", "src/sha512.rs: finalize", "src/ripemd160.rs: finalize", "src/hmac.rs: Engine::new, finalize", "src/lib.rs: HashEngine::hash_byte_chunks"]}
{"id": "C65", "title": "from_midstate keeps midstate and length", "statement": "from_midstate with a length that is a multiple of the block size gives an engine whose n_bytes_hashed is that length and whose midstate is the one given; for RIPEMD-160 the bytes of each of the five words come back reversed. For SHA-1, SHA-256, tagged SHA-256 and HMAC over these every midstate value and every aligned length is that of an engine, and engines made from different midstates or lengths can be told apart. At block boundaries two reachable engines can be told apart exactly if they differ in midstate or count.", "quantifier": "all midstates, all aligned lengths, all reachable engines, all engine types that can resume, all build configurations", "why_tests_cant": "The claim covers all 2^256 midstates and lengths no message in memory has, and the equivalence is over every continuation.", "anchors": ["src/sha1.rs: from_midstate, midstate", "src/sha256.rs: from_midstate, midstate", "src/ripemd160.rs: from_midstate, midstate", "src/sha256t.rs: from_midstate, midstate", "src/hmac.rs: from_midstate, midstate"]}
{"id": "C66", "title": "Branches and addresses do not depend on keys and messages", "statement": "For every program of calls on a pool of engines (new, default, HMAC keys, SipHash keys, from_midstate, clone, input, midstate, finalize), the branches taken and the array elements read and written by each call are the same as for the program in which all keys, midstates and messages are replaced by zeroes of the same lengths.", "quantifier": "all programs, all engine types including nested HMAC and tagged hashes, all keys, midstates and messages, all build configurations", "why_tests_cant": "It compares the control flow and the addresses of two executions for all pairs of inputs; a test sees results, not addresses, and for a few pairs only.", "anchors": ["src/internal_macros.rs: engine_input_impl!", "src/sha256.rs: process_block, software_process_block, process_block_simd_x86_intrinsics, finalize, midstate, from_midstate", "src/sha512.rs: process_block, finalize, midstate, from_midstate", "src/sha1.rs: process_block", "src/ripemd160.rs: process_block", "src/siphash24.rs: input, u8to64_le, load_int_le!", "src/hmac.rs: Engine::new, finalize"]}
{"id": "C67", "title": "The translated text computes the standards", "statement": "The functions obtained from the crate's Rust text by mechanical translation compute the standards: `Hash::hash` of sha1, sha256, sha384, sha512, sha512_256 and ripemd160 (messages below 2^61 bytes on 64-bit targets), `Hash::hash`, `hash_with_keys` and `hash_to_u64_with_keys` of siphash24, every engine type fed in any chunking on any target within its limits, and HMAC with any key over any engine type.", "quantifier": "all messages, chunkings, keys, engine types including nested HMAC and tagged hashes, build configurations", "why_tests_cant": "It is about all messages, and about the program text rather than a model written by hand.", "anchors": ["src/sha1.rs", "src/sha256.rs", "src/sha384.rs", "src/sha512.rs", "src/sha512_256.rs", "src/ripemd160.rs", "src/siphash24.rs", "src/sha256t.rs", "src/hmac.rs", "src/internal_macros.rs: engine_input_impl!, hash_type!", "src/lib.rs: HashEngine"]}
{"id": "C68", "title": "Programs over the translated text behave like message logs", "statement": "Every program of calls on a pool of engines (new, default, HMAC keys, SipHash keys, from_midstate, clone, input, n_bytes_hashed, midstate, finalize) gets from the mechanically translated engines exactly the answers (values and panics) that it gets from logs of the bytes input so far.", "quantifier": "all programs, all engine types including nested HMAC and tagged hashes, all build configurations", "why_tests_cant": "It ranges over all interleavings of calls on any number of engines, and over all build configurations.", "anchors": ["src/lib.rs: HashEngine", "src/internal_macros.rs: engine_input_impl!", "src/sha1.rs", "src/sha256.rs", "src/sha384.rs", "src/sha512.rs", "src/sha512_256.rs", "src/ripemd160.rs", "src/siphash24.rs", "src/sha256t.rs", "src/hmac.rs"]}
{"id": "C69", "title": "The translated const_hash and hash_tag follow the standards", "statement": "The mechanically translated `const_hash` returns the SHA-256 digest and equals the translated `Hash::hash` panics included; the translated `hash_tag` returns BIP-340's midstate, and a tagged hash built from it is SHA-256 of the doubled tag digest followed by the message.", "quantifier": "all messages and tags shorter than the address space less 300 bytes, both versions of the rounds, all targets", "why_tests_cant": "All lengths and contents; const_hash has its own loop, padding and rounds, and a wrong case may need a particular length.", "anchors": ["src/sha256.rs: Hash::const_hash, Midstate::const_hash, Midstate::hash_tag, read_u32, copy_w", "src/sha256t.rs: Hash::hash"]}
{"id": "C70", "title": "The translated conversions and comparison do what they say", "statement": "Each mechanically translated `from_slice` accepts exactly the slices of its type's length, keeps their bytes, and otherwise reports both lengths; `fixed_time_eq` is equality of slices of equal length and panics for others; siphash24's `as_u64` and `from_u64` are inverse.", "quantifier": "all slices, all nine types, all 64-bit integers and 8-byte hashes", "why_tests_cant": "All slices of all lengths and all integers.", "anchors": ["src/internal_macros.rs: hash_type!", "src/sha256t.rs: from_slice", "src/sha256.rs: Midstate::from_slice", "src/lib.rs: FromSliceError", "src/cmp.rs: fixed_time_eq", "src/siphash24.rs: as_u64, from_u64"]}
{"id": "C71", "title": "The translated conversions of every hash type keep the bytes", "statement": "For every hash type, in the mechanically translated text: whatever makes a value of bytes (`from_byte_array`, `from_bytes_ref`, `from_bytes_mut`) and whatever shows its bytes (`to_byte_array`, `as_byte_array`, `as_bytes`, `to_bytes`, both `AsRef`) are inverse to each other; assigning through `from_bytes_mut` puts the value's bytes into the array; `all_zeros` and `Default` are LEN zero bytes; `from_slice` accepts exactly slices of LEN bytes; indexing by number or range gives those bytes and panics exactly outside.", "quantifier": "all ten hash types including hmac of any length, all values, byte strings, slices, indices and ranges", "why_tests_cant": "All byte strings, lengths and ranges, for functions that a macro repeats for each type.", "anchors": ["src/internal_macros.rs: hash_type!, hash_trait_impls!, arr_newtype_fmt_impl!", "src/sha256t.rs: Hash", "src/hmac.rs: Hash", "src/sha256.rs: Midstate"]}
{"id": "C72", "title": "The translated comparisons agree with the bytes", "statement": "In the mechanically translated text, hashes of every type are equal exactly if their bytes are, are ordered like the big-endian numbers that their bytes write, and `partial_cmp` agrees with `cmp`; two `FromSliceError`s are equal exactly if both lengths are, and `Display` of one reports the length found and the length expected in this order.", "quantifier": "all ten hash types, all pairs of values, all errors", "why_tests_cant": "All pairs; derived and hand-written comparisons may differ in a single position.", "anchors": ["src/internal_macros.rs: hash_type!", "src/sha256t.rs: PartialEq, Ord", "src/hmac.rs: Hash", "src/lib.rs: FromSliceError"]}
{"id": "C73", "title": "The translated formatting and parsing are base 16 and inverse", "statement": "In the mechanically translated text, `LowerHex`, `UpperHex`, `Display` and `Debug` of every hash type write two hexadecimal digits for each byte in order, in the right case, with `0x` exactly where asked (`Debug` always); `FromStr` and `FromHex` accept exactly strings of twice as many digits of either case, say which length or first character is wrong otherwise, and give back what was written.", "quantifier": "all ten hash types, all values, all strings, all flags", "why_tests_cant": "All values and all strings.", "anchors": ["src/internal_macros.rs: arr_newtype_fmt_impl!, hash_trait_impls!", "src/sha256t.rs: fmt, from_str", "src/hmac.rs: fmt, from_str", "src/sha256.rs: Midstate"]}
{"id": "C74", "title": "The translated provided methods and from_engine", "statement": "In the mechanically translated text, the provided trait methods `hash` and `hash_byte_chunks` over every engine type give the standard's digest of the concatenated slices, and the two agree, panics included, wherever the slices fit the address space together; `from_engine` of every hash type after `engine` and `input` is `Hash::hash`; `hmac::Hash::from_engine` on a keyed engine is RFC 2104's HMAC. The provided `new` is `Default` and the engine's own `new`.", "quantifier": "all engine types including nested HMAC and tagged hashes, all messages, chunkings and keys, all build configurations", "why_tests_cant": "All messages and chunkings, and agreement also where a call panics.", "anchors": ["src/lib.rs: HashEngine::hash, HashEngine::hash_byte_chunks", "src/internal_macros.rs: hash_type!", "src/sha256t.rs: from_engine", "src/hmac.rs: from_engine"]}
{"id": "C75", "title": "Writing to a translated engine is hashing", "statement": "In the mechanically translated text, `write` of every engine type that implements `bitcoin_io::Write`, and of `std::io::Write` for `hmac::Engine`, is `input` and reports the whole buffer as written, and `flush` changes nothing; after any sequence of `write`, `write_all` and `flush` the digest is the standard's of the bytes written. Only sha384 and sha512_256 engines are no writers.", "quantifier": "all sequences of calls, all buffers, all engine types, all build configurations", "why_tests_cant": "All sequences of calls with all buffers.", "anchors": ["src/impls.rs", "src/hmac.rs: io::Write"]}
{"id": "C76", "title": "Translated serialization gives the digits or the bytes and comes back", "statement": "In the mechanically translated text, `Serialize` of every hash type gives a human readable format the lower case base 16 digits of the bytes, two per byte, and any other format the bytes; `Deserialize` from a format of the same kind that finds what was serialized, a string also when handed over as bytes, returns the same value.", "quantifier": "all values of all hash types, all serializers and deserializers, all build configurations", "why_tests_cant": "All values and both kinds of format.", "anchors": ["src/serde_macros.rs", "src/hmac.rs: serde_impl"]}
{"id": "C77", "title": "Translated deserialization accepts exactly its serializations, with these errors otherwise", "statement": "In the mechanically translated text, `Deserialize` of every hash type succeeds exactly on strings (or bytes) that are 2N base 16 digits of either case in a human readable format, and exactly on N bytes in any other, with the value they denote; every other datum gives the error stated: the parser's, an invalid value for bytes that are not UTF-8, an invalid length, or an invalid type. It never panics.", "quantifier": "all deserializers and everything they may hand over, all hash types, all build configurations", "why_tests_cant": "All strings and byte strings, and all ways of handing them over.", "anchors": ["src/serde_macros.rs"]}
{"id": "C78", "title": "Translated core::hash::Hash feeds the bytes", "statement": "In the mechanically translated text, every hash type feeds a `Hasher` the length of its bytes and then the bytes, so that equal values feed it the same, and a hasher that tells data apart tells different values apart.", "quantifier": "all hashers, all values of all hash types, all build configurations", "why_tests_cant": "All hashers and all values.", "anchors": ["src/internal_macros.rs", "src/sha256t.rs", "src/hmac.rs"]}
{"id": "C79", "title": "The translated JSON schema describes the accepted strings", "statement": "In the mechanically translated text, every hash type but `sha256::Midstate` has a schema called Hash for strings of exactly 2N characters with the pattern of base 16 digits; its serializations conform to it, and the strings it deserializes are exactly those of that length that match the pattern as a whole. For hmac::Hash<2^31> the bound overflows u32: a panic with overflow checks, 0 without.", "quantifier": "all hash types, all N below 2^31, all strings, all build configurations", "why_tests_cant": "All strings, and all N of hmac::Hash<N>.", "anchors": ["src/internal_macros.rs: JsonSchema", "src/hmac.rs: JsonSchema", "src/sha256t.rs: JsonSchema"]}
{"id": "C80", "title": "The panics of the translated text", "statement": "In the mechanically translated text, whatever a program does with any number of engines of any types, a call panics only in `input`, `finalize` or `hmac::Engine::new`, by arithmetic overflow in a build with overflow checks, or in `from_midstate`, as the byte count decides. No slice index or length, debug assertion, unwrapped value or loop of the text ever fails otherwise; without overflow checks and `from_midstate` nothing panics.", "quantifier": "all programs, any number of engines, all build configurations", "why_tests_cant": "All programs and all lengths.", "anchors": ["src/internal_macros.rs: engine_input_impl", "src/sha1.rs", "src/sha256.rs", "src/sha512.rs", "src/ripemd160.rs", "src/siphash24.rs", "src/hmac.rs"]}
{"id": "C81", "title": "Builds of the translated text agree", "statement": "In the mechanically translated text, SHA-NI, the small_hash feature, endianness and debug assertions change no answer of any program. Overflow checks only add panics: a program that none of them stops gets the same answers from a build without them, and on every target whose usize is as wide or wider. What a program panics on, counts and the lengths it gets depend only on the lengths of its data.", "quantifier": "all programs, all pairs of build configurations with 16-, 32- or 64-bit usize", "why_tests_cant": "Pairs of builds for different targets, all programs.", "anchors": ["src/sha256.rs: process_block", "src/sha512.rs", "src/internal_macros.rs: engine_input_impl"]}
{"id": "C82", "title": "Midstates of the translated text", "statement": "In the mechanically translated text, an engine of SHA-1, SHA-256 or tagged SHA-256 that a caller can obtain and that has hashed whole blocks resumes from its midstate and count: no caller can tell the two apart. from_midstate panics exactly at other counts, and always for the SHA-512 family; else it gives an engine with the count and, for the engines that keep them, the midstate. Input that completes no block leaves the midstate as it is. Engines with whole blocks hashed are the same to every caller exactly if counts and midstates are.", "quantifier": "all engines reachable by constructors and input, all midstates and counts, all later inputs, all build configurations", "why_tests_cant": "All reachable states and all continuations.", "anchors": ["src/lib.rs: HashEngine", "src/sha1.rs: from_midstate", "src/sha256.rs: from_midstate", "src/sha512.rs: from_midstate", "src/hmac.rs: from_midstate"]}
{"id": "C83", "title": "Where midstates of the translated text cannot be resumed", "statement": "In the mechanically translated text, an engine of RIPEMD-160 with whole blocks hashed resumes exactly if each word of its midstate is a palindrome of bytes; an engine of SipHash that has hashed anything never does; one of the SHA-512 family, or of HMAC over it, never does. A new HMAC engine over SHA-1 or SHA-256 resumes, but one with a block of input computes another digest. These are the defects of C18 to C21, found in the text itself.", "quantifier": "all engines reachable by constructors and input, all keys, all build configurations", "why_tests_cant": "Statements about all states, among them that none can be resumed.", "anchors": ["src/ripemd160.rs: from_midstate", "src/siphash24.rs: from_midstate", "src/sha512.rs: from_midstate", "src/hmac.rs: from_midstate"]}
{"id": "C84", "title": "fixed_time_eq of the translated text reads every byte once", "statement": "In the mechanically translated text, written with every branch, index and slice recorded, fixed_time_eq on slices of equal length takes one slice of each, then reads every byte of both once and in order, with no branch but the loop's; on slices of different lengths it panics at once. So the sequence depends on the lengths only. Erasing the record gives the translated function.", "quantifier": "all pairs of slices, all build configurations", "why_tests_cant": "A relational property over all pairs of inputs, about accesses and not results.", "anchors": ["src/cmp.rs: fixed_time_eq"]}
{"id": "C85", "title": "Branches and addresses of the translated text do not depend on keys and messages", "statement": "In the mechanically translated text, written with every branch, index and slice recorded, what is recorded of each call of a program on engines is the same as for the program with all keys, midstates and messages replaced by zeroes of the same lengths. The same holds of the one-call functions: hash, hash_byte_chunks, const_hash, hash_tag, hash_with_keys, hash_to_u64_with_keys. Erasing the record gives the translated functions.", "quantifier": "all programs, all engine types including nested HMAC and tagged hashes, all keys, midstates and messages, all build configurations", "why_tests_cant": "It compares the control flow and the addresses of two executions for all pairs of inputs.", "anchors": ["src/internal_macros.rs: engine_input_impl!, hash_type!", "src/sha256.rs: process_block, software_process_block, process_block_simd_x86_intrinsics, finalize, midstate, from_midstate, const_hash, hash_tag", "src/sha512.rs: process_block, finalize, midstate, from_midstate", "src/sha1.rs: process_block", "src/ripemd160.rs: process_block", "src/siphash24.rs: input, u8to64_le, load_int_le!, hash_with_keys", "src/hmac.rs: Engine::new, finalize", "src/lib.rs: hash, hash_byte_chunks"]}
{"id": "C86", "title": "The translated hmac.rs over hash engines written by others", "statement": "The mechanically translated text of hmac.rs and of the provided methods of HashEngine, over any engine that computes a function H and has blocks of at most 128 bytes, computes RFC 2104 of H for every key and every split of the message; hash and hash_byte_chunks compute H. The result is again such an engine. With larger blocks every construction panics in every build. With blocks of at most 128 bytes construction panics only where the engine does.", "quantifier": "all engines satisfying the contract, all keys, messages and splits within what the engine handles, all build configurations", "why_tests_cant": "It ranges over engines that do not exist in the crate; tests can use only particular ones.", "anchors": ["src/hmac.rs: Engine::new, Engine::from_inner_engines, input, finalize", "src/lib.rs: HashEngine::hash, HashEngine::hash_byte_chunks"]}
{"id": "C87", "title": "The work of the translated text is linear in the length of what is hashed", "statement": "In the mechanically translated text, the number of branches, loop tests and array or slice accesses of each call on an engine that callers can obtain is at most a given constant plus a given number for each block that becomes full, where the blocks are those of the bytes waiting in the buffer and the new ones. finalize compresses one block, or two if the padding does not fit into the first. hash takes the blocks of the padded message and a constant, hash_byte_chunks a constant for each slice more; making an HMAC engine is linear in the length of the key. For example SHA-256 of n bytes takes at most 368 * ((n + 8) / 64 + 1) + 68. const_hash of n bytes takes at most 637 * ((n + 72) / 64) + 75, and hash_tag 1541 more, for every n.", "quantifier": "all engine types including nested HMAC and tagged hashes, all reachable engines, all messages and keys, all build configurations", "why_tests_cant": "A bound on the number of steps for messages of every length.", "anchors": ["src/internal_macros.rs: engine_input_impl!", "src/sha256.rs: process_block, finalize, midstate, from_midstate", "src/sha512.rs: process_block, finalize, midstate, from_midstate", "src/sha1.rs: process_block, finalize", "src/ripemd160.rs: process_block, finalize", "src/siphash24.rs: input, u8to64_le", "src/hmac.rs: Engine::new, finalize", "src/sha256t.rs: Engine", "src/lib.rs: hash, hash_byte_chunks"]}
{"id": "C88", "title": "An engine of the translated text whose input panicked is still a consistent engine", "statement": "In the mechanically translated text, input of an engine that callers can obtain can panic only by overflowing the length counter. A caller that catches the panic holds an engine that cannot be told apart from one that was given a proper prefix of the slice and did not panic: no byte is absorbed twice, skipped or reordered. The block engines stop at the last block boundary below 2^usizeBits, or where they were if they were past it; siphash24 has assigned to no field; an HMAC engine has its outer engine untouched. So a program that catches panics of input and keeps using its engines gets the answers of logs that have grown by those prefixes.", "quantifier": "all engine types including nested HMAC and tagged hashes, all reachable engines, all slices, all programs over any number of engines, all build configurations", "why_tests_cant": "A panic in input needs 2^usizeBits bytes; the claim is about every state in which it can happen and everything a caller can do afterwards.", "anchors": ["src/internal_macros.rs: engine_input_impl!", "src/siphash24.rs: input", "src/hmac.rs: Engine::input", "src/sha384.rs: input", "src/sha512_256.rs: input", "src/sha256t.rs: input", "src/sha1.rs: process_block", "src/sha256.rs: process_block", "src/sha512.rs: process_block", "src/ripemd160.rs: process_block"]}
{"id": "C89", "title": "Collisions of the translated text are collisions of its block functions", "statement": "If the mechanically translated text of SHA-1, SHA-256, SHA-384, SHA-512, SHA-512/256 or RIPEMD-160 gives two different messages, cut into slices in any way, the same digest, then new engines that were input parts of the two padded messages exhibit two different calls of the block function (midstate before, block) with the same midstate afterwards; or, for the truncated functions only, two different final midstates are cut to the same digest. For tagged hashes a collision between different pairs of tag and message gives such a collision of SHA-256 on the tags or on the prefixed messages. For HMAC a collision between different pairs of key block and message gives one on the inner or the outer hash.", "quantifier": "all pairs of messages and slicings whose length fits the counters, all tags, all keys, all build configurations", "why_tests_cant": "No test finds a collision of SHA-256; the claim is an implication over all pairs of messages that says where a collision would have to come from.", "anchors": ["src/internal_macros.rs: engine_input_impl!", "src/sha1.rs: process_block", "src/sha256.rs: process_block", "src/sha512.rs: process_block", "src/ripemd160.rs: process_block", "src/sha384.rs: finalize", "src/sha512_256.rs: finalize", "src/sha256t.rs: Tag", "src/hmac.rs: Engine::new, finalize"]}
{"id": "C90", "title": "Messages with equal midstates cannot be told apart by the translated text, and the published SHA-1 collision is one", "statement": "If two messages of whole blocks and equal length leave new engines of the translated text with equal midstates, then the two engines cannot be told apart by any further calls, and any continuation of the one has the digest of the same continuation of the other. The two 320-byte messages of the published SHA-1 collision are different and have this property: for every continuation, in any slices, the translated text of SHA-1 gives them equal digests. The translated block function of SHA-1 collides on blocks of them.", "quantifier": "all pairs of messages of whole blocks, all continuations including ones that panic, all build configurations", "why_tests_cant": "The continuations are unbounded; a test can append only some.", "anchors": ["src/sha1.rs: process_block, midstate, finalize", "src/internal_macros.rs: engine_input_impl!"]}
{"id": "C91", "title": "Which keys of the translated text of HMAC are equivalent", "statement": "Over any engine, in the translated text: a key longer than the block gives the same HMAC engine as its digest, two longer keys with equal hashes give the same engine, zero bytes that fill a key up to the block change nothing, and HashEngine::new and Default use the key of zero bytes. Over the engines of the crate a longer key can be replaced by its hash. The two messages of the published SHA-1 collision, continued in any way, are equivalent keys of HMAC-SHA1. Conversely, if two keys give HMAC engines with equal midstates then their key blocks are equal, or their key blocks xor 0x36 are themselves a collision of the block function: different, with the same midstate after them.", "quantifier": "all engine dictionaries, all keys, all continuations, all build configurations", "why_tests_cant": "Equality of engine states over all pairs of keys and over arbitrary engine implementations cannot be sampled.", "anchors": ["src/hmac.rs: Engine::new, with_engines, Default, midstate", "src/sha1.rs: process_block"]}
{"id": "C92", "title": "Length extension of the translated text", "statement": "With the translated text, who knows the digest of a message and its length, but not the message, obtains the digest of the padded message followed by any further bytes: from_midstate of the digest (for RIPEMD-160 too) and the padded length, then input, then finalize, never panics and gives that digest, for SHA-1, SHA-256 and RIPEMD-160. Digests of SHA-384 and SHA-512/256 do not have the type of a midstate and from_midstate of SHA-512 always panics, so those cannot be extended in this way.", "quantifier": "all messages, all extensions in any slices whose length fits the counters, all build configurations", "why_tests_cant": "The claim relates every message to every extension; the panic of SHA-512 is claimed for every midstate and length.", "anchors": ["src/sha1.rs: from_midstate, midstate, finalize", "src/sha256.rs: from_midstate, midstate", "src/ripemd160.rs: from_midstate, midstate", "src/sha512.rs: from_midstate", "src/sha384.rs: from_midstate", "src/sha512_256.rs: from_midstate"]}
{"id": "C93", "title": "With overflow checks the translated text returns the right digest or panics", "statement": "In a build with overflow checks, on a target with any usize, hashing any message in any slices with the translated text of any engine type, or HMAC with any key, returns the digest of the specification or panics on an overflow check; it never returns another digest. For the plain functions the digest is returned exactly if the padded message fits the byte counter and its number of bits fits 64 bits.", "quantifier": "all engine types including nested HMAC and tagged hashes, all messages and keys of any length, all slicings, 16-, 32- and 64-bit usize, all build configurations with overflow checks", "why_tests_cant": "On 32- and 64-bit targets the limits lie at 2^32 and 2^61 bytes.", "anchors": ["src/internal_macros.rs: engine_input_impl!", "src/sha1.rs: finalize", "src/sha256.rs: finalize", "src/sha512.rs: finalize", "src/sha384.rs: finalize", "src/sha512_256.rs: finalize", "src/ripemd160.rs: finalize", "src/siphash24.rs: input, finalize", "src/hmac.rs: Engine::new, finalize"]}
{"id": "C94", "title": "The translated block functions are feed-forward permutations and SipHash's absorption a permutation", "statement": "For every 64-byte block there is exactly one midstate that an engine of the translated text of SHA-256 or SHA-1, resumed from it at any block boundary, shows unchanged after inputting the block. For every block and every word-by-word difference there is exactly one state that the translated block function of SHA-512, SHA-256 (with or without SHA-NI) or SHA-1 moves by that difference. For any data every state of the translated SipHash is reached by inputting that data from exactly one state, and engines with different keys never get the same state from the same data.", "quantifier": "all blocks, all differences, all data and slicings, all states, all keys, all build configurations", "why_tests_cant": "Unique existence over 2^256 or 2^512 states cannot be tested; a wrong schedule or round can be a permutation on every sampled pair.", "anchors": ["src/sha1.rs: process_block, from_midstate, midstate", "src/sha256.rs: process_block, from_midstate, midstate", "src/sha512.rs: process_block", "src/siphash24.rs: c_rounds, input, with_keys, from_midstate, midstate"]}
{"id": "C95", "title": "What the translated text returns beyond the limits of its counters", "statement": "In a build without overflow checks the translated engines take any number of bytes, cut in any way, count them modulo 2^w for a w-bit usize, and return the standard's digest with a length field made from that count (and the bit count modulo 2^64); tagged hashes count on from their tag, HMAC is RFC 2104 of that function for every key, and SipHash is right at every length. Where the true length does not fit, the digest is not the standard's unless the last padded block and one that differs from it only in the length field lead to midstates beginning with the same digest. With overflow checks finalize of every engine that can be made panics exactly when the padded length does not fit usize or the bit length does not fit u64.", "quantifier": "all messages and slicings of any total length, all keys and tags, all build configurations and usize widths", "why_tests_cant": "The shortest such message has 2^32 bytes on the smallest supported targets and 2^61 on common ones; the last claim is about all of them at once.", "anchors": ["src/internal_macros.rs: engine_input_impl", "src/sha1.rs: finalize", "src/sha256.rs: finalize", "src/sha512.rs: finalize", "src/ripemd160.rs: finalize", "src/siphash24.rs: input, finalize", "src/hmac.rs: new, finalize", "src/sha256t.rs: engine"]}
{"id": "C96", "title": "From a message to a printed digest and back, in the translated text", "statement": "In the translated text, Hash::engine gives the engine that new and default give, and hashing slices through Hash::engine, input and Hash::from_engine gives a value with exactly the bytes the engine computes, or panics as the engine does; Hash::hash is that for one slice. Within the lengths of C67 that value prints as the digest of the definition: two lower-case hexadecimal digits for each byte, after 0x with Debug. A string parses to a value equal to the hash of a message if and only if it is exactly that digest in hexadecimal digits of either case. Two hash values are equal if and only if the digests are, and are ordered like the digests read as big-endian numbers.", "quantifier": "all hash types and tags, all messages and slicings within the lengths of C67, all strings, all build configurations and usize widths", "why_tests_cant": "Tests compare a handful of messages with a handful of strings; here every string that is not the digest is rejected and every spelling of the digest is accepted, for every message.", "anchors": ["src/internal_macros.rs: hash_type, arr_newtype_fmt_impl, hash_trait_impls", "src/sha256t.rs: Hash", "src/hmac.rs: Hash", "src/sha256.rs: Hash"]}
{"id": "C97", "title": "What tells two engines of the translated text apart", "statement": "Two engines of one type of the translated text, made and fed by any public calls, give the same counts, midstates, digests and panics under all further calls if and only if their counts and midstates are equal now and their midstates are equal after every slice that completes the current block. For SipHash too, engines that no single slice ending within or with the current block tells apart are never told apart. HMAC engines over any engine type, also ones written by others, are never told apart if their inner engines and their outer engines are not. Conversely, HMAC engines over a block hash function whose outer engines have whole blocks and the same count, as those made from keys have, are told apart if their inner or their outer engines are.", "quantifier": "all pairs of reachable engines of the block hash types and SipHash, all further sequences of slices of any total length, all build configurations and usize widths; for HMAC all engine types", "why_tests_cant": "Indistinguishability speaks of all continuations of two arbitrary engines; a test looks at a few continuations of a few engines.", "anchors": ["src/internal_macros.rs: engine_input_impl", "src/sha1.rs: Engine", "src/sha256.rs: Engine", "src/sha512.rs: Engine", "src/sha384.rs: Engine", "src/sha512_256.rs: Engine", "src/ripemd160.rs: Engine", "src/sha256t.rs: Engine", "src/siphash24.rs: Engine", "src/hmac.rs: Engine"]}
{"id": "C98", "title": "From what a reader gives to a printed digest, in the translated text", "statement": "Copying a reader into an engine of the translated text with io::copy, through bitcoin_io's or std's Write, does what one input of the bytes read does, whatever sizes the reads have and however often they are interrupted; it returns their number or the error that ended the reading, and panics exactly if that input does. The documentation's program (Engine::default, io::copy, Hash::from_engine) on a reader without errors returns the number of bytes and a hash that prints as the digits of the standard's digest of them. That hash equals what a given text parses to exactly if the text is the digest's digits in either case. After a reader's error the engine holds what was read before it, and the error is returned.", "quantifier": "all engine types that implement Write, all readers (sizes, interruptions, errors), all texts, within the length limits, all build configurations", "why_tests_cant": "The sequences of reads, interruptions and errors, and the texts compared with, are unbounded.", "anchors": ["src/impls.rs: Write for every engine", "src/lib.rs: 39-41", "src/internal_macros.rs: hash_type!"]}
{"id": "C99", "title": "The keys of the translated SipHash, and its digests as numbers", "statement": "In the translated siphash24.rs: input keeps the keys of every engine, so keys() returns what with_keys was given after any inputs, and (0, 0) for engines made by new, default, Hash::engine or from_midstate. For every engine, from_engine gives the little-endian bytes of from_engine_to_u64, and as_u64 and from_u64 go between the two. hash_with_keys, hash_to_u64_with_keys and engines with keys give SipHash-2-4 of every message that a slice can hold. Hashes made of numbers are equal exactly if the numbers are; they print as the digits of the number with its bytes reversed and are ordered by that, which is not the order of the numbers.", "quantifier": "all keys, engine states, messages, cuts into slices, pairs of numbers, all build configurations", "why_tests_cant": "Keys, states and numbers are 64-bit and wider; a lost key shows only for particular histories.", "anchors": ["src/siphash24.rs: Engine::with_keys, keys, input, from_midstate", "src/siphash24.rs: Hash::hash_with_keys, hash_to_u64_with_keys, from_engine_to_u64, as_u64, from_u64"]}
{"id": "C100", "title": "Counting and resuming with HMAC over engines written by others", "statement": "In the translated hmac.rs, over any HashEngine, also one from outside the crate: if the engine's n_bytes_hashed counts its input, n_bytes_hashed of an HMAC engine is the block size plus the length of what was input. If the engine can also be resumed after whole blocks, then an HMAC engine just made of a key, resumed with its midstate and its count, is the same to every caller. After further whole blocks, from_midstate resumes the inner engine but makes the outer one with the count of the inner one; so for engines whose midstate carries the count HMAC engines are resumed after any whole blocks, and for others the digest can differ.", "quantifier": "all engines that meet the two contracts, keys, messages, cuts into slices, later inputs and build configurations", "why_tests_cant": "The engine is a type parameter; no test can go through all engines, and the engines of the crate are only four of them.", "anchors": ["src/hmac.rs: Engine::new, input, n_bytes_hashed, midstate, from_midstate", "src/lib.rs: trait HashEngine"]}
{"id": "C101", "title": "From a message to a stored digest and back, in the translated text", "statement": "In the translated text, within the lengths of C67: the hash of a message is serialized for human readable formats as what it prints, the lower-case hexadecimal digits of the standard's digest, and for other formats as the digest's bytes. What a deserializer finds gives a hash equal to that of a message if and only if it is the digest: as that many hexadecimal digits of either case, in a string or in bytes, in human readable formats, and as bytes in others. Every hash type has a JSON schema that is made without a panic, and the serialized hash of every message conforms to it. As a key of a table the hash of a message feeds any Hasher the digest's length and the digest.", "quantifier": "all hash types, messages within the limits, cuts into slices, deserializers, hashers and build configurations", "why_tests_cant": "The crate's extended tests validate one fixed value per type against its schema; the property is about every message and about all data that a deserializer may find.", "anchors": ["src/serde_macros.rs: impl Serialize, Deserialize, visitors", "src/internal_macros.rs: hash_type (schemars), derive(Hash)", "extended_tests/schemars/src/main.rs"]}
{"id": "C102", "title": "Tagged hashes of the translated sha256t.rs under tags written by others", "statement": "In the translated text, for every tag: new, default and Hash::engine are the tag's engine(), panics included, and an engine shows what the SHA-256 engine inside it shows after any input. For every tag whose engine() uses the public interface, Hash::hash is the same as Hash::engine, inputs of the message cut in any way, and Hash::from_engine, panics included; and two such tags at whole blocks with the same byte count and midstate hash every message alike. A tag that resumes from the midstate and byte count of a SHA-256 engine that was input whole blocks P hashes each message as SHA-256 of P and the message, within the lengths of C67; if P is not whole blocks every use of the tag panics. Two such tags with different P of one length give equal hashes, of any two messages, only if the compression function of the text collides; but if one P begins with the other, the tag of the shorter gives every hash of the tag of the longer.", "quantifier": "all tags (results of engine()), messages, cuts into slices and build configurations; for the prefix claims all prefixes within the limits", "why_tests_cant": "The crate tests one tag with one message. Tags are written by the users of the macro; the property is about all of them, and shows which choice of tags does not separate.", "anchors": ["src/sha256t.rs 12-50: Engine, HashEngine impl, Tag", "src/sha256t.rs 53-85: Hash::hash, engine, from_engine", "src/sha256.rs 434-443: from_midstate"]}
{"id": "C103", "title": "The constants of the translated text are the ones the standards derive", "statement": "The block functions of the translated text are, on every state and block and in every configuration, the compression functions of the standards with round constants that are the fractional parts of the cube roots of the first 64 or 80 primes (SHA-2) or 2^30 times square and cube roots of 2, 3, 5, 7, 10 (SHA-1, RIPEMD-160). New engines of the text start from the fractional parts of square roots of primes (SHA-256, SHA-512, SHA-384), the byte sequence 01 23 .. (SHA-1, RIPEMD-160), or the ASCII bytes somepseudorandomlygeneratedbytes XORed with the keys (SipHash). The translated SHA-512 with any initial value computes SHA-512 from that value; run on the string SHA-512/256 from its own initial value with each word XORed with a5a5a5a5a5a5a5a5, as FIPS 180-4 5.3.6 says, it gives the initial value of the translated SHA-512/256.", "quantifier": "all states, blocks, keys, initial values, messages within the limits of C67 and build configurations", "why_tests_cant": "The numbers are literals repeated in the portable, small-code, SHA-instruction and const paths; vectors show that one path gives the expected digests, not where the numbers come from or that all paths use the same.", "anchors": ["src/sha256.rs 32-41: Default; 445-814: process_block and its two implementations", "src/sha512.rs 26-63: Default, sha512_256, sha384; 204-314: process_block", "src/sha1.rs: Default, process_block", "src/ripemd160.rs: Default, process_block", "src/siphash24.rs 81-95: with_keys"]}
{"id": "C104", "title": "Sorted hashes of the translated text are sorted strings", "statement": "For every hash type of the translated text, cmp orders two hashes as the strings that Display, {:x} or {:X} write for them are ordered character by character; a list of hashes is sorted, or strictly sorted, exactly if the list of printed strings is; and the hashes whose printed form begins with given lower-case digits p are exactly those from the hash parsed from p00..0 to the one parsed from pff..f.", "quantifier": "all hash types (hmac::Hash of any length), hashes, lists of hashes, digit prefixes and parsers", "why_tests_cant": "A test compares a few hashes. That an index over printed digests and one over hashes can be mixed, and that prefix search is a range search, needs all of them.", "anchors": ["src/internal_macros.rs 49-80: arr_newtype_fmt_impl", "src/internal_macros.rs 144: derived Ord", "src/hmac.rs 18: derived Ord; src/sha256t.rs 157-163: PartialOrd, Ord"]}
{"id": "C105", "title": "Checking a message authentication code with the translated text", "statement": "In the translated text, for HMAC over every engine type, on any target and within the length limits: hmac::Engine::new(key), inputs and hmac::Hash::from_engine give RFC 2104's tag. Reading received bytes with hmac::Hash::from_slice and comparing with fixed_time_eq accepts exactly that tag and never panics, whatever is received; a received string read with from_str is accepted exactly if it is the tag in hexadecimal digits of either case. Comparing the digest directly with the received bytes panics exactly if the lengths differ. All branches and addresses of computation and comparison together are fixed by the lengths of key, slices and received bytes, in every build and for all lengths. If the same bytes are accepted for two messages or under two keys with different key blocks, the block function collides in one of the computations, named in the theorem.", "quantifier": "all engine types, keys, messages, splits and received bytes or strings", "why_tests_cant": "A test tries a few wrong tags. That no wrong tag of any length is accepted, and that rejecting takes the same path as accepting, is about all of them.", "anchors": ["src/hmac.rs 33-65: from_engine, from_slice", "src/hmac.rs 212-258: new, input, finalize", "src/hmac.rs: FromStr", "src/cmp.rs 17-53: fixed_time_eq"]}
{"id": "C106", "title": "What an engine keeps in memory of the message and the key", "statement": "In the translated text, in every build and on every target, also across overflow: after any inputs to any engine that can be obtained and has a buffer, the buffer holds the last block of bytes given to it, each in its place, and what it held before elsewhere. Nothing is wiped when a block has been compressed. So after a message of at least one block in any slices its last block can be read off the engine, and a shorter message is there whole. The outer engine in an hmac::Engine holds the key block xored with 0x5c, whatever was input since, so a key of at most a block can be read from the engine; the inner one holds the key xored with 0x36 where the message has not overwritten it. A new engine and one made by from_midstate keep nothing: the buffer is zero and starts at a block boundary.", "quantifier": "all engines with a buffer, reachable states, keys, messages and splits into slices, builds and targets", "why_tests_cant": "The buffers are private and no test looks at them; what is left in memory after all inputs is a statement about every split and every length.", "anchors": ["src/internal_macros.rs 15-45: engine_input_impl", "src/hmac.rs 195-198, 212-239: Engine, Engine::new", "src/sha1.rs 18-22, 82-91: Engine, from_midstate", "src/sha256.rs 25-29, 103-113: Engine, from_midstate", "src/sha512.rs 18-22: Engine", "src/ripemd160.rs 18-22: Engine"]}
{"id": "C107", "title": "Many messages with one digest from a few collisions, in the translated text", "statement": "In the translated text of the six engines that work in blocks, on any target: if for each of k places two parts of the same number of whole blocks are known after which the midstates are equal, each pair found after the first parts of the places before, then all messages made by choosing one part at each place have one midstate and one digest, also with every continuation in any slices. There are 2^k such messages, all different if the parts of each place are. Such parts, of one block each, exist for every k and after any beginning, as long as the messages are shorter than the address space. The published collision of SHA-1 is a first place.", "quantifier": "all six engines, numbers of places, parts, choices, continuations and their slices, builds and targets", "why_tests_cant": "A test can try one collision; that k of them give 2^k messages for every k and every continuation is not a matter of cases.", "anchors": ["src/internal_macros.rs 15-45: engine_input_impl", "src/sha1.rs 65-72: midstate", "src/sha256.rs 87-94: midstate", "src/lib.rs 178-188: hash_byte_chunks"]}
{"id": "C108", "title": "What the errors of from_slice say, in the translated text", "statement": "In the translated text, on any target: from_slice of every hash type fails exactly for slices of a wrong length, and the error then gives the length of the slice and the number of bytes of the type. The message of an error is `invalid slice length G (expected E)`, where G and E are the two numbers in decimal without superfluous zeros. The two numbers can be read off the message: two errors have the same message exactly if they are equal. So the messages of two failures, also of different types, are equal exactly if the slices have the same length and the types the same number of bytes.", "quantifier": "all hash types and lengths of HMAC, slices, errors, formatter flags, builds and targets", "why_tests_cant": "There are as many errors as pairs of lengths; that no two of them print alike is a statement about all pairs.", "anchors": ["src/lib.rs 199-225: FromSliceError", "src/internal_macros.rs 188-199: from_slice", "src/hmac.rs 55-65: from_slice", "src/sha256t.rs 96-105: from_slice"]}
{"id": "C109", "title": "Midstates are moved by the data alone, in the translated text", "statement": "In the translated text of SHA-1 and SHA-256, on any target: the midstate that an engine resumed at a block boundary shows after some inputs depends only on the midstate it was resumed from and on the bytes, neither on the count nor on how the bytes are cut. After whole blocks one can go on from the midstate they lead to, with any count, and an engine that was input whole blocks is for every caller one resumed from the midstate they lead to, with the length that many bytes greater. So bytes of whole blocks that lead a midstate to itself do so any number of times: an engine resumed at such a midstate and input k copies is one resumed there with a greater length (for every block such a midstate exists, C94).", "quantifier": "all midstates, counts at block boundaries, data and ways to cut them, numbers of copies and continuations below the address space, builds and targets", "why_tests_cant": "Tests resume at a few counts; that the count never enters the block function and that no number of copies ever changes the midstate are statements about all of them.", "anchors": ["src/sha256.rs 88-113: midstate, from_midstate", "src/sha1.rs 71-91: midstate, from_midstate", "src/internal_macros.rs 15-45: engine_input_impl"]}
{"id": "C110", "title": "Serde of hash types written by others, in the translated text", "statement": "For every type that implements SerdeHash, whatever its own functions do, in the translated text: serialize gives human readable formats what Display writes (never with #) and other formats the bytes of [..]. deserialize in human readable formats gives strings, and bytes that are UTF-8, to FromStr and passes its errors on; bytes that are not UTF-8 and anything else are refused without a call of the type's functions. In other formats bytes go to from_slice_delegated, whose errors become an invalid length that names only the length of the bytes, and strings and anything else are refused. So a value comes back from human readable formats exactly if FromStr reads what Display writes, and from others exactly if from_slice_delegated reads what [..] gives; and a call panics only if the one function that it calls panics.", "quantifier": "all implementations of SerdeHash (types, parsers, printers, also panicking ones), values, serializers, deserializers, builds", "why_tests_cant": "Tests use the hash types of the crate, whose functions agree with each other; the claim is about every type a caller may write.", "anchors": ["src/serde_macros.rs 14-45: HexVisitor", "src/serde_macros.rs 47-69: BytesVisitor", "src/serde_macros.rs 72-104: SerdeHash"]}
{"id": "C111", "title": "SerdeHash::N is the number of bytes, in the translated text", "statement": "For every hash type in the translated text, SerdeHash::N is the number of bytes of its hashes: from_slice accepts exactly the slices of N bytes and what it makes of them has N bytes, such hashes are serialized as N bytes or 2 N characters, and binary formats give back exactly what has N bytes. So N is not the number of bits, which is what its documentation says (\"Size, in bits, of the hash\"), for any type but the empty hmac::Hash<0>.", "quantifier": "all hash types (with every N of hmac::Hash<N>), slices, hashes, deserializers, builds and tags", "why_tests_cant": "No test of the crate reads N, and nothing in the crate does; a caller who follows the documentation computes a length eight times too small from it.", "anchors": ["src/serde_macros.rs 81-82: N and its documentation", "src/serde_macros.rs 114: serde_impl", "src/internal_macros.rs 115: serde_impl of hash_trait_impls", "src/hmac.rs 167: N of hmac::Hash", "src/sha256.rs 128: serde_impl of Midstate"]}
{"id": "C112", "title": "For which N the JSON schema of hmac::Hash<N> is right, in the translated text", "statement": "For every N, in the translated text: the JSON schema of hmac::Hash<N> asks for twice N modulo 2^32 hexadecimal digits; builds with overflow checks panic instead exactly if N modulo 2^32 is at least 2^31. The strings that are deserialized are exactly those the schema describes if and only if 0 < N < 2^31: for N = 0 the empty string is deserialized but does not match the pattern, and from 2^31 on the length is wrong or there is no schema.", "quantifier": "all N, strings, builds and tags", "why_tests_cant": "The schema is computed with a cast that cuts (marked FIXME in the text); tests use the sizes of the crate's hashes.", "anchors": ["src/hmac.rs 91-103: json_schema"]}
{"id": "C113", "title": "hmac::Hash without a key, in the translated text", "statement": "In the translated text hmac::Hash::engine and from_engine take any engine with digests of the right size: engine is the engine's new, and from_engine its finalize. So with a hash function's own engine an hmac::Hash is the plain digest of the message, with no HMAC in it, and with an HMAC engine it is the code under the empty key, the same as under every key of zeros not longer than a block. The type hmac::Hash is no evidence that a key was used.", "quantifier": "all engines (also those written by others), algorithms, messages and ways to cut them below the length limits, lengths of zero keys up to the block size, builds and targets", "why_tests_cant": "A test of hmac starts from Engine::new with a key; that the other way to start never uses one is a statement about every message and engine.", "anchors": ["src/hmac.rs 22-39: engine, from_engine", "src/hmac.rs 200-202: Default"]}
{"id": "C114", "title": "how a message is cut leaves no trace in an engine, in the translated text", "statement": "In the translated text two ways to cut the same bytes into inputs leave the very same engine, not only one with the same answers: state, count and every byte of the buffers agree, and where one way panics the other panics alike (what a panic leaves behind is C88). An empty slice leaves an engine as it is, and inputs one after another are one input of their concatenation; io::copy leaves the engine that one input of the bytes read leaves. So an engine that is cloned, compared or read from memory tells the message and not its pieces.", "quantifier": "all algorithms (HMAC of all of them, tagged hashes of all tags), engines a caller can obtain, lists of slices, builds and targets", "why_tests_cant": "C08 and C68 compare what callers see; whether stale bytes in a buffer depend on the pieces is not seen by tests of digests, and the ways to cut a message are unbounded.", "anchors": ["src/internal_macros.rs 19-36: engine_input_impl!", "src/siphash24.rs 133-170: input", "src/hmac.rs 248: input"]}
