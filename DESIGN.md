# Formal model of rust-chf in Lean 4

`lean/` transcribes the non-test Rust code of `/repo/src`, function by function, into total computable
Lean functions, and proves the properties of `properties.jsonl` about that transcription.
`MANIFEST.json` (written by `tools/manifest.py`) lists the theorems of each property.

## Layout

* `Verif/Rust.lean`: the fragment of Rust that is used. Bytes and words are `BitVec`s, arrays and
  slices are `List`s, a `usize` is a `Nat` kept below `2^usizeBits`, a function that takes `&mut self`
  returns the new value, and whatever may panic returns `Except Fault`. A `Cfg` carries the build:
  width of usize, overflow checks, debug assertions, feature `small-hash`, SHA-NI detected, endianness.
* `Verif/Model/*`: the transcription. Each definition cites file and lines.
* `Verif/Spec/*`: what the theorems are stated against, written without use of the model: FIPS 180-4,
  RIPEMD-160, SipHash-2-4, RFC 2104, BIP-340, base 16, UTF-8, JSON schema, byte logs, the derivation
  of the constants, which calls panic.
* `Verif/Source/*`: a second rendering of the crate, made by a program. `tools/rust2lean.py` parses
  `/repo/src` (`tools/rustparse.py`), expands its macros, and writes every function it understands as a
  `do` block over the primitives of `Verif/Rust.lean` and `Verif/Source/Prelude.lean`, statement by
  statement and in Rust's order of evaluation. It knows nothing of `Verif/Model`. What it left out is
  listed at the end of each file. `tools/rust2lean.py --check` compares the committed files with
  `/repo/src`.  How it renders Rust, beyond what is said above: a function with a `&mut` argument returns
  the new value along with its result, and a function that returns a `&mut` returns the value and the
  function that stores a new one; `AsRef` arguments are slices and iterators are lists; a `fmt` function
  takes the formatter's flags and returns the bytes it writes; `?` is allowed in `let` at the top of a
  body; `impl_write!` is expanded as written; derives are expanded into functions on the fields in
  order; `hex-conservative`'s functions are those of `Model/Hex.lean`; a `cfg` on a statement becomes a
  test of the build configuration. The features `serde` and `schemars` are on. A serializer is told by
  `is_human_readable` alone and returns what it was given; a deserializer is a function from the method
  it is asked for to what it hands to the visitor; a `Hasher` is any state with `write` and
  `write_length_prefix`; a schema is the value that `json_schema` builds (`Verif/Source/Prelude.lean`).
  Only functions without a body are left out now.
* `Verif/Proofs/Source/*`: the translated functions equal the model's (`Verif/Model/Text.lean` puts
  them together as engines). So the theorems about engines hold of the translated text as well; C67 to
  C114 state the main ones for it.
* `Verif/Seen/*`: the translated engines, `fixed_time_eq`, `const_hash` and the one-call functions once
  more, written by `tools/seen.py` from `Verif/Source`, with what an observer of branches and addresses
  sees (`Verif/Seen/Prelude.lean` says what that is). C84 and C85 prove that they compute what
  `Verif/Source` computes, so a slip there could only hide or invent observations. The tool rejects
  functions with a branch that it cannot record.
* `Verif/Left/*`: the translated `input`s once more, written by `tools/left.py` from `Verif/Source`, where
  a panic carries the value of `*self` at that moment. C88 proves that they compute what `Verif/Source`
  computes, and what a caller finds who catches the panic.
* `Verif/Proofs/*`: lemmas. `Verif/Props/*`: the property theorems, each with concrete cases beside it.
* `Verif/Tests.lean`: the test vectors of `/repo/src`, run on model and specification.
* `Verif/Check/*`: instances of the property theorems as Boolean functions, for testing the theorems
  against wrong programs (below). `Check/Sound*` proves each check `true` **from** the property
  theorem it stands for, so that a check that evaluates to `false` refutes that theorem.

## Modelled and not modelled

| file | modelled | left out |
|---|---|---|
| `lib.rs` | trait `HashEngine`, `FromSliceError` | `std::error::Error` impl, the doc examples |
| `internal_macros.rs` | `input`, formatting, parsing, indexing, conversions, `hash_type!` | the `hashes_fuzz` variants |
| `sha1.rs`, `ripemd160.rs` | everything | `hashes_fuzz`, tests, benches |
| `sha256.rs` | engine, software block function in both variants, SHA-NI block function, `const_hash`, `hash_tag`, `Midstate` | run-time detection of SHA-NI (`Cfg.shaNi`), `hashes_fuzz` |
| `sha512.rs`, `sha384.rs`, `sha512_256.rs` | everything | `hashes_fuzz` |
| `sha256t.rs` | engine and hash type for an arbitrary `Tag::engine` | |
| `siphash24.rs` | everything; unchecked reads return a fault when out of bounds | `hashes_fuzz` |
| `hmac.rs` | engine over an arbitrary engine, hash type | the unused struct `MidState` |
| `cmp.rs` | `fixed_time_eq` with its memory accesses and branches | what the compiler and the CPU make of it |
| `serde_macros.rs` | serializing and the two visitors | the texts that serde and hex make of the errors |
| `impls.rs` | `Write` of every engine that has it, `write_all`, `io::copy` | |
| `embedded/`, `extended_tests/` | | not part of the crate |

Simplifications, all noted at the definitions: references are the values they refer to; loops that
count over an array are folds or maps over its indices; loops without an evident bound take fuel, and
running out is a fault that is proved unreachable; the pointer casts of `from_bytes_ref` and
`from_bytes_mut` are the identity on bytes; an engine is gone after a call on it has panicked, except
in `Model/Unwind.lean` and `Verif/Left`, which say what a caught panic of `input` leaves behind; allocation
does not fail and a slice may have any length below `2^usizeBits`.

## Trusted base

* Lean 4.33.0's kernel with the axioms `propext`, `Classical.choice`, `Quot.sound`. No other axiom, no
  `sorry`, no `native_decide`, no `bv_decide`. Core Lean only, except `Props/Collisions.lean`
  and `Props/TextMultiExist.lean`, which use Mathlib's pigeonhole principle.
* For C67 to C114: `tools/rust2lean.py` and the meaning given to each operation in
  `Verif/Source/Prelude.lean`. For the engines, `const_hash`, `hash_tag`, `fixed_time_eq`,
  the hash types with their traits and the writers this replaces the next item: a slip in the hand-written model of those would make
  `Verif/Proofs/Source` fail.
* For C84, C85 and C87: `tools/seen.py` and the events each operation of `Verif/Seen/Prelude.lean` notes.
  Operations on words are taken to be constant time.
* For C88: `tools/left.py`, which says at each operation of a translated `input` which value `*self` has;
  that a panic of the operation leaves just that value (Rust assigns to a field only when the right-hand
  side has been computed, and the functions called take their arguments by value or shared reference).
* The transcription, by reading. Nothing here runs the Rust code. The test vectors of `Tests.lean` and
  the agreement with independent specifications make slips in the parts with a specification unlikely.
* Rust as the reference describes it: overflow, slice indexing, `copy_from_slice`, `debug_assert!`,
  what derives expand to (comparison and hashing of fields in order), `[u8; N]`'s `Hash`.
* Crates whose source is not in `/repo`, written down from their documentation: `hex-conservative`
  (`Model/Hex.lean`; formatting flags other than `#` are not modelled), `serde` (`Model/Serde.lean`),
  `schemars` and its regular expressions, `bitcoin_io`/`std::io` (`Model/Write.lean`), Intel's
  pseudo-code of the intrinsics (`Model/Sha256Simd.lean`), `core::hash` (`Model/HashApi.lean`).
* The specifications in `Verif/Spec`, which were written from the standards and are also run on the
  test vectors of `/repo/src`.

## What the model shows to be wrong or odd in the code

Proved:

1. `sha512`, `sha384` and `sha512_256` `from_midstate` panic for every midstate and every length: 4-byte
   chunks are converted to `[u8; 8]` (`sha512.rs` 123-132). HMAC over them likewise. (C18)
2. `ripemd160` writes midstates little-endian and reads them big-endian (`ripemd160.rs` 74-99). (C19)
3. `siphash24::Engine::from_midstate` ignores its length and drops keys and tail (`siphash24.rs`
   202-204). (C20, C09)
4. `hmac::Engine::from_midstate` gives the inner and the outer engine the same length (`hmac.rs`
   266-271), so a resumed engine that has hashed data gives a wrong tag. (C21)
5. SHA-512's 128-bit length field only ever holds 64 bits (`sha512.rs` 80-93). (C03)
6. On 32-bit targets without overflow checks the byte count wraps at 2^32 and digests of messages of
   4 GiB and more are not the standard's. (C38)
7. The JSON schema's pattern is not anchored, and `hmac::Hash<N>`'s bounds overflow `u32` for N of 2^31
   and more (`hmac.rs` 94-102). It is right exactly for 0 < N < 2^31. (C43, C112)
8. `sha384` and `sha512_256` engines do not implement `Write`. (C33)
9. `n_bytes_hashed` of an HMAC engine starts at the block size, not at 0. (C09)
10. Nothing is wiped (C106): the last block of the message stays in the engine after it has been compressed,
    and an HMAC engine holds its key for as long as it lives (`internal_macros.rs` 15-45, `hmac.rs` 212-239).
    The crate promises nothing else.
11. `SerdeHash::N` is documented as bits, its values are bytes (`serde_macros.rs` 81-82). (C111)
12. `BytesVisitor` reports the expected length as the literal text `N`, from `stringify!(N)`
    (`serde_macros.rs` 66). (C77, C110)
13. `hmac::Hash::<N>::engine` and `from_engine` accept any engine whose digest is `[u8; N]`, so a plain hash
    can be wrapped as an HMAC (`hmac.rs` 23-39). (C113)

Seen while reading, outside the model:

* `hmac::Hash` is not `repr(transparent)` but is cast to and from `[u8; N]` (`hmac.rs` 43-53).
* The `hashes_fuzz` `finalize` of sha256 uses an undefined variable (`sha256.rs` 76), so that build does
  not compile.
* `hmac.rs` defines `MidState` (185-190), which nothing uses, next to `Midstate` (277-282).
* The examples in `lib.rs` are under `#[cfg(std)]`, not `#[cfg(feature = "std")]`, and never compiled;
  `embedded/src/main.rs` calls an interface that no longer exists.

## The properties

Partial are C03, C09, C18, C19, C20, C21: the code violates the property as stated. The negation is
proved with a witness (`_refuted`), and a `_partial` theorem says what does hold.

| id | property | how |
|---|---|---|
| C01 | SHA-256 conforms to FIPS 180-4 | Model of sha256 engine (input loop, finalize, midstate, both round variants, SIMD) refines FIPS spec. Generic buffered-block refinement + round-by-round compression proof. |
| C02 | SHA-1 conforms to FIPS 180-4 | Same generic refinement with the SHA-1 block function; 80-step loop by induction. |
| C03 | SHA-512 conforms to FIPS 180-4 | False of the code as stated: the length field holds a 64-bit bit count. `C03_sha512_refuted` is the negation, `_exact` the digest for every length, `_partial` the standard below 2^61 bytes. |
| C04 | SHA-384 conforms to FIPS 180-4 | SHA-512 refinement from the SHA-384 IV, truncation modelled. |
| C05 | SHA-512/256 conforms to FIPS 180-4 | SHA-512 refinement from SHA-512/256 IV; IV generation function evaluated in the kernel. |
| C06 | RIPEMD-160 conforms to its specification | 160 source lines transcribed as data; table equality by kernel evaluation, steps by induction with a rotation view. |
| C07 | SipHash-2-4 conforms to its specification | Byte-level model with unchecked loads that return an explicit UB value; refinement to the SipHash paper's word list. |
| C08 | Chunking independence | Corollary of the refinement: two engines representing the same byte log are observationally equal. |
| C09 | n_bytes_hashed is exact | Corollary of the refinement invariant; the siphash24 `from_midstate` clause is refuted. |
| C10 | Hashing never panics below the length limits | Every partial operation returns Res; the refinement shows .ok. |
| C11 | Digests have the advertised length | Direct from the representation of digests. |
| C12 | const_hash equals hash | Separate model of const_hash (own padding, own 64 rounds) proved equal to the spec. |
| C13 | hash_tag and tagged hashing follow BIP-340 | hash_tag model + resume theorem + spec of BIP-340. |
| C14 | The SHA-NI path equals the software path | Intrinsics modelled on BitVec 128 from Intel's pseudo-code; group-by-group simulation; lifted to programs over pools of engines. |
| C15 | small-hash does not change results | Both macro variants modelled, proved equal pointwise, lifted to programs over pools of engines. |
| C16 | SHA-256 midstate resume | Round trip of big-endian words + refinement with arbitrary start state. |
| C17 | SHA-1 midstate resume | Same for SHA-1. |
| C18 | SHA-512 family midstate resume | Negation: the model's from_midstate returns a panic for every midstate/length. |
| C19 | RIPEMD-160 midstate resume | Negation with witness; partial: holds exactly when every state word is byte-palindromic. |
| C20 | SipHash midstate resume | Negation with witness; partial: holds for length multiple of 256 (digests), keys (0,0). |
| C21 | HMAC midstate resume | Negation with witness. Exactly what is computed instead: every engine whose halves have counted the same number of bytes resumes (so directly after new(key)); for every other one the outer hash ends in the wrong length field, and no digest after the round trip is right unless the block function maps two named blocks to the same value. |
| C22 | from_midstate rejects unaligned lengths | Case analysis on the assertion. |
| C23 | HMAC conforms to RFC 2104 | HMAC model generic over a HashEngine record; theorem for every lawful engine; instantiated. |
| C24 | HMAC key equivalences | Corollaries on the RFC 2104 spec and model. |
| C25 | fixed_time_eq is equality | Fold of OR/XOR; bit-vector reasoning on the final reduction. |
| C26 | fixed_time_eq's control flow is data independent | Traced model: list of events (volatile access, indexed read, loop test); equality of traces. Source level only. |
| C27 | from_slice accepts exactly the right length | Model of from_slice. |
| C28 | Byte conversions are mutually inverse | Model of the conversions, derived and hand-written comparison modelled separately. |
| C29 | Hex round trip | Model of formatting and of the external hex crate's contract. |
| C30 | Hex parsing accepts exactly 2N hex digits | Independent base-16 spec. |
| C31 | Formatting is injective and well-formed | As 29. |
| C32 | serde round trip and rejection | Visitor-level model of the serde calls. Errors are stated against an independent definition of UTF-8 (`Spec/Utf8`). |
| C33 | io::Write is input | Model of write/flush/write_all. |
| C34 | SipHash integer and byte views agree | Two separately transcribed functions proved equal. |
| C35 | SipHash unsafe reads stay in bounds | UB value never returned. |
| C36 | Hash ordering is big-endian numeric order | Lexicographic order vs big-endian value. |
| C37 | Engine histories behave like message logs | Simulation between a pool of engines and a pool of byte logs over arbitrary op lists. |
| C38 | Behaviour beyond the usize limit | Cfg carries usize width and overflow-check flag; exact outcome theorem; a standard digest would be a collision in the last block. |
| C39 | Panics exactly at the length limit | Exact iff theorem on finalize. |
| C40 | Stale buffer bytes are irrelevant | Relation on states ignoring stale bytes is preserved by all operations. |
| C41 | Padding is injective | Injectivity of the spec padding plus refinement. |
| C42 | Length extension / resuming from a digest | From C16 and padding. |
| C43 | JSON schema admits every serialized hash | Model of the schema (lengths and unanchored pattern); `C43_exact` characterizes the strings that deserialize. |
| C44 | midstate reflects complete blocks only | From the refinement invariant. |
| C45 | Tagged engine constructors agree | Model of sha256t with an arbitrary tag engine. |
| C46 | Generic HMAC block-size limit | HMAC model over arbitrary engines. |
| C47 | SipHash keys are preserved | Frame lemma for input. |
| C48 | Constants are the ones the standards derive | Integer square and cube root bounds on the constants, primes computed from their definition, by kernel evaluation. |
| C49 | Collisions reduce to the block function | Traced `process_block` calls; induction from the last block backwards. The statement speaks of the calls of the two runs: "there is a collision" would be true by the pigeonhole principle. |
| C50 | Overflow checks only add panics | Simulation over whole programs, operation by operation. |
| C51 | Hash values made by hashing | Model of `Hash::{engine, from_engine, hash}`, `const_hash`, `hash_with_keys` over all types, from C01-C13, C23. |
| C52 | core::hash::Hash agrees with Eq | Abstract `Hasher` record; derived and hand-written implementations separate. |
| C53 | Block functions are feed-forward permutations | Each round is inverted; the composition is a bijection for each block. |
| C54 | SipHash absorption is a permutation of states | `compress` inverted statement by statement. |
| C55 | Only lengths decide panics and counts | From the simulation of C66: states of the same shape go to states of the same shape. |
| C56 | Work is fixed by the length | Length of the trace of `process_block` calls. |
| C57 | Tagged hashes and HMAC reduce to the hash function | From C49 and injectivity of the key pads. |
| C58 | Hashing what a reader gives | Model of `std::io::copy` over a list of read results. |
| C59 | The panics there are, and no undefined behaviour | Specification of the outcome of every call (`Spec/Panics`), simulation over programs; loads and stores of the SHA-NI code are bounds checked in the model. |
| C60 | Results do not depend on the target | Simulation between the logs of two builds: one state of each slot per build, equal except for its configuration; the overflow check on the narrow side keeps counts below its limit. |
| C61 | A midstate and a count are all an engine remembers at a block boundary | Complete blocks move into the chaining value, whose serialization is injective. For HMAC also the counts of the outer halves must agree, which `from_midstate` breaks. |
| C62 | An engine whose input panicked is still consistent | `Model/Unwind.lean` transcribes `input` with every assignment to `self` in its place. The buffer is written before the counter, so what a panic leaves is the engine after a prefix of the slice, with some unused buffer bytes changed. |
| C63 | HMAC over engines written by others | `hmac::Engine<E>` is generic in `E`; the model takes any `HashEngine`. From a contract on `E` alone, without the crate's engines, it is RFC 2104 of the function `E` computes. Blocks over 128 bytes always panic; digests longer than a block cut hashed keys, a case RFC 2104 excludes. |
| C64 | With overflow checks a digest is the right one or there is none | The converse of the findings about wrapped lengths: every wrong digest needs a build without overflow checks. The bounds of C01–C06 are shown to be exact there. |
| C65 | `from_midstate` keeps midstate and length | What can be read back after `from_midstate`, and that it loses nothing for the engines without a defect. RIPEMD-160 (finding on C19) reverses the bytes of each word. |
| C66 | Branches and addresses do not depend on keys and messages | `Model/Observe*.lean` transcribes every engine method once more with the branches and the indexed reads and writes it makes; proved to compute the same. Programs are compared with the program that has zeroes for all keys, midstates and messages. Source level only; the tag of a tagged engine counts as public. |
| C67 | The translated text computes the standards | Simulation between the engines made of translated functions and the model's, for every engine type, then C01 to C07 and C23. |
| C68 | Programs over the translated text behave like message logs | The same simulation over pools of engines, then C37. |
| C69 | The translated `const_hash` and `hash_tag` follow the standards | The translated loops against the model's (both versions of the rounds), then C12 and C13. |
| C70 | The translated conversions and comparison do what they say | Directly from the translated functions; `fixed_time_eq` by C25. |
| C71 | The translated conversions of every hash type keep the bytes | `Proofs/Source/Types.lean` shows each function to be the obvious one on the array of bytes; indexing by C28. |
| C72 | The translated comparisons agree with the bytes | The same, then order of byte strings against numbers. |
| C73 | The translated formatting and parsing are base 16 and inverse | The same, then C29 to C31. |
| C74 | The translated provided methods and `from_engine` | The loop over the slices is the model's, then C67; C67 for HMAC. |
| C75 | Writing to a translated engine is hashing | Calls of the writer are calls of `input` with their buffers, then C67. |
| C76 | Translated serialization gives the digits or the bytes and comes back | `Proofs/Source/Serde.lean` shows the provided methods and visitors to be formatting, parsing and `from_slice`; then C71 and C73. |
| C77 | Translated deserialization accepts exactly its serializations, with these errors otherwise | The same, with UTF-8 as in C32. |
| C78 | Translated `core::hash::Hash` feeds the bytes | Directly from the derived and written functions. |
| C79 | The translated JSON schema describes the accepted strings | The value of every `json_schema`, its pattern read as text, then C76 and C77. |
| C80 | The panics of the translated text | C68, then as C59. |
| C81 | Builds of the translated text agree | C68, then C15, C50, C60 and C55. |
| C82 | Midstates of the translated text | Every translated engine a caller can obtain stands for a reachable one of the model, and what callers see is the same; then C16, C17, C18, C22, C44 and C65. |
| C83 | Where they cannot be resumed | The same, then C19, C20, C18 and C21; the wrong digests by running the text. |
| C84 | fixed_time_eq of the translated text reads every byte once | The trace of the observed text, computed exactly; for other lengths it is the panic. |
| C85 | Branches and addresses of the translated text do not depend on keys and messages | A relation between two runs (same shape of state, same trace) for each operation and loop, then each function; erasing the trace gives the translated function. |
| C86 | The translated hmac.rs over hash engines written by others | The translated functions over an arbitrary engine equal the model's up to the names of two fields; then C63 and C46. |
| C87 | The work of the translated text is linear in the length of what is hashed | Block functions: what is seen does not depend on data (C85), so it is counted on one state by the kernel. Loops: a potential that each step pays from. |
| C88 | An engine of the translated text whose `input` panicked is still a consistent engine | The text with the panics' `*self` is the model's C62 transcription on every engine with a full-size buffer; then C62 through the simulation of C68. |
| C89 | Collisions of the translated text are collisions of its block functions | The blocks of the two padded messages end alike; walk back to the first place where chain value or block differ, and read both sides off midstates of the text. Concrete case: C90's messages. |
| C90 | Messages with equal midstates cannot be told apart by the translated text, and the published SHA-1 collision is one | Engines at a block boundary with equal chain value and length are equal up to stale buffer bytes; the collision itself is evaluated by the kernel. |
| C91 | Which keys of the translated text of HMAC are equivalent | C24 carried over by the equality of the two texts of Engine::new; the converse from the midstates after one block. |
| C92 | Length extension of the translated text | The digest is the final midstate, and a resumed engine behaves like one that was input the padded message. |
| C93 | With overflow checks the translated text returns the right digest or panics | C64 through the simulation of C68. |
| C94 | The translated block functions are feed-forward permutations and SipHash's absorption a permutation | C53 and C54 through the simulation of C68. Concrete cases: the fixed points of SHA-256 and SHA-1 for the block 0, 1, …, 63, and a predecessor state of SipHash. |
| C95 | What the translated text returns beyond the limits of its counters | C38, C39 and C63 through the simulation of C68; the collision is stated with public methods of the text (`LengthFieldCollides`). Concrete cases: a SHA-1 engine of a 32-bit release build that counts 0 after 2^32 bytes and returns a wrong digest; on 16-bit builds messages of 65536 bytes and more, evaluated. |
| C96 | From a message to a printed digest and back, in the translated text | C67, C72 and C73 put together at the level of callers (`hashEngine`, `hashFrom`, `hashOf`, `hashChunks` in Model/TextHash). Concrete case: SHA-1 of "abc" in two slices, printed, and its digest in capitals accepted. |
| C97 | What tells two engines of the translated text apart | Proofs/Decides: the padding that `finalize` adds is one of the slices that complete the block. Concrete cases: SHA-1 engines after one byte, with equal counts and midstates, that 63 zeros tell apart; HMAC over a toy engine with a hidden flag. |
| C98 | From what a reader gives to a printed digest, in the translated text | copy is one input for each read that gave something, over any engine (copy_inputs); then C08 carried over by the simulation, and C96. |
| C99 | The keys of the translated SipHash, and its digests as numbers | input_keys for the model's input on every state, carried over by input_eq; from_engine and from_engine_to_u64 are the same text up to to_le_bytes; C67, C70, C72 and C73 for the rest. C99_order_not_numeric is the witness that the orders differ. |
| C100 | Counting and resuming with HMAC over engines written by others | hmac_new_shape takes the two blocks out of a successful new; the contracts Counts and ResumesAtBlocks (Spec/Resume.lean) give the two engines, and C97_hmac puts them together. countEngine shows that the contracts can be met, C100_not_later that they do not suffice after more input. |
| C101 | From a message to a stored digest and back, in the translated text | C96_value with C73, C76, C77, C78 and C79 for the hash type of each engine type. |
| C102 | Tagged hashes of the translated sha256t.rs under tags written by others | The translated engine is a SHA-256 engine in a pair, by cases on each call; C82_resume and C82_states for resuming, C67_engines for the digest, C89's collide_text for separation. |
| C103 | The constants of the translated text are the ones the standards derive | process_block_eq of each translated module and processBlock_eq of the model; the roots by evaluating integer inequalities; C103_from from the simulation with the engine at an arbitrary chain value (Rep.zero). |
| C104 | Sorted hashes of the translated text are sorted strings | Strings of equally many digits of one case are ordered like the numbers they write (string_order); then C72_order, C73_format and C73_parse. |
| C105 | Checking a message authentication code with the translated text | The caller's programs are in Model/TextVerify.lean. C23_hmac_any_width carried over to the text, C70_fixed_time_eq, C73_parse, C85's relations between engines that cannot be told apart, and C89_hmac. |
| C106 | What an engine keeps in memory of the message and the key | `Spec.Kept` says what a buffer written round and round keeps. Induction over the copy loop of `input`, without a bound on the length: the block size divides 2^w, so a wrapped count still gives the right place. |
| C107 | Many messages with one digest from a few collisions, in the translated text | `Spec.CollideInTurn` is stated with `input` and `midstate` of the text only. Induction over the places with the chain rule of the block function; C90_continue gives the continuations. Existence by Mathlib's pigeonhole principle (Props/TextMultiExist.lean). |
| C108 | What the errors of from_slice say, in the translated text | `Spec.IsDecimal` says what a decimal number is (digits, value, no leading zero) without using a printing function. The message is split at the first byte that is no digit; C71_from_slice gives the errors. |
| C109 | Midstates are moved by the data alone, in the translated text | `Spec.midFrom` uses from_midstate, input and midstate of the text only. The midstate after some inputs is a function of the one before and the bytes, and a homomorphism at whole blocks; C82_states turns equal counts and midstates into engines no caller can tell apart. The example resumes at the fixed point of C94 and inputs one hundred blocks. |
| C110 | Serde of hash types written by others, in the translated text | The trait is translated as a structure of functions and is a variable of the theorems. The specification knows FromStr, Display, Index and from_slice_delegated as functions that may panic. The examples have a type (`Spec.otherType`) that prints its bytes backwards and parses them forwards: it comes back from binary formats only. The instances use a type whose functions answer with what they were called with. |
| C111 | SerdeHash::N is the number of bytes, in the translated text | `Source.serdeN` collects the constants of the translation; the theorems compare them with what from_slice and serde of the text accept and give (C71, C76, C77). C111_not_bits is the negation of the documented claim. |
| C112 | For which N the JSON schema of hmac::Hash<N> is right, in the translated text | Both directions of C79_exact: the digits of 2 N zeros are always deserialized (C30), so a schema that describes what is deserialized has their length and N is not 0. Extends C79, which has 0 < N < 2^31 as a hypothesis and the one case N = 2^31. |
| C113 | hmac::Hash without a key, in the translated text | C67 for every engine of the crate, through the functions of hmac::Hash; the zero keys by RFC 2104's padding of keys. The example is SHA-1 of abc as an hmac::Hash. |
| C114 | how a message is cut leaves no trace in an engine, in the translated text | The simulation of C67 fixes state and count by the log; the buffer is fixed since what C106 says of it determines it; siphash's fields are functions of the log; HMAC by recursion. |

## Testing the theorems against wrong programs

`tools/mutate.py` edits the model in a scratch copy, rebuilds it and writes one line per edit to
`seeded/LOG.jsonl`; the edits are kept in `seeded/edits`.  What a line means:

- `refuted`: checks of `Verif/Check` that evaluate to false on the edited model.  As each check follows
  from its theorem, the theorem is false of the edited model.  Only this counts as catching the bug.
  The checks are compiled and run outside the proofs; nothing proved depends on that.
- `failed_directly`: declarations whose own proof was rejected, if the full build was tried.
- `blocked_downstream`: property theorems that use one of those.  They were not checked, and this is
  evidence of nothing.
- `killed`: every property the edit breaks has a refuted check.  `SURVIVED`: the build passes.
  `inconclusive`: proofs fail but no check shows that the statement is false.
- Entries with no property are controls, edits that change no observable result; they must refute
  nothing.

`tools/mutate_rust.py` does the same one level up: it edits a copy of `/repo/src`, translates it with
`tools/rust2lean.py` and evaluates the checks of `Check/Text*.lean` on the
result.  `tools/sweep_rust.py COUNT SEED` makes such edits by rule (operators, constants, order of
operands, indices, dropped statements) at random places of the crate.

An earlier version of the tool counted every theorem above a broken lemma as failed.  The control
`256-maj`, an edit that changes no result, showed that this is wrong: it "failed" the same 76 property
theorems as a real bug, because one proof script broke.  The lines written that way are marked
`inconclusive` with `refuted: null`; the edits were run again later.

A check of the checks found a flaw of the translator: inside a method, Lean took the constant
`BLOCK_SIZE` of the module for `Engine::BLOCK_SIZE`. The two are equal in the crate, so no theorem was
affected, but an edit of one of them was read as an edit of the other. Such names are qualified now.

Tightened as a result: C49 and C57 (a collision among the calls of the two runs, rather than some
collision), C32 (which error, and UTF-8 from its definition), C43 (exact set of strings), C52 (every
hasher with an injective `write`), C28 and C36 (derived and hand-written comparison apart), C59 (which
fault each call may give), and
C91_only (its second alternative held for every pair by the pigeonhole principle; it now names the blocks
that collide). Some checks were too weak to show a wrong program and were given more cases: C89_hmac and
C93_hmac (keys of which half is used), C70_fixed_time_eq (single bits), C95_siphash (a length byte of 128
and more), C104_prefix (the prefix was taken from the output of the program). An edit of the initial state
of SHA-512/256, which C48 does not cover, is covered by C103_sha512_256.
