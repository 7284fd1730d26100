{
 "claims": [
  {
   "property": "C01",
   "status": "proved",
   "theorems": [
    "Chf.Props.C01_sha256"
   ],
   "note": ""
  },
  {
   "property": "C02",
   "status": "proved",
   "theorems": [
    "Chf.Props.C02_sha1"
   ],
   "note": ""
  },
  {
   "property": "C03",
   "status": "partial",
   "theorems": [
    "Chf.Props.C03_sha512_partial",
    "Chf.Props.C03_sha512_exact",
    "Chf.Props.C03_sha512_wrong_padding",
    "Chf.Props.C03_sha512_refuted"
   ],
   "note": "False of the code as stated: the length field only ever holds 64 bits. C03_sha512_refuted proves the negation, C03_sha512_exact says what the code computes for every length, C03_sha512_partial is the standard's digest below 2^61 bytes."
  },
  {
   "property": "C04",
   "status": "proved",
   "theorems": [
    "Chf.Props.C04_sha384"
   ],
   "note": ""
  },
  {
   "property": "C05",
   "status": "proved",
   "theorems": [
    "Chf.Props.C05_sha512_256"
   ],
   "note": ""
  },
  {
   "property": "C06",
   "status": "proved",
   "theorems": [
    "Chf.Props.C06_ripemd160"
   ],
   "note": ""
  },
  {
   "property": "C07",
   "status": "proved",
   "theorems": [
    "Chf.Props.C07_siphash24",
    "Chf.Props.C07_hash_with_keys",
    "Chf.Props.C07_hash"
   ],
   "note": ""
  },
  {
   "property": "C08",
   "status": "proved",
   "theorems": [
    "Chf.Props.C08_chunking",
    "Chf.Props.C08_input_append",
    "Chf.Props.C08_input_nil",
    "Chf.Props.C08_hash_byte_chunks"
   ],
   "note": ""
  },
  {
   "property": "C09",
   "status": "partial",
   "theorems": [
    "Chf.Props.C09_count",
    "Chf.Props.C09_count_new",
    "Chf.Props.C09_count_hmac",
    "Chf.Props.C09_count_resume_partial",
    "Chf.Props.C09_siphash_refuted"
   ],
   "note": "True for every engine except siphash24::from_midstate, which ignores its length argument (C09_siphash_refuted). HMAC engines start at the block size, tagged ones at the tag's length."
  },
  {
   "property": "C10",
   "status": "proved",
   "theorems": [
    "Chf.Props.C10_no_panic",
    "Chf.Props.C10_new_no_panic",
    "Chf.Props.C10_hmac_new_no_panic"
   ],
   "note": ""
  },
  {
   "property": "C11",
   "status": "proved",
   "theorems": [
    "Chf.Props.C11_digest_length",
    "Chf.Props.C11_lengths"
   ],
   "note": ""
  },
  {
   "property": "C12",
   "status": "proved",
   "theorems": [
    "Chf.Props.C12_const_hash",
    "Chf.Props.C12_const_hash_sha256"
   ],
   "note": ""
  },
  {
   "property": "C13",
   "status": "proved",
   "theorems": [
    "Chf.Props.C13_hash_tag",
    "Chf.Props.C13_hash_tag_engine",
    "Chf.Props.C13_bip340",
    "Chf.Props.C13_bip340_hash"
   ],
   "note": ""
  },
  {
   "property": "C14",
   "status": "proved",
   "theorems": [
    "Chf.Props.C14_block",
    "Chf.Props.C14_programs",
    "Chf.Props.C14_pools"
   ],
   "note": ""
  },
  {
   "property": "C15",
   "status": "proved",
   "theorems": [
    "Chf.Props.C15_small_hash",
    "Chf.Props.C15_blocks",
    "Chf.Props.C15_builds",
    "Chf.Props.C15_pools"
   ],
   "note": ""
  },
  {
   "property": "C16",
   "status": "proved",
   "theorems": [
    "Chf.Props.C16_sha256_resume",
    "Chf.Props.C16_sha256t_resume"
   ],
   "note": ""
  },
  {
   "property": "C17",
   "status": "proved",
   "theorems": [
    "Chf.Props.C17_sha1_resume"
   ],
   "note": ""
  },
  {
   "property": "C18",
   "status": "partial",
   "theorems": [
    "Chf.Props.C18_always_panics",
    "Chf.Props.C18_refuted"
   ],
   "note": "False of the code: C18_refuted is the negation of C18_statement; C18_always_panics shows from_midstate succeeds for no midstate and no length."
  },
  {
   "property": "C19",
   "status": "partial",
   "theorems": [
    "Chf.Props.C19_resumes_iff_partial",
    "Chf.Props.C19_refuted",
    "Chf.Props.C19_wrong_digest_refuted"
   ],
   "note": "False of the code: C19_refuted is the negation of C19_statement, C19_wrong_digest_refuted a concrete wrong digest; C19_resumes_iff_partial says exactly when resuming works (every midstate word a byte palindrome)."
  },
  {
   "property": "C20",
   "status": "partial",
   "theorems": [
    "Chf.Props.C20_never_resumes",
    "Chf.Props.C20_refuted",
    "Chf.Props.C20_wrong_digest_refuted",
    "Chf.Props.C20_digests_partial"
   ],
   "note": "False of the code: C20_refuted is the negation of C20_statement, C20_never_resumes shows it fails for every engine that hashed anything, C20_wrong_digest_refuted is a concrete wrong digest; C20_digests_partial: digests do agree when the count is a multiple of 256."
  },
  {
   "property": "C21",
   "status": "partial",
   "theorems": [
    "Chf.Props.C21_same_counts_partial",
    "Chf.Props.C21_digests_sha256",
    "Chf.Props.C21_digests_sha1",
    "Chf.Props.C21_differs_sha256",
    "Chf.Props.C21_differs_sha1",
    "Chf.Props.C21_resume_partial",
    "Chf.Props.C21_new_key_partial",
    "Chf.Props.C21_wrong_digest_refuted",
    "Chf.Props.C21_refuted"
   ],
   "note": "False of the code: C21_refuted is the negation of C21_statement, C21_wrong_digest_refuted a concrete wrong tag; C21_resume_partial, C21_same_counts_partial and C21_new_key_partial give the case that works (both halves have counted the same number of bytes, as directly after new(key)); C21_digests_* and C21_differs_* say what is computed in every other case."
  },
  {
   "property": "C22",
   "status": "proved",
   "theorems": [
    "Chf.Props.C22_unaligned_panics",
    "Chf.Props.C22_aligned_succeeds"
   ],
   "note": ""
  },
  {
   "property": "C23",
   "status": "proved",
   "theorems": [
    "Chf.Props.C23_hmac_any_width",
    "Chf.Props.C23_hmac",
    "Chf.Props.C23_hmac_sha256",
    "Chf.Props.C23_hmac_sha512"
   ],
   "note": ""
  },
  {
   "property": "C24",
   "status": "proved",
   "theorems": [
    "Chf.Props.C24_long_key",
    "Chf.Props.C24_long_key_alg",
    "Chf.Props.C24_zero_padding",
    "Chf.Props.C24_default"
   ],
   "note": ""
  },
  {
   "property": "C25",
   "status": "proved",
   "theorems": [
    "Chf.Props.C25_equal_lengths",
    "Chf.Props.C25_different_lengths"
   ],
   "note": ""
  },
  {
   "property": "C26",
   "status": "proved",
   "theorems": [
    "Chf.Props.C26_constant_time",
    "Chf.Props.C26_reads"
   ],
   "note": ""
  },
  {
   "property": "C27",
   "status": "proved",
   "theorems": [
    "Chf.Props.C27_lengths",
    "Chf.Props.C27_right_length",
    "Chf.Props.C27_wrong_length",
    "Chf.Props.C27_message"
   ],
   "note": ""
  },
  {
   "property": "C28",
   "status": "proved",
   "theorems": [
    "Chf.Props.C28_same_bytes",
    "Chf.Props.C28_eq",
    "Chf.Props.C28_rebuild",
    "Chf.Props.C28_write_through",
    "Chf.Props.C28_index",
    "Chf.Props.C28_index_range",
    "Chf.Props.C28_index_half",
    "Chf.Props.C28_all_zeros"
   ],
   "note": ""
  },
  {
   "property": "C29",
   "status": "proved",
   "theorems": [
    "Chf.Props.C29_round_trip",
    "Chf.Props.C29_display",
    "Chf.Props.C29_prefix_rejected"
   ],
   "note": "Rests on Model/Hex.lean, which writes down the documented behaviour of the external crate hex-conservative."
  },
  {
   "property": "C30",
   "status": "proved",
   "theorems": [
    "Chf.Props.C30_accepts",
    "Chf.Props.C30_succeeds",
    "Chf.Props.C30_rejects",
    "Chf.Props.C30_errors",
    "Chf.Props.C30_case"
   ],
   "note": "Rests on Model/Hex.lean, which writes down the documented behaviour of the external crate hex-conservative."
  },
  {
   "property": "C31",
   "status": "proved",
   "theorems": [
    "Chf.Props.C31_display",
    "Chf.Props.C31_upper",
    "Chf.Props.C31_value",
    "Chf.Props.C31_prefix",
    "Chf.Props.C31_debug",
    "Chf.Props.C31_injective"
   ],
   "note": "Rests on Model/Hex.lean, which writes down the documented behaviour of the external crate hex-conservative."
  },
  {
   "property": "C32",
   "status": "proved",
   "theorems": [
    "Chf.Props.C32_round_trip",
    "Chf.Props.C32_string_as_bytes",
    "Chf.Props.C32_format",
    "Chf.Props.C32_human",
    "Chf.Props.C32_human_bytes",
    "Chf.Props.C32_human_errors",
    "Chf.Props.C32_binary",
    "Chf.Props.C32_other"
   ],
   "note": ""
  },
  {
   "property": "C33",
   "status": "proved",
   "theorems": [
    "Chf.Props.C33_write",
    "Chf.Props.C33_flush",
    "Chf.Props.C33_sequence",
    "Chf.Props.C33_digest",
    "Chf.Props.C33_which"
   ],
   "note": "sha384 and sha512_256 engines do not implement Write (C33_which). write_all is the provided method of std and bitcoin_io, written down in Model/Write.lean."
  },
  {
   "property": "C34",
   "status": "proved",
   "theorems": [
    "Chf.Props.C34_from_engine_to_u64",
    "Chf.Props.C34_hash_to_u64",
    "Chf.Props.C34_hash_to_u64_spec",
    "Chf.Props.C34_u64_round_trip"
   ],
   "note": ""
  },
  {
   "property": "C35",
   "status": "proved",
   "theorems": [
    "Chf.Props.C35_input_in_bounds"
   ],
   "note": ""
  },
  {
   "property": "C36",
   "status": "proved",
   "theorems": [
    "Chf.Props.C36_numeric",
    "Chf.Props.C36_total_order",
    "Chf.Props.C36_display_order"
   ],
   "note": ""
  },
  {
   "property": "C37",
   "status": "proved",
   "theorems": [
    "Chf.Props.C37_programs",
    "Chf.Props.C37_observers",
    "Chf.Props.C37_independent"
   ],
   "note": ""
  },
  {
   "property": "C38",
   "status": "proved",
   "theorems": [
    "Chf.Props.C38_panics",
    "Chf.Props.C38_wraps",
    "Chf.Props.C38_not_standard_blocks",
    "Chf.Props.C38_wrong_digest",
    "Chf.Props.C38_not_standard"
   ],
   "note": ""
  },
  {
   "property": "C39",
   "status": "proved",
   "theorems": [
    "Chf.Props.C39_finalize_panics_iff",
    "Chf.Props.C39_siphash_never_panics",
    "Chf.Props.C39_unchecked_never_panics"
   ],
   "note": ""
  },
  {
   "property": "C40",
   "status": "proved",
   "theorems": [
    "Chf.Props.C40_stale_buffer"
   ],
   "note": ""
  },
  {
   "property": "C41",
   "status": "proved",
   "theorems": [
    "Chf.Props.C41_trace",
    "Chf.Props.C41_trace_chain",
    "Chf.Props.C41_blocks",
    "Chf.Props.C41_injective"
   ],
   "note": ""
  },
  {
   "property": "C42",
   "status": "proved",
   "theorems": [
    "Chf.Props.C42_sha256_extension",
    "Chf.Props.C42_sha1_extension"
   ],
   "note": ""
  },
  {
   "property": "C43",
   "status": "proved",
   "theorems": [
    "Chf.Props.C43_exists",
    "Chf.Props.C43_admits",
    "Chf.Props.C43_deserializes",
    "Chf.Props.C43_exact",
    "Chf.Props.C43_not_anchored",
    "Chf.Props.C43_hmac_u32"
   ],
   "note": "The bound comes from the u32 arithmetic in hmac.rs 98-99 (C43_hmac_u32) and from the + of the pattern. C43_not_anchored: the schema admits more than what deserializes."
  },
  {
   "property": "C44",
   "status": "proved",
   "theorems": [
    "Chf.Props.C44_sha256_midstate",
    "Chf.Props.C44_sha1_midstate",
    "Chf.Props.C44_sha512_midstate",
    "Chf.Props.C44_sha384_midstate",
    "Chf.Props.C44_sha512_256_midstate",
    "Chf.Props.C44_ripemd160_midstate",
    "Chf.Props.C44_unchanged"
   ],
   "note": ""
  },
  {
   "property": "C45",
   "status": "proved",
   "theorems": [
    "Chf.Props.C45_constructors",
    "Chf.Props.C45_hash_from_engine"
   ],
   "note": ""
  },
  {
   "property": "C46",
   "status": "proved",
   "theorems": [
    "Chf.Props.C46_large_block_panics",
    "Chf.Props.C46_only_engine_panics"
   ],
   "note": ""
  },
  {
   "property": "C47",
   "status": "proved",
   "theorems": [
    "Chf.Props.C47_keys",
    "Chf.Props.C47_new_keys"
   ],
   "note": ""
  },
  {
   "property": "C48",
   "status": "proved",
   "theorems": [
    "Chf.Props.C48_sha256",
    "Chf.Props.C48_sha512",
    "Chf.Props.C48_sha1",
    "Chf.Props.C48_ripemd160",
    "Chf.Props.C48_iv160"
   ],
   "note": ""
  },
  {
   "property": "C49",
   "status": "proved",
   "theorems": [
    "Chf.Props.C49_collision_instance",
    "Chf.Props.C49_collision"
   ],
   "note": ""
  },
  {
   "property": "C50",
   "status": "proved",
   "theorems": [
    "Chf.Props.C50_overflow_checks",
    "Chf.Props.C50_unchecked",
    "Chf.Props.C50_differ"
   ],
   "note": ""
  },
  {
   "property": "C51",
   "status": "proved",
   "theorems": [
    "Chf.Props.C51_engine",
    "Chf.Props.C51_from_engine",
    "Chf.Props.C51_hash_chunks",
    "Chf.Props.C51_hash",
    "Chf.Props.C51_verify",
    "Chf.Props.C51_const_hash",
    "Chf.Props.C51_hash_with_keys"
   ],
   "note": ""
  },
  {
   "property": "C52",
   "status": "proved",
   "theorems": [
    "Chf.Props.C52_consistent",
    "Chf.Props.C52_separates",
    "Chf.Props.C52_across_types"
   ],
   "note": ""
  },
  {
   "property": "C53",
   "status": "proved",
   "theorems": [
    "Chf.Props.C53_sha256_difference",
    "Chf.Props.C53_sha512_difference",
    "Chf.Props.C53_sha1_difference",
    "Chf.Props.C53_sha256_fixed_point",
    "Chf.Props.C53_sha1_fixed_point"
   ],
   "note": ""
  },
  {
   "property": "C54",
   "status": "proved",
   "theorems": [
    "Chf.Props.C54_bijection",
    "Chf.Props.C54_keys"
   ],
   "note": ""
  },
  {
   "property": "C55",
   "status": "proved",
   "theorems": [
    "Chf.Props.C55_programs",
    "Chf.Props.C55_lengths_decide"
   ],
   "note": ""
  },
  {
   "property": "C56",
   "status": "proved",
   "theorems": [
    "Chf.Props.C56_streaming",
    "Chf.Props.C56_total",
    "Chf.Props.C56_finalize"
   ],
   "note": ""
  },
  {
   "property": "C57",
   "status": "proved",
   "theorems": [
    "Chf.Props.C57_tags",
    "Chf.Props.C57_hmac",
    "Chf.Props.C57_hmac_same_length"
   ],
   "note": ""
  },
  {
   "property": "C58",
   "status": "proved",
   "theorems": [
    "Chf.Props.C58_copy",
    "Chf.Props.C58_digest"
   ],
   "note": ""
  },
  {
   "property": "C59",
   "status": "proved",
   "theorems": [
    "Chf.Props.C59_panics",
    "Chf.Props.C59_release",
    "Chf.Props.C59_simd"
   ],
   "note": ""
  },
  {
   "property": "C60",
   "status": "proved",
   "theorems": [
    "Chf.Props.C60_portable",
    "Chf.Props.C60_needed"
   ],
   "note": ""
  },
  {
   "property": "C61",
   "status": "proved",
   "theorems": [
    "Chf.Props.C61_state",
    "Chf.Props.C61_extends",
    "Chf.Props.C61_hmac",
    "Chf.Props.C61_hmac_differs"
   ],
   "note": ""
  },
  {
   "property": "C62",
   "status": "proved",
   "theorems": [
    "Chf.Props.C62_agrees",
    "Chf.Props.C62_left",
    "Chf.Props.C62_siphash",
    "Chf.Props.C62_programs"
   ],
   "note": ""
  },
  {
   "property": "C63",
   "status": "proved",
   "theorems": [
    "Chf.Props.C63_provided",
    "Chf.Props.C63_contract",
    "Chf.Props.C63_rfc",
    "Chf.Props.C63_nests",
    "Chf.Props.C63_large_block",
    "Chf.Props.C63_crate"
   ],
   "note": ""
  },
  {
   "property": "C64",
   "status": "proved",
   "theorems": [
    "Chf.Props.C64_right_or_panic",
    "Chf.Props.C64_hmac",
    "Chf.Props.C64_exact"
   ],
   "note": ""
  },
  {
   "property": "C65",
   "status": "proved",
   "theorems": [
    "Chf.Props.C65_read_back",
    "Chf.Props.C65_faithful",
    "Chf.Props.C65_states"
   ],
   "note": ""
  },
  {
   "property": "C66",
   "status": "proved",
   "theorems": [
    "Chf.Props.C66_computes",
    "Chf.Props.C66_programs",
    "Chf.Props.C66_pairs"
   ],
   "note": ""
  },
  {
   "property": "C67",
   "status": "proved",
   "theorems": [
    "Chf.Props.C67_engines",
    "Chf.Props.C67_sha1",
    "Chf.Props.C67_sha256",
    "Chf.Props.C67_sha384",
    "Chf.Props.C67_sha512",
    "Chf.Props.C67_sha512_256",
    "Chf.Props.C67_ripemd160",
    "Chf.Props.C67_siphash24",
    "Chf.Props.C67_siphash24_keys",
    "Chf.Props.C67_hmac"
   ],
   "note": "About Verif/Source, which tools/rust2lean.py wrote from /repo/src; `rust2lean.py --check` compares the two."
  },
  {
   "property": "C68",
   "status": "proved",
   "theorems": [
    "Chf.Props.C68_programs",
    "Chf.Props.C68_model"
   ],
   "note": "About Verif/Source, which tools/rust2lean.py wrote from /repo/src; `rust2lean.py --check` compares the two."
  },
  {
   "property": "C69",
   "status": "proved",
   "theorems": [
    "Chf.Props.C69_const_hash",
    "Chf.Props.C69_const_hash_hash",
    "Chf.Props.C69_hash_tag",
    "Chf.Props.C69_bip340"
   ],
   "note": "About Verif/Source, which tools/rust2lean.py wrote from /repo/src; `rust2lean.py --check` compares the two."
  },
  {
   "property": "C70",
   "status": "proved",
   "theorems": [
    "Chf.Props.C70_from_slice",
    "Chf.Props.C70_errors",
    "Chf.Props.C70_fixed_time_eq",
    "Chf.Props.C70_u64"
   ],
   "note": "About Verif/Source, which tools/rust2lean.py wrote from /repo/src; `rust2lean.py --check` compares the two."
  },
  {
   "property": "C71",
   "status": "proved",
   "theorems": [
    "Chf.Props.C71_conversions",
    "Chf.Props.C71_count",
    "Chf.Props.C71_zeros",
    "Chf.Props.C71_from_slice",
    "Chf.Props.C71_index"
   ],
   "note": "About Verif/Source, which tools/rust2lean.py wrote from /repo/src; `rust2lean.py --check` compares the two."
  },
  {
   "property": "C72",
   "status": "proved",
   "theorems": [
    "Chf.Props.C72_eq",
    "Chf.Props.C72_order",
    "Chf.Props.C72_errors",
    "Chf.Props.C72_message"
   ],
   "note": "About Verif/Source, which tools/rust2lean.py wrote from /repo/src; `rust2lean.py --check` compares the two."
  },
  {
   "property": "C73",
   "status": "proved",
   "theorems": [
    "Chf.Props.C73_format",
    "Chf.Props.C73_parse",
    "Chf.Props.C73_errors",
    "Chf.Props.C73_round_trip"
   ],
   "note": "About Verif/Source, which tools/rust2lean.py wrote from /repo/src; `rust2lean.py --check` compares the two. Rests on Model/Hex.lean for the functions of the external crate hex-conservative."
  },
  {
   "property": "C74",
   "status": "proved",
   "theorems": [
    "Chf.Props.C74_provided",
    "Chf.Props.C74_chunking",
    "Chf.Props.C74_hmac",
    "Chf.Props.C74_new",
    "Chf.Props.C74_from_engine"
   ],
   "note": "About Verif/Source, which tools/rust2lean.py wrote from /repo/src; `rust2lean.py --check` compares the two."
  },
  {
   "property": "C75",
   "status": "proved",
   "theorems": [
    "Chf.Props.C75_write",
    "Chf.Props.C75_digest",
    "Chf.Props.C75_std_digest",
    "Chf.Props.C75_which"
   ],
   "note": "About Verif/Source, which tools/rust2lean.py wrote from /repo/src; `rust2lean.py --check` compares the two. write_all is the provided method of std and bitcoin_io, written down in Model/Write.lean."
  },
  {
   "property": "C76",
   "status": "proved",
   "theorems": [
    "Chf.Props.C76_serialize",
    "Chf.Props.C76_round_trip"
   ],
   "note": "About Verif/Source, which tools/rust2lean.py wrote from /repo/src; `rust2lean.py --check` compares the two. serde, schemars and core::hash are as Verif/Source/Prelude.lean says."
  },
  {
   "property": "C77",
   "status": "proved",
   "theorems": [
    "Chf.Props.C77_accepts",
    "Chf.Props.C77_human_errors",
    "Chf.Props.C77_binary_errors"
   ],
   "note": "About Verif/Source, which tools/rust2lean.py wrote from /repo/src; `rust2lean.py --check` compares the two. serde, schemars and core::hash are as Verif/Source/Prelude.lean says."
  },
  {
   "property": "C78",
   "status": "proved",
   "theorems": [
    "Chf.Props.C78_feed",
    "Chf.Props.C78_distinct"
   ],
   "note": "About Verif/Source, which tools/rust2lean.py wrote from /repo/src; `rust2lean.py --check` compares the two. serde, schemars and core::hash are as Verif/Source/Prelude.lean says."
  },
  {
   "property": "C79",
   "status": "proved",
   "theorems": [
    "Chf.Props.C79_schema",
    "Chf.Props.C79_none",
    "Chf.Props.C79_conforms",
    "Chf.Props.C79_exact",
    "Chf.Props.C79_hmac_u32"
   ],
   "note": "About Verif/Source, which tools/rust2lean.py wrote from /repo/src; `rust2lean.py --check` compares the two. serde, schemars and core::hash are as Verif/Source/Prelude.lean says."
  },
  {
   "property": "C80",
   "status": "proved",
   "theorems": [
    "Chf.Props.C80_panics",
    "Chf.Props.C80_release"
   ],
   "note": "About Verif/Source, which tools/rust2lean.py wrote from /repo/src; `rust2lean.py --check` compares the two."
  },
  {
   "property": "C81",
   "status": "proved",
   "theorems": [
    "Chf.Props.C81_builds",
    "Chf.Props.C81_overflow_checks",
    "Chf.Props.C81_portable",
    "Chf.Props.C81_lengths_decide"
   ],
   "note": "About Verif/Source, which tools/rust2lean.py wrote from /repo/src; `rust2lean.py --check` compares the two."
  },
  {
   "property": "C82",
   "status": "proved",
   "theorems": [
    "Chf.Props.C82_resume",
    "Chf.Props.C82_from_midstate",
    "Chf.Props.C82_unchanged",
    "Chf.Props.C82_states"
   ],
   "note": "About Verif/Source, which tools/rust2lean.py wrote from /repo/src; `rust2lean.py --check` compares the two."
  },
  {
   "property": "C83",
   "status": "proved",
   "theorems": [
    "Chf.Props.C83_ripemd160",
    "Chf.Props.C83_siphash24",
    "Chf.Props.C83_sha512",
    "Chf.Props.C83_hmac_new",
    "Chf.Props.C83_hmac_wrong_digest",
    "Chf.Props.C83_wrong_digests"
   ],
   "note": "About Verif/Source, which tools/rust2lean.py wrote from /repo/src; `rust2lean.py --check` compares the two."
  },
  {
   "property": "C84",
   "status": "proved",
   "theorems": [
    "Chf.Props.C84_computes",
    "Chf.Props.C84_constant_time",
    "Chf.Props.C84_reads"
   ],
   "note": "About Verif/Seen, which tools/rust2lean.py wrote from /repo/src; `rust2lean.py --check` compares the two. At source level: operations on words are not observed."
  },
  {
   "property": "C85",
   "status": "proved",
   "theorems": [
    "Chf.Props.C85_computes",
    "Chf.Props.C85_programs",
    "Chf.Props.C85_pairs",
    "Chf.Props.C85_hash",
    "Chf.Props.C85_hash_chunks",
    "Chf.Props.C85_const_hash",
    "Chf.Props.C85_siphash",
    "Chf.Props.C85_types",
    "Chf.Props.C85_types_compute"
   ],
   "note": "About Verif/Seen, which tools/rust2lean.py wrote from /repo/src; `rust2lean.py --check` compares the two. At source level: operations on words are not observed."
  },
  {
   "property": "C86",
   "status": "proved",
   "theorems": [
    "Chf.Props.C86_contract",
    "Chf.Props.C86_rfc",
    "Chf.Props.C86_nests",
    "Chf.Props.C86_large_block",
    "Chf.Props.C86_only_engine_panics",
    "Chf.Props.C86_provided"
   ],
   "note": "About Verif/Source, which tools/rust2lean.py wrote from /repo/src; `rust2lean.py --check` compares the two."
  },
  {
   "property": "C87",
   "status": "proved",
   "theorems": [
    "Chf.Props.C87_make",
    "Chf.Props.C87_input",
    "Chf.Props.C87_finalize",
    "Chf.Props.C87_midstate",
    "Chf.Props.C87_from_midstate",
    "Chf.Props.C87_hash",
    "Chf.Props.C87_hash_chunks",
    "Chf.Props.C87_numbers",
    "Chf.Props.C87_const_hash"
   ],
   "note": "About Verif/Seen, which tools/rust2lean.py wrote from /repo/src; `rust2lean.py --check` compares the two. Counts events of the observer of C85; operations on words are not counted."
  },
  {
   "property": "C88",
   "status": "proved",
   "theorems": [
    "Chf.Props.C88_agrees",
    "Chf.Props.C88_left",
    "Chf.Props.C88_siphash",
    "Chf.Props.C88_hmac",
    "Chf.Props.C88_programs"
   ],
   "note": "About Verif/Left, which tools/rust2lean.py wrote from /repo/src; `rust2lean.py --check` compares the two. C62 says the same of the model."
  },
  {
   "property": "C89",
   "status": "proved",
   "theorems": [
    "Chf.Props.C89_collision",
    "Chf.Props.C89_untruncated",
    "Chf.Props.C89_tags",
    "Chf.Props.C89_hmac"
   ],
   "note": "About Verif/Source, which tools/rust2lean.py wrote from /repo/src; `rust2lean.py --check` compares the two."
  },
  {
   "property": "C90",
   "status": "proved",
   "theorems": [
    "Chf.Props.C90_continue",
    "Chf.Props.C90_sha1",
    "Chf.Props.C90_block"
   ],
   "note": "About Verif/Source, which tools/rust2lean.py wrote from /repo/src; `rust2lean.py --check` compares the two."
  },
  {
   "property": "C91",
   "status": "proved",
   "theorems": [
    "Chf.Props.C91_long_key",
    "Chf.Props.C91_same_hash",
    "Chf.Props.C91_zero_padding",
    "Chf.Props.C91_default",
    "Chf.Props.C91_crate",
    "Chf.Props.C91_sha1_keys",
    "Chf.Props.C91_only"
   ],
   "note": "About Verif/Source, which tools/rust2lean.py wrote from /repo/src; `rust2lean.py --check` compares the two."
  },
  {
   "property": "C92",
   "status": "proved",
   "theorems": [
    "Chf.Props.C92_extension",
    "Chf.Props.C92_others"
   ],
   "note": "About Verif/Source, which tools/rust2lean.py wrote from /repo/src; `rust2lean.py --check` compares the two."
  },
  {
   "property": "C93",
   "status": "proved",
   "theorems": [
    "Chf.Props.C93_right_or_panic",
    "Chf.Props.C93_hmac",
    "Chf.Props.C93_exact"
   ],
   "note": "About Verif/Source, which tools/rust2lean.py wrote from /repo/src; `rust2lean.py --check` compares the two."
  },
  {
   "property": "C94",
   "status": "proved",
   "theorems": [
    "Chf.Props.C94_sha256_fixed_point",
    "Chf.Props.C94_sha1_fixed_point",
    "Chf.Props.C94_sha512_difference",
    "Chf.Props.C94_sha256_difference",
    "Chf.Props.C94_sha1_difference",
    "Chf.Props.C94_siphash_bijection",
    "Chf.Props.C94_siphash_keys"
   ],
   "note": "About Verif/Source, which tools/rust2lean.py wrote from /repo/src; `rust2lean.py --check` compares the two."
  },
  {
   "property": "C95",
   "status": "proved",
   "theorems": [
    "Chf.Props.C95_wraps",
    "Chf.Props.C95_tagged",
    "Chf.Props.C95_hmac",
    "Chf.Props.C95_siphash",
    "Chf.Props.C95_finalize_panics_iff",
    "Chf.Props.C95_not_standard",
    "Chf.Props.C95_wrong_digest"
   ],
   "note": "About Verif/Source, which tools/rust2lean.py wrote from /repo/src; `rust2lean.py --check` compares the two."
  },
  {
   "property": "C96",
   "status": "proved",
   "theorems": [
    "Chf.Props.C96_engine",
    "Chf.Props.C96_from_engine",
    "Chf.Props.C96_bytes",
    "Chf.Props.C96_hash",
    "Chf.Props.C96_value",
    "Chf.Props.C96_printed",
    "Chf.Props.C96_check",
    "Chf.Props.C96_compared"
   ],
   "note": "About Verif/Source, which tools/rust2lean.py wrote from /repo/src; `rust2lean.py --check` compares the two."
  },
  {
   "property": "C97",
   "status": "proved",
   "theorems": [
    "Chf.Props.C97_midstates",
    "Chf.Props.C97_one_block",
    "Chf.Props.C97_hmac",
    "Chf.Props.C97_hmac_iff"
   ],
   "note": "About Verif/Source, which tools/rust2lean.py wrote from /repo/src; `rust2lean.py --check` compares the two."
  },
  {
   "property": "C98",
   "status": "proved",
   "theorems": [
    "Chf.Props.C98_copy",
    "Chf.Props.C98_printed",
    "Chf.Props.C98_check",
    "Chf.Props.C98_error"
   ],
   "note": "About Verif/Source, which tools/rust2lean.py wrote from /repo/src; `rust2lean.py --check` compares the two."
  },
  {
   "property": "C99",
   "status": "proved",
   "theorems": [
    "Chf.Props.C99_input_keys",
    "Chf.Props.C99_keys",
    "Chf.Props.C99_from_engine",
    "Chf.Props.C99_value",
    "Chf.Props.C99_order",
    "Chf.Props.C99_order_not_numeric"
   ],
   "note": "About Verif/Source, which tools/rust2lean.py wrote from /repo/src; `rust2lean.py --check` compares the two."
  },
  {
   "property": "C100",
   "status": "proved",
   "theorems": [
    "Chf.Props.C100_count",
    "Chf.Props.C100_resume",
    "Chf.Props.C100_resume_later",
    "Chf.Props.C100_carries",
    "Chf.Props.C100_not_later"
   ],
   "note": "About Verif/Source, which tools/rust2lean.py wrote from /repo/src; `rust2lean.py --check` compares the two."
  },
  {
   "property": "C101",
   "status": "proved",
   "theorems": [
    "Chf.Props.C101_serialized",
    "Chf.Props.C101_check",
    "Chf.Props.C101_schema",
    "Chf.Props.C101_keys"
   ],
   "note": "About Verif/Source, which tools/rust2lean.py wrote from /repo/src; `rust2lean.py --check` compares the two."
  },
  {
   "property": "C102",
   "status": "proved",
   "theorems": [
    "Chf.Props.C102_engine",
    "Chf.Props.C102_view",
    "Chf.Props.C102_hash",
    "Chf.Props.C102_same",
    "Chf.Props.C102_prefix",
    "Chf.Props.C102_part",
    "Chf.Props.C102_separate",
    "Chf.Props.C102_nested",
    "Chf.Props.C102_public"
   ],
   "note": "About Verif/Source, which tools/rust2lean.py wrote from /repo/src; `rust2lean.py --check` compares the two."
  },
  {
   "property": "C103",
   "status": "proved",
   "theorems": [
    "Chf.Props.C103_sha256",
    "Chf.Props.C103_sha512",
    "Chf.Props.C103_sha1",
    "Chf.Props.C103_ripemd160",
    "Chf.Props.C103_initial",
    "Chf.Props.C103_from",
    "Chf.Props.C103_sha512_256"
   ],
   "note": "About Verif/Source, which tools/rust2lean.py wrote from /repo/src; `rust2lean.py --check` compares the two."
  },
  {
   "property": "C104",
   "status": "proved",
   "theorems": [
    "Chf.Props.C104_printed",
    "Chf.Props.C104_sorted",
    "Chf.Props.C104_prefix"
   ],
   "note": "About Verif/Source, which tools/rust2lean.py wrote from /repo/src; `rust2lean.py --check` compares the two."
  },
  {
   "property": "C105",
   "status": "proved",
   "theorems": [
    "Chf.Props.C105_tag",
    "Chf.Props.C105_check",
    "Chf.Props.C105_check_str",
    "Chf.Props.C105_compare",
    "Chf.Props.C105_seen",
    "Chf.Props.C105_twice"
   ],
   "note": "About Verif/Source, which tools/rust2lean.py wrote from /repo/src; `rust2lean.py --check` compares the two."
  },
  {
   "property": "C106",
   "status": "proved",
   "theorems": [
    "Chf.Props.C106_kept",
    "Chf.Props.C106_clean",
    "Chf.Props.C106_last",
    "Chf.Props.C106_hmac",
    "Chf.Props.C106_key"
   ],
   "note": "About Verif/Source, which tools/rust2lean.py wrote from /repo/src; `rust2lean.py --check` compares the two."
  },
  {
   "property": "C107",
   "status": "proved",
   "theorems": [
    "Chf.Props.C107_multi",
    "Chf.Props.C107_count",
    "Chf.Props.C107_sha1",
    "Chf.Props.C107_exist",
    "Chf.Props.C107_messages"
   ],
   "note": "About Verif/Source, which tools/rust2lean.py wrote from /repo/src; `rust2lean.py --check` compares the two."
  },
  {
   "property": "C108",
   "status": "proved",
   "theorems": [
    "Chf.Props.C108_message",
    "Chf.Props.C108_readable",
    "Chf.Props.C108_rejected",
    "Chf.Props.C108_told_apart"
   ],
   "note": "About Verif/Source, which tools/rust2lean.py wrote from /repo/src; `rust2lean.py --check` compares the two."
  },
  {
   "property": "C109",
   "status": "proved",
   "theorems": [
    "Chf.Props.C109_anywhere",
    "Chf.Props.C109_compose",
    "Chf.Props.C109_repeat",
    "Chf.Props.C109_resume"
   ],
   "note": "About Verif/Source, which tools/rust2lean.py wrote from /repo/src; `rust2lean.py --check` compares the two."
  },
  {
   "property": "C110",
   "status": "proved",
   "theorems": [
    "Chf.Props.C110_serialize",
    "Chf.Props.C110_human",
    "Chf.Props.C110_binary",
    "Chf.Props.C110_round_trip",
    "Chf.Props.C110_panics"
   ],
   "note": "About Verif/Source, which tools/rust2lean.py wrote from /repo/src; `rust2lean.py --check` compares the two."
  },
  {
   "property": "C111",
   "status": "proved",
   "theorems": [
    "Chf.Props.C111_from_slice",
    "Chf.Props.C111_serde",
    "Chf.Props.C111_not_bits"
   ],
   "note": "About Verif/Source, which tools/rust2lean.py wrote from /repo/src; `rust2lean.py --check` compares the two."
  },
  {
   "property": "C112",
   "status": "proved",
   "theorems": [
    "Chf.Props.C112_schema",
    "Chf.Props.C112_exactly"
   ],
   "note": "About Verif/Source, which tools/rust2lean.py wrote from /repo/src; `rust2lean.py --check` compares the two."
  },
  {
   "property": "C113",
   "status": "proved",
   "theorems": [
    "Chf.Props.C113_any_engine",
    "Chf.Props.C113_unkeyed",
    "Chf.Props.C113_zero_keys"
   ],
   "note": "About Verif/Source, which tools/rust2lean.py wrote from /repo/src; `rust2lean.py --check` compares the two."
  },
  {
   "property": "C114",
   "status": "proved",
   "theorems": [
    "Chf.Props.C114_cuts",
    "Chf.Props.C114_empty",
    "Chf.Props.C114_once",
    "Chf.Props.C114_copy"
   ],
   "note": "About Verif/Source, which tools/rust2lean.py wrote from /repo/src; `rust2lean.py --check` compares the two."
  }
 ]
}
