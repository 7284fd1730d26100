{
 "C03": {"note": "False of the code as stated: the length field only ever holds 64 bits. C03_sha512_refuted proves the negation, C03_sha512_exact says what the code computes for every length, C03_sha512_partial is the standard's digest below 2^61 bytes."},
 "C09": {"note": "True for every engine except siphash24::from_midstate, which ignores its length argument (C09_siphash_refuted). HMAC engines start at the block size, tagged ones at the tag's length."},
 "C18": {"note": "False of the code: C18_refuted is the negation of C18_statement; C18_always_panics shows from_midstate succeeds for no midstate and no length."},
 "C19": {"note": "False of the code: C19_refuted is the negation of C19_statement, C19_wrong_digest_refuted a concrete wrong digest; C19_resumes_iff_partial says exactly when resuming works (every midstate word a byte palindrome)."},
 "C20": {"note": "False of the code: C20_refuted is the negation of C20_statement, C20_never_resumes shows it fails for every engine that hashed anything, C20_wrong_digest_refuted is a concrete wrong digest; C20_digests_partial: digests do agree when the count is a multiple of 256."},
 "C21": {"note": "False of the code: C21_refuted is the negation of C21_statement, C21_wrong_digest_refuted a concrete wrong tag; C21_resume_partial, C21_same_counts_partial and C21_new_key_partial give the case that works (both halves have counted the same number of bytes, as directly after new(key)); C21_digests_* and C21_differs_* say what is computed in every other case."},
 "C29": {"note": "Rests on Model/Hex.lean, which writes down the documented behaviour of the external crate hex-conservative."},
 "C30": {"note": "Rests on Model/Hex.lean, which writes down the documented behaviour of the external crate hex-conservative."},
 "C31": {"note": "Rests on Model/Hex.lean, which writes down the documented behaviour of the external crate hex-conservative."},
 "C33": {"note": "sha384 and sha512_256 engines do not implement Write (C33_which). write_all is the provided method of std and bitcoin_io, written down in Model/Write.lean."},
 "C43": {"note": "The bound comes from the u32 arithmetic in hmac.rs 98-99 (C43_hmac_u32) and from the + of the pattern. C43_not_anchored: the schema admits more than what deserializes."},
 "C67": {"note": "About Verif/Source, which tools/rust2lean.py wrote from /repo/src; `rust2lean.py --check` compares the two."},
 "C68": {"note": "About Verif/Source, which tools/rust2lean.py wrote from /repo/src; `rust2lean.py --check` compares the two."},
 "C69": {"note": "About Verif/Source, which tools/rust2lean.py wrote from /repo/src; `rust2lean.py --check` compares the two."},
 "C70": {"note": "About Verif/Source, which tools/rust2lean.py wrote from /repo/src; `rust2lean.py --check` compares the two."},
 "C71": {"note": "About Verif/Source, which tools/rust2lean.py wrote from /repo/src; `rust2lean.py --check` compares the two."},
 "C72": {"note": "About Verif/Source, which tools/rust2lean.py wrote from /repo/src; `rust2lean.py --check` compares the two."},
 "C73": {"note": "About Verif/Source, which tools/rust2lean.py wrote from /repo/src; `rust2lean.py --check` compares the two. Rests on Model/Hex.lean for the functions of the external crate hex-conservative."},
 "C74": {"note": "About Verif/Source, which tools/rust2lean.py wrote from /repo/src; `rust2lean.py --check` compares the two."},
 "C75": {"note": "About Verif/Source, which tools/rust2lean.py wrote from /repo/src; `rust2lean.py --check` compares the two. write_all is the provided method of std and bitcoin_io, written down in Model/Write.lean."},
 "C76": {"note": "About Verif/Source, which tools/rust2lean.py wrote from /repo/src; `rust2lean.py --check` compares the two. serde, schemars and core::hash are as Verif/Source/Prelude.lean says."},
 "C77": {"note": "About Verif/Source, which tools/rust2lean.py wrote from /repo/src; `rust2lean.py --check` compares the two. serde, schemars and core::hash are as Verif/Source/Prelude.lean says."},
 "C78": {"note": "About Verif/Source, which tools/rust2lean.py wrote from /repo/src; `rust2lean.py --check` compares the two. serde, schemars and core::hash are as Verif/Source/Prelude.lean says."},
 "C79": {"note": "About Verif/Source, which tools/rust2lean.py wrote from /repo/src; `rust2lean.py --check` compares the two. serde, schemars and core::hash are as Verif/Source/Prelude.lean says."},
 "C80": {"note": "About Verif/Source, which tools/rust2lean.py wrote from /repo/src; `rust2lean.py --check` compares the two."},
 "C81": {"note": "About Verif/Source, which tools/rust2lean.py wrote from /repo/src; `rust2lean.py --check` compares the two."},
 "C82": {"note": "About Verif/Source, which tools/rust2lean.py wrote from /repo/src; `rust2lean.py --check` compares the two."},
 "C83": {"note": "About Verif/Source, which tools/rust2lean.py wrote from /repo/src; `rust2lean.py --check` compares the two."},
 "C84": {"note": "About Verif/Seen, which tools/rust2lean.py wrote from /repo/src; `rust2lean.py --check` compares the two. At source level: operations on words are not observed."},
 "C85": {"note": "About Verif/Seen, which tools/rust2lean.py wrote from /repo/src; `rust2lean.py --check` compares the two. At source level: operations on words are not observed."},
 "C86": {"note": "About Verif/Source, which tools/rust2lean.py wrote from /repo/src; `rust2lean.py --check` compares the two."},
 "C87": {"note": "About Verif/Seen, which tools/rust2lean.py wrote from /repo/src; `rust2lean.py --check` compares the two. Counts events of the observer of C85; operations on words are not counted."},
 "C88": {"note": "About Verif/Left, which tools/rust2lean.py wrote from /repo/src; `rust2lean.py --check` compares the two. C62 says the same of the model."},
 "C89": {"note": "About Verif/Source, which tools/rust2lean.py wrote from /repo/src; `rust2lean.py --check` compares the two."},
 "C90": {"note": "About Verif/Source, which tools/rust2lean.py wrote from /repo/src; `rust2lean.py --check` compares the two."},
 "C91": {"note": "About Verif/Source, which tools/rust2lean.py wrote from /repo/src; `rust2lean.py --check` compares the two."},
 "C92": {"note": "About Verif/Source, which tools/rust2lean.py wrote from /repo/src; `rust2lean.py --check` compares the two."},
 "C93": {"note": "About Verif/Source, which tools/rust2lean.py wrote from /repo/src; `rust2lean.py --check` compares the two."},
 "C94": {"note": "About Verif/Source, which tools/rust2lean.py wrote from /repo/src; `rust2lean.py --check` compares the two."},
 "C95": {"note": "About Verif/Source, which tools/rust2lean.py wrote from /repo/src; `rust2lean.py --check` compares the two."},
 "C96": {"note": "About Verif/Source, which tools/rust2lean.py wrote from /repo/src; `rust2lean.py --check` compares the two."},
 "C97": {"note": "About Verif/Source, which tools/rust2lean.py wrote from /repo/src; `rust2lean.py --check` compares the two."},
 "C98": {"note": "About Verif/Source, which tools/rust2lean.py wrote from /repo/src; `rust2lean.py --check` compares the two."},
 "C99": {"note": "About Verif/Source, which tools/rust2lean.py wrote from /repo/src; `rust2lean.py --check` compares the two."},
 "C100": {"note": "About Verif/Source, which tools/rust2lean.py wrote from /repo/src; `rust2lean.py --check` compares the two."},
 "C101": {"note": "About Verif/Source, which tools/rust2lean.py wrote from /repo/src; `rust2lean.py --check` compares the two."},
 "C102": {"note": "About Verif/Source, which tools/rust2lean.py wrote from /repo/src; `rust2lean.py --check` compares the two."},
 "C103": {"note": "About Verif/Source, which tools/rust2lean.py wrote from /repo/src; `rust2lean.py --check` compares the two."},
 "C104": {"note": "About Verif/Source, which tools/rust2lean.py wrote from /repo/src; `rust2lean.py --check` compares the two."},
 "C105": {"note": "About Verif/Source, which tools/rust2lean.py wrote from /repo/src; `rust2lean.py --check` compares the two."},
 "C106": {"note": "About Verif/Source, which tools/rust2lean.py wrote from /repo/src; `rust2lean.py --check` compares the two."},
 "C107": {"note": "About Verif/Source, which tools/rust2lean.py wrote from /repo/src; `rust2lean.py --check` compares the two."},
 "C108": {"note": "About Verif/Source, which tools/rust2lean.py wrote from /repo/src; `rust2lean.py --check` compares the two."},
 "C109": {"note": "About Verif/Source, which tools/rust2lean.py wrote from /repo/src; `rust2lean.py --check` compares the two."},
 "C110": {"note": "About Verif/Source, which tools/rust2lean.py wrote from /repo/src; `rust2lean.py --check` compares the two."},
 "C111": {"note": "About Verif/Source, which tools/rust2lean.py wrote from /repo/src; `rust2lean.py --check` compares the two."},
 "C112": {"note": "About Verif/Source, which tools/rust2lean.py wrote from /repo/src; `rust2lean.py --check` compares the two."},
 "C113": {"note": "About Verif/Source, which tools/rust2lean.py wrote from /repo/src; `rust2lean.py --check` compares the two."},
 "C114": {"note": "About Verif/Source, which tools/rust2lean.py wrote from /repo/src; `rust2lean.py --check` compares the two."}
}
