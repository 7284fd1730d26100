import Verif.Proofs.Seen.Programs
import Verif.Proofs.Seen.Cmp
import Verif.Proofs.Seen.OneShot

/-!
# Properties C84, C85: branches and memory addresses of the translated text do not depend on the data

`Seen.f` is the translated function `Source.f` with every branch, index and slice recorded.
-/

namespace Chf.Props
open Tr

/-- C84: the observed `fixed_time_eq` returns and panics as the translated one. -/
theorem C84_computes (c : Cfg) (a b : List Byte) :
    (Seen.Cmp.fixed_time_eq c a b).res = Source.Cmp.fixed_time_eq c a b :=
  Seen.Cmp.fixed_time_eq_res c a b

/-- C84: what is seen of `fixed_time_eq` depends on the lengths of its arguments only. -/
theorem C84_constant_time (c : Cfg) (a b a' b' : List Byte) (ha : a.length = a'.length)
    (hb : b.length = b'.length) :
    (Seen.Cmp.fixed_time_eq c a b).seen = (Seen.Cmp.fixed_time_eq c a' b').seen :=
  (Seen.Cmp.fixed_time_eq_same c ha hb).seen

/-- C84: for equal lengths two slices are taken, then every byte of both is read once, in order, and
there is no branch but the one of the loop. -/
theorem C84_reads (c : Cfg) (a b : List Byte) (h : a.length = b.length) :
    (Seen.Cmp.fixed_time_eq c a b).seen = .span 0 a.length :: .span 0 a.length ::
      ((List.range a.length).flatMap (fun i => [.branch true, .at i, .at i]) ++ [.branch false]) :=
  Seen.Cmp.fixed_time_eq_seen c h

example : ([1, 2] : List Byte).length = [3, 2].length ∧
    Source.Cmp.fixed_time_eq .debug64 [1, 2] [3, 2] = .ok false ∧
    Source.Cmp.fixed_time_eq .debug64 [1, 2] [1, 2] = .ok true ∧
    (Seen.Cmp.fixed_time_eq .debug64 [1, 2] [3, 2]).seen =
      [.span 0 2, .span 0 2, .branch true, .at 0, .at 0, .branch true, .at 1, .at 1, .branch false] ∧
    (Seen.Cmp.fixed_time_eq .debug64 [1, 2] [3]).seen = [.panic] := by decide +kernel

/-- C85: the observed methods of every engine of the text return and panic as the methods do. -/
theorem C85_computes (c : Cfg) (a : Alg) :
    (Source.seenOf c a).new.res = (Source.engineOf c a).new ∧
    (Source.seenOf c a).default.res = (Source.engineOf c a).default ∧
    (∀ e d, ((Source.seenOf c a).input e d).res = (Source.engineOf c a).input e d) ∧
    (∀ e, ((Source.seenOf c a).finalize e).res = (Source.engineOf c a).finalize e) ∧
    (∀ e, ((Source.seenOf c a).midstate e).res = (Source.engineOf c a).midstate e) ∧
    (∀ μ n, ((Source.seenOf c a).fromMidstate μ n).res = (Source.engineOf c a).fromMidstate μ n) ∧
    ∀ mk, (Source.makeSeen c a mk).map Tr.res = Source.make c a mk :=
  have h := Source.erasesOf c a
  ⟨h.new, h.default, h.input, h.finalize, h.midstate, h.fromMidstate, Source.make_res c a⟩

/-- C85: in every build, an observer of branches and addresses sees the same of every call of a program
over the translated engines as of the same program with all keys, midstates and messages replaced by
zeroes; and the answers have the same lengths, counts and panics. -/
theorem C85_programs (c : Cfg) (calls : List Call) :
    Source.programSeen c [] calls = Source.programSeen c [] (calls.map Call.blank) ∧
    ((Source.text c).answers [] calls).map Answer.blank =
      ((Source.text c).answers [] (calls.map Call.blank)).map Answer.blank :=
  Source.program_blank c calls Source.PoolLike.nil

/-- C85: two programs that differ in the contents of keys, midstates and messages only. -/
theorem C85_pairs (c : Cfg) (calls calls' : List Call) (h : calls.map Call.blank = calls'.map Call.blank) :
    Source.programSeen c [] calls = Source.programSeen c [] calls' := by
  rw [(C85_programs c calls).1, (C85_programs c calls').1, h]

/-- Two HMAC and SipHash computations with different keys and messages of the same lengths. -/
def textSecrets (k d : Byte) : List Call :=
  [.make (.hmac .sha256) (.hmacKey [k, 2, 3]), .input 0 [d, d], .midstate 0, .finalize 0,
   .make .siphash24 (.sipKeys 5 k.toNat), .input 1 [d, 1, 2, 3, 4, 5, 6, 7, 8], .finalize 1]

/-- They satisfy the hypothesis and have different digests; of the inputs the observer sees a copy of two
bytes to place 0 of the buffer, and a load of eight bytes and of one. -/
example :
    (textSecrets 1 2).map Call.blank = (textSecrets 200 77).map Call.blank ∧
    (Source.text .release64).answers [] (textSecrets 1 2) ≠
      (Source.text .release64).answers [] (textSecrets 200 77) ∧
    (Source.programSeen .release64 [] (textSecrets 1 2))[1]? = some [.branch true, .span 0 2, .span 0 2,
      .span 0 2, .span 0 2, .branch false, .span 2 2, .branch false] ∧
    (Source.programSeen .release64 [] (textSecrets 1 2))[5]? = some [.branch false, .branch true, .span 0 8,
      .branch false, .branch false, .branch false, .branch true, .at 8] := by
  refine ⟨rfl, ?_, ?_, ?_⟩ <;> decide +kernel

/-- What is seen is not always the same: it depends on the length of a message. -/
example : Source.programSeen .release64 [] [.make .sha1 .new, .input 0 [1]] ≠
    Source.programSeen .release64 [] [.make .sha1 .new, .input 0 [1, 2]] := by
  decide +kernel

/-- C85: the one-shot methods of the trait, on a slice and on a list of slices. -/
theorem C85_hash (c : Cfg) (a : Alg) (d d' : List Byte) (h : d.length = d'.length) :
    (Seen.Lib.HashEngine.hash c (Source.engineOf c a) (Source.seenOf c a) d).seen =
      (Seen.Lib.HashEngine.hash c (Source.engineOf c a) (Source.seenOf c a) d').seen ∧
    (Seen.Lib.HashEngine.hash c (Source.engineOf c a) (Source.seenOf c a) d).res =
      Source.Lib.HashEngine.hash c (Source.engineOf c a) d :=
  ⟨(Seen.Lib.hash_same c (Source.blindOf c a) h).seen, Seen.Lib.hash_res c (Source.erasesOf c a) d⟩

theorem C85_hash_chunks (c : Cfg) (a : Alg) (ds ds' : List (List Byte))
    (h : ds.map List.length = ds'.map List.length) :
    (Seen.Lib.HashEngine.hash_byte_chunks c (Source.engineOf c a) (Source.seenOf c a) ds).seen =
      (Seen.Lib.HashEngine.hash_byte_chunks c (Source.engineOf c a) (Source.seenOf c a) ds').seen ∧
    (Seen.Lib.HashEngine.hash_byte_chunks c (Source.engineOf c a) (Source.seenOf c a) ds).res =
      Source.Lib.HashEngine.hash_byte_chunks c (Source.engineOf c a) ds :=
  ⟨(Seen.Lib.hash_byte_chunks_same c (Source.blindOf c a) (SameSeen.Each.ofLens h)).seen,
    Seen.Lib.hash_byte_chunks_res c (Source.erasesOf c a) ds⟩

example : ([[1, 2], [3]] : List (List Byte)).map List.length = [[7, 7], [7]].map List.length ∧
    Source.Lib.HashEngine.hash_byte_chunks .release64 (Source.engineOf .release64 .siphash24) [[1, 2], [3]] ≠
      Source.Lib.HashEngine.hash_byte_chunks .release64 (Source.engineOf .release64 .siphash24) [[7, 7], [7]] := by
  refine ⟨rfl, ?_⟩
  decide +kernel

/-- C85: the compile-time hash and tag functions of `sha256`. -/
theorem C85_const_hash (c : Cfg) (d d' : List Byte) (h : d.length = d'.length) (fin : Bool) :
    (Seen.Sha256.Midstate.const_hash c d fin).seen = (Seen.Sha256.Midstate.const_hash c d' fin).seen ∧
    (Seen.Sha256.Midstate.hash_tag c d).seen = (Seen.Sha256.Midstate.hash_tag c d').seen ∧
    (Seen.Sha256.Midstate.const_hash c d fin).res = Source.Sha256.Midstate.const_hash c d fin ∧
    (Seen.Sha256.Midstate.hash_tag c d).res = Source.Sha256.Midstate.hash_tag c d :=
  ⟨(Seen.Sha256.const_hash_same c h fin).seen, (Seen.Sha256.hash_tag_same c h).seen,
    Seen.Sha256.const_hash_res c d fin, Seen.Sha256.hash_tag_res c d⟩

/-- C85: SipHash with keys, in one call. -/
theorem C85_siphash (c : Cfg) (k0 k1 k0' k1' : BitVec 64) (d d' : List Byte) (h : d.length = d'.length) :
    (Seen.Siphash24.Hash.hash_with_keys c k0 k1 d).seen = (Seen.Siphash24.Hash.hash_with_keys c k0' k1' d').seen ∧
    (Seen.Siphash24.Hash.hash_to_u64_with_keys c k0 k1 d).seen =
      (Seen.Siphash24.Hash.hash_to_u64_with_keys c k0' k1' d').seen ∧
    (Seen.Siphash24.Hash.hash_with_keys c k0 k1 d).res = Source.Siphash24.Hash.hash_with_keys c k0 k1 d ∧
    (Seen.Siphash24.Hash.hash_to_u64_with_keys c k0 k1 d).res =
      Source.Siphash24.Hash.hash_to_u64_with_keys c k0 k1 d :=
  ⟨(Seen.Siphash24.hash_with_keys_same c k0 k1 k0' k1' h).seen,
    (Seen.Siphash24.hash_to_u64_with_keys_same c k0 k1 k0' k1' h).seen,
    Seen.Siphash24.hash_with_keys_res c k0 k1 d, Seen.Siphash24.hash_to_u64_with_keys_res c k0 k1 d⟩

/-- C85: `Hash::hash` of every module. -/
theorem C85_types (c : Cfg) (d d' : List Byte) (h : d.length = d'.length) :
    (Seen.Sha1.Hash.hash c d).seen = (Seen.Sha1.Hash.hash c d').seen ∧
    (Seen.Sha256.Hash.hash c d).seen = (Seen.Sha256.Hash.hash c d').seen ∧
    (Seen.Sha384.Hash.hash c d).seen = (Seen.Sha384.Hash.hash c d').seen ∧
    (Seen.Sha512.Hash.hash c d).seen = (Seen.Sha512.Hash.hash c d').seen ∧
    (Seen.Sha512_256.Hash.hash c d).seen = (Seen.Sha512_256.Hash.hash c d').seen ∧
    (Seen.Ripemd160.Hash.hash c d).seen = (Seen.Ripemd160.Hash.hash c d').seen ∧
    (Seen.Siphash24.Hash.hash c d).seen = (Seen.Siphash24.Hash.hash c d').seen :=
  ⟨(Seen.Sha1.hash_same c h).seen, (Seen.Sha256.hash_same c h).seen, (Seen.Sha384.hash_same c h).seen,
    (Seen.Sha512.hash_same c h).seen, (Seen.Sha512_256.hash_same c h).seen, (Seen.Ripemd160.hash_same c h).seen,
    (Seen.Siphash24.hash_same c h).seen⟩

/-- C85: the observed `Hash::hash` of every module computes what the translated one does. -/
theorem C85_types_compute (c : Cfg) (d : List Byte) :
    (Seen.Sha1.Hash.hash c d).res = Source.Sha1.Hash.hash c d ∧
    (Seen.Sha256.Hash.hash c d).res = Source.Sha256.Hash.hash c d ∧
    (Seen.Sha384.Hash.hash c d).res = Source.Sha384.Hash.hash c d ∧
    (Seen.Sha512.Hash.hash c d).res = Source.Sha512.Hash.hash c d ∧
    (Seen.Sha512_256.Hash.hash c d).res = Source.Sha512_256.Hash.hash c d ∧
    (Seen.Ripemd160.Hash.hash c d).res = Source.Ripemd160.Hash.hash c d ∧
    (Seen.Siphash24.Hash.hash c d).res = Source.Siphash24.Hash.hash c d :=
  ⟨Seen.Sha1.hash_res c d, Seen.Sha256.hash_res c d, Seen.Sha384.hash_res c d, Seen.Sha512.hash_res c d,
    Seen.Sha512_256.hash_res c d, Seen.Ripemd160.hash_res c d, Seen.Siphash24.hash_res c d⟩

end Chf.Props
