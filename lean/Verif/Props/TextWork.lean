import Verif.Proofs.Seen.WorkOf
import Verif.Proofs.Seen.ConstCosts

/-!
# Property C87: the work of the translated text is linear in the length of what is hashed

What is counted is what an observer of C85 sees: every branch, every test of a loop, every element and
every range of elements that is accessed.  The numbers are in `Verif/Spec/TextWork.lean`.  A call that
panics may be seen to do so, which is the `+ 1`.
-/

namespace Chf.Props
open Spec Chf.Tr Chf.Seen

/-- C87: making an engine takes a fixed number of steps, for a keyed one a number linear in the key's
length. -/
theorem C87_make {c : Cfg} (hc : c.Valid) (a : Alg) (how : Make) (ht : how.Typed c) {x}
    (hx : Source.makeSeen c a how = some x) : x.seen.length ≤ makeWork a how + 1 :=
  (Source.make_costs hc a how ht hx).le

/-- C87: `input` of an engine that callers can obtain: so many steps for each block that becomes full, of
the bytes waiting and the new ones, and a fixed number besides. -/
theorem C87_input {c : Cfg} (hc : c.Valid) {a : Alg} {e} (he : Source.Reach c a e) {d : List Byte}
    (hd : d.length < c.usizeMod) :
    ((Source.seenOf c a).input e d).seen.length ≤
      (workOf a).call + (workOf a).perBlock *
        (((Source.engineOf c a).nBytesHashed e % (workOf a).block + d.length) / (workOf a).block) + 1 :=
  ((Source.linearOf hc a).input _ e d (he.ok hc) hd).le

/-- C87: `finalize`: one block, or two if the padding does not fit into the first. -/
theorem C87_finalize {c : Cfg} (hc : c.Valid) {a : Alg} {e} (he : Source.Reach c a e) :
    ((Source.seenOf c a).finalize e).seen.length ≤
      (workOf a).finish + (workOf a).perBlock *
        (((Source.engineOf c a).nBytesHashed e % (workOf a).block + (workOf a).pad) / (workOf a).block + 1) + 1 :=
  ((Source.linearOf hc a).finalize _ e (he.ok hc)).le

/-- C87: `midstate` and `from_midstate` take a fixed number of steps. -/
theorem C87_midstate {c : Cfg} (hc : c.Valid) {a : Alg} {e} (he : Source.Reach c a e) :
    ((Source.seenOf c a).midstate e).seen.length ≤ (workOf a).mid + 1 :=
  ((Source.linearOf hc a).midstate _ e (he.ok hc)).le

theorem C87_from_midstate {c : Cfg} (hc : c.Valid) (a : Alg) (μ) (n : Nat) :
    ((Source.seenOf c a).fromMidstate μ n).seen.length ≤ (workOf a).resume + 1 :=
  ((Source.linearOf hc a).fromMidstate μ n).le

/-- C87: `hash`, in every build, also for keyed and tagged engines: the blocks of the padded message, and
a fixed number besides. -/
theorem C87_hash {c : Cfg} (hc : c.Valid) (a : Alg) {d : List Byte} (hd : d.length < c.usizeMod) :
    (Seen.Lib.HashEngine.hash c (Source.engineOf c a) (Source.seenOf c a) d).seen.length ≤
      (workOf a).hash d.length + 1 :=
  ((Source.linearOf hc a).hash hd).le

/-- C87: `hash_byte_chunks`: splitting the message into `k` slices takes a number more that is linear in
`k`. -/
theorem C87_hash_chunks {c : Cfg} (hc : c.Valid) (a : Alg) {ds : List (List Byte)}
    (hd : ∀ d ∈ ds, d.length < c.usizeMod) :
    (Seen.Lib.HashEngine.hash_byte_chunks c (Source.engineOf c a) (Source.seenOf c a) ds).seen.length ≤
      (workOf a).chunks ds.length ds.flatten.length + 1 :=
  (Source.hash_chunks_costs (Source.linearOf hc a) ds hd).le

/-- C87: the numbers of `hash` for the plain hash functions, written out. -/
theorem C87_numbers {c : Cfg} (hc : c.Valid) {d : List Byte} (hd : d.length < c.usizeMod) :
    let seen a := (Seen.Lib.HashEngine.hash c (Source.engineOf c a) (Source.seenOf c a) d).seen.length
    seen .sha1 ≤ 921 * ((d.length + 8) / 64 + 1) + 59 ∧
    seen .sha256 ≤ 368 * ((d.length + 8) / 64 + 1) + 68 ∧
    seen .ripemd160 ≤ 1886 * ((d.length + 8) / 64 + 1) + 59 ∧
    seen .sha512 ≤ 464 * ((d.length + 16) / 128 + 1) + 76 ∧
    seen .sha384 ≤ 464 * ((d.length + 16) / 128 + 1) + 79 ∧
    seen .sha512_256 ≤ 464 * ((d.length + 16) / 128 + 1) + 79 ∧
    seen .siphash24 ≤ 2 * (d.length / 8) + 16 := by
  refine ⟨?_, ?_, ?_, ?_, ?_, ?_, ?_⟩
  all_goals
    refine Nat.le_trans (C87_hash hc _ hd) ?_
    simp only [workOf, Work.hash, Sha1.work, Sha256.work, Ripemd160.work, Sha512.work, Sha384.work,
      Sha512_256.work, Siphash24.work]
    omega

/-- 65 bytes are two blocks: the numbers are at most 15 above what is seen. -/
example :
    (Seen.Lib.HashEngine.hash .debug64 _ (Source.seenOf .debug64 .sha1) (List.replicate 65 7)).seen.length = 1885 ∧
    (workOf .sha1).hash 65 = 1900 ∧
    (Seen.Lib.HashEngine.hash .debug64 _ (Source.seenOf .debug64 .sha256) (List.replicate 65 7)).seen.length = 788 ∧
    (workOf .sha256).hash 65 = 803 ∧
    (Seen.Lib.HashEngine.hash .debug64 _ (Source.seenOf .debug64 .siphash24) (List.replicate 65 7)).seen.length = 22 ∧
    (workOf .siphash24).hash 65 = 31 := by
  decide +kernel

/-- An engine with one byte waiting, to which the theorems about engines apply. -/
example : ∃ e, Source.Reach .debug64 .sha1 e ∧ (Source.engineOf .debug64 .sha1).nBytesHashed e = 65 := by
  have h : ((Source.engineOf .debug64 .sha1).input (Source.Sha1.Engine.default .debug64) (List.replicate 65 7)).map
      (fun e => Source.Sha1.Engine.length e) = .ok 65 := by decide +kernel
  cases hx : (Source.engineOf .debug64 .sha1).input (Source.Sha1.Engine.default .debug64) (List.replicate 65 7) with
  | error f => rw [hx] at h; cases h
  | ok e =>
    rw [hx] at h
    exact ⟨e, .input _ (.made .new trivial rfl) (by decide) hx, Except.ok.inj h⟩

/-- C87: `const_hash` and `hash_tag`, for messages of every length, also where the number of chunks wraps around. -/
theorem C87_const_hash {c : Cfg} (hc : c.Valid) (d : List Byte) (fin : Bool) :
    (Seen.Sha256.Midstate.const_hash c d fin).seen.length ≤ 637 * ((d.length + 72) / 64) + 75 ∧
    (Seen.Sha256.Midstate.hash_tag c d).seen.length ≤ 637 * ((d.length + 72) / 64) + 1616 :=
  ⟨(Seen.Sha256.const_hash_costs hc d fin).le, (Seen.Sha256.hash_tag_costs hc d).le⟩

example :
    (Seen.Sha256.Midstate.const_hash .debug64 (List.replicate 119 7) true).seen.length = 1110 ∧
    (Seen.Sha256.Midstate.hash_tag .debug64 (List.replicate 119 7)).seen.length = 1808 := by
  decide +kernel

end Chf.Props
