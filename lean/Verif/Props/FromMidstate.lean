import Verif.Props.MidstateBugs
import Verif.Props.State

/-!
# Property C65: what `midstate` returns after `from_midstate`
-/

namespace Chf.Props
open Spec

/-- A midstate given to `from_midstate`, read back with `midstate`: RIPEMD-160 reverses each of its
five words, the other engines return what they were given. -/
def readBack (c : Cfg) : (a : Alg) → (a.engine c).Midstate → (a.engine c).Midstate
  | .ripemd160, μ => ((blocks 4 μ).map List.reverse).flatten
  | .hmac a, μ =>
      Hmac.Midstate.mk (E := a.engine c) (readBack c a (Hmac.Midstate.inner (E := a.engine c) μ))
        (readBack c a (Hmac.Midstate.outer (E := a.engine c) μ))
  | .sha1, μ | .sha256, μ | .sha384, μ | .sha512, μ | .sha512_256, μ | .siphash24, μ
  | .sha256t _ _ _, μ => μ

/-- C65: `from_midstate` of a length that is a multiple of the block size gives an engine with that
count, whose midstate is the one given, except that the bytes of RIPEMD-160's words are reversed. -/
theorem C65_read_back {c : Cfg} (hc : c.Valid) : (a : Alg) → canResume a = true → ∀ {μ n},
    a.Typed c μ n → n % a.blockSize = 0 →
    ∃ e, (a.engine c).fromMidstate μ n = .ok e ∧ (a.engine c).nBytesHashed e = n ∧
      (a.engine c).midstate e = .ok (readBack c a μ)
  | .sha1, _, μ, n, ht, hn => by
      obtain ⟨e, h, R⟩ := (Alg.sha1.lawful hc trivial).resume_ok (Alg.sha1.typed_log ht)
        (C22_aligned_succeeds.md hn)
      refine ⟨e, h, R.2.len.trans (Nat.mod_eq_of_lt ht.2), ?_⟩
      rw [show (Alg.sha1.engine c).midstate e = _ from (Alg.sha1.lawful hc trivial).mid R]
      exact congrArg _ (serialize5_parse5 _ ht.1)
  | .sha256, _, μ, n, ht, hn => by
      obtain ⟨e, h, R⟩ := (Alg.sha256.lawful hc trivial).resume_ok (Alg.sha256.typed_log ht)
        (C22_aligned_succeeds.md hn)
      refine ⟨e, h, R.2.len.trans (Nat.mod_eq_of_lt ht.2), ?_⟩
      rw [show (Alg.sha256.engine c).midstate e = _ from (Alg.sha256.lawful hc trivial).mid R]
      exact congrArg _ (serialize8_parse8 _ ht.1)
  | .ripemd160, _, μ, n, ht, hn => by
      obtain ⟨e, h, R⟩ := (Alg.ripemd160.lawful hc trivial).resume_ok (Alg.ripemd160.typed_log ht)
        (C22_aligned_succeeds.md hn)
      refine ⟨e, h, R.2.len.trans (Nat.mod_eq_of_lt ht.2), ?_⟩
      rw [show (Alg.ripemd160.engine c).midstate e = _ from (Alg.ripemd160.lawful hc trivial).mid R]
      exact congrArg _ (serializeRmd_parse5 _ ht.1)
  | .sha256t _ _ _, _, μ, n, ht, hn => by
      obtain ⟨e, h, R⟩ := (Alg.sha256.lawful hc trivial).resume_ok (Alg.sha256.typed_log ht)
        (C22_aligned_succeeds.md hn)
      refine ⟨e, h, R.2.len.trans (Nat.mod_eq_of_lt ht.2), ?_⟩
      have := (Alg.sha256.lawful hc trivial).mid R
      exact this.trans (congrArg _ (serialize8_parse8 _ ht.1))
  | .hmac a, ha, μ, n, ht, hn => by
      obtain ⟨i, h1, h2, h3⟩ := C65_read_back hc a ha ht.1 hn
      obtain ⟨o, g1, g2, g3⟩ := C65_read_back hc a ha ht.2 hn
      refine ⟨({ iengine := i, oengine := o } : Hmac.Engine (a.engine c)), ?_, h2, ?_⟩
      · show (do
          let i ← (a.engine c).fromMidstate _ n
          let o ← (a.engine c).fromMidstate _ n
          pure ({ iengine := i, oengine := o } : Hmac.Engine (a.engine c))) = _
        rw [h1, g1]
        rfl
      · show (do
          let i ← (a.engine c).midstate i
          let o ← (a.engine c).midstate o
          pure { inner := i, outer := o } : Res (Hmac.Midstate (a.engine c))) = _
        rw [h3, g3]
        rfl
  | .sha384, h, _, _, _, _ | .sha512, h, _, _, _, _ | .sha512_256, h, _, _, _, _
  | .siphash24, h, _, _, _, _ => by cases h

/-- The engines that keep midstates as they are. -/
def keepsMid : Alg → Bool
  | .sha1 | .sha256 | .sha256t _ _ _ => true
  | .hmac a => keepsMid a
  | _ => false

theorem keepsMid_resumes : (a : Alg) → keepsMid a = true → canResume a = true
  | .sha1, _ | .sha256, _ | .sha256t _ _ _, _ => rfl
  | .hmac a, h => keepsMid_resumes a h
  | .sha384, h | .sha512, h | .sha512_256, h | .siphash24, h | .ripemd160, h => by cases h

theorem readBack_id (c : Cfg) : (a : Alg) → keepsMid a = true → ∀ μ, readBack c a μ = μ
  | .sha1, _, _ | .sha256, _, _ | .sha256t _ _ _, _, _ => rfl
  | .hmac a, h, μ => by
      show Hmac.Midstate.mk (E := a.engine c) _ _ = μ
      rw [readBack_id c a h, readBack_id c a h]
      rfl
  | .sha384, h, _ | .sha512, h, _ | .sha512_256, h, _ | .siphash24, h, _ | .ripemd160, h, _ => by
      cases h

/-- C65: for SHA-1, SHA-256, tagged SHA-256 and HMAC over these, every value of the midstate type and
every multiple of the block size are the midstate and the count of an engine, and engines made from
different midstates or lengths can be told apart. -/
theorem C65_faithful {c : Cfg} (hc : c.Valid) (a : Alg) (ha : keepsMid a = true) {μ n}
    (ht : a.Typed c μ n) (hn : n % a.blockSize = 0) :
    ∃ e, (a.engine c).fromMidstate μ n = .ok e ∧ (a.engine c).nBytesHashed e = n ∧
      (a.engine c).midstate e = .ok μ ∧
      ∀ {μ' n' e'}, (a.engine c).fromMidstate μ' n' = .ok e' → a.Typed c μ' n' →
        ObsEq c (a.engine c) e e' → μ' = μ ∧ n' = n := by
  obtain ⟨e, h1, h2, h3⟩ := C65_read_back hc a (keepsMid_resumes a ha) ht hn
  rw [readBack_id c a ha] at h3
  refine ⟨e, h1, h2, h3, fun {μ' n' e'} h' ht' ho => ?_⟩
  have hn' : n' % a.blockSize = 0 := Classical.byContradiction fun hn' => by
    rw [C22_unaligned_panics hc a (notSip a ha) ht' hn'] at h'
    cases h'
  obtain ⟨e'', g1, g2, g3⟩ := C65_read_back hc a (keepsMid_resumes a ha) ht' hn'
  rw [h'] at g1
  cases g1
  rw [readBack_id c a ha] at g3
  have := ho [] (by simp)
  simp only [HashEngine.observe, HashEngine.inputs, bind, Except.bind, pure, Except.pure,
    Except.ok.injEq, Prod.mk.injEq, h2, h3, g2, g3] at this
  exact ⟨this.2.1.symm, this.1.symm⟩
where
  notSip : (a : Alg) → keepsMid a = true → isSip a = false
    | .sha1, _ | .sha256, _ | .sha256t _ _ _, _ => rfl
    | .hmac a, h => notSip a h
    | .sha384, h | .sha512, h | .sha512_256, h | .siphash24, h | .ripemd160, h => by cases h

/-- C65: at block boundaries engines that can be reached can be told apart exactly if they differ in
midstate or count. -/
theorem C65_states {c : Cfg} (hc : c.Valid) (a : Alg) (ok : a.Ok c)
    {B : Nat} (hB : stride a = some B) {e e' : (a.engine c).State} (he : Reachable c a e)
    (he' : Reachable c a e') (hn : B ∣ (a.engine c).nBytesHashed e) :
    ObsEq c (a.engine c) e e' ↔
      (a.engine c).nBytesHashed e = (a.engine c).nBytesHashed e' ∧
      (a.engine c).midstate e = (a.engine c).midstate e' := by
  constructor
  · intro ho
    have := ho [] (by simp)
    simp only [HashEngine.observe, HashEngine.inputs, bind, Except.bind, pure, Except.pure,
      Except.ok.injEq, Prod.mk.injEq] at this
    exact ⟨this.1, this.2.1⟩
  · rintro ⟨h1, h2⟩
    exact C61_state hc a ok hB he he' hn h1 h2

/-- A midstate that no message is known to lead to, and a length that no message in memory has. -/
example : keepsMid (.hmac .sha256) = true ∧
    (Alg.hmac .sha256).Typed .release64
      (Hmac.Midstate.mk (E := Sha256.engine .release64) (List.replicate 32 (0 : Byte))
        (List.replicate 32 (255 : Byte))) (2 ^ 64 - 64) ∧
    (2 ^ 64 - 64) % (Alg.hmac .sha256).blockSize = 0 :=
  ⟨rfl, ⟨⟨List.length_replicate, by decide⟩, ⟨List.length_replicate, by decide⟩⟩, by decide⟩

end Chf.Props
