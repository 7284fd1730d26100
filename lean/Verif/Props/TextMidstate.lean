import Verif.Proofs.Source.Reach
import Verif.Props.Text
import Verif.Spec.Panics
import Verif.Props.MidstateBugs
import Verif.Props.FromMidstate

/-!
# C82 and C83: midstates of the translated text
-/

namespace Chf.Props
open Chf Chf.Rs Chf.Spec

/-- The engines whose midstate and count are enough to go on. -/
def canGoOn : Alg → Bool
  | .sha1 | .sha256 | .sha256t _ _ _ => true
  | _ => false

/-! ## C82 -/

/-- C82: an engine of the translated text of SHA-1, SHA-256 or tagged SHA-256 that a caller can obtain
and that has hashed whole blocks can be resumed from its midstate and count. -/
theorem C82_resume {c : Cfg} (hc : c.Valid) (a : Alg) (ha : canGoOn a = true) (ok : a.Ok c) {e}
    (he : Source.Reach c a e) (hn : 64 ∣ (Source.engineOf c a).nBytesHashed e) : Source.Resumes c a e := by
  obtain ⟨m, hm, rfl⟩ := he.model hc (fits_of_ok a ok)
  rw [(Source.algSim hc a (fits_of_ok a ok)).nBytesHashed] at hn
  rw [Source.resumes_sim]
  cases a with
  | sha1 => exact C17_sha1_resume hc hm hn
  | sha256 => exact C16_sha256_resume hc hm hn
  | sha256t mid len data => exact C16_sha256t_resume hc ok hm hn
  | _ => cases ha

set_option maxRecDepth 10000 in
/-- A tagged engine that was resumed already and has hashed two more blocks. -/
example : ∃ e, Source.Reach .debug64 (.sha256t (List.replicate 32 1) 64 []) e ∧
    ((Source.engineOf .debug64 (.sha256t (List.replicate 32 1) 64 [])).nBytesHashed e == 256) = true :=
  Source.Reach.of_run (.resume (.bytes (List.replicate 32 5)) 128) (by show _ < _; decide) (List.replicate 128 7)
    (by rw [List.length_replicate]; decide) (by decide +kernel)

theorem resume_panics {c : Cfg} (hc : c.Valid) : (a : Alg) → isSip a = false → ∀ {μ n f}, a.Typed c μ n →
    resumePanic a n = some f → (a.engine c).fromMidstate μ n = .error f
  | .sha1, hs, μ, n, f, t, h | .sha256, hs, μ, n, f, t, h | .ripemd160, hs, μ, n, f, t, h
  | .sha256t _ _ _, hs, μ, n, f, t, h => by
      simp only [resumePanic] at h
      split at h
      · cases h
      · next hn => cases h; exact C22_unaligned_panics hc _ hs t hn
  | .sha384, hs, μ, n, f, t, h | .sha512, hs, μ, n, f, t, h | .sha512_256, hs, μ, n, f, t, h => by
      rw [C18_always_panics hc _ rfl t]
      simp only [resumePanic] at h
      split at h <;> cases h <;> simp [*]
  | .siphash24, hs, _, _, _, _, _ => by cases hs
  | .hmac a, hs, μ, n, f, t, h => by
      show ((a.engine c).fromMidstate _ n >>= fun i => _) = _
      rw [resume_panics hc a hs t.1 h]
      rfl

theorem resume_aligned : (a : Alg) → isSip a = false → ∀ {n}, resumePanic a n = none →
    canResume a = true ∧ n % a.blockSize = 0
  | .sha1, hs, n, h | .sha256, hs, n, h | .ripemd160, hs, n, h | .sha256t _ _ _, hs, n, h => by
      simp only [resumePanic] at h
      split at h
      · next hn => exact ⟨rfl, hn⟩
      · cases h
  | .sha384, hs, n, h | .sha512, hs, n, h | .sha512_256, hs, n, h => by
      simp only [resumePanic] at h
      split at h <;> cases h
  | .siphash24, hs, _, _ => by cases hs
  | .hmac a, hs, n, h => resume_aligned a hs h

/-- C82: `from_midstate` of the translated text panics if the byte count is not a multiple of the block
size, and for the engines of the SHA-512 family also if it is. Otherwise it gives an engine with that
count, and with that midstate for the engines that keep midstates. SipHash is excluded. -/
theorem C82_from_midstate {c : Cfg} (hc : c.Valid) (a : Alg) (ok : a.Ok c) (hs : isSip a = false)
    (v : MidVal) (n : Nat) (hn : n < 2 ^ c.usizeBits) {r} (hr : Source.make c a (.resume v n) = some r) :
    (∀ f, resumePanic a n = some f → r = .error f) ∧
    (resumePanic a n = none → ∃ e, r = .ok e ∧ (Source.engineOf c a).nBytesHashed e = n ∧
      (keepsMid a = true → ((Source.engineOf c a).midstate e).map (Source.showMid c a) = .ok v)) := by
  have h := fits_of_ok a ok
  have hm : Source.make c a (.resume v n) =
    (Source.readMid c a v).map fun μ => (Source.engineOf c a).fromMidstate μ n := by cases a <;> rfl
  rw [hm] at hr
  cases hv : Source.readMid c a v with
  | none => rw [hv] at hr; cases hr
  | some μ =>
    rw [hv] at hr
    cases hr
    have hv' := hv
    rw [Source.readMid_sim hc a h v] at hv'
    cases hx : a.readMid c v with
    | none => rw [hx] at hv'; cases hv'
    | some ν =>
      rw [hx] at hv'
      have e : (Source.algSim hc a h).mid ν = μ := Option.some.inj hv'
      have t : a.Typed c ν n := Source.readMid_typed hx hn
      rw [← e]
      show (∀ f, _ → (Source.engineOf c a).fromMidstate _ n = _) ∧
        (_ → ∃ e, (Source.engineOf c a).fromMidstate _ n = _ ∧ _)
      rw [(Source.algSim hc a h).fromMidstate]
      refine ⟨fun f hf => ?_, fun hf => ?_⟩
      · rw [resume_panics hc a hs t hf]; rfl
      · obtain ⟨h1, h2⟩ := resume_aligned a hs hf
        obtain ⟨m, hm, hcount, hmid⟩ := C65_read_back hc a h1 t h2
        refine ⟨(Source.algSim hc a h).st m, by rw [hm]; rfl, ?_, fun hk => ?_⟩
        · rw [(Source.algSim hc a h).nBytesHashed, hcount]
        · rw [(Source.algSim hc a h).midstate, hmid, readBack_id c a hk]
          show Except.ok _ = _
          rw [e, Source.showMid_readMid a v hv]
set_option maxRecDepth 10000 in
example : (∃ e, Source.make .release32 (.hmac .sha1) (.resume (.pair (.bytes (List.replicate 20 1))
      (.bytes (List.replicate 20 2))) 640) = some (.ok e)) ∧ resumePanic (.hmac .sha1) 640 = none ∧
    resumePanic (.hmac .sha1) 100 = some .assertion ∧ resumePanic .sha384 640 = some .expect ∧
    keepsMid (.hmac .sha1) = true := ⟨⟨_, rfl⟩, rfl, rfl, rfl, rfl⟩

/-- C82: input that completes no block leaves the midstate of a translated engine as it is. -/
theorem C82_unchanged {c : Cfg} (hc : c.Valid) (a : Alg) (ok : a.Ok c) (hs : isSip a = false) {e e'}
    (he : Source.Reach c a e) (d : List Byte)
    (hd : (Source.engineOf c a).nBytesHashed e % a.blockSize + d.length < a.blockSize)
    (hl : d.length < 2 ^ c.usizeBits)
    (hi : (Source.engineOf c a).input e d = .ok e') :
    (Source.engineOf c a).midstate e' = (Source.engineOf c a).midstate e := by
  obtain ⟨m, hm, rfl⟩ := he.model hc (fits_of_ok a ok)
  rw [(Source.algSim hc a (fits_of_ok a ok)).nBytesHashed] at hd
  rw [(Source.algSim hc a (fits_of_ok a ok)).input m d hl] at hi
  cases hx : (a.engine c).input m d with
  | error f => rw [hx] at hi; cases hi
  | ok m' =>
    rw [hx] at hi
    cases hi
    rw [(Source.algSim hc a (fits_of_ok a ok)).midstate, (Source.algSim hc a (fits_of_ok a ok)).midstate,
      C44_unchanged hc a ok hs hm d hd hx]

set_option maxRecDepth 10000 in
/-- An HMAC engine that has been given 60 bytes, and can be given three more. -/
example : ∃ e, Source.Reach .debug64 (.hmac .sha1) e ∧
    ((Source.engineOf .debug64 (.hmac .sha1)).nBytesHashed e % 64 + ([1, 2, 3] : List Byte).length == 63) = true :=
  Source.Reach.of_run (.hmacKey [9]) (by show _ < _; decide) (List.replicate 60 7)
    (by rw [List.length_replicate]; decide) (by decide +kernel)

/-- C82: two engines of the translated text that callers can obtain, one of them with whole blocks
hashed, are the same to every caller exactly if their counts and midstates are. -/
theorem C82_states {c : Cfg} (hc : c.Valid) (a : Alg) (ok : a.Ok c) {B : Nat} (hB : stride a = some B)
    {e e'} (he : Source.Reach c a e) (he' : Source.Reach c a e')
    (hn : B ∣ (Source.engineOf c a).nBytesHashed e) :
    ObsEq c (Source.engineOf c a) e e' ↔
      (Source.engineOf c a).nBytesHashed e = (Source.engineOf c a).nBytesHashed e' ∧
      (Source.engineOf c a).midstate e = (Source.engineOf c a).midstate e' := by
  obtain ⟨m, hm, rfl⟩ := he.model hc (fits_of_ok a ok)
  obtain ⟨m', hm', rfl⟩ := he'.model hc (fits_of_ok a ok)
  rw [(Source.algSim hc a (fits_of_ok a ok)).nBytesHashed] at hn
  rw [Source.Sim.obsEq, C65_states hc a ok hB hm hm' hn]
  rw [(Source.algSim hc a (fits_of_ok a ok)).nBytesHashed, (Source.algSim hc a (fits_of_ok a ok)).nBytesHashed,
    (Source.algSim hc a (fits_of_ok a ok)).midstate, (Source.algSim hc a (fits_of_ok a ok)).midstate]
  refine and_congr_right fun _ => ⟨fun h => by rw [h], Source.map_inj fun x y => Source.Sim.mid_inj _⟩

set_option maxRecDepth 10000 in
example : stride .siphash24 = some 8 ∧ ∃ e, Source.Reach .debug64 .siphash24 e ∧
    ((Source.engineOf .debug64 .siphash24).nBytesHashed e == 16) = true :=
  ⟨rfl, Source.Reach.of_run (.sipKeys 1 2) trivial (List.replicate 16 7)
    (by rw [List.length_replicate]; decide) (by decide +kernel)⟩

/-! ## C83 -/

/-- C83: an engine of the translated text of RIPEMD-160 with whole blocks hashed can be resumed exactly
if reversing the bytes of each word of its midstate changes nothing. -/
theorem C83_ripemd160 {c : Cfg} (hc : c.Valid) {e} (he : Source.Reach c .ripemd160 e)
    (hn : 64 ∣ (Source.engineOf c .ripemd160).nBytesHashed e) :
    ∃ μ, (Source.engineOf c .ripemd160).midstate e = .ok μ ∧ List.length (α := Byte) μ = 20 ∧
      (Source.Resumes c .ripemd160 e ↔ ∀ w ∈ blocks 4 μ, w.reverse = w) := by
  obtain ⟨m, hm, rfl⟩ := he.model hc (a := .ripemd160) trivial
  rw [(Source.algSim hc .ripemd160 trivial).nBytesHashed] at hn
  obtain ⟨μ, h1, h2, h3⟩ := C19_resumes_iff_partial hc hm hn
  refine ⟨μ, ?_, h2, (Source.resumes_sim hc (a := .ripemd160) trivial m).trans h3⟩
  rw [(Source.algSim hc .ripemd160 trivial).midstate]
  exact congrArg (Except.map _) h1

/-- C83: an engine of the translated text of SipHash that has hashed anything cannot be resumed. -/
theorem C83_siphash24 {c : Cfg} (hc : c.Valid) {e} (he : Source.Reach c .siphash24 e)
    (hn : (Source.engineOf c .siphash24).nBytesHashed e ≠ 0) : ¬ Source.Resumes c .siphash24 e := by
  obtain ⟨m, hm, rfl⟩ := he.model hc (a := .siphash24) trivial
  rw [(Source.algSim hc .siphash24 trivial).nBytesHashed] at hn
  exact fun h => C20_never_resumes hn ((Source.resumes_sim hc (a := .siphash24) trivial m).1 h)

theorem never512 (μ : List Byte) (hl : μ.length = 64) (n : Nat) : ∃ f, Sha512.fromMidstate μ n = .error f := by
  have h0 : Sha512.fromMidstate μ 0 = _ :=
    C18_always_panics (c := .debug64) (by decide) .sha512 rfl (μ := μ) ⟨hl, by decide⟩
  unfold Sha512.fromMidstate at h0 ⊢
  rw [show assertR (0 % Sha512.blockSize == 0) = .ok () from rfl, ok_bind] at h0
  by_cases hn : n % Sha512.blockSize = 0
  · rw [hn, show assertR (0 == 0) = .ok () from rfl, ok_bind]
    cases hf : fillZip fromBe64 (List.replicate 8 0) (chunksExact 4 μ) with
    | error f => exact ⟨f, rfl⟩
    | ok r =>
      rw [hf, ok_bind] at h0
      rw [ok_bind]
      cases ho : Arr8.ofList r with
      | error f => exact ⟨f, rfl⟩
      | ok r' => rw [ho] at h0; cases h0
  · refine ⟨.assertion, ?_⟩
    rw [show (n % Sha512.blockSize == 0) = false by simpa using hn]
    rfl

theorem model512 (c : Cfg) : (a : Alg) → isSha512 a = true → (m : (a.engine c).State) → ∀ n,
    ∃ μ f, (a.engine c).midstate m = .ok μ ∧ (a.engine c).fromMidstate μ n = .error f
  | .sha384, _, m, n | .sha512, _, m, n | .sha512_256, _, m, n => by
      obtain ⟨f, hf⟩ := never512 (serialize8 (BlockEngine.h m)) (length_serialize8_64 _) n
      exact ⟨_, f, Sha512.midstate_eq m, hf⟩
  | .hmac a, h, m, n => by
      obtain ⟨i, f, h1, h2⟩ := model512 c a h (Hmac.Engine.iengine (E := a.engine c) m) n
      obtain ⟨o, g, h3, h4⟩ := model512 c a h (Hmac.Engine.oengine (E := a.engine c) m) n
      refine ⟨({ inner := i, outer := o } : Hmac.Midstate (a.engine c)), f, ?_, ?_⟩
      · show (do
          let i ← (a.engine c).midstate (Hmac.Engine.iengine (E := a.engine c) m)
          let o ← (a.engine c).midstate (Hmac.Engine.oengine (E := a.engine c) m)
          pure { inner := i, outer := o } : Res (Hmac.Midstate (a.engine c))) = _
        rw [h1, h3]
        rfl
      · show ((a.engine c).fromMidstate i n >>= fun i => _) = _
        rw [h2]
        rfl

/-- C83: no engine of the translated text of the SHA-512 family, and no HMAC engine over one, can be
resumed. -/
theorem C83_sha512 {c : Cfg} (hc : c.Valid) (a : Alg) (ok : a.Ok c) (ha : isSha512 a = true) {e}
    (he : Source.Reach c a e) : ¬ Source.Resumes c a e := by
  obtain ⟨m, hm, rfl⟩ := he.model hc (fits_of_ok a ok)
  rw [Source.resumes_sim]
  rintro ⟨μ, m', h1, h2, -⟩
  obtain ⟨μ', f, h3, h4⟩ := model512 c a ha m ((a.engine c).nBytesHashed m)
  rw [h1] at h3
  cases h3
  rw [h2] at h4
  cases h4

set_option maxRecDepth 10000 in
/-- A RIPEMD-160 engine with one block hashed, a SipHash engine with eight bytes hashed, and an HMAC
engine over SHA-384. -/
example : (∃ e, Source.Reach .debug64 .ripemd160 e ∧
      ((Source.engineOf .debug64 .ripemd160).nBytesHashed e == 64) = true) ∧
    (∃ e, Source.Reach .debug64 .siphash24 e ∧
      ((Source.engineOf .debug64 .siphash24).nBytesHashed e == 8) = true) ∧
    (∃ e, Source.Reach .debug64 (.hmac .sha384) e ∧ true = true) :=
  ⟨Source.Reach.of_run .new trivial (List.replicate 64 7)
      (by rw [List.length_replicate]; decide) (by decide +kernel),
    Source.Reach.of_run .new trivial (List.replicate 8 7)
      (by rw [List.length_replicate]; decide) (by decide +kernel),
    Source.Reach.of_run (P := fun _ => true) (.hmacKey [1]) (by show _ < _; decide) [] (by decide)
      (by decide +kernel)⟩

/-- C83: a new HMAC engine of the translated text over SHA-1 or SHA-256 can be resumed. -/
theorem C83_hmac_new {c : Cfg} (hc : c.Valid) (a : Alg) (ha : a = .sha1 ∨ a = .sha256) {key : List Byte}
    (hk : key.length < 2 ^ c.usizeBits) {e}
    (h : Source.Hmac.Engine.new c (Source.engineOf c a) key = .ok e) : Source.Resumes c (.hmac a) e := by
  have hf : Source.Fits c (.hmac a) := by rcases ha with rfl | rfl <;> trivial
  have hm : Source.make c (.hmac a) (.hmacKey key) = some (.ok e) := congrArg some h
  rw [Source.make_sim hc (.hmac a) hf (.hmacKey key) hk] at hm
  have hx : (Alg.hmac a).make c (.hmacKey key) = some (Hmac.new c (a.engine c) key) := rfl
  rw [hx] at hm
  cases hy : Hmac.new c (a.engine c) key with
  | error f => rw [hy] at hm; cases hm
  | ok m =>
    rw [hy] at hm
    have hm : (Source.algSim hc (.hmac a) hf).st m = e := Except.ok.inj (Option.some.inj hm)
    rw [← hm]
    exact (Source.resumes_sim hc hf m).2 (C21_new_key_partial hc a ha hy)

set_option maxRecDepth 10000 in
example : ∃ e, Source.Hmac.Engine.new .debug64 (Source.engineOf .debug64 .sha1) [1, 2] = .ok e := by
  cases h : Source.Hmac.Engine.new .debug64 (Source.engineOf .debug64 .sha1) [1, 2] with
  | ok e => exact ⟨e, rfl⟩
  | error f =>
    have : (match Source.Hmac.Engine.new .debug64 (Source.engineOf .debug64 .sha1) [1, 2] with
      | .ok _ => true
      | .error _ => false) = true := by decide +kernel
    rw [h] at this
    cases this

set_option maxRecDepth 10000 in
/-- C83: with one block of input, the HMAC engine made from its midstate and count computes another
digest, though the count is a multiple of the block size. -/
theorem C83_hmac_wrong_digest :
    (do
      let E := Source.engineOf .debug64 (.hmac .sha256)
      let e ← Source.Hmac.Engine.new .debug64 (Source.engineOf .debug64 .sha256) []
      let e ← E.input e (List.replicate 64 0)
      let μ ← E.midstate e
      let e' ← E.fromMidstate μ (E.nBytesHashed e)
      pure (E.nBytesHashed e % 64 == 0 && E.finalize e != E.finalize e')) = Except.ok true := by
  decide +kernel

set_option maxRecDepth 10000 in
/-- C83: a new RIPEMD-160 engine and a SipHash engine with one word of input, made again from their
midstates and counts, compute other digests. -/
theorem C83_wrong_digests :
    (do
      let E := Source.engineOf .debug64 .ripemd160
      let e ← E.new
      let e ← E.input e []
      let μ ← E.midstate e
      let e' ← E.fromMidstate μ (E.nBytesHashed e)
      pure (E.finalize e != E.finalize e')) = Except.ok true ∧
    (do
      let E := Source.engineOf .debug64 .siphash24
      let e ← E.new
      let e ← E.input e (List.replicate 8 0)
      let μ ← E.midstate e
      let e' ← E.fromMidstate μ (E.nBytesHashed e)
      pure (E.finalize e != E.finalize e')) = Except.ok true := by
  decide +kernel

end Chf.Props
