import Verif.Proofs.Resume
import Verif.Props.Inputs

/-!
# C16–C18, C22, C42, C44: midstates of the Merkle-Damgård engines
-/

namespace Chf.Props
open Spec

attribute [local irreducible] iv512_256

/-- `from_midstate(e.midstate(), e.n_bytes_hashed())` succeeds and gives an engine that no caller can
tell from `e`. -/
def Resumes (c : Cfg) (a : Alg) (e : (a.engine c).State) : Prop :=
  ∃ μ e', (a.engine c).midstate e = .ok μ ∧
    (a.engine c).fromMidstate μ ((a.engine c).nBytesHashed e) = .ok e' ∧ ObsEq c (a.engine c) e e'

/-- An engine resumes if its log does. -/
theorem resumes_of {c : Cfg} (hc : c.Valid) {a : Alg} (ok : a.Ok c) {e : (a.engine c).State} {s m s'}
    (R : (a.lawful hc ok).Rel e s m)
    (ht : (a.log c).typed ((a.log c).mid s m) ((a.log c).count s m.length))
    (hr : (a.log c).resume ((a.log c).mid s m) ((a.log c).count s m.length) = .ok s')
    (h : ∀ x, (a.log c).observe s' [] x = (a.log c).observe s m x) : Resumes c a e := by
  obtain ⟨e', h', R'⟩ := (a.lawful hc ok).resume_ok ht hr
  refine ⟨_, e', (a.lawful hc ok).mid R, ?_, obsEq_of hc ok R R' fun x => (h x).symm⟩
  rw [(a.lawful hc ok).count R]
  exact h'

theorem typed256 {c : Cfg} (h : Arr8 (BitVec 32)) (n : Nat) (mid : List Byte) (len : Nat)
    (data : List Byte) :
    (Alg.log c .sha256).typed (serialize8 h) (n % 2 ^ c.usizeBits) ∧
    (Alg.log c (.sha256t mid len data)).typed (serialize8 h) (n % 2 ^ c.usizeBits) :=
  have H : (serialize8 h).length = (serialize8 iv256).length := by
    rw [length_serialize8_32, length_serialize8_32]
  ⟨⟨H, Nat.mod_lt _ (Nat.two_pow_pos _)⟩, ⟨H, Nat.mod_lt _ (Nat.two_pow_pos _)⟩⟩

theorem typed1 {c : Cfg} (h : Arr5 (BitVec 32)) (n : Nat) :
    (Alg.log c .sha1).typed (serialize5 h) (n % 2 ^ c.usizeBits) :=
  ⟨by rw [show (md1.words md1.iv).length = (serialize5 iv1).length from rfl, length_serialize5, length_serialize5],
    Nat.mod_lt _ (Nat.two_pow_pos _)⟩

theorem pow_dvd {c : Cfg} (hc : c.Valid) : 64 ∣ 2 ^ c.usizeBits ∧ 128 ∣ 2 ^ c.usizeBits := by
  unfold Cfg.Valid at hc
  rcases hc with h | h | h <;> rw [h] <;> decide

theorem log_aligned {B M p n : Nat} (hM : B ∣ M) (hp : B ∣ p) (h : B ∣ (p + n) % M) : B ∣ n := by
  have h1 := (Nat.dvd_mod_iff hM).mp h
  exact (Nat.dvd_add_right hp).mp h1

/-- The log of a Merkle-Damgård engine whose midstates can be read back resumes at block
boundaries. -/
theorem md_resume {H : Type} (P : Md H) {c : Cfg} {r : List Byte → Nat → Res H} (hB : 0 < P.B)
    (hM : P.B ∣ 2 ^ c.usizeBits) (hr : ∀ h n, r (P.words h) n = .ok h)
    {s : H × Nat} {m : List Byte} (hs : P.B ∣ s.2)
    (hacc : (P.log c r).accepts s m.length = true) (h : P.B ∣ (P.log c r).count s m.length) :
    ∃ s', (P.log c r).resume ((P.log c r).mid s m) ((P.log c r).count s m.length) = .ok s' ∧
      ∀ x, (P.log c r).observe s' [] x = (P.log c r).observe s m x := by
  have hm : P.B ∣ m.length := log_aligned hM hs h
  refine ⟨_, ?_, Md.observe_resume P c r hB s m hm hacc⟩
  have h' : (s.2 + m.length) % 2 ^ c.usizeBits % P.B = 0 := Nat.dvd_iff_mod_eq_zero.mp h
  simp only [Md.log, h', if_true, hr]
  rfl

/-- C16: whenever `n_bytes_hashed` is a multiple of 64, `from_midstate(e.midstate(),
e.n_bytes_hashed())` is indistinguishable from `e`. -/
theorem C16_sha256_resume {c : Cfg} (hc : c.Valid) {e : Sha256.Engine}
    (he : Reachable c .sha256 e) (hn : 64 ∣ (Sha256.engine c).nBytesHashed e) :
    Resumes c .sha256 e := by
  obtain ⟨k, h⟩ := he
  obtain ⟨s, m, R, _⟩ := h.rel hc (a := .sha256) trivial
  have hcount := (Alg.sha256.lawful hc trivial).count R
  obtain ⟨s', h1, h2⟩ := md_resume md256 (c := c) (r := fun μ _ => .ok (parse8 μ)) (by decide)
    (pow_dvd hc).1 (fun h n => congrArg _ (parse8_serialize8 h)) R.1
    ((Alg.sha256.lawful hc trivial).accepted R) (hcount ▸ hn)
  exact resumes_of hc (a := .sha256) trivial R
    (typed256 (chain 64 compress256 s.1 m) (s.2 + m.length) [] 0 []).1 h1 h2

/-- The same for `sha256t::Engine<T>`, whose midstates are those of its SHA-256 engine. -/
theorem C16_sha256t_resume {c : Cfg} (hc : c.Valid) {mid : List Byte} {len : Nat} {data : List Byte}
    (ok : (Alg.sha256t mid len data).Ok c) {e : Sha256.Engine}
    (he : Reachable c (.sha256t mid len data) e)
    (hn : 64 ∣ ((Alg.sha256t mid len data).engine c).nBytesHashed e) :
    Resumes c (.sha256t mid len data) e := by
  obtain ⟨k, h⟩ := he
  obtain ⟨s, m, R, _⟩ := h.rel hc ok
  have hcount := ((Alg.sha256t mid len data).lawful hc ok).count R
  obtain ⟨s', h1, h2⟩ := md_resume md256 (c := c) (r := fun μ _ => .ok (parse8 μ)) (by decide)
    (pow_dvd hc).1 (fun h n => congrArg _ (parse8_serialize8 h)) (s := s) (m := m) R.1
    (((Alg.sha256t mid len data).lawful hc ok).accepted R) (hcount ▸ hn)
  exact resumes_of hc ok R (typed256 (chain 64 compress256 s.1 m) (s.2 + m.length) mid len data).2 h1 h2

/-- A new tagged engine with a 64-byte tag. -/
example : (Alg.sha256t (List.replicate 32 7) 64 []).Ok .debug64 ∧
    ∃ e, Reachable .debug64 (.sha256t (List.replicate 32 7) 64 []) e ∧
      64 ∣ ((Alg.sha256t (List.replicate 32 7) 64 []).engine .debug64).nBytesHashed e := by
  have hc : Cfg.debug64.Valid := by decide
  have ok : (Alg.sha256t (List.replicate 32 7) 64 []).Ok .debug64 := ⟨rfl, by decide, by decide⟩
  obtain ⟨e, he, R⟩ := ((Alg.sha256t (List.replicate 32 7) 64 []).lawful hc ok).new_rel
  refine ⟨ok, e, ⟨_, .new he⟩, ?_⟩
  rw [((Alg.sha256t (List.replicate 32 7) 64 []).lawful hc ok).count R]
  decide

/-- C17: the same for SHA-1. -/
theorem C17_sha1_resume {c : Cfg} (hc : c.Valid) {e : Sha1.Engine}
    (he : Reachable c .sha1 e) (hn : 64 ∣ (Sha1.engine c).nBytesHashed e) :
    Resumes c .sha1 e := by
  obtain ⟨k, h⟩ := he
  obtain ⟨s, m, R, _⟩ := h.rel hc (a := .sha1) trivial
  have hcount := (Alg.sha1.lawful hc trivial).count R
  obtain ⟨s', h1, h2⟩ := md_resume md1 (c := c) (r := fun μ _ => .ok (parse5 μ)) (by decide)
    (pow_dvd hc).1 (fun h n => congrArg _ (parse5_serialize5 h)) R.1
    ((Alg.sha1.lawful hc trivial).accepted R) (hcount ▸ hn)
  exact resumes_of hc (a := .sha1) trivial R
    (typed1 (chain 64 compress1 s.1 m) (s.2 + m.length)) h1 h2

/-- A SHA-256 engine after 64 bytes, reached through the public API. -/
example : ∃ e, Reachable .debug64 .sha256 e ∧ 64 ∣ (Sha256.engine .debug64).nBytesHashed e := by
  have hc : Cfg.debug64.Valid := by decide
  obtain ⟨e, he, R⟩ := (Alg.sha256.lawful hc trivial).new_rel
  obtain ⟨e', he', R'⟩ := (Alg.sha256.lawful hc trivial).input_ok (List.replicate 64 0) trivial R
    (by decide)
  refine ⟨e', ⟨_, .input _ (.new he) (by decide) he'⟩, ?_⟩
  have := (Alg.sha256.lawful hc trivial).count R'
  rw [show (Sha256.engine .debug64).nBytesHashed e' = _ from this]
  decide

/-- The same with one of SHA-1. -/
example : ∃ e, Reachable .debug64 .sha1 e ∧ 64 ∣ (Sha1.engine .debug64).nBytesHashed e := by
  have hc : Cfg.debug64.Valid := by decide
  obtain ⟨e, he, R⟩ := (Alg.sha1.lawful hc trivial).new_rel
  obtain ⟨e', he', R'⟩ := (Alg.sha1.lawful hc trivial).input_ok (List.replicate 64 0) trivial R
    (by decide)
  refine ⟨e', ⟨_, .input _ (.new he) (by decide) he'⟩, ?_⟩
  have := (Alg.sha1.lawful hc trivial).count R'
  rw [show (Sha1.engine .debug64).nBytesHashed e' = _ from this]
  decide

/-! ## C18 -/

/-- The SHA-512 family, and HMAC over it. -/
def isSha512 : Alg → Bool
  | .sha384 | .sha512 | .sha512_256 => true
  | .hmac a => isSha512 a
  | _ => false

/-- What C18 asks for. -/
def C18_statement : Prop :=
  ∀ c : Cfg, c.Valid → ∀ a ∈ [Alg.sha384, .sha512, .sha512_256], ∀ e, Reachable c a e →
    128 ∣ (a.engine c).nBytesHashed e → Resumes c a e

/-- C18 fails completely: `from_midstate` of the SHA-512 family, and of HMAC over it, panics for
every midstate and every length. -/
theorem C18_always_panics {c : Cfg} (hc : c.Valid) : (a : Alg) → isSha512 a = true → ∀ {μ n},
    a.Typed c μ n →
    (a.engine c).fromMidstate μ n = .error (if n % 128 = 0 then .expect else .assertion)
  | .sha384, _, μ, n, ht => (Alg.sha384.lawful hc trivial).resume_err (Alg.sha384.typed_log ht) (md rfl)
  | .sha512, _, μ, n, ht => (Alg.sha512.lawful hc trivial).resume_err (Alg.sha512.typed_log ht) (md rfl)
  | .sha512_256, _, μ, n, ht =>
      (Alg.sha512_256.lawful hc trivial).resume_err (Alg.sha512_256.typed_log ht) (md rfl)
  | .hmac a, h, μ, n, ht => by
      show ((a.engine c).fromMidstate _ n >>= fun i => _) = _
      rw [C18_always_panics hc a h ht.1]
      rfl
where
  md {P : Md (Arr8 (BitVec 64))} {c : Cfg} {μ : List Byte} {n : Nat} (h : P.B = 128) :
      (P.log c fun _ _ => .error .expect).resume μ n =
        .error (if n % 128 = 0 then .expect else .assertion) := by
    simp only [Md.log, h]
    by_cases hn : n % 128 = 0
    · rw [if_pos hn, if_pos hn]; rfl
    · rw [if_neg hn, if_neg hn]; rfl

example : isSha512 (.hmac .sha384) = true ∧ (Alg.hmac .sha384).Typed .debug64
    ({ inner := List.replicate 64 1, outer := List.replicate 64 2 } :
      Hmac.Midstate (Sha384.engine .debug64)) 128 :=
  ⟨rfl, ⟨rfl, by decide⟩, ⟨rfl, by decide⟩⟩

/-- C18 is false: a new SHA-512 engine, which is at a block boundary, cannot be resumed. -/
theorem C18_refuted : ¬ C18_statement := by
  intro h
  have hc : Cfg.debug64.Valid := by decide
  obtain ⟨μ, e', h1, h2, _⟩ := h .debug64 hc .sha512 (by simp) _ ⟨_, .new rfl⟩ (by decide)
  have h3 : (Sha512.engine .debug64).midstate Sha512.Engine.default = .ok (serialize8 iv512) :=
    (Sha512.facts hc).mid_eq _
  rw [show μ = serialize8 iv512 from (Except.ok.inj (h1.symm.trans h3))] at h2
  rw [C18_always_panics hc .sha512 rfl ⟨length_serialize8_64 _, by decide⟩] at h2
  cases h2

/-! ## C22 -/

/-- C22: `from_midstate` panics for every length that is not a multiple of the block size. -/
theorem C22_unaligned_panics {c : Cfg} (hc : c.Valid) : (a : Alg) → isSip a = false → ∀ {μ n},
    a.Typed c μ n → n % a.blockSize ≠ 0 → (a.engine c).fromMidstate μ n = .error .assertion
  | .sha1, _, μ, n, ht, hn => (Alg.sha1.lawful hc trivial).resume_err (Alg.sha1.typed_log ht) (md hn)
  | .sha256, _, μ, n, ht, hn =>
      (Alg.sha256.lawful hc trivial).resume_err (Alg.sha256.typed_log ht) (md hn)
  | .sha384, _, μ, n, ht, hn =>
      (Alg.sha384.lawful hc trivial).resume_err (Alg.sha384.typed_log ht) (md hn)
  | .sha512, _, μ, n, ht, hn =>
      (Alg.sha512.lawful hc trivial).resume_err (Alg.sha512.typed_log ht) (md hn)
  | .sha512_256, _, μ, n, ht, hn =>
      (Alg.sha512_256.lawful hc trivial).resume_err (Alg.sha512_256.typed_log ht) (md hn)
  | .ripemd160, _, μ, n, ht, hn =>
      (Alg.ripemd160.lawful hc trivial).resume_err (Alg.ripemd160.typed_log ht) (md hn)
  | .siphash24, h, _, _, _, _ => Bool.noConfusion h
  | .sha256t _ _ _, _, μ, n, ht, hn =>
      (Alg.sha256.lawful hc trivial).resume_err (Alg.sha256.typed_log ht) (md hn)
  | .hmac a, h, μ, n, ht, hn => by
      show ((a.engine c).fromMidstate _ n >>= fun i => _) = _
      rw [C22_unaligned_panics hc a h ht.1 hn]
      rfl
where
  md {H : Type} {P : Md H} {c : Cfg} {r : List Byte → Nat → Res H} {μ : List Byte} {n : Nat}
      (hn : n % P.B ≠ 0) : (P.log c r).resume μ n = .error .assertion := by
    simp only [Md.log, hn, if_false]
    rfl

example : isSip (.hmac .sha1) = false ∧ (Alg.hmac .sha1).Typed .release64
    ({ inner := List.replicate 20 1, outer := List.replicate 20 2 } :
      Hmac.Midstate (Sha1.engine .release64)) 65 ∧ 65 % (Alg.hmac .sha1).blockSize ≠ 0 :=
  ⟨rfl, ⟨⟨rfl, by decide⟩, ⟨rfl, by decide⟩⟩, by decide⟩

/-- The engines whose `from_midstate` succeeds. -/
def canResume : Alg → Bool
  | .sha1 | .sha256 | .ripemd160 | .sha256t _ _ _ => true
  | .hmac a => canResume a
  | _ => false

/-- C22: for SHA-1, SHA-256, RIPEMD-160, tagged SHA-256 and HMAC over these it succeeds for every
other length. -/
theorem C22_aligned_succeeds {c : Cfg} (hc : c.Valid) : (a : Alg) → canResume a = true → ∀ {μ n},
    a.Typed c μ n → n % a.blockSize = 0 →
    ∃ e, (a.engine c).fromMidstate μ n = .ok e ∧ (a.engine c).nBytesHashed e = n
  | .sha1, _, μ, n, ht, hn => by
      obtain ⟨e, h, R⟩ := (Alg.sha1.lawful hc trivial).resume_ok (Alg.sha1.typed_log ht) (md hn)
      exact ⟨e, h, R.2.len.trans (Nat.mod_eq_of_lt ht.2)⟩
  | .sha256, _, μ, n, ht, hn => by
      obtain ⟨e, h, R⟩ := (Alg.sha256.lawful hc trivial).resume_ok (Alg.sha256.typed_log ht) (md hn)
      exact ⟨e, h, R.2.len.trans (Nat.mod_eq_of_lt ht.2)⟩
  | .ripemd160, _, μ, n, ht, hn => by
      obtain ⟨e, h, R⟩ := (Alg.ripemd160.lawful hc trivial).resume_ok (Alg.ripemd160.typed_log ht) (md hn)
      exact ⟨e, h, R.2.len.trans (Nat.mod_eq_of_lt ht.2)⟩
  | .sha256t _ _ _, _, μ, n, ht, hn => by
      obtain ⟨e, h, R⟩ := (Alg.sha256.lawful hc trivial).resume_ok (Alg.sha256.typed_log ht) (md hn)
      exact ⟨e, h, R.2.len.trans (Nat.mod_eq_of_lt ht.2)⟩
  | .sha384, h, _, _, _, _ | .sha512, h, _, _, _, _ | .sha512_256, h, _, _, _, _
  | .siphash24, h, _, _, _, _ => Bool.noConfusion h
  | .hmac a, h, μ, n, ht, hn => by
      obtain ⟨i, hi, hin⟩ := C22_aligned_succeeds hc a h ht.1 hn
      obtain ⟨o, ho, _⟩ := C22_aligned_succeeds hc a h ht.2 hn
      refine ⟨{ iengine := i, oengine := o }, ?_, hin⟩
      show ((a.engine c).fromMidstate _ n >>= fun i => (a.engine c).fromMidstate _ n >>= fun o => _) = _
      rw [hi, ho]
      rfl
where
  md {H : Type} {P : Md H} {c : Cfg} {p : List Byte → H} {μ : List Byte} {n : Nat}
      (hn : n % P.B = 0) : (P.log c fun μ _ => .ok (p μ)).resume μ n = .ok (p μ, n) := by
    simp only [Md.log, hn, if_true]
    rfl

example : canResume .ripemd160 = true ∧ Alg.ripemd160.Typed .release32 (List.replicate 20 1) 640 ∧
    640 % Alg.ripemd160.blockSize = 0 := ⟨rfl, ⟨rfl, by decide⟩, rfl⟩

/-! ## C42 -/

/-- C42: hashing on from the digest of `m` as a midstate gives the digest of the padded `m` followed
by the new bytes. -/
theorem C42_sha256_extension {c : Cfg} (hc : c.Valid) (m : List Byte) (chunks : List (List Byte))
    (hbits : 8 * ((pad 64 8 beBytes m).length + chunks.flatten.length) < 2 ^ 64)
    (hbytes : (pad 64 8 beBytes m).length + chunks.flatten.length + 144 < 2 ^ c.usizeBits) :
    ∃ d e e', (Sha256.engine c).hash m = .ok d ∧
      (Sha256.engine c).fromMidstate d (pad 64 8 beBytes m).length = .ok e ∧
      (Sha256.engine c).inputs e chunks = .ok e' ∧
      (Sha256.engine c).finalize e' = .ok (sha256 (pad 64 8 beBytes m ++ chunks.flatten)) := by
  have W := Alg.sha256.lawful hc trivial
  have hfit : Fits c ((pad 64 8 beBytes m).length + chunks.flatten.length) := ⟨hbits, hbytes⟩
  have hp : 64 ∣ (pad 64 8 beBytes m).length := pad_dvd (by decide) (fun x => length_beBytes _ _) m
  have hle : m.length ≤ (pad 64 8 beBytes m).length := by
    simp only [pad, List.length_append]; omega
  have h1 : (Sha256.engine c).hash m = .ok (sha256 m) := by
    rw [Lawful.hash_eq_chunks]
    have := Alg.sha256.hashByteChunks_eq hc trivial [m]
      (by
        intro d hd
        rw [List.mem_singleton.mp hd]
        have := hfit.2
        omega)
      (hfit.mono (by
        rw [List.flatten_singleton]
        show 0 + m.length + 0 ≤ _
        omega))
    rw [List.flatten_singleton] at this
    exact this
  have hlt : (pad 64 8 beBytes m).length < c.usizeMod := by have := hfit.2; omega
  obtain ⟨e, h2, R⟩ := (Alg.sha256.lawful hc trivial).resume_ok
    (μ := sha256 m) (n := (pad 64 8 beBytes m).length)
    (Alg.sha256.typed_log ⟨Alg.hashSpec_length .sha256 m, hlt⟩)
    (C22_aligned_succeeds.md (P := md256) (p := parse8) (Nat.dvd_iff_mod_eq_zero.mp hp))
  rw [show sha256 m = serialize8 (chain 64 compress256 iv256 (pad 64 8 beBytes m)) from rfl,
    parse8_serialize8] at R
  have hs : ∀ d ∈ chunks, (Alg.sha256.log c).slice d.length := fun _ _ => trivial
  obtain ⟨e', h3, R'⟩ := (Alg.sha256.lawful hc trivial).inputs_ok chunks hs R (by
    show (!c.overflowChecks || decide (_ + (0 + _) < 2 ^ c.usizeBits)) = true
    rw [decide_eq_true (by omega), Bool.or_true])
  refine ⟨_, e, e', h1, h2, h3, ?_⟩
  refine ((Alg.sha256.lawful hc trivial).digest R').trans ?_
  refine (Md.digest_fits (P := md256) (c := c) (r := fun μ _ => .ok (parse8 μ)) (.inl rfl) (by decide)
    (by decide) (Nat.le_refl _) hfit).trans (congrArg _ ?_)
  rw [List.nil_append, ← digestWith_256, digestWith_append md256 (by decide) _ _ _ hp,
    List.length_append]
  rfl

/-- C42 for SHA-1. -/
theorem C42_sha1_extension {c : Cfg} (hc : c.Valid) (m : List Byte) (chunks : List (List Byte))
    (hbits : 8 * ((pad 64 8 beBytes m).length + chunks.flatten.length) < 2 ^ 64)
    (hbytes : (pad 64 8 beBytes m).length + chunks.flatten.length + 144 < 2 ^ c.usizeBits) :
    ∃ d e e', (Sha1.engine c).hash m = .ok d ∧
      (Sha1.engine c).fromMidstate d (pad 64 8 beBytes m).length = .ok e ∧
      (Sha1.engine c).inputs e chunks = .ok e' ∧
      (Sha1.engine c).finalize e' = .ok (sha1 (pad 64 8 beBytes m ++ chunks.flatten)) := by
  have W := Alg.sha1.lawful hc trivial
  have hfit : Fits c ((pad 64 8 beBytes m).length + chunks.flatten.length) := ⟨hbits, hbytes⟩
  have hp : 64 ∣ (pad 64 8 beBytes m).length := pad_dvd (by decide) (fun x => length_beBytes _ _) m
  have hle : m.length ≤ (pad 64 8 beBytes m).length := by
    simp only [pad, List.length_append]; omega
  have h1 : (Sha1.engine c).hash m = .ok (sha1 m) := by
    rw [Lawful.hash_eq_chunks]
    have := Alg.sha1.hashByteChunks_eq hc trivial [m]
      (by
        intro d hd
        rw [List.mem_singleton.mp hd]
        have := hfit.2
        omega)
      (hfit.mono (by
        rw [List.flatten_singleton]
        show 0 + m.length + 0 ≤ _
        omega))
    rw [List.flatten_singleton] at this
    exact this
  have hlt : (pad 64 8 beBytes m).length < c.usizeMod := by have := hfit.2; omega
  obtain ⟨e, h2, R⟩ := (Alg.sha1.lawful hc trivial).resume_ok
    (μ := sha1 m) (n := (pad 64 8 beBytes m).length)
    (Alg.sha1.typed_log ⟨Alg.hashSpec_length .sha1 m, hlt⟩)
    (C22_aligned_succeeds.md (P := md1) (p := parse5) (Nat.dvd_iff_mod_eq_zero.mp hp))
  rw [show sha1 m = serialize5 (chain 64 compress1 iv1 (pad 64 8 beBytes m)) from rfl,
    parse5_serialize5] at R
  have hs : ∀ d ∈ chunks, (Alg.sha1.log c).slice d.length := fun _ _ => trivial
  obtain ⟨e', h3, R'⟩ := (Alg.sha1.lawful hc trivial).inputs_ok chunks hs R (by
    show (!c.overflowChecks || decide (_ + (0 + _) < 2 ^ c.usizeBits)) = true
    rw [decide_eq_true (by omega), Bool.or_true])
  refine ⟨_, e, e', h1, h2, h3, ?_⟩
  refine ((Alg.sha1.lawful hc trivial).digest R').trans ?_
  refine (Md.digest_fits (P := md1) (c := c) (r := fun μ _ => .ok (parse5 μ)) (.inl rfl) (by decide)
    (by decide) (Nat.le_refl _) hfit).trans (congrArg _ ?_)
  rw [List.nil_append, ← digestWith_1, digestWith_append md1 (by decide) _ _ _ hp,
    List.length_append]
  rfl

/-- A three-byte message, extended by two bytes, in a 32-bit debug build. -/
example : let c := { Cfg.release32 with overflowChecks := true }
    let m : List Byte := [1, 2, 3]
    c.Valid ∧ 8 * ((pad 64 8 beBytes m).length + ([[4], [5]] : List (List Byte)).flatten.length) < 2 ^ 64 ∧
    (pad 64 8 beBytes m).length + ([[4], [5]] : List (List Byte)).flatten.length + 144
      < 2 ^ c.usizeBits := by decide

/-! ## C44 -/

theorem new_inputs_midstate {c : Cfg} (hc : c.Valid) (a : Alg) (ok : a.Ok c) (chunks : List (List Byte))
    (hlen : a.base + chunks.flatten.length < 2 ^ c.usizeBits) :
    (do
      let e ← (a.engine c).new
      let e ← (a.engine c).inputs e chunks
      (a.engine c).midstate e) =
    .ok ((a.log c).mid (a.log c).fresh.1 ((a.log c).fresh.2 ++ chunks.flatten)) := by
  obtain ⟨e, he, R⟩ := (a.lawful hc ok).new_rel
  obtain ⟨e', he', R'⟩ := (a.lawful hc ok).inputs_ok chunks (fun d hd => a.log_slice (by
    have := length_le_flatten hd
    show _ < 2 ^ c.usizeBits
    omega)) R (a.fresh_accepts ok _ hlen)
  simp only [he, he', bind, Except.bind]
  exact (a.lawful hc ok).mid R'

/-- C44: the midstate is the chaining value of the standard after the complete blocks input so far
(`chain` runs over `blocks`, the complete blocks of a message). -/
theorem C44_sha256_midstate {c : Cfg} (hc : c.Valid) (chunks : List (List Byte))
    (hlen : chunks.flatten.length < 2 ^ c.usizeBits) :
    (do
      let e ← (Sha256.engine c).new
      let e ← (Sha256.engine c).inputs e chunks
      (Sha256.engine c).midstate e) = .ok (serialize8 (chain 64 compress256 iv256 chunks.flatten)) :=
  new_inputs_midstate hc .sha256 trivial chunks (by
    show 0 + _ < _
    omega)

theorem C44_sha1_midstate {c : Cfg} (hc : c.Valid) (chunks : List (List Byte))
    (hlen : chunks.flatten.length < 2 ^ c.usizeBits) :
    (do
      let e ← (Sha1.engine c).new
      let e ← (Sha1.engine c).inputs e chunks
      (Sha1.engine c).midstate e) = .ok (serialize5 (chain 64 compress1 iv1 chunks.flatten)) :=
  new_inputs_midstate hc .sha1 trivial chunks (by
    show 0 + _ < _
    omega)

theorem C44_sha512_midstate {c : Cfg} (hc : c.Valid) (chunks : List (List Byte))
    (hlen : chunks.flatten.length < 2 ^ c.usizeBits) :
    (do
      let e ← (Sha512.engine c).new
      let e ← (Sha512.engine c).inputs e chunks
      (Sha512.engine c).midstate e) = .ok (serialize8 (chain 128 compress512 iv512 chunks.flatten)) :=
  new_inputs_midstate hc .sha512 trivial chunks (by
    show 0 + _ < _
    omega)

/-- The midstates of `sha384` and `sha512_256` are those of the untruncated SHA-512 computation. -/
theorem C44_sha384_midstate {c : Cfg} (hc : c.Valid) (chunks : List (List Byte))
    (hlen : chunks.flatten.length < 2 ^ c.usizeBits) :
    (do
      let e ← (Sha384.engine c).new
      let e ← (Sha384.engine c).inputs e chunks
      (Sha384.engine c).midstate e) = .ok (serialize8 (chain 128 compress512 iv384 chunks.flatten)) :=
  new_inputs_midstate hc .sha384 trivial chunks (by
    show 0 + _ < _
    omega)

theorem C44_sha512_256_midstate {c : Cfg} (hc : c.Valid) (chunks : List (List Byte))
    (hlen : chunks.flatten.length < 2 ^ c.usizeBits) :
    (do
      let e ← (Sha512_256.engine c).new
      let e ← (Sha512_256.engine c).inputs e chunks
      (Sha512_256.engine c).midstate e) =
        .ok (serialize8 (chain 128 compress512 iv512_256 chunks.flatten)) := by
  refine (new_inputs_midstate hc .sha512_256 trivial chunks (by
    show 0 + _ < _
    omega)).trans (congrArg _ ?_)
  rfl

theorem C44_ripemd160_midstate {c : Cfg} (hc : c.Valid) (chunks : List (List Byte))
    (hlen : chunks.flatten.length < 2 ^ c.usizeBits) :
    (do
      let e ← (Ripemd160.engine c).new
      let e ← (Ripemd160.engine c).inputs e chunks
      (Ripemd160.engine c).midstate e) =
        .ok (serializeRmd (chain 64 compressRmd ivRmd chunks.flatten)) :=
  new_inputs_midstate hc .ripemd160 trivial chunks (by
    show 0 + _ < _
    omega)

example : Cfg.release32.Valid ∧
    ([List.replicate 63 0, [1, 2]] : List (List Byte)).flatten.length < 2 ^ Cfg.release32.usizeBits := by
  decide

/-- C44: bytes that do not complete a block leave the midstate as it was; for HMAC, of both halves. -/
theorem C44_unchanged {c : Cfg} (hc : c.Valid) (a : Alg) (ok : a.Ok c) (hs : isSip a = false)
    {e e' : (a.engine c).State} (he : Reachable c a e) (d : List Byte)
    (hd : (a.engine c).nBytesHashed e % a.blockSize + d.length < a.blockSize)
    (hi : (a.engine c).input e d = .ok e') : (a.engine c).midstate e' = (a.engine c).midstate e := by
  obtain ⟨k, h⟩ := he
  obtain ⟨s, m, R, _⟩ := h.rel hc ok
  have hslice : (a.log c).slice d.length := a.log_slice (by
    have := a.blockSize_le
    have := usizeMod_ge hc
    omega)
  cases hacc : (a.log c).accepts s (m.length + d.length) with
  | false => rw [(a.lawful hc ok).input_err d hslice R hacc] at hi; cases hi
  | true =>
    obtain ⟨e1, h1, R'⟩ := (a.lawful hc ok).input_ok d hslice R hacc
    rw [hi] at h1
    cases h1
    rw [(a.lawful hc ok).mid R, (a.lawful hc ok).mid R', stays hc a ok hs R d hd]
where
  stays {c : Cfg} (hc : c.Valid) : (a : Alg) → (ok : a.Ok c) → isSip a = false →
      ∀ {e : (a.engine c).State} {s m}, (a.lawful hc ok).Rel e s m → ∀ d : List Byte,
      (a.engine c).nBytesHashed e % a.blockSize + d.length < a.blockSize →
      (a.log c).mid s (m ++ d) = (a.log c).mid s m
    | .sha1, _, _, _, _, _, R, d, hd => md (P := md1) (pow_dvd hc).1 (by decide) R hd
    | .sha256, _, _, _, _, _, R, d, hd => md (P := md256) (pow_dvd hc).1 (by decide) R hd
    | .sha384, _, _, _, _, _, R, d, hd => md (P := md384) (pow_dvd hc).2 (by decide) R hd
    | .sha512, _, _, _, _, _, R, d, hd => md (P := md512) (pow_dvd hc).2 (by decide) R hd
    | .sha512_256, _, _, _, _, _, R, d, hd => md (P := md512_256) (pow_dvd hc).2 (by decide) R hd
    | .ripemd160, _, _, _, _, _, R, d, hd => md (P := mdRmd) (pow_dvd hc).1 (by decide) R hd
    | .siphash24, _, h, _, _, _, _, _, _ => Bool.noConfusion h
    | .sha256t _ _ _, _, _, _, _, _, R, d, hd => md (P := md256) (pow_dvd hc).1 (by decide) R hd
    | .hmac a, ok, h, e, s, m, R, d, hd => by
        have := stays hc a ok.1 h R.1 d hd
        rw [List.append_assoc] at this
        exact congrArg (fun i => Hmac.Midstate.mk i ((a.log c).mid
          (HmacStart.outer (Start := (a.log c).Start) s)
          (HmacStart.outerLog (Start := (a.log c).Start) s))) this
  md {H : Type} {P : Md H} {c : Cfg} {e : BlockEngine H} {s : H × Nat} {m d : List Byte}
      (hM : P.B ∣ 2 ^ c.usizeBits) (hB : 0 < P.B) (R : MdRel c P e s m)
      (hd : e.length % P.B + d.length < P.B) :
      P.words (chain P.B P.compress s.1 (m ++ d)) = P.words (chain P.B P.compress s.1 m) := by
    rw [chain_stays hB]
    rw [R.2.len] at hd
    have h1 : (s.2 + m.length) % c.usizeMod % P.B = m.length % P.B := by
      obtain ⟨q, hq⟩ := R.1
      rw [Cfg.usizeMod, Nat.mod_mod_of_dvd _ hM, hq, Nat.mul_add_mod_self_left]
    rwa [h1] at hd

/-- One byte into a new HMAC-SHA-512 engine. -/
example : Cfg.debug64.Valid ∧ (Alg.hmac .sha512).Ok .debug64 ∧ isSip (.hmac .sha512) = false ∧
    ∃ e e' : ((Alg.hmac .sha512).engine .debug64).State, Reachable .debug64 (.hmac .sha512) e ∧
      ((Alg.hmac .sha512).engine .debug64).nBytesHashed e % (Alg.hmac .sha512).blockSize +
        ([5] : List Byte).length < (Alg.hmac .sha512).blockSize ∧
      ((Alg.hmac .sha512).engine .debug64).input e [5] = .ok e' := by
  have hc : Cfg.debug64.Valid := by decide
  have ok : (Alg.hmac .sha512).Ok .debug64 := ⟨trivial, by decide⟩
  refine ⟨hc, ok, rfl, ?_⟩
  obtain ⟨e, he, R⟩ := ((Alg.hmac .sha512).lawful hc ok).new_rel
  obtain ⟨e', he', _⟩ := ((Alg.hmac .sha512).lawful hc ok).input_ok [5] trivial R
    (by decide +kernel)
  refine ⟨e, e', ⟨_, .new he⟩, ?_, he'⟩
  rw [((Alg.hmac .sha512).lawful hc ok).count R]
  decide +kernel

end Chf.Props
