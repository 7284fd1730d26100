import Verif.Proofs.History

/-!
# Properties C08, C09, C10: chunking, counting, absence of panics
-/

namespace Chf.Props
open Spec

/-! ## C08 -/

/-- C08: two ways of cutting the same bytes into slices have the same observations, in every
reachable state of every engine: whether `input` panics, and afterwards count, midstate, digest. -/
theorem C08_chunking {c : Cfg} (hc : c.Valid) (a : Alg) (ok : a.Ok c) {e : (a.engine c).State}
    (he : Reachable c a e) (xs ys : List (List Byte)) (h : xs.flatten = ys.flatten)
    (hx : ∀ d ∈ xs, d.length < c.usizeMod) (hy : ∀ d ∈ ys, d.length < c.usizeMod) :
    (a.engine c).observe e xs = (a.engine c).observe e ys := by
  obtain ⟨k, he⟩ := he
  obtain ⟨s, m, R, _⟩ := he.rel hc ok
  rw [(a.lawful hc ok).observe_eq R xs fun d hd => a.log_slice (hx d hd),
    (a.lawful hc ok).observe_eq R ys fun d hd => a.log_slice (hy d hd), h]

example : Cfg.debug64.Valid ∧ (Alg.hmac .sha1).Ok .debug64 ∧
    ([[1, 2], [], [3]] : List (List Byte)).flatten = [[1], [2, 3]].flatten ∧
    (∀ d ∈ ([[1, 2], [], [3]] : List (List Byte)), d.length < Cfg.debug64.usizeMod) ∧
    Reachable .debug64 .siphash24 (Siphash24.withKeys 1 2) :=
  ⟨by decide, ⟨trivial, by decide⟩, by decide, by decide, ⟨_, .sipKeys 1 2⟩⟩

/-- C08 for two calls: either both ways panic, or both succeed and the engines are
indistinguishable from then on. -/
theorem C08_input_append {c : Cfg} (hc : c.Valid) (a : Alg) (ok : a.Ok c) {e : (a.engine c).State}
    (he : Reachable c a e) (x y : List Byte) (hxy : (x ++ y).length < c.usizeMod) :
    (∃ f, ((a.engine c).input e x >>= ((a.engine c).input · y)) = .error f ∧
      (a.engine c).input e (x ++ y) = .error f) ∨
    ∃ e1 e2, ((a.engine c).input e x >>= ((a.engine c).input · y)) = .ok e1 ∧
      (a.engine c).input e (x ++ y) = .ok e2 ∧ ObsEq c (a.engine c) e1 e2 := by
  obtain ⟨k, he⟩ := he
  obtain ⟨s, m, R, _⟩ := he.rel hc ok
  have W := a.lawful hc ok
  rw [List.length_append] at hxy
  have hxs : (a.log c).slice x.length := a.log_slice (by omega)
  have hys : (a.log c).slice y.length := a.log_slice (by omega)
  have hxys : (a.log c).slice (x ++ y).length := a.log_slice (by rw [List.length_append]; omega)
  have hone : ((a.engine c).input e x >>= ((a.engine c).input · y)) = (a.engine c).inputs e [x, y] := by
    simp only [HashEngine.inputs]
    cases (a.engine c).input e x with
    | error f => rfl
    | ok e' =>
      simp only [bind, Except.bind]
      cases (a.engine c).input e' y <;> rfl
  have hsl : ∀ d ∈ [x, y], (a.log c).slice d.length := by
    intro d hd
    rcases List.mem_cons.1 hd with rfl | hd
    · exact hxs
    · rw [List.mem_singleton.1 hd]; exact hys
  have hfl : ([x, y] : List (List Byte)).flatten = x ++ y := by simp
  rw [hone]
  cases hacc : (a.log c).accepts s (m.length + (x ++ y).length) with
  | false =>
    left
    refine ⟨.overflow, (a.lawful hc ok).inputs_err [x, y] hsl R (by rw [hfl]; exact hacc),
      (a.lawful hc ok).input_err _ hxys R hacc⟩
  | true =>
    right
    obtain ⟨e1, h1, R1⟩ := (a.lawful hc ok).inputs_ok [x, y] hsl R (by rw [hfl]; exact hacc)
    obtain ⟨e2, h2, R2⟩ := (a.lawful hc ok).input_ok _ hxys R hacc
    rw [hfl] at R1
    exact ⟨e1, e2, h1, h2, obsEq_of hc ok R1 R2 fun _ => rfl⟩

example : Reachable .debug64 .sha512 Sha512.Engine.default ∧
    (List.replicate 100 (1 : Byte) ++ List.replicate 100 2).length < Cfg.debug64.usizeMod :=
  ⟨⟨_, .new rfl⟩, by decide +kernel⟩

/-- C08: inputting nothing succeeds and changes nothing that can be observed. -/
theorem C08_input_nil {c : Cfg} (hc : c.Valid) (a : Alg) (ok : a.Ok c) {e : (a.engine c).State}
    (he : Reachable c a e) : ∃ e', (a.engine c).input e [] = .ok e' ∧ ObsEq c (a.engine c) e' e := by
  obtain ⟨k, he⟩ := he
  obtain ⟨s, m, R, _⟩ := he.rel hc ok
  have hs : (a.log c).slice ([] : List Byte).length :=
    a.log_slice (by have := usizeMod_ge hc; simp; omega)
  obtain ⟨e', h', R'⟩ := (a.lawful hc ok).input_ok [] hs R (by
    simpa using (a.lawful hc ok).accepted R)
  refine ⟨e', h', obsEq_of hc ok R' R fun x => ?_⟩
  rw [List.append_nil]

example : Cfg.release32.Valid ∧ Alg.ripemd160.Ok .release32 ∧
    Reachable .release32 .ripemd160 Ripemd160.Engine.default :=
  ⟨by decide, trivial, ⟨_, .default rfl⟩⟩

/-- C08: `hash_byte_chunks` is `hash` of the concatenation, panics included. -/
theorem C08_hash_byte_chunks {c : Cfg} (hc : c.Valid) (a : Alg) (ok : a.Ok c) (xs : List (List Byte))
    (h : xs.flatten.length < c.usizeMod) :
    (a.engine c).hashByteChunks xs = (a.engine c).hash xs.flatten := by
  rw [(a.lawful hc ok).hash _ (a.log_slice h), (a.lawful hc ok).hashByteChunks xs fun d hd =>
    a.log_slice (Nat.lt_of_le_of_lt (length_le_flatten hd) h)]

example : Cfg.release32.Valid ∧ (Alg.sha256t (List.replicate 32 0) 64 [1]).Ok .release32 ∧
    ([[1], [2, 3], []] : List (List Byte)).flatten.length < Cfg.release32.usizeMod :=
  ⟨by decide, ⟨rfl, by decide, by decide⟩, by decide⟩

/-! ## C09 -/

theorem log_count (c : Cfg) : (a : Alg) → ∀ s n j,
    (a.log c).count s (n + j) = ((a.log c).count s n + j) % c.usizeMod ∧
    (a.log c).count s n < c.usizeMod
  | .sha1, s, n, j => md s.2 n j
  | .sha256, s, n, j => md s.2 n j
  | .sha384, s, n, j => md s.2 n j
  | .sha512, s, n, j => md s.2 n j
  | .sha512_256, s, n, j => md s.2 n j
  | .ripemd160, s, n, j => md s.2 n j
  | .siphash24, s, n, j =>
      ⟨by simp only [Alg.log, logSip, Cfg.usizeMod]; rw [Nat.add_mod, Nat.add_mod (n % _)]; simp,
       Nat.mod_lt _ (Nat.two_pow_pos _)⟩
  | .sha256t _ _ _, s, n, j => md (Prod.snd (α := Arr8 (BitVec 32)) s) n j
  | .hmac a, s, n, j => by
      have := log_count c a (HmacStart.inner (Start := (a.log c).Start) s)
        ((HmacStart.innerLog (Start := (a.log c).Start) s).length + n) j
      rw [Nat.add_assoc] at this
      exact this
where
  md {c : Cfg} (k n j : Nat) : (k + (n + j)) % 2 ^ c.usizeBits =
      ((k + n) % 2 ^ c.usizeBits + j) % c.usizeMod ∧ (k + n) % 2 ^ c.usizeBits < c.usizeMod :=
    ⟨by rw [Cfg.usizeMod, ← Nat.add_assoc, Nat.add_mod, Nat.add_mod (_ % _)]; simp,
     Nat.mod_lt _ (Nat.two_pow_pos _)⟩

theorem accepts_count {c : Cfg} (ho : c.overflowChecks = true) : (a : Alg) → ∀ s n j,
    (a.log c).accepts s n = true → (a.log c).accepts s (n + j) = true →
    (a.log c).count s (n + j) = (a.log c).count s n + j
  | .sha1, s, n, j, h, h' => md ho s.2 n j h h'
  | .sha256, s, n, j, h, h' => md ho s.2 n j h h'
  | .sha384, s, n, j, h, h' => md ho s.2 n j h h'
  | .sha512, s, n, j, h, h' => md ho s.2 n j h h'
  | .sha512_256, s, n, j, h, h' => md ho s.2 n j h h'
  | .ripemd160, s, n, j, h, h' => md ho s.2 n j h h'
  | .siphash24, s, n, j, h, h' => by
      have := md ho 0 n j (by rw [Nat.zero_add]; exact h) (by rw [Nat.zero_add]; exact h')
      rw [Nat.zero_add, Nat.zero_add] at this
      exact this
  | .sha256t _ _ _, s, n, j, h, h' => md ho (Prod.snd (α := Arr8 (BitVec 32)) s) n j h h'
  | .hmac a, s, n, j, h, h' => by
      have := accepts_count ho a (HmacStart.inner (Start := (a.log c).Start) s)
        ((HmacStart.innerLog (Start := (a.log c).Start) s).length + n) j h
        (by rw [Nat.add_assoc]; exact h')
      rw [Nat.add_assoc] at this
      exact this
where
  md {c : Cfg} (ho : c.overflowChecks = true) (k n j : Nat)
      (h : (!c.overflowChecks || decide (k + n < 2 ^ c.usizeBits)) = true)
      (h' : (!c.overflowChecks || decide (k + (n + j) < 2 ^ c.usizeBits)) = true) :
      (k + (n + j)) % 2 ^ c.usizeBits = (k + n) % 2 ^ c.usizeBits + j := by
    simp only [ho, Bool.not_true, Bool.false_or, decide_eq_true_eq] at h h'
    rw [Nat.mod_eq_of_lt h, Nat.mod_eq_of_lt h', Nat.add_assoc]

/-- C09: inputs add their length to the count, in `usize` arithmetic. -/
theorem C09_count {c : Cfg} (hc : c.Valid) (a : Alg) (ok : a.Ok c) {e e' : (a.engine c).State}
    (he : Reachable c a e) (ds : List (List Byte)) (hs : ∀ d ∈ ds, d.length < c.usizeMod)
    (h : (a.engine c).inputs e ds = .ok e') :
    (a.engine c).nBytesHashed e' =
      ((a.engine c).nBytesHashed e + ds.flatten.length) % 2 ^ c.usizeBits ∧
    (c.overflowChecks = true →
      (a.engine c).nBytesHashed e' = (a.engine c).nBytesHashed e + ds.flatten.length) := by
  obtain ⟨k, he⟩ := he
  obtain ⟨s, m, R, _⟩ := he.rel hc ok
  have W := a.lawful hc ok
  have hsl : ∀ d ∈ ds, (a.log c).slice d.length := fun d hd => a.log_slice (hs d hd)
  cases hacc : (a.log c).accepts s (m.length + ds.flatten.length) with
  | false => rw [(a.lawful hc ok).inputs_err ds hsl R hacc] at h; cases h
  | true =>
    obtain ⟨e2, h2, R2⟩ := (a.lawful hc ok).inputs_ok ds hsl R hacc
    rw [h] at h2
    cases h2
    rw [(a.lawful hc ok).count R, (a.lawful hc ok).count R2, List.length_append]
    exact ⟨(log_count c a s _ _).1,
      fun ho => accepts_count ho a s _ _ ((a.lawful hc ok).accepted R) hacc⟩

example : Cfg.debug64.Valid ∧ Reachable .debug64 .sha256 Sha256.Engine.default ∧
    ∃ e', (Sha256.engine .debug64).inputs Sha256.Engine.default [[1], [2, 3]] = .ok e' :=
  ⟨by decide, ⟨_, .new rfl⟩, _, rfl⟩

theorem fresh_count {c : Cfg} : (a : Alg) → a.Ok c → a.base < c.usizeMod →
    (a.log c).count (a.log c).fresh.1 (a.log c).fresh.2.length = a.base
  | .sha1, _, _ => Nat.zero_mod _
  | .sha256, _, _ => Nat.zero_mod _
  | .sha384, _, _ => Nat.zero_mod _
  | .sha512, _, _ => Nat.zero_mod _
  | .sha512_256, _, _ => Nat.zero_mod _
  | .ripemd160, _, _ => Nat.zero_mod _
  | .siphash24, _, _ => Nat.zero_mod _
  | .sha256t _ _ _, _, h => Nat.mod_eq_of_lt h
  | .hmac a, ok, h => by
      have h1 := fresh_count a ok.1 (by simp only [Alg.base] at h; omega)
      have h2 := (log_count c a (a.log c).fresh.1 (a.log c).fresh.2.length a.blockSize).1
      rw [h1, Nat.mod_eq_of_lt (show a.base + a.blockSize < c.usizeMod from h)] at h2
      simp only [Alg.log, hmacLog, HmacStart.ofKey, List.length_append, List.length_map,
        List.length_replicate, List.length_nil, Nat.add_zero, Alg.blockSize_eq]
      exact h2

theorem base_lt {c : Cfg} (hc : c.Valid) : (a : Alg) → a.Ok c → a.base < c.usizeMod
  | .sha1, _ | .sha256, _ | .sha384, _ | .sha512, _ | .sha512_256, _ | .ripemd160, _
  | .siphash24, _ => Nat.lt_of_lt_of_le (by decide) (usizeMod_ge hc)
  | .sha256t _ _ _, h => h.2.2
  | .hmac _, h => h.2

/-- C09, start of the count: a new engine counts nothing, except for the bytes of a tag and the key
block of HMAC (`Alg.base`, which is 0 for all other engines). -/
theorem C09_count_new {c : Cfg} (hc : c.Valid) (a : Alg) (ok : a.Ok c) :
    ∃ e, (a.engine c).new = .ok e ∧ (a.engine c).nBytesHashed e = a.base := by
  obtain ⟨e, h, R⟩ := (a.lawful hc ok).new_rel
  exact ⟨e, h, by rw [(a.lawful hc ok).count R, fresh_count a ok (base_lt hc a ok)]⟩

example : Alg.sha1.base = 0 ∧ Alg.sha256.base = 0 ∧ Alg.sha384.base = 0 ∧ Alg.sha512.base = 0 ∧
    Alg.sha512_256.base = 0 ∧ Alg.ripemd160.base = 0 ∧ Alg.siphash24.base = 0 ∧
    (Alg.hmac .sha512).base = 128 := by decide

/-- C09, start of the count with HMAC keys. -/
theorem C09_count_hmac {c : Cfg} (hc : c.Valid) (a : Alg) (ok : (Alg.hmac a).Ok c) {key : List Byte}
    {e : Hmac.Engine (a.engine c)} (hk : key.length < c.usizeMod)
    (h : Hmac.new c (a.engine c) key = .ok e) :
    ((Alg.hmac a).engine c).nBytesHashed e = a.base + a.blockSize := by
  obtain ⟨k, _, hkl, R⟩ := a.hmacNew_rel hc ok hk h
  rw [((Alg.hmac a).lawful hc ok).count R]
  have h1 := fresh_count a ok.1 (base_lt hc a ok.1)
  have h2 := (log_count c a (a.log c).fresh.1 (a.log c).fresh.2.length a.blockSize).1
  rw [h1, Nat.mod_eq_of_lt ok.2] at h2
  simp only [Alg.log, hmacLog, HmacStart.ofKey, List.length_append, List.length_map,
    List.length_replicate, List.length_nil, Nat.add_zero]
  rw [Nat.add_sub_of_le hkl]
  exact h2

example : (Alg.hmac .sha256).Ok .debug64 ∧
    ∃ e, Hmac.new .debug64 (Sha256.engine .debug64) [1, 2, 3] = .ok e :=
  ⟨⟨trivial, by decide⟩, by
    obtain ⟨e, h, _⟩ := Hmac.new_of_key (c := .debug64) (Sha256.lawful (c := .debug64) (by decide))
      (by decide) (by decide) (key := [1, 2, 3]) (k := [1, 2, 3]) (by decide) rfl
    exact ⟨e, h⟩⟩

/-- Whether the algorithm is SipHash, or HMAC over it. -/
def isSip : Alg → Bool
  | .siphash24 => true
  | .hmac a => isSip a
  | _ => false

/-- C09, start of the count: an engine resumed from a midstate counts the given length, for all
engines but siphash24. -/
theorem C09_count_resume_partial {c : Cfg} (hc : c.Valid) (a : Alg) (ok : a.Ok c)
    (hs : isSip a = false) {μ n} (ht : a.Typed c μ n) {e : (a.engine c).State}
    (h : (a.engine c).fromMidstate μ n = .ok e) : (a.engine c).nBytesHashed e = n := by
  cases hr : (a.log c).resume μ n with
  | error f => rw [(a.lawful hc ok).resume_err (a.typed_log ht) hr] at h; cases h
  | ok s =>
    obtain ⟨e', h', R⟩ := (a.lawful hc ok).resume_ok (a.typed_log ht) hr
    rw [h] at h'
    cases h'
    rw [(a.lawful hc ok).count R]
    exact start a hs ht hr
where
  start {c : Cfg} : (a : Alg) → isSip a = false → ∀ {μ n s}, a.Typed c μ n →
      (a.log c).resume μ n = .ok s → (a.log c).count s 0 = n
    | .sha1, _, _, _, _, ht, h => md ht.2 h
    | .sha256, _, _, _, _, ht, h => md ht.2 h
    | .sha384, _, _, _, _, ht, h => md ht.2 h
    | .sha512, _, _, _, _, ht, h => md ht.2 h
    | .sha512_256, _, _, _, _, ht, h => md ht.2 h
    | .ripemd160, _, _, _, _, ht, h => md ht.2 h
    | .siphash24, h, _, _, _, _, _ => Bool.noConfusion h
    | .sha256t _ _ _, _, _, _, _, ht, h => md (c := c) (r := fun μ _ => .ok (parse8 μ)) ht.2 h
    | .hmac a, hs, μ, n, s, ht, h => by
        have h' : (do
          let i ← (a.log c).resume (Hmac.Midstate.inner (E := a.engine c) μ) n
          let o ← (a.log c).resume (Hmac.Midstate.outer (E := a.engine c) μ) n
          pure ⟨i, [], o, []⟩ : Res (HmacStart (a.log c).Start)) = .ok s := h
        cases hi : (a.log c).resume (Hmac.Midstate.inner (E := a.engine c) μ) n with
        | error f => rw [hi] at h'; cases h'
        | ok i =>
          cases ho : (a.log c).resume (Hmac.Midstate.outer (E := a.engine c) μ) n with
          | error f => rw [hi, ho] at h'; cases h'
          | ok o =>
            rw [hi, ho] at h'
            cases h'
            exact start a hs ht.1 hi
  md {H : Type} {P : Md H} {c : Cfg} {r : List Byte → Nat → Res H} {μ : List Byte} {n : Nat}
      {s : H × Nat} (hn : n < c.usizeMod) (h : (P.log c r).resume μ n = .ok s) :
      (s.2 + 0) % 2 ^ c.usizeBits = n := by
    simp only [Md.log] at h
    by_cases hb : n % P.B = 0
    · rw [if_pos hb] at h
      cases hr : r μ n with
      | error f => rw [hr] at h; cases h
      | ok y => rw [hr] at h; cases h; exact Nat.mod_eq_of_lt hn
    · rw [if_neg hb] at h; cases h

example : isSip .sha256 = false ∧ Alg.sha256.Typed .debug64 (List.replicate 32 (7 : Byte)) 640 ∧
    ∃ e, (Sha256.engine .debug64).fromMidstate (List.replicate 32 7) 640 = .ok e :=
  ⟨rfl, ⟨rfl, by decide⟩, _, rfl⟩

/-- C09 fails for siphash24: whatever length `from_midstate` is given, the engine counts from 0. -/
theorem C09_siphash_refuted (c : Cfg) (μ : Siphash24.State) (n : Nat) (hn : n ≠ 0) :
    ∃ e, (Siphash24.engine c).fromMidstate μ n = .ok e ∧ (Siphash24.engine c).nBytesHashed e ≠ n :=
  ⟨_, rfl, fun h => hn h.symm⟩

/-! ## C10 -/

/-- C10: on a 64-bit target, while the bytes counted stay below 2^61 (for HMAC, 64 bytes earlier,
for the inner digest), nothing panics, in any build configuration. -/
theorem C10_no_panic {c : Cfg} (h64 : c.usizeBits = 64) (a : Alg) (ok : a.Ok c) {k : Nat}
    {e : (a.engine c).State} (he : History c a k e) (ds : List (List Byte))
    (hk : k + ds.flatten.length + a.slack < 2 ^ 61) :
    ∃ e' μ d, (a.engine c).inputs e ds = .ok e' ∧ (a.engine c).midstate e' = .ok μ ∧
      (a.engine c).finalize e' = .ok d ∧ (a.engine c).nBytesHashed e' < 2 ^ 64 := by
  have hc : c.Valid := .inr (.inr h64)
  have hM : c.usizeMod = 2 ^ 64 := by rw [Cfg.usizeMod, h64]
  obtain ⟨s, m, R, B⟩ := he.rel hc ok
  have B' := Alg.Bound.grow a ds.flatten.length B
  have hs : ∀ d ∈ ds, (a.log c).slice d.length := fun d hd => a.log_slice (by
    have := length_le_flatten hd
    omega)
  obtain ⟨e', h', R'⟩ := (a.lawful hc ok).inputs_ok ds hs R (Alg.Bound.accepts a B' (by omega))
  rw [← List.length_append] at B'
  obtain ⟨d, hd⟩ := Alg.Bound.digest hc a ok B' (fits_64 h64 hk)
  refine ⟨e', _, d, h', (a.lawful hc ok).mid R', ?_, ?_⟩
  · rw [(a.lawful hc ok).digest R', hd]
  · rw [(a.lawful hc ok).count R', ← hM]
    exact (log_count c a s _ 0).2

example : Cfg.release64.usizeBits = 64 ∧ (Alg.hmac (.hmac .sha384)).Ok .release64 ∧
    History .release64 .sha384 0 Sha512.Engine.sha384 ∧
    0 + ([[1], List.replicate 500 2] : List (List Byte)).flatten.length + Alg.sha384.slack < 2 ^ 61 :=
  ⟨rfl, ⟨⟨trivial, by decide⟩, by decide⟩, .new rfl, by decide +kernel⟩

/-- C10 for the constructors. -/
theorem C10_new_no_panic {c : Cfg} (hc : c.Valid) (a : Alg) (ok : a.Ok c) :
    (∃ e, (a.engine c).new = .ok e) ∧ ∃ e, (a.engine c).default = .ok e := by
  obtain ⟨e, h, _⟩ := (a.lawful hc ok).new_rel
  obtain ⟨e', h', _⟩ := (a.lawful hc ok).default_rel
  exact ⟨⟨e, h⟩, e', h'⟩

example : Cfg.release32.Valid ∧ (Alg.hmac .siphash24).Ok .release32 :=
  ⟨by decide, trivial, by decide⟩

/-- C10 for HMAC construction from a key. -/
theorem C10_hmac_new_no_panic {c : Cfg} (h64 : c.usizeBits = 64) (a : Alg) (ok : (Alg.hmac a).Ok c)
    (key : List Byte) (hk : a.base + key.length + a.slack < 2 ^ 61) :
    ∃ e, Hmac.new c (a.engine c) key = .ok e := by
  have hc : c.Valid := .inr (.inr h64)
  have hM : c.usizeMod = 2 ^ 64 := by rw [Cfg.usizeMod, h64]
  have hB : (a.engine c).blockSize ≤ 128 := by rw [Alg.blockSize_eq]; exact a.blockSize_le
  have hacc := a.fresh_accepts ok.1 _ ok.2
  rw [← Alg.blockSize_eq c] at hacc
  by_cases hgt : key.length > (a.engine c).blockSize
  · have hh := a.hashByteChunks_eq hc ok.1 [key] (by
      intro d hd; rw [List.mem_singleton.1 hd]; omega) (by
      rw [List.flatten_singleton]; exact fits_64 h64 hk)
    rw [← Lawful.hash_eq_chunks, List.flatten_singleton] at hh
    obtain ⟨e, h, _⟩ := Hmac.new_of_key (c := c) (a.lawful hc ok.1) hB hacc (key := key)
      (k := a.hashSpec key)
      (by rw [Alg.hashSpec_length, Alg.blockSize_eq]; exact a.outLen_le)
      (by rw [if_pos hgt]; exact hh)
    exact ⟨e, h⟩
  · obtain ⟨e, h, _⟩ := Hmac.new_of_key (c := c) (a.lawful hc ok.1) hB hacc (key := key)
      (k := key) (by omega) (by rw [if_neg hgt])
    exact ⟨e, h⟩

example : (Alg.hmac .sha1).Ok .debug64 ∧
    Alg.sha1.base + (List.replicate 1000 (3 : Byte)).length + Alg.sha1.slack < 2 ^ 61 :=
  ⟨⟨trivial, by decide⟩, by decide +kernel⟩

end Chf.Props
