import Verif.Proofs.Resume

/-!
# Properties C38, C39: what happens at the limits of the length counters
-/

namespace Chf.Props
open Spec

attribute [local irreducible] iv512_256

/-- With the true bit count it is the standard's digest. -/
theorem digestClaiming_true : (a : Alg) → blockAndField a ≠ none → a.base = 0 →
    (∀ mid len data, a ≠ .sha256t mid len data) →
    ∀ m, digestClaiming a m (8 * List.length m) = a.hashSpec m
  | .sha1, _, _, _, m => digestWith_1 m
  | .sha256, _, _, _, m => digestWith_256 m
  | .sha384, _, _, _, m => digestWith_384 m
  | .sha512, _, _, _, m => digestWith_512 m
  | .sha512_256, _, _, _, m => digestWith_512_256 m
  | .ripemd160, _, _, _, m => digestWith_Rmd m
  | .sha256t _ _ _, _, _, h, _ => absurd rfl (h _ _ _)
  | .siphash24, h, _, _, _ => absurd rfl h
  | .hmac _, h, _, _, _ => absurd rfl h

/-! ## C38 -/

theorem Md.fresh_wraps {H : Type} (P : Md H) {c : Cfg} {r : List Byte → Nat → Res H}
    (ho : c.overflowChecks = false) (m : List Byte) :
    (P.log c r).digest (P.iv, 0) m =
      .ok (P.digestWith P.iv m (8 * (m.length % 2 ^ c.usizeBits) % 2 ^ 64)) := by
  simp only [Md.log, ho, Bool.false_eq_true, false_and, if_false, Nat.zero_add]

/-- C38, overflow checks on: a new engine accepts inputs exactly as long as their total length is
below `2 ^ w`; the call that would reach it panics. -/
theorem C38_panics {c : Cfg} (hc : c.Valid) (a : Alg) (ha : plain a = true)
    (ho : c.overflowChecks = true) (ds : List (List Byte)) (hs : ∀ d ∈ ds, d.length < c.usizeMod) :
    ∃ e, (a.engine c).new = .ok e ∧
      ((∃ e', (a.engine c).inputs e ds = .ok e') ↔ ds.flatten.length < 2 ^ c.usizeBits) ∧
      (2 ^ c.usizeBits ≤ ds.flatten.length → (a.engine c).inputs e ds = .error .overflow) := by
  have ok : a.Ok c := by cases a <;> first | trivial | (cases ha; done)
  obtain ⟨e, h, R⟩ := (a.lawful hc ok).new_rel
  have hacc : (a.log c).accepts (a.log c).fresh.1 ((a.log c).fresh.2.length + ds.flatten.length) =
      decide (ds.flatten.length < 2 ^ c.usizeBits) := by
    cases a <;> first
      | (cases ha; done)
      | simp only [Alg.log, log1, log256, log384, log512, log512_256, logRmd, Md.log, ho,
          Bool.not_true, Bool.false_or, List.length_nil, Nat.zero_add]
  have hsl : ∀ d ∈ ds, (a.log c).slice d.length := fun d hd => a.log_slice (hs d hd)
  refine ⟨e, h, ⟨fun ⟨e', h'⟩ => ?_, fun hl => ?_⟩, fun hl => ?_⟩
  · apply Nat.lt_of_not_le
    intro hl
    rw [(a.lawful hc ok).inputs_err ds hsl R (by rw [hacc]; simpa using hl)] at h'
    cases h'
  · obtain ⟨e', h', _⟩ := (a.lawful hc ok).inputs_ok ds hsl R (by rw [hacc]; simpa using hl)
    exact ⟨e', h'⟩
  · exact (a.lawful hc ok).inputs_err ds hsl R (by rw [hacc]; simpa using hl)

/-- On a 16-bit target two slices are enough. -/
example : { Cfg.debug64 with usizeBits := 16 }.Valid ∧ plain .sha256 = true ∧
    2 ^ 16 ≤ ([List.replicate 40000 (0 : Byte), List.replicate 40000 1]).flatten.length := by
  refine ⟨by decide, rfl, ?_⟩
  simp only [List.flatten_cons, List.flatten_nil, List.append_nil, List.length_append,
    List.length_replicate]
  decide

/-- C38, overflow checks off: `input` never panics, the count is the number of bytes modulo `2 ^ w`,
and the digest is the standard's except that the length field holds 8 times that count, modulo 2^64. -/
theorem C38_wraps {c : Cfg} (hc : c.Valid) (a : Alg) (ha : plain a = true)
    (ho : c.overflowChecks = false) (ds : List (List Byte)) (hs : ∀ d ∈ ds, d.length < c.usizeMod) :
    ∃ e e', (a.engine c).new = .ok e ∧ (a.engine c).inputs e ds = .ok e' ∧
      (a.engine c).nBytesHashed e' = ds.flatten.length % 2 ^ c.usizeBits ∧
      (a.engine c).finalize e' = .ok (digestClaiming a ds.flatten
        (8 * (ds.flatten.length % 2 ^ c.usizeBits) % 2 ^ 64)) := by
  have ok : a.Ok c := by cases a <;> first | trivial | (cases ha; done)
  obtain ⟨e, h, R⟩ := (a.lawful hc ok).new_rel
  have hsl : ∀ d ∈ ds, (a.log c).slice d.length := fun d hd => a.log_slice (hs d hd)
  obtain ⟨e', h', R'⟩ := (a.lawful hc ok).inputs_ok ds hsl R (by
    cases a <;> first
      | (cases ha; done)
      | simp only [Alg.log, log1, log256, log384, log512, log512_256, logRmd, Md.log, ho,
          Bool.not_false, Bool.true_or])
  refine ⟨e, e', h, h', ?_, ?_⟩
  · rw [(a.lawful hc ok).count R', List.length_append]
    cases a <;> first
      | (cases ha; done)
      | simp only [Alg.log, log1, log256, log384, log512, log512_256, logRmd, Md.log,
          List.length_nil, Nat.zero_add]
  · rw [(a.lawful hc ok).digest R']
    cases a with
    | sha1 => exact Md.fresh_wraps md1 ho _
    | sha256 => exact Md.fresh_wraps md256 ho _
    | sha384 => exact Md.fresh_wraps md384 ho _
    | sha512 => exact Md.fresh_wraps md512 ho _
    | sha512_256 => exact Md.fresh_wraps md512_256 ho _
    | ripemd160 => exact Md.fresh_wraps mdRmd ho _
    | siphash24 => cases ha
    | sha256t _ _ _ => cases ha
    | hmac _ => cases ha

example : Cfg.release32.Valid ∧ plain .ripemd160 = true ∧ Cfg.release32.overflowChecks = false ∧
    (List.replicate (2 ^ 31) (0 : Byte)).length < Cfg.release32.usizeMod := by
  refine ⟨by decide, rfl, rfl, ?_⟩
  rw [List.length_replicate]
  decide

/-- C38: a wrapped count never gives the length field of the standard: every message of at least
`2 ^ w` bytes (and fewer than 2^61) is padded by a 16- or 32-bit build to other blocks than the
standard's. -/
theorem C38_not_standard_blocks {w n : Nat} (hn : 2 ^ w ≤ n) (h61 : n < 2 ^ 61) (L : Nat) (hL : 8 ≤ L) :
    beBytes L (8 * (n % 2 ^ w) % 2 ^ 64) ≠ beBytes L (8 * n) ∧
    leBytes L (8 * (n % 2 ^ w) % 2 ^ 64) ≠ leBytes L (8 * n) := by
  have h1 : n % 2 ^ w < 2 ^ w := Nat.mod_lt _ (Nat.two_pow_pos w)
  have h256 : 2 ^ 64 ≤ 256 ^ L := by
    rw [show 256 = 2 ^ 8 from rfl, ← Nat.pow_mul]
    exact Nat.pow_le_pow_right (by decide) (by omega)
  have h2 : 8 * (n % 2 ^ w) % 2 ^ 64 = 8 * (n % 2 ^ w) := Nat.mod_eq_of_lt (by omega)
  rw [h2]
  constructor
  · intro h
    have := beBytes_inj (by omega) (by omega) h
    omega
  · intro h
    have := leBytes_inj (by omega) (by omega) h
    omega

example : 2 ^ 32 ≤ 5000000000 ∧ 5000000000 < 2 ^ 61 := by decide

/-- C38, a wrong digest on a 32-bit release build: an engine that stands for 2^32 - 64 bytes gets one
more block.  Its digest is not the one with the true bit count. -/
theorem C38_wrong_digest :
    ∃ e e' d, (Sha256.engine .release32).fromMidstate (List.replicate 32 0) (2 ^ 32 - 64) = .ok e ∧
      (Sha256.engine .release32).input e (List.replicate 64 0) = .ok e' ∧
      (Sha256.engine .release32).nBytesHashed e' = 0 ∧
      (Sha256.engine .release32).finalize e' = .ok d ∧
      d ≠ md256.digestWith (parse8 (List.replicate 32 0)) (List.replicate 64 0) (8 * 2 ^ 32) := by
  have hc : Cfg.release32.Valid := by decide
  obtain ⟨e, h, R⟩ := (Sha256.lawful hc).resume_ok (μ := List.replicate 32 0) (n := 2 ^ 32 - 64)
    (s := (parse8 (List.replicate 32 0), 2 ^ 32 - 64)) ⟨by simp [md256], by decide⟩ rfl
  obtain ⟨e', h', R'⟩ := (Sha256.lawful hc).input_ok (List.replicate 64 0) trivial R rfl
  refine ⟨e, e', _, h, h', (Sha256.lawful hc).count R', (Sha256.lawful hc).digest R', ?_⟩
  decide +kernel

/-! ## C39 -/

theorem paddedTo_eq {B : Nat} (hB : 0 < B) (L n : Nat) : n + 1 + padZeros B L n + L = paddedTo B L n := by
  obtain ⟨q, hq⟩ := padZeros_fills hB L n
  have hlt := padZeros_lt hB L n
  have : (n + 1 + L + (B - 1)) / B = q := by
    have h1 : n + 1 + L + (B - 1) = q * B + (B - 1 - padZeros B L n) := by
      rw [Nat.mul_comm q B, ← hq]; omega
    rw [h1, Nat.mul_comm, Nat.mul_add_div hB, Nat.div_eq_of_lt (by omega)]
    rfl
  rw [paddedTo, this, hq, Nat.mul_comm]

theorem md_limit {H : Type} {P : Md H} {c : Cfg} {r : List Byte → Nat → Res H} (hB : 0 < P.B)
    {e : BlockEngine H} {s : H × Nat} {m : List Byte} (R : MdRel c P e s m)
    {fin : Res (List Byte)} (hfin : fin = (P.log c r).digest s m) :
    (fin = .error .overflow ↔ c.overflowChecks = true ∧
      ¬ (paddedTo P.B P.L e.length < 2 ^ c.usizeBits ∧ 8 * e.length < 2 ^ 64)) ∧
    ((∃ f, fin = .error f) → fin = .error .overflow) := by
  obtain ⟨hd, R⟩ := R
  simp only [Md.log] at hfin
  have key : c.overflowChecks = true →
      s.2 + P.paddedLen m.length = paddedTo P.B P.L e.length ∧ s.2 + m.length = e.length := by
    intro ho
    have hlen : e.length = s.2 + m.length := by rw [R.len, Nat.mod_eq_of_lt (R.nowrap ho)]
    rw [hlen, ← paddedTo_eq hB, ← paddedLen_add hd, Md.paddedLen]
    exact ⟨rfl, rfl⟩
  constructor
  · constructor
    · intro h
      rw [hfin] at h
      split at h
      · next hh =>
        obtain ⟨k1, k2⟩ := key hh.1
        rw [k1, k2] at hh
        exact hh
      · cases h
    · rintro ⟨ho, hh⟩
      obtain ⟨k1, k2⟩ := key ho
      rw [hfin, if_pos ⟨ho, by rw [k1, k2]; exact hh⟩]
  · rintro ⟨f, h⟩
    rw [hfin] at h ⊢
    split at h
    · next hh => rw [if_pos hh]
    · cases h

/-- C39: `finalize` of a reachable engine panics exactly when overflow checks are on and either the
padded length does not fit `usize` or the bit length does not fit `u64`; the panic is the arithmetic
overflow. -/
theorem C39_finalize_panics_iff {c : Cfg} (hc : c.Valid) (a : Alg) (ok : a.Ok c) {B L : Nat}
    (ha : blockAndField a = some (B, L)) {e : (a.engine c).State} (he : Reachable c a e) :
    ((∃ f, (a.engine c).finalize e = .error f) ↔ c.overflowChecks = true ∧
      ¬ (paddedTo B L ((a.engine c).nBytesHashed e) < 2 ^ c.usizeBits ∧
        8 * (a.engine c).nBytesHashed e < 2 ^ 64)) ∧
    ((∃ f, (a.engine c).finalize e = .error f) → (a.engine c).finalize e = .error .overflow) := by
  obtain ⟨k, he⟩ := he
  obtain ⟨s, m, R, _⟩ := he.rel hc ok
  have hfin := (a.lawful hc ok).digest R
  have done : ∀ {x : Res (List Byte)} {p : Prop}, ((x = .error .overflow ↔ p) ∧
      ((∃ f, x = .error f) → x = .error .overflow)) →
      ((∃ f, x = .error f) ↔ p) ∧ ((∃ f, x = .error f) → x = .error .overflow) :=
    fun h => ⟨⟨fun h' => h.1.1 (h.2 h'), fun h' => ⟨_, h.1.2 h'⟩⟩, h.2⟩
  apply done
  cases a with
  | sha1 => cases ha; exact md_limit (P := md1) (by decide) R hfin
  | sha256 => cases ha; exact md_limit (P := md256) (by decide) R hfin
  | sha384 => cases ha; exact md_limit (P := md384) (by decide) R hfin
  | sha512 => cases ha; exact md_limit (P := md512) (by decide) R hfin
  | sha512_256 =>
    cases ha
    exact md_limit (P := md512_256) (r := fun _ _ => .error .expect) (by show 0 < 128; decide) R hfin
  | ripemd160 => cases ha; exact md_limit (P := mdRmd) (by decide) R hfin
  | sha256t mid len data =>
    cases ha
    exact md_limit (P := md256) (r := fun μ _ => .ok (parse8 μ)) (by decide) R hfin
  | siphash24 => cases ha
  | hmac _ => cases ha

/-- Both sides occur: an engine resumed at 2^61 - 64 bytes finalizes, one resumed at 2^61 panics. -/
example :
    (∃ e, Reachable .debug64 .sha256 e ∧ (Sha256.engine .debug64).nBytesHashed e = 2 ^ 61 - 64 ∧
      paddedTo 64 8 (2 ^ 61 - 64) < 2 ^ 64 ∧ 8 * (2 ^ 61 - 64) < 2 ^ 64) ∧
    (∃ e, Reachable .debug64 .sha256 e ∧ (Sha256.engine .debug64).nBytesHashed e = 2 ^ 61 ∧
      (Sha256.engine .debug64).finalize e = .error .overflow) := by
  have hr : Reachable .debug64 .sha256
      ⟨List.replicate 64 0, ⟨0, 0, 0, 0, 0, 0, 0, 0⟩, 2 ^ 61 - 64⟩ :=
    ⟨_, .resume (c := .debug64) (a := .sha256) (μ := List.replicate 32 (0 : Byte)) (n := 2 ^ 61 - 64) ⟨rfl, by decide⟩ rfl⟩
  refine ⟨⟨_, hr, rfl, by decide, by decide⟩, ?_⟩
  have hr : Reachable .debug64 .sha256
      ⟨List.replicate 64 0, ⟨0, 0, 0, 0, 0, 0, 0, 0⟩, 2 ^ 61⟩ :=
    ⟨_, .resume (c := .debug64) (a := .sha256) (μ := List.replicate 32 (0 : Byte)) (n := 2 ^ 61) ⟨rfl, by decide⟩ rfl⟩
  have h := C39_finalize_panics_iff (c := .debug64) (by decide) .sha256 trivial (B := 64) (L := 8) rfl hr
  exact ⟨_, hr, rfl, h.2 (h.1.2 ⟨rfl, by
    rintro ⟨_, h2⟩
    exact absurd h2 (by decide)⟩)⟩

/-- C39: `finalize` of a reachable siphash24 engine never panics. -/
theorem C39_siphash_never_panics {c : Cfg} (hc : c.Valid) {e : Siphash24.Engine}
    (he : Reachable c .siphash24 e) : ∃ d, (Siphash24.engine c).finalize e = .ok d := by
  obtain ⟨k, he⟩ := he
  obtain ⟨s, m, R, _⟩ := he.rel hc (a := .siphash24) trivial
  exact ⟨_, (Siphash24.lawful hc).digest R⟩

example : Reachable .release32 .siphash24 (Siphash24.withKeys 3 4) := ⟨_, .sipKeys 3 4⟩

/-- C39: without overflow checks no engine of the crate ever panics in `input`, `midstate` or
`finalize`, at any length. -/
theorem C39_unchecked_never_panics {c : Cfg} (hc : c.Valid) (a : Alg) (ok : a.Ok c)
    (ho : c.overflowChecks = false) {e : (a.engine c).State} (he : Reachable c a e)
    (ds : List (List Byte)) (hs : ∀ d ∈ ds, d.length < c.usizeMod) :
    ∃ e' μ d, (a.engine c).inputs e ds = .ok e' ∧ (a.engine c).midstate e' = .ok μ ∧
      (a.engine c).finalize e' = .ok d := by
  obtain ⟨k, he⟩ := he
  obtain ⟨s, m, R, _⟩ := he.rel hc ok
  obtain ⟨e', h', R'⟩ := (a.lawful hc ok).inputs_ok ds (fun d hd => a.log_slice (hs d hd)) R
    (acc ho a s _)
  obtain ⟨d, hd⟩ := dig hc ho a ok s (m ++ ds.flatten)
  exact ⟨e', _, d, h', (a.lawful hc ok).mid R', by rw [(a.lawful hc ok).digest R', hd]⟩
where
  acc {c : Cfg} (ho : c.overflowChecks = false) : (a : Alg) → ∀ s n, (a.log c).accepts s n = true
    | .sha1, _, _ | .sha256, _, _ | .sha384, _, _ | .sha512, _, _ | .sha512_256, _, _
    | .ripemd160, _, _ | .siphash24, _, _ => by
        simp only [Alg.log, log1, log256, log384, log512, log512_256, logRmd, Md.log, logSip, ho,
          Bool.not_false, Bool.true_or]
    | .sha256t _ _ _, _, _ => by
        simp only [Alg.log, log256, Md.log, ho, Bool.not_false, Bool.true_or]
    | .hmac a, s, n => acc ho a _ _
  dig {c : Cfg} (hc : c.Valid) (ho : c.overflowChecks = false) : (a : Alg) → a.Ok c → ∀ s m,
      ∃ d, (a.log c).digest s m = .ok d
    | .sha1, _, _, _ | .sha256, _, _, _ | .sha384, _, _, _ | .sha512, _, _, _ | .sha512_256, _, _, _
    | .ripemd160, _, _, _ | .siphash24, _, _, _ => by
        simp [Alg.log, log1, log256, log384, log512, log512_256, logRmd, Md.log, logSip, ho]
    | .sha256t _ _ _, _, _, _ => by simp [Alg.log, log256, Md.log, ho]
    | .hmac a, ok, s, m => by
        obtain ⟨ih, h1⟩ := dig hc ho a ok.1 (HmacStart.inner (Start := (a.log c).Start) s)
          (HmacStart.innerLog (Start := (a.log c).Start) s ++ m)
        obtain ⟨d, h2⟩ := dig hc ho a ok.1 (HmacStart.outer (Start := (a.log c).Start) s)
          (HmacStart.outerLog (Start := (a.log c).Start) s ++ ih)
        refine ⟨d, ?_⟩
        simp only [Alg.log, hmacLog, h1, bind, Except.bind, acc ho a, if_true]
        exact h2

example : Cfg.release32.overflowChecks = false ∧ (Alg.hmac .sha512).Ok .release32 ∧
    Reachable .release32 .sha512 Sha512.Engine.default :=
  ⟨rfl, ⟨trivial, by decide⟩, ⟨_, .new rfl⟩⟩

end Chf.Props
