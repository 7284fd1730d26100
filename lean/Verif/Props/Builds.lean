import Verif.Proofs.Builds
import Verif.Proofs.Sha256Simd

/-!
# Properties C14, C15: results do not depend on the CPU or on `small-hash`
-/

namespace Chf.Props
open Spec

/-! ## C14 -/

/-- C14: the SHA-NI block function and the software one return the same state, without panicking and
without reading outside the block. -/
theorem C14_block (c : Cfg) (block : List Byte) (h : Arr8 (BitVec 32)) (hl : block.length = 64) :
    ∃ h', Sha256.Simd.processBlock block h = .ok h' ∧ Sha256.softwareProcessBlock c block h = .ok h' :=
  ⟨_, Sha256.Simd.processBlock_eq block h hl, Sha256.softwareProcessBlock_eq c block h hl⟩

set_option maxRecDepth 10000 in
example : (List.replicate 64 (0x61 : Byte)).length = 64 ∧
    Sha256.Simd.processBlock (List.replicate 64 0x61) ⟨1, 2, 3, 4, 5, 6, 7, 8⟩ ≠
      .ok ⟨1, 2, 3, 4, 5, 6, 7, 8⟩ := by decide +kernel

/-- C14: whether the CPU has the SHA extensions changes nothing a program can observe of any engine,
however the engine was made: the panics, counts, midstates and digests are the same. -/
theorem C14_programs {c : Cfg} (hc : c.Valid) (a : Alg) (ok : a.Ok c) (mk : Make) (ht : mk.Typed c)
    (ds : List (List Byte)) (hs : ∀ d ∈ ds, d.length < c.usizeMod) :
    a.run { c with shaNi := true } mk ds = a.run { c with shaNi := false } mk ds := by
  have h : SameArith c { c with shaNi := true } := ⟨rfl, rfl⟩
  have h' : SameArith c { c with shaNi := false } := ⟨rfl, rfl⟩
  rw [← Alg.run_same h hc hc a ok mk ht ds hs, Alg.run_same h' hc hc a ok mk ht ds hs]

set_option maxRecDepth 10000 in
example : Cfg.debug64.Valid ∧ Alg.sha256.Ok .debug64 ∧ Make.new.Typed .debug64 ∧
    (∀ d ∈ ([[0x61], [0x62, 0x63]] : List (List Byte)), d.length < Cfg.debug64.usizeMod) ∧
    (match Alg.sha256.run { Cfg.debug64 with shaNi := true } .new [[0x61], [0x62, 0x63]] with
      | some (.ok (n, _, .ok (d : List Byte))) => n == 3 && d.take 4 == [0xba, 0x78, 0x16, 0xbf]
      | _ => false) = true :=
  ⟨by decide, trivial, trivial, by decide, by decide +kernel⟩

/-! ## C15 -/

/-- C15: the feature `small-hash` changes nothing a program can observe of any engine. -/
theorem C15_small_hash {c : Cfg} (hc : c.Valid) (a : Alg) (ok : a.Ok c) (mk : Make)
    (ht : mk.Typed c) (ds : List (List Byte)) (hs : ∀ d ∈ ds, d.length < c.usizeMod) :
    a.run { c with smallHash := true } mk ds = a.run { c with smallHash := false } mk ds := by
  have h : SameArith c { c with smallHash := true } := ⟨rfl, rfl⟩
  have h' : SameArith c { c with smallHash := false } := ⟨rfl, rfl⟩
  rw [← Alg.run_same h hc hc a ok mk ht ds hs, Alg.run_same h' hc hc a ok mk ht ds hs]

set_option maxRecDepth 10000 in
example : Cfg.debug64.Valid ∧ (Alg.hmac .ripemd160).Ok .debug64 ∧ (Make.hmacKey [1]).Typed .debug64 ∧
    (∀ d ∈ ([[2]] : List (List Byte)), d.length < Cfg.debug64.usizeMod) ∧
    (match (Alg.hmac .ripemd160).run { Cfg.debug64 with smallHash := true } (.hmacKey [1]) [[2]] with
      | some (.ok (n, .ok (.pair _ _), .ok (d : List Byte))) => n == 65 && d.length == 20
      | _ => false) = true :=
  ⟨by decide, ⟨trivial, by decide⟩, by show 1 < _; decide, by decide, by decide +kernel⟩

/-- C15 for the block functions of SHA-256, SHA-512 and RIPEMD-160. -/
theorem C15_blocks (c : Cfg) :
    (∀ block h, block.length = 64 → ∃ h',
      Sha256.softwareProcessBlock { c with smallHash := true } block h = .ok h' ∧
      Sha256.softwareProcessBlock { c with smallHash := false } block h = .ok h') ∧
    (∀ block h, block.length = 128 → ∃ h',
      Sha512.processBlock { c with smallHash := true } block h = .ok h' ∧
      Sha512.processBlock { c with smallHash := false } block h = .ok h') ∧
    (∀ block h, block.length = 64 → ∃ h',
      Ripemd160.processBlock { c with smallHash := true } block h = .ok h' ∧
      Ripemd160.processBlock { c with smallHash := false } block h = .ok h') :=
  ⟨fun b h hl => ⟨_, Sha256.softwareProcessBlock_eq _ b h hl, Sha256.softwareProcessBlock_eq _ b h hl⟩,
   fun b h hl => ⟨_, Sha512.processBlock_eq _ b h hl, Sha512.processBlock_eq _ b h hl⟩,
   fun b h hl => ⟨_, Ripemd160.processBlock_eq _ b h hl, Ripemd160.processBlock_eq _ b h hl⟩⟩

/-- C15, more generally: two builds with the same `usize` and the same overflow checks run every
program alike, whatever their debug assertions, features, CPU and endianness. -/
theorem C15_builds {c c' : Cfg} (hb : c.usizeBits = c'.usizeBits)
    (ho : c.overflowChecks = c'.overflowChecks) (hc : c.Valid) (a : Alg) (ok : a.Ok c) (mk : Make)
    (ht : mk.Typed c) (ds : List (List Byte)) (hs : ∀ d ∈ ds, d.length < c.usizeMod) :
    a.run c mk ds = a.run c' mk ds :=
  Alg.run_same ⟨hb, ho⟩ hc (by unfold Cfg.Valid at *; rwa [← hb]) a ok mk ht ds hs

example : Cfg.release64.usizeBits = { Cfg.release64 with shaNi := false, bigEndian := true }.usizeBits ∧
    Cfg.release64 ≠ { Cfg.release64 with shaNi := false, bigEndian := true } ∧
    Cfg.release64.Valid ∧ Alg.siphash24.Ok .release64 ∧ (Make.sipKeys 1 2).Typed .release64 ∧
    Alg.siphash24.run .release64 (.sipKeys 1 2) [[3]] ≠ none := by
  refine ⟨rfl, by decide, by decide, trivial, trivial, by decide⟩

end Chf.Props
