import Verif.Model.Engine
import Verif.Spec.Sha2
import Verif.Spec.Sha1
import Verif.Spec.Ripemd160
import Verif.Spec.Siphash

/-!
# Specification: an engine is a start and a list of bytes

`LogSpec` says what every observer of an engine returns as a function of where the engine started and
of the bytes input since.  It knows nothing about buffers.  `LogSpec.engine` turns it into something
with the interface of `HashEngine`, whose state is just that log, so that whole histories can be
compared.
-/

namespace Chf.Spec

/-- What the observers of an engine return. -/
structure LogSpec (Mid : Type) where
  /-- Where a log can start. -/
  Start : Type
  /-- The log of `HashEngine::new()`. -/
  fresh : Start × List Byte
  /-- The lengths of the slices that can be input. -/
  slice : Nat → Prop
  /-- The number of bytes of a digest. -/
  outLen : Nat
  /-- Whether a log may grow to `n` bytes; if not, `input` panics. -/
  accepts : Start → Nat → Bool
  /-- `n_bytes_hashed` of a log of `n` bytes. -/
  count : Start → Nat → Nat
  /-- `midstate`. -/
  mid : Start → List Byte → Mid
  /-- `finalize`. -/
  digest : Start → List Byte → Res (List Byte)
  /-- The values that inhabit the Rust types of `from_midstate`'s arguments. -/
  typed : Mid → Nat → Prop
  /-- `from_midstate`. -/
  resume : Mid → Nat → Res Start

/-- The engine whose state is the log itself. -/
def LogSpec.engine {Mid : Type} (S : LogSpec Mid) (blockSize : Nat) : HashEngine where
  State := S.Start × List Byte
  Midstate := Mid
  blockSize := blockSize
  default := .ok S.fresh
  new := .ok S.fresh
  input e d := if S.accepts e.1 (e.2.length + d.length) then .ok (e.1, e.2 ++ d) else .error .overflow
  nBytesHashed e := S.count e.1 e.2.length
  finalize e := S.digest e.1 e.2
  midstate e := .ok (S.mid e.1 e.2)
  fromMidstate m n := do
    let s ← S.resume m n
    pure (s, [])

/-! ## Merkle-Damgård engines -/

/-- A Merkle-Damgård hash function: block size, size and encoding of the length field, compression
function, initial value, serialization of a chaining value, and number of digest bytes. -/
structure Md (H : Type) where
  B : Nat
  L : Nat
  enc : Nat → Nat → List Byte
  compress : H → List Byte → H
  iv : H
  words : H → List Byte
  out : Nat

namespace Md
variable {H : Type} (P : Md H)

/-- The standard hash of a message. -/
def hash (m : List Byte) : List Byte :=
  (P.words (chain P.B P.compress P.iv (pad P.B P.L P.enc m))).take P.out

/-- The length in bytes of the padded message. -/
def paddedLen (n : Nat) : Nat := n + 1 + padZeros P.B P.L n + P.L

/-- The message followed by the standard's padding, except that the length field holds `bits`. -/
def padWith (m : List Byte) (bits : Nat) : List Byte :=
  m ++ [0x80] ++ List.replicate (padZeros P.B P.L m.length) 0 ++ P.enc P.L bits

/-- The digest computed from chaining value `h` for the message `m` when the length field is made to
hold `bits`. -/
def digestWith (h : H) (m : List Byte) (bits : Nat) : List Byte :=
  (P.words (chain P.B P.compress h
    (m ++ [0x80] ++ List.replicate (padZeros P.B P.L m.length) 0 ++ P.enc P.L bits))).take P.out

/-- The log specification.  A start is a chaining value and a byte count.  The counter is a `usize`:
it panics or wraps at `2 ^ usizeBits` depending on overflow checks.  `finalize` panics if overflow
checks are on and the padded length does not fit the counter or the bit count does not fit 64 bits.
The length field holds the bit count modulo `2 ^ 64`. -/
def log (c : Cfg) (resume : List Byte → Nat → Res H) : LogSpec (List Byte) where
  Start := H × Nat
  fresh := ((P.iv, 0), [])
  slice _ := True
  outLen := P.out
  accepts s n := !c.overflowChecks || decide (s.2 + n < 2 ^ c.usizeBits)
  count s n := (s.2 + n) % 2 ^ c.usizeBits
  mid s m := P.words (chain P.B P.compress s.1 m)
  digest s m :=
    if c.overflowChecks = true ∧
        ¬ (s.2 + P.paddedLen m.length < 2 ^ c.usizeBits ∧ 8 * (s.2 + m.length) < 2 ^ 64)
    then .error .overflow
    else .ok (P.digestWith s.1 m (8 * ((s.2 + m.length) % 2 ^ c.usizeBits) % 2 ^ 64))
  typed μ n := μ.length = (P.words P.iv).length ∧ n < 2 ^ c.usizeBits
  resume μ n := do
    let h ← if n % P.B = 0 then resume μ n else .error .assertion
    pure (h, n)

end Md

/-- Eight big-endian words. -/
def parse8 (bs : List Byte) : Arr8 (BitVec 32) :=
  let w := beWords 32 bs
  ⟨w.getD 0 0, w.getD 1 0, w.getD 2 0, w.getD 3 0, w.getD 4 0, w.getD 5 0, w.getD 6 0, w.getD 7 0⟩

/-- Five big-endian words. -/
def parse5 (bs : List Byte) : Arr5 (BitVec 32) :=
  let w := beWords 32 bs
  ⟨w.getD 0 0, w.getD 1 0, w.getD 2 0, w.getD 3 0, w.getD 4 0⟩

/-- SHA-256. -/
def md256 : Md (Arr8 (BitVec 32)) where
  B := 64
  L := 8
  enc := beBytes
  compress := compress256
  iv := iv256
  words := serialize8
  out := 32

/-- SHA-1. -/
def md1 : Md (Arr5 (BitVec 32)) where
  B := 64
  L := 8
  enc := beBytes
  compress := compress1
  iv := iv1
  words := serialize5
  out := 20

/-- SHA-512. -/
def md512 : Md (Arr8 (BitVec 64)) where
  B := 128
  L := 16
  enc := beBytes
  compress := compress512
  iv := iv512
  words := serialize8
  out := 64

/-- SHA-384. -/
def md384 : Md (Arr8 (BitVec 64)) := { md512 with iv := iv384, out := 48 }

/-- SHA-512/256. -/
def md512_256 : Md (Arr8 (BitVec 64)) := { md512 with iv := iv512_256, out := 32 }

/-- RIPEMD-160. -/
def mdRmd : Md (Arr5 (BitVec 32)) where
  B := 64
  L := 8
  enc := leBytes
  compress := compressRmd
  iv := ivRmd
  words := serializeRmd
  out := 20

/-- The sha256 engine: a midstate is eight big-endian words. -/
def log256 (c : Cfg) : LogSpec (List Byte) := md256.log c fun μ _ => .ok (parse8 μ)
/-- The sha1 engine: a midstate is five big-endian words. -/
def log1 (c : Cfg) : LogSpec (List Byte) := md1.log c fun μ _ => .ok (parse5 μ)
/-- The sha512 engine: the code's `from_midstate` always panics. -/
def log512 (c : Cfg) : LogSpec (List Byte) := md512.log c fun _ _ => .error .expect
/-- The sha384 engine. -/
def log384 (c : Cfg) : LogSpec (List Byte) := md384.log c fun _ _ => .error .expect
/-- The sha512_256 engine. -/
def log512_256 (c : Cfg) : LogSpec (List Byte) := md512_256.log c fun _ _ => .error .expect
/-- The ripemd160 engine: midstates are written little-endian but read big-endian. -/
def logRmd (c : Cfg) : LogSpec (List Byte) := mdRmd.log c fun μ _ => .ok (parse5 μ)

/-! ## SipHash -/

/-- A SipHash log starts from two key words, which are only reported back, and a state. -/
structure SipStart where
  k0 : BitVec 64
  k1 : BitVec 64
  v : Sip

/-- SipHash-2-4 of `m` from a given internal state. -/
def sipFrom (v : Sip) (m : List Byte) : BitVec 64 :=
  sipFinish ((leWords 64 (sipPad m)).foldl sipAbsorb v)

/-- The siphash24 engine.  A slice is shorter than `2 ^ usizeBits`, as in Rust.  Midstates are
`Sip` values translated by `enc` and `dec`.  The code's `from_midstate` ignores the length and resets
the keys.  The digest is that of SipHash even if the byte counter has wrapped, because only its low
byte is used. -/
def logSip (c : Cfg) {Mid : Type} (enc : Sip → Mid) (dec : Mid → Sip) : LogSpec Mid where
  Start := SipStart
  fresh := (⟨0, 0, sipInit 0 0⟩, [])
  slice n := n < 2 ^ c.usizeBits
  outLen := 8
  accepts _ n := !c.overflowChecks || decide (n < 2 ^ c.usizeBits)
  count _ n := n % 2 ^ c.usizeBits
  mid s m := enc ((leWords 64 m).foldl sipAbsorb s.v)
  digest s m := .ok (leBytes 8 (sipFrom s.v m).toNat)
  typed _ n := n < 2 ^ c.usizeBits
  resume μ _ := .ok ⟨0, 0, dec μ⟩

/-! ## HMAC -/

/-- An HMAC log starts from an inner and an outer log of the underlying engine. -/
structure HmacStart (Start : Type) where
  inner : Start
  innerLog : List Byte
  outer : Start
  outerLog : List Byte

/-- The HMAC start of a `B`-byte key block over an engine whose fresh log is `fresh`. -/
def HmacStart.ofKey {Start : Type} (fresh : Start × List Byte) (k : List Byte) : HmacStart Start where
  inner := fresh.1
  innerLog := fresh.2 ++ k.map (· ^^^ 0x36)
  outer := fresh.1
  outerLog := fresh.2 ++ k.map (· ^^^ 0x5c)

/-- The hmac engine over an engine with log `S` and block size `B`.  A midstate is a pair, built by
`mk` and taken apart by `inner` and `outer`.  The code resumes both halves with the same length. -/
def hmacLog {M Mid : Type} (S : LogSpec M) (B : Nat) (mk : M → M → Mid) (inner outer : Mid → M) :
    LogSpec Mid where
  Start := HmacStart S.Start
  fresh := (.ofKey S.fresh (List.replicate B 0), [])
  slice := S.slice
  outLen := S.outLen
  accepts s n := S.accepts s.inner (s.innerLog.length + n)
  count s n := S.count s.inner (s.innerLog.length + n)
  mid s m := mk (S.mid s.inner (s.innerLog ++ m)) (S.mid s.outer s.outerLog)
  digest s m := do
    let ih ← S.digest s.inner (s.innerLog ++ m)
    if S.accepts s.outer (s.outerLog.length + ih.length) then S.digest s.outer (s.outerLog ++ ih)
    else .error .overflow
  typed μ n := S.typed (inner μ) n ∧ S.typed (outer μ) n
  resume μ n := do
    let i ← S.resume (inner μ) n
    let o ← S.resume (outer μ) n
    pure ⟨i, [], o, []⟩

end Chf.Spec
