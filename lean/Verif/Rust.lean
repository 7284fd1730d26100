/-!
# The fragment of Rust used by the model

Bytes and machine words are `BitVec`s, arrays and slices are `List`s, a `usize` value is a `Nat`
that is kept below `2 ^ usizeBits`, and `&mut self` methods return the new value.  Everything that
can panic returns `Res α = Except Fault α`.  Rust's semantics is taken from the Rust reference:
arithmetic overflow panics when overflow checks are on and wraps when they are off, slice indexing
and `copy_from_slice` panic in every profile, `debug_assert!` panics only with debug assertions on.
-/

namespace Chf

/-- `u8`. -/
abbrev Byte := BitVec 8

/-- Why a call did not return normally.  `ub` marks an out-of-bounds unchecked read and `fuel` marks
a loop that ran out of the model's iteration budget; both are proved unreachable. -/
inductive Fault where
  | overflow | assertion | debugAssertion | sliceIndex | copyLen | expect | unreachable | ub | fuel
  deriving DecidableEq, Repr

/-- Result of a computation that may panic. -/
abbrev Res (α : Type) := Except Fault α

deriving instance DecidableEq for Except

/-- Build configuration and target.  `usizeBits` is the width of `usize`, `shaNi` says that the x86
SHA extensions are compiled in and detected at run time. -/
structure Cfg where
  usizeBits : Nat
  overflowChecks : Bool
  debugAssertions : Bool
  smallHash : Bool
  shaNi : Bool
  bigEndian : Bool
  deriving DecidableEq, Repr

/-- The `usize` widths Rust supports. -/
def Cfg.Valid (c : Cfg) : Prop := c.usizeBits = 16 ∨ c.usizeBits = 32 ∨ c.usizeBits = 64

instance (c : Cfg) : Decidable c.Valid := by unfold Cfg.Valid; infer_instance

/-- A 64-bit little-endian development build on a CPU without SHA extensions. -/
def Cfg.debug64 : Cfg where
  usizeBits := 64
  overflowChecks := true
  debugAssertions := true
  smallHash := false
  shaNi := false
  bigEndian := false

/-- A 64-bit release build on a CPU with SHA extensions. -/
def Cfg.release64 : Cfg :=
  { Cfg.debug64 with overflowChecks := false, debugAssertions := false, shaNi := true }

/-- A 32-bit release build. -/
def Cfg.release32 : Cfg :=
  { Cfg.debug64 with usizeBits := 32, overflowChecks := false, debugAssertions := false }

/-- Number of values of `usize`. -/
def Cfg.usizeMod (c : Cfg) : Nat := 2 ^ c.usizeBits

/-- A fixed-size array `[T; 8]`, also used for the eight named registers. -/
structure Arr8 (α : Type) where
  x0 : α
  x1 : α
  x2 : α
  x3 : α
  x4 : α
  x5 : α
  x6 : α
  x7 : α
  deriving DecidableEq, Repr

/-- A fixed-size array `[T; 5]`. -/
structure Arr5 (α : Type) where
  x0 : α
  x1 : α
  x2 : α
  x3 : α
  x4 : α
  deriving DecidableEq, Repr

def Arr8.toList {α} (s : Arr8 α) : List α := [s.x0, s.x1, s.x2, s.x3, s.x4, s.x5, s.x6, s.x7]
def Arr5.toList {α} (s : Arr5 α) : List α := [s.x0, s.x1, s.x2, s.x3, s.x4]

/-- A list of the array's length as an array. Any other length is reported as a fault; the model
only calls this on lists built by updating an array in place. -/
def Arr8.ofList {α} : List α → Res (Arr8 α)
  | [a, b, c, d, e, f, g, h] => .ok ⟨a, b, c, d, e, f, g, h⟩
  | _ => .error .unreachable

def Arr5.ofList {α} : List α → Res (Arr5 α)
  | [a, b, c, d, e] => .ok ⟨a, b, c, d, e⟩
  | _ => .error .unreachable

/-! ## Integer arithmetic -/

/-- `a + b` on `usize`. -/
def addUsize (c : Cfg) (a b : Nat) : Res Nat :=
  if a + b < c.usizeMod then .ok (a + b)
  else if c.overflowChecks then .error .overflow
  else .ok ((a + b) % c.usizeMod)

/-- `a - b` on `usize`. -/
def subUsize (c : Cfg) (a b : Nat) : Res Nat :=
  if b ≤ a then .ok (a - b)
  else if c.overflowChecks then .error .overflow
  else .ok ((c.usizeMod + a - b) % c.usizeMod)

/-- `a * b` on `usize`. -/
def mulUsize (c : Cfg) (a b : Nat) : Res Nat :=
  if a * b < c.usizeMod then .ok (a * b)
  else if c.overflowChecks then .error .overflow
  else .ok ((a * b) % c.usizeMod)

/-- `a * b` on `u64`. -/
def mulU64 (c : Cfg) (a b : BitVec 64) : Res (BitVec 64) :=
  if a.toNat * b.toNat < 2 ^ 64 then .ok (a * b)
  else if c.overflowChecks then .error .overflow
  else .ok (a * b)

/-- `a << n` on `u64` with a `usize` shift amount. -/
def shlU64 (c : Cfg) (a : BitVec 64) (n : Nat) : Res (BitVec 64) :=
  if n < 64 then .ok (a <<< n)
  else if c.overflowChecks then .error .overflow
  else .ok (a <<< (n % 64))

/-- `x as u64` for a `usize`. -/
def asU64 (n : Nat) : BitVec 64 := BitVec.ofNat 64 n

/-! ## Assertions -/

/-- `assert!(b)`. -/
def assertR (b : Bool) : Res Unit := if b then .ok () else .error .assertion

/-- `debug_assert!(b)`. -/
def debugAssert (c : Cfg) (b : Bool) : Res Unit :=
  if c.debugAssertions && !b then .error .debugAssertion else .ok ()

/-! ## Slices -/

/-- `s[i]` for reading. -/
def index {α} (s : List α) (i : Nat) : Res α :=
  match s[i]? with
  | some x => .ok x
  | none => .error .sliceIndex

/-- `s[i] = x`. -/
def indexSet {α} (s : List α) (i : Nat) (x : α) : Res (List α) :=
  if i < s.length then .ok (s.set i x) else .error .sliceIndex

/-- `&s[..n]`. -/
def sliceTo {α} (s : List α) (n : Nat) : Res (List α) :=
  if n ≤ s.length then .ok (s.take n) else .error .sliceIndex

/-- `&s[n..]`. -/
def sliceFrom {α} (s : List α) (n : Nat) : Res (List α) :=
  if n ≤ s.length then .ok (s.drop n) else .error .sliceIndex

/-- `dst[i..j].copy_from_slice(src)`. -/
def copyIntoRange {α} (dst : List α) (i j : Nat) (src : List α) : Res (List α) :=
  if i ≤ j ∧ j ≤ dst.length then
    if src.length = j - i then .ok (dst.take i ++ src ++ dst.drop j) else .error .copyLen
  else .error .sliceIndex

/-- `s.chunks_exact(n)`: the full chunks of length `n`, in order (the remainder is dropped). -/
def chunksExact {α} (n : Nat) (s : List α) : List (List α) :=
  (List.range (s.length / n)).map fun i => (s.drop (i * n)).take n

/-- `for (x, y) in xs.iter_mut().zip(ys) { *x = f(y)?; }`: overwrites elements of `xs` from the
front while both sequences last, running `f` in order. -/
def fillZip {α β} (f : β → Res α) : List α → List β → Res (List α)
  | _ :: xs, y :: ys => do
      let v ← f y
      let rest ← fillZip f xs ys
      pure (v :: rest)
  | xs, _ => .ok xs

/-- `for (v, chunk) in vals.iter().zip(ret.chunks_exact_mut(k)) { chunk.copy_from_slice(&enc(v)); }`,
returning the new contents of `ret`.  The copy panics if `enc(v)` does not have `k` bytes. -/
def storeZip {α} (k : Nat) (enc : α → List Byte) : List α → List Byte → Res (List Byte)
  | [], ret => .ok ret
  | v :: vs, ret =>
      if ret.length < k then .ok ret
      else if (enc v).length = k then do
        let rest ← storeZip k enc vs (ret.drop k)
        pure (enc v ++ rest)
      else .error .copyLen

/-! ## Bytes of integers -/

/-- The `n` low bytes of `x`, least significant first. -/
def leOfNat : Nat → Nat → List Byte
  | 0, _ => []
  | n + 1, x => BitVec.ofNat 8 x :: leOfNat n (x / 256)

/-- The number whose little-endian bytes are given. -/
def natOfLe : List Byte → Nat
  | [] => 0
  | b :: bs => b.toNat + 256 * natOfLe bs

/-- `u32::to_be_bytes`. -/
def be32 (x : BitVec 32) : List Byte := (leOfNat 4 x.toNat).reverse
/-- `u32::to_le_bytes`. -/
def le32 (x : BitVec 32) : List Byte := leOfNat 4 x.toNat
/-- `u64::to_be_bytes`. -/
def be64 (x : BitVec 64) : List Byte := (leOfNat 8 x.toNat).reverse
/-- `u64::to_le_bytes`. -/
def le64 (x : BitVec 64) : List Byte := leOfNat 8 x.toNat

/-- `u32::from_be_bytes(s.try_into().expect(..))`: the conversion `&[u8] -> [u8; 4]` fails unless
the slice has exactly four bytes. -/
def fromBe32 (s : List Byte) : Res (BitVec 32) :=
  if s.length = 4 then .ok (BitVec.ofNat 32 (natOfLe s.reverse)) else .error .expect
/-- `u32::from_le_bytes(s.try_into().expect(..))`. -/
def fromLe32 (s : List Byte) : Res (BitVec 32) :=
  if s.length = 4 then .ok (BitVec.ofNat 32 (natOfLe s)) else .error .expect
/-- `u64::from_be_bytes(s.try_into().expect(..))`. -/
def fromBe64 (s : List Byte) : Res (BitVec 64) :=
  if s.length = 8 then .ok (BitVec.ofNat 64 (natOfLe s.reverse)) else .error .expect
/-- `u64::from_le_bytes(s.try_into().expect(..))`. -/
def fromLe64 (s : List Byte) : Res (BitVec 64) :=
  if s.length = 8 then .ok (BitVec.ofNat 64 (natOfLe s)) else .error .expect

end Chf
