import Verif.Model.Hex

/-!
# Hash values

The types `sha1::Hash`, `sha256::Hash`, ..., made by the macro `hash_type!`
(`/repo/src/internal_macros.rs` 141-244; its traits: `hash_trait_impls!` 102-130), `sha256t::Hash<T>` (`/repo/src/sha256t.rs` 51-169),
`hmac::Hash<N>` (`/repo/src/hmac.rs` 17-183) and `sha256::Midstate` (`/repo/src/sha256.rs` 123-188),
with their conversions, comparison, formatting, parsing, `serde` and `schemars` implementations.

References are modelled by the values they refer to.  The pointer casts of `from_bytes_ref` and
`from_bytes_mut` are modelled as the identity on bytes, which for `hmac::Hash` rests on a layout that
Rust does not promise, since that type is not `repr(transparent)`.
-/

namespace Chf

/-- `FromSliceError`, `lib.rs` 200-207. -/
structure FromSliceError where
  expected : Nat
  got : Nat
  deriving DecidableEq, Repr

namespace FromSliceError

/-- `new`, `lib.rs` 211. -/
def new (got expected : Nat) : FromSliceError := { got := got, expected := expected }

/-- `expected_length`, `lib.rs` 214. -/
def expectedLength (e : FromSliceError) : Nat := e.expected

/-- `invalid_length`, `lib.rs` 217. -/
def invalidLength (e : FromSliceError) : Nat := e.got

/-- `Display`, `lib.rs` 220-224. -/
def display (e : FromSliceError) : String :=
  "invalid slice length " ++ toString e.got ++ " (expected " ++ toString e.expected ++ ")"

end FromSliceError

/-- The hash types of the crate. -/
inductive HashTy where
  | sha1 | sha256 | sha384 | sha512 | sha512_256 | ripemd160 | siphash24
  /-- `sha256t::Hash<T>`; the tag does not occur in the value. -/
  | sha256t
  /-- `hmac::Hash<N>` -/
  | hmac (N : Nat)
  /-- `sha256::Midstate` -/
  | midstate
  deriving DecidableEq, Repr

namespace HashTy

/-- How a type is implemented. -/
inductive Source where
  /-- By `hash_type!` with this number of bits: `sha1.rs` 10, `sha256.rs` 16, `sha384.rs` 10,
  `sha512.rs` 10, `sha512_256.rs` 15, `ripemd160.rs` 10, `siphash24.rs` 10. -/
  | macro (bits : Nat)
  | tagged
  | hmac (N : Nat)
  | midstate

def source : HashTy → Source
  | .sha1 => .macro 160
  | .sha256 => .macro 256
  | .sha384 => .macro 384
  | .sha512 => .macro 512
  | .sha512_256 => .macro 256
  | .ripemd160 => .macro 160
  | .siphash24 => .macro 64
  | .sha256t => .tagged
  | .hmac N => .hmac N
  | .midstate => .midstate

/-- The length of the array in the type: `$bits / 8`, 32, `N`, 32. -/
def Source.len : Source → Nat
  | .macro bits => bits / 8
  | .tagged => 32
  | .hmac N => N
  | .midstate => 32

/-- `LEN`. -/
def len (t : HashTy) : Nat := t.source.len

/-- A hash value: a newtype around `[u8; LEN]`. -/
structure Hash (s : Source) where
  inner : Bytes s.len
  deriving DecidableEq

/-! ## Slices and arrays -/

/-- `let mut ret = [0; N]; ret.copy_from_slice(sl);` -/
def copyNew (N : Nat) (sl : List Byte) : Res (Bytes N) :=
  if h : sl.length = N then .ok ⟨sl, h⟩ else .error .copyLen

/-- `from_slice`. -/
def fromSlice : (s : Source) → List Byte → Res (Except FromSliceError (Hash s))
  -- `internal_macros.rs` 190-198
  | .macro bits, sl =>
      if sl.length ≠ bits / 8 then .ok (.error { expected := bits / 8, got := sl.length })
      else do
        let ret ← copyNew (bits / 8) sl
        pure (.ok ⟨ret⟩)
  -- `sha256t.rs` 97-105
  | .tagged, sl =>
      if sl.length ≠ 32 then .ok (.error { expected := 32, got := sl.length })
      else do
        let ret ← copyNew 32 sl
        pure (.ok ⟨ret⟩)
  -- `hmac.rs` 56-64
  | .hmac N, sl =>
      if sl.length ≠ N then .ok (.error { expected := N, got := sl.length })
      else do
        let ret ← copyNew N sl
        pure (.ok ⟨ret⟩)
  -- `sha256.rs` 151-159
  | .midstate, sl =>
      if sl.length ≠ 32 then .ok (.error { expected := 32, got := sl.length })
      else do
        let ret ← copyNew 32 sl
        pure (.ok ⟨ret⟩)

variable {s : Source}

/-- `from_byte_array`: `internal_macros.rs` 201, `sha256t.rs` 108, `hmac.rs` 67, `sha256.rs` 148. -/
def fromByteArray (bytes : Bytes s.len) : Hash s := ⟨bytes⟩

/-- `to_byte_array`: `internal_macros.rs` 204, `sha256t.rs` 111, `hmac.rs` 70, `sha256.rs` 162. -/
def toByteArray (h : Hash s) : Bytes s.len := h.inner

/-- `as_byte_array` and `AsRef<[u8; LEN]>`: `internal_macros.rs` 207 and 119, `sha256t.rs` 114,
`hmac.rs` 73. -/
def asByteArray (h : Hash s) : Bytes s.len := h.inner

/-- `as_bytes`: `internal_macros.rs` 211, `sha256t.rs` 117, `hmac.rs` 76. -/
def asBytes (h : Hash s) : List Byte := h.inner.val

/-- `to_bytes`: `internal_macros.rs` 216, `sha256t.rs` 121, `hmac.rs` 80. -/
def toBytes (h : Hash s) : List Byte := h.inner.val

/-- `from_bytes_ref`: `internal_macros.rs` 177-180, `sha256t.rs` 84-87, `hmac.rs` 43-46. -/
def fromBytesRef (bytes : Bytes s.len) : Hash s := ⟨bytes⟩

/-- `from_bytes_mut`: `internal_macros.rs` 184-187, `sha256t.rs` 91-94, `hmac.rs` 50-53.  The
result is what the reference points to, and how an assignment through it changes the array. -/
def fromBytesMut (bytes : Bytes s.len) : Hash s × (Hash s → Bytes s.len) := (⟨bytes⟩, fun h => h.inner)

/-- `all_zeros`: `internal_macros.rs` 223, `sha256t.rs` 128, `hmac.rs` 87; `Default` of
`sha256t::Hash`, `sha256t.rs` 154-156, and the derived one of `Midstate`. -/
def allZeros : Hash s := ⟨⟨List.replicate s.len 0, List.length_replicate ..⟩⟩

/-- An index expression `h[i]`, `h[i..j]`, `h[i..]`, `h[..j]`, `h[..]`. -/
inductive Idx where
  | at (i : Nat)
  | range (i j : Nat)
  | rangeFrom (i : Nat)
  | rangeTo (j : Nat)
  | full

/-- Indexing a slice, as in `core`. -/
def sliceIndex (bs : List Byte) : Idx → Res (List Byte)
  | .at i => do
      let b ← Chf.index bs i
      pure [b]
  | .range i j => if i ≤ j ∧ j ≤ bs.length then .ok ((bs.drop i).take (j - i)) else .error .sliceIndex
  | .rangeFrom i => sliceFrom bs i
  | .rangeTo j => sliceTo bs j
  | .full => .ok bs

/-- `Index::index`: `internal_macros.rs` 122-127, `sha256.rs` 131-136, `hmac.rs` 136-159. -/
def index (h : Hash s) (i : Idx) : Res (List Byte) := sliceIndex h.inner.val i

/-- `AsRef<[u8]>`: `&self[..]` in `internal_macros.rs` 12, `&self.0` in `hmac.rs` 162. -/
def asRef : {s : Source} → Hash s → Res (List Byte)
  | .macro _, h => index h .full
  | .tagged, h => index h .full
  | .hmac _, h => .ok h.inner.val
  | .midstate, h => index h .full

/-! ## Comparison -/

/-- The fields that `#[derive(..)]` goes through: all hash types have one that is not a `PhantomData`. -/
def fields (h : Hash s) : List (List Byte) := [h.inner.val]

/-- `==` as `#[derive(PartialEq)]` writes it: all fields are equal. -/
def derivedEq : List (List Byte) → List (List Byte) → Bool
  | x :: xs, y :: ys => x == y && derivedEq xs ys
  | _, _ => true

/-- `Ord::cmp` of slices in `core`: lexicographic, then by length. -/
def cmpSlice : List Byte → List Byte → Ordering
  | [], [] => .eq
  | [], _ :: _ => .lt
  | _ :: _, [] => .gt
  | x :: xs, y :: ys => if x < y then .lt else if y < x then .gt else cmpSlice xs ys

/-- `Ord::cmp` as `#[derive(Ord)]` writes it: the first fields that are not equal decide. -/
def derivedCmp : List (List Byte) → List (List Byte) → Ordering
  | x :: xs, y :: ys =>
      match cmpSlice x y with
      | .eq => derivedCmp xs ys
      | o => o
  | _, _ => .eq

/-- `PartialOrd::partial_cmp` as `#[derive(PartialOrd)]` writes it. -/
def derivedPartialCmp : List (List Byte) → List (List Byte) → Option Ordering
  | x :: xs, y :: ys =>
      match some (cmpSlice x y) with
      | some .eq => derivedPartialCmp xs ys
      | o => o
  | _, _ => some .eq

/-- `==`: derived in `internal_macros.rs` 144, `hmac.rs` 18 and `sha256.rs` 124, by hand in `sha256t.rs`
150-152. -/
def eq : {s : Source} → Hash s → Hash s → Bool
  | .tagged, a, b => a.inner.val == b.inner.val
  | _, a, b => derivedEq (fields a) (fields b)

/-- `Ord::cmp`: derived, or by hand in `sha256t.rs` 162-164. -/
def cmp : {s : Source} → Hash s → Hash s → Ordering
  | .tagged, a, b => cmpSlice a.inner.val b.inner.val
  | _, a, b => derivedCmp (fields a) (fields b)

/-- `PartialOrd::partial_cmp`: derived, or by hand in `sha256t.rs` 157-161. -/
def partialCmp : {s : Source} → Hash s → Hash s → Option Ordering
  | .tagged, a, b => some (cmp a b)
  | _, a, b => derivedPartialCmp (fields a) (fields b)

/-! ## Formatting and parsing -/

/-- `LowerHex` and `UpperHex`: `internal_macros.rs` 52-64, `hmac.rs` 123-135. -/
def fmtHex (f : Hex.Flags) (case : Hex.Case) : {s : Source} → Hash s → Res (List Byte)
  | .macro bits, h => Hex.fmtHexExact f (bits / 8) h.inner.val case
  | .tagged, h => Hex.fmtHexExact f (256 / 8) h.inner.val case
  | .hmac _, h => .ok (Hex.fmtByteSlice f h.inner.val case)
  | .midstate, h => Hex.fmtHexExact f 32 h.inner.val case

/-- `Display`: `internal_macros.rs` 66-71, `hmac.rs` 115-117. -/
def display (f : Hex.Flags) (h : Hash s) : Res (List Byte) := fmtHex f .lower h

/-- `Debug`: `internal_macros.rs` 73-78, `hmac.rs` 119-121.  `write!(f, "{:#}", self)` makes its own
flags, so those of the caller do not matter. -/
def debug (_ : Hex.Flags) (h : Hash s) : Res (List Byte) := display { alternate := true } h

/-- `format!("{}", h)`. -/
def toStr (h : Hash s) : Res (List Byte) := display { alternate := false } h

/-- `FromStr`: `internal_macros.rs` 104-112, `hmac.rs` 105-113, `sha256.rs` 138-141 with 181-188. -/
def fromStr : (s : Source) → List Byte → Res (Except Hex.Error (Hash s))
  | .macro bits, str => do
      match ← Hex.fromHex (bits / 8) str with
      | .error e => pure (.error e)
      | .ok bytes => pure (.ok (fromByteArray (s := .macro bits) bytes))
  | .tagged, str => do
      match ← Hex.fromHex (256 / 8) str with
      | .error e => pure (.error e)
      | .ok bytes => pure (.ok (fromByteArray (s := .tagged) (show Bytes 32 from bytes)))
  | .hmac N, str => do
      match ← Hex.fromHex N str with
      | .error e => pure (.error e)
      | .ok bytes => pure (.ok (fromByteArray (s := .hmac N) bytes))
  | .midstate, str => do
      match ← Hex.fromHex 32 str with
      | .error e => pure (.error e)
      | .ok bytes => pure (.ok ⟨bytes⟩)

end HashTy
end Chf
