import Verif.Rust

/-!
# The parts of the `hex-conservative` crate that the code calls

`/repo/Cargo.toml` 31 depends on `hex-conservative` 0.2.0.  Its source is not in `/repo`: this file
writes down the behaviour that the crate documents.  Nothing in it is proved about the crate itself.

A `&str` is the list of its UTF-8 bytes.  A `[u8; N]` is a list of `N` bytes.
-/

namespace Chf

/-- `[u8; N]`. -/
abbrev Bytes (N : Nat) := { bs : List Byte // bs.length = N }

/-- The bytes of an ASCII string literal. -/
def ascii (s : String) : List Byte := s.toList.map fun c => BitVec.ofNat 8 c.toNat

namespace Hex

/-- `(b as char).to_digit(16)` as in `core`. -/
def toDigit16 (b : Byte) : Option Byte :=
  let d := b - 48
  if d < 10 then some d
  else
    let l := (b ||| 0x20) - 97
    if l < 6 then some (l + 10) else none

/-- `HexToArrayError`. -/
inductive Error where
  | invalidLength (expected invalid : Nat)
  | invalidChar (invalid : Byte) (pos : Nat)
  deriving DecidableEq, Repr

/-- One digit. -/
def digit (b : Byte) (pos : Nat) : Except Error Byte :=
  match toDigit16 b with
  | some d => .ok d
  | none => .error (.invalidChar b pos)

/-- `HexToBytesIter`, collected: two characters per byte, stopping at the first error. -/
def decode : List Byte → Nat → Except Error (List Byte)
  | hi :: lo :: rest, pos => do
      let h ← digit hi pos
      let l ← digit lo (pos + 1)
      let bs ← decode rest (pos + 2)
      pure (((h <<< 4) + l) :: bs)
  | _, _ => .ok []

/-- `<[u8; N]>::from_hex(s)`.  The crate decodes into a `[0; N]`; a decoded length other than `N`
would be a panic there. -/
def fromHex (N : Nat) (s : List Byte) : Res (Except Error (Bytes N)) :=
  if s.length = 2 * N then
    match decode s 0 with
    | .error e => .ok (.error e)
    | .ok bs => if h : bs.length = N then .ok (.ok ⟨bs, h⟩) else .error .copyLen
  else .ok (.error (.invalidLength (2 * N) s.length))

/-- `Case`. -/
inductive Case where
  | lower | upper
  deriving DecidableEq, Repr

/-- The table of digits. -/
def table : Case → List Byte
  | .lower => ascii "0123456789abcdef"
  | .upper => ascii "0123456789ABCDEF"

/-- The two characters of a byte. -/
def encodeByte (case : Case) (b : Byte) : List Byte :=
  [(table case).getD (b >>> 4).toNat 0, (table case).getD (b &&& 0xf).toNat 0]

/-- `BufEncoder::put_bytes`. -/
def putBytes (case : Case) (bs : List Byte) : List Byte := bs.flatMap (encodeByte case)

/-- The flags of a `fmt::Formatter` that are modelled: `#`.  Width, fill and precision are left at
their defaults. -/
structure Flags where
  alternate : Bool
  deriving DecidableEq, Repr

/-- `Formatter::pad_integral(true, "0x", s)` without width: the prefix is written only if the
alternate flag is set. -/
def padIntegral (f : Flags) (s : List Byte) : List Byte :=
  if f.alternate then ascii "0x" ++ s else s

/-- `fmt_hex_exact!(f, len, bytes, case)`, which asserts the length. -/
def fmtHexExact (f : Flags) (len : Nat) (bs : List Byte) (case : Case) : Res (List Byte) := do
  assertR (bs.length == len)
  pure (padIntegral f (putBytes case bs))

/-- `fmt::LowerHex` and `fmt::UpperHex` of `bytes.as_hex()` for a slice: the prefix if the alternate
flag is set, then chunks of 512 bytes, each encoded into a buffer of 1024 characters. -/
def fmtByteSlice (f : Flags) (bs : List Byte) (case : Case) : List Byte :=
  (if f.alternate then ascii "0x" else []) ++
    ((chunksExact 512 bs).map (putBytes case)).flatten ++
    putBytes case (bs.drop (bs.length / 512 * 512))

end Hex
end Chf
