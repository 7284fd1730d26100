import Verif.Rust
import Verif.Model.Engine
import Verif.Model.Hex
import Verif.Model.Utf8

/-!
# What the translated source refers to

The modules `Verif.Source.*` are written by `tools/rust2lean.py` from the text of `/repo/src`.  This
file defines the Rust constructs and library functions they use that `Verif/Rust.lean` does not
have.  Nothing here mentions the model of the crate, except that a type with the trait `HashEngine`
is a `Chf.HashEngine` (the record of the trait's functions), that the functions of the crate
`hex-conservative` are those of `Verif/Model/Hex.lean`, and that `str::from_utf8` is that of
`Verif/Model/Utf8.lean`.
-/

namespace Chf.Rs

/-- What a block that may `return` (or `break`) does: leave with `r` or continue with `s`. -/
inductive Flow (ρ σ : Type) where
  | ret (r : ρ)
  | next (s : σ)

/-- `while cond { body }` for at most `fuel` tests of the condition. -/
def whileR {σ : Type} (fuel : Nat) (cond : σ → Res Bool) (body : σ → Res σ) (s : σ) : Res σ :=
  match fuel with
  | 0 => .error .fuel
  | n + 1 =>
    match cond s with
    | .error e => .error e
    | .ok false => .ok s
    | .ok true =>
      match body s with
      | .error e => .error e
      | .ok s => whileR n cond body s

/-- `while cond { body }` where `body` may `break`. -/
def whileBreak {σ : Type} (fuel : Nat) (cond : σ → Res Bool) (body : σ → Res (Flow σ σ)) (s : σ) :
    Res σ :=
  match fuel with
  | 0 => .error .fuel
  | n + 1 =>
    match cond s with
    | .error e => .error e
    | .ok false => .ok s
    | .ok true =>
      match body s with
      | .error e => .error e
      | .ok (.ret s) => .ok s
      | .ok (.next s) => whileBreak n cond body s

/-- `for x in xs { .. }` where the body may `return`. -/
def eachFlow {α ρ σ : Type} (xs : List α) (init : σ) (f : σ → α → Res (Flow ρ σ)) : Res (Flow ρ σ) :=
  match xs with
  | [] => .ok (.next init)
  | x :: xs =>
    match f init x with
    | .error e => .error e
    | .ok (.ret r) => .ok (.ret r)
    | .ok (.next s) => eachFlow xs s f

/-- `for x in xs { .. }` where the body may `break`. -/
def eachBreak {α σ : Type} (xs : List α) (init : σ) (f : σ → α → Res (Flow σ σ)) : Res σ :=
  match xs with
  | [] => .ok init
  | x :: xs =>
    match f init x with
    | .error e => .error e
    | .ok (.ret s) => .ok s
    | .ok (.next s) => eachBreak xs s f

/-- Statements run one after the other. -/
def runLines {σ : Type} (ls : List (σ → Res σ)) (s : σ) : Res σ := ls.foldlM (fun s f => f s) s

/-- Statements that cannot panic, run one after the other. -/
def runPure {σ : Type} (ls : List (σ → σ)) (s : σ) : σ := ls.foldl (fun s f => f s) s

/-- A variable that is declared before its first assignment; the translator rejects reads of it. -/
def uninit {w : Nat} : BitVec w := 0#w

/-- The values of `lo..hi`. -/
def range (lo hi : Nat) : List Nat := List.range' lo (hi - lo)

/-- `xs.iter().enumerate()`. -/
def enumerate {α : Type} (xs : List α) : List (Nat × α) := xs.zipIdx.map fun p => (p.2, p.1)

/-- `for (x, y) in xs.iter_mut().zip(ys) { .. }`, where `f x y` is the new value of `*x`. -/
def zipMut {α β : Type} (xs : List α) (ys : List β) (f : α → β → Res α) : Res (List α) :=
  match xs, ys with
  | x :: xs, y :: ys => do
    let v ← f x y
    let rest ← zipMut xs ys f
    pure (v :: rest)
  | xs, _ => pure xs

/-- `for (v, chunk) in vals.iter().zip(ret.chunks_exact_mut(k)) { .. }`, where `f v chunk` is the new
content of `chunk`. -/
def zipChunksMut {α β : Type} (k : Nat) (vals : List α) (ret : List β)
    (f : α → List β → Res (List β)) : Res (List β) :=
  match vals with
  | [] => pure ret
  | v :: vals =>
    if ret.length < k then pure ret
    else do
      let chunk ← f v (ret.take k)
      let rest ← zipChunksMut k vals (ret.drop k) f
      pure (chunk ++ rest)

/-! ## Slices -/

/-- `&s[i..j]`. -/
def sliceRange {α : Type} (s : List α) (i j : Nat) : Res (List α) :=
  if i ≤ j ∧ j ≤ s.length then .ok ((s.take j).drop i) else .error .sliceIndex

/-- The bounds check of `&mut s[i..j]`. -/
def checkRange {α : Type} (s : List α) (i j : Nat) : Res Unit :=
  if i ≤ j ∧ j ≤ s.length then .ok () else .error .sliceIndex

/-- `dst.copy_from_slice(src)`. -/
def copyFromSlice {α : Type} (dst src : List α) : Res (List α) :=
  if src.length = dst.length then .ok src else .error .copyLen

/-- `s.try_into().expect(..)` to an array of `n` elements. -/
def tryInto {α : Type} (n : Nat) (s : List α) : Res (List α) :=
  if s.length = n then .ok s else .error .expect

/-- `s.get_unchecked(i)`. -/
def getUnchecked {α : Type} (s : List α) (i : Nat) : Res α :=
  match s[i]? with
  | some x => .ok x
  | none => .error .ub

/-- `Ord::cmp` on slices of bytes: lexicographic, a proper prefix is less. -/
def cmpSlice : List Byte → List Byte → Ordering
  | [], [] => .eq
  | [], _ :: _ => .lt
  | _ :: _, [] => .gt
  | a :: as, b :: bs => if a.toNat < b.toNat then .lt else if b.toNat < a.toNat then .gt else cmpSlice as bs

/-! Index expressions; one byte is shown as a list of one. -/

/-- `ops::Range<usize>` -/
structure Range where
  start : Nat
  stop : Nat

/-- `ops::RangeFrom<usize>` -/
structure RangeFrom where
  start : Nat

/-- `ops::RangeTo<usize>` -/
structure RangeTo where
  stop : Nat

/-- `ops::RangeFull` -/
structure RangeFull where

def Range.get (r : Range) (xs : List α) : Res (List α) := sliceRange xs r.start r.stop
def RangeFrom.get (r : RangeFrom) (xs : List α) : Res (List α) := sliceFrom xs r.start
def RangeTo.get (r : RangeTo) (xs : List α) : Res (List α) := sliceTo xs r.stop
def RangeFull.get (_ : RangeFull) (xs : List α) : Res (List α) := .ok xs

/-- The values of the types that implement `SliceIndex<[u8]>`, except the inclusive ranges. -/
inductive SliceIndex where
  | at (i : Nat)
  | range (r : Range)
  | rangeFrom (r : RangeFrom)
  | rangeTo (r : RangeTo)
  | rangeFull (r : RangeFull)

/-- `xs[i]` -/
def SliceIndex.get (i : SliceIndex) (xs : List α) : Res (List α) :=
  match i with
  | .at i => do
      let x ← index xs i
      pure [x]
  | .range r => r.get xs
  | .rangeFrom r => r.get xs
  | .rangeTo r => r.get xs
  | .rangeFull r => r.get xs

/-- `<[u8; N]>::from_hex(s)` of the crate `hex-conservative`. -/
def fromHex (N : Nat) (s : List Byte) : Res (Except Hex.Error (List Byte)) :=
  (Hex.fromHex N s).map fun r => r.map fun b => b.val

/-- `let x = r?; rest` -/
def tryOk {ε α β : Type} (r : Except ε α) (rest : α → Res (Except ε β)) : Res (Except ε β) :=
  match r with
  | .ok x => rest x
  | .error e => .ok (.error e)

/-- The error type of `bitcoin_io` and of `std::io`; the crate never makes one. -/
inductive IoError where
  | any
  deriving DecidableEq

/-! ## `core::hash` -/

/-- A type that implements `core::hash::Hasher`, as far as slices of bytes use it. -/
structure Hasher where
  State : Type
  /-- `write` -/
  write : State → List Byte → State
  /-- `write_length_prefix`, which is `write_usize` unless overridden -/
  writeLen : State → Nat → State

/-- `Hash::hash` of a slice or an array of bytes: the length, then the bytes in one `write`. -/
def Hasher.hashSlice (H : Hasher) (bs : List Byte) (h : H.State) : H.State :=
  H.write (H.writeLen h bs.length) bs

/-! ## `serde` -/

/-- A serializer, as far as it is asked about itself. -/
structure Serializer where
  /-- `is_human_readable` -/
  human : Bool

/-- What a serializer is asked to serialize; its answer is the result. -/
inductive Serialized where
  /-- `serialize_str`, which `collect_str` calls -/
  | str (v : List Byte)
  | bytes (v : List Byte)
  deriving DecidableEq

/-- `de::Unexpected` -/
inductive Unexpected where
  | bytes (v : List Byte)
  | str (v : List Byte)
  | other
  deriving DecidableEq

/-- The errors that the visitors make, with the text of what was expected. -/
inductive DeError where
  /-- `E::custom` of a parse error -/
  | custom (e : Hex.Error)
  | invalidValue (u : Unexpected) (expected : List Byte)
  | invalidType (u : Unexpected) (expected : List Byte)
  | invalidLength (n : Nat) (expected : List Byte)
  /-- An error of the data format: the visitor is not called. -/
  | format
  deriving DecidableEq

/-- The method a deserializer is asked for. -/
inductive Hint where
  | str
  | bytes
  deriving DecidableEq

/-- What a deserializer does with a visitor. -/
inductive Data where
  /-- `visit_str`, and the methods that call it unless overridden -/
  | str (v : List Byte)
  /-- `visit_bytes`, and the methods that call it unless overridden -/
  | bytes (v : List Byte)
  /-- another method -/
  | other
  /-- an error of the data format -/
  | fail
  deriving DecidableEq

/-- A deserializer with its input. -/
structure Deserializer where
  /-- `is_human_readable` -/
  human : Bool
  data : Hint → Data

/-- A visitor: the methods that are overridden. -/
structure Visitor (V : Type) where
  expecting : List Byte
  visitStr : Option (List Byte → Res (Except DeError V))
  visitBytes : Option (List Byte → Res (Except DeError V))

/-- `d.deserialize_str(v)` and `d.deserialize_bytes(v)`. -/
def Deserializer.run {V : Type} (d : Deserializer) (hint : Hint) (v : Visitor V) :
    Res (Except DeError V) :=
  match d.data hint with
  | .str s =>
      match v.visitStr with
      | some f => f s
      | none => .ok (.error (.invalidType (.str s) v.expecting))
  | .bytes s =>
      match v.visitBytes with
      | some f => f s
      | none => .ok (.error (.invalidType (.bytes s) v.expecting))
  | .other => .ok (.error (.invalidType .other v.expecting))
  | .fail => .ok (.error .format)

/-! ## `schemars` -/

/-- `schemars::gen::SchemaGenerator` -/
abbrev SchemaGenerator := Unit

/-- `schemars::schema::StringValidation` -/
structure StringValidation where
  max_length : Option (BitVec 32)
  min_length : Option (BitVec 32)
  pattern : Option (List Byte)
  deriving DecidableEq

/-- `schemars::schema::SchemaObject`: whether its type is string, and its validation. -/
structure SchemaObject where
  is_string : Bool
  string : Option StringValidation
  deriving DecidableEq

/-- `<String>::json_schema(gen)` -/
def stringSchema (_ : SchemaGenerator) : SchemaObject := { is_string := true, string := none }

/-! ## Integers -/

/-- `a % b` on `usize`; a zero divisor panics in every profile. -/
def remUsize (a b : Nat) : Res Nat := if b = 0 then .error .overflow else .ok (a % b)

/-- `a + b` on an unsigned machine integer. -/
def addU {w : Nat} (c : Cfg) (a b : BitVec w) : Res (BitVec w) :=
  if a.toNat + b.toNat < 2 ^ w then .ok (a + b)
  else if c.overflowChecks then .error .overflow
  else .ok (a + b)

/-- `a - b` on an unsigned machine integer. -/
def subU {w : Nat} (c : Cfg) (a b : BitVec w) : Res (BitVec w) :=
  if b.toNat ≤ a.toNat then .ok (a - b)
  else if c.overflowChecks then .error .overflow
  else .ok (a - b)

/-- `a * b` on an unsigned machine integer. -/
def mulU {w : Nat} (c : Cfg) (a b : BitVec w) : Res (BitVec w) :=
  if a.toNat * b.toNat < 2 ^ w then .ok (a * b)
  else if c.overflowChecks then .error .overflow
  else .ok (a * b)

/-- `a << n`. -/
def shlU {w : Nat} (c : Cfg) (a : BitVec w) (n : Nat) : Res (BitVec w) :=
  if n < w then .ok (a <<< n)
  else if c.overflowChecks then .error .overflow
  else .ok (a <<< (n % w))

/-- `a >> n` on an unsigned machine integer. -/
def shrU {w : Nat} (c : Cfg) (a : BitVec w) (n : Nat) : Res (BitVec w) :=
  if n < w then .ok (a >>> n)
  else if c.overflowChecks then .error .overflow
  else .ok (a >>> (n % w))

/-- `x.to_le_bytes()`. -/
def toLeBytes {w : Nat} (x : BitVec w) : List Byte := leOfNat (w / 8) x.toNat

/-- `x.to_be_bytes()`. -/
def toBeBytes {w : Nat} (x : BitVec w) : List Byte := (leOfNat (w / 8) x.toNat).reverse

/-- `from_le_bytes`. -/
def fromLeBytes (w : Nat) (s : List Byte) : BitVec w := BitVec.ofNat w (natOfLe s)

/-- `from_be_bytes`. -/
def fromBeBytes (w : Nat) (s : List Byte) : BitVec w := BitVec.ofNat w (natOfLe s.reverse)

/-- `x.to_le()`: a byte swap on a big-endian target. -/
def toLe {w : Nat} (c : Cfg) (x : BitVec w) : BitVec w :=
  if c.bigEndian then fromLeBytes w (toBeBytes x) else x

/-- `ptr::copy_nonoverlapping(&src[i], &mut dst as *mut _ as *mut u8, n)`: the first `n` bytes of
`dst` in memory become `src[i..i + n]`. -/
def copyNonoverlapping {w : Nat} (c : Cfg) (src : List Byte) (i : Nat) (dst : BitVec w) (n : Nat) :
    Res (BitVec w) :=
  if i + n ≤ src.length ∧ n ≤ w / 8 then
    let new := (src.drop i).take n
    if c.bigEndian then .ok (fromBeBytes w (new ++ (toBeBytes dst).drop n))
    else .ok (fromLeBytes w (new ++ (toLeBytes dst).drop n))
  else .error .ub

/-! ## x86 vector loads and stores -/

/-- `_mm_loadu_si128(s.as_ptr().add(i) as *const __m128i)` for bytes. -/
def loadu8 (s : List Byte) (i : Nat) : Res (BitVec 128) :=
  if i + 16 ≤ s.length then .ok (BitVec.ofNat 128 (natOfLe ((s.drop i).take 16))) else .error .ub

/-- `_mm_loadu_si128(s.as_ptr().add(i) as *const __m128i)` for `u32`s: the first word is the lowest. -/
def loadu32 (s : List (BitVec 32)) (i : Nat) : Res (BitVec 128) :=
  match (s.drop i).take 4 with
  | [a, b, c, d] => .ok (d ++ c ++ b ++ a)
  | _ => .error .ub

/-- `_mm_storeu_si128(s.as_mut_ptr().add(i) as *mut __m128i, v)` for `u32`s. -/
def storeu32 (s : List (BitVec 32)) (i : Nat) (v : BitVec 128) : Res (List (BitVec 32)) :=
  if i + 4 ≤ s.length then
    .ok (s.take i ++ [v.extractLsb' 0 32, v.extractLsb' 32 32, v.extractLsb' 64 32,
      v.extractLsb' 96 32] ++ s.drop (i + 4))
  else .error .ub

end Chf.Rs
