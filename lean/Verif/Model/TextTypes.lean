import Verif.Model.Text
import Verif.Model.HashType
import Verif.Model.Write
import Verif.Source.Impls

/-!
# The hash types and writers made of the translated text

For each hash type of the crate, the translated functions that make, show and compare its values; for
each engine type, the translated `Write` implementation.
-/

namespace Chf.Source
open Chf

/-- The functions of a hash type.  Functions that do the same thing are listed together; what is not
listed does not exist for the type. -/
structure HashText where
  H : Type
  /-- The constant `LEN`, or `N`. -/
  len : Nat
  toByteArray : H → List Byte
  /-- `to_byte_array`, `as_byte_array`, `as_bytes`, `to_bytes`, `AsRef<[u8]>`, `AsRef<[u8; LEN]>`. -/
  views : List (H → List Byte)
  /-- `from_byte_array`, `from_bytes_ref`, the value of `from_bytes_mut`. -/
  makers : List (List Byte → H)
  /-- What assigning a value through the result of `from_bytes_mut` makes of the array. -/
  writes : List (List Byte → H → List Byte)
  /-- `all_zeros` and `Default`. -/
  zeros : List H
  /-- `Clone` where it is not derived. -/
  clones : List (H → H)
  fromSlice : List Byte → Res (Except Lib.FromSliceError H)
  /-- `FromStr` and `FromHex`. -/
  parsers : List (List Byte → Res (Except Hex.Error H))
  lowerHex : H → Hex.Flags → Res (List Byte)
  upperHex : H → Hex.Flags → Res (List Byte)
  display : H → Hex.Flags → Res (List Byte)
  debug : H → Hex.Flags → Res (List Byte)
  index : H → HashTy.Idx → Res (List Byte)
  eq : H → H → Bool
  cmp : H → H → Ordering
  partialCmp : H → H → Option Ordering

/-- An index expression as a value of a type that implements `SliceIndex`. -/
def sliceIdx : HashTy.Idx → Rs.SliceIndex
  | .at i => .at i
  | .range i j => .range ⟨i, j⟩
  | .rangeFrom i => .rangeFrom ⟨i⟩
  | .rangeTo j => .rangeTo ⟨j⟩
  | .full => .rangeFull ⟨⟩

/-- `Index` of `hmac::Hash`, which has an implementation for each type of index. -/
def hmacIndex (cfg : Cfg) (N : Nat) (h : Hmac.Hash) : HashTy.Idx → Res (List Byte)
  | .at i => do
      let b ← Hmac.Hash.IndexUsize.index cfg N h i
      pure [b]
  | .range i j => Hmac.Hash.IndexRange.index cfg N h ⟨i, j⟩
  | .rangeFrom i => Hmac.Hash.IndexRangeFrom.index cfg N h ⟨i⟩
  | .rangeTo j => Hmac.Hash.IndexRangeTo.index cfg N h ⟨j⟩
  | .full => Hmac.Hash.IndexRangeFull.index cfg N h ⟨⟩

/-- The hash types. -/
def hashText (cfg : Cfg) (T : Sha256t.Tag) : HashTy → HashText
  | .sha1 =>
      { H := Sha1.Hash
        len := Sha1.Hash.LEN
        toByteArray := Sha1.Hash.to_byte_array cfg
        views := [Sha1.Hash.to_byte_array cfg, Sha1.Hash.as_byte_array cfg,
          Sha1.Hash.as_bytes cfg, Sha1.Hash.to_bytes cfg, Sha1.Hash.AsRef.as_ref cfg,
          Sha1.Hash.AsRefArray.as_ref cfg]
        makers := [Sha1.Hash.from_byte_array cfg, Sha1.Hash.from_bytes_ref cfg,
          fun bs => (Sha1.Hash.from_bytes_mut cfg bs).1]
        writes := [fun bs => (Sha1.Hash.from_bytes_mut cfg bs).2]
        zeros := [Sha1.Hash.all_zeros cfg]
        clones := []
        fromSlice := Sha1.Hash.from_slice cfg
        parsers := [Sha1.Hash.FromStr.from_str cfg]
        lowerHex := Sha1.Hash.LowerHex.fmt cfg
        upperHex := Sha1.Hash.UpperHex.fmt cfg
        display := Sha1.Hash.Display.fmt cfg
        debug := Sha1.Hash.Debug.fmt cfg
        index := fun h i => Sha1.Hash.Index.index cfg h (sliceIdx i)
        eq := Sha1.Hash.PartialEq.eq cfg
        cmp := Sha1.Hash.Ord.cmp cfg
        partialCmp := Sha1.Hash.PartialOrd.partial_cmp cfg }
  | .sha256 =>
      { H := Sha256.Hash
        len := Sha256.Hash.LEN
        toByteArray := Sha256.Hash.to_byte_array cfg
        views := [Sha256.Hash.to_byte_array cfg, Sha256.Hash.as_byte_array cfg,
          Sha256.Hash.as_bytes cfg, Sha256.Hash.to_bytes cfg, Sha256.Hash.AsRef.as_ref cfg,
          Sha256.Hash.AsRefArray.as_ref cfg]
        makers := [Sha256.Hash.from_byte_array cfg, Sha256.Hash.from_bytes_ref cfg,
          fun bs => (Sha256.Hash.from_bytes_mut cfg bs).1]
        writes := [fun bs => (Sha256.Hash.from_bytes_mut cfg bs).2]
        zeros := [Sha256.Hash.all_zeros cfg]
        clones := []
        fromSlice := Sha256.Hash.from_slice cfg
        parsers := [Sha256.Hash.FromStr.from_str cfg]
        lowerHex := Sha256.Hash.LowerHex.fmt cfg
        upperHex := Sha256.Hash.UpperHex.fmt cfg
        display := Sha256.Hash.Display.fmt cfg
        debug := Sha256.Hash.Debug.fmt cfg
        index := fun h i => Sha256.Hash.Index.index cfg h (sliceIdx i)
        eq := Sha256.Hash.PartialEq.eq cfg
        cmp := Sha256.Hash.Ord.cmp cfg
        partialCmp := Sha256.Hash.PartialOrd.partial_cmp cfg }
  | .sha384 =>
      { H := Sha384.Hash
        len := Sha384.Hash.LEN
        toByteArray := Sha384.Hash.to_byte_array cfg
        views := [Sha384.Hash.to_byte_array cfg, Sha384.Hash.as_byte_array cfg,
          Sha384.Hash.as_bytes cfg, Sha384.Hash.to_bytes cfg, Sha384.Hash.AsRef.as_ref cfg,
          Sha384.Hash.AsRefArray.as_ref cfg]
        makers := [Sha384.Hash.from_byte_array cfg, Sha384.Hash.from_bytes_ref cfg,
          fun bs => (Sha384.Hash.from_bytes_mut cfg bs).1]
        writes := [fun bs => (Sha384.Hash.from_bytes_mut cfg bs).2]
        zeros := [Sha384.Hash.all_zeros cfg]
        clones := []
        fromSlice := Sha384.Hash.from_slice cfg
        parsers := [Sha384.Hash.FromStr.from_str cfg]
        lowerHex := Sha384.Hash.LowerHex.fmt cfg
        upperHex := Sha384.Hash.UpperHex.fmt cfg
        display := Sha384.Hash.Display.fmt cfg
        debug := Sha384.Hash.Debug.fmt cfg
        index := fun h i => Sha384.Hash.Index.index cfg h (sliceIdx i)
        eq := Sha384.Hash.PartialEq.eq cfg
        cmp := Sha384.Hash.Ord.cmp cfg
        partialCmp := Sha384.Hash.PartialOrd.partial_cmp cfg }
  | .sha512 =>
      { H := Sha512.Hash
        len := Sha512.Hash.LEN
        toByteArray := Sha512.Hash.to_byte_array cfg
        views := [Sha512.Hash.to_byte_array cfg, Sha512.Hash.as_byte_array cfg,
          Sha512.Hash.as_bytes cfg, Sha512.Hash.to_bytes cfg, Sha512.Hash.AsRef.as_ref cfg,
          Sha512.Hash.AsRefArray.as_ref cfg]
        makers := [Sha512.Hash.from_byte_array cfg, Sha512.Hash.from_bytes_ref cfg,
          fun bs => (Sha512.Hash.from_bytes_mut cfg bs).1]
        writes := [fun bs => (Sha512.Hash.from_bytes_mut cfg bs).2]
        zeros := [Sha512.Hash.all_zeros cfg]
        clones := []
        fromSlice := Sha512.Hash.from_slice cfg
        parsers := [Sha512.Hash.FromStr.from_str cfg]
        lowerHex := Sha512.Hash.LowerHex.fmt cfg
        upperHex := Sha512.Hash.UpperHex.fmt cfg
        display := Sha512.Hash.Display.fmt cfg
        debug := Sha512.Hash.Debug.fmt cfg
        index := fun h i => Sha512.Hash.Index.index cfg h (sliceIdx i)
        eq := Sha512.Hash.PartialEq.eq cfg
        cmp := Sha512.Hash.Ord.cmp cfg
        partialCmp := Sha512.Hash.PartialOrd.partial_cmp cfg }
  | .sha512_256 =>
      { H := Sha512_256.Hash
        len := Sha512_256.Hash.LEN
        toByteArray := Sha512_256.Hash.to_byte_array cfg
        views := [Sha512_256.Hash.to_byte_array cfg, Sha512_256.Hash.as_byte_array cfg,
          Sha512_256.Hash.as_bytes cfg, Sha512_256.Hash.to_bytes cfg,
          Sha512_256.Hash.AsRef.as_ref cfg, Sha512_256.Hash.AsRefArray.as_ref cfg]
        makers := [Sha512_256.Hash.from_byte_array cfg, Sha512_256.Hash.from_bytes_ref cfg,
          fun bs => (Sha512_256.Hash.from_bytes_mut cfg bs).1]
        writes := [fun bs => (Sha512_256.Hash.from_bytes_mut cfg bs).2]
        zeros := [Sha512_256.Hash.all_zeros cfg]
        clones := []
        fromSlice := Sha512_256.Hash.from_slice cfg
        parsers := [Sha512_256.Hash.FromStr.from_str cfg]
        lowerHex := Sha512_256.Hash.LowerHex.fmt cfg
        upperHex := Sha512_256.Hash.UpperHex.fmt cfg
        display := Sha512_256.Hash.Display.fmt cfg
        debug := Sha512_256.Hash.Debug.fmt cfg
        index := fun h i => Sha512_256.Hash.Index.index cfg h (sliceIdx i)
        eq := Sha512_256.Hash.PartialEq.eq cfg
        cmp := Sha512_256.Hash.Ord.cmp cfg
        partialCmp := Sha512_256.Hash.PartialOrd.partial_cmp cfg }
  | .ripemd160 =>
      { H := Ripemd160.Hash
        len := Ripemd160.Hash.LEN
        toByteArray := Ripemd160.Hash.to_byte_array cfg
        views := [Ripemd160.Hash.to_byte_array cfg, Ripemd160.Hash.as_byte_array cfg,
          Ripemd160.Hash.as_bytes cfg, Ripemd160.Hash.to_bytes cfg,
          Ripemd160.Hash.AsRef.as_ref cfg, Ripemd160.Hash.AsRefArray.as_ref cfg]
        makers := [Ripemd160.Hash.from_byte_array cfg, Ripemd160.Hash.from_bytes_ref cfg,
          fun bs => (Ripemd160.Hash.from_bytes_mut cfg bs).1]
        writes := [fun bs => (Ripemd160.Hash.from_bytes_mut cfg bs).2]
        zeros := [Ripemd160.Hash.all_zeros cfg]
        clones := []
        fromSlice := Ripemd160.Hash.from_slice cfg
        parsers := [Ripemd160.Hash.FromStr.from_str cfg]
        lowerHex := Ripemd160.Hash.LowerHex.fmt cfg
        upperHex := Ripemd160.Hash.UpperHex.fmt cfg
        display := Ripemd160.Hash.Display.fmt cfg
        debug := Ripemd160.Hash.Debug.fmt cfg
        index := fun h i => Ripemd160.Hash.Index.index cfg h (sliceIdx i)
        eq := Ripemd160.Hash.PartialEq.eq cfg
        cmp := Ripemd160.Hash.Ord.cmp cfg
        partialCmp := Ripemd160.Hash.PartialOrd.partial_cmp cfg }
  | .siphash24 =>
      { H := Siphash24.Hash
        len := Siphash24.Hash.LEN
        toByteArray := Siphash24.Hash.to_byte_array cfg
        views := [Siphash24.Hash.to_byte_array cfg, Siphash24.Hash.as_byte_array cfg,
          Siphash24.Hash.as_bytes cfg, Siphash24.Hash.to_bytes cfg,
          Siphash24.Hash.AsRef.as_ref cfg, Siphash24.Hash.AsRefArray.as_ref cfg]
        makers := [Siphash24.Hash.from_byte_array cfg, Siphash24.Hash.from_bytes_ref cfg,
          fun bs => (Siphash24.Hash.from_bytes_mut cfg bs).1]
        writes := [fun bs => (Siphash24.Hash.from_bytes_mut cfg bs).2]
        zeros := [Siphash24.Hash.all_zeros cfg]
        clones := []
        fromSlice := Siphash24.Hash.from_slice cfg
        parsers := [Siphash24.Hash.FromStr.from_str cfg]
        lowerHex := Siphash24.Hash.LowerHex.fmt cfg
        upperHex := Siphash24.Hash.UpperHex.fmt cfg
        display := Siphash24.Hash.Display.fmt cfg
        debug := Siphash24.Hash.Debug.fmt cfg
        index := fun h i => Siphash24.Hash.Index.index cfg h (sliceIdx i)
        eq := Siphash24.Hash.PartialEq.eq cfg
        cmp := Siphash24.Hash.Ord.cmp cfg
        partialCmp := Siphash24.Hash.PartialOrd.partial_cmp cfg }
  | .sha256t =>
      { H := Sha256t.Hash
        len := Sha256t.Hash.LEN
        toByteArray := Sha256t.Hash.to_byte_array cfg T
        views := [Sha256t.Hash.to_byte_array cfg T, Sha256t.Hash.as_byte_array cfg T,
          Sha256t.Hash.as_bytes cfg T, Sha256t.Hash.to_bytes cfg T,
          Sha256t.Hash.AsRef.as_ref cfg T, Sha256t.Hash.AsRefArray.as_ref cfg T]
        makers := [Sha256t.Hash.from_byte_array cfg T, Sha256t.Hash.from_bytes_ref cfg T,
          fun bs => (Sha256t.Hash.from_bytes_mut cfg T bs).1]
        writes := [fun bs => (Sha256t.Hash.from_bytes_mut cfg T bs).2]
        zeros := [Sha256t.Hash.all_zeros cfg T, Sha256t.Hash.default cfg T]
        clones := [Sha256t.Hash.Clone.clone cfg T]
        fromSlice := Sha256t.Hash.from_slice cfg T
        parsers := [Sha256t.Hash.FromStr.from_str cfg T]
        lowerHex := Sha256t.Hash.LowerHex.fmt cfg T
        upperHex := Sha256t.Hash.UpperHex.fmt cfg T
        display := Sha256t.Hash.Display.fmt cfg T
        debug := Sha256t.Hash.Debug.fmt cfg T
        index := fun h i => Sha256t.Hash.Index.index cfg T h (sliceIdx i)
        eq := Sha256t.Hash.PartialEq.eq cfg T
        cmp := Sha256t.Hash.Ord.cmp cfg T
        partialCmp := Sha256t.Hash.PartialOrd.partial_cmp cfg T }
  | .hmac N =>
      { H := Hmac.Hash
        len := N
        toByteArray := Hmac.Hash.to_byte_array cfg N
        views := [Hmac.Hash.to_byte_array cfg N, Hmac.Hash.as_byte_array cfg N,
          Hmac.Hash.as_bytes cfg N, Hmac.Hash.to_bytes cfg N, Hmac.Hash.AsRef.as_ref cfg N]
        makers := [Hmac.Hash.from_byte_array cfg N, Hmac.Hash.from_bytes_ref cfg N,
          fun bs => (Hmac.Hash.from_bytes_mut cfg N bs).1]
        writes := [fun bs => (Hmac.Hash.from_bytes_mut cfg N bs).2]
        zeros := [Hmac.Hash.all_zeros cfg N]
        clones := []
        fromSlice := Hmac.Hash.from_slice cfg N
        parsers := [Hmac.Hash.FromStr.from_str cfg N]
        lowerHex := fun h f => .ok (Hmac.Hash.LowerHex.fmt cfg N h f)
        upperHex := fun h f => .ok (Hmac.Hash.UpperHex.fmt cfg N h f)
        display := fun h f => .ok (Hmac.Hash.Display.fmt cfg N h f)
        debug := fun h f => .ok (Hmac.Hash.Debug.fmt cfg N h f)
        index := hmacIndex cfg N
        eq := Hmac.Hash.PartialEq.eq cfg N
        cmp := Hmac.Hash.Ord.cmp cfg N
        partialCmp := Hmac.Hash.PartialOrd.partial_cmp cfg N }
  | .midstate =>
      { H := Sha256.Midstate
        len := Sha256.Midstate.LEN
        toByteArray := Sha256.Midstate.to_byte_array cfg
        views := [Sha256.Midstate.to_byte_array cfg, Sha256.Midstate.AsRef.as_ref cfg]
        makers := [Sha256.Midstate.from_byte_array cfg]
        writes := []
        zeros := [Sha256.Midstate.Default.default cfg]
        clones := []
        fromSlice := Sha256.Midstate.from_slice cfg
        parsers := [Sha256.Midstate.FromStr.from_str cfg, Sha256.Midstate.FromHex.from_hex cfg]
        lowerHex := Sha256.Midstate.LowerHex.fmt cfg
        upperHex := Sha256.Midstate.UpperHex.fmt cfg
        display := Sha256.Midstate.Display.fmt cfg
        debug := Sha256.Midstate.Debug.fmt cfg
        index := fun h i => Sha256.Midstate.Index.index cfg h (sliceIdx i)
        eq := Sha256.Midstate.PartialEq.eq cfg
        cmp := Sha256.Midstate.Ord.cmp cfg
        partialCmp := Sha256.Midstate.PartialOrd.partial_cmp cfg }

/-- An I/O error of the text. -/
def ioError : Rs.IoError → IoError
  | .any => .other

/-- A writer made of a translated `write` and `flush`. -/
def writerOf {S : Type} (write : S → List Byte → Res ((Except Rs.IoError Nat) × S))
    (flush : S → (Except Rs.IoError Unit) × S) : Writer S where
  write e buf := do
    let (r, e) ← write e buf
    pure (e, r.mapError ioError)
  flush e := .ok ((flush e).2, (flush e).1.mapError ioError)

/-- The translated implementations of `bitcoin_io::Write`. -/
def writer (cfg : Cfg) : (a : Alg) → Option (Writer (engineOf cfg a).State)
  | .sha1 => some (writerOf (Impls.sha1.Engine.Write.write cfg) (Impls.sha1.Engine.Write.flush cfg))
  | .sha256 => some (writerOf (Impls.sha256.Engine.Write.write cfg) (Impls.sha256.Engine.Write.flush cfg))
  | .sha512 => some (writerOf (Impls.sha512.Engine.Write.write cfg) (Impls.sha512.Engine.Write.flush cfg))
  | .ripemd160 =>
      some (writerOf (Impls.ripemd160.Engine.Write.write cfg) (Impls.ripemd160.Engine.Write.flush cfg))
  | .siphash24 =>
      some (writerOf (Impls.siphash24.Engine.Write.write cfg) (Impls.siphash24.Engine.Write.flush cfg))
  | .hmac a =>
      some (writerOf (Impls.hmac.Engine.Write.write cfg (engineOf cfg a))
        (Impls.hmac.Engine.Write.flush cfg (engineOf cfg a)))
  | .sha256t mid len data =>
      some (writerOf (Impls.sha256t.Engine.Write.write cfg (.ofMidstate cfg mid len data))
        (Impls.sha256t.Engine.Write.flush cfg (.ofMidstate cfg mid len data)))
  | .sha384 => none
  | .sha512_256 => none

/-- The translated implementation of `std::io::Write`, which only `hmac::Engine` has. -/
def stdWriter (cfg : Cfg) (a : Alg) : Writer (engineOf cfg (.hmac a)).State :=
  writerOf (Impls.hmac.Engine.StdWrite.write cfg (engineOf cfg a))
    (Impls.hmac.Engine.StdWrite.flush cfg (engineOf cfg a))

end Chf.Source
