import Verif.Model.TextTypes
import Verif.Proofs.HashType
import Verif.Proofs.Source.Common

/-!
# The translated hash types are newtypes around their bytes
-/

namespace Chf.Source
open Chf Chf.Rs

theorem cmpSlice_eq_model : (a b : List Byte) → Rs.cmpSlice a b = HashTy.cmpSlice a b
  | [], [] => rfl
  | [], _ :: _ => rfl
  | _ :: _, [] => rfl
  | x :: xs, y :: ys => by
    unfold Rs.cmpSlice HashTy.cmpSlice
    rw [cmpSlice_eq_model xs ys]
    rfl

/-- A hash type whose values are those of `List Byte`, and whose text is for `n` bytes. -/
structure Plain (d : HashText) (n : Nat) where
  make : List Byte → d.H
  make_toByteArray : ∀ h, make (d.toByteArray h) = h
  toByteArray_make : ∀ bs, d.toByteArray (make bs) = bs
  len : d.len = n
  views : ∀ v ∈ d.views, v = d.toByteArray
  makers : ∀ m ∈ d.makers, m = make
  writes : ∀ w ∈ d.writes, w = fun _ h => d.toByteArray h
  zeros : ∀ z ∈ d.zeros, z = make (List.replicate n 0)
  clones : ∀ z ∈ d.clones, z = id
  fromSlice : ∀ sl, d.fromSlice sl =
    .ok (if sl.length = n then .ok (make sl) else .error ⟨n, sl.length⟩)
  parsers : ∀ p ∈ d.parsers, ∀ s, p s =
    (HashTy.fromStr (.hmac n) s).map fun r => r.map fun a => make a.inner.val
  lowerHex : ∀ h f, (d.toByteArray h).length = n →
    d.lowerHex h f = .ok (Hex.padIntegral f (Hex.putBytes .lower (d.toByteArray h)))
  upperHex : ∀ h f, (d.toByteArray h).length = n →
    d.upperHex h f = .ok (Hex.padIntegral f (Hex.putBytes .upper (d.toByteArray h)))
  display : d.display = d.lowerHex
  debug : d.debug = fun h _ => d.lowerHex h ⟨true⟩
  index : ∀ h i, d.index h i = HashTy.sliceIndex (d.toByteArray h) i
  eq : ∀ a b, d.eq a b = (d.toByteArray a == d.toByteArray b)
  cmp : ∀ a b, d.cmp a b = HashTy.cmpSlice (d.toByteArray a) (d.toByteArray b)
  partialCmp : ∀ a b, d.partialCmp a b = some (d.cmp a b)

theorem fromSlice_text {H : Type} (n : Nat) (mk : List Byte → H) (sl : List Byte) :
    (do let x ← if sl.length != n then do
                  pure (Except.error (⟨n, sl.length⟩ : Lib.FromSliceError))
                else do
                  let ret ← Rs.copyFromSlice (List.replicate n 0#8) sl
                  pure (Except.ok (mk ret))
        pure x) = (.ok (if sl.length = n then .ok (mk sl) else .error ⟨n, sl.length⟩) : Res _) := by
  by_cases h : sl.length = n
  · rw [if_pos h, if_neg (by simp [h]), Rs.copyFromSlice, if_pos (by simp [h])]
    rfl
  · rw [if_neg h, if_pos (by simp [h])]
    rfl

theorem fromHex_text {H : Type} (n : Nat) (mk : List Byte → H) (s : List Byte) :
    (do let x ← Rs.fromHex n s
        Rs.tryOk x fun bytes => do pure (Except.ok (mk bytes))) =
      (HashTy.fromStr (.hmac n) s).map fun r => r.map fun a => mk a.inner.val := by
  have e : HashTy.fromStr (.hmac n) s = Hex.fromHex n s >>= fun r => (match r with
      | .error e => pure (.error e)
      | .ok bytes => pure (.ok ⟨bytes⟩)) := rfl
  rw [e]
  unfold Rs.fromHex
  cases Hex.fromHex n s with
  | error f => rfl
  | ok r => cases r <;> rfl

theorem fmt_text (n : Nat) (case : Hex.Case) (bs : List Byte) (f : Hex.Flags) (h : bs.length = n) :
    (do let x ← Hex.fmtHexExact f n bs case
        pure x) = (.ok (Hex.padIntegral f (Hex.putBytes case bs)) : Res _) := by
  unfold Hex.fmtHexExact
  rw [h, beq_self_eq_true]
  rfl

theorem fmt_slice (case : Hex.Case) (bs : List Byte) (f : Hex.Flags) :
    Hex.fmtByteSlice f bs case = Hex.padIntegral f (Hex.putBytes case bs) :=
  Except.ok.inj (HashTy.fmtHex_eq (s := .hmac bs.length) f case ⟨⟨bs, rfl⟩⟩)

theorem index_text (bs : List Byte) (i : HashTy.Idx) :
    Rs.SliceIndex.get (sliceIdx i) bs = HashTy.sliceIndex bs i := by
  cases i with
  | range i j =>
    show Rs.sliceRange bs i j = _
    unfold Rs.sliceRange HashTy.sliceIndex
    rw [List.drop_take]
  | _ => rfl

theorem hmacIndex_text (c : Cfg) (N : Nat) (h : Hmac.Hash) (i : HashTy.Idx) :
    hmacIndex c N h i = HashTy.sliceIndex h.f0 i := by
  cases i with
  | range i j => exact index_text h.f0 (.range i j)
  | _ => rfl

theorem all_nil {α : Type} {p : α → Prop} : ∀ x ∈ ([] : List α), p x := fun _ h => by cases h

theorem all_cons {α : Type} {p : α → Prop} {a : α} {l : List α} (ha : p a) (hl : ∀ x ∈ l, p x) :
    ∀ x ∈ a :: l, p x := by
  intro x hx
  rcases List.mem_cons.1 hx with rfl | hx
  · exact ha
  · exact hl x hx

def sha1_plain (c : Cfg) (T : Sha256t.Tag) : Plain (hashText c T .sha1) 20 where
  make := Sha1.Hash.mk
  make_toByteArray _ := rfl
  toByteArray_make _ := rfl
  len := rfl
  views := all_cons rfl <| all_cons rfl <| all_cons rfl <| all_cons rfl <| all_cons rfl <| all_cons rfl <| all_nil
  makers := all_cons rfl <| all_cons rfl <| all_cons rfl <| all_nil
  writes := all_cons rfl <| all_nil
  zeros := all_cons rfl <| all_nil
  clones := all_nil
  fromSlice sl := fromSlice_text 20 Sha1.Hash.mk sl
  parsers := all_cons (fromHex_text 20 Sha1.Hash.mk) all_nil
  lowerHex h f e := fmt_text 20 .lower h.f0 f e
  upperHex h f e := fmt_text 20 .upper h.f0 f e
  display := rfl
  debug := rfl
  index h i := index_text h.f0 i
  eq _ _ := rfl
  cmp _ _ := cmpSlice_eq_model _ _
  partialCmp _ _ := rfl

def sha256_plain (c : Cfg) (T : Sha256t.Tag) : Plain (hashText c T .sha256) 32 where
  make := Sha256.Hash.mk
  make_toByteArray _ := rfl
  toByteArray_make _ := rfl
  len := rfl
  views := all_cons rfl <| all_cons rfl <| all_cons rfl <| all_cons rfl <| all_cons rfl <| all_cons rfl <| all_nil
  makers := all_cons rfl <| all_cons rfl <| all_cons rfl <| all_nil
  writes := all_cons rfl <| all_nil
  zeros := all_cons rfl <| all_nil
  clones := all_nil
  fromSlice sl := fromSlice_text 32 Sha256.Hash.mk sl
  parsers := all_cons (fromHex_text 32 Sha256.Hash.mk) all_nil
  lowerHex h f e := fmt_text 32 .lower h.f0 f e
  upperHex h f e := fmt_text 32 .upper h.f0 f e
  display := rfl
  debug := rfl
  index h i := index_text h.f0 i
  eq _ _ := rfl
  cmp _ _ := cmpSlice_eq_model _ _
  partialCmp _ _ := rfl

def sha384_plain (c : Cfg) (T : Sha256t.Tag) : Plain (hashText c T .sha384) 48 where
  make := Sha384.Hash.mk
  make_toByteArray _ := rfl
  toByteArray_make _ := rfl
  len := rfl
  views := all_cons rfl <| all_cons rfl <| all_cons rfl <| all_cons rfl <| all_cons rfl <| all_cons rfl <| all_nil
  makers := all_cons rfl <| all_cons rfl <| all_cons rfl <| all_nil
  writes := all_cons rfl <| all_nil
  zeros := all_cons rfl <| all_nil
  clones := all_nil
  fromSlice sl := fromSlice_text 48 Sha384.Hash.mk sl
  parsers := all_cons (fromHex_text 48 Sha384.Hash.mk) all_nil
  lowerHex h f e := fmt_text 48 .lower h.f0 f e
  upperHex h f e := fmt_text 48 .upper h.f0 f e
  display := rfl
  debug := rfl
  index h i := index_text h.f0 i
  eq _ _ := rfl
  cmp _ _ := cmpSlice_eq_model _ _
  partialCmp _ _ := rfl

def sha512_plain (c : Cfg) (T : Sha256t.Tag) : Plain (hashText c T .sha512) 64 where
  make := Sha512.Hash.mk
  make_toByteArray _ := rfl
  toByteArray_make _ := rfl
  len := rfl
  views := all_cons rfl <| all_cons rfl <| all_cons rfl <| all_cons rfl <| all_cons rfl <| all_cons rfl <| all_nil
  makers := all_cons rfl <| all_cons rfl <| all_cons rfl <| all_nil
  writes := all_cons rfl <| all_nil
  zeros := all_cons rfl <| all_nil
  clones := all_nil
  fromSlice sl := fromSlice_text 64 Sha512.Hash.mk sl
  parsers := all_cons (fromHex_text 64 Sha512.Hash.mk) all_nil
  lowerHex h f e := fmt_text 64 .lower h.f0 f e
  upperHex h f e := fmt_text 64 .upper h.f0 f e
  display := rfl
  debug := rfl
  index h i := index_text h.f0 i
  eq _ _ := rfl
  cmp _ _ := cmpSlice_eq_model _ _
  partialCmp _ _ := rfl

def sha512_256_plain (c : Cfg) (T : Sha256t.Tag) : Plain (hashText c T .sha512_256) 32 where
  make := Sha512_256.Hash.mk
  make_toByteArray _ := rfl
  toByteArray_make _ := rfl
  len := rfl
  views := all_cons rfl <| all_cons rfl <| all_cons rfl <| all_cons rfl <| all_cons rfl <| all_cons rfl <| all_nil
  makers := all_cons rfl <| all_cons rfl <| all_cons rfl <| all_nil
  writes := all_cons rfl <| all_nil
  zeros := all_cons rfl <| all_nil
  clones := all_nil
  fromSlice sl := fromSlice_text 32 Sha512_256.Hash.mk sl
  parsers := all_cons (fromHex_text 32 Sha512_256.Hash.mk) all_nil
  lowerHex h f e := fmt_text 32 .lower h.f0 f e
  upperHex h f e := fmt_text 32 .upper h.f0 f e
  display := rfl
  debug := rfl
  index h i := index_text h.f0 i
  eq _ _ := rfl
  cmp _ _ := cmpSlice_eq_model _ _
  partialCmp _ _ := rfl

def ripemd160_plain (c : Cfg) (T : Sha256t.Tag) : Plain (hashText c T .ripemd160) 20 where
  make := Ripemd160.Hash.mk
  make_toByteArray _ := rfl
  toByteArray_make _ := rfl
  len := rfl
  views := all_cons rfl <| all_cons rfl <| all_cons rfl <| all_cons rfl <| all_cons rfl <| all_cons rfl <| all_nil
  makers := all_cons rfl <| all_cons rfl <| all_cons rfl <| all_nil
  writes := all_cons rfl <| all_nil
  zeros := all_cons rfl <| all_nil
  clones := all_nil
  fromSlice sl := fromSlice_text 20 Ripemd160.Hash.mk sl
  parsers := all_cons (fromHex_text 20 Ripemd160.Hash.mk) all_nil
  lowerHex h f e := fmt_text 20 .lower h.f0 f e
  upperHex h f e := fmt_text 20 .upper h.f0 f e
  display := rfl
  debug := rfl
  index h i := index_text h.f0 i
  eq _ _ := rfl
  cmp _ _ := cmpSlice_eq_model _ _
  partialCmp _ _ := rfl

def siphash24_plain (c : Cfg) (T : Sha256t.Tag) : Plain (hashText c T .siphash24) 8 where
  make := Siphash24.Hash.mk
  make_toByteArray _ := rfl
  toByteArray_make _ := rfl
  len := rfl
  views := all_cons rfl <| all_cons rfl <| all_cons rfl <| all_cons rfl <| all_cons rfl <| all_cons rfl <| all_nil
  makers := all_cons rfl <| all_cons rfl <| all_cons rfl <| all_nil
  writes := all_cons rfl <| all_nil
  zeros := all_cons rfl <| all_nil
  clones := all_nil
  fromSlice sl := fromSlice_text 8 Siphash24.Hash.mk sl
  parsers := all_cons (fromHex_text 8 Siphash24.Hash.mk) all_nil
  lowerHex h f e := fmt_text 8 .lower h.f0 f e
  upperHex h f e := fmt_text 8 .upper h.f0 f e
  display := rfl
  debug := rfl
  index h i := index_text h.f0 i
  eq _ _ := rfl
  cmp _ _ := cmpSlice_eq_model _ _
  partialCmp _ _ := rfl

def sha256t_plain (c : Cfg) (T : Sha256t.Tag) : Plain (hashText c T .sha256t) 32 where
  make := (Sha256t.Hash.mk · ())
  make_toByteArray _ := rfl
  toByteArray_make _ := rfl
  len := rfl
  views := all_cons rfl <| all_cons rfl <| all_cons rfl <| all_cons rfl <| all_cons rfl <| all_cons rfl <| all_nil
  makers := all_cons rfl <| all_cons rfl <| all_cons rfl <| all_nil
  writes := all_cons rfl <| all_nil
  zeros := all_cons rfl <| all_cons rfl <| all_nil
  clones := all_cons rfl <| all_nil
  fromSlice sl := fromSlice_text 32 (Sha256t.Hash.mk · ()) sl
  parsers := all_cons (fromHex_text 32 (Sha256t.Hash.mk · ())) all_nil
  lowerHex h f e := fmt_text 32 .lower h.f0 f e
  upperHex h f e := fmt_text 32 .upper h.f0 f e
  display := rfl
  debug := rfl
  index h i := index_text h.f0 i
  eq _ _ := rfl
  cmp _ _ := cmpSlice_eq_model _ _
  partialCmp _ _ := rfl

def hmac_plain (c : Cfg) (T : Sha256t.Tag) (N : Nat) : Plain (hashText c T (.hmac N)) N where
  make := Hmac.Hash.mk
  make_toByteArray _ := rfl
  toByteArray_make _ := rfl
  len := rfl
  views := all_cons rfl <| all_cons rfl <| all_cons rfl <| all_cons rfl <| all_cons rfl <| all_nil
  makers := all_cons rfl <| all_cons rfl <| all_cons rfl <| all_nil
  writes := all_cons rfl <| all_nil
  zeros := all_cons rfl <| all_nil
  clones := all_nil
  fromSlice sl := fromSlice_text N Hmac.Hash.mk sl
  parsers := all_cons (fromHex_text N Hmac.Hash.mk) all_nil
  lowerHex h f _ := congrArg _ (fmt_slice .lower h.f0 f)
  upperHex h f _ := congrArg _ (fmt_slice .upper h.f0 f)
  display := rfl
  debug := rfl
  index h i := hmacIndex_text c N h i
  eq _ _ := rfl
  cmp _ _ := cmpSlice_eq_model _ _
  partialCmp _ _ := rfl

def midstate_plain (c : Cfg) (T : Sha256t.Tag) : Plain (hashText c T .midstate) 32 where
  make := Sha256.Midstate.mk
  make_toByteArray _ := rfl
  toByteArray_make _ := rfl
  len := rfl
  views := all_cons rfl <| all_cons rfl <| all_nil
  makers := all_cons rfl <| all_nil
  writes := all_nil
  zeros := all_cons rfl <| all_nil
  clones := all_nil
  fromSlice sl := fromSlice_text 32 Sha256.Midstate.mk sl
  parsers := all_cons (fromHex_text 32 Sha256.Midstate.mk) <| all_cons (fromHex_text 32 Sha256.Midstate.mk) all_nil
  lowerHex h f e := fmt_text 32 .lower h.f0 f e
  upperHex h f e := fmt_text 32 .upper h.f0 f e
  display := rfl
  debug := rfl
  index h i := index_text h.f0 i
  eq _ _ := rfl
  cmp _ _ := cmpSlice_eq_model _ _
  partialCmp _ _ := rfl

/-- The number of bytes of a hash type. -/
def bytesOf : HashTy → Nat
  | .sha1 => 20
  | .sha256 => 32
  | .sha384 => 48
  | .sha512 => 64
  | .sha512_256 => 32
  | .ripemd160 => 20
  | .siphash24 => 8
  | .sha256t => 32
  | .hmac N => N
  | .midstate => 32

def plain (c : Cfg) (T : Sha256t.Tag) : (t : HashTy) → Plain (hashText c T t) (bytesOf t)
  | .sha1 => sha1_plain c T
  | .sha256 => sha256_plain c T
  | .sha384 => sha384_plain c T
  | .sha512 => sha512_plain c T
  | .sha512_256 => sha512_256_plain c T
  | .ripemd160 => ripemd160_plain c T
  | .siphash24 => siphash24_plain c T
  | .sha256t => sha256t_plain c T
  | .hmac N => hmac_plain c T N
  | .midstate => midstate_plain c T

end Chf.Source
