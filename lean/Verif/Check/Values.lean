import Verif.Spec.Schema
import Verif.Spec.Utf8

/-!
# Executable instances of the theorems about hash values

As `Verif.Check.Instances`, for C27 - C32, C36 and C43.
-/

namespace Chf.Check
open Spec HashTy

def sources : List Source :=
  [.macro 160, .macro 256, .macro 384, .macro 512, .macro 64, .tagged, .hmac 0, .hmac 1, .hmac 5, .hmac 600,
    .midstate]

def mk (s : Source) (f : Nat → Byte) : Hash s := ⟨⟨(List.range s.len).map f, by simp⟩⟩

def fills : List (Nat → Byte) :=
  [fun _ => 0, fun _ => 255, fun i => .ofNat 8 (37 * i + 11), fun i => .ofNat 8 i,
    fun i => if i = 0 then 1 else 0, fun i => if i = 0 then 0 else 0xa9,
    fun i => if i < 7 then 0 else 9, fun i => if i < 17 then 0 else 7]

def onVals (p : (s : Source) → Hash s → Bool) : Bool :=
  sources.all fun s => fills.all fun f => p s (mk s f)

def onPairs (p : (s : Source) → Hash s → Hash s → Bool) : Bool :=
  sources.all fun s => fills.all fun f => fills.all fun g => p s (mk s f) (mk s g)

def hexCases : List Hex.Case := [.lower, .upper]

/-- Bytes for slices. -/
def some100 (n : Nat) : List Byte := (List.range n).map fun i => .ofNat 8 (3 * i + 100)

/-- Strings of the right length and others. -/
def strings (s : Source) : List (List Byte) :=
  let rep (t : String) (n : Nat) : List Byte := (List.replicate n (ascii t)).flatten
  [rep "00" s.len, rep "ff" s.len, rep "FF" s.len, rep "fF" s.len, rep "0a" s.len, rep "0A" s.len,
    rep "01" 1 ++ rep "00" (s.len - 1), rep "0g" s.len, rep "/0" s.len, rep ":0" s.len, rep "0@" s.len,
    rep "`0" s.len, rep "G0" s.len, rep "0 " s.len, rep "0x" s.len, rep "0x" 1 ++ rep "00" (s.len - 1),
    rep "00" (s.len - 1) ++ ascii "0z", rep "00" (s.len + 1), rep "00" (s.len - 1), ascii "0", [], [0xc3, 0xa9],
    [0xff, 0x30], rep "00" (s.len - 1) ++ [0xc3, 0xa9], rep "0" s.len]

/-- An inner `Ok` or `Err` with a property of its content. -/
def okOk {ε α : Type} (r : Res (Except ε α)) (p : α → Bool) : Bool :=
  match r with
  | .ok (.ok a) => p a
  | _ => false

def okErr {ε α : Type} (r : Res (Except ε α)) (p : ε → Bool) : Bool :=
  match r with
  | .ok (.error e) => p e
  | _ => false

def okAnd {α : Type} (r : Res α) (p : α → Bool) : Bool :=
  match r with
  | .ok a => p a
  | _ => false

/-! ## C27 -/

def check_C27_lengths (_ : Unit) : Bool :=
  decide (HashTy.sha1.len = 20 ∧ HashTy.sha256.len = 32 ∧ HashTy.sha384.len = 48 ∧ HashTy.sha512.len = 64 ∧
    HashTy.sha512_256.len = 32 ∧ HashTy.ripemd160.len = 20 ∧ HashTy.siphash24.len = 8 ∧
    HashTy.sha256t.len = 32 ∧ HashTy.midstate.len = 32 ∧ (HashTy.hmac 77).len = 77)

def check_C27_right_length (_ : Unit) : Bool :=
  sources.all fun s => okOk (fromSlice s (some100 s.len)) fun v => asBytes v == some100 s.len

def check_C27_wrong_length (_ : Unit) : Bool :=
  sources.all fun s => [0, 1, 19, 21, 31, 33, 65, 599].all fun n => n == s.len ||
    okErr (fromSlice s (some100 n)) fun e => e.expectedLength == s.len && e.invalidLength == n

def check_C27_message (_ : Unit) : Bool :=
  sources.all fun s => [0, 1, 19, 21, 31, 33, 65, 599].all fun n => n == s.len ||
    okErr (fromSlice s (some100 n)) fun e =>
      e.display == "invalid slice length " ++ toString n ++ " (expected " ++ toString s.len ++ ")"

/-! ## C28 -/

def check_C28_same_bytes (_ : Unit) : Bool :=
  onVals fun s a =>
    let bs := a.inner
    ([fromByteArray bs, fromBytesRef bs, (fromBytesMut bs).1] ++
      (match fromSlice s bs.val with | .ok (.ok v) => [v] | _ => [])).all fun v =>
    decide (toByteArray v = bs ∧ asByteArray v = bs ∧ asBytes v = bs.val ∧ toBytes v = bs.val ∧
      asRef v = .ok bs.val ∧ HashTy.index v .full = .ok bs.val)

def check_C28_eq (_ : Unit) : Bool :=
  onPairs fun _ a b => decide (HashTy.eq a b = true ↔ asBytes a = asBytes b)

def check_C28_rebuild (_ : Unit) : Bool :=
  onVals fun s a => decide (fromByteArray (toByteArray a) = a ∧ fromBytesRef (asByteArray a) = a ∧
    fromSlice s (asBytes a) = .ok (.ok a) ∧ (asBytes a).length = s.len)

def check_C28_write_through (_ : Unit) : Bool :=
  onPairs fun _ a b => decide (((fromBytesMut a.inner).2 b).val = asBytes b)

def positions : List Nat := [0, 1, 4, 5, 7, 8, 20, 31, 32, 33, 64, 599, 600, 1000]

def check_C28_index (_ : Unit) : Bool :=
  onVals fun s a => positions.all fun i =>
    (match (asBytes a)[i]? with
      | some b => decide (HashTy.index a (.at i) = .ok [b])
      | none => true) && decide (s.len ≤ i → HashTy.index a (.at i) = .error .sliceIndex)

def check_C28_index_range (_ : Unit) : Bool :=
  onVals fun s a => positions.all fun i => positions.all fun j =>
    decide ((i ≤ j → j ≤ s.len → HashTy.index a (.range i j) = .ok ((asBytes a).extract i j)) ∧
      ((j < i ∨ s.len < j) → HashTy.index a (.range i j) = .error .sliceIndex))

def check_C28_index_half (_ : Unit) : Bool :=
  onVals fun s a => positions.all fun i =>
    decide (HashTy.index a (.rangeTo i) = HashTy.index a (.range 0 i) ∧
      HashTy.index a (.rangeFrom i) = HashTy.index a (.range i s.len))

def check_C28_all_zeros (_ : Unit) : Bool :=
  sources.all fun s => decide (asBytes (allZeros (s := s)) = List.replicate s.len 0)

/-! ## C29 - C31 -/

def check_C29_round_trip (_ : Unit) : Bool :=
  onVals fun s a => hexCases.all fun case =>
    okAnd (fmtHex ⟨false⟩ case a) fun out => decide (fromStr s out = .ok (.ok a))

def check_C29_display (_ : Unit) : Bool :=
  onVals fun s a => okAnd (display ⟨false⟩ a) fun out => decide (fromStr s out = .ok (.ok a))

def check_C29_prefix_rejected (_ : Unit) : Bool :=
  onVals fun s a => hexCases.all fun case =>
    okAnd (fmtHex ⟨true⟩ case a) fun out => okErr (fromStr s out) fun _ => true

def check_C30_accepts (_ : Unit) : Bool :=
  onVals fun s a => (strings s).all fun str =>
    decide (fromStr s str = .ok (.ok a) ↔
      str.length = 2 * s.len ∧ (∀ x ∈ str, IsHexDigit x) ∧ value16 str = beNat (asBytes a))

def check_C30_succeeds (_ : Unit) : Bool :=
  sources.all fun s => (strings s).all fun str =>
    !decide (str.length = 2 * s.len ∧ ∀ x ∈ str, IsHexDigit x) || okOk (fromStr s str) fun _ => true

def check_C30_rejects (_ : Unit) : Bool :=
  sources.all fun s => (strings s).all fun str =>
    decide (str.length = 2 * s.len ∧ ∀ x ∈ str, IsHexDigit x) || okErr (fromStr s str) fun _ => true

def check_C30_errors (_ : Unit) : Bool :=
  sources.all fun s => (strings s).all fun str =>
    if str.length ≠ 2 * s.len then
      decide (fromStr s str = .ok (.error (.invalidLength (2 * s.len) str.length)))
    else match str.findIdx? (fun b => !decide (IsHexDigit b)) with
      | none => true
      | some i =>
        match str[i]? with
        | none => true
        | some b => decide (fromStr s str = .ok (.error (.invalidChar b i)))

def check_C30_case (_ : Unit) : Bool :=
  (sources.filter (·.len ≤ 64)).all fun s => (strings s).all fun a => (strings s).all fun b =>
    !decide ((∀ x ∈ a, IsHexDigit x) ∧ a.map digitVal = b.map digitVal) ||
      decide (fromStr s a = fromStr s b)

/-- The conclusion of `C31_display` and `C31_upper` about each digit. -/
def digitsOf (bs out : List Byte) : Bool :=
  (List.range bs.length).all fun i =>
    match bs[i]?, out[2 * i]?, out[2 * i + 1]? with
    | some b, some x, some y => decide (digitVal x = some (b.toNat / 16) ∧ digitVal y = some (b.toNat % 16))
    | none, _, _ => true
    | _, _, _ => false

def check_C31_display (_ : Unit) : Bool :=
  onVals fun s a => okAnd (display ⟨false⟩ a) fun out =>
    decide (fmtHex ⟨false⟩ .lower a = .ok out ∧ out.length = 2 * s.len ∧ ∀ x ∈ out, IsLowerDigit x) &&
      digitsOf (asBytes a) out

def check_C31_upper (_ : Unit) : Bool :=
  onVals fun s a => okAnd (fmtHex ⟨false⟩ .upper a) fun out =>
    decide (out.length = 2 * s.len ∧ ∀ x ∈ out, IsUpperDigit x) && digitsOf (asBytes a) out

def check_C31_value (_ : Unit) : Bool :=
  onVals fun _ a => hexCases.all fun case =>
    okAnd (fmtHex ⟨false⟩ case a) fun out => decide (value16 out = beNat (asBytes a))

def check_C31_prefix (_ : Unit) : Bool :=
  onVals fun _ a => hexCases.all fun case =>
    okAnd (fmtHex ⟨false⟩ case a) fun out => decide (fmtHex ⟨true⟩ case a = .ok (ascii "0x" ++ out))

def check_C31_debug (_ : Unit) : Bool :=
  onVals fun _ a => [true, false].all fun f =>
    okAnd (display ⟨false⟩ a) fun out => decide (debug ⟨f⟩ a = .ok (ascii "0x" ++ out))

def check_C31_injective (_ : Unit) : Bool :=
  onPairs fun _ a b => [true, false].all fun f => hexCases.all fun case =>
    decide (fmtHex ⟨f⟩ case a = fmtHex ⟨f⟩ case b → a = b)

/-! ## C36 -/

def check_C36_numeric (_ : Unit) : Bool :=
  onPairs fun _ a b => decide (cmp a b = compare (beNat (asBytes a)) (beNat (asBytes b)) ∧
    partialCmp a b = some (cmp a b))

def check_C36_total_order (_ : Unit) : Bool :=
  sources.all fun s => fills.all fun f => fills.all fun g => fills.all fun h =>
    let a := mk s f
    let b := mk s g
    let d := mk s h
    decide ((cmp a b = .eq ↔ a = b) ∧ (cmp a b = .eq ↔ HashTy.eq a b = true) ∧
      cmp b a = (cmp a b).swap ∧ (cmp a b = .lt → cmp b d = .lt → cmp a d = .lt) ∧
      (cmp a b ≠ .gt → cmp b d ≠ .gt → cmp a d ≠ .gt))

def check_C36_display_order (_ : Unit) : Bool :=
  onPairs fun _ a b => okAnd (display ⟨false⟩ a) fun x => okAnd (display ⟨false⟩ b) fun y =>
    decide (cmp a b = compare (value16 x) (value16 y) ∧ (cmp a b = .lt ↔ x < y))

/-! ## C32 -/

def check_C32_round_trip (_ : Unit) : Bool :=
  onVals fun s a => [true, false].all fun human =>
    okAnd (serialize human a) fun d => decide (deserialize s human d = .ok (.ok a))

def check_C32_string_as_bytes (_ : Unit) : Bool :=
  onVals fun s a => okAnd (serialize true a) fun
    | .str out => decide (deserialize s true (.bytes out) = .ok (.ok a))
    | _ => false

def check_C32_format (_ : Unit) : Bool :=
  onVals fun _ a => okAnd (display ⟨false⟩ a) (fun out => decide (serialize true a = .ok (.str out))) &&
    decide (serialize false a = .ok (.bytes (asBytes a)))

def humanCheck (mkData : List Byte → Data) : Bool :=
  onVals fun s a => (strings s).all fun v =>
    decide (deserialize s true (mkData v) = .ok (.ok a) ↔
      v.length = 2 * s.len ∧ (∀ x ∈ v, IsHexDigit x) ∧ value16 v = beNat (asBytes a)) &&
    (decide (v.length = 2 * s.len ∧ ∀ x ∈ v, IsHexDigit x) ||
      okErr (deserialize s true (mkData v)) fun _ => true)

def check_C32_human (_ : Unit) : Bool := humanCheck .str

def check_C32_human_bytes (_ : Unit) : Bool := humanCheck .bytes

/-- Bytes that are not UTF-8: stray and missing continuation bytes, overlong encodings, surrogates, code
points that are too large. -/
def notUtf8 : List (List Byte) :=
  [[0xff, 0x30], [0x80], [0xc3], [0xc3, 0x30], [0xc0, 0x80], [0xc1, 0xbf], [0xe0, 0x9f, 0xbf], [0xe2, 0x82],
    [0xe2, 0x82, 0xc0], [0xed, 0xa0, 0x80], [0xed, 0xbf, 0xbf], [0xf0, 0x8f, 0xbf, 0xbf], [0xf4, 0x90, 0x80, 0x80],
    [0xf5, 0x80, 0x80, 0x80], [0xf0, 0x9f, 0x98], [0xf0, 0x9f, 0x98, 0x30], [0x30, 0xc3, 0xa9, 0xff]]

/-- The first and the last code points of every range. -/
def areUtf8 : List (List Byte) :=
  [[], [0x30], [0x7f], [0xc2, 0x80], [0xdf, 0xbf], [0xe0, 0xa0, 0x80], [0xed, 0x9f, 0xbf], [0xee, 0x80, 0x80],
    [0xef, 0xbf, 0xbf], [0xf0, 0x90, 0x80, 0x80], [0xf4, 0x8f, 0xbf, 0xbf], [0x30, 0xc3, 0xa9, 0x31, 0xe2, 0x82, 0xac]]

def check_C32_human_errors (_ : Unit) : Bool :=
  sources.all fun s =>
    notUtf8.all (fun v => decide (deserialize s true (.bytes v) = .ok (.error .invalidValue))) &&
    areUtf8.all (fun v => decide (deserialize s true (.bytes v) = deserialize s true (.str v))) &&
    (strings s).all fun v => decide (v.length = 2 * s.len) ||
      decide (deserialize s true (.str v) = .ok (.error (.custom (.invalidLength (2 * s.len) v.length))))

def check_C32_binary (_ : Unit) : Bool :=
  onVals fun s a => ([asBytes a, asBytes a ++ [0], [], some100 s.len, (asBytes a).drop 1]).all fun v =>
    decide ((deserialize s false (.bytes v) = .ok (.ok a) ↔ v = asBytes a) ∧
      (v.length ≠ s.len → deserialize s false (.bytes v) = .ok (.error (.invalidLength v.length))))

def check_C32_other (_ : Unit) : Bool :=
  sources.all fun s => (strings s).all fun v => [true, false].all fun human =>
    decide (deserialize s human .other = .ok (.error .invalidType) ∧
      deserialize s false (.str v) = .ok (.error .invalidType))

/-! ## C43 -/

def builds : List Cfg := [.debug64, .release64, .release32]

def inClass (rs : List (Byte × Byte)) (b : Byte) : Bool := rs.any fun r => decide (r.1 ≤ b ∧ b ≤ r.2)

/-- `false` only if no part of the string matches. -/
def mayFind : Regex → List Byte → Bool
  | .cls rs, v => v.any (inClass rs)
  | .plus (.cls rs), v => v.any (inClass rs)
  | _, _ => true

/-- `true` only if the string matches. -/
def surelyMatches : Regex → List Byte → Bool
  | .plus (.cls rs), v => !v.isEmpty && v.all (inClass rs)
  | _, _ => false

def check_C43_exists (_ : Unit) : Bool :=
  builds.all fun c => sources.all fun s =>
    match s with
    | .midstate => true
    | s => match jsonSchema c s with
      | some (.ok sch) => sch.minLength == 2 * s.len && sch.maxLength == 2 * s.len
      | _ => false

def check_C43_admits (_ : Unit) : Bool :=
  builds.all fun c => onVals fun s a =>
    match jsonSchema c s, serialize true a with
    | some (.ok sch), .ok (.str v) => s.len == 0 ||
        (decide (sch.minLength ≤ chars v ∧ chars v ≤ sch.maxLength) && mayFind sch.pattern v)
    | _, _ => true

def check_C43_deserializes (_ : Unit) : Bool :=
  builds.all fun c => sources.all fun s => (strings s).all fun v =>
    match jsonSchema c s with
    | some (.ok sch) =>
        !(decide (sch.minLength ≤ chars v ∧ chars v ≤ sch.maxLength) && surelyMatches sch.pattern v) ||
          okOk (deserialize s true (.str v)) fun _ => true
    | _ => true

/-- `false` only if the string does not match. -/
def mayMatch : Regex → List Byte → Bool
  | .plus (.cls rs), v => v.all (inClass rs)
  | _, _ => true

def check_C43_exact (_ : Unit) : Bool :=
  builds.all fun c => sources.all fun s => (strings s).all fun v =>
    match jsonSchema c s with
    | some (.ok sch) => s.len == 0 || !okOk (deserialize s true (.str v)) (fun _ => true) ||
        (decide (sch.minLength ≤ chars v ∧ chars v ≤ sch.maxLength) && mayMatch sch.pattern v)
    | _ => true

def valueChecks : List (String × (Unit → Bool)) := [
  ("C27_lengths", check_C27_lengths),
  ("C27_right_length", check_C27_right_length),
  ("C27_wrong_length", check_C27_wrong_length),
  ("C27_message", check_C27_message),
  ("C28_same_bytes", check_C28_same_bytes),
  ("C28_eq", check_C28_eq),
  ("C28_rebuild", check_C28_rebuild),
  ("C28_write_through", check_C28_write_through),
  ("C28_index", check_C28_index),
  ("C28_index_range", check_C28_index_range),
  ("C28_index_half", check_C28_index_half),
  ("C28_all_zeros", check_C28_all_zeros),
  ("C29_round_trip", check_C29_round_trip),
  ("C29_display", check_C29_display),
  ("C29_prefix_rejected", check_C29_prefix_rejected),
  ("C30_accepts", check_C30_accepts),
  ("C30_succeeds", check_C30_succeeds),
  ("C30_rejects", check_C30_rejects),
  ("C30_errors", check_C30_errors),
  ("C30_case", check_C30_case),
  ("C31_display", check_C31_display),
  ("C31_upper", check_C31_upper),
  ("C31_value", check_C31_value),
  ("C31_prefix", check_C31_prefix),
  ("C31_debug", check_C31_debug),
  ("C31_injective", check_C31_injective),
  ("C36_numeric", check_C36_numeric),
  ("C36_total_order", check_C36_total_order),
  ("C36_display_order", check_C36_display_order),
  ("C32_round_trip", check_C32_round_trip),
  ("C32_string_as_bytes", check_C32_string_as_bytes),
  ("C32_format", check_C32_format),
  ("C32_human", check_C32_human),
  ("C32_human_bytes", check_C32_human_bytes),
  ("C32_human_errors", check_C32_human_errors),
  ("C32_binary", check_C32_binary),
  ("C32_other", check_C32_other),
  ("C43_exists", check_C43_exists),
  ("C43_admits", check_C43_admits),
  ("C43_deserializes", check_C43_deserializes),
  ("C43_exact", check_C43_exact)]

end Chf.Check
