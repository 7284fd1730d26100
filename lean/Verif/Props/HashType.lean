import Verif.Proofs.HashType

/-!
# Properties C27 to C31 and C36: hash values

`s` is any of the ways in which a hash type of the crate is implemented, `s.len` its length in bytes.
A string is the list of its bytes.
-/

namespace Chf.Props
open Spec HashTy

/-- A value to test with: `sha1::Hash` of the bytes 0, 1, 2, ... -/
def sample : Hash (HashTy.sha1).source := ⟨⟨(List.range 20).map (BitVec.ofNat 8 ·), by decide⟩⟩

/-! ## C27 -/

/-- C27: the lengths. -/
theorem C27_lengths :
    HashTy.sha1.len = 20 ∧ HashTy.sha256.len = 32 ∧ HashTy.sha384.len = 48 ∧ HashTy.sha512.len = 64 ∧
      HashTy.sha512_256.len = 32 ∧ HashTy.ripemd160.len = 20 ∧ HashTy.siphash24.len = 8 ∧
      HashTy.sha256t.len = 32 ∧ HashTy.midstate.len = 32 ∧ ∀ N, (HashTy.hmac N).len = N := by
  refine ⟨by decide, by decide, by decide, by decide, by decide, by decide, by decide, by decide, by decide,
    fun _ => rfl⟩

/-- C27: a slice of the right length is accepted and its bytes are kept. -/
theorem C27_right_length (s : Source) (sl : List Byte) (h : sl.length = s.len) :
    ∃ v, fromSlice s sl = .ok (.ok v) ∧ asBytes v = sl :=
  ⟨_, fromSlice_ok sl h, rfl⟩

example : (asBytes sample).length = (HashTy.sha1).source.len ∧
    fromSlice _ (asBytes sample) = .ok (.ok sample) := by decide +kernel

/-- C27: a slice of any other length is an error that names both lengths. -/
theorem C27_wrong_length (s : Source) (sl : List Byte) (h : sl.length ≠ s.len) :
    ∃ e, fromSlice s sl = .ok (.error e) ∧ e.expectedLength = s.len ∧ e.invalidLength = sl.length :=
  ⟨_, fromSlice_err sl h, rfl, rfl⟩

example : ([1, 2, 3] : List Byte).length ≠ (HashTy.hmac 4).source.len ∧
    fromSlice (HashTy.hmac 4).source [1, 2, 3] = .ok (.error { expected := 4, got := 3 }) := by
  decide +kernel

/-- C27: how such an error reads. -/
theorem C27_message (s : Source) (sl : List Byte) (h : sl.length ≠ s.len) :
    ∃ e, fromSlice s sl = .ok (.error e) ∧
      e.display =
        "invalid slice length " ++ toString sl.length ++ " (expected " ++ toString s.len ++ ")" :=
  ⟨{ expected := s.len, got := sl.length }, fromSlice_err sl h, by
    delta FromSliceError.display; with_reducible rfl⟩

example : FromSliceError.display { expected := 32, got := 3 } = "invalid slice length 3 (expected 32)" := by
  decide +kernel

/-! ## C28 -/

/-- C28: every way to make a hash from bytes followed by every way to read its bytes is the identity. -/
theorem C28_same_bytes (s : Source) (bs : Bytes s.len) (v : Hash s)
    (hv : v = fromByteArray bs ∨ v = fromBytesRef bs ∨ v = (fromBytesMut bs).1 ∨
      fromSlice s bs.val = .ok (.ok v)) :
    toByteArray v = bs ∧ asByteArray v = bs ∧ asBytes v = bs.val ∧ toBytes v = bs.val ∧
      asRef v = .ok bs.val ∧ HashTy.index v .full = .ok bs.val := by
  have : v = ⟨bs⟩ := by
    rcases hv with h | h | h | h
    · exact h
    · exact h
    · exact h
    · rw [fromSlice_ok bs.val bs.property] at h; cases h; rfl
  subst this
  refine ⟨rfl, rfl, rfl, rfl, ?_, rfl⟩
  cases s <;> rfl

example : fromSlice _ (asBytes sample) = .ok (.ok sample) ∧ asRef sample = .ok (asBytes sample) ∧
    (asBytes sample)[19]? = some 19 := by decide +kernel

/-- C28: a hash is determined by its bytes, and `==` says so. -/
theorem C28_eq (s : Source) (a b : Hash s) : HashTy.eq a b = true ↔ asBytes a = asBytes b := by
  simp [eq_bytes, asBytes]

/-- C28: a hash can be rebuilt from its bytes. -/
theorem C28_rebuild (s : Source) (a : Hash s) :
    fromByteArray (toByteArray a) = a ∧ fromBytesRef (asByteArray a) = a ∧
      fromSlice s (asBytes a) = .ok (.ok a) ∧ (asBytes a).length = s.len :=
  ⟨rfl, rfl, fromSlice_ok _ a.inner.property, a.inner.property⟩

/-- C28: writing a hash through the reference that `from_bytes_mut` returns leaves the bytes of that
hash in the array. -/
theorem C28_write_through (s : Source) (bs : Bytes s.len) (w : Hash s) :
    ((fromBytesMut bs).2 w).val = asBytes w := rfl

/-- C28: indexing by a position gives that byte, and panics exactly from the length on. -/
theorem C28_index (s : Source) (a : Hash s) (i : Nat) :
    (∀ b, (asBytes a)[i]? = some b → HashTy.index a (.at i) = .ok [b]) ∧
      (s.len ≤ i → HashTy.index a (.at i) = .error .sliceIndex) := by
  have hl := a.inner.property
  constructor
  · intro b hb
    simp only [asBytes] at hb
    simp [HashTy.index, sliceIndex, Chf.index, hb, bind, Except.bind, pure, Except.pure]
  · intro h
    have : a.inner.val[i]? = none := List.getElem?_eq_none (by omega)
    simp [HashTy.index, sliceIndex, Chf.index, this, bind, Except.bind]

example : HashTy.index sample (.at 19) = .ok [19] ∧ HashTy.index sample (.at 20) = .error .sliceIndex := by
  decide +kernel

/-- C28: indexing by a range gives those bytes, and panics if it is not a range of the hash. -/
theorem C28_index_range (s : Source) (a : Hash s) (i j : Nat) :
    (i ≤ j → j ≤ s.len → HashTy.index a (.range i j) = .ok ((asBytes a).extract i j)) ∧
      ((j < i ∨ s.len < j) → HashTy.index a (.range i j) = .error .sliceIndex) := by
  have hl := a.inner.property
  constructor
  · intro h1 h2
    simp only [HashTy.index, sliceIndex, if_pos (show i ≤ j ∧ j ≤ a.inner.val.length by omega), asBytes,
      List.extract_eq_take_drop]
  · intro h
    simp only [HashTy.index, sliceIndex, if_neg (show ¬ (i ≤ j ∧ j ≤ a.inner.val.length) by omega)]

example : HashTy.index sample (.range 2 4) = .ok [2, 3] ∧
    HashTy.index sample (.range 2 21) = .error .sliceIndex := by decide +kernel

/-- C28: half-open ranges are the ranges from 0 and up to the length. -/
theorem C28_index_half (s : Source) (a : Hash s) (i : Nat) :
    HashTy.index a (.rangeTo i) = HashTy.index a (.range 0 i) ∧
      HashTy.index a (.rangeFrom i) = HashTy.index a (.range i s.len) := by
  have hl := a.inner.property
  constructor
  · simp [HashTy.index, sliceIndex, sliceTo]
  · simp only [HashTy.index, sliceIndex, sliceFrom, hl, Nat.le_refl, and_true]
    split
    · rw [List.take_of_length_le (by simp [hl])]
    · rfl

/-- C28: the all-zero hash has that many zero bytes. -/
theorem C28_all_zeros (s : Source) : asBytes (allZeros (s := s)) = List.replicate s.len 0 := rfl

/-! ## C31 -/

/-- C31: `Display` and `{:x}` write `2 * LEN` lower-case hexadecimal digits, two for each byte in
order. -/
theorem C31_display (s : Source) (a : Hash s) :
    ∃ out, display ⟨false⟩ a = .ok out ∧ fmtHex ⟨false⟩ .lower a = .ok out ∧
      out.length = 2 * s.len ∧ (∀ x ∈ out, IsLowerDigit x) ∧
      ∀ i b, (asBytes a)[i]? = some b →
        ∃ x y, out[2 * i]? = some x ∧ out[2 * i + 1]? = some y ∧
          digitVal x = some (b.toNat / 16) ∧ digitVal y = some (b.toNat % 16) := by
  refine ⟨Hex.putBytes .lower a.inner.val, fmtHex_eq _ _ a, fmtHex_eq _ _ a,
    by rw [Hex.length_putBytes, a.inner.property], Hex.putBytes_digits .lower _, fun i b hb => ?_⟩
  obtain ⟨hi, rfl⟩ := List.getElem?_eq_some_iff.1 hb
  exact Hex.putBytes_getElem .lower a.inner.val i hi

/-- C31: `{:X}` writes upper-case digits. -/
theorem C31_upper (s : Source) (a : Hash s) :
    ∃ out, fmtHex ⟨false⟩ .upper a = .ok out ∧
      out.length = 2 * s.len ∧ (∀ x ∈ out, IsUpperDigit x) ∧
      ∀ i b, (asBytes a)[i]? = some b →
        ∃ x y, out[2 * i]? = some x ∧ out[2 * i + 1]? = some y ∧
          digitVal x = some (b.toNat / 16) ∧ digitVal y = some (b.toNat % 16) := by
  refine ⟨Hex.putBytes .upper a.inner.val, fmtHex_eq _ _ a,
    by rw [Hex.length_putBytes, a.inner.property], Hex.putBytes_digits .upper _, fun i b hb => ?_⟩
  obtain ⟨hi, rfl⟩ := List.getElem?_eq_some_iff.1 hb
  exact Hex.putBytes_getElem .upper a.inner.val i hi

/-- C31: read as a number, the digits are the bytes read as a big-endian number. -/
theorem C31_value (s : Source) (a : Hash s) (case : Hex.Case) :
    ∃ out, fmtHex ⟨false⟩ case a = .ok out ∧ value16 out = beNat (asBytes a) :=
  ⟨_, fmtHex_eq _ _ a, Hex.value16_putBytes case _⟩

/-- C31: with the alternate flag `0x` comes first; `Debug` always does that. -/
theorem C31_prefix (s : Source) (a : Hash s) (case : Hex.Case) :
    ∃ out, fmtHex ⟨false⟩ case a = .ok out ∧ fmtHex ⟨true⟩ case a = .ok (ascii "0x" ++ out) :=
  ⟨_, fmtHex_eq _ _ a, fmtHex_eq _ _ a⟩

/-- C31: `Debug` writes `0x` and then what `Display` writes. -/
theorem C31_debug (s : Source) (a : Hash s) (f : Hex.Flags) :
    ∃ out, display ⟨false⟩ a = .ok out ∧ debug f a = .ok (ascii "0x" ++ out) :=
  ⟨_, fmtHex_eq _ _ a, fmtHex_eq _ _ a⟩

/-- C31: distinct hashes are written differently. -/
theorem C31_injective (s : Source) (a b : Hash s) (f : Hex.Flags) (case : Hex.Case)
    (h : fmtHex f case a = fmtHex f case b) : a = b := by
  rw [fmtHex_eq, fmtHex_eq] at h
  have h1 : Hex.putBytes case a.inner.val = Hex.putBytes case b.inner.val := by
    simp only [Hex.padIntegral, Except.ok.injEq] at h
    split at h
    · exact List.append_cancel_left h
    · exact h
  have h2 : a.inner = b.inner :=
    Subtype.ext (Hex.putBytes_inj (by rw [a.inner.property, b.inner.property]) h1)
  cases a; cases b; cases h2; rfl

example : display ⟨false⟩ sample = .ok (ascii "000102030405060708090a0b0c0d0e0f10111213") ∧
    fmtHex ⟨true⟩ .upper sample = .ok (ascii "0x000102030405060708090A0B0C0D0E0F10111213") ∧
    debug ⟨false⟩ sample = .ok (ascii "0x000102030405060708090a0b0c0d0e0f10111213") := by
  decide +kernel

/-! ## C30 -/

/-- C30: parsing succeeds exactly on `2 * LEN` hexadecimal digits of either case, with the hash whose
bytes are the big-endian form of that number. -/
theorem C30_accepts (s : Source) (str : List Byte) (a : Hash s) :
    fromStr s str = .ok (.ok a) ↔
      str.length = 2 * s.len ∧ (∀ x ∈ str, IsHexDigit x) ∧ value16 str = beNat (asBytes a) :=
  fromStr_iff str a

/-- C30: so every such string is accepted. -/
theorem C30_succeeds (s : Source) (str : List Byte) (hl : str.length = 2 * s.len)
    (hd : ∀ x ∈ str, IsHexDigit x) : ∃ a, fromStr s str = .ok (.ok a) := by
  obtain ⟨bs, h1, -⟩ := Hex.fromHex_ok s.len str hl hd
  exact ⟨_, fromStr_ok str bs h1⟩

example : (ascii "00fF").length = 2 * (HashTy.hmac 2).source.len ∧ (∀ x ∈ ascii "00fF", IsHexDigit x) ∧
    fromStr (HashTy.hmac 2).source (ascii "00fF") = .ok (.ok ⟨⟨[0, 255], rfl⟩⟩) := by decide +kernel

/-- C30: any other string is an error, not a panic. -/
theorem C30_rejects (s : Source) (str : List Byte)
    (h : ¬ (str.length = 2 * s.len ∧ ∀ x ∈ str, IsHexDigit x)) :
    ∃ e, fromStr s str = .ok (.error e) := by
  obtain ⟨r, hr⟩ := fromStr_total (s := s) str
  cases r with
  | error e => exact ⟨e, hr⟩
  | ok a =>
    have := (fromStr_iff str a).1 hr
    exact absurd ⟨this.1, this.2.1⟩ h

example : ¬ ((ascii "0x").length = 2 * (HashTy.hmac 1).source.len ∧ ∀ x ∈ ascii "0x", IsHexDigit x) ∧
    fromStr (HashTy.hmac 1).source (ascii "0x") = .ok (.error (.invalidChar 120 1)) := by decide +kernel

/-- C30: which error: the wrong length, or the first character that is not a digit. -/
theorem C30_errors (s : Source) (str : List Byte) :
    (str.length ≠ 2 * s.len → fromStr s str = .ok (.error (.invalidLength (2 * s.len) str.length))) ∧
      (str.length = 2 * s.len → ∀ i, (hi : i < str.length) →
        (∀ j, (hj : j < i) → IsHexDigit str[j]) → ¬ IsHexDigit str[i] →
        fromStr s str = .ok (.error (.invalidChar str[i] i))) :=
  ⟨fun h => fromStr_err str _ (Hex.fromHex_len s.len str h),
    fun h i hi hj hb => fromStr_err str _ (Hex.fromHex_char s.len str h i hi hj hb)⟩

/-- C30: case does not matter: strings with the same digits parse alike. -/
theorem C30_case (s : Source) (a b : List Byte) (ha : ∀ x ∈ a, IsHexDigit x)
    (h : a.map digitVal = b.map digitVal) : fromStr s a = fromStr s b := by
  have hlen : a.length = b.length := by simpa using congrArg List.length h
  have hb : ∀ x ∈ b, IsHexDigit x := by
    intro x hx
    have : digitVal x ∈ a.map digitVal := h ▸ List.mem_map_of_mem hx
    obtain ⟨y, hy, e⟩ := List.mem_map.1 this
    unfold IsHexDigit; rw [← e]; exact ha y hy
  have hv : value16 a = value16 b := by
    have key : ∀ l : List Byte, value16 l = (l.map digitVal).foldl (fun acc d => acc * 16 + d.getD 0) 0 := by
      intro l; rw [List.foldl_map]; rfl
    rw [key, key, h]
  by_cases hl : a.length = 2 * s.len
  · obtain ⟨v, hv'⟩ := C30_succeeds s a hl ha
    rw [hv', Eq.comm]
    have := (fromStr_iff a v).1 hv'
    exact (fromStr_iff b v).2 ⟨by omega, hb, hv ▸ this.2.2⟩
  · rw [(C30_errors s a).1 hl, (C30_errors s b).1 (by omega), hlen]

example : (ascii "aB").map digitVal = (ascii "Ab").map digitVal ∧ ascii "aB" ≠ ascii "Ab" := by
  decide +kernel

/-! ## C29 -/

/-- C29: parsing what any of the formats without prefix wrote returns the value. -/
theorem C29_round_trip (s : Source) (a : Hash s) (case : Hex.Case) :
    ∃ out, fmtHex ⟨false⟩ case a = .ok out ∧ fromStr s out = .ok (.ok a) :=
  ⟨_, fmtHex_eq _ _ a, fromStr_ok _ _ (Hex.fromHex_putBytes case a.inner)⟩

/-- C29: the same for `Display`. -/
theorem C29_display (s : Source) (a : Hash s) :
    ∃ out, display ⟨false⟩ a = .ok out ∧ fromStr s out = .ok (.ok a) :=
  C29_round_trip s a .lower

example : fromStr _ (ascii "000102030405060708090a0b0c0d0e0f10111213") = .ok (.ok sample) ∧
    fromStr _ (ascii "000102030405060708090A0B0C0D0E0F10111213") = .ok (.ok sample) := by decide +kernel

/-- C29: what `Debug` or the alternate flag writes, with its `0x`, is never parsed back. -/
theorem C29_prefix_rejected (s : Source) (a : Hash s) (case : Hex.Case) :
    ∃ out e, fmtHex ⟨true⟩ case a = .ok out ∧ fromStr s out = .ok (.error e) := by
  refine ⟨_, _, fmtHex_eq _ _ a, (C30_errors s _).1 ?_⟩
  simp only [Hex.padIntegral, if_true, List.length_append, Hex.length_putBytes, a.inner.property,
    show (ascii "0x").length = 2 from by decide]
  omega

/-! ## C36 -/

/-- C36: hashes are ordered like the big-endian numbers of their bytes. -/
theorem C36_numeric (s : Source) (a b : Hash s) :
    cmp a b = compare (beNat (asBytes a)) (beNat (asBytes b)) ∧ partialCmp a b = some (cmp a b) :=
  ⟨by rw [cmp_bytes]; exact cmpSlice_eq _ _ (a.inner.property.trans b.inner.property.symm),
    partialCmp_eq a b⟩

example : cmp (s := .hmac 2) ⟨⟨[1, 0], rfl⟩⟩ ⟨⟨[0, 255], rfl⟩⟩ = .gt := by decide +kernel

/-- C36: it is a total order: reflexive and antisymmetric with respect to `==`, transitive, and
reversed by swapping. -/
theorem C36_total_order (s : Source) (a b d : Hash s) :
    (cmp a b = .eq ↔ a = b) ∧ (cmp a b = .eq ↔ HashTy.eq a b = true) ∧ cmp b a = (cmp a b).swap ∧
      (cmp a b = .lt → cmp b d = .lt → cmp a d = .lt) ∧
      (cmp a b ≠ .gt → cmp b d ≠ .gt → cmp a d ≠ .gt) := by
  have heq : cmp a b = .eq ↔ a = b := by
    rw [(C36_numeric s a b).1, Nat.compare_eq_eq]
    constructor
    · intro h
      have : a.inner = b.inner := Subtype.ext (beNat_inj (by rw [a.inner.property, b.inner.property]) h)
      cases a; cases b; cases this; rfl
    · rintro rfl; rfl
  refine ⟨heq, ?_, ?_, ?_, ?_⟩
  · rw [heq, C28_eq]
    constructor
    · rintro rfl; rfl
    · intro h
      have : a.inner = b.inner := Subtype.ext h
      cases a; cases b; cases this; rfl
  · rw [(C36_numeric s a b).1, (C36_numeric s b a).1, Nat.compare_swap]
  · rw [(C36_numeric s a b).1, (C36_numeric s b d).1, (C36_numeric s a d).1]
    simp only [Nat.compare_eq_lt]; omega
  · rw [(C36_numeric s a b).1, (C36_numeric s b d).1, (C36_numeric s a d).1]
    simp only [Nat.compare_ne_gt]; omega

theorem table_lower_lt : ∀ i, i < 16 → ∀ j, j < 16 →
    ((Hex.table .lower).getD i 0 < (Hex.table .lower).getD j 0 ↔ i < j) := by decide +kernel

theorem table_lower_inj : ∀ i, i < 16 → ∀ j, j < 16 →
    ((Hex.table .lower).getD i 0 = (Hex.table .lower).getD j 0 ↔ i = j) := by decide +kernel

theorem putBytes_lower_lt : ∀ {a b : List Byte}, a.length = b.length →
    (Hex.putBytes .lower a < Hex.putBytes .lower b ↔ cmpSlice a b = .lt)
  | [], [], _ => by simp [Hex.putBytes, cmpSlice]
  | x :: xs, y :: ys, h => by
    have ih := putBytes_lower_lt (a := xs) (b := ys) (by simpa using h)
    have e : ∀ z : Byte, ∀ zs, Hex.putBytes .lower (z :: zs) = (Hex.table .lower).getD (z.toNat / 16) 0 ::
        (Hex.table .lower).getD (z.toNat % 16) 0 :: Hex.putBytes .lower zs := by
      intro z zs
      rw [show Hex.putBytes .lower (z :: zs) = Hex.encodeByte .lower z ++ Hex.putBytes .lower zs from rfl,
        Hex.encodeByte_eq]
      rfl
    rw [e, e, List.cons_lt_cons_iff, List.cons_lt_cons_iff, ih]
    have hx := x.isLt
    have hy := y.isLt
    rw [table_lower_lt _ (by omega) _ (by omega), table_lower_lt _ (by omega) _ (by omega),
      table_lower_inj _ (by omega) _ (by omega), table_lower_inj _ (by omega) _ (by omega)]
    simp only [cmpSlice, BitVec.lt_def]
    split
    · simp; omega
    · split
      · simp; omega
      · constructor
        · intro h; rcases h with h | ⟨h, h' | h'⟩ <;> first | omega | exact h'.2
        · intro h'; exact .inr ⟨by omega, .inr ⟨by omega, h'⟩⟩
/-- C36: the order of the displayed strings, by value or character by character, is the order of the
hashes. -/
theorem C36_display_order (s : Source) (a b : Hash s) :
    ∃ x y, display ⟨false⟩ a = .ok x ∧ display ⟨false⟩ b = .ok y ∧
      cmp a b = compare (value16 x) (value16 y) ∧ (cmp a b = .lt ↔ x < y) := by
  refine ⟨_, _, fmtHex_eq _ _ a, fmtHex_eq _ _ b, ?_, ?_⟩
  · rw [(C36_numeric s a b).1]
    simp only [Hex.padIntegral]
    rw [if_neg (by decide), if_neg (by decide), Hex.value16_putBytes, Hex.value16_putBytes]
    rfl
  · simp only [Hex.padIntegral]
    rw [if_neg (by decide), if_neg (by decide)]
    rw [cmp_bytes]
    exact (putBytes_lower_lt (a.inner.property.trans b.inner.property.symm)).symm

end Chf.Props
