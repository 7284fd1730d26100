import Verif.Proofs.Source.Types
import Verif.Props.HashType

/-!
# C71 to C73: the hash types of the translated text
-/

namespace Chf.Props
open Chf Chf.Spec Chf.HashTy

variable (c : Cfg) (T : Source.Sha256t.Tag) (t : HashTy)

/-! ## C71 -/

/-- C71: whatever makes a value of bytes and whatever shows the bytes of a value, they are the same
bytes; assigning a value through `from_bytes_mut` puts its bytes into the array. -/
theorem C71_conversions (bs : List Byte) (h : (Source.hashText c T t).H) :
    (Source.hashText c T t).toByteArray ∈ (Source.hashText c T t).views ∧
    (∀ mk ∈ (Source.hashText c T t).makers, ∀ v ∈ (Source.hashText c T t).views,
      v (mk bs) = bs ∧ mk (v h) = h) ∧
    (∀ w ∈ (Source.hashText c T t).writes, ∀ v ∈ (Source.hashText c T t).views, w bs h = v h) ∧
    ∀ cl ∈ (Source.hashText c T t).clones, cl h = h := by
  have p := Source.plain c T t
  refine ⟨?_, fun mk hm v hv => ?_, fun w hw v hv => ?_, fun cl hc => ?_⟩
  · cases t <;> exact List.mem_cons_self
  · rw [p.makers mk hm, p.views v hv]
    exact ⟨p.toByteArray_make bs, p.make_toByteArray h⟩
  · rw [p.writes w hw, p.views v hv]
  · rw [p.clones cl hc]
    rfl

/-- C71: how many functions that is for each type; `sha256::Midstate` has no `as_bytes` and the like,
and `hmac::Hash` is no `AsRef<[u8; N]>`. -/
theorem C71_count :
    ((Source.hashText c T t).views.length, (Source.hashText c T t).makers.length,
      (Source.hashText c T t).writes.length, (Source.hashText c T t).zeros.length,
      (Source.hashText c T t).parsers.length) =
    match t with
    | .sha256t => (6, 3, 1, 2, 1)
    | .hmac _ => (5, 3, 1, 1, 1)
    | .midstate => (2, 1, 0, 1, 2)
    | _ => (6, 3, 1, 1, 1) := by
  cases t <;> rfl

/-- C71: `all_zeros` and `Default` are as many zero bytes as `LEN` says. -/
theorem C71_zeros (z : (Source.hashText c T t).H) (hz : z ∈ (Source.hashText c T t).zeros) :
    (Source.hashText c T t).len = Source.bytesOf t ∧
    (Source.hashText c T t).toByteArray z = List.replicate (Source.bytesOf t) 0 := by
  have p := Source.plain c T t
  rw [p.zeros z hz]
  exact ⟨p.len, p.toByteArray_make _⟩

/-- C71: `from_slice` takes slices of exactly the right length, and says what was wrong with others. -/
theorem C71_from_slice (sl : List Byte) :
    (sl.length = Source.bytesOf t → ∃ h, (Source.hashText c T t).fromSlice sl = .ok (.ok h) ∧
      (Source.hashText c T t).toByteArray h = sl) ∧
    (sl.length ≠ Source.bytesOf t →
      (Source.hashText c T t).fromSlice sl = .ok (.error ⟨Source.bytesOf t, sl.length⟩)) := by
  have p := Source.plain c T t
  refine ⟨fun h => ⟨p.make sl, ?_, p.toByteArray_make sl⟩, fun h => ?_⟩
  · rw [p.fromSlice, if_pos h]
  · rw [p.fromSlice, if_neg h]

/-- C71: indexing a hash is indexing its bytes. -/
theorem C71_index (h : (Source.hashText c T t).H) (i j : Nat) :
    (∀ b, ((Source.hashText c T t).toByteArray h)[i]? = some b →
      (Source.hashText c T t).index h (.at i) = .ok [b]) ∧
    (((Source.hashText c T t).toByteArray h).length ≤ i →
      (Source.hashText c T t).index h (.at i) = .error .sliceIndex) ∧
    (i ≤ j → j ≤ ((Source.hashText c T t).toByteArray h).length →
      (Source.hashText c T t).index h (.range i j) =
        .ok (((Source.hashText c T t).toByteArray h).extract i j)) ∧
    ((j < i ∨ ((Source.hashText c T t).toByteArray h).length < j) →
      (Source.hashText c T t).index h (.range i j) = .error .sliceIndex) ∧
    (Source.hashText c T t).index h (.rangeTo j) = (Source.hashText c T t).index h (.range 0 j) ∧
    (Source.hashText c T t).index h (.rangeFrom i) =
      (Source.hashText c T t).index h (.range i ((Source.hashText c T t).toByteArray h).length) ∧
    (Source.hashText c T t).index h .full = .ok ((Source.hashText c T t).toByteArray h) := by
  have p := Source.plain c T t
  simp only [p.index]
  generalize (Source.hashText c T t).toByteArray h = bs
  have e := C28_index (.hmac bs.length) ⟨⟨bs, rfl⟩⟩ i
  have r := C28_index_range (.hmac bs.length) ⟨⟨bs, rfl⟩⟩ i j
  exact ⟨e.1, e.2, r.1, r.2, (C28_index_half (.hmac bs.length) ⟨⟨bs, rfl⟩⟩ j).1,
    (C28_index_half (.hmac bs.length) ⟨⟨bs, rfl⟩⟩ i).2, rfl⟩

set_option maxRecDepth 10000 in
example : ((Source.hashText .debug64 ⟨.error .fuel⟩ (.hmac 3)).zeros.map
      (Source.hashText .debug64 ⟨.error .fuel⟩ (.hmac 3)).toByteArray) = [[0, 0, 0]] ∧
    (Source.hashText .debug64 ⟨.error .fuel⟩ .sha1).len = 20 ∧
    (Source.hashText .debug64 ⟨.error .fuel⟩ .sha1).index
      (Source.Sha1.Hash.mk ((List.range 20).map (BitVec.ofNat 8 ·))) (.range 2 4) = .ok [2, 3] := by
  decide +kernel

/-! ## C72 -/

/-- C72: hashes are equal if and only if their bytes are. -/
theorem C72_eq (a b : (Source.hashText c T t).H) :
    ((Source.hashText c T t).eq a b = true ↔
      (Source.hashText c T t).toByteArray a = (Source.hashText c T t).toByteArray b) ∧
    ((Source.hashText c T t).eq a b = true ↔ a = b) := by
  have p := Source.plain c T t
  have h : (Source.hashText c T t).eq a b = true ↔
      (Source.hashText c T t).toByteArray a = (Source.hashText c T t).toByteArray b := by
    rw [p.eq, beq_iff_eq]
  refine ⟨h, h.trans ⟨fun e => ?_, fun e => by rw [e]⟩⟩
  rw [← p.make_toByteArray a, e, p.make_toByteArray]

/-- C72: hashes are ordered like the big-endian numbers of their bytes, and `partial_cmp` agrees. -/
theorem C72_order (a b : (Source.hashText c T t).H)
    (ha : ((Source.hashText c T t).toByteArray a).length = Source.bytesOf t)
    (hb : ((Source.hashText c T t).toByteArray b).length = Source.bytesOf t) :
    (Source.hashText c T t).cmp a b =
      compare (Spec.beNat ((Source.hashText c T t).toByteArray a))
        (Spec.beNat ((Source.hashText c T t).toByteArray b)) ∧
    (Source.hashText c T t).partialCmp a b = some ((Source.hashText c T t).cmp a b) := by
  have p := Source.plain c T t
  refine ⟨?_, p.partialCmp a b⟩
  rw [p.cmp]
  exact cmpSlice_eq _ _ (ha.trans hb.symm)

example : (Source.hashText .debug64 ⟨.error .fuel⟩ (.hmac 2)).cmp (Source.Hmac.Hash.mk [1, 0])
      (Source.Hmac.Hash.mk [0, 255]) = .gt ∧
    (Source.hashText .debug64 ⟨.error .fuel⟩ .sha256t).cmp
      (Source.Sha256t.Hash.mk (List.replicate 31 7 ++ [0]) ())
      (Source.Sha256t.Hash.mk (List.replicate 31 7 ++ [1]) ()) = .lt := by decide +kernel

/-- C72: errors of `from_slice` are equal if and only if both lengths are. -/
theorem C72_errors (a b : Source.Lib.FromSliceError) :
    Source.Lib.FromSliceError.PartialEq.eq c a b = true ↔ a = b := by
  cases a; cases b
  simp only [Source.Lib.FromSliceError.PartialEq.eq, Bool.and_eq_true, beq_iff_eq,
    Source.Lib.FromSliceError.mk.injEq]

/-- C72: the message of such an error. -/
theorem C72_message (e : Source.Lib.FromSliceError) (f : Hex.Flags) :
    Source.Lib.FromSliceError.Display.fmt c e f =
      ascii ("invalid slice length " ++ toString e.got ++ " (expected " ++ toString e.expected ++ ")") := by
  have app : ∀ a b : String, ascii (a ++ b) = ascii a ++ ascii b := fun a b => by
    unfold ascii
    rw [String.toList_append, List.map_append]
  rw [app, app, app, app]
  rfl

example : Source.Lib.FromSliceError.Display.fmt .debug64 ⟨32, 7⟩ ⟨false⟩ =
    ascii "invalid slice length 7 (expected 32)" := by decide +kernel

/-! ## C73 -/

/-- C73: a hash is written as two hexadecimal digits for each byte in order: lower case by `{:x}` and
`Display`, upper case by `{:X}`, after `0x` with the alternate flag, and by `Debug` always like
`Display` after `0x`. -/
theorem C73_format (h : (Source.hashText c T t).H)
    (hl : ((Source.hashText c T t).toByteArray h).length = Source.bytesOf t) :
    ∃ lo up, (Source.hashText c T t).lowerHex h ⟨false⟩ = .ok lo ∧
      (Source.hashText c T t).display h ⟨false⟩ = .ok lo ∧
      (Source.hashText c T t).upperHex h ⟨false⟩ = .ok up ∧
      (Source.hashText c T t).lowerHex h ⟨true⟩ = .ok (ascii "0x" ++ lo) ∧
      (Source.hashText c T t).display h ⟨true⟩ = .ok (ascii "0x" ++ lo) ∧
      (Source.hashText c T t).upperHex h ⟨true⟩ = .ok (ascii "0x" ++ up) ∧
      (∀ f, (Source.hashText c T t).debug h f = .ok (ascii "0x" ++ lo)) ∧
      lo.length = 2 * Source.bytesOf t ∧ (∀ x ∈ lo, IsLowerDigit x) ∧
      value16 lo = Spec.beNat ((Source.hashText c T t).toByteArray h) ∧
      up.length = 2 * Source.bytesOf t ∧ (∀ x ∈ up, IsUpperDigit x) ∧
      value16 up = Spec.beNat ((Source.hashText c T t).toByteArray h) := by
  have p := Source.plain c T t
  simp only [p.display, p.debug, p.lowerHex h _ hl, p.upperHex h _ hl]
  exact ⟨Hex.putBytes .lower _, Hex.putBytes .upper _, rfl, rfl, rfl, rfl, rfl, rfl, fun _ => rfl, by rw [Hex.length_putBytes, hl],
    Hex.putBytes_digits .lower _, Hex.value16_putBytes .lower _, by rw [Hex.length_putBytes, hl],
    Hex.putBytes_digits .upper _, Hex.value16_putBytes .upper _⟩

/-- C73: a string is parsed exactly if it is as many hexadecimal digits, of either case, as the type
has half bytes; the bytes of the result are the number they write. -/
theorem C73_parse (s : List Byte) (h : (Source.hashText c T t).H)
    (parse : List Byte → Res (Except Hex.Error (Source.hashText c T t).H))
    (hp : parse ∈ (Source.hashText c T t).parsers) :
    parse s = .ok (.ok h) ↔ s.length = 2 * Source.bytesOf t ∧ (∀ x ∈ s, IsHexDigit x) ∧
      ((Source.hashText c T t).toByteArray h).length = Source.bytesOf t ∧
      value16 s = Spec.beNat ((Source.hashText c T t).toByteArray h) := by
  have p := Source.plain c T t
  rw [p.parsers parse hp]
  constructor
  · intro e
    cases hr : fromStr (.hmac (Source.bytesOf t)) s with
    | error f => rw [hr] at e; cases e
    | ok r =>
      cases r with
      | error f => rw [hr] at e; cases e
      | ok a =>
        rw [hr] at e
        have e' : p.make a.inner.val = h := Except.ok.inj (Except.ok.inj e)
        have := (C30_accepts _ s a).1 hr
        rw [← e', p.toByteArray_make]
        exact ⟨this.1, this.2.1, a.inner.property, this.2.2⟩
  · rintro ⟨h1, h2, h3, h4⟩
    rw [(C30_accepts (.hmac (Source.bytesOf t)) s ⟨⟨_, h3⟩⟩).2 ⟨h1, h2, h4⟩]
    exact congrArg (fun x => Except.ok (Except.ok x)) (p.make_toByteArray h)

/-- C73: any other string is an error, which says whether the length or which first character is
wrong. -/
theorem C73_errors (s : List Byte)
    (parse : List Byte → Res (Except Hex.Error (Source.hashText c T t).H))
    (hp : parse ∈ (Source.hashText c T t).parsers) :
    (s.length ≠ 2 * Source.bytesOf t →
      parse s = .ok (.error (.invalidLength (2 * Source.bytesOf t) s.length))) ∧
    (s.length = 2 * Source.bytesOf t → ∀ i, (hi : i < s.length) →
      (∀ j, (hj : j < i) → IsHexDigit s[j]) → ¬ IsHexDigit s[i] →
      parse s = .ok (.error (.invalidChar s[i] i))) := by
  have p := Source.plain c T t
  have e := C30_errors (.hmac (Source.bytesOf t)) s
  rw [p.parsers parse hp]
  refine ⟨fun h => by rw [e.1 h]; rfl, fun h i hi h1 h2 => by rw [e.2 h i hi h1 h2]; rfl⟩

/-- C73: parsing what was written gives the value back. -/
theorem C73_round_trip (h : (Source.hashText c T t).H)
    (hl : ((Source.hashText c T t).toByteArray h).length = Source.bytesOf t)
    (parse : List Byte → Res (Except Hex.Error (Source.hashText c T t).H))
    (hp : parse ∈ (Source.hashText c T t).parsers) :
    ((Source.hashText c T t).display h ⟨false⟩ >>= parse) = .ok (.ok h) ∧
    ((Source.hashText c T t).upperHex h ⟨false⟩ >>= parse) = .ok (.ok h) := by
  obtain ⟨lo, up, -, h1, h2, -, -, -, -, l1, d1, v1, l2, d2, v2⟩ := C73_format c T t h hl
  rw [h1, h2]
  exact ⟨(C73_parse c T t lo h parse hp).2 ⟨l1, fun x hx => Hex.IsDigitOf.hex (case := .lower) (d1 x hx), hl, v1⟩,
    (C73_parse c T t up h parse hp).2 ⟨l2, fun x hx => Hex.IsDigitOf.hex (case := .upper) (d2 x hx), hl, v2⟩⟩

set_option maxRecDepth 10000 in
example : (Source.hashText .debug64 ⟨.error .fuel⟩ (.hmac 2)).display ⟨[0x0a, 0xf3]⟩ ⟨true⟩ =
      .ok (ascii "0x0af3") ∧
    ((Source.hashText .debug64 ⟨.error .fuel⟩ (.hmac 2)).parsers.map fun p =>
      (p (ascii "0aF3")).map (·.map (·.f0))) = [.ok (.ok [0x0a, 0xf3])] ∧
    ((Source.hashText .debug64 ⟨.error .fuel⟩ (.hmac 2)).parsers.map fun p =>
      (p (ascii "0agg")).map (·.map (·.f0))) = [.ok (.error (.invalidChar 0x67 2))] := by decide +kernel

end Chf.Props
