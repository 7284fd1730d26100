import Verif.Props.TextSerde

/-!
# C112: the JSON schema of `hmac::Hash<N>` for every `N`, in the translated text
-/

namespace Chf.Props
open Chf Chf.Rs Chf.Spec Chf.HashTy

variable (c : Cfg) (T : Source.Sha256t.Tag) (N : Nat)

theorem mulU_two (n : BitVec 32) : Rs.mulU c n 2#32 =
    if c.overflowChecks = true ∧ 2 ^ 31 ≤ n.toNat then .error .overflow else .ok (n * 2#32) := by
  unfold Rs.mulU
  rw [show (2#32).toNat = 2 from rfl]
  by_cases h : n.toNat * 2 < 2 ^ 32
  · rw [if_pos h, if_neg (by omega)]
  · rw [if_neg h]
    cases hc : c.overflowChecks
    · rw [if_neg (by simp), if_neg (by simp)]
    · rw [if_pos rfl, if_pos ⟨rfl, by omega⟩]

theorem ofNat_two : BitVec.ofNat 32 N * 2#32 = BitVec.ofNat 32 (2 * N) := by
  apply BitVec.eq_of_toNat_eq
  rw [BitVec.toNat_mul, BitVec.toNat_ofNat, BitVec.toNat_ofNat, BitVec.toNat_ofNat]
  omega

/-- C112: the schema of `hmac::Hash<N>`, for every `N`. The lengths are twice `N` modulo `2^32`; builds with
overflow checks panic when doubling `N as u32` overflows. -/
theorem C112_schema (name : List Byte) (f : SchemaGenerator → Res SchemaObject)
    (hf : (Source.serdeText c T (.hmac N)).schema = some (name, f)) (g : SchemaGenerator) :
    (c.overflowChecks = true → 2 ^ 31 ≤ N % 2 ^ 32 → f g = .error .overflow) ∧
    (c.overflowChecks = false ∨ N % 2 ^ 32 < 2 ^ 31 →
      ∃ len : BitVec 32, len.toNat = 2 * N % 2 ^ 32 ∧
        f g = .ok ⟨true, some ⟨some len, some len, some (ascii "[0-9a-fA-F]+")⟩⟩) := by
  cases hf
  show (_ → _ → Source.Hmac.Hash.JsonSchema.json_schema c N g = _) ∧
    (_ → ∃ len : BitVec 32, _ ∧ Source.Hmac.Hash.JsonSchema.json_schema c N g = _)
  unfold Source.Hmac.Hash.JsonSchema.json_schema
  rw [mulU_two, ofNat_two, BitVec.toNat_ofNat]
  refine ⟨fun hc hN => ?_, fun h => ⟨BitVec.ofNat 32 (2 * N), BitVec.toNat_ofNat .., ?_⟩⟩
  · rw [if_pos ⟨hc, hN⟩]; rfl
  · rw [if_neg]
    · rfl
    · rintro ⟨h1, h2⟩
      rcases h with h | h
      · rw [h] at h1; cases h1
      · omega

/-- Digits. -/
theorem digits_hex (n : Nat) : (∀ b ∈ List.replicate n (0x30 : Byte), IsHexDigit b) :=
  fun b hb => by rw [List.eq_of_mem_replicate hb]; decide

/-- C112: the strings that are deserialized are those that the schema describes exactly if `0 < N < 2^31`. For
`N = 0` the empty string is deserialized, but the pattern wants a digit; from `2^31` on the schema is of
another length or there is none. -/
theorem C112_exactly (name : List Byte) (f : SchemaGenerator → Res SchemaObject)
    (hf : (Source.serdeText c T (.hmac N)).schema = some (name, f)) (g : SchemaGenerator) :
    (∃ lo hi p r, f g = .ok ⟨true, some ⟨some hi, some lo, some p⟩⟩ ∧ parseRegex p = some r ∧
      ∀ v, (∃ a, (Source.serdeText c T (.hmac N)).deserialize ⟨true, fun _ => .str v⟩ = .ok (.ok a)) ↔
        lo.toNat ≤ chars v ∧ chars v ≤ hi.toNat ∧ Matches r v) ↔
    0 < N ∧ N < 2 ^ 31 := by
  constructor
  · rintro ⟨lo, hi, p, r, h1, h2, h3⟩
    have S := C112_schema c T N name f hf g
    have hn : c.overflowChecks = false ∨ N % 2 ^ 32 < 2 ^ 31 := by
      by_cases h : N % 2 ^ 32 < 2 ^ 31
      · exact .inr h
      · cases hc : c.overflowChecks
        · exact .inl rfl
        · rw [S.1 hc (by omega)] at h1; cases h1
    obtain ⟨len, hl, h4⟩ := S.2 hn
    rw [h1] at h4
    cases h4
    rw [pattern_text] at h2
    cases h2
    -- the zeros are deserialized
    obtain ⟨a, ha⟩ := C30_succeeds (.hmac N) (List.replicate (2 * N) 0x30)
      (show (List.replicate (2 * N) (0x30 : Byte)).length = 2 * N from List.length_replicate) (digits_hex _)
    have hb := (C30_accepts _ _ a).1 ha
    have q := Source.plain c T (.hmac N)
    have k := (h3 (List.replicate (2 * N) 0x30)).1 ⟨q.make a.inner.val,
      (human_text c T (.hmac N) ⟨true, fun _ => .str _⟩ rfl _).2
        ⟨_, .inl rfl, hb.1, digits_hex _, by rw [q.toByteArray_make]; exact ⟨a.inner.property, hb.2.2⟩⟩⟩
    have hc := chars_ascii (List.replicate (2 * N) 0x30) fun b hb => ascii_of_hex (digits_hex _ b hb)
    rw [List.length_replicate] at hc
    refine ⟨?_, ?_⟩
    · rcases Nat.eq_zero_or_pos N with rfl | h
      · exact absurd rfl ((pattern_iff _).1 k.2.2).1
      · exact h
    · have := Nat.mod_lt (2 * N) (show 0 < 2 ^ 32 by decide)
      omega
  · rintro ⟨h0, hn⟩
    have E := C79_exact c T (.hmac N) h0 hn name f hf g
    obtain ⟨lo, hi, p, r, h1, h2, -⟩ := E []
    refine ⟨lo, hi, p, r, h1, h2, fun v => ?_⟩
    obtain ⟨lo', hi', p', r', k1, k2, k3⟩ := E v
    rw [h1] at k1
    cases k1
    rw [h2] at k2
    cases k2
    exact k3

set_option maxRecDepth 10000 in
/-- `N = 2^31 + 1`: the schema asks for two digits in a build without overflow checks. -/
example : Source.Hmac.Hash.JsonSchema.json_schema .release64 (2 ^ 31 + 1) () =
      .ok ⟨true, some ⟨some 2, some 2, some (ascii "[0-9a-fA-F]+")⟩⟩ ∧
    Source.Hmac.Hash.JsonSchema.json_schema .debug64 (2 ^ 31 + 1) () = .error .overflow ∧
    Source.Hmac.Hash.JsonSchema.json_schema .debug64 (2 ^ 32 + 1) () =
      .ok ⟨true, some ⟨some 2, some 2, some (ascii "[0-9a-fA-F]+")⟩⟩ := by
  decide +kernel

end Chf.Props
