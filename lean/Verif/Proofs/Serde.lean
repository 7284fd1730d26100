import Verif.Proofs.HashType
import Verif.Spec.Schema

/-!
# Lemmas about `serde` and the JSON schema
-/

namespace Chf
open Spec

namespace HashTy
variable {s : Source}

theorem ascii_of_hex {b : Byte} : IsHexDigit b → b ≤ 0x7f := by
  revert b
  exact Hex.forall_byte (P := fun b => IsHexDigit b → b ≤ 0x7f) (by decide +kernel) _

theorem utf8Valid_ascii : (v : List Byte) → (∀ b ∈ v, b ≤ 0x7f) → utf8Valid v = true
  | [], _ => by rw [utf8Valid]
  | a :: v, h => by
    rw [utf8Valid.eq_def]
    simp only [h a (by simp), if_true]
    exact utf8Valid_ascii v fun b hb => h b (by simp [hb])

theorem chars_ascii (v : List Byte) (h : ∀ b ∈ v, b ≤ 0x7f) : chars v = v.length := by
  unfold chars
  rw [List.filter_eq_self.2]
  intro b hb
  have h1 : b.toNat ≤ 127 := h b hb
  have : ¬ 128 ≤ b.toNat := by omega
  simp [this]

/-- The class of the pattern. -/
theorem cls_iff (b : Byte) :
    Matches (.cls [(0x30, 0x39), (0x61, 0x66), (0x41, 0x46)]) [b] ↔ IsHexDigit b := by
  have key : ∀ b : Byte, ((0x30 ≤ b ∧ b ≤ 0x39) ∨ (0x61 ≤ b ∧ b ≤ 0x66) ∨ (0x41 ≤ b ∧ b ≤ 0x46)) ↔
      IsHexDigit b := Hex.forall_byte (by decide +kernel)
  constructor
  · intro h
    cases h with
    | cls hr h1 h2 =>
      simp only [List.mem_cons, Prod.mk.injEq, List.not_mem_nil, or_false] at hr
      rcases hr with ⟨rfl, rfl⟩ | ⟨rfl, rfl⟩ | ⟨rfl, rfl⟩
      · exact (key b).1 (.inl ⟨h1, h2⟩)
      · exact (key b).1 (.inr (.inl ⟨h1, h2⟩))
      · exact (key b).1 (.inr (.inr ⟨h1, h2⟩))
  · intro h
    rcases (key b).2 h with ⟨h1, h2⟩ | ⟨h1, h2⟩ | ⟨h1, h2⟩
    · exact .cls (lo := 0x30) (hi := 0x39) (by simp) h1 h2
    · exact .cls (lo := 0x61) (hi := 0x66) (by simp) h1 h2
    · exact .cls (lo := 0x41) (hi := 0x46) (by simp) h1 h2

/-- The pattern matches the non-empty strings of digits. -/
theorem pattern_of_hex : (v : List Byte) → v ≠ [] → (∀ b ∈ v, IsHexDigit b) → Matches hexPattern v
  | [], h, _ => absurd rfl h
  | [a], _, h => .one ((cls_iff a).2 (h a (by simp)))
  | a :: b :: v, _, h =>
    .more (v := [a]) ((cls_iff a).2 (h a (by simp)))
      (pattern_of_hex (b :: v) (by simp) fun x hx => h x (by simp [List.mem_cons.1 hx]))

theorem cls_singleton {ranges : List (Byte × Byte)} {v : List Byte} (h : Matches (.cls ranges) v) :
    ∃ b, v = [b] := by
  cases h with
  | cls hr h1 h2 => exact ⟨_, rfl⟩

theorem hex_of_pattern {r : Regex} {v : List Byte} (h : Matches r v) (hr : r = hexPattern) :
    v ≠ [] ∧ ∀ b ∈ v, IsHexDigit b := by
  induction h with
  | cls => cases hr
  | one h _ =>
    cases hr
    obtain ⟨b, rfl⟩ := cls_singleton h
    exact ⟨by simp, fun x hx => by rw [List.mem_singleton.1 hx]; exact (cls_iff b).1 h⟩
  | more h _ _ ih =>
    cases hr
    obtain ⟨b, rfl⟩ := cls_singleton h
    refine ⟨by simp, fun x hx => ?_⟩
    rcases List.mem_append.1 hx with hx | hx
    · rw [List.mem_singleton.1 hx]; exact (cls_iff b).1 h
    · exact (ih rfl).2 x hx

/-- The whole string matches the pattern exactly if it is a non-empty string of digits. -/
theorem pattern_iff (v : List Byte) : Matches hexPattern v ↔ v ≠ [] ∧ ∀ b ∈ v, IsHexDigit b :=
  ⟨fun h => hex_of_pattern h rfl, fun h => pattern_of_hex v h.1 h.2⟩

/-- A part of the string matches exactly if it contains a digit. -/
theorem found_iff (v : List Byte) : Found hexPattern v ↔ ∃ b ∈ v, IsHexDigit b := by
  constructor
  · rintro ⟨a, m, b, rfl, hm⟩
    obtain ⟨hne, hd⟩ := (pattern_iff m).1 hm
    cases m with
    | nil => exact absurd rfl hne
    | cons x m => exact ⟨x, by simp, hd x (by simp)⟩
  · rintro ⟨x, hx, hd⟩
    obtain ⟨a, b, rfl⟩ := List.append_of_mem hx
    exact ⟨a, [x], b, by simp, (pattern_iff [x]).2 ⟨by simp, by simpa using hd⟩⟩

theorem mulU32_ok (c : Cfg) (n : Nat) (h : n < 2 ^ 31) : mulU32 c n 2 = .ok (2 * n) := by
  rw [mulU32, if_pos (by omega), Nat.mul_comm]

/-- The schema of a type that has one. -/
theorem jsonSchema_eq (c : Cfg) (hs : s ≠ .midstate) (h : s.len < 2 ^ 31) :
    jsonSchema c s = some (.ok { maxLength := 2 * s.len, minLength := 2 * s.len, pattern := hexPattern }) := by
  cases s with
  | midstate => exact absurd rfl hs
  | «macro» bits =>
    simp only [Source.len] at h
    simp only [jsonSchema, mulU32_ok c _ h, bind, Except.bind, pure, Except.pure, Source.len]
  | tagged =>
    simp only [Source.len] at h
    simp only [jsonSchema, mulU32_ok c _ h, bind, Except.bind, pure, Except.pure, Source.len]
  | hmac N =>
    simp only [Source.len] at h
    rw [jsonSchema, Nat.mod_eq_of_lt (by omega)]
    simp only [mulU32_ok c _ h, bind, Except.bind, pure, Except.pure, Source.len]

end HashTy
end Chf
