import Verif.Spec.Decimal
import Verif.Props.TextTypes

/-!
# C108: what the errors of the translated `from_slice` say
-/

namespace Chf.Props
open Chf Chf.Spec Chf.HashTy

theorem digit_byte {ch : Char} (h : ch.isDigit = true) :
    (BitVec.ofNat 8 ch.toNat : Byte).toNat = ch.toNat ∧ 48 ≤ ch.toNat ∧ ch.toNat ≤ 57 := by
  have := Char.isDigit_iff_toNat.1 h
  have e : '0'.toNat = 48 ∧ '9'.toNat = 57 := by decide
  rw [e.1, e.2] at this
  refine ⟨?_, this⟩
  rw [BitVec.toNat_ofNat]
  exact Nat.mod_eq_of_lt (by omega)

theorem ascii_toString (n : Nat) : ascii (toString n) = (Nat.toDigits 10 n).map fun c => BitVec.ofNat 8 c.toNat := by
  show (Nat.repr n).toList.map _ = _
  rw [Nat.toList_repr]

theorem value10_map (cs : List Char) (h : ∀ ch ∈ cs, ch.isDigit = true) (n : Nat) :
    (cs.map fun c => (BitVec.ofNat 8 c.toNat : Byte)).foldl (fun n d => 10 * n + (d.toNat - '0'.toNat)) n =
      Nat.ofDigitChars 10 cs n := by
  induction cs generalizing n with
  | nil => rw [Nat.ofDigitChars_nil]; rfl
  | cons ch cs ih =>
    rw [List.map_cons, List.foldl_cons, Nat.ofDigitChars_cons, (digit_byte (h ch (List.mem_cons_self ..))).1]
    exact ih (fun x hx => h x (List.mem_cons_of_mem _ hx)) _

theorem isDecimal_ascii (n : Nat) : IsDecimal n (ascii (toString n)) := by
  have hd : ∀ ch ∈ Nat.toDigits 10 n, ch.isDigit = true := fun ch h =>
    Nat.isDigit_of_mem_toDigits (by decide) (by decide) h
  rw [ascii_toString]
  refine ⟨fun d h => ?_, ?_, ?_, fun h => ?_, fun h => ?_⟩
  · obtain ⟨ch, hc, rfl⟩ := List.mem_map.1 h
    have := digit_byte (hd ch hc)
    unfold IsDecimalDigit
    rw [this.1]
    exact this.2
  · exact (value10_map _ hd 0).trans Nat.ofDigitChars_ten_toDigits
  · rw [Ne, List.map_eq_nil_iff]
    exact Nat.toDigits_ne_nil
  · rw [List.length_map]
    by_cases hl : 0 < (Nat.toDigits 10 n).length - 1
    · have := Nat.length_toDigits_le_iff (n := n) (b := 10) (by decide) hl
      omega
    · rw [show (Nat.toDigits 10 n).length - 1 = 0 by omega]
      omega
  · rw [List.length_map, Nat.toDigits_of_lt_base h]
    rfl

/-- C108: the message of an error is this text, with the two lengths in decimal. -/
theorem C108_message (c : Cfg) (e : Source.Lib.FromSliceError) (f : Hex.Flags) :
    ∃ got expected, IsDecimal (Source.Lib.FromSliceError.invalid_length c e) got ∧
      IsDecimal (Source.Lib.FromSliceError.expected_length c e) expected ∧
      Source.Lib.FromSliceError.Display.fmt c e f =
        ascii "invalid slice length " ++ got ++ ascii " (expected " ++ expected ++ ascii ")" :=
  ⟨_, _, isDecimal_ascii _, isDecimal_ascii _, rfl⟩

theorem split_digits {x x' y y' : List Byte} {s : Byte} (hs : ¬ IsDecimalDigit s)
    (hx : ∀ d ∈ x, IsDecimalDigit d) (hx' : ∀ d ∈ x', IsDecimalDigit d) (h : x ++ s :: y = x' ++ s :: y') :
    x = x' ∧ y = y' := by
  induction x generalizing x' with
  | nil =>
    cases x' with
    | nil => exact ⟨rfl, (List.cons.inj h).2⟩
    | cons a x' => exact absurd ((List.cons.inj h).1 ▸ hx' a (List.mem_cons_self ..)) hs
  | cons a x ih =>
    cases x' with
    | nil => exact absurd ((List.cons.inj h).1 ▸ hx a (List.mem_cons_self ..)) hs
    | cons b x' =>
      obtain ⟨h1, h2⟩ := List.cons.inj h
      obtain ⟨h3, h4⟩ := ih (fun d hd => hx d (List.mem_cons_of_mem _ hd))
        (fun d hd => hx' d (List.mem_cons_of_mem _ hd)) h2
      exact ⟨by rw [h1, h3], h4⟩

/-- C108: the message tells the error: two errors with the same message have the same two lengths. -/
theorem C108_readable (c : Cfg) (e e' : Source.Lib.FromSliceError) (f f' : Hex.Flags) :
    Source.Lib.FromSliceError.Display.fmt c e f = Source.Lib.FromSliceError.Display.fmt c e' f' ↔ e = e' := by
  refine ⟨fun h => ?_, fun h => h ▸ rfl⟩
  obtain ⟨g, x, hg, hx, h1⟩ := C108_message c e f
  obtain ⟨g', x', hg', hx', h2⟩ := C108_message c e' f'
  rw [h1, h2] at h
  obtain ⟨t, ht⟩ : ∃ t, ascii " (expected " = 0x20 :: t := ⟨_, rfl⟩
  have hp : ascii ")" = [0x29] := rfl
  simp only [ht, hp, List.append_assoc, List.cons_append] at h
  obtain ⟨h3, h4⟩ := split_digits (by decide) hg.1 hg'.1 (List.append_cancel_left h)
  obtain ⟨h5, -⟩ := split_digits (by decide) hx.1 hx'.1 (List.append_cancel_left h4)
  have e1 : e.got = e'.got := hg.2.1.symm.trans (h3 ▸ hg'.2.1)
  have e2 : e.expected = e'.expected := hx.2.1.symm.trans (h5 ▸ hx'.2.1)
  cases e
  cases e'
  dsimp only at e1 e2
  rw [e1, e2]

/-- C108: `from_slice` of every type fails on a slice of the wrong length with an error that gives its
length and the right one, which differ. -/
theorem C108_rejected (c : Cfg) (T : Source.Sha256t.Tag) (t : HashTy) (sl : List Byte) :
    (∃ h, (Source.hashText c T t).fromSlice sl = .ok (.ok h) ∧ sl.length = Source.bytesOf t) ∨
    ∃ e, (Source.hashText c T t).fromSlice sl = .ok (.error e) ∧
      Source.Lib.FromSliceError.invalid_length c e = sl.length ∧
      Source.Lib.FromSliceError.expected_length c e = Source.bytesOf t ∧ sl.length ≠ Source.bytesOf t := by
  obtain ⟨h1, h2⟩ := C71_from_slice c T t sl
  by_cases h : sl.length = Source.bytesOf t
  · obtain ⟨x, hx, -⟩ := h1 h
    exact .inl ⟨x, hx, h⟩
  · exact .inr ⟨_, h2 h, rfl, rfl, h⟩

/-- C108: the messages of two failures are equal exactly if the slices have the same length and the types
the same number of bytes. -/
theorem C108_told_apart (c : Cfg) (T T' : Source.Sha256t.Tag) (t t' : HashTy) (sl sl' : List Byte) {e e'}
    (h : (Source.hashText c T t).fromSlice sl = .ok (.error e))
    (h' : (Source.hashText c T' t').fromSlice sl' = .ok (.error e')) (f f' : Hex.Flags) :
    Source.Lib.FromSliceError.Display.fmt c e f = Source.Lib.FromSliceError.Display.fmt c e' f' ↔
      sl.length = sl'.length ∧ Source.bytesOf t = Source.bytesOf t' := by
  have of : ∀ {T t sl e}, (Source.hashText c T t).fromSlice sl = .ok (.error e) →
      e = ⟨Source.bytesOf t, sl.length⟩ := by
    intro T t sl e h
    obtain ⟨h1, h2⟩ := C71_from_slice c T t sl
    by_cases hl : sl.length = Source.bytesOf t
    · obtain ⟨x, hx, -⟩ := h1 hl
      rw [hx] at h
      cases Except.ok.inj h
    · rw [h2 hl] at h
      exact (Except.error.inj (Except.ok.inj h)).symm
  rw [C108_readable, of h, of h', Source.Lib.FromSliceError.mk.injEq]
  exact and_comm

example : IsDecimal 1203 (ascii "1203") ∧ ¬ IsDecimal 1203 (ascii "01203") ∧ ¬ IsDecimal 7 (ascii "07") ∧
    IsDecimal 0 (ascii "0") := by decide +kernel

example : (Source.hashText .debug64 ⟨.error .fuel⟩ .sha384).fromSlice [1, 2] = .ok (.error ⟨48, 2⟩) := by
  exact (C71_from_slice .debug64 ⟨.error .fuel⟩ .sha384 [1, 2]).2 (by decide)

end Chf.Props
