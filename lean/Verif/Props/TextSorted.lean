import Verif.Props.TextTypes

/-!
# C104: sorted hashes of the translated text are sorted strings

What a caller relies on who keeps printed digests in a sorted file or an index: the order of `Ord` is
the order of the printed strings, and the hashes whose printed form begins with given digits are an
interval of that order.
-/

namespace Chf.Props
open Chf Chf.Spec Chf.HashTy

theorem digit_lower {x : Byte} (h : IsLowerDigit x) : IsHexDigit x ∧
    (digitVal x).getD 0 = if x.toNat ≤ 57 then x.toNat - 48 else x.toNat - 87 := by
  have h' : (48 ≤ x.toNat ∧ x.toNat ≤ 57) ∨ (97 ≤ x.toNat ∧ x.toNat ≤ 102) := h
  have e : digitVal x = if 48 ≤ x.toNat ∧ x.toNat ≤ 57 then some (x.toNat - 48)
    else if 97 ≤ x.toNat ∧ x.toNat ≤ 102 then some (x.toNat - 97 + 10)
    else if 65 ≤ x.toNat ∧ x.toNat ≤ 70 then some (x.toNat - 65 + 10) else none := rfl
  rw [IsHexDigit, e]
  rcases h' with h' | h'
  · rw [if_pos h', if_pos h'.2]
    exact ⟨rfl, rfl⟩
  · rw [if_neg (by omega), if_pos h', if_neg (by omega)]
    refine ⟨rfl, ?_⟩
    show x.toNat - 97 + 10 = _
    omega

theorem digit_upper {x : Byte} (h : IsUpperDigit x) : IsHexDigit x ∧
    (digitVal x).getD 0 = if x.toNat ≤ 57 then x.toNat - 48 else x.toNat - 55 := by
  have h' : (48 ≤ x.toNat ∧ x.toNat ≤ 57) ∨ (65 ≤ x.toNat ∧ x.toNat ≤ 70) := h
  have e : digitVal x = if 48 ≤ x.toNat ∧ x.toNat ≤ 57 then some (x.toNat - 48)
    else if 97 ≤ x.toNat ∧ x.toNat ≤ 102 then some (x.toNat - 97 + 10)
    else if 65 ≤ x.toNat ∧ x.toNat ≤ 70 then some (x.toNat - 65 + 10) else none := rfl
  rw [IsHexDigit, e]
  rcases h' with h' | h'
  · rw [if_pos h', if_pos h'.2]
    exact ⟨rfl, rfl⟩
  · rw [if_neg (by omega), if_neg (by omega), if_pos h', if_neg (by omega)]
    refine ⟨rfl, ?_⟩
    show x.toNat - 65 + 10 = _
    omega

theorem value16_cons (x : Byte) (s : List Byte) :
    value16 (x :: s) = (digitVal x).getD 0 * 16 ^ s.length + value16 s := by
  rw [show x :: s = [x] ++ s from rfl, value16_append]
  simp [value16]

theorem digit_lt16 (x : Byte) : (digitVal x).getD 0 < 16 := by
  cases h : digitVal x with
  | none => decide
  | some d => exact Hex.digitVal_lt h

theorem value16_lt (s : List Byte) : value16 s < 16 ^ s.length := by
  induction s with
  | nil => decide
  | cons x s ih =>
    have h := Nat.mul_le_mul_right (16 ^ s.length) (digit_lt16 x)
    rw [value16_cons, List.length_cons, Nat.pow_succ, Nat.mul_comm _ 16]
    rw [Nat.succ_mul] at h
    omega

/-- Within one case the digits are ordered like their values. -/
theorem digit_order {s t : List Byte}
    (h : ((∀ x ∈ s, IsLowerDigit x) ∧ ∀ x ∈ t, IsLowerDigit x) ∨
      ((∀ x ∈ s, IsUpperDigit x) ∧ ∀ x ∈ t, IsUpperDigit x)) {x y : Byte} (hx : x ∈ s) (hy : y ∈ t) :
    (x < y ↔ (digitVal x).getD 0 < (digitVal y).getD 0) ∧
    (x = y ↔ (digitVal x).getD 0 = (digitVal y).getD 0) := by
  have e : x = y ↔ x.toNat = y.toNat := ⟨congrArg _, BitVec.eq_of_toNat_eq⟩
  rw [e, BitVec.lt_def]
  rcases h with ⟨h1, h2⟩ | ⟨h1, h2⟩
  · have a : (48 ≤ x.toNat ∧ x.toNat ≤ 57) ∨ (97 ≤ x.toNat ∧ x.toNat ≤ 102) := h1 x hx
    have b : (48 ≤ y.toNat ∧ y.toNat ≤ 57) ∨ (97 ≤ y.toNat ∧ y.toNat ≤ 102) := h2 y hy
    rw [(digit_lower (h1 x hx)).2, (digit_lower (h2 y hy)).2]
    split <;> split <;> omega
  · have a : (48 ≤ x.toNat ∧ x.toNat ≤ 57) ∨ (65 ≤ x.toNat ∧ x.toNat ≤ 70) := h1 x hx
    have b : (48 ≤ y.toNat ∧ y.toNat ≤ 57) ∨ (65 ≤ y.toNat ∧ y.toNat ≤ 70) := h2 y hy
    rw [(digit_upper (h1 x hx)).2, (digit_upper (h2 y hy)).2]
    split <;> split <;> omega

/-- Strings of equally many digits of one case are ordered like the numbers they write. -/
theorem string_order : ∀ {s t : List Byte}, s.length = t.length →
    (((∀ x ∈ s, IsLowerDigit x) ∧ ∀ x ∈ t, IsLowerDigit x) ∨
      ((∀ x ∈ s, IsUpperDigit x) ∧ ∀ x ∈ t, IsUpperDigit x)) →
    (s < t ↔ value16 s < value16 t) ∧ (s = t ↔ value16 s = value16 t)
  | [], [], _, _ => by decide
  | x :: xs, y :: ys, hl, h => by
    obtain ⟨h1, h2⟩ := digit_order h (x := x) (y := y) List.mem_cons_self List.mem_cons_self
    have hl' : xs.length = ys.length := by simpa using hl
    obtain ⟨i1, i2⟩ := string_order hl' (h.imp
      (fun h => ⟨fun z hz => h.1 z (List.mem_cons_of_mem _ hz), fun z hz => h.2 z (List.mem_cons_of_mem _ hz)⟩)
      (fun h => ⟨fun z hz => h.1 z (List.mem_cons_of_mem _ hz), fun z hz => h.2 z (List.mem_cons_of_mem _ hz)⟩))
    have bx := value16_lt xs
    have bys := value16_lt ys
    rw [List.cons_lt_cons_iff, List.cons.injEq, h1, h2, i1, i2, value16_cons, value16_cons]
    rw [hl'] at bx ⊢
    generalize 16 ^ ys.length = p at *
    generalize (digitVal x).getD 0 = a at *
    generalize (digitVal y).getD 0 = b at *
    rcases Nat.lt_trichotomy a b with hab | hab | hab
    · have := Nat.mul_le_mul_right p hab
      rw [Nat.succ_mul] at this
      omega
    · subst hab
      omega
    · have := Nat.mul_le_mul_right p hab
      rw [Nat.succ_mul] at this
      omega

variable (c : Cfg) (T : Source.Sha256t.Tag) (t : HashTy)

/-- C104: hashes compare like the strings that `Display`, `{:x}` and `{:X}` write for them, character by
character. -/
theorem C104_printed (a b : (Source.hashText c T t).H)
    (ha : ((Source.hashText c T t).toByteArray a).length = Source.bytesOf t)
    (hb : ((Source.hashText c T t).toByteArray b).length = Source.bytesOf t)
    (print : (Source.hashText c T t).H → Hex.Flags → Res (List Byte))
    (hp : print ∈ [(Source.hashText c T t).display, (Source.hashText c T t).lowerHex,
      (Source.hashText c T t).upperHex]) :
    ∃ x y, print a ⟨false⟩ = .ok x ∧ print b ⟨false⟩ = .ok y ∧
      ((Source.hashText c T t).cmp a b = .lt ↔ x < y) ∧
      ((Source.hashText c T t).cmp a b = .eq ↔ x = y) ∧
      ((Source.hashText c T t).cmp a b = .gt ↔ y < x) := by
  obtain ⟨lo, up, f1, f2, f3, -, -, -, -, l1, d1, v1, l2, d2, v2⟩ := C73_format c T t a ha
  obtain ⟨lo', up', f1', f2', f3', -, -, -, -, l1', d1', v1', l2', d2', v2'⟩ := C73_format c T t b hb
  rw [(C72_order c T t a b ha hb).1, Nat.compare_eq_lt, Nat.compare_eq_eq, Nat.compare_eq_gt]
  have lower := string_order (l1.trans l1'.symm) (.inl ⟨d1, d1'⟩)
  have lower' := string_order (l1'.trans l1.symm) (.inl ⟨d1', d1⟩)
  have upper := string_order (l2.trans l2'.symm) (.inr ⟨d2, d2'⟩)
  have upper' := string_order (l2'.trans l2.symm) (.inr ⟨d2', d2⟩)
  rw [v1, v1'] at lower
  rw [v1, v1'] at lower'
  rw [v2, v2'] at upper
  rw [v2, v2'] at upper'
  simp only [List.mem_cons, List.not_mem_nil, or_false] at hp
  rcases hp with rfl | rfl | rfl
  · exact ⟨_, _, f2, f2', lower.1.symm, lower.2.symm, lower'.1.symm⟩
  · exact ⟨_, _, f1, f1', lower.1.symm, lower.2.symm, lower'.1.symm⟩
  · exact ⟨_, _, f3, f3', upper.1.symm, upper.2.symm, upper'.1.symm⟩

/-- C104: a list of hashes is sorted exactly if the list of the printed strings is. -/
theorem C104_sorted (hs : List (Source.hashText c T t).H)
    (hl : ∀ h ∈ hs, ((Source.hashText c T t).toByteArray h).length = Source.bytesOf t) :
    ∃ ss, hs.mapM (fun h => (Source.hashText c T t).display h ⟨false⟩) = .ok ss ∧
      (hs.Pairwise (fun a b => (Source.hashText c T t).cmp a b ≠ .gt) ↔ ss.Pairwise (· ≤ ·)) ∧
      (hs.Pairwise (fun a b => (Source.hashText c T t).cmp a b = .lt) ↔ ss.Pairwise (· < ·)) := by
  have one : ∀ h ∈ hs, (Source.hashText c T t).display h ⟨false⟩ =
      .ok (Hex.putBytes .lower ((Source.hashText c T t).toByteArray h)) := fun h hh => by
    have p := Source.plain c T t
    rw [p.display, p.lowerHex h _ (hl h hh)]
    rfl
  refine ⟨hs.map fun h => Hex.putBytes .lower ((Source.hashText c T t).toByteArray h), ?_, ?_, ?_⟩
  · clear hl
    induction hs with
    | nil => rfl
    | cons h hs ih =>
      rw [List.mapM_cons, one h List.mem_cons_self, ih fun x hx => one x (List.mem_cons_of_mem _ hx)]
      rfl
  · rw [List.pairwise_map]
    refine List.Pairwise.iff_of_mem fun {a b} ha hb => ?_
    obtain ⟨x, y, h1, h2, h3, h4, h5⟩ := C104_printed c T t a b (hl a ha) (hl b hb)
      (Source.hashText c T t).display (by simp)
    rw [one a ha] at h1
    rw [one b hb] at h2
    cases h1
    cases h2
    rw [Ne, h5, List.not_lt]
  · rw [List.pairwise_map]
    refine List.Pairwise.iff_of_mem fun {a b} ha hb => ?_
    obtain ⟨x, y, h1, h2, h3, h4, h5⟩ := C104_printed c T t a b (hl a ha) (hl b hb)
      (Source.hashText c T t).display (by simp)
    rw [one a ha] at h1
    rw [one b hb] at h2
    cases h1
    cases h2
    exact h3

/-- C104: the hashes whose printed form begins with the digits `p` are those from the hash parsed from
`p00..` to the one parsed from `pff..`, both included. -/
theorem C104_prefix (p : List Byte) (hp : ∀ x ∈ p, IsLowerDigit x) (hlen : p.length ≤ 2 * Source.bytesOf t)
    (parse : List Byte → Res (Except Hex.Error (Source.hashText c T t).H))
    (hparse : parse ∈ (Source.hashText c T t).parsers) :
    ∃ lo hi, parse (p ++ List.replicate (2 * Source.bytesOf t - p.length) 0x30) = .ok (.ok lo) ∧
      parse (p ++ List.replicate (2 * Source.bytesOf t - p.length) 0x66) = .ok (.ok hi) ∧
      ∀ h, ((Source.hashText c T t).toByteArray h).length = Source.bytesOf t →
        ∃ s, (Source.hashText c T t).display h ⟨false⟩ = .ok s ∧
          (p <+: s ↔ (Source.hashText c T t).cmp lo h ≠ .gt ∧ (Source.hashText c T t).cmp h hi ≠ .gt) := by
  obtain ⟨n, hn⟩ : ∃ n, n = 2 * Source.bytesOf t - p.length := ⟨_, rfl⟩
  rw [← hn]
  have pl := Source.plain c T t
  have made : ∀ x : Byte, IsHexDigit x → ∃ h, parse (p ++ List.replicate n x) = .ok (.ok h) ∧
      ((Source.hashText c T t).toByteArray h).length = Source.bytesOf t ∧
      beNat ((Source.hashText c T t).toByteArray h) = value16 (p ++ List.replicate n x) := fun x hx => by
    have hlen' : (p ++ List.replicate n x).length = 2 * Source.bytesOf t := by
      rw [List.length_append, List.length_replicate]
      omega
    have hv := value16_lt (p ++ List.replicate n x)
    rw [hlen', Nat.pow_mul] at hv
    have hb : beNat (beBytes (Source.bytesOf t) (value16 (p ++ List.replicate n x))) =
        value16 (p ++ List.replicate n x) := by
      rw [beNat_beBytes, Nat.mod_eq_of_lt hv]
    have hk : ((Source.hashText c T t).toByteArray (pl.make (beBytes (Source.bytesOf t)
        (value16 (p ++ List.replicate n x))))).length = Source.bytesOf t := by
      rw [pl.toByteArray_make, length_beBytes]
    refine ⟨pl.make (beBytes (Source.bytesOf t) (value16 (p ++ List.replicate n x))),
      (C73_parse c T t _ _ parse hparse).2 ⟨hlen', fun y hy => ?_, hk, ?_⟩, hk, ?_⟩
    · rcases List.mem_append.1 hy with hy | hy
      · exact (digit_lower (hp y hy)).1
      · rw [List.eq_of_mem_replicate hy]
        exact hx
    · rw [pl.toByteArray_make, hb]
    · rw [pl.toByteArray_make, hb]
  obtain ⟨lo, h1, h2, h3⟩ := made 0x30 (by decide)
  obtain ⟨hi, h4, h5, h6⟩ := made 0x66 (by decide)
  refine ⟨lo, hi, h1, h4, fun h hh => ?_⟩
  obtain ⟨s, -, -, f, -, -, -, -, -, l, d, v, -⟩ := C73_format c T t h hh
  refine ⟨s, f, ?_⟩
  rw [(C72_order c T t lo h h2 hh).1, (C72_order c T t h hi hh h5).1, Ne, Ne, Nat.compare_eq_gt,
    Nat.compare_eq_gt, Nat.not_lt, Nat.not_lt, h3, h6, ← v, value16_append, value16_append,
    List.length_replicate, List.length_replicate]
  have z : ∀ n, value16 (List.replicate n 0x30) = 0 := fun n => by
    induction n with
    | zero => rfl
    | succ n ih =>
      rw [List.replicate_succ, value16_cons, ih]
      show 0 * _ + 0 = 0
      rw [Nat.zero_mul]
  have w : ∀ n, value16 (List.replicate n 0x66) + 1 = 16 ^ n := fun n => by
    induction n with
    | zero => rfl
    | succ n ih =>
      rw [List.replicate_succ, value16_cons, Nat.add_assoc, ih, List.length_replicate, Nat.pow_succ]
      show 15 * _ + _ = _
      omega
  have hs : s = s.take p.length ++ s.drop p.length := (List.take_append_drop _ _).symm
  have ht : (s.take p.length).length = p.length := by rw [List.length_take]; omega
  have hd : (s.drop p.length).length = n := by rw [List.length_drop]; omega
  have hv := value16_append (s.take p.length) (s.drop p.length)
  rw [← hs, hd] at hv
  have hlt := value16_lt (s.drop p.length)
  rw [hd] at hlt
  have key := (string_order (s := p) ht.symm (.inl ⟨hp, fun x hx => d x (List.mem_of_mem_take hx)⟩)).2
  rw [List.prefix_iff_eq_take, key, z n]
  have wn := w n
  rw [hv]
  generalize value16 (List.take p.length s) = a at *
  generalize value16 (List.drop p.length s) = b at *
  generalize value16 p = e at *
  generalize value16 (List.replicate n 102#8) = g at *
  generalize 16 ^ n = k at *
  constructor
  · rintro rfl
    omega
  · rintro ⟨i, j⟩
    rcases Nat.lt_trichotomy e a with hab | hab | hab
    · have := Nat.mul_le_mul_right k hab
      rw [Nat.succ_mul] at this
      omega
    · exact hab
    · have := Nat.mul_le_mul_right k hab
      rw [Nat.succ_mul] at this
      omega

set_option maxRecDepth 10000 in
/- A case: the two-byte hashes whose printed form begins with "0a3" are 0a30 to 0a3f. -/
example :
    let ty := Source.hashText .debug64 ⟨.error .fuel⟩ (.hmac 2)
    let printed (bs : List Byte) : Res (List Byte) := ty.display (Source.Hmac.Hash.mk bs) ⟨false⟩
    printed [0x0a, 0x30] = .ok (ascii "0a30") ∧ printed [0x0a, 0x3f] = .ok (ascii "0a3f") ∧
    ascii "0a3" <+: ascii "0a3b" ∧ ty.cmp (Source.Hmac.Hash.mk [0x0a, 0x30]) (Source.Hmac.Hash.mk [0x0a, 0x3b]) = .lt ∧
    ty.cmp (Source.Hmac.Hash.mk [0x0a, 0x3b]) (Source.Hmac.Hash.mk [0x0a, 0x3f]) = .lt ∧
    ty.cmp (Source.Hmac.Hash.mk [0x0a, 0x40]) (Source.Hmac.Hash.mk [0x0a, 0x3f]) = .gt ∧
    ¬ ascii "0a3" <+: ascii "0a40" := by decide +kernel

end Chf.Props
