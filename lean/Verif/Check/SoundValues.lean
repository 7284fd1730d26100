import Verif.Check.Values
import Verif.Props.HashType
import Verif.Props.Serde

/-! # Every check of `Verif.Check.Values` is an instance of its theorem -/

namespace Chf.Check
open Spec HashTy Props

theorem onVals_true {p : (s : Source) → Hash s → Bool} (h : ∀ s a, p s a = true) : onVals p = true :=
  List.all_eq_true.2 fun s _ => List.all_eq_true.2 fun _ _ => h s _

theorem onPairs_true {p : (s : Source) → Hash s → Hash s → Bool} (h : ∀ s a b, p s a b = true) :
    onPairs p = true :=
  List.all_eq_true.2 fun s _ => List.all_eq_true.2 fun _ _ => List.all_eq_true.2 fun _ _ => h s _ _

theorem all_true {α : Type} {l : List α} {p : α → Bool} (h : ∀ x, p x = true) : l.all p = true :=
  List.all_eq_true.2 fun x _ => h x

theorem okOk_true {ε α : Type} {r : Res (Except ε α)} {p : α → Bool} (h : ∃ v, r = .ok (.ok v) ∧ p v = true) :
    okOk r p = true := by
  obtain ⟨v, rfl, h⟩ := h; exact h

theorem okErr_true {ε α : Type} {r : Res (Except ε α)} {p : ε → Bool}
    (h : ∃ e, r = .ok (.error e) ∧ p e = true) : okErr r p = true := by
  obtain ⟨v, rfl, h⟩ := h; exact h

theorem okAnd_true {α : Type} {r : Res α} {p : α → Bool} (h : ∃ v, r = .ok v ∧ p v = true) :
    okAnd r p = true := by
  obtain ⟨v, rfl, h⟩ := h; exact h

theorem or_of {p q : Bool} (h : p = false → q = true) : (p || q) = true := by
  cases p <;> simp_all

theorem length_some100 (n : Nat) : (some100 n).length = n := by simp [some100]

theorem sound_C27a : check_C27_lengths () = true := decide_eq_true <| by
  obtain ⟨h1, h2, h3, h4, h5, h6, h7, h8, h9, h10⟩ := C27_lengths
  exact ⟨h1, h2, h3, h4, h5, h6, h7, h8, h9, h10 77⟩

theorem sound_C27b : check_C27_right_length () = true :=
  all_true fun s => okOk_true <| by
    obtain ⟨v, h1, h2⟩ := C27_right_length s _ (length_some100 s.len)
    exact ⟨v, h1, by rw [h2, beq_iff_eq]⟩

theorem sound_C27c : check_C27_wrong_length () = true :=
  all_true fun s => all_true fun n => or_of fun hn => okErr_true <| by
    obtain ⟨e, h1, h2, h3⟩ := C27_wrong_length s (some100 n)
      (by rw [length_some100]; exact beq_eq_false_iff_ne.1 hn)
    rw [length_some100] at h3
    exact ⟨e, h1, by rw [h2, h3]; simp⟩

theorem sound_C27d : check_C27_message () = true :=
  all_true fun s => all_true fun n => or_of fun hn => okErr_true <| by
    obtain ⟨e, h1, h2⟩ := C27_message s (some100 n)
      (by rw [length_some100]; exact beq_eq_false_iff_ne.1 hn)
    rw [length_some100] at h2
    exact ⟨e, h1, by rw [h2, beq_iff_eq]⟩

theorem sound_C28a : check_C28_same_bytes () = true :=
  onVals_true fun s a => List.all_eq_true.2 fun v hv => decide_eq_true <| by
    refine C28_same_bytes s a.inner v ?_
    rw [List.mem_append] at hv
    rcases hv with hv | hv
    · simp only [List.mem_cons, List.not_mem_nil, or_false] at hv
      rcases hv with h | h | h
      · exact .inl h
      · exact .inr (.inl h)
      · exact .inr (.inr (.inl h))
    · refine .inr (.inr (.inr ?_))
      split at hv
      · next h => rw [h, List.mem_singleton.1 hv]
      · cases hv

theorem sound_C28b : check_C28_eq () = true := onPairs_true fun s a b => decide_eq_true (C28_eq s a b)
theorem sound_C28c : check_C28_rebuild () = true := onVals_true fun s a => decide_eq_true (C28_rebuild s a)
theorem sound_C28d : check_C28_write_through () = true :=
  onPairs_true fun s a b => decide_eq_true (C28_write_through s a.inner b)

theorem sound_C28e : check_C28_index () = true :=
  onVals_true fun s a => all_true fun i => by
    obtain ⟨h1, h2⟩ := C28_index s a i
    rw [Bool.and_eq_true]
    refine ⟨?_, decide_eq_true h2⟩
    split
    · next b hb => exact decide_eq_true (h1 b hb)
    · rfl

theorem sound_C28f : check_C28_index_range () = true :=
  onVals_true fun s a => all_true fun i => all_true fun j => decide_eq_true (C28_index_range s a i j)
theorem sound_C28g : check_C28_index_half () = true :=
  onVals_true fun s a => all_true fun i => decide_eq_true (C28_index_half s a i)
theorem sound_C28h : check_C28_all_zeros () = true := all_true fun s => decide_eq_true (C28_all_zeros s)

theorem sound_C29a : check_C29_round_trip () = true :=
  onVals_true fun s a => all_true fun case => okAnd_true <| by
    obtain ⟨out, h1, h2⟩ := C29_round_trip s a case
    exact ⟨out, h1, decide_eq_true h2⟩

theorem sound_C29b : check_C29_display () = true :=
  onVals_true fun s a => okAnd_true <| by
    obtain ⟨out, h1, h2⟩ := C29_display s a
    exact ⟨out, h1, decide_eq_true h2⟩

theorem sound_C29c : check_C29_prefix_rejected () = true :=
  onVals_true fun s a => all_true fun case => okAnd_true <| by
    obtain ⟨out, e, h1, h2⟩ := C29_prefix_rejected s a case
    exact ⟨out, h1, okErr_true ⟨e, h2, rfl⟩⟩

theorem sound_C30a : check_C30_accepts () = true :=
  onVals_true fun s a => all_true fun str => decide_eq_true (C30_accepts s str a)

theorem sound_C30b : check_C30_succeeds () = true :=
  all_true fun s => all_true fun str => or_of fun h => okOk_true <| by
    rw [Bool.not_eq_false', decide_eq_true_eq] at h
    obtain ⟨a, ha⟩ := C30_succeeds s str h.1 h.2
    exact ⟨a, ha, rfl⟩

theorem sound_C30c : check_C30_rejects () = true :=
  all_true fun s => all_true fun str => or_of fun h => okErr_true <| by
    obtain ⟨e, he⟩ := C30_rejects s str (of_decide_eq_false h)
    exact ⟨e, he, rfl⟩

theorem sound_C30d : check_C30_errors () = true :=
  all_true fun s => all_true fun str => by
    obtain ⟨h1, h2⟩ := C30_errors s str
    split
    · next h => exact decide_eq_true (h1 h)
    · next h =>
      split
      · rfl
      · next i hi =>
        split
        · rfl
        · next b hb =>
          obtain ⟨hlt, rfl⟩ := List.getElem?_eq_some_iff.1 hb
          have := List.findIdx?_eq_some_iff_getElem.1 hi
          obtain ⟨_, h3, h4⟩ := this
          refine decide_eq_true (h2 (Decidable.not_not.1 h) i hlt (fun j hj => ?_) ?_)
          · simpa using h4 j hj
          · simpa using h3

theorem sound_C30e : check_C30_case () = true :=
  all_true fun s => all_true fun a => all_true fun b => or_of fun h => by
    rw [Bool.not_eq_false', decide_eq_true_eq] at h
    exact decide_eq_true (C30_case s a b h.1 h.2)

theorem digitsOf_true {bs out : List Byte} (h : ∀ i b, bs[i]? = some b →
    ∃ x y, out[2 * i]? = some x ∧ out[2 * i + 1]? = some y ∧
      digitVal x = some (b.toNat / 16) ∧ digitVal y = some (b.toNat % 16)) : digitsOf bs out = true :=
  all_true fun i => by
    cases hb : bs[i]? with
    | none => rfl
    | some b =>
      obtain ⟨x, y, h1, h2, h3⟩ := h i b hb
      rw [h1, h2]
      exact decide_eq_true h3

theorem sound_C31a : check_C31_display () = true :=
  onVals_true fun s a => okAnd_true <| by
    obtain ⟨out, h1, h2, h3, h4, h5⟩ := C31_display s a
    exact ⟨out, h1, by rw [Bool.and_eq_true]; exact ⟨decide_eq_true ⟨h2, h3, h4⟩, digitsOf_true h5⟩⟩

theorem sound_C31b : check_C31_upper () = true :=
  onVals_true fun s a => okAnd_true <| by
    obtain ⟨out, h1, h3, h4, h5⟩ := C31_upper s a
    exact ⟨out, h1, by rw [Bool.and_eq_true]; exact ⟨decide_eq_true ⟨h3, h4⟩, digitsOf_true h5⟩⟩

theorem sound_C31c : check_C31_value () = true :=
  onVals_true fun s a => all_true fun case => okAnd_true <| by
    obtain ⟨out, h1, h2⟩ := C31_value s a case
    exact ⟨out, h1, decide_eq_true h2⟩

theorem sound_C31d : check_C31_prefix () = true :=
  onVals_true fun s a => all_true fun case => okAnd_true <| by
    obtain ⟨out, h1, h2⟩ := C31_prefix s a case
    exact ⟨out, h1, decide_eq_true h2⟩

theorem sound_C31e : check_C31_debug () = true :=
  onVals_true fun s a => all_true fun f => okAnd_true <| by
    obtain ⟨out, h1, h2⟩ := C31_debug s a ⟨f⟩
    exact ⟨out, h1, decide_eq_true h2⟩

theorem sound_C31f : check_C31_injective () = true :=
  onPairs_true fun s a b => all_true fun f => all_true fun case => decide_eq_true (C31_injective s a b ⟨f⟩ case)

theorem sound_C36a : check_C36_numeric () = true :=
  onPairs_true fun s a b => decide_eq_true (C36_numeric s a b)

theorem sound_C36b : check_C36_total_order () = true :=
  all_true fun s => all_true fun _ => all_true fun _ => all_true fun _ => decide_eq_true (C36_total_order s _ _ _)

theorem sound_C36c : check_C36_display_order () = true :=
  onPairs_true fun s a b => by
    obtain ⟨x, y, h1, h2, h3⟩ := C36_display_order s a b
    exact okAnd_true ⟨x, h1, okAnd_true ⟨y, h2, decide_eq_true h3⟩⟩

theorem sound_C32a : check_C32_round_trip () = true :=
  onVals_true fun s a => all_true fun human => okAnd_true <| by
    obtain ⟨d, h1, h2⟩ := C32_round_trip s human a
    exact ⟨d, h1, decide_eq_true h2⟩

theorem sound_C32b : check_C32_string_as_bytes () = true :=
  onVals_true fun s a => okAnd_true <| by
    obtain ⟨d, h1, h2⟩ := C32_string_as_bytes s a
    exact ⟨.str d, h1, decide_eq_true h2⟩

theorem sound_C32c : check_C32_format () = true :=
  onVals_true fun s a => by
    obtain ⟨⟨out, h1, h2⟩, h3⟩ := C32_format s a
    rw [Bool.and_eq_true]
    exact ⟨okAnd_true ⟨out, h1, decide_eq_true h2⟩, decide_eq_true h3⟩

theorem humanCheck_true {mkData : List Byte → Data} (H : ∀ s v (a : Hash s),
    (deserialize s true (mkData v) = .ok (.ok a) ↔
      v.length = 2 * s.len ∧ (∀ x ∈ v, IsHexDigit x) ∧ value16 v = beNat (asBytes a)) ∧
    (¬ (v.length = 2 * s.len ∧ ∀ x ∈ v, IsHexDigit x) →
      ∃ e, deserialize s true (mkData v) = .ok (.error e))) : humanCheck mkData = true := by
  unfold humanCheck
  refine onVals_true fun s a => all_true fun v => ?_
  obtain ⟨h1, h2⟩ := H s v a
  rw [Bool.and_eq_true]
  refine ⟨decide_eq_true h1, or_of fun h => okErr_true ?_⟩
  obtain ⟨e, he⟩ := h2 (of_decide_eq_false h)
  exact ⟨e, he, rfl⟩

theorem sound_C32d : check_C32_human () = true := humanCheck_true C32_human
theorem sound_C32e : check_C32_human_bytes () = true := humanCheck_true C32_human_bytes

theorem notUtf8_not : ∀ v ∈ notUtf8, ¬ IsUtf8 v := by
  simp only [← utf8Valid_iff]
  decide +kernel

theorem areUtf8_are : ∀ v ∈ areUtf8, IsUtf8 v := by
  simp only [← utf8Valid_iff]
  decide +kernel

theorem sound_C32h : check_C32_human_errors () = true :=
  all_true fun s => by
    rw [Bool.and_eq_true, Bool.and_eq_true]
    refine ⟨⟨List.all_eq_true.2 fun v hv => decide_eq_true ((C32_human_errors s v).1 (notUtf8_not v hv)),
      List.all_eq_true.2 fun v hv => decide_eq_true ((C32_human_errors s v).2.1 (areUtf8_are v hv))⟩,
      all_true fun v => or_of fun h => decide_eq_true ((C32_human_errors s v).2.2.1 (of_decide_eq_false h))⟩

theorem sound_C32f : check_C32_binary () = true :=
  onVals_true fun s a => all_true fun v => decide_eq_true (C32_binary s v a)

theorem sound_C32g : check_C32_other () = true :=
  all_true fun s => all_true fun v => all_true fun human => decide_eq_true (C32_other s human v)

theorem sources_lt : ∀ s ∈ sources, s.len < 2 ^ 31 := by decide

theorem sound_C43a : check_C43_exists () = true :=
  all_true fun c => List.all_eq_true.2 fun s hs => by
    have hl := sources_lt s hs
    have key : s ≠ .midstate → (match jsonSchema c s with
        | some (.ok sch) => sch.minLength == 2 * s.len && sch.maxLength == 2 * s.len
        | _ => false) = true := by
      intro hm
      obtain ⟨sch, h1, h2, h3⟩ := C43_exists c s hm hl
      rw [h1]
      simp only [h2, h3, beq_self_eq_true, Bool.and_self]
    cases s with
    | midstate => rfl
    | _ => exact key (by simp)

theorem matches_class {rs : List (Byte × Byte)} {m : List Byte} (h : Matches (.cls rs) m) :
    ∃ b, m = [b] ∧ inClass rs b = true := by
  cases h with
  | @cls _ lo hi b hr h1 h2 => exact ⟨b, rfl, List.any_eq_true.2 ⟨(lo, hi), hr, decide_eq_true ⟨h1, h2⟩⟩⟩

theorem matches_class_iff {rs : List (Byte × Byte)} {b : Byte} (h : inClass rs b = true) :
    Matches (.cls rs) [b] := by
  obtain ⟨⟨lo, hi⟩, hr, h⟩ := List.any_eq_true.1 h
  rw [decide_eq_true_eq] at h
  exact .cls hr h.1 h.2

theorem mayFind_of {r : Regex} {v : List Byte} (h : Found r v) : mayFind r v = true := by
  obtain ⟨a, m, b, rfl, hm⟩ := h
  have one : ∀ {rs x}, inClass rs x = true → x ∈ m → (a ++ m ++ b).any (inClass rs) = true := fun h hx =>
    List.any_eq_true.2 ⟨_, by simp [hx], h⟩
  match r, hm with
  | .cls rs, hm =>
    obtain ⟨x, rfl, hx⟩ := matches_class hm
    exact one hx (by simp)
  | .plus (.cls rs), hm =>
    cases hm with
    | one h =>
      obtain ⟨x, rfl, hx⟩ := matches_class h
      exact one hx (by simp)
    | more h _ =>
      obtain ⟨x, rfl, hx⟩ := matches_class h
      exact one hx (by simp)
  | .plus (.plus _), _ => rfl

theorem matches_plus {rs : List (Byte × Byte)} : ∀ v : List Byte, v ≠ [] → (∀ x ∈ v, inClass rs x = true) →
    Matches (.plus (.cls rs)) v
  | [], h, _ => absurd rfl h
  | [x], _, h => .one (matches_class_iff (h x (by simp)))
  | x :: y :: ys, _, h => .more (v := [x]) (matches_class_iff (h x (by simp)))
      (matches_plus (y :: ys) (by simp) fun z hz => h z (List.mem_cons_of_mem _ hz))

theorem matches_of {r : Regex} {v : List Byte} (h : surelyMatches r v = true) : Matches r v := by
  match r, h with
  | .plus (.cls rs), h =>
    simp only [surelyMatches, Bool.and_eq_true, List.all_eq_true, Bool.not_eq_true',
      List.isEmpty_eq_false_iff] at h
    exact matches_plus v h.1 h.2

theorem sound_C43b : check_C43_admits () = true :=
  all_true fun c => List.all_eq_true.2 fun s hs => all_true fun f => by
    dsimp only
    split
    · next sch v h1 h2 =>
      refine or_of fun h0 => ?_
      have h0 : s.len ≠ 0 := beq_eq_false_iff_ne.1 h0
      obtain ⟨k1, k2, k3⟩ := C43_admits c s (by omega) (sources_lt s hs) sch h1 _ v h2
      rw [Bool.and_eq_true]
      exact ⟨decide_eq_true ⟨k1, k2⟩, mayFind_of k3⟩
    · rfl

theorem sound_C43c : check_C43_deserializes () = true :=
  all_true fun c => List.all_eq_true.2 fun s hs => all_true fun v => by
    split
    · next sch h1 =>
      refine or_of fun h => okOk_true ?_
      rw [Bool.not_eq_false', Bool.and_eq_true, decide_eq_true_eq] at h
      obtain ⟨a, ha⟩ := C43_deserializes c s (sources_lt s hs) sch h1 v h.1.1 h.1.2 (matches_of h.2)
      exact ⟨a, ha, rfl⟩
    · rfl

theorem mayMatch_of {r : Regex} {v : List Byte} (h : Matches r v) : mayMatch r v = true := by
  match r, h with
  | .cls _, _ => rfl
  | .plus (.plus _), _ => rfl
  | .plus (.cls rs), h =>
    show v.all (inClass rs) = true
    have key : ∀ r v, Matches r v → r = .plus (.cls rs) → v.all (inClass rs) = true := by
      intro r v h
      induction h with
      | cls => intro e; cases e
      | one h =>
        rintro ⟨⟩
        obtain ⟨b, rfl, hb⟩ := matches_class h
        simp [hb]
      | more h _ _ ih =>
        rintro ⟨⟩
        obtain ⟨b, rfl, hb⟩ := matches_class h
        have := ih rfl
        simp_all
    exact key _ _ h rfl

theorem sound_C43d : check_C43_exact () = true :=
  all_true fun c => List.all_eq_true.2 fun s hs => all_true fun v => by
    split
    · next sch h1 =>
      refine or_of fun h => ?_
      rw [Bool.or_eq_false_iff, beq_eq_false_iff_ne, Bool.not_eq_false'] at h
      obtain ⟨h0, h2⟩ := h
      have ex : ∃ a, deserialize s true (.str v) = .ok (.ok a) := by
        unfold okOk at h2
        split at h2
        · next a ha => exact ⟨a, ha⟩
        · cases h2
      obtain ⟨k1, k2, k3⟩ := (C43_exact c s (by omega) (sources_lt s hs) sch h1 v).1 ex
      rw [Bool.and_eq_true]
      exact ⟨decide_eq_true ⟨k1, k2⟩, mayMatch_of k3⟩
    · rfl

theorem valueChecks_true : ∀ x ∈ valueChecks, x.2 () = true := by
  unfold valueChecks
  simp only [List.forall_mem_cons, List.not_mem_nil, false_implies, implies_true, and_true]
  exact ⟨sound_C27a, sound_C27b, sound_C27c, sound_C27d, sound_C28a, sound_C28b, sound_C28c, sound_C28d,
    sound_C28e, sound_C28f, sound_C28g, sound_C28h, sound_C29a, sound_C29b, sound_C29c, sound_C30a,
    sound_C30b, sound_C30c, sound_C30d, sound_C30e, sound_C31a, sound_C31b, sound_C31c, sound_C31d,
    sound_C31e, sound_C31f, sound_C36a, sound_C36b, sound_C36c, sound_C32a, sound_C32b, sound_C32c,
    sound_C32d, sound_C32e, sound_C32h, sound_C32f, sound_C32g, sound_C43a, sound_C43b, sound_C43c, sound_C43d⟩

end Chf.Check
