import Verif.Check.TextPermute
import Verif.Check.SoundTextCollide
import Verif.Props.TextPermutations

/-!
# The instances of C94 follow from the theorems
-/

namespace Chf.Check
open Chf Spec Props Chf.Rs

theorem valid94 {c : Cfg} (hc : c ∈ debug16 :: release16 :: cfgs) : c.Valid ∧ 2 ^ 16 ≤ c.usizeMod := by
  rcases List.mem_cons.1 hc with rfl | hc
  · exact ⟨by decide, by decide⟩
  · rcases List.mem_cons.1 hc with rfl | hc
    · exact ⟨by decide, by decide⟩
    · have := cfg64 c hc
      exact ⟨.inr (.inr this), by show _ ≤ 2 ^ c.usizeBits; rw [this]; decide⟩

theorem textLeads_true {c : Cfg} {a : Alg} {n : Nat} {data : List Byte} {v w : MidVal} :
    textLeads c a n data v w = true ↔ TextLeads c a n data v w := by
  unfold textLeads TextLeads
  cases hm : Source.make c a (.resume v n) with
  | none => simp
  | some r =>
    cases r with
    | error f => simp
    | ok e =>
      simp only [decide_eq_true_eq]
      constructor
      · intro h
        obtain ⟨e', h1, h⟩ := Source.bind_ok_of h
        obtain ⟨μ, h2, h⟩ := Source.bind_ok_of h
        exact ⟨e, e', μ, rfl, h1, h2, Except.ok.inj h⟩
      · rintro ⟨e0, e', μ, h0, h1, h2, h3⟩
        cases h0
        rw [h1, ok_bind, h2, ok_bind, h3]
        rfl

theorem sound_C94_fixed : check_C94_fixed () = true :=
  List.all_eq_true.2 fun c hc => forall2_true fun x hx n hn => by
    obtain ⟨hv, hM⟩ := valid94 hc
    have hn' : n % 64 = 0 ∧ n ≤ 640 := by
      simp only [List.mem_cons, List.not_mem_nil, or_false] at hn
      rcases hn with rfl | rfl | rfl <;> decide
    have hb : count94.length = 64 := by decide
    have hlen : n + 64 < c.usizeMod := by omega
    simp only [fix94, List.mem_cons, List.not_mem_nil, or_false] at hx
    rcases hx with rfl | rfl
    · have lead := fixed256_leads hv hn'.1 hlen
      obtain ⟨μ, _, _, h3⟩ := C94_sha256_fixed_point hv count94 hb n (Nat.dvd_of_mod_eq_zero hn'.1) hlen
      have hμ := h3 _ lead
      rw [Bool.and_eq_true]
      refine ⟨textLeads_true.2 lead, List.all_eq_true.2 fun y hy => ?_⟩
      rw [Bool.not_eq_true', Bool.eq_false_iff]
      intro h
      have h' := (h3 _ (textLeads_true.1 h)).trans hμ.symm
      injection h' with h'
      simp only [List.mem_cons, List.not_mem_nil, or_false] at hy
      rcases hy with rfl | rfl | rfl <;> exact absurd h' (by decide)
    · have lead := fixed1_leads hv hn'.1 hlen
      obtain ⟨μ, _, _, h3⟩ := C94_sha1_fixed_point hv count94 hb n (Nat.dvd_of_mod_eq_zero hn'.1) hlen
      have hμ := h3 _ lead
      rw [Bool.and_eq_true]
      refine ⟨textLeads_true.2 lead, List.all_eq_true.2 fun y hy => ?_⟩
      rw [Bool.not_eq_true', Bool.eq_false_iff]
      intro h
      have h' := (h3 _ (textLeads_true.1 h)).trans hμ.symm
      injection h' with h'
      simp only [List.mem_cons, List.not_mem_nil, or_false] at hy
      rcases hy with rfl | rfl | rfl <;> exact absurd h' (by decide)

theorem zipWith_add_sub {w : Nat} : ∀ {g h : List (BitVec w)}, g.length = h.length →
    List.zipWith (· + ·) h (List.zipWith (· - ·) g h) = g
  | [], [], _ => rfl
  | x :: g, y :: h, hl => by
    simp only [List.zipWith_cons_cons, List.cons.injEq]
    exact ⟨by rw [BitVec.add_comm, BitVec.sub_add_cancel], zipWith_add_sub (Nat.succ.inj hl)⟩

theorem moves_of {w k : Nat} {E : Type} {run : List (BitVec w) → Res E} {words : E → List (BitVec w)}
    {mk : List (BitVec w) → E} (hw : ∀ g, words (mk g) = g)
    (tot : ∀ h : List (BitVec w), h.length = k → ∃ g, g.length = k ∧ run h = .ok (mk g))
    (uniq : ∀ Δ : List (BitVec w), Δ.length = k → ∃ h, h.length = k ∧ run h = .ok (mk (List.zipWith (· + ·) h Δ)) ∧
      ∀ h', h'.length = k → run h' = .ok (mk (List.zipWith (· + ·) h' Δ)) → h' = h) :
    moves94 k run words = true :=
  forall2_true fun h hh h' hh' => by
    have hl : ∀ h ∈ words94 (w := w) k, h.length = k := by
      intro h hh
      simp only [words94, List.mem_cons, List.not_mem_nil, or_false] at hh
      rcases hh with rfl | rfl | rfl | rfl <;> simp
    obtain ⟨g, hg, h1⟩ := tot h (hl h hh)
    obtain ⟨g', hg', h1'⟩ := tot h' (hl h' hh')
    rw [h1, h1']
    simp only [hw, Bool.or_eq_true, decide_eq_true_eq]
    refine Decidable.or_iff_not_imp_left.2 fun hne he => hne ?_
    obtain ⟨h0, _, _, hu⟩ := uniq (List.zipWith (· - ·) g h) (by
      rw [List.length_zipWith, hg, hl h hh, Nat.min_self])
    refine (hu h (hl h hh) ?_).trans (hu h' (hl h' hh') ?_).symm
    · rw [zipWith_add_sub (hg.trans (hl h hh).symm)]; exact h1
    · rw [he, zipWith_add_sub (hg'.trans (hl h' hh').symm)]; exact h1'

theorem sound_C94_difference : check_C94_difference () = true :=
  List.all_eq_true.2 fun c hc => List.all_eq_true.2 fun b hb => by
    have hv := (valid94 hc).1
    have hl : b.1.length = 64 ∧ b.2.length = 128 := by
      simp only [List.mem_cons, List.not_mem_nil, or_false] at hb
      rcases hb with rfl | rfl
      · exact ⟨msg_length _, msg_length _⟩
      · exact ⟨by simp, by simp⟩
    rw [Bool.and_eq_true, Bool.and_eq_true]
    refine ⟨⟨?_, ?_⟩, ?_⟩
    · refine moves_of (mk := fun g => ⟨g, 128, b.2⟩) (fun _ => rfl) (fun h hh => ?_)
        fun Δ hΔ => C94_sha512_difference c b.2 hl.2 128 Δ hΔ
      obtain ⟨h, rfl⟩ := arr8_of hh
      refine ⟨(Spec.compress512 h b.2).toList, rfl, ?_⟩
      refine (Source.Sha512.process_block_eq c ⟨b.2, h, 128⟩).trans ?_
      unfold BlockEngine.processBlock Sha512.ops
      simp only [Sha512.processBlock_eq c b.2 h hl.2]
      rfl
    · refine moves_of (mk := fun g => ⟨b.1, g, 64⟩) (fun _ => rfl) (fun h hh => ?_)
        fun Δ hΔ => C94_sha256_difference hv b.1 hl.1 64 Δ hΔ
      obtain ⟨h, rfl⟩ := arr8_of hh
      refine ⟨(Spec.compress256 h b.1).toList, rfl, ?_⟩
      refine (Source.Sha256.process_block_eq c hv ⟨b.1, h, 64⟩).trans ?_
      unfold BlockEngine.processBlock Sha256.ops
      simp only [Sha256.processBlock_eq c b.1 h hl.1]
      rfl
    · refine moves_of (mk := fun g => ⟨b.1, g, 64⟩) (fun _ => rfl) (fun h hh => ?_)
        fun Δ hΔ => C94_sha1_difference c b.1 hl.1 64 Δ hΔ
      obtain ⟨h, rfl⟩ := arr5_of hh
      refine ⟨(Spec.compress1 h b.1).toList, rfl, ?_⟩
      refine (Source.Sha1.process_block_eq c ⟨b.1, h, 64⟩).trans ?_
      unfold BlockEngine.processBlock Sha1.ops
      simp only [Sha1.processBlock_eq c b.1 h hl.1]
      rfl

theorem sound_C94_siphash : check_C94_siphash () = true :=
  forall2_true fun c hc n hn => decide_eq_true <| by
    obtain ⟨hv, hM⟩ := valid94 hc
    have hn' : n < c.usizeMod := by
      simp only [List.mem_cons, List.not_mem_nil, or_false] at hn
      omega
    have hd : (count94.take 21).length < c.usizeMod := Nat.lt_of_lt_of_le (by decide) hM
    have lead := before21_leads hv hn'
    obtain ⟨μ, _, h2⟩ := C94_siphash_bijection hv (count94.take 21) hd n hn' ⟨1, 3, 2, 4⟩
    have hμ := h2 _ lead
    have other : ∀ s, s ≠ before21 →
        textLeads c .siphash24 n (count94.take 21) (.sip s) (.sip ⟨1, 3, 2, 4⟩) = false := by
      intro s hs
      rw [Bool.eq_false_iff]
      intro h
      have h' := (h2 _ (textLeads_true.1 h)).trans hμ.symm
      injection h' with h'
      exact hs h'
    have first := textLeads_true.2 lead
    simp only [sips94, List.map_cons, List.map_nil, List.cons.injEq, and_true]
    exact ⟨first, other _ (by decide), other _ (by decide), other _ (by decide)⟩

theorem sound_C94_keys : check_C94_keys () = true :=
  List.all_eq_true.2 fun c hc => forall2_true fun k _ ds hds => by
    obtain ⟨hv, hM⟩ := valid94 hc
    have hs : ∀ d ∈ ds, d.length < c.usizeMod := by
      intro d hd
      have : d.length ≤ 20 := by
        simp only [List.mem_cons, List.not_mem_nil, or_false] at hds
        rcases hds with rfl | rfl | rfl <;> simp only [List.mem_cons, List.not_mem_nil, or_false] at hd
        · rw [hd, msg_length]; decide
        · rcases hd with rfl | rfl <;> rw [msg_length] <;> decide
      omega
    cases hx : sipMid94 c k.1 ds with
    | error f => rfl
    | ok v =>
      simp only [Bool.or_eq_true, decide_eq_true_eq, ← hx]
      refine Decidable.or_iff_not_imp_left.2 fun hne he => hne (.inr ?_)
      have split : ∀ {k v}, sipMid94 c k ds = .ok v → ∃ e0 e μ,
          Source.make c .siphash24 (.sipKeys k.1 k.2) = some (.ok e0) ∧
          (Source.engineOf c .siphash24).inputs e0 ds = .ok e ∧
          (Source.engineOf c .siphash24).midstate e = .ok μ ∧ Source.showMid c .siphash24 μ = v := by
        intro k v h
        unfold sipMid94 at h
        cases hm : Source.make c .siphash24 (.sipKeys k.1 k.2) with
        | none => rw [hm] at h; cases h
        | some r =>
          rw [hm] at h
          obtain ⟨e0, h0, h⟩ := Source.bind_ok_of h
          obtain ⟨e, h1, h⟩ := Source.bind_ok_of h
          obtain ⟨μ, h2, h⟩ := Source.bind_ok_of h
          exact ⟨e0, e, μ, by rw [h0], h1, h2, Except.ok.inj h⟩
      obtain ⟨e0, e, μ, h0, h1, h2, h3⟩ := split hx
      obtain ⟨e0', e', μ', h0', h1', h2', h3'⟩ := split (he ▸ hx)
      have hμ : μ = μ' := Props.showMid_inj .siphash24 (h3.trans h3'.symm)
      obtain ⟨ha, hb⟩ := C94_siphash_keys hv k.1.1 k.1.2 k.2.1 k.2.2 ds hs h0 h0' h1 h1' (by rw [h2, h2', hμ])
      exact Prod.ext ha hb

end Chf.Check
