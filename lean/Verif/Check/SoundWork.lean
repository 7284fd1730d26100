import Verif.Check.Work
import Verif.Check.Sound
import Verif.Check.SoundValues
import Verif.Props.Copy
import Verif.Props.Safety
import Verif.Props.HashApi
import Verif.Props.Permutations
import Verif.Props.Reductions
import Verif.Props.Shape
import Verif.Props.Work

/-! # Every check of `Verif.Check.Work` is an instance of its theorem -/

namespace Chf.Check
open Spec Props HashTy

/-! ## Collisions -/

theorem collides_true {c : Cfg} {X : BlockHash} {dec : DecidableEq X.H} {ds ds' : List (List Byte)}
    (h : RunsCollide c X ds ds') : collides c X dec ds ds' = true := by
  obtain ⟨r, r', h1, h2, x, hx, x', hx', hne, y, e1, e2⟩ := h
  simp only [collides, h1, h2, List.any_eq_true]
  refine ⟨x, hx, x', hx', ?_⟩
  simp [e1, e2, hne]

theorem runsCollide_true {c : Cfg} {a : Alg} {X : BlockHash} (hX : a.blockHash c = some X)
    {ds ds' : List (List Byte)} (h : RunsCollide c X ds ds') : runsCollide c a ds ds' = true := by
  unfold runsCollide
  split
  · next h' => rw [hX] at h'; cases h'
  · next Y h' =>
    rw [hX] at h'
    cases h'
    exact collides_true h

theorem agree_ok {r r' : Res (List Byte)} (h : agree r r' = true) : ∃ d, r = .ok d ∧ r' = .ok d := by
  cases r <;> cases r' <;> simp [agree] at h
  exact ⟨_, rfl, congrArg _ h.symm⟩

theorem imp_or {p q : Bool} (h : p = true → q = true) : (!p || q) = true := by
  cases p <;> simp_all

theorem confusable_ok : ∀ p ∈ confusable, p.1.flatten.length < 1000 ∧ p.2.flatten.length < 1000 ∧
    p.1.flatten ≠ p.2.flatten := by decide +kernel

theorem mem_untruncated {x : Cfg × Alg} (hx : x ∈ cfgs.flatMap fun c => untruncatedAlgs.map (c, ·)) :
    x.1 ∈ cfgs ∧ untruncated x.2 = true ∧ ∃ X, x.2.blockHash x.1 = some X := by
  simp only [List.mem_flatMap, List.mem_map] at hx
  obtain ⟨c, hc, a, ha, rfl⟩ := hx
  simp only [untruncatedAlgs, List.mem_cons, List.not_mem_nil, or_false] at ha
  rcases ha with rfl | rfl | rfl | rfl <;> exact ⟨hc, rfl, _, rfl⟩

theorem sound_C49 : check_C49_collision () = true :=
  forall2_true fun x hx p hp => imp_or fun h => by
    obtain ⟨hc, ha, X, hX⟩ := mem_untruncated hx
    obtain ⟨h1, h2, h3⟩ := confusable_ok p hp
    obtain ⟨d, e1, e2⟩ := agree_ok h
    have hw := cfg64 x.1 hc
    exact runsCollide_true hX (C49_collision (valid hc) x.2 ha X hX p.1 p.2 d (by omega) (by omega)
      (by rw [hw]; omega) (by rw [hw]; omega) e1 e2 h3)

theorem taggedPairs_ok : ∀ p ∈ taggedPairs, p.1.1.length < 1000 ∧ p.1.2.length < 1000 ∧
    p.2.1.length < 1000 ∧ p.2.2.length < 1000 ∧ p.1 ≠ p.2 := by decide +kernel

theorem fits64 {c : Cfg} (hc : c ∈ cfgs) {n : Nat} (h : n < 2000) : Fits c n := by
  unfold Fits
  rw [mod64 hc]
  omega

theorem sound_C57a : check_C57_tags () = true :=
  forall2_true fun c hc p hp => by
    rw [Bool.or_assoc]
    refine imp_or fun h => ?_
    obtain ⟨h1, h2, h3, h4, h5⟩ := taggedPairs_ok p hp
    obtain ⟨d, e1, e2⟩ := agree_ok h
    rcases C57_tags (valid hc) _ rfl p.1.1 p.1.2 p.2.1 p.2.2 d (fits64 hc (by omega)) (fits64 hc (by omega))
      (fits64 hc (by omega)) (fits64 hc (by omega)) e1 e2 h5 with h | h
    · rw [runsCollide_true rfl h, Bool.true_or]
    · rw [runsCollide_true (a := .sha256) rfl h, Bool.or_true]

theorem hmacPairs_ok : ∀ p ∈ hmacPairs, p.1.1.length < 1000 ∧ p.1.2.length < 1000 ∧
    p.2.1.length < 1000 ∧ p.2.2.length < 1000 ∧ p.1.1.length = p.2.1.length ∧ p.1 ≠ p.2 := by
  decide +kernel

theorem untruncated_size {a : Alg} (ha : untruncated a = true) : a.blockSize ≤ 128 := by
  cases a <;> first | (cases ha; done) | decide

theorem sound_C57b : check_C57_hmac_same_length () = true :=
  forall2_true fun x hx p hp => imp_or fun h => by
    obtain ⟨hc, ha, X, hX⟩ := mem_untruncated hx
    obtain ⟨h1, h2, h3, h4, h5, h6⟩ := hmacPairs_ok p hp
    have hB := untruncated_size ha
    obtain ⟨d, e1, e2⟩ := agree_ok h
    rcases C57_hmac_same_length (valid hc) x.2 ha X hX p.1.1 p.1.2 p.2.1 p.2.2 d (fits64 hc (by omega))
      (fits64 hc (by omega)) (fits64 hc (by omega)) (fits64 hc (by omega)) e1 e2 h5 h6 with h | h | h
    · rw [runsCollide_true hX h, Bool.true_or]
    · rw [show runsCollide x.1 x.2 [hmacInner _ _ _] [hmacInner _ _ _] = true from
        runsCollide_true hX h, Bool.true_or, Bool.or_true]
    · rw [show runsCollide x.1 x.2 [hmacOuter _ _ _] [hmacOuter _ _ _] = true from
        runsCollide_true hX h, Bool.or_true, Bool.or_true]

/-! ## Work and lengths -/

theorem mem_blockAlgs {x : Cfg × Alg} (hx : x ∈ cfgs.flatMap fun c => blockAlgs.map (c, ·)) :
    x.1 ∈ cfgs ∧ (∃ X, x.2.blockHash x.1 = some X) ∧ blockAndField x.2 = some (fieldOf x.2) := by
  simp only [List.mem_flatMap, List.mem_map] at hx
  obtain ⟨c, hc, a, ha, rfl⟩ := hx
  simp only [blockAlgs, List.mem_cons, List.not_mem_nil, or_false] at ha
  rcases ha with rfl | rfl | rfl | rfl | rfl | rfl <;> exact ⟨hc, ⟨_, rfl⟩, rfl⟩

theorem sound_C56a : check_C56_streaming () = true :=
  forall2_true fun x hx ds _ => by
    obtain ⟨hc, ⟨X, hX⟩, hf⟩ := mem_blockAlgs hx
    simp only [hX]
    split
    · rfl
    · next hr => exact decide_eq_true (C56_streaming (valid hc) x.2 X hX hf ds hr)

theorem sound_C56b : check_C56_total () = true :=
  forall2_true fun x hx ds _ => by
    obtain ⟨hc, ⟨X, hX⟩, hf⟩ := mem_blockAlgs hx
    simp only [hX]
    split
    · rfl
    · next hr => exact decide_eq_true (C56_total (valid hc) x.2 X hX hf ds hr)

theorem blankBytes_blank (d : List Byte) : blankBytes (blankBytes d) = blankBytes d := by
  simp [blankBytes]

theorem MidVal.blank_blank : (v : MidVal) → v.blank.blank = v.blank
  | .bytes bs => by simp [MidVal.blank, blankBytes_blank]
  | .sip _ => rfl
  | .pair i o => by simp [MidVal.blank, blank_blank i, blank_blank o]

theorem Call.blank_blank (x : Call) : x.blank.blank = x.blank := by
  cases x with
  | make a how => cases how <;> simp [Call.blank, Make.blank, blankBytes_blank, MidVal.blank_blank]
  | input i d => simp [Call.blank, blankBytes_blank]
  | _ => rfl

theorem sound_C55 : check_C55_lengths_decide () = true :=
  forall2_true fun c _ p _ => decide_eq_true <|
    C55_lengths_decide c p (p.map Call.blank) (by
      rw [List.map_map]
      exact List.map_congr_left fun x _ => (Call.blank_blank x).symm)

/-! ## Permutations -/

theorem movesApart_true {H : Type} [DecidableEq H] {sub add : H → H → H} {states : List H} {f : H → Res H}
    (hs : ∀ a b, add b (sub a b) = a)
    (h : ∀ Δ, ∃ h, f h = .ok (add h Δ) ∧ ∀ h', f h' = .ok (add h' Δ) → h' = h) :
    movesApart sub states f = true :=
  forall2_true fun x _ y _ => by
    by_cases hxy : x = y
    · simp [hxy]
    · rw [decide_eq_false hxy, Bool.false_or]
      split
      · next r r' h1 h2 =>
        rw [Bool.not_eq_true', decide_eq_false_iff_not]
        intro he
        obtain ⟨z, -, hz⟩ := h (sub r x)
        exact hxy ((hz x (by rw [hs, h1])).trans (hz y (by rw [he, hs, h2])).symm)
      · rfl

theorem add_sub_word {w : Nat} (a b : BitVec w) : b + (a - b) = a := by
  rw [BitVec.add_comm, BitVec.sub_add_cancel]

theorem blocks64_ok : ∀ b ∈ blocks64, b.length = 64 := by decide +kernel
theorem blocks128_ok : ∀ b ∈ blocks128, b.length = 128 := by decide +kernel

theorem sound_C53a : check_C53_sha256_difference () = true :=
  forall2_true fun c _ b hb => movesApart_true (add := Sha2.add)
    (fun _ _ => by simp only [Sha2.add, sub8, add_sub_word]) (C53_sha256_difference c b (blocks64_ok b hb))

theorem sound_C53b : check_C53_sha512_difference () = true :=
  forall2_true fun c _ b hb => movesApart_true (add := Sha2.add)
    (fun _ _ => by simp only [Sha2.add, sub8, add_sub_word]) (C53_sha512_difference c b (blocks128_ok b hb))

theorem sound_C53c : check_C53_sha1_difference () = true :=
  forall2_true fun c _ b hb => movesApart_true
    (add := fun h Δ => ⟨h.x0 + Δ.x0, h.x1 + Δ.x1, h.x2 + Δ.x2, h.x3 + Δ.x3, h.x4 + Δ.x4⟩)
    (fun _ _ => by simp only [sub5, add_sub_word]) (C53_sha1_difference c b (blocks64_ok b hb))

theorem sound_C54a : check_C54_bijection () = true :=
  forall2_true fun c hc p _ => by
    by_cases hp : p.1 = p.2
    · rw [decide_eq_true hp, Bool.true_or]
    · rw [decide_eq_false hp, Bool.false_or, List.all_eq_true]
      intro d hd
      have hd' : d.length < 1000 := by
        simp only [List.mem_cons, List.not_mem_nil, or_false] at hd
        rcases hd with rfl | rfl | rfl <;> simp [msg_length]
      split
      · next ν ν' h1 h2 =>
        rw [Bool.not_eq_true', decide_eq_false_iff_not]
        rintro rfl
        obtain ⟨μ, -, hμ⟩ := C54_bijection (valid hc) d (by rw [mod64 hc]; omega) 5
          (by rw [mod64 hc]; omega) ν
        exact hp ((hμ p.1 h1).trans (hμ p.2 h2).symm)
      · rfl

theorem sound_C54b : check_C54_keys () = true :=
  forall2_true fun c hc p _ => by
    by_cases hp : p.1 = p.2
    · rw [decide_eq_true hp, Bool.true_or]
    · rw [decide_eq_false hp, Bool.false_or, List.all_eq_true]
      intro ds hd
      have hd' : ∀ d ∈ ds, d.length < 1000 := by
        simp only [List.mem_cons, List.not_mem_nil, or_false] at hd
        rcases hd with rfl | rfl | rfl <;> simp [msg_length]
      split
      · next e e' h1 h2 =>
        rw [Bool.not_eq_true', decide_eq_false_iff_not]
        intro he
        obtain ⟨h3, h4⟩ := C54_keys (valid hc) _ _ _ _ ds (small_chunks hc hd') h1 h2 he
        exact hp (Prod.ext h3 h4)
      · rfl

/-! ## Hash values -/

theorem sound_C51a : check_C51_engine () = true :=
  List.all_eq_true.2 fun x _ => decide_eq_true <| by
    obtain ⟨h1, h2⟩ := C51_engine x.1 x.2
    exact ⟨by rw [h1], by rw [h2]⟩

theorem sound_C51b : check_C51_from_engine () = true :=
  forall2_true fun x hx ds hd => by
    obtain ⟨hc, ha⟩ := mem_engines hx
    have ok := algs_ok hc _ ha
    obtain ⟨h1, h2⟩ := inputs3_ok ds hd
    obtain ⟨e, he, hr, -⟩ := new_inputs hc x.2 ok (algs_base _ ha) h1 h2
    obtain ⟨h3, h4⟩ := C51_from_engine (valid hc) x.2 ok hr
    simp only [he]
    refine decide_eq_true ?_
    cases hf : HashApi.fromEngine x.1 x.2 e with
    | ok v => exact ((h3 v).1 hf).symm
    | error f => exact ((h4 f).1 hf).symm

theorem sound_C51c : check_C51_hash_chunks () = true :=
  forall2_true fun x hx ds hd => decide_eq_true <| by
    obtain ⟨hc, ha⟩ := mem_engines hx
    have := (inputs3_ok ds hd).2
    rw [C51_hash_chunks (valid hc) x.2 (algs_ok hc _ ha) ds (by rw [mod64 hc]; omega)]

theorem sound_C51d : check_C51_hash () = true :=
  forall2_true fun x hx n hn => by
    obtain ⟨hc, ha⟩ := mem_engines hx
    have hb := algs_base _ ha
    have hn := lengths_le n hn
    obtain ⟨v, str, h1, h2, h3, h4, -, h5⟩ := C51_hash (valid hc) x.2 (algs_ok hc _ ha) (msg n)
      (by rw [msg_length]; omega) (by rw [msg_length, cfg64 _ hc]; omega)
    simp only [h1, h2, h3, h4, h5, decide_true, and_self, Bool.and_self]

theorem sound_C51e : check_C51_const_hash () = true :=
  forall2_true fun c hc n hn => decide_eq_true <| by
    rw [C51_const_hash (valid hc) _ (small hc hn).2.1]

theorem sound_C51f : check_C51_hash_with_keys () = true :=
  forall2_true fun c hc x hx => decide_eq_true <| by
    obtain ⟨v, h1, h2⟩ := C51_hash_with_keys (valid hc) x.1.1 x.1.2 (msg x.2) (small hc (sip_mem hx)).1
    rw [h1, ← h2]
    rfl

theorem sound_C52a : check_C52_consistent () = true := by
  simp only [check_C52_consistent, onPairs, List.all_eq_true]
  exact fun s _ f _ g _ => imp_or fun h => decide_eq_true (C52_consistent s _ _ h recorder [])

theorem recorder_write : ∀ st bs bs', recorder.write st bs = recorder.write st bs' → bs = bs' := by
  intro st bs bs' h
  have := List.append_cancel_left h
  simpa using this

theorem sound_C52c : check_C52_separates () = true := by
  simp only [check_C52_separates, onPairs, List.all_eq_true]
  intro s _ f _ g _
  cases h : HashTy.eq (mk s f) (mk s g) with
  | true => rfl
  | false => simpa using C52_separates s _ _ h recorder recorder_write []

theorem sound_C52b : check_C52_across_types () = true :=
  forall2_true fun s _ t _ => List.all_eq_true.2 fun _ _ => imp_or fun h =>
    decide_eq_true (C52_across_types s t _ _ (of_decide_eq_true h) recorder [])

/-! ## Writers -/

theorem sound_C33 : check_C33_flush () = true :=
  List.all_eq_true.2 fun x _ => by
    split
    · next w e hw _ => simp [C33_flush hw e]
    · rfl

theorem readings_ok : ∀ r ∈ readings, bytesRead r.1 = r.2 ∧ r.2.length < 1000 := by decide +kernel

theorem readings_err : ∀ r ∈ readings, ∀ x, Except.error x ∈ r.1 → x = .interrupted := by
  simp [readings]

theorem sound_C58 : check_C58_digest () = true :=
  forall2_true fun x hx r hr => by
    obtain ⟨hc, ha⟩ := mem_engines hx
    obtain ⟨h1, h2⟩ := readings_ok r hr
    split
    · rfl
    · next w hw =>
      refine decide_eq_true ?_
      have := C58_digest (valid hc) x.2 (algs_ok hc _ ha) hw r.1 (by rw [h1, mod64 hc]; omega)
        (readings_err r hr)
      rw [h1] at this
      exact this

/-! ## Panics -/

theorem makers_ok {c : Cfg} (hc : c ∈ cfgs) : ∀ x ∈ makers, x.1.Ok c ∧ x.2.Typed c := by
  have h := mod64 hc
  intro x hx
  simp only [makers, List.mem_append, List.mem_map] at hx
  rcases hx with ⟨a, ha, rfl⟩ | hx
  · exact ⟨algs_ok hc a ha, trivial⟩
  · simp only [List.mem_cons, List.not_mem_nil, or_false] at hx
    rcases hx with rfl | rfl | rfl | rfl | rfl | rfl | rfl | rfl | rfl | rfl | rfl | rfl | rfl | rfl | rfl
    all_goals simp [Alg.Ok, Alg.base, Alg.blockSize, Make.Typed, h, msg_length]

theorem inputLens_ok : ∀ ns ∈ inputLens, ∀ n ∈ ns, n < 1000 := by decide

theorem probe_typed {c : Cfg} (hc : c ∈ cfgs) {x : Alg × Make} (hx : x ∈ makers) {ns : List Nat}
    (hn : ns ∈ inputLens) : ∀ y ∈ probe x ns, y.Typed c := by
  intro y hy
  simp only [probe, List.mem_append, List.mem_flatMap, List.mem_cons, List.not_mem_nil, or_false] at hy
  rcases hy with (rfl | ⟨n, h, rfl | rfl | rfl | rfl⟩) | rfl
  · exact makers_ok hc x hx
  · have := inputLens_ok ns hn n h
    show (msg n).length < _
    rw [msg_length, mod64 hc]
    omega
  · have := inputLens_ok ns hn n h
    show (List.replicate n (0 : Byte)).length < _
    rw [List.length_replicate, mod64 hc]
    omega
  all_goals trivial

theorem sound_C59a : check_C59_panics () = true :=
  forall2_true fun c hc x hx => List.all_eq_true.2 fun ns hn => List.all_eq_true.2 fun y hy => by
    split
    · next f hf =>
      obtain ⟨i, hi⟩ := List.mem_iff_getElem?.1 hy
      rw [List.getElem?_zip_eq_some] at hi
      obtain ⟨z, hz, hp⟩ := C59_panics (valid hc) _ (probe_typed hc hx hn) i (f := f) (by rw [hi.1, hf])
      rw [hi.2] at hz
      cases hz
      exact decide_eq_true hp
    · rfl

theorem sound_C59b : check_C59_simd () = true :=
  List.all_eq_true.2 fun n _ => by
    have := C59_simd (msg n) ⟨1, 2, 3, 4, 5, 6, 7, 8⟩
    rw [msg_length] at this
    simp only [this.1, this.2, decide_true, Bool.and_self]

theorem workChecks_true : ∀ x ∈ workChecks, x.2 () = true := by
  unfold workChecks
  simp only [List.forall_mem_cons, List.not_mem_nil, false_implies, implies_true, and_true]
  exact ⟨sound_C33, sound_C49, sound_C51a, sound_C51b, sound_C51c, sound_C51d, sound_C51e, sound_C51f, sound_C52a,
    sound_C52c, sound_C52b, sound_C53a, sound_C53b, sound_C53c, sound_C54a, sound_C54b, sound_C55, sound_C56a,
    sound_C56b, sound_C57a, sound_C57b, sound_C58, sound_C59a, sound_C59b⟩

end Chf.Check
