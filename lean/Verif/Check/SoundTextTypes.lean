import Verif.Check.TextTypes
import Verif.Check.SoundText
import Verif.Check.SoundValues
import Verif.Props.TextTypes
import Verif.Props.TextWrite

/-!
# The instances of C71 - C75 follow from the theorems
-/

namespace Chf.Check
open Chf Spec Props

theorem types_len : ∀ x ∈ types, Source.bytesOf x.1 = x.2 := by decide

theorem onTexts_true {p : HashTy → Nat → List Byte → Bool}
    (h : ∀ t bs, bs.length = Source.bytesOf t → p t (Source.bytesOf t) bs = true) : onTexts p = true :=
  List.all_eq_true.2 fun x hx => List.all_eq_true.2 fun f _ => by
    have := h x.1 ((List.range x.2).map f) (by rw [types_len x hx]; simp)
    rwa [types_len x hx] at this

theorem onTextPairs_true {p : HashTy → List Byte → List Byte → Bool}
    (h : ∀ t a b, a.length = Source.bytesOf t → b.length = Source.bytesOf t → p t a b = true) :
    onTextPairs p = true :=
  List.all_eq_true.2 fun x hx => List.all_eq_true.2 fun f _ => List.all_eq_true.2 fun g _ =>
    h x.1 _ _ (by rw [types_len x hx]; simp) (by rw [types_len x hx]; simp)

theorem made {t : HashTy} {mk : List Byte → (ty t).H} (hm : mk ∈ (ty t).makers) (bs : List Byte) :
    (ty t).toByteArray (mk bs) = bs :=
  have c := C71_conversions .debug64 ⟨.error .ub⟩ t bs (mk bs)
  (c.2.1 mk hm _ c.1).1

theorem sound_C71a : check_C71_conversions () = true :=
  onTextPairs_true fun t a b _ _ => List.all_eq_true.2 fun mk hm => List.all_eq_true.2 fun v hv => by
    simp only [Bool.and_eq_true, List.all_eq_true, decide_eq_true_eq]
    refine ⟨⟨?_, fun w hw => ?_⟩, fun cl hc => ?_⟩
    · exact ((C71_conversions .debug64 ⟨.error .ub⟩ t a (mk a)).2.1 mk hm v hv).1
    · have h := C71_conversions .debug64 ⟨.error .ub⟩ t a (mk b)
      rw [h.2.2.1 w hw _ h.1]
      exact made hm b
    · have h := C71_conversions .debug64 ⟨.error .ub⟩ t a (mk a)
      rw [h.2.2.2 cl hc]
      exact (h.2.1 mk hm v hv).1

theorem sound_C71b : check_C71_count () = true :=
  all_true fun x => decide_eq_true (C71_count .debug64 ⟨.error .ub⟩ x.1)

theorem sound_C71c : check_C71_zeros () = true :=
  List.all_eq_true.2 fun x hx => List.all_eq_true.2 fun z hz => decide_eq_true <| by
    have h := C71_zeros .debug64 ⟨.error .ub⟩ x.1 z hz
    rwa [types_len x hx] at h

theorem sound_C71d : check_C71_from_slice () = true :=
  List.all_eq_true.2 fun x hx => all_true fun n => decide_eq_true <| by
    have h := C71_from_slice .debug64 ⟨.error .ub⟩ x.1 (some100 n)
    rw [types_len x hx] at h
    unfold wantSlice
    split
    · next e =>
      obtain ⟨v, h1, h2⟩ := h.1 e
      unfold ty
      rw [h1]
      show Except.ok (Sum.inl _) = _
      rw [h2]
    · next e =>
      unfold ty
      rw [h.2 e]
      rfl

theorem sound_C71e : check_C71_index () = true :=
  onTexts_true fun t bs _ => List.all_eq_true.2 fun mk hm => by
    have h := C71_index .debug64 ⟨.error .ub⟩ t (mk bs)
    have hb : (Source.hashText .debug64 ⟨.error .ub⟩ t).toByteArray (mk bs) = bs := made hm bs
    rw [hb] at h
    unfold indexed
    rw [Bool.and_eq_true]
    refine ⟨decide_eq_true (h 0 0).2.2.2.2.2.2, all_true fun i => ?_⟩
    rw [Bool.and_eq_true]
    refine ⟨?_, all_true fun j => decide_eq_true ⟨?_, (h i j).2.2.2.2.1, (h i j).2.2.2.2.2.1⟩⟩
    · split
      · next b hb => exact decide_eq_true ((h i 0).1 b hb)
      · next hn => exact decide_eq_true ((h i 0).2.1 (List.getElem?_eq_none_iff.1 hn))
    · split
      · next e => exact (h i j).2.2.1 e.1 e.2
      · next e => exact (h i j).2.2.2.1 (by omega)

theorem sound_C72a : check_C72_eq () = true :=
  onTextPairs_true fun t a b _ _ => List.all_eq_true.2 fun mk hm => decide_eq_true <| by
    have h := (C72_eq .debug64 ⟨.error .ub⟩ t (mk a) (mk b)).1
    rw [show (Source.hashText .debug64 ⟨.error .ub⟩ t).toByteArray (mk a) = a from made hm a,
      show (Source.hashText .debug64 ⟨.error .ub⟩ t).toByteArray (mk b) = b from made hm b] at h
    rw [Bool.eq_iff_iff, decide_eq_true_eq]
    exact h

theorem sound_C72b : check_C72_order () = true :=
  onTextPairs_true fun t a b ha hb => List.all_eq_true.2 fun mk hm => decide_eq_true <| by
    have ea : (Source.hashText .debug64 ⟨.error .ub⟩ t).toByteArray (mk a) = a := made hm a
    have eb : (Source.hashText .debug64 ⟨.error .ub⟩ t).toByteArray (mk b) = b := made hm b
    have h := C72_order .debug64 ⟨.error .ub⟩ t (mk a) (mk b) (by rw [ea, ha]) (by rw [eb, hb])
    rw [ea, eb] at h
    exact ⟨h.1, h.2.trans (congrArg some h.1)⟩

theorem sound_C72c : check_C72_errors () = true :=
  forall2_true fun a _ b _ => by
    rw [beq_iff_eq, Bool.eq_iff_iff, decide_eq_true_eq, C72_errors]
    constructor
    · rintro rfl; exact ⟨rfl, rfl⟩
    · rintro ⟨h1, h2⟩
      cases a; cases b
      cases h1; cases h2
      rfl

theorem sound_C72d : check_C72_message () = true :=
  all_true fun e => all_true fun f => decide_eq_true (C72_message .debug64 e ⟨f⟩)

theorem sound_C73a : check_C73_format () = true :=
  onTexts_true fun t bs hb => List.all_eq_true.2 fun mk hm => by
    have e : (Source.hashText .debug64 ⟨.error .ub⟩ t).toByteArray (mk bs) = bs := made hm bs
    obtain ⟨lo, up, h1, h2, h3, h4, h5, h6, h7, h8⟩ :=
      C73_format .debug64 ⟨.error .ub⟩ t (mk bs) (by rw [e, hb])
    rw [e] at h8
    refine okAnd_true ⟨lo, h1, okAnd_true ⟨up, h3, ?_⟩⟩
    simp only [Bool.and_eq_true, decide_eq_true_eq]
    exact ⟨⟨⟨⟨h2, h4, h5, h6⟩, h7 _, h7 _⟩, h8.1, h8.2.1, h8.2.2.1⟩, h8.2.2.2⟩

theorem parse_ok {t : HashTy} {parse : List Byte → Res (Except Hex.Error (ty t).H)} (hp : parse ∈ (ty t).parsers)
    {s : List Byte} (hs : s.length = 2 * Source.bytesOf t) (hd : ∀ x ∈ s, IsHexDigit x) :
    ∃ h, parse s = .ok (.ok h) := by
  obtain ⟨a, ha⟩ := C30_succeeds (.hmac (Source.bytesOf t)) s hs hd
  obtain ⟨-, -, h3⟩ := (C30_accepts _ s a).1 ha
  have p := Source.plain .debug64 ⟨.error .ub⟩ t
  refine ⟨p.make a.inner.val, (C73_parse .debug64 ⟨.error .ub⟩ t s _ parse hp).2 ⟨hs, hd, ?_, ?_⟩⟩
  · rw [p.toByteArray_make]; exact a.inner.property
  · rw [p.toByteArray_make]; exact h3

theorem sound_C73b : check_C73_parse () = true :=
  List.all_eq_true.2 fun x hx => List.all_eq_true.2 fun s _ => List.all_eq_true.2 fun parse hp => by
    have h := C73_errors .debug64 ⟨.error .ub⟩ x.1 s parse hp
    have hl := types_len x hx
    rw [hl] at h
    unfold parsed
    split
    · next e => exact decide_eq_true (by rw [h.1 e]; rfl)
    · next e =>
      have e := Decidable.not_not.1 e
      split
      · next hn =>
        have hd : ∀ b ∈ s, IsHexDigit b := fun b hb => by
          simpa using List.findIdx?_eq_none_iff.1 hn b hb
        obtain ⟨v, hv⟩ := parse_ok hp (by rw [hl]; exact e) hd
        have hv' := (C73_parse .debug64 ⟨.error .ub⟩ x.1 s v parse hp).1 hv
        rw [hl] at hv'
        exact okOk_true ⟨(ty x.1).toByteArray v, by rw [hv]; rfl, decide_eq_true hv'.2.2⟩
      · next i hi =>
        split
        · rfl
        · next b hb =>
          obtain ⟨hlt, rfl⟩ := List.getElem?_eq_some_iff.1 hb
          obtain ⟨_, h3, h4⟩ := List.findIdx?_eq_some_iff_getElem.1 hi
          refine decide_eq_true ?_
          rw [h.2 e i hlt (fun j hj => by simpa using h4 j hj) (by simpa using h3)]
          rfl

theorem sound_C74a : check_C74_provided () = true :=
  forall2_true fun x hx ds hd => decide_eq_true <| by
    simp only [engines, List.mem_flatMap, List.mem_map] at hx
    obtain ⟨c, hc, a, ha, rfl⟩ := hx
    have := bounds ha
    have := (chunks_ok ds hd).2
    exact C74_provided (valid hc) a (algs_ok hc a ha) ds (by omega) (by rw [cfg64 c hc]; omega)

theorem sound_C74b : check_C74_hmac () = true :=
  forall2_true fun c hc a ha => forall2_true fun key hk ds hd => decide_eq_true <| by
    have hc : c ∈ cfgs := by
      simp only [List.mem_cons, List.not_mem_nil, or_false] at hc
      rcases hc with rfl | rfl <;> decide
    have hb := bounds ha
    have hB := a.blockSize_le
    have hk : key.length < 200 := by
      revert key
      decide +kernel
    have hd : ds.flatten.length < 300 := by
      revert ds
      decide +kernel
    have h := C74_hmac (cfg64 c hc) a ⟨algs_ok hc a ha, by rw [mod64 hc]; omega⟩ 32 key ds (by omega) (by omega)
    have h := congrArg (Except.map (·.f0)) h
    refine Eq.trans ?_ h
    rw [Rs.map_bind]
    refine Rs.bind_congr' fun e _ => ?_
    rw [Rs.map_bind]
    exact Rs.bind_congr' fun e _ => (Rs.map_eq_bind _ _).symm

theorem sound_C74c : check_C74_from_engine () = true :=
  forall2_true fun c _ n _ => by
    obtain ⟨h1, h2, h3, h4, h5, h6, h7, h8⟩ := C74_from_engine c (Source.bip340Tag c [1, 2]) (msg n)
    unfold sameHash
    simp only [Bool.and_eq_true, decide_eq_true_eq]
    exact ⟨⟨⟨⟨⟨⟨⟨congrArg _ h1, congrArg _ h2⟩, congrArg _ h3⟩, congrArg _ h4⟩, congrArg _ h5⟩,
      congrArg _ h6⟩, congrArg _ h7⟩, congrArg _ h8⟩

theorem calls_passed (ds : List (List Byte)) : ((callsOf ds).map passed).flatten = ds.flatten ++ ds.flatten := by
  have h1 : ((ds.flatMap fun d => [Writer.Op.write d, .flush]).map passed).flatten = ds.flatten := by
    induction ds with
    | nil => rfl
    | cons d ds ih => simp [passed, ih]
  have h2 : ((ds.map Writer.Op.writeAll).map passed).flatten = ds.flatten := by
    rw [List.map_map, show passed ∘ Writer.Op.writeAll = id from rfl, List.map_id]
  unfold callsOf
  rw [List.map_append, List.flatten_append, h1, List.map_cons, List.flatten_cons, h2]
  rfl

theorem answers_eq (ops : List Writer.Op) : (ops.map expected).map plainAnswer = ops.map wantAnswer := by
  rw [List.map_map]
  refine List.map_congr_left fun op _ => ?_
  cases op <;> rfl

theorem writesText_true {c : Cfg} {a : Alg} {w : Writer (Source.engineOf c a).State} {ds : List (List Byte)}
    (h : (do
      let e ← (Source.engineOf c a).new
      let (e, rs) ← w.steps e (callsOf ds)
      let d ← (Source.engineOf c a).finalize e
      pure (rs, d)) = .ok ((callsOf ds).map expected, a.hashSpec ((callsOf ds).map passed).flatten)) :
    writesText w ds = true := decide_eq_true <| by
  rw [calls_passed] at h
  have h := congrArg (Except.map fun x => (x.1.map plainAnswer, x.2)) h
  rw [show ∀ y, Except.map (fun x : List Writer.Answer × List Byte => (x.1.map plainAnswer, x.2)) (.ok y) =
    (.ok (y.1.map plainAnswer, y.2) : Res _) from fun _ => rfl, answers_eq] at h
  rw [← h, Rs.map_bind]
  refine Rs.bind_congr' fun e _ => ?_
  rw [Rs.map_bind]
  refine Rs.bind_congr' fun p _ => ?_
  show _ = Except.map _ ((Source.engineOf c a).finalize p.1 >>= _)
  rw [Rs.map_bind]
  rfl

theorem sound_C75a : check_C75_digest () = true :=
  forall2_true fun x hx ds hd => by
    simp only [engines, List.mem_flatMap, List.mem_map] at hx
    obtain ⟨c, hc, a, ha, rfl⟩ := hx
    have := bounds ha
    have := (chunks_ok ds hd).2
    have hl : ((callsOf ds).map passed).flatten.length = ds.flatten.length + ds.flatten.length := by
      rw [calls_passed, List.length_append]
    split
    · next w hw =>
      exact writesText_true (C75_digest (valid hc) a (algs_ok hc a ha) hw _ (by omega)
        (by rw [cfg64 c hc]; omega))
    · rfl

theorem sound_C75b : check_C75_std () = true :=
  forall2_true fun c hc a ha => List.all_eq_true.2 fun ds hd => by
    have ok : (Alg.hmac a).Ok c ∧ (Alg.hmac a).base ≤ 1000 ∧ (Alg.hmac a).slack ≤ 1000 := by
      have h := mod64 hc
      simp only [List.mem_cons, List.not_mem_nil, or_false] at ha
      rcases ha with rfl | rfl | rfl <;> simp [Alg.Ok, Alg.base, Alg.blockSize, Alg.slack, h]
    have := (chunks_ok ds hd).2
    have hl : ((callsOf ds).map passed).flatten.length = ds.flatten.length + ds.flatten.length := by
      rw [calls_passed, List.length_append]
    exact writesText_true (C75_std_digest (valid hc) a ok.1 _ (by omega) (by rw [cfg64 c hc]; omega))

theorem sound_C75c : check_C75_which () = true :=
  List.all_eq_true.2 fun x _ => by
    have h := C75_which x.1 x.2
    rw [← Option.isNone_iff_eq_none] at h
    rw [beq_iff_eq, Bool.eq_iff_iff, h]
    generalize x.2 = a
    cases a <;> simp

theorem textTypeChecks_true : ∀ x ∈ textTypeChecks, x.2 () = true := by
  unfold textTypeChecks
  simp only [List.forall_mem_cons, List.not_mem_nil, false_implies, implies_true, and_true]
  exact ⟨sound_C71a, sound_C71b, sound_C71c, sound_C71d, sound_C71e, sound_C72a, sound_C72b, sound_C72c,
    sound_C72d, sound_C73a, sound_C73b, sound_C74a, sound_C74b, sound_C74c, sound_C75a, sound_C75b, sound_C75c⟩

end Chf.Check
