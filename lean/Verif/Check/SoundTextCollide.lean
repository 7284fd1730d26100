import Verif.Check.TextCollide
import Verif.Check.SoundStates
import Verif.Props.TextExtension
import Verif.Props.TextKeys
import Verif.Props.TextChecked

/-!
# The instances of C89 to C93 follow from the theorems
-/

namespace Chf.Check
open Chf Spec Props Chf.Rs

attribute [local irreducible] msg shattered1 shattered2

theorem valid16 {c : Cfg} (hc : c ∈ [debug16, release16]) : c.Valid ∧ c.usizeMod = 2 ^ 16 := by
  simp only [List.mem_cons, List.not_mem_nil, or_false] at hc
  rcases hc with rfl | rfl <;> exact ⟨by decide, rfl⟩

theorem blocksCollide_of {c : Cfg} {a : Alg} {m m' : List Byte} (h : BlocksCollide c a m m') :
    blocksCollide c a m m' = true := by
  obtain ⟨p, b, q, p', b', q', μ, μ', ν, h1, h2, h3, h4, h5, h6, h7⟩ := h
  have mem : ∀ {m p b q}, standardBlocks a m = p ++ b :: q → (p.flatten, b) ∈ places a m := by
    intro m p b q h
    refine List.mem_map.2 ⟨p.length, List.mem_range.2 (by rw [h]; simp), ?_⟩
    rw [h, List.take_left, List.drop_left]
    rfl
  refine List.any_eq_true.2 ⟨_, List.mem_map.2 ⟨_, mem h1, rfl⟩,
    List.any_eq_true.2 ⟨_, List.mem_map.2 ⟨_, mem h2, rfl⟩, ?_⟩⟩
  simp only [h3, h4, h6, h7, isOk, Bool.and_true, Bool.and_eq_true, decide_eq_true_eq]
  refine ⟨fun e => h5 ?_, trivial⟩
  injection e with e1 e2
  injection e1 with e1
  rw [e1, e2]

theorem fits_shattered {c : Cfg} (hc : c.usizeMod = 2 ^ 16) {m : List Byte} (hm : m.length = 320) :
    Fits c m.length := ⟨by rw [hm]; decide, by rw [hm, hc]; decide⟩

theorem cuts_flatten {m : List Byte} {ds : List (List Byte)} (h : ds ∈ cuts89 m) : ds.flatten = m := by
  simp only [cuts89, List.mem_cons, List.not_mem_nil, or_false] at h
  rcases h with rfl | rfl
  · exact List.flatten_singleton
  · simp

theorem sound_C89 : check_C89_collision () = true :=
  List.all_eq_true.2 fun c hc => forall2_true fun ds hd ds' hd' => by
    obtain ⟨hv, hM⟩ := valid16 hc
    have f1 : Fits c ds.flatten.length := by
      rw [cuts_flatten hd]; exact fits_shattered hM length_shattered1
    have f2 : Fits c ds'.flatten.length := by
      rw [cuts_flatten hd']; exact fits_shattered hM length_shattered2
    have run : ∀ {ds : List (List Byte)}, Fits c ds.flatten.length →
        ∃ d, (Source.engineOf c .sha1).hashByteChunks ds = .ok d := fun hf =>
      ⟨_, C67_engines hv .sha1 trivial _ (by show 8 * (0 + _ + 0) < _; have := hf.1; omega)
        (by show 0 + _ + 0 + 144 < _; have := hf.2; rw [Cfg.usizeMod] at this; omega)⟩
    obtain ⟨d, h1⟩ := run f1
    obtain ⟨d', h2⟩ := run f2
    simp only [h1, h2]
    by_cases he : d = d'
    · rw [Bool.or_eq_true]
      right
      rw [he] at h1
      exact blocksCollide_of ((C89_collision hv .sha1 rfl ds ds' d' f1 f2 h1 h2 (by
        rw [cuts_flatten hd, cuts_flatten hd']; exact shattered_ne)).resolve_right
        (C89_untruncated hv .sha1 rfl _ _ f1))
    · rw [Bool.or_eq_true]
      exact .inl (decide_eq_true he)

theorem truncationCollides_of {c : Cfg} {a : Alg} {m m' : List Byte} (h : TruncationCollides c a m m') :
    truncationCollides c a m m' = true := by
  obtain ⟨x, x', h1, h2, h3, h4, h5⟩ := h
  unfold truncationCollides
  rw [h1, h2]
  simp only [Bool.and_eq_true, decide_eq_true_eq]
  exact ⟨⟨h3, h4⟩, h5⟩

theorem blockAlgs_hasBlocks {a : Alg} (ha : a ∈ blockAlgs) : hasBlocks a = true := by
  simp only [blockAlgs, List.mem_cons, List.not_mem_nil, or_false] at ha
  rcases ha with rfl | rfl | rfl | rfl | rfl | rfl <;> rfl

theorem fits_small {c : Cfg} (hM : c.usizeMod = 2 ^ 16) {n : Nat} (h : n ≤ 1000) : Fits c n :=
  ⟨by omega, by rw [hM]; omega⟩

theorem sound_C89_pairs : check_C89_pairs () = true :=
  List.all_eq_true.2 fun c hc => forall2_true fun a ha p hp => by
    obtain ⟨hv, hM⟩ := valid16 hc
    have hb := blockAlgs_hasBlocks ha
    have hl : p.1.length ≤ 128 ∧ p.2.length ≤ 128 ∧ p.1 ≠ p.2 := by
      refine (List.all_eq_true.1 (?_ : (pairs89.all fun p =>
        decide (p.1.length ≤ 128 ∧ p.2.length ≤ 128 ∧ p.1 ≠ p.2)) = true) p hp) |> of_decide_eq_true
      decide +kernel
    have flat : ∀ x : List Byte, [x].flatten = x := fun x => List.flatten_singleton
    have f1 : Fits c [p.1].flatten.length := by rw [flat]; exact fits_small hM (by omega)
    have f2 : Fits c [p.2].flatten.length := by rw [flat]; exact fits_small hM (by omega)
    obtain ⟨ok, h0, h1⟩ := hasBlocks_ok hb c
    have run : ∀ {x : List Byte}, Fits c [x].flatten.length →
        ∃ d, (Source.engineOf c a).hashByteChunks [x] = .ok d := fun hf =>
      ⟨_, C67_engines hv a ok _ (by rw [h0, h1]; have := hf.1; omega)
        (by rw [h0, h1]; have := hf.2; rw [Cfg.usizeMod] at this; omega)⟩
    obtain ⟨d, e1⟩ := run f1
    obtain ⟨d', e2⟩ := run f2
    simp only [e1, e2]
    by_cases he : d = d'
    · rw [he] at e1
      rcases C89_collision hv a hb _ _ d' f1 f2 e1 e2 (by rw [flat, flat]; exact hl.2.2) with h | h
      · rw [flat, flat] at h
        simp only [blocksCollide_of h, Bool.or_true, Bool.true_or]
      · rw [flat, flat] at h
        simp only [truncationCollides_of h, Bool.or_true]
    · simp only [decide_eq_true (show d ≠ d' from he), Bool.true_or]

theorem sound_C89_tags : check_C89_tags () = true :=
  List.all_eq_true.2 fun c hc => forall2_true fun t ht m hm => by
    obtain ⟨hv, hM⟩ := valid16 hc
    have ht' : t.1.length ≤ 64 ∧ t.2.length ≤ 64 := by
      simp only [List.mem_cons, List.not_mem_nil, or_false] at ht
      rcases ht with rfl | rfl | rfl | rfl <;> (simp only [msg_length]; decide)
    have hm' : m.1.length ≤ 64 ∧ m.2.length ≤ 64 := by
      simp only [List.mem_cons, List.not_mem_nil, or_false] at hm
      rcases hm with rfl | rfl | rfl | rfl <;> (simp only [msg_length]; decide)
    by_cases hne : t.1 = t.2 ∧ m.1 = m.2
    · simp only [decide_eq_true hne, Bool.true_or]
    have run : ∀ {t m : List Byte}, t.length ≤ 64 → m.length ≤ 64 →
        ∃ d, Source.Sha256t.Hash.hash c (Source.bip340Tag c t) m = .ok d := fun h1 h2 =>
      ⟨_, C69_bip340 hv _ _ (by show _ < c.usizeMod; rw [hM]; omega) (by omega)
        (by show _ < c.usizeMod; rw [hM]; omega) (by omega)⟩
    obtain ⟨d, e1⟩ := run ht'.1 hm'.1
    obtain ⟨d', e2⟩ := run ht'.2 hm'.2
    simp only [e1, e2]
    by_cases he : d.f0 = d'.f0
    · have he : d = d' := by cases d; cases d'; cases he; rfl
      rw [he] at e1
      rcases C89_tags hv t.1 m.1 t.2 m.2 d' (fits_small hM (by omega)) (fits_small hM (by omega))
        (fits_small hM (by omega)) (fits_small hM (by omega)) e1 e2 (fun e => hne (by
          injection e with e1 e2; exact ⟨e1, e2⟩)) with h | h
      · simp only [blocksCollide_of h, Bool.or_true, Bool.true_or]
      · simp only [blocksCollide_of h, Bool.or_true]
    · simp only [decide_eq_true (show d.f0 ≠ d'.f0 from he), Bool.true_or, Bool.or_true]

theorem sound_C89_hmac : check_C89_hmac () = true :=
  List.all_eq_true.2 fun c hc => List.all_eq_true.2 fun a ha => forall2_true fun k hk m hm => by
    obtain ⟨hv, hM⟩ := valid16 hc
    have hb := blockAlgs_hasBlocks ha
    have hB : a.blockSize ≤ 128 := by
      cases a <;> first | (cases hb; done) | decide
    have hk' : k.1.length ≤ 201 ∧ k.2.length ≤ 201 := by
      simp only [List.mem_cons, List.not_mem_nil, or_false] at hk
      rcases hk with rfl | rfl | rfl | rfl | rfl | rfl <;> (try simp only [msg_length]) <;> decide
    have hm' : m.1.length ≤ 64 ∧ m.2.length ≤ 64 := by
      simp only [List.mem_cons, List.not_mem_nil, or_false] at hm
      rcases hm with rfl | rfl | rfl | rfl <;> (simp only [msg_length]; decide)
    by_cases hne : hmacKey a.hashSpec a.blockSize k.1 = hmacKey a.hashSpec a.blockSize k.2 ∧ m.1 = m.2
    · simp only [decide_eq_true hne, Bool.true_or]
    have flat : ∀ x : List Byte, [x].flatten = x := fun x => List.flatten_singleton
    obtain ⟨ok, h0, h1⟩ := hasBlocks_ok hb c
    have run : ∀ {k m : List Byte}, k.length ≤ 201 → m.length ≤ 64 → ∃ d, mac89 c a k [m] = .ok d := by
      intro k m h2 h3
      refine ⟨_, (hmac_text hv (Source.algSim hv a (fits_of_ok a ok)) k [m] (by rw [hM]; omega)
        fun d hd => by rw [List.mem_singleton.1 hd, hM]; omega).trans
        (C23_hmac_any_width hv a ⟨ok, by rw [h0]; show _ < c.usizeMod; rw [hM]; omega⟩ k [m] ?_ ?_)⟩
      · rw [h0, h1, Nat.zero_add, Nat.add_zero]; exact fits_small hM (by omega)
      · rw [h0, h1, Nat.zero_add, Nat.zero_add, flat]; exact fits_small hM (by omega)
    obtain ⟨d, e1⟩ := run hk'.1 hm'.1
    obtain ⟨d', e2⟩ := run hk'.2 hm'.2
    simp only [e1, e2]
    by_cases he : d = d'
    · rw [he] at e1
      have f : ∀ {x : List Byte}, x.length ≤ 64 → Fits c (a.blockSize + [x].flatten.length + 64) := fun h => by
        rw [flat]; exact fits_small hM (by omega)
      have := C89_hmac hv a hb k.1 k.2 d' [m.1] [m.2] (fits_small hM (by omega)) (fits_small hM (by omega))
        (f hm'.1) (f hm'.2) e1 e2 (fun e => hne (by
          injection e with e1 e2; rw [flat, flat] at e2; exact ⟨e1, e2⟩))
      rw [flat, flat] at this
      unfold innerText outerText innerText at this
      rcases this with (h | h) | h | h
      · simp only [blocksCollide_of h, Bool.or_true, Bool.true_or]
      · simp only [truncationCollides_of h, Bool.or_true, Bool.true_or]
      · simp only [blocksCollide_of h, Bool.or_true, Bool.true_or]
      · simp only [truncationCollides_of h, Bool.or_true]
    · simp only [decide_eq_true (show d ≠ d' from he), Bool.true_or, Bool.or_true]

theorem sound_C90_block : check_C90_block () = true :=
  List.all_eq_true.2 fun _ hc => blocksCollide_of (C90_block (valid16 hc).1)

theorem sound_C90_sha1 : check_C90_sha1 () = true :=
  forall2_true fun c hc ds hd => by
    have hv : c.Valid ∧ 2 ^ 16 ≤ 2 ^ c.usizeBits := by
      rcases List.mem_cons.1 hc with rfl | hc
      · exact ⟨by decide, by decide⟩
      · rcases List.mem_cons.1 hc with rfl | hc
        · exact ⟨by decide, by decide⟩
        · have := cfg64 c hc
          exact ⟨.inr (.inr this), by rw [this]; decide⟩
    have hs : ∀ d ∈ ds, d.length < 2 ^ c.usizeBits := by
      intro d h
      have : d.length < 2 ^ 16 := by
        simp only [ends90, List.mem_cons, List.not_mem_nil, or_false] at hd
        rcases hd with rfl | rfl | rfl | rfl <;>
          simp only [List.mem_cons, List.not_mem_nil, or_false] at h
        · rw [h, msg_length]; decide
        · rw [h, msg_length]; decide
        · rcases h with rfl | rfl <;> rw [msg_length] <;> decide
      omega
    obtain ⟨_, e, e', h1, h2, h3, h4⟩ := C90_sha1 hv.1
    rw [Bool.and_eq_true, decide_eq_true_eq, decide_eq_true_eq]
    refine ⟨h4 ds hs, ?_⟩
    have run : ∀ {x : List Byte} {e}, after c .sha1 x = .ok e → (do
        let e ← (Source.engineOf c .sha1).new
        let e ← (Source.engineOf c .sha1).input e x
        let r ← (Source.engineOf c .sha1).observe e ds
        pure (r.1, r.2.1.map (Source.showMid c .sha1), r.2.2)) = (do
        let r ← (Source.engineOf c .sha1).observe e ds
        pure (r.1, r.2.1.map (Source.showMid c .sha1), r.2.2)) := by
      intro x e h
      unfold after at h
      cases hn : (Source.engineOf c .sha1).new with
      | error f => rw [hn] at h; cases h
      | ok e0 =>
        rw [hn] at h
        simp only [ok_bind] at h ⊢
        rw [h, ok_bind]
    rw [run h1, run h2, h3 ds hs]

theorem sound_C91_zero : check_C91_zero_padding () = true :=
  List.all_eq_true.2 fun c hc => Bool.and_eq_true_iff.2 ⟨forall2_true fun a ha k hk => decide_eq_true <| by
    have hB : 8 ≤ (Source.engineOf c a).blockSize := by
      simp only [algs, List.mem_cons, List.not_mem_nil, or_false] at ha
      rcases ha with rfl | rfl | rfl | rfl | rfl | rfl | rfl | rfl | rfl | rfl | rfl | rfl <;> exact Nat.le_of_ble_eq_true rfl
    have hl : k.1.length + k.2 ≤ 8 := by
      simp only [List.mem_cons, List.not_mem_nil, or_false] at hk
      rcases hk with rfl | rfl | rfl
      · rw [msg_length]; decide
      · rw [msg_length]; decide
      · decide
    unfold macs91
    rw [C91_zero_padding c _ k.1 k.2 (by omega)],
  List.all_eq_true.2 fun a ha => decide_eq_true <| by
    have hB : 8 ≤ (Source.engineOf c a).blockSize := by
      simp only [algs, List.mem_cons, List.not_mem_nil, or_false] at ha
      rcases ha with rfl | rfl | rfl | rfl | rfl | rfl | rfl | rfl | rfl | rfl | rfl | rfl <;> exact Nat.le_of_ble_eq_true rfl
    unfold macs91
    rw [C91_zero_padding c _ (msg 3) ((Source.engineOf c a).blockSize - 3) (by rw [msg_length]; omega)]⟩

theorem sound_C91_default : check_C91_default () = true :=
  List.all_eq_true.2 fun c hc => List.all_eq_true.2 fun a ha => by
    have hB : 8 ≤ (Source.engineOf c a).blockSize := by
      simp only [algs, List.mem_cons, List.not_mem_nil, or_false] at ha
      rcases ha with rfl | rfl | rfl | rfl | rfl | rfl | rfl | rfl | rfl | rfl | rfl | rfl <;> exact Nat.le_of_ble_eq_true rfl
    have h1 : (Source.engineOf c (.hmac a)).default = Source.Hmac.Engine.new c (Source.engineOf c a) [0] :=
      (C91_default c (Source.engineOf c a) 1 (by omega)).1
    have h2 : (Source.engineOf c (.hmac a)).new = Source.Hmac.Engine.new c (Source.engineOf c a) [0, 0] :=
      (C91_default c (Source.engineOf c a) 2 (by omega)).2
    rw [Bool.and_eq_true, decide_eq_true_eq, decide_eq_true_eq, h1, h2]
    exact ⟨rfl, rfl⟩

theorem sound_C91_only : check_C91_only () = true :=
  List.all_eq_true.2 fun c hc => List.all_eq_true.2 fun a ha => List.all_eq_true.2 fun k hk => by
    obtain ⟨hv, hM⟩ := valid16 hc
    have hb : hasBlocks a = true ∧ a.blockSize ≤ 128 ∧ a.outLen ≤ 128 := by
      simp only [blockAlgs, List.mem_cons, List.not_mem_nil, or_false] at ha
      rcases ha with rfl | rfl | rfl | rfl | rfl | rfl <;> exact ⟨rfl, by decide, by decide⟩
    have hl : k.1.length ≤ 130 ∧ k.2.length ≤ 130 := by
      obtain ⟨-, h1, h2⟩ := hb
      simp only [List.mem_cons, List.not_mem_nil, or_false] at hk
      rcases hk with rfl | rfl | rfl | rfl | rfl | rfl <;>
        simp only [msg_length, Alg.hashSpec_length, List.length_append, List.length_singleton] <;> omega
    have fits : ∀ n ≤ 130, Fits c n := fun n hn => ⟨by omega, by rw [hM]; omega⟩
    split
    · rename_i e e' h h'
      rw [Bool.or_eq_true, Bool.or_eq_true, decide_eq_true_eq, decide_eq_true_eq, decide_eq_true_eq]
      by_cases hm : ((Source.engineOf c (.hmac a)).midstate e).map (Source.showMid c (.hmac a)) =
          ((Source.engineOf c (.hmac a)).midstate e').map (Source.showMid c (.hmac a))
      · have hm' := Source.map_inj (fun _ _ => Props.showMid_inj (Alg.hmac a)) hm
        rcases C91_only hv a hb.1 (fits _ hl.1) (fits _ hl.2) h h' hm' with h | h
        · exact .inl (.inr h)
        · exact .inr h.2
      · exact .inl (.inl hm)
    · rfl

theorem sound_C91_crate : check_C91_crate () = true :=
  List.all_eq_true.2 fun c hc => forall2_true fun a ha n hn => by
    obtain ⟨hv, hM⟩ := valid16 hc
    have hb : hasBlocks a = true ∧ a.blockSize ≤ 128 := by
      simp only [blockAlgs, List.mem_cons, List.not_mem_nil, or_false] at ha
      rcases ha with rfl | rfl | rfl | rfl | rfl | rfl <;> exact ⟨rfl, by decide⟩
    have hn' : 128 < n ∧ n ≤ 300 := by
      simp only [List.mem_cons, List.not_mem_nil, or_false] at hn
      omega
    obtain ⟨ok, h0, h1⟩ := hasBlocks_ok hb.1 c
    obtain ⟨h2, h3⟩ := C91_crate hv a ok (key := msg n) (by rw [msg_length]; omega)
      (by rw [h0, h1, msg_length]; exact ⟨by omega, by rw [hM]; omega⟩)
    rw [Bool.and_eq_true, decide_eq_true_eq, decide_eq_true_eq]
    refine ⟨h2, ?_⟩
    unfold macs91
    rw [h3]

theorem sound_C91_sha1 : check_C91_sha1_keys () = true :=
  forall2_true fun c hc s hs => decide_eq_true <| by
    obtain ⟨hv, hM⟩ := valid16 hc
    have hl : s.length ≤ 70 := by
      simp only [List.mem_cons, List.not_mem_nil, or_false] at hs
      rcases hs with rfl | rfl | rfl
      · decide
      · rw [msg_length]; decide
      · rw [msg_length]; decide
    unfold macs91
    rw [(C91_sha1_keys hv s ⟨by omega, by rw [hM]; omega⟩).2]

theorem sound_C92 : check_C92_extension () = true :=
  List.all_eq_true.2 fun c hc => List.all_eq_true.2 fun a ha => forall2_true fun n hn ds hd => by
    obtain ⟨hv, hM⟩ := valid16 hc
    have hx : extensible a = true := by
      simp only [List.mem_cons, List.not_mem_nil, or_false] at ha
      rcases ha with rfl | rfl | rfl <;> rfl
    have hn' : n ≤ 200 := by
      simp only [List.mem_cons, List.not_mem_nil, or_false] at hn
      omega
    have hd' : ds.flatten.length ≤ 130 := by
      simp only [List.mem_cons, List.not_mem_nil, or_false] at hd
      rcases hd with rfl | rfl | rfl <;>
        simp only [List.flatten_cons, List.flatten_nil, List.append_nil, List.length_append, msg_length] <;> decide
    have hp : (padded a (msg n)).length ≤ n + 72 := by
      have : padZeros 64 8 n < 64 := Nat.mod_lt _ (by decide)
      cases a <;> (simp only [padded, pad, List.length_append, List.length_replicate, List.length_singleton,
        length_beBytes, length_leBytes, msg_length]; omega)
    obtain ⟨d, e, e', h1, h2, h3, h4⟩ := C92_extension hv a hx (msg n) ds
      ⟨by omega, by rw [hM]; omega⟩
    simp only [h1, h2, h3, h4, ok_bind, decide_true]

theorem sound_C92_others : check_C92_others () = true :=
  forall2_true fun c hc n hn => by
    obtain ⟨hv, hM⟩ := valid16 hc
    have hn' : n < 2 ^ 16 := by
      simp only [List.mem_cons, List.not_mem_nil, or_false] at hn
      omega
    obtain ⟨h1, h2, f, h3⟩ := C92_others hv (msg 9) n (by show n < c.usizeMod; rw [hM]; exact hn')
    rw [h1, h2, h3]
    rfl

theorem sound_C93a : check_C93_exact () = true :=
  forall2_true fun x hx n hn => decide_eq_true <| by
    have hn' : n < 65536 := by
      simp only [List.mem_cons, List.not_mem_nil, or_false] at hn
      omega
    have facts : plain x.1 = true ∧ blockAndField x.1 = some (x.2.1, x.2.2) := by
      simp only [List.mem_cons, List.not_mem_nil, or_false] at hx
      rcases hx with rfl | rfl | rfl <;> exact ⟨rfl, rfl⟩
    have := C93_exact (c := debug16) (by decide) rfl x.1 facts.1 facts.2 [msg n] (by
      intro d hd
      rw [List.mem_singleton.mp hd, msg_length]
      exact hn')
    rw [List.flatten_singleton, msg_length] at this
    exact this

theorem sound_C93b : check_C93_right_or_panic () = true :=
  forall2_true fun a ha ds hd => by
    have hs : ∀ d ∈ ds, d.length < 65536 := by
      simp only [List.mem_cons, List.not_mem_nil, or_false] at hd
      rcases hd with rfl | rfl | rfl <;> simp [msg_length]
    rw [Bool.or_eq_true, decide_eq_true_eq, decide_eq_true_eq]
    exact C93_right_or_panic (c := debug16) (by decide) rfl a (ok16 rfl a (List.mem_filter.1 ha).1) ds (small16 hs)

theorem sound_C93c : check_C93_hmac () = true :=
  forall2_true fun key hk ds hd => by
    have hs : ∀ d ∈ ds, d.length < 65536 := by
      simp only [List.mem_cons, List.not_mem_nil, or_false] at hd
      rcases hd with rfl | rfl | rfl <;> simp [msg_length]
    have hk' : key.length < 65536 := by
      simp only [List.mem_cons, List.not_mem_nil, or_false] at hk
      rcases hk with rfl | rfl | rfl | rfl <;> simp [msg_length]
    rw [Bool.or_eq_true, decide_eq_true_eq, decide_eq_true_eq]
    exact C93_hmac (c := debug16) (by decide) rfl .sha256 ⟨trivial, by decide⟩ key hk' ds (small16 hs)

end Chf.Check
