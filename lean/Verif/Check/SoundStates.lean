import Verif.Check.States
import Verif.Check.SoundLimits
import Verif.Props.Portable
import Verif.Props.State
import Verif.Props.Unwind
import Verif.Props.Contract
import Verif.Props.SameBuilds
import Verif.Props.Wrapped
import Verif.Props.Checked
import Verif.Props.HmacMidstate

/-! # Every check of `Verif.Check.States` is an instance of its theorem -/

namespace Chf.Check
open Spec Props

attribute [local irreducible] msg

theorem ok16 {c : Cfg} (hc : c.usizeBits = 16) : ∀ a ∈ quietAlgs, a.Ok c := by
  have h : c.usizeMod = 2 ^ 16 := by rw [Cfg.usizeMod, hc]
  intro a ha
  simp only [quietAlgs, List.mem_cons, List.not_mem_nil, or_false] at ha
  rcases ha with rfl | rfl | rfl | rfl | rfl | rfl | rfl | rfl | rfl | rfl | rfl
  all_goals simp [Alg.Ok, Alg.base, Alg.blockSize, h, msg_length]

theorem loud_quiet : ∀ a ∈ loudAlgs, a ∈ quietAlgs := by
  intro a ha
  simp only [loudAlgs, List.mem_cons, List.not_mem_nil, or_false] at ha
  rcases ha with rfl | rfl | rfl | rfl | rfl <;> simp [quietAlgs]

theorem programs16_typed {c : Cfg} (hc : c.usizeBits = 16) :
    ∀ p ∈ programs16, ∀ x ∈ p, Call.Typed c x := by
  have h : c.usizeMod = 2 ^ 16 := by rw [Cfg.usizeMod, hc]
  intro p hp
  simp only [programs16, List.mem_append, List.mem_map, List.mem_cons, List.not_mem_nil, or_false] at hp
  rcases hp with (⟨a, ha, rfl⟩ | ⟨a, ha, rfl⟩) | rfl | rfl | rfl
  · have ok := ok16 hc a ha
    simp [quiet16, Call.Typed, Make.Typed, h, msg_length, ok]
  · have ok := ok16 hc a (loud_quiet a ha)
    simp [loud16, Call.Typed, Make.Typed, h, msg_length, ok]
  all_goals
    simp [long16, Call.Typed, Make.Typed, Alg.Ok, Alg.base, Alg.blockSize, h, msg_length]

theorem sound_C15 : check_C15_pools () = true :=
  forall2_true fun c hc p hp => decide_eq_true <| by
    have h : debug16.usizeBits = c.usizeBits ∧ debug16.overflowChecks = c.overflowChecks := by
      simp only [List.mem_cons, List.not_mem_nil, or_false] at hc
      rcases hc with rfl | rfl <;> exact ⟨rfl, rfl⟩
    exact C15_pools (c := debug16) (c' := c) h.1 h.2 (by decide) p (programs16_typed rfl p hp)

theorem sound_C38c : check_C38_not_standard () = true :=
  List.all_eq_true.2 fun a ha => by
    have hl : [msg 40000, msg 25606].flatten.length = 65606 := by
      simp only [List.flatten_cons, List.flatten_nil, List.append_nil, List.length_append, msg_length]
    have key : ∀ X, a.blockHash release16 = some X → ∀ {B L}, untruncated a = true →
        blockAndField a = some (B, L) → 8 ≤ L →
        (match (a.engine release16).hashByteChunks [msg 40000, msg 25606],
            X.calls release16 [msg 40000, msg 25606] with
          | .ok d, .ok r => !decide (d = a.hashSpec [msg 40000, msg 25606].flatten) ||
            !decide (r.2.getLast?.map Prod.snd =
              (standardBlocks a [msg 40000, msg 25606].flatten).getLast?)
          | _, _ => false) = true := by
      intro X hX B L hu hBL hL
      obtain ⟨d, r, h1, h2, h3⟩ := C38_not_standard (c := release16) (by decide) rfl a hu X hX hBL
        [msg 40000, msg 25606]
        (by
          rw [hl]
          exact Nat.lt_of_lt_of_le (by decide : 8 * 65606 < 256 ^ 8) (Nat.pow_le_pow_right (by decide) hL))
        (.inl (by rw [hl]; decide))
      simp only [h1, h2]
      by_cases hd : d = a.hashSpec [msg 40000, msg 25606].flatten
      · obtain ⟨h, b, b', e1, e2, hne, _⟩ := h3 hd
        rw [e1, e2, Option.map_some, decide_eq_false (p := some _ = some _)]
        · simp
        · simpa using hne
      · rw [decide_eq_false hd]; rfl
    have facts : ∃ X B L, a.blockHash release16 = some X ∧ untruncated a = true ∧
        blockAndField a = some (B, L) ∧ 8 ≤ L := by
      simp only [List.mem_cons, List.not_mem_nil, or_false] at ha
      rcases ha with rfl | rfl
      · exact ⟨_, _, _, rfl, rfl, rfl, by decide⟩
      · exact ⟨_, _, _, rfl, rfl, rfl, by decide⟩
    obtain ⟨X, B, L, hX, hu, hBL, hL⟩ := facts
    dsimp only
    rw [hX]
    exact key X hX hu hBL hL

theorem sound_C60 : check_C60_portable () = true :=
  forall2_true fun c hc p hp => decide_eq_true fun h => by
    have hc' : c.Valid ∧ c.overflowChecks = true ∧ c.usizeBits = 16 := by
      simp only [List.mem_cons, List.not_mem_nil, or_false] at hc
      rcases hc with rfl | rfl <;> exact ⟨by decide, rfl, rfl⟩
    exact C60_portable (c := c) (c' := .release64) hc'.1 (by decide) hc'.2.1 (by rw [hc'.2.2]; decide) p
      (programs16_typed hc'.2.2 p hp) h

/-! ## C61 -/

theorem toOption_some {α : Type} {r : Res α} {x : α} (h : r.toOption = some x) : r = .ok x := by
  cases r with
  | error f => cases h
  | ok y => cases h; rfl

theorem bind_ok {α β : Type} {r : Res α} {f : α → Res β} {y : β} (h : (r >>= f) = .ok y) :
    ∃ x, r = .ok x ∧ f x = .ok y := by
  cases r with
  | error f => cases h
  | ok x => exact ⟨x, rfl, h⟩

theorem showMid_inj (c : Cfg) : (a : Alg) → ∀ {μ ν}, a.showMid c μ = a.showMid c ν → μ = ν
  | .sha1, _, _, h | .sha256, _, _, h | .sha384, _, _, h | .sha512, _, _, h | .sha512_256, _, _, h
  | .ripemd160, _, _, h | .sha256t _ _ _, _, _, h | .siphash24, _, _, h => by cases h; rfl
  | .hmac a, ⟨i, o⟩, ⟨i', o'⟩, h => by
      simp only [Alg.showMid, MidVal.pair.injEq] at h
      obtain rfl := showMid_inj c a h.1
      obtain rfl := showMid_inj c a h.2
      rfl

theorem res_map_inj {α β : Type} {f : α → β} (hf : ∀ {x y}, f x = f y → x = y) {r s : Res α}
    (h : r.map f = s.map f) : r = s := by
  cases r <;> cases s <;> simp_all [Except.map]
  exact hf h

/-- An engine made with `new` and given slices is reachable. -/
theorem reach_new {c : Cfg} {a : Alg} {ds : List (List Byte)} (hd : ∀ d ∈ ds, d.length < c.usizeMod)
    {e : (a.engine c).State} (h : ((a.engine c).new >>= ((a.engine c).inputs · ds)) = .ok e) :
    Reachable c a e := by
  obtain ⟨e0, h0, h1⟩ := bind_ok h
  exact reach_inputs ds hd ⟨_, .new h0⟩ h1

theorem readMid_typed {c : Cfg} : (a : Alg) → ∀ {v μ n}, a.readMid c v = some μ → n < c.usizeMod →
    a.Typed c μ n
  | .sha1, v, μ, n, h, hn | .sha256, v, μ, n, h, hn | .sha384, v, μ, n, h, hn
  | .sha512, v, μ, n, h, hn | .sha512_256, v, μ, n, h, hn | .ripemd160, v, μ, n, h, hn
  | .sha256t _ _ _, v, μ, n, h, hn => by
      cases v with
      | bytes bs =>
        simp only [Alg.readMid] at h
        split at h
        · cases h; exact ⟨by assumption, hn⟩
        · cases h
      | _ => cases h
  | .siphash24, v, μ, n, h, hn => hn
  | .hmac a, v, μ, n, h, hn => by
      cases v with
      | pair i o =>
        simp only [Alg.readMid] at h
        split at h
        · rename_i h1 h2
          cases h
          exact ⟨readMid_typed a h1 hn, readMid_typed a h2 hn⟩
        · cases h
      | _ => cases h

theorem reach_many {c : Cfg} (hc : c ∈ cfgs) {a : Alg} :
    ∀ e ∈ manyEngines c a, Reachable c a e := by
  have hfresh : ∀ e ∈ ([[], [msg 64], [msg 128], [msg 60, msg 68], [msg 64, msg 64], [msg 56],
      [(msg 200).drop 72], [msg 100, msg 28], [msg 8], [msg 192], [msg 190, msg 2]].filterMap fun ds =>
      ((a.engine c).new >>= ((a.engine c).inputs · ds)).toOption), Reachable c a e := by
    intro e he
    obtain ⟨ds, hds, h⟩ := List.mem_filterMap.1 he
    refine reach_new (small_chunks hc ?_) (toOption_some h)
    simp only [List.mem_cons, List.not_mem_nil, or_false] at hds
    rcases hds with rfl | rfl | rfl | rfl | rfl | rfl | rfl | rfl | rfl | rfl | rfl <;>
      simp [msg_length]
  intro e he
  unfold manyEngines at he
  dsimp only at he
  rcases List.mem_append.1 he with he | he
  · exact hfresh e he
  · obtain ⟨e0, h0, h⟩ := List.mem_filterMap.1 he
    split at h
    · cases h
    · split at h
      · cases h
      · rename_i hr
        split at h
        · rename_i hn
          exact ⟨_, .resume (readMid_typed a hr (by rw [mod64 hc]; exact hn)) (toOption_some h)⟩
        · cases h

theorem sound_C61 : check_C61_state () = true :=
  forall2_true fun c hc x hx => by
    have hx' : x.1.Ok c ∧ stride x.1 = some x.2 := by
      simp only [strides, List.mem_cons, List.not_mem_nil, or_false] at hx
      rcases hx with rfl | rfl | rfl | rfl | rfl | rfl | rfl | rfl <;>
        simp [Alg.Ok, msg_length, mod64 hc, stride]
    refine forall2_true fun e he e' he' => ?_
    obtain ⟨he, hn⟩ := List.mem_filter.1 he
    obtain ⟨he', -⟩ := List.mem_filter.1 he'
    rw [Bool.or_eq_true, Bool.not_eq_true', decide_eq_false_iff_not]
    by_cases h : (x.1.engine c).nBytesHashed e = (x.1.engine c).nBytesHashed e' ∧
        ((x.1.engine c).midstate e).map (x.1.showMid c) =
          ((x.1.engine c).midstate e').map (x.1.showMid c)
    · right
      have := C61_state (valid hc) x.1 hx'.1 hx'.2 (reach_many hc e he)
        (reach_many hc e' he') (Nat.dvd_of_mod_eq_zero (of_decide_eq_true hn)) h.1
        (res_map_inj (showMid_inj c x.1) h.2)
      refine List.all_eq_true.2 fun ds hds => ?_
      rw [same, decide_eq_true_eq, seen, seen, this ds (small_chunks hc ?_)]
      simp only [List.mem_cons, List.not_mem_nil, or_false] at hds
      rcases hds with rfl | rfl | rfl <;> simp [msg_length]
    · exact .inl h

/-! ## C62 -/

theorem reach_near {c : Cfg} (hc : c.usizeBits = 16) (a : Alg) :
    ∀ e ∈ nearLimit c a, Reachable c a e := by
  have h16 : c.usizeMod = 2 ^ 16 := by rw [Cfg.usizeMod, hc]
  intro e he
  unfold nearLimit at he
  dsimp only at he
  split at he
  · cases he
  · rename_i hr
    obtain ⟨n, hn, h⟩ := List.mem_filterMap.1 he
    obtain ⟨e0, h0, h1⟩ := bind_ok (toOption_some h)
    refine reach_inputs _ ?_ ⟨_, .resume (readMid_typed a hr ?_) h0⟩ h1
    · simp [msg_length, h16]
    · simp only [List.mem_cons, List.not_mem_nil, or_false] at hn
      rcases hn with rfl | rfl | rfl <;> rw [h16] <;> decide

theorem reach_far {c : Cfg} (hc : c.usizeBits = 16) (a : Alg) :
    ∀ e ∈ farInput c a, Reachable c a e := by
  have h16 : c.usizeMod = 2 ^ 16 := by rw [Cfg.usizeMod, hc]
  intro e he
  obtain ⟨n, hn, h⟩ := List.mem_filterMap.1 he
  simp only [List.mem_cons, List.not_mem_nil, or_false] at hn
  exact reach_new (by rw [h16]; exact pair_lt (by decide) (by omega)) (toOption_some h)

theorem reach_limit {c : Cfg} (hc : c.usizeBits = 16) (a : Alg) :
    ∀ e ∈ limitEngines c a, Reachable c a e := by
  intro e he
  rcases List.mem_append.1 (List.mem_filter.1 he).1 with he | he
  · exact reach_near hc a e he
  · exact reach_far hc a e he

theorem same_refl {c : Cfg} {a : Alg} (e : (a.engine c).State) (ds : List (List Byte)) :
    same c a e e ds = true := decide_eq_true rfl

theorem sound_C62a : check_C62_agrees () = true :=
  forall2_true fun c _ a _ => forall2_true fun e _ d _ => by
    obtain ⟨h1, h2⟩ := C62_agrees c a e d
    generalize a.inputMut c e d = r at *
    obtain ⟨e', r⟩ := r
    cases r with
    | none =>
      rw [(h1 e').1 rfl]
      exact same_refl _ _
    | some f =>
      rw [(h2 f).1 rfl]
      exact decide_eq_true rfl

theorem slices62_lt : ∀ d ∈ slices62, d.length < 2 ^ 16 := by
  simp [slices62, msg_length]

theorem same_of_obs {c : Cfg} {a : Alg} {e e' : (a.engine c).State} (h : ObsEq c (a.engine c) e e')
    (ds : List (List Byte)) (hd : ∀ d ∈ ds, d.length < c.usizeMod) : same c a e e' ds = true := by
  rw [same, decide_eq_true_eq, seen, seen, h ds hd]

theorem sound_C62b : check_C62_left () = true :=
  List.all_eq_true.2 fun a ha => forall2_true fun e he d hd => by
    have ok : a.Ok debug16 := by
      simp only [List.mem_cons, List.not_mem_nil, or_false] at ha
      rcases ha with rfl | rfl | rfl | rfl <;>
        simp [Alg.Ok, Alg.base, Alg.blockSize, show debug16.usizeMod = 2 ^ 16 from rfl]
    cases hp : a.inputMut debug16 e d with
    | mk e' r =>
      cases r with
      | none => rfl
      | some f =>
        obtain ⟨rfl, k, hk, e'', h1, h2, -⟩ := C62_left (c := debug16) (by decide) a ok
          (reach_limit rfl a e he) d (slices62_lt d hd) hp
        dsimp only
        rw [Bool.and_eq_true]
        refine ⟨decide_eq_true rfl, List.any_eq_true.2 ⟨k, List.mem_range.2 hk, ?_⟩⟩
        rw [h1]
        have hc0 := h2 [] (by simp)
        have hn : (a.engine debug16).nBytesHashed e' = (a.engine debug16).nBytesHashed e'' := by
          simp only [HashEngine.observe, HashEngine.inputs, bind, Except.bind, pure, Except.pure,
            Except.ok.injEq, Prod.mk.injEq] at hc0
          exact hc0.1
        have lt : ∀ n, n < 2 ^ 16 → ∀ d ∈ [msg n], d.length < debug16.usizeMod := by
          intro n hn d hd
          rw [List.mem_singleton.1 hd, msg_length]
          exact hn
        dsimp only
        rw [same_of_obs h2 [] (by simp), same_of_obs h2 [msg 3] (lt 3 (by decide)),
          same_of_obs h2 [msg 70] (lt 70 (by decide)), decide_eq_true hn]
        rfl

theorem sound_C62c : check_C62_programs () = true :=
  forall2_true fun c hc p hp => decide_eq_true <| by
    have h : c.Valid ∧ c.usizeBits = 16 := by
      simp only [List.mem_cons, List.not_mem_nil, or_false] at hc
      rcases hc with rfl | rfl | rfl <;> exact ⟨by decide, rfl⟩
    exact C62_programs h.1 p (programs16_typed h.2 p hp)

/-! ## C63 -/

theorem toyEngine_inputs (B D : Nat) : ∀ (ds : List (List Byte)) (e : List Byte),
    (toyEngine B D).inputs e ds = .ok (e ++ ds.flatten)
  | [], e => by simp [HashEngine.inputs]
  | d :: ds, e => by
      have := toyEngine_inputs B D ds (e ++ d)
      rw [List.flatten_cons, ← List.append_assoc, ← this]
      rfl

theorem toy_computes (B D N : Nat) : Computes (toyEngine B D) (toyHash D) N := by
  constructor <;> intro ds _
  all_goals
    show ((toyEngine B D).inputs [] ds >>= (toyEngine B D).finalize) = _
    rw [toyEngine_inputs]
    rfl

theorem sound_C63a : check_C63_rfc () = true :=
  forall2_true fun c _ x hx => forall2_true fun key hk ds hd => decide_eq_true <| by
    have hx' : x.1 ≤ 128 ∧ x.2 ≤ x.1 := by
      simp only [List.mem_cons, List.not_mem_nil, or_false] at hx
      rcases hx with rfl | rfl | rfl | rfl | rfl <;> decide
    have hk' : key.length < 1000 := by
      simp only [List.mem_cons, List.not_mem_nil, or_false] at hk
      rcases hk with rfl | rfl | rfl | rfl | rfl | rfl | rfl | rfl <;> simp [msg_length]
    have hd' := (inputs3_ok ds hd).2
    have hB : (toyEngine x.1 x.2).blockSize = x.1 := rfl
    exact C63_rfc (E := toyEngine x.1 x.2) (toy_computes x.1 x.2 2000) (by rw [hB]; exact hx'.1)
      (fun m => by rw [hB, toyHash, List.length_replicate]; exact hx'.2)
      (by rw [hB]; omega) key (by omega) ds (by rw [hB]; omega)

theorem sound_C63b : check_C63_large_block () = true :=
  forall2_true fun c _ B hB => List.all_eq_true.2 fun key _ => by
    have h : 128 < (toyEngine B 32).blockSize := by
      show 128 < B
      simp only [List.mem_cons, List.not_mem_nil, or_false] at hB
      rcases hB with rfl | rfl | rfl | rfl <;> decide
    obtain ⟨f, hf⟩ := C63_large_block (c := c) h key
    rw [hf]

/-! ## C64 -/

theorem sound_C64a : check_C64_exact () = true :=
  forall2_true fun x hx n hn => decide_eq_true <| by
    have hn' : n < 65536 := by
      simp only [List.mem_cons, List.not_mem_nil, or_false] at hn
      omega
    have facts : plain x.1 = true ∧ blockAndField x.1 = some (x.2.1, x.2.2) := by
      simp only [List.mem_cons, List.not_mem_nil, or_false] at hx
      rcases hx with rfl | rfl | rfl <;> exact ⟨rfl, rfl⟩
    have := C64_exact (c := debug16) (by decide) rfl x.1 facts.1 facts.2 [msg n] (by
      intro d hd
      rw [List.mem_singleton.mp hd, msg_length]
      exact hn')
    rw [List.flatten_singleton, msg_length] at this
    exact this

theorem small16 {ds : List (List Byte)} (hs : ∀ d ∈ ds, d.length < 65536) :
    ∀ d ∈ ds, d.length < debug16.usizeMod := hs

theorem sound_C64b : check_C64_right_or_panic () = true :=
  forall2_true fun a ha ds hd => by
    have hs : ∀ d ∈ ds, d.length < 65536 := by
      simp only [List.mem_cons, List.not_mem_nil, or_false] at hd
      rcases hd with rfl | rfl | rfl <;> simp [msg_length]
    rw [Bool.or_eq_true, decide_eq_true_eq, decide_eq_true_eq]
    exact C64_right_or_panic (c := debug16) (by decide) rfl a (ok16 rfl a (List.mem_filter.1 ha).1) ds (small16 hs)

theorem sound_C64c : check_C64_hmac () = true :=
  forall2_true fun key hk ds hd => by
    have hs : ∀ d ∈ ds, d.length < 65536 := by
      simp only [List.mem_cons, List.not_mem_nil, or_false] at hd
      rcases hd with rfl | rfl | rfl | rfl <;> simp [msg_length]
    have hk' : key.length < 65536 := by
      simp only [List.mem_cons, List.not_mem_nil, or_false] at hk
      rcases hk with rfl | rfl | rfl | rfl <;> simp [msg_length]
    rw [Bool.or_eq_true, decide_eq_true_eq, decide_eq_true_eq]
    exact C64_hmac (c := debug16) (by decide) rfl .sha256 ⟨trivial, by decide⟩ key hk' ds (small16 hs)

/-! ## C10, C39 -/

theorem sound_C10 : check_C10_long () = true :=
  forall2_true fun c hc a ha => by
    have h64 : c.usizeBits = 64 := by
      simp only [List.mem_cons, List.not_mem_nil, or_false] at hc
      rcases hc with rfl | rfl <;> rfl
    have ok : a.Ok c ∧ a.slack < 1000 ∧ a.base = 0 := by
      simp only [List.mem_cons, List.not_mem_nil, or_false] at ha
      rcases ha with rfl | rfl | rfl <;> exact ⟨trivial, by decide, rfl⟩
    obtain ⟨e, he, _⟩ := C09_count_new (.inr (.inr h64)) a ok.1
    obtain ⟨e', μ, d, h1, h2, h3, _⟩ := C10_no_panic h64 a ok.1 (.new he) [msg 65500, msg 99] (by
      rw [ok.2.2]
      simp only [List.flatten_cons, List.flatten_nil, List.append_nil, List.length_append, msg_length]
      omega)
    simp only [he, h1, h2, h3, bind, Except.bind]
    rfl

theorem sound_C39 : check_C39_limit16 () = true :=
  forall2_true fun c hc a ha => List.all_eq_true.2 fun n hn => by
    have hc' : c.Valid ∧ c.usizeBits = 16 := by
      simp only [List.mem_cons, List.not_mem_nil, or_false] at hc
      rcases hc with rfl | rfl | rfl <;> exact ⟨by decide, rfl⟩
    have ok : a.Ok c := by
      simp only [List.mem_cons, List.not_mem_nil, or_false] at ha
      rcases ha with rfl | rfl | rfl <;> exact trivial
    have hm : c.usizeMod = 65536 := by rw [Cfg.usizeMod, hc'.2]
    have hs : ∀ d ∈ [msg n], d.length < c.usizeMod := by
      intro d hd
      rw [List.mem_singleton.1 hd, msg_length, hm]
      simp only [List.mem_cons, List.not_mem_nil, or_false] at hn
      omega
    cases hb : blockAndField a with
    | none => rfl
    | some BL =>
      obtain ⟨B, L⟩ := BL
      dsimp only
      cases hr : a.readMid c (midOf a) with
      | none => rfl
      | some μ =>
      rw [Option.map_some]
      cases hi : ((a.engine c).fromMidstate μ 65280 >>= ((a.engine c).inputs · [msg n])) with
      | error _ => rfl
      | ok e =>
        obtain ⟨e0, h0, hi⟩ := bind_ok hi
        obtain ⟨h1, h2⟩ := C39_finalize_panics_iff hc'.1 a ok hb
          (reach_inputs _ hs ⟨_, .resume (readMid_typed a hr (by rw [hm]; decide)) h0⟩ hi)
        rw [hc'.2] at h1
        dsimp only
        cases hfin : (a.engine c).finalize e with
        | ok d =>
          dsimp only
          rw [Bool.not_eq_true', Bool.eq_false_iff]
          intro h
          rw [Bool.and_eq_true, Bool.not_eq_true', decide_eq_false_iff_not] at h
          obtain ⟨f, hf⟩ := h1.2 h
          rw [hfin] at hf; cases hf
        | error f =>
          have h3 := h2 ⟨f, hfin⟩
          rw [hfin] at h3; cases h3
          dsimp only
          rw [Bool.and_eq_true, Bool.and_eq_true, Bool.not_eq_true', decide_eq_false_iff_not]
          exact ⟨h1.1 ⟨_, hfin⟩, by simp⟩

/-! ## C65 -/

theorem readsBack_true {c : Cfg} (hc : c ∈ cfgs) (a : Alg) (ha : canResume a = true) {μ n want}
    (ht : a.Typed c μ n) (hn : n % a.blockSize = 0) (hw : a.showMid c (readBack c a μ) = want) :
    readsBack c a μ n want = true := by
  obtain ⟨e, h1, h2, h3⟩ := C65_read_back (valid hc) a ha ht hn
  simp only [readsBack, h1, h2, h3, hw, decide_true, Bool.and_self]

theorem sound_C65 : check_C65_read_back () = true :=
  forall2_true fun c hc n hn => by
    have hm := mod64 hc
    have hn1 : n < c.usizeMod := by
      rw [hm]
      simp only [List.mem_cons, List.not_mem_nil, or_false] at hn
      omega
    have hn2 : n % 64 = 0 := by
      simp only [List.mem_cons, List.not_mem_nil, or_false] at hn
      omega
    simp only [Bool.and_eq_true]
    exact ⟨⟨⟨⟨readsBack_true hc .sha1 rfl ⟨msg_length 20, hn1⟩ hn2 rfl,
      readsBack_true hc .sha256 rfl ⟨msg_length 32, hn1⟩ hn2 rfl⟩,
      readsBack_true hc (.sha256t _ _ _) rfl ⟨msg_length 32, hn1⟩ hn2 rfl⟩,
      readsBack_true hc .ripemd160 rfl ⟨msg_length 20, hn1⟩ hn2 rfl⟩,
      readsBack_true hc (.hmac .sha256) rfl ⟨⟨msg_length 32, hn1⟩, ⟨List.length_replicate, hn1⟩⟩ hn2 rfl⟩

/-! ## C09 -/

theorem sound_C09 : check_C09_count_resume () = true :=
  forall2_true fun c hc a ha => List.all_eq_true.2 fun n hn => by
    have hm := mod64 hc
    have hn1 : n < c.usizeMod := by
      rw [hm]
      simp only [List.mem_cons, List.not_mem_nil, or_false] at hn
      omega
    have facts : a.Ok c ∧ isSip a = false := by
      simp only [List.mem_cons, List.not_mem_nil, or_false] at ha
      rcases ha with rfl | rfl | rfl | rfl | rfl | rfl
      all_goals simp [Alg.Ok, Alg.base, Alg.blockSize, hm, msg_length, isSip]
    obtain ⟨μ, h1, _⟩ := readMid_mem hc a
    rw [h1]
    dsimp only
    cases h : (a.engine c).fromMidstate μ n with
    | error _ => rfl
    | ok e =>
      have h2 := C09_count_resume_partial (valid hc) a facts.1 facts.2 (readMid_typed a h1 hn1) h
      exact decide_eq_true h2

/-! ## C21 -/

theorem sound_C21 : check_C21_digests_sha256 () = true :=
  forall2_true fun c hc x hx => List.all_eq_true.2 fun ds hd => by
    have hx' : x.1.length < 1000 ∧ x.2 < 1000 ∧ x.2 % 64 = 0 := by
      simp only [started, List.mem_cons, List.not_mem_nil, or_false] at hx
      rcases hx with rfl | rfl | rfl | rfl <;> simp [msg_length]
    have hm := mod64 hc
    dsimp only
    cases he : Hmac.new c (Sha256.engine c) x.1 >>=
        ((Hmac.engine c (Sha256.engine c)).input · (msg x.2)) with
    | error f => rfl
    | ok e =>
      obtain ⟨i, hi, hin⟩ := bind_ok he
      have hr : Reachable c (.hmac .sha256) e :=
        ⟨_, .input _ (.hmacKey x.1 (by rw [hm]; omega) hi) (by rw [msg_length, hm]; omega) hin⟩
      dsimp only
      by_cases hn : (Sha256.engine c).nBytesHashed e.iengine % 64 = 0
      · obtain ⟨μ, e', h, h1, h2, h3, h4⟩ := C21_digests_sha256 (valid hc) hr (Nat.dvd_of_mod_eq_zero hn)
        simp only [h1, h2, h3]
        rw [Bool.or_eq_true]
        right
        cases hf : (Hmac.engine c (Sha256.engine c)).inputs e ds with
        | error _ => rfl
        | ok f =>
          cases hf' : (Hmac.engine c (Sha256.engine c)).inputs e' ds with
          | error _ => rfl
          | ok f' =>
            dsimp only
            cases hd1 : (Hmac.engine c (Sha256.engine c)).finalize f with
            | error _ => rfl
            | ok d =>
              cases hd2 : (Hmac.engine c (Sha256.engine c)).finalize f' with
              | error _ => rfl
              | ok d' =>
                obtain ⟨ih, g1, _, g2, g3⟩ := h4 ds f f' d d' (small_chunks hc (inputs3_ok ds hd).1)
                  hf hf' hd1 hd2
                simp only [g1]
                exact Bool.and_eq_true_iff.2 ⟨decide_eq_true (g2.trans (by rw [parse8_serialize8])),
                  decide_eq_true (g3.trans (by rw [parse8_serialize8]))⟩
      · rw [decide_eq_false hn]
        rfl

theorem stateChecks_true : ∀ x ∈ stateChecks, x.2 () = true := by
  unfold stateChecks
  simp only [List.forall_mem_cons, List.not_mem_nil, false_implies, implies_true, and_true]
  exact ⟨sound_C15, sound_C38c, sound_C60, sound_C61, sound_C62a, sound_C62b, sound_C62c, sound_C63a,
    sound_C63b, sound_C64a, sound_C64b, sound_C64c, sound_C65, sound_C10, sound_C39, sound_C09, sound_C21⟩

end Chf.Check
