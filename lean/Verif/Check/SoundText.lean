import Verif.Check.Text
import Verif.Check.SoundStates
import Verif.Props.Text

/-!
# The instances of C67 - C70 follow from the theorems
-/

namespace Chf.Check
open Chf Spec Props

theorem len64 {c : Cfg} (hc : c ∈ cfgs) : c.usizeBits = 64 ∧ ∀ n ∈ lengths, (msg n).length < 2 ^ 61 :=
  ⟨cfg64 c hc, fun n hn => by have := lengths_le n hn; rw [msg_length]; omega⟩

theorem sound_C67_sha1 : check_C67_sha1 () = true :=
  forall2_true fun c hc n hn => decide_eq_true <| by
    rw [C67_sha1 (len64 hc).1 _ ((len64 hc).2 n hn)]; rfl

theorem sound_C67_sha256 : check_C67_sha256 () = true :=
  forall2_true fun c hc n hn => decide_eq_true <| by
    rw [C67_sha256 (len64 hc).1 _ ((len64 hc).2 n hn)]; rfl

theorem sound_C67_sha384 : check_C67_sha384 () = true :=
  forall2_true fun c hc n hn => decide_eq_true <| by
    rw [C67_sha384 (len64 hc).1 _ ((len64 hc).2 n hn)]; rfl

theorem sound_C67_sha512 : check_C67_sha512 () = true :=
  forall2_true fun c hc n hn => decide_eq_true <| by
    rw [C67_sha512 (len64 hc).1 _ ((len64 hc).2 n hn)]; rfl

theorem sound_C67_sha512_256 : check_C67_sha512_256 () = true :=
  forall2_true fun c hc n hn => decide_eq_true <| by
    rw [C67_sha512_256 (len64 hc).1 _ ((len64 hc).2 n hn)]; rfl

theorem sound_C67_ripemd160 : check_C67_ripemd160 () = true :=
  forall2_true fun c hc n hn => decide_eq_true <| by
    rw [C67_ripemd160 (len64 hc).1 _ ((len64 hc).2 n hn)]; rfl

theorem valid32 : ∀ c ∈ Cfg.release32 :: cfgs, c.Valid ∧ 32 ≤ c.usizeBits := by
  intro c hc
  rcases List.mem_cons.1 hc with rfl | hc
  · exact ⟨by decide, by decide⟩
  · exact ⟨valid hc, by rw [cfg64 c hc]; decide⟩

theorem small32 {c : Cfg} (h : 32 ≤ c.usizeBits) {n : Nat} (hn : n < 2 ^ 32) : n < 2 ^ c.usizeBits :=
  Nat.lt_of_lt_of_le hn (Nat.pow_le_pow_right (by decide) h)

theorem sound_C67_sip : check_C67_siphash24 () = true :=
  forall2_true fun c hc n hn => decide_eq_true <| by
    have h := valid32 c hc
    have hn := List.mem_range.1 hn
    rw [C67_siphash24 h.1 _ (by rw [msg_length]; exact small32 h.2 (by omega))]; rfl

theorem sound_C67_keys : check_C67_siphash24_keys () = true :=
  forall2_true fun c hc n hn => List.all_eq_true.2 fun k _ => decide_eq_true <| by
    have h := valid32 c hc
    have hn := List.mem_range.1 hn
    have h := C67_siphash24_keys h.1 k.1 k.2 (msg n) (by rw [msg_length]; exact small32 h.2 (by omega))
    rw [h.1]
    exact ⟨rfl, h.2⟩

theorem bounds {a : Alg} (ha : a ∈ algs) : a.base + a.slack < 2000 := by
  revert a
  decide +kernel

theorem sound_C67_engines : check_C67_engines () = true :=
  forall2_true fun x hx ds hd => decide_eq_true <| by
    simp only [engines, List.mem_flatMap, List.mem_map] at hx
    obtain ⟨c, hc, a, ha, rfl⟩ := hx
    have := bounds ha
    have := (chunks_ok ds hd).2
    exact C67_engines (valid hc) a (algs_ok hc a ha) ds (by omega) (by rw [cfg64 c hc]; omega)

theorem sound_C67_hmac : check_C67_hmac () = true :=
  forall2_true fun c hc a ha => forall2_true fun key hk ds hd => decide_eq_true <| by
    have hc : c ∈ cfgs := by
      simp only [List.mem_cons, List.not_mem_nil, or_false] at hc
      rcases hc with rfl | rfl <;> decide
    have hb := bounds ha
    have hB := a.blockSize_le
    have hk : key.length < 200 := by
      revert key
      decide +kernel
    have hd : ds.flatten.length < 300 := by
      revert ds
      decide +kernel
    refine C67_hmac (cfg64 c hc) a ⟨algs_ok hc a ha, ?_⟩ key ds (by omega) (by omega)
    rw [mod64 hc]
    omega

theorem sound_C68 : check_C68_programs () = true :=
  forall2_true fun _ hc p hp => decide_eq_true (C68_programs (valid hc) p (programs_typed hc p hp))

theorem sound_C68_16 : check_C68_programs16 () = true := by
  refine forall2_true fun c hc p hp => decide_eq_true ?_
  have h : c.Valid ∧ c.usizeBits = 16 := by
    simp only [List.mem_cons, List.not_mem_nil, or_false] at hc
    rcases hc with rfl | rfl | rfl <;> exact ⟨by decide, rfl⟩
  exact C68_programs h.1 p (programs16_typed h.2 p hp)

theorem sound_C68_model : check_C68_model () = true :=
  forall2_true fun _ hc p hp => decide_eq_true
    (C68_model (valid hc) p fun x hx => callFits_of_typed x (programs_typed hc p hp x hx))

theorem valid69 : ∀ c ∈ cfgs69, c.Valid ∧ 32 ≤ c.usizeBits := by decide

theorem sound_C69_const : check_C69_const_hash () = true :=
  forall2_true fun c hc n hn => decide_eq_true <| by
    have h := valid69 c hc
    have hn := List.mem_range.1 hn
    rw [C69_const_hash h.1 _ (by rw [msg_length]; exact small32 h.2 (by omega)) (by rw [msg_length]; omega)]
    rfl

theorem sound_C69_hash : check_C69_const_hash_hash () = true :=
  forall2_true fun c hc n hn => decide_eq_true <| by
    have h := valid69 c hc
    have hn := lengths_le n hn
    rw [C69_const_hash_hash h.1 _ (by rw [msg_length]; exact small32 h.2 (by omega))]

theorem sound_C69_tag : check_C69_hash_tag () = true :=
  forall2_true fun c hc n hn => decide_eq_true <| by
    have h := valid69 c hc
    have hn := lengths_le n hn
    rw [C69_hash_tag h.1 _ (by rw [msg_length]; exact small32 h.2 (by omega)) (by rw [msg_length]; omega)]
    rfl

theorem sound_C69_bip340 : check_C69_bip340 () = true :=
  forall2_true fun c hc n hn => List.all_eq_true.2 fun k hk => decide_eq_true <| by
    have h := valid69 c hc
    have hn := lengths_le n hn
    have hk := lengths_le k hk
    rw [C69_bip340 h.1 _ _ (by rw [msg_length]; exact small32 h.2 (by omega)) (by rw [msg_length]; omega)
      (by rw [msg_length]; exact small32 h.2 (by omega)) (by rw [msg_length]; omega)]
    rfl

theorem seeSlice_eq {H : Type} (f : H → List Byte) (mk : List Byte → H) (hf : ∀ d, f (mk d) = d)
    (len : Nat) (sl : List Byte) {r : Res (Except Source.Lib.FromSliceError H)}
    (h : r = .ok (if sl.length = len then .ok (mk sl) else .error ⟨len, sl.length⟩)) :
    seeSlice f r = wantSlice len sl := by
  rw [h]
  unfold seeSlice wantSlice
  split
  · exact congrArg (fun z => Except.ok (Sum.inl z)) (hf sl)
  · rfl

theorem sound_C70_slice : check_C70_from_slice () = true :=
  forall2_true fun c _ n _ => by
    simp only [Bool.and_eq_true, decide_eq_true_eq, and_assoc]
    obtain ⟨h1, h2, h3, h4, h5, h6, h7, h8, h9⟩ := C70_from_slice c ⟨.error .ub⟩ (msg n)
    exact ⟨seeSlice_eq _ _ (fun _ => rfl) _ _ h1, seeSlice_eq _ _ (fun _ => rfl) _ _ h2,
      seeSlice_eq _ _ (fun _ => rfl) _ _ h3, seeSlice_eq _ _ (fun _ => rfl) _ _ h4,
      seeSlice_eq _ _ (fun _ => rfl) _ _ h5, seeSlice_eq _ _ (fun _ => rfl) _ _ h6,
      seeSlice_eq _ _ (fun _ => rfl) _ _ h7, seeSlice_eq _ (fun d => ⟨d, ()⟩) (fun _ => rfl) _ _ h8,
      seeSlice_eq _ _ (fun _ => rfl) _ _ h9⟩

theorem sound_C70_errors : check_C70_errors () = true := decide_eq_true (C70_errors .debug64 3 32)

theorem sound_C70_cmp : check_C70_fixed_time_eq () = true :=
  forall2_true fun c _ x _ => decide_eq_true (C70_fixed_time_eq c x.1 x.2)

theorem sound_C70_u64 : check_C70_u64 () = true :=
  forall2_true fun c _ x _ => decide_eq_true <| by
    have h := C70_u64 c
    exact ⟨h.1 x, h.2.1 x, congrArg (·.f0) (h.2.2 ⟨msg 8⟩ (msg_length 8))⟩

theorem textChecks_true : ∀ x ∈ textChecks, x.2 () = true := by
  unfold textChecks
  simp only [List.forall_mem_cons, List.not_mem_nil, false_implies, implies_true, and_true]
  exact ⟨sound_C68_16, sound_C67_sha1, sound_C67_sha256, sound_C67_sha384, sound_C67_sha512, sound_C67_sha512_256, sound_C67_ripemd160,
    sound_C67_sip, sound_C67_keys, sound_C67_engines, sound_C67_hmac, sound_C68, sound_C68_model,
    sound_C69_const, sound_C69_hash, sound_C69_tag, sound_C69_bip340, sound_C70_slice, sound_C70_errors,
    sound_C70_cmp, sound_C70_u64⟩

end Chf.Check
