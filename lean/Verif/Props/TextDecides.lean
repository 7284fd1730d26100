import Verif.Proofs.Decides
import Verif.Props.TextMidstate

/-!
# C97: what tells two engines of the translated text apart
-/

namespace Chf.Props
open Chf Chf.Rs Chf.Spec

/-- C97: two engines of the translated text that callers can obtain are the same to every caller, now and
after any further slices, exactly if their counts are equal and their midstates are, now and after every
slice that completes the block. -/
theorem C97_midstates {c : Cfg} (hc : c.Valid) (a : Alg) (ok : a.Ok c) {B : Nat} (hB : stride a = some B)
    (hsip : isSip a = false) {e e'} (he : Source.Reach c a e) (he' : Source.Reach c a e') :
    ObsEq c (Source.engineOf c a) e e' ↔
      (Source.engineOf c a).nBytesHashed e = (Source.engineOf c a).nBytesHashed e' ∧
      (Source.engineOf c a).midstate e = (Source.engineOf c a).midstate e' ∧
      ∀ d : List Byte, d.length < B → B ∣ (Source.engineOf c a).nBytesHashed e + d.length →
        ((Source.engineOf c a).input e d >>= (Source.engineOf c a).midstate) =
          ((Source.engineOf c a).input e' d >>= (Source.engineOf c a).midstate) := by
  have hlt := stride_lt hc hB
  obtain ⟨m, hm, rfl⟩ := he.model hc (fits_of_ok a ok)
  obtain ⟨m', hm', rfl⟩ := he'.model hc (fits_of_ok a ok)
  have key : ∀ (m : (a.engine c).State) (d : List Byte), d.length < B →
      ((Source.engineOf c a).input ((Source.algSim hc a (fits_of_ok a ok)).st m) d >>=
        (Source.engineOf c a).midstate) =
      ((a.engine c).input m d >>= (a.engine c).midstate).map (Source.algSim hc a (fits_of_ok a ok)).mid := by
    intro m d hd
    rw [(Source.algSim hc a (fits_of_ok a ok)).input m d (by omega)]
    cases (a.engine c).input m d with
    | error f => rfl
    | ok x => exact (Source.algSim hc a (fits_of_ok a ok)).midstate x
  rw [Source.Sim.obsEq, decides_model hc a ok hB hsip hm hm']
  rw [(Source.algSim hc a (fits_of_ok a ok)).nBytesHashed, (Source.algSim hc a (fits_of_ok a ok)).nBytesHashed,
    (Source.algSim hc a (fits_of_ok a ok)).midstate, (Source.algSim hc a (fits_of_ok a ok)).midstate]
  refine and_congr_right fun _ => and_congr ⟨fun h => by rw [h], Source.map_inj fun x y => Source.Sim.mid_inj _⟩ ?_
  refine forall_congr' fun d => forall_congr' fun hd => forall_congr' fun _ => ?_
  rw [key m d hd, key m' d hd]
  exact ⟨fun h => by rw [h], Source.map_inj fun x y => Source.Sim.mid_inj _⟩

/-- C97: for all of them, SipHash included: the same to every caller exactly if no single slice that ends
within the current block, or with it, tells them apart. -/
theorem C97_one_block {c : Cfg} (hc : c.Valid) (a : Alg) (ok : a.Ok c) {B : Nat} (hB : stride a = some B)
    {e e'} (he : Source.Reach c a e) (he' : Source.Reach c a e') :
    ObsEq c (Source.engineOf c a) e e' ↔
      ∀ d : List Byte, (Source.engineOf c a).nBytesHashed e % B + d.length ≤ B →
        (Source.engineOf c a).observe e [d] = (Source.engineOf c a).observe e' [d] := by
  have hlt := stride_lt hc hB
  constructor
  · intro h d hd
    refine h [d] fun x hx => ?_
    rw [List.mem_singleton.mp hx]
    omega
  · intro h
    obtain ⟨m, hm, rfl⟩ := he.model hc (fits_of_ok a ok)
    obtain ⟨m', hm', rfl⟩ := he'.model hc (fits_of_ok a ok)
    rw [Source.Sim.obsEq]
    refine one_block hc a ok hB hm hm' fun d hd => ?_
    have := h d (by rw [(Source.algSim hc a (fits_of_ok a ok)).nBytesHashed]; exact hd)
    have hs : ∀ x ∈ [d], x.length < c.usizeMod := fun x hx => by
      rw [List.mem_singleton.mp hx]
      omega
    rw [(Source.algSim hc a (fits_of_ok a ok)).observe m [d] hs,
      (Source.algSim hc a (fits_of_ok a ok)).observe m' [d] hs] at this
    refine Source.map_inj ?_ this
    rintro ⟨a, b, d⟩ ⟨a', b', d'⟩ k
    simp only [Prod.mk.injEq] at k ⊢
    exact ⟨k.1, Source.map_inj (fun x y => Source.Sim.mid_inj _) k.2.1, k.2.2⟩

set_option maxRecDepth 10000 in
/-- SHA-1 engines after one byte: the counts and midstates are equal, and 63 zeros tell them apart. -/
example : (∀ b ∈ [1#8, 2#8], ∃ e, Source.Reach .debug64 .sha1 e ∧
      decide ((Source.engineOf .debug64 .sha1).nBytesHashed e = 1 ∧
        ((Source.engineOf .debug64 .sha1).midstate e).map (Source.showMid .debug64 .sha1) =
          .ok (.bytes (serialize5 iv1)) ∧
        ((Source.engineOf .debug64 .sha1).input e (List.replicate 63 0) >>=
          (Source.engineOf .debug64 .sha1).midstate).map (Source.showMid .debug64 .sha1) =
            .ok (.bytes (serialize5 (compress1 iv1 (b :: List.replicate 63 0))))) = true) ∧
    serialize5 (compress1 iv1 (1#8 :: List.replicate 63 0)) ≠
      serialize5 (compress1 iv1 (2#8 :: List.replicate 63 0)) := by
  refine ⟨fun b hb => ?_, by decide +kernel⟩
  simp only [List.mem_cons, List.not_mem_nil, or_false] at hb
  rcases hb with rfl | rfl
  · exact Source.Reach.of_run .new trivial [1#8] (by decide) (by decide +kernel)
  · exact Source.Reach.of_run .new trivial [2#8] (by decide) (by decide +kernel)

theorem finalize_of_observe {E : HashEngine} {e e' : E.State} {d : List Byte}
    (h : E.observe e [d] = E.observe e' [d]) : (E.input e d >>= E.finalize) = (E.input e' d >>= E.finalize) := by
  have key : ∀ e, (E.observe e [d] >>= fun r => r.2.2) = (E.input e d >>= E.finalize) := by
    intro e
    unfold HashEngine.observe HashEngine.inputs
    cases E.input e d <;> rfl
  rw [← key, ← key, h]

/-- C97: HMAC over any engines, also ones written by others: if the inner engines are the same to every
caller and the outer ones are, the HMAC engines are. -/
theorem C97_hmac (c : Cfg) (E : HashEngine) (i i' o o' : E.State) (hi : ObsEq c E i i') (ho : ObsEq c E o o')
    (hl : ∀ ds, (∀ d ∈ ds, d.length < c.usizeMod) → ∀ e d, E.inputs i' ds = .ok e → E.finalize e = .ok d →
      d.length < c.usizeMod) :
    ObsEq c (Source.Hmac.engine c E) (Source.Hmac.Engine.mk i o) (Source.Hmac.Engine.mk i' o') := by
  have hin : ∀ (ds : List (List Byte)) (i o : E.State),
      (Source.Hmac.engine c E).inputs (Source.Hmac.Engine.mk i o) ds =
        (E.inputs i ds).map fun x => Source.Hmac.Engine.mk x o := by
    intro ds
    induction ds with
    | nil => intro i o; rfl
    | cons d ds ih =>
      intro i o
      show ((E.input i d >>= fun x => pure (Source.Hmac.Engine.mk x o)) >>= fun e =>
        (Source.Hmac.engine c E).inputs e ds) = (E.input i d >>= fun x => E.inputs x ds).map _
      cases E.input i d with
      | error f => rfl
      | ok x => exact ih x o
  intro ds hd
  have h := hi ds hd
  unfold HashEngine.observe at h ⊢
  rw [hin, hin]
  obtain ⟨-, hom, -⟩ := of_observe_nil (ho [] fun _ h => by cases h)
  cases h1 : E.inputs i ds with
  | error f =>
    cases h2 : E.inputs i' ds with
    | error f' => rw [h1, h2] at h; cases h; rfl
    | ok x' => rw [h1, h2] at h; cases h
  | ok x =>
    cases h2 : E.inputs i' ds with
    | error f' => rw [h1, h2] at h; cases h
    | ok x' =>
      rw [h1, h2] at h
      obtain ⟨g1, g2, g3⟩ := of_observe_nil (E := E) (e := x) (e' := x') h
      have hm : Source.Hmac.Engine.midstate c E (.mk x o) = Source.Hmac.Engine.midstate c E (.mk x' o') := by
        unfold Source.Hmac.Engine.midstate
        rw [show E.midstate x = E.midstate x' from g2, show E.midstate o = E.midstate o' from hom]
      have hf : Source.Hmac.Engine.finalize c E (.mk x o) = Source.Hmac.Engine.finalize c E (.mk x' o') := by
        unfold Source.Hmac.Engine.finalize
        show (E.finalize x >>= _) = (E.finalize x' >>= _)
        rw [g3]
        cases h3 : E.finalize x' with
        | error f => rfl
        | ok d =>
          have := ho [d] fun y hy => by
            rw [List.mem_singleton.mp hy]
            exact hl ds hd _ _ h2 h3
          exact finalize_of_observe this
      show (Except.ok (E.nBytesHashed x, Source.Hmac.Engine.midstate c E (.mk x o),
          Source.Hmac.Engine.finalize c E (.mk x o)) : Res _) =
        .ok (E.nBytesHashed x', Source.Hmac.Engine.midstate c E (.mk x' o'),
          Source.Hmac.Engine.finalize c E (.mk x' o'))
      rw [g1, hm, hf]

theorem hmac_inputs_pair (c : Cfg) (E : HashEngine) : ∀ (ds : List (List Byte)) (i o : E.State),
    (Source.Hmac.engine c E).inputs (Source.Hmac.Engine.mk i o) ds =
      (E.inputs i ds).map fun x => Source.Hmac.Engine.mk x o
  | [], _, _ => rfl
  | d :: ds, i, o => by
      show ((E.input i d >>= fun x => pure (Source.Hmac.Engine.mk x o)) >>= fun e =>
        (Source.Hmac.engine c E).inputs e ds) = (E.input i d >>= fun x => E.inputs x ds).map _
      cases E.input i d with
      | error f => rfl
      | ok x => exact hmac_inputs_pair c E ds x o

/-- What is seen of an HMAC engine after slices shows whether the inner engine panicked, its count and both
midstates. -/
theorem hmac_observe_parts {c : Cfg} {E : HashEngine} {i i' o o' : E.State} {ds : List (List Byte)}
    (h : (Source.Hmac.engine c E).observe (Source.Hmac.Engine.mk i o) ds =
      (Source.Hmac.engine c E).observe (Source.Hmac.Engine.mk i' o') ds) :
    (∃ f, E.inputs i ds = .error f ∧ E.inputs i' ds = .error f) ∨
    ∃ x x', E.inputs i ds = .ok x ∧ E.inputs i' ds = .ok x' ∧ E.nBytesHashed x = E.nBytesHashed x' ∧
      ∀ μ ν μ' ν', E.midstate x = .ok μ → E.midstate o = .ok ν → E.midstate x' = .ok μ' → E.midstate o' = .ok ν' →
        μ = μ' ∧ ν = ν' := by
  unfold HashEngine.observe at h
  rw [hmac_inputs_pair, hmac_inputs_pair] at h
  cases h1 : E.inputs i ds with
  | error f =>
    cases h2 : E.inputs i' ds with
    | error f' => rw [h1, h2] at h; cases h; exact .inl ⟨f, rfl, rfl⟩
    | ok x' => rw [h1, h2] at h; cases h
  | ok x =>
    cases h2 : E.inputs i' ds with
    | error f' => rw [h1, h2] at h; cases h
    | ok x' =>
      rw [h1, h2] at h
      obtain ⟨g1, g2, -⟩ := of_observe_nil (E := Source.Hmac.engine c E) (e := Source.Hmac.Engine.mk x o)
        (e' := Source.Hmac.Engine.mk x' o') h
      refine .inr ⟨x, x', rfl, rfl, g1, fun μ ν μ' ν' m1 m2 m3 m4 => ?_⟩
      have g2 : Source.Hmac.Engine.midstate c E (.mk x o) = Source.Hmac.Engine.midstate c E (.mk x' o') := g2
      unfold Source.Hmac.Engine.midstate at g2
      rw [show E.midstate (Source.Hmac.Engine.mk x o).iengine = .ok μ from m1,
        show E.midstate (Source.Hmac.Engine.mk x o).oengine = .ok ν from m2,
        show E.midstate (Source.Hmac.Engine.mk x' o').iengine = .ok μ' from m3,
        show E.midstate (Source.Hmac.Engine.mk x' o').oengine = .ok ν' from m4] at g2
      have g2 := Except.ok.inj g2
      injection g2 with h3 h4
      exact ⟨h3, h4⟩

theorem reach_midstate {c : Cfg} (hc : c.Valid) (a : Alg) (ok : a.Ok c) {e} (he : Source.Reach c a e) :
    ∃ μ, (Source.engineOf c a).midstate e = .ok μ := by
  obtain ⟨m, ⟨k, hm⟩, rfl⟩ := he.model hc (fits_of_ok a ok)
  obtain ⟨s, l, R, -⟩ := hm.rel hc ok
  have h := (Source.algSim hc a (fits_of_ok a ok)).midstate m
  rw [(a.lawful hc ok).mid R] at h
  exact ⟨_, h⟩

theorem reach_inputs_text' {c : Cfg} {a : Alg} : ∀ (ds : List (List Byte)) {e e'},
    Source.Reach c a e → (∀ d ∈ ds, d.length < c.usizeMod) →
    (Source.engineOf c a).inputs e ds = .ok e' → Source.Reach c a e'
  | [], _, _, he, _, h => by cases h; exact he
  | d :: ds, e, e', he, hd, h => by
      have h : ((Source.engineOf c a).input e d >>= fun e => (Source.engineOf c a).inputs e ds) = .ok e' := h
      cases h1 : (Source.engineOf c a).input e d with
      | error f => rw [h1] at h; cases h
      | ok x =>
        rw [h1] at h
        exact reach_inputs_text' ds (.input d he (hd d (by simp)) h1) (fun d hd' => hd d (by simp [hd'])) h

/-- C97: HMAC over the block hash functions: as long as the outer engines have whole blocks and the same count, as
those made from keys have, the HMAC engines are the same to every caller only if the inner engines are and the outer
ones are. -/
theorem C97_hmac_iff {c : Cfg} (hc : c.Valid) (a : Alg) (ok : a.Ok c) {B : Nat} (hB : stride a = some B)
    (hsip : isSip a = false) {i i' o o'} (hi : Source.Reach c a i) (hi' : Source.Reach c a i')
    (ho : Source.Reach c a o) (ho' : Source.Reach c a o') (hn : B ∣ (Source.engineOf c a).nBytesHashed o)
    (hno : (Source.engineOf c a).nBytesHashed o = (Source.engineOf c a).nBytesHashed o') :
    ObsEq c (Source.Hmac.engine c (Source.engineOf c a)) (Source.Hmac.Engine.mk i o) (Source.Hmac.Engine.mk i' o') ↔
      ObsEq c (Source.engineOf c a) i i' ∧ ObsEq c (Source.engineOf c a) o o' := by
  have hlt := stride_lt hc hB
  constructor
  · intro h
    obtain ⟨ν, hν⟩ := reach_midstate hc a ok ho
    obtain ⟨ν', hν'⟩ := reach_midstate hc a ok ho'
    have at0 := hmac_observe_parts (h [] fun _ h => by cases h)
    have mids : (Source.engineOf c a).nBytesHashed i = (Source.engineOf c a).nBytesHashed i' ∧
        (Source.engineOf c a).midstate i = (Source.engineOf c a).midstate i' ∧ ν = ν' := by
      rcases at0 with ⟨f, h1, -⟩ | ⟨x, x', h1, h2, h3, h4⟩
      · cases h1
      · cases h1
        cases h2
        obtain ⟨μ, hμ⟩ := reach_midstate hc a ok hi
        obtain ⟨μ', hμ'⟩ := reach_midstate hc a ok hi'
        obtain ⟨h5, h6⟩ := h4 μ ν μ' ν' hμ hν hμ' hν'
        exact ⟨h3, by rw [hμ, hμ', h5], h6⟩
    refine ⟨(C97_midstates hc a ok hB hsip hi hi').2 ⟨mids.1, mids.2.1, fun d hd _ => ?_⟩,
      (C82_states hc a ok hB ho ho' hn).2 ⟨hno, by rw [hν, hν', mids.2.2]⟩⟩
    have one : ∀ e, (Source.engineOf c a).inputs e [d] = (Source.engineOf c a).input e d := fun e => by
      show ((Source.engineOf c a).input e d >>= fun e => .ok e) = _
      cases (Source.engineOf c a).input e d <;> rfl
    have hds : ∀ x ∈ [d], x.length < c.usizeMod := fun x hx => by rw [List.mem_singleton.1 hx]; omega
    rcases hmac_observe_parts (h [d] hds) with ⟨f, h1, h2⟩ | ⟨x, x', h1, h2, h3, h4⟩
    · rw [← one, ← one, h1, h2]
    · obtain ⟨μ, hμ⟩ := reach_midstate hc a ok (reach_inputs_text' [d] hi hds h1)
      obtain ⟨μ', hμ'⟩ := reach_midstate hc a ok (reach_inputs_text' [d] hi' hds h2)
      rw [← one, ← one, h1, h2]
      exact hμ.trans ((congrArg _ (h4 μ ν μ' ν' hμ hν hμ' hν').1).trans hμ'.symm)
  · rintro ⟨h1, h2⟩
    refine C97_hmac c _ _ _ _ _ h1 h2 fun ds hd e d he hf => ?_
    obtain ⟨m, ⟨k, hm⟩, rfl⟩ := (reach_inputs_text' ds hi' hd he).model hc (fits_of_ok a ok)
    obtain ⟨s, l, R, -⟩ := hm.rel hc ok
    rw [(Source.algSim hc a (fits_of_ok a ok)).finalize, (a.lawful hc ok).digest R] at hf
    have := (a.lawful hc ok).digest_len hf
    have := (a.lawful hc ok).out_le
    have := usizeMod_ge hc
    omega

/-- An outer engine such as a key gives: it has one block. -/
example : ∃ o, Source.Reach .debug64 .sha256 o ∧
    (64 ∣ (Source.engineOf .debug64 .sha256).nBytesHashed o ∧
      (Source.engineOf .debug64 .sha256).nBytesHashed o = 64) := by
  obtain ⟨o, h1, h2⟩ := Source.Reach.of_run (c := .debug64) (a := .sha256) .new trivial
    (List.replicate 64 0x5d) (by rw [List.length_replicate]; decide)
    (P := fun o => (Source.engineOf .debug64 .sha256).nBytesHashed o == 64) (by decide +kernel)
  have h2 := eq_of_beq h2
  exact ⟨o, h1, ⟨1, h2⟩, h2⟩

/-- An engine by others that keeps what it is given, and whether it was called an odd number of times, which
no method shows. -/
def paritied : HashEngine where
  State := List Byte × Bool
  Midstate := List Byte
  blockSize := 1
  default := .ok ([], false)
  new := .ok ([], false)
  input e d := .ok (e.1 ++ d, !e.2)
  nBytesHashed e := e.1.length
  finalize e := .ok [BitVec.ofNat 8 e.1.length]
  midstate e := .ok e.1
  fromMidstate m _ := .ok (m, false)

example : ObsEq .debug64 (Source.Hmac.engine .debug64 paritied)
    (Source.Hmac.Engine.mk (E := paritied) ([1, 2], false) ([3], true))
    (Source.Hmac.Engine.mk (E := paritied) ([1, 2], true) ([3], false)) := by
  have h : ∀ (m : List Byte) (b b' : Bool), ObsEq .debug64 paritied (m, b) (m, b') := by
    intro m b b' ds hs
    clear hs
    induction ds generalizing m b b' with
    | nil => rfl
    | cons d ds ih => exact ih (m ++ d) (!b) (!b')
  refine C97_hmac .debug64 paritied _ _ _ _ (h _ _ _) (h _ _ _) fun ds _ e d _ hf => ?_
  cases hf
  show 1 < 2 ^ 64
  decide

end Chf.Props
