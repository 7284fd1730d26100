import Verif.Props.TextContract
import Verif.Props.TextDecides
import Verif.Spec.Resume

/-!
# C100: counting and resuming with the translated `hmac.rs` over engines written by others
-/

namespace Chf.Props
open Chf Chf.Rs Chf.Spec

theorem ok_of_bind {α β : Type} {x : Res α} {f : α → Res β} {y : β} (h : (x >>= f) = .ok y) :
    ∃ a, x = .ok a ∧ f a = .ok y := by
  cases x with
  | error g => cases h
  | ok a => exact ⟨a, rfl, h⟩

theorem sliceTo_length {l s : List Byte} {n : Nat} (h : sliceTo l n = .ok s) : s.length = n := by
  unfold sliceTo at h
  split at h
  · cases h
    rw [List.length_take]
    omega
  · cases h

theorem hmac_pads {E : HashEngine} {d : E.State} {ipad opad : List Byte} {m : Hmac.Engine E}
    (hd : E.default = .ok d)
    (hm : (do
      let ip ← sliceTo ipad E.blockSize
      let iengine ← E.input d ip
      let op ← sliceTo opad E.blockSize
      let oengine ← E.input d op
      pure ({ iengine := iengine, oengine := oengine } : Hmac.Engine E)) = .ok m) :
    ∃ d x y, E.default = .ok d ∧ x.length = E.blockSize ∧ y.length = E.blockSize ∧
      E.input d x = .ok m.iengine ∧ E.input d y = .ok m.oengine := by
  obtain ⟨x, hx, hm⟩ := ok_of_bind hm
  obtain ⟨i, hi, hm⟩ := ok_of_bind hm
  obtain ⟨y, hy, hm⟩ := ok_of_bind hm
  obtain ⟨o, ho, hm⟩ := ok_of_bind hm
  cases hm
  exact ⟨d, x, y, hd, sliceTo_length hx, sliceTo_length hy, hi, ho⟩

/-- The two engines of a new HMAC engine were input one block each. -/
theorem hmac_new_shape {c : Cfg} {E : HashEngine} {key : List Byte} {h : Source.Hmac.Engine E}
    (hn : Source.Hmac.Engine.new c E key = .ok h) :
    ∃ d x y, E.default = .ok d ∧ x.length = E.blockSize ∧ y.length = E.blockSize ∧
      E.input d x = .ok h.iengine ∧ E.input d y = .ok h.oengine := by
  rw [hmac_new_text] at hn
  cases hm : Hmac.new c E key with
  | error f => rw [hm] at hn; cases hn
  | ok m =>
    rw [hm] at hn
    cases hn
    unfold Hmac.new at hm
    obtain ⟨_, -, hm⟩ := ok_of_bind hm
    obtain ⟨d, hd, hm⟩ := ok_of_bind hm
    obtain ⟨d', hd', hm⟩ := ok_of_bind hm
    rw [hd] at hd'
    cases hd'
    split at hm
    · obtain ⟨k, -, hm⟩ := ok_of_bind hm
      exact hmac_pads hd hm
    · exact hmac_pads hd hm

/-- `input` of HMAC is `input` of the inner engine. -/
theorem hmac_inputs_inner (c : Cfg) (E : HashEngine) : ∀ (ds : List (List Byte)) (h : Source.Hmac.Engine E),
    (Source.Hmac.engine c E).inputs h ds = (E.inputs h.iengine ds).map fun i => ⟨i, h.oengine⟩
  | [], _ => rfl
  | d :: ds, h => by
      show (((E.input h.iengine d) >>= fun i => pure (⟨i, h.oengine⟩ : Source.Hmac.Engine E)) >>= fun e =>
        (Source.Hmac.engine c E).inputs e ds) = (E.input h.iengine d >>= fun i => E.inputs i ds).map _
      cases E.input h.iengine d with
      | error f => rfl
      | ok i => exact hmac_inputs_inner c E ds ⟨i, h.oengine⟩

theorem inputs_cons {E : HashEngine} {x : List Byte} {e e1 e2 : E.State} {ds : List (List Byte)}
    (h1 : E.input e x = .ok e1) (h2 : E.inputs e1 ds = .ok e2) : E.inputs e (x :: ds) = .ok e2 := by
  show (E.input e x >>= fun e => E.inputs e ds) = _
  rw [h1]
  exact h2

/-- C100: over an engine that counts what it was input, an HMAC engine counts the block of the key and what
it was input. -/
theorem C100_count {c : Cfg} {E : HashEngine} {N : Nat} (C : Counts E N) {key : List Byte} {h h' : Source.Hmac.Engine E}
    (hn : Source.Hmac.Engine.new c E key = .ok h) (ds : List (List Byte))
    (hin : (Source.Hmac.engine c E).inputs h ds = .ok h') (hN : E.blockSize + ds.flatten.length ≤ N) :
    (Source.Hmac.engine c E).nBytesHashed h' = E.blockSize + ds.flatten.length := by
  obtain ⟨d, x, y, hd, hx, -, hi, -⟩ := hmac_new_shape hn
  rw [hmac_inputs_inner] at hin
  cases he : E.inputs h.iengine ds with
  | error f => rw [he] at hin; cases hin
  | ok i =>
    rw [he] at hin
    cases hin
    have := C (x :: ds) d i (by rw [List.flatten_cons, List.length_append, hx]; exact hN) hd
      (inputs_cons hi he)
    rw [List.flatten_cons, List.length_append, hx] at this
    exact this

/-- No digest of the engine is too long for a slice. -/
def DigestsFit (c : Cfg) (E : HashEngine) : Prop := ∀ e d, E.finalize e = .ok d → d.length < c.usizeMod

/-- C100: over an engine that counts and can be resumed after whole blocks, an HMAC engine can be resumed
directly after it was made of a key: with its midstate and count no caller can tell the two apart. -/
theorem C100_resume {c : Cfg} {E : HashEngine} {N : Nat} (C : Counts E N) (R : ResumesAtBlocks c E N)
    (hD : DigestsFit c E) (hB : E.blockSize ≤ N) {key : List Byte} {h : Source.Hmac.Engine E}
    (hn : Source.Hmac.Engine.new c E key = .ok h) :
    ∃ μ h', (Source.Hmac.engine c E).midstate h = .ok μ ∧
      (Source.Hmac.engine c E).fromMidstate μ ((Source.Hmac.engine c E).nBytesHashed h) = .ok h' ∧
      ObsEq c (Source.Hmac.engine c E) h h' := by
  have hcount := C100_count C hn [] rfl (by simpa using hB)
  obtain ⟨d, x, y, hd, hx, hy, hi, ho⟩ := hmac_new_shape hn
  obtain ⟨μi, i', mi, fi, oi⟩ := R [x] d h.iengine (by simpa [hx] using hB) (by simp [hx]) hd
    (inputs_cons hi rfl)
  obtain ⟨μo, o', mo, fo, oo⟩ := R [y] d h.oengine (by simpa [hy] using hB) (by simp [hy]) hd
    (inputs_cons ho rfl)
  refine ⟨⟨μi, μo⟩, ⟨i', o'⟩, ?_, ?_, ?_⟩
  · show (E.midstate h.iengine >>= fun i => E.midstate h.oengine >>= fun o =>
      pure (⟨i, o⟩ : Source.Hmac.Midstate E)) = _
    rw [mi, mo]
    rfl
  · rw [hcount]
    show (E.fromMidstate μi (E.blockSize + [].flatten.length) >>= fun i =>
      E.fromMidstate μo (E.blockSize + [].flatten.length) >>= fun o =>
        pure (⟨i, o⟩ : Source.Hmac.Engine E)) = _
    rw [show E.blockSize + ([] : List (List Byte)).flatten.length = [x].flatten.length by simp [hx], fi,
      show [x].flatten.length = [y].flatten.length by simp [hx, hy], fo]
    rfl
  · exact C97_hmac c E h.iengine i' h.oengine o' oi oo fun ds _ e d _ hf => hD e d hf

/-- C100: what `from_midstate` gives after more input: the inner engine is resumed, but the outer one is made
with the count of the inner one. So over engines whose midstate carries the count, an HMAC engine can be resumed
after any whole blocks. -/
theorem C100_resume_later {c : Cfg} {E : HashEngine} {N : Nat} (C : Counts E N) (R : ResumesAtBlocks c E N)
    (hD : DigestsFit c E) {key : List Byte}
    {h h1 : Source.Hmac.Engine E} (hn : Source.Hmac.Engine.new c E key = .ok h)
    (ds : List (List Byte)) (hin : (Source.Hmac.engine c E).inputs h ds = .ok h1)
    (hN : E.blockSize + ds.flatten.length ≤ N) (hdvd : E.blockSize ∣ ds.flatten.length) :
    ∃ μ i', (Source.Hmac.engine c E).midstate h1 = .ok μ ∧ ObsEq c E h1.iengine i' ∧
      E.midstate h.oengine = .ok μ.outer ∧
      (Source.Hmac.engine c E).fromMidstate μ ((Source.Hmac.engine c E).nBytesHashed h1) =
        (E.fromMidstate μ.outer (E.blockSize + ds.flatten.length)).map (fun o => ⟨i', o⟩) ∧
      ((∀ n, E.fromMidstate μ.outer n = E.fromMidstate μ.outer E.blockSize) →
        ∃ h', (Source.Hmac.engine c E).fromMidstate μ ((Source.Hmac.engine c E).nBytesHashed h1) = .ok h' ∧
          ObsEq c (Source.Hmac.engine c E) h1 h') := by
  have hcount := C100_count C hn ds hin hN
  obtain ⟨d, x, y, hd, hx, hy, hi, ho⟩ := hmac_new_shape hn
  rw [hmac_inputs_inner] at hin
  cases he : E.inputs h.iengine ds with
  | error f => rw [he] at hin; cases hin
  | ok i =>
    rw [he] at hin
    cases hin
    have hlen : (x :: ds).flatten.length = E.blockSize + ds.flatten.length := by
      rw [List.flatten_cons, List.length_append, hx]
    obtain ⟨μi, i', mi, fi, oi⟩ := R (x :: ds) d i (by rw [hlen]; exact hN)
      (by rw [hlen]; exact Nat.dvd_add (Nat.dvd_refl _) hdvd) hd (inputs_cons hi he)
    obtain ⟨μo, o', mo, fo, oo⟩ := R [y] d h.oengine (by simp [hy]; omega) (by simp [hy]) hd
      (inputs_cons ho rfl)
    have hfrom : (Source.Hmac.engine c E).fromMidstate ⟨μi, μo⟩ (E.blockSize + ds.flatten.length) =
        (E.fromMidstate μo (E.blockSize + ds.flatten.length)).map (fun o => ⟨i', o⟩) := by
      show (E.fromMidstate μi (E.blockSize + ds.flatten.length) >>= fun i =>
        E.fromMidstate μo (E.blockSize + ds.flatten.length) >>= fun o =>
        pure (⟨i, o⟩ : Source.Hmac.Engine E)) = _
      rw [← hlen, fi, hlen]
      show (E.fromMidstate μo (E.blockSize + ds.flatten.length) >>= fun o =>
        pure (⟨i', o⟩ : Source.Hmac.Engine E)) = _
      cases E.fromMidstate μo (E.blockSize + ds.flatten.length) <;> rfl
    refine ⟨⟨μi, μo⟩, i', ?_, oi, mo, ?_, fun hall => ⟨⟨i', o'⟩, ?_, ?_⟩⟩
    · show (E.midstate i >>= fun i => E.midstate h.oengine >>= fun o =>
      pure (⟨i, o⟩ : Source.Hmac.Midstate E)) = _
      rw [mi, mo]
      rfl
    · rw [hcount]; exact hfrom
    · rw [hcount, hfrom, hall, show E.blockSize = [y].flatten.length by simp [hy], fo]
      rfl
    · exact C97_hmac c E i i' h.oengine o' oi oo fun ds _ e d _ hf => hD e d hf

/-! ## The hypotheses hold of engines, and what they do not give -/

theorem countEngine_inputs (k : Bool) (B D : Nat) : ∀ (ds : List (List Byte)) (e : Nat × List Byte),
    (countEngine k B D).inputs e ds = .ok (e.1 + ds.flatten.length, e.2 ++ ds.flatten)
  | [], e => by
      show Except.ok e = Except.ok (e.1 + 0, e.2 ++ [])
      rw [List.append_nil, Nat.add_zero]
  | d :: ds, e => by
      have := countEngine_inputs k B D ds (e.1 + d.length, e.2 ++ d)
      show (countEngine k B D).inputs (e.1 + d.length, e.2 ++ d) ds = _
      rw [this, List.flatten_cons, List.length_append, List.append_assoc, Nat.add_assoc]

theorem countEngine_counts (k : Bool) (B D N : Nat) : Counts (countEngine k B D) N := by
  intro ds e0 e _ h0 h
  cases h0
  rw [countEngine_inputs] at h
  cases h
  exact Nat.zero_add _

theorem countEngine_resumes (c : Cfg) (k : Bool) (B D N : Nat) : ResumesAtBlocks c (countEngine k B D) N := by
  intro ds e0 e _ _ h0 h
  cases h0
  rw [countEngine_inputs] at h
  cases h
  refine ⟨_, _, rfl, rfl, ?_⟩
  cases k
  · show ObsEq c (countEngine false B D) (0 + ds.flatten.length, [] ++ ds.flatten) (ds.flatten.length, [] ++ ds.flatten)
    rw [Nat.zero_add]
    exact fun _ _ => rfl
  · exact fun _ _ => rfl

theorem countEngine_fits {c : Cfg} (k : Bool) (B : Nat) {D : Nat} (hD : D < c.usizeMod) :
    DigestsFit c (countEngine k B D) := by
  rintro e d h
  cases h
  rw [List.length_replicate]
  exact hD

/-- C100: the engine whose midstate carries the count is resumed after any whole blocks. -/
theorem C100_carries {c : Cfg} {B D : Nat} (hD : D < c.usizeMod) {key : List Byte}
    {h h1 : Source.Hmac.Engine (countEngine true B D)}
    (hn : Source.Hmac.Engine.new c (countEngine true B D) key = .ok h) (ds : List (List Byte))
    (hin : (Source.Hmac.engine c (countEngine true B D)).inputs h ds = .ok h1) (hdvd : B ∣ ds.flatten.length) :
    ∃ μ h', (Source.Hmac.engine c (countEngine true B D)).midstate h1 = .ok μ ∧
      (Source.Hmac.engine c (countEngine true B D)).fromMidstate μ (B + ds.flatten.length) = .ok h' ∧
      ObsEq c (Source.Hmac.engine c (countEngine true B D)) h1 h' := by
  obtain ⟨μ, i', h1', -, -, -, h5⟩ := C100_resume_later (countEngine_counts true B D (B + ds.flatten.length))
    (countEngine_resumes c true B D _) (countEngine_fits true B hD) hn ds hin (Nat.le_refl _) hdvd
  obtain ⟨h', h6, h7⟩ := h5 fun _ => rfl
  have := C100_count (countEngine_counts true B D (B + ds.flatten.length)) hn ds hin (Nat.le_refl _)
  rw [this] at h6
  exact ⟨μ, h', h1', h6, h7⟩

set_option maxRecDepth 4000 in
/-- C100: an engine that counts and can itself be resumed is not enough after more input: with a block of four
bytes and another block input, the resumed HMAC engine gives another digest. -/
theorem C100_not_later (c : Cfg) :
    Counts (countEngine false 4 1) 8 ∧ ResumesAtBlocks c (countEngine false 4 1) 8 ∧
    ∃ (h h1 h2 : Source.Hmac.Engine (countEngine false 4 1)) (μ : Source.Hmac.Midstate (countEngine false 4 1)),
      Source.Hmac.Engine.new c (countEngine false 4 1) [1, 2] = .ok h ∧
      (Source.Hmac.engine c (countEngine false 4 1)).inputs h [[1, 2, 3, 4]] = .ok h1 ∧
      (Source.Hmac.engine c (countEngine false 4 1)).midstate h1 = .ok μ ∧
      (Source.Hmac.engine c (countEngine false 4 1)).fromMidstate μ 8 = .ok h2 ∧
      (Source.Hmac.engine c (countEngine false 4 1)).finalize h1 ≠
        (Source.Hmac.engine c (countEngine false 4 1)).finalize h2 := by
  refine ⟨countEngine_counts _ _ _ _, countEngine_resumes _ _ _ _ _,
    ⟨(4, [0x37, 0x34, 0x36, 0x36]), (4, [0x5d, 0x5e, 0x5c, 0x5c])⟩,
    ⟨(8, [0x37, 0x34, 0x36, 0x36, 1, 2, 3, 4]), (4, [0x5d, 0x5e, 0x5c, 0x5c])⟩,
    ⟨(8, [0x37, 0x34, 0x36, 0x36, 1, 2, 3, 4]), (8, [0x5d, 0x5e, 0x5c, 0x5c])⟩,
    ⟨(0, [0x37, 0x34, 0x36, 0x36, 1, 2, 3, 4]), (0, [0x5d, 0x5e, 0x5c, 0x5c])⟩, ?_, rfl, rfl, rfl, ?_⟩
  · rw [hmac_new_text]
    have h : debugAssert c ((countEngine false 4 1).blockSize ≤ 128) = .ok () := by
      show (if (c.debugAssertions && !true) = true then _ else _) = _
      rw [Bool.not_true, Bool.and_false]
      rfl
    unfold Hmac.new
    rw [h]
    rfl
  · intro h
    exact absurd (Except.ok.inj h) (by decide +kernel)

end Chf.Props
