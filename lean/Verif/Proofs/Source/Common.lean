import Verif.Source.Prelude
import Verif.Proofs.BlockEngine

/-!
# Lemmas about the constructs of the translated source

The left-hand sides are what `tools/rust2lean.py` writes, the right-hand sides what the model uses.
-/

namespace Chf.Rs

theorem ok_bind {α β : Type} (a : α) (f : α → Res β) : (Except.ok a >>= f) = f a := rfl

theorem pure_eq {α : Type} (a : α) : (pure a : Res α) = .ok a := rfl

theorem error_bind {α β : Type} (e : Fault) (f : α → Res β) :
    ((Except.error e : Res α) >>= f) = .error e := rfl

theorem bind_ok' {α : Type} (x : Res α) : (x >>= fun a => Except.ok a) = x := by cases x <;> rfl

theorem map_eq_bind {α β : Type} (f : α → β) (x : Res α) :
    x.map f = x >>= fun a => Except.ok (f a) := by cases x <;> rfl

theorem map_bind {α β γ : Type} (f : β → γ) (x : Res α) (g : α → Res β) :
    (x >>= g).map f = x >>= fun a => (g a).map f := by cases x <;> rfl

theorem map_map' {α β γ : Type} (f : α → β) (g : β → γ) (x : Res α) :
    (x.map f).map g = x.map (fun a => g (f a)) := by cases x <;> rfl

theorem map_bind_left {α β γ : Type} (f : α → β) (x : Res α) (g : β → Res γ) :
    (x.map f >>= g) = x >>= fun a => g (f a) := by cases x <;> rfl

theorem map_ok {α β : Type} (f : α → β) (a : α) : (Except.ok a : Res α).map f = .ok (f a) := rfl

theorem map_error {α β : Type} (f : α → β) (e : Fault) :
    (Except.error e : Res α).map f = .error e := rfl

theorem bind_congr' {α β : Type} {x : Res α} {f g : α → Res β} (h : ∀ a, x = .ok a → f a = g a) :
    (x >>= f) = (x >>= g) := by
  cases x with
  | error e => rfl
  | ok a => exact h a rfl

theorem usizeMod_ge {c : Cfg} (hc : c.Valid) : 65536 ≤ c.usizeMod := by
  unfold Cfg.usizeMod
  rcases hc with h | h | h <;> rw [h] <;> decide

/-! ## Arithmetic that does not wrap -/

theorem addUsize_ok {c : Cfg} {a b : Nat} (h : a + b < c.usizeMod) : addUsize c a b = .ok (a + b) := by
  unfold addUsize; rw [if_pos h]
theorem mulUsize_ok {c : Cfg} {a b : Nat} (h : a * b < c.usizeMod) : mulUsize c a b = .ok (a * b) := by
  unfold mulUsize; rw [if_pos h]
theorem subUsize_ok {c : Cfg} {a b : Nat} (h : b ≤ a) : subUsize c a b = .ok (a - b) := by
  unfold subUsize; rw [if_pos h]

/-! ## Loops -/

theorem foldlM_sim {α β γ δ : Type} (f : α → γ → Res α) (g : β → δ → Res β) (i : β → α) (k : δ → γ)
    (h : ∀ b d, f (i b) (k d) = (g b d).map i) (ds : List δ) (b : β) :
    (ds.map k).foldlM f (i b) = (ds.foldlM g b).map i := by
  induction ds generalizing b with
  | nil => rfl
  | cons d ds ih =>
    simp only [List.map_cons, List.foldlM_cons, h]
    cases g b d with
    | error x => rfl
    | ok b' => exact ih b'

theorem zipMut_eq_fillZip {α β : Type} (g : β → Res α) (xs : List α) (ys : List β) :
    zipMut xs ys (fun _ y => g y) = fillZip g xs ys := by
  induction xs generalizing ys with
  | nil => cases ys <;> rfl
  | cons x xs ih =>
    cases ys with
    | nil => rfl
    | cons y ys =>
      show (do let v ← g y; let rest ← zipMut xs ys _; pure (v :: rest)) = _
      rw [ih]; rfl

theorem zipChunksMut_eq_storeZip {α : Type} (k : Nat) (enc : α → List Byte) (vals : List α)
    (ret : List Byte) :
    zipChunksMut k vals ret (fun v chunk => copyFromSlice chunk (enc v)) =
      storeZip k enc vals ret := by
  induction vals generalizing ret with
  | nil => rfl
  | cons v vs ih =>
    rw [zipChunksMut, storeZip]
    split
    · rfl
    · rename_i h
      rw [copyFromSlice, List.length_take, Nat.min_eq_left (by omega)]
      split
      · rw [ok_bind, ih]
      · rfl

theorem fillZip_length {α β : Type} (g : β → Res α) (xs : List α) (ys : List β) (l : List α)
    (h : fillZip g xs ys = .ok l) : l.length = xs.length := by
  induction xs generalizing ys l with
  | nil => cases ys <;> (injection h with h; rw [← h])
  | cons x xs ih =>
    cases ys with
    | nil => injection h with h; rw [← h]
    | cons y ys =>
      rw [fillZip] at h
      cases hg : g y with
      | error e => rw [hg] at h; cases h
      | ok v =>
        rw [hg, ok_bind] at h
        cases hr : fillZip g xs ys with
        | error e => rw [hr] at h; cases h
        | ok r =>
          rw [hr] at h
          injection h with h
          rw [← h, List.length_cons, ih ys r hr, List.length_cons]

theorem tryInto_be32 (s : List Byte) :
    (do let x ← tryInto 4 s; pure (fromBeBytes 32 x) : Res (BitVec 32)) = fromBe32 s := by
  unfold tryInto fromBe32 fromBeBytes
  split <;> rfl

theorem tryInto_le32 (s : List Byte) :
    (do let x ← tryInto 4 s; pure (fromLeBytes 32 x) : Res (BitVec 32)) = fromLe32 s := by
  unfold tryInto fromLe32 fromLeBytes
  split <;> rfl

theorem tryInto_be64 (s : List Byte) :
    (do let x ← tryInto 8 s; pure (fromBeBytes 64 x) : Res (BitVec 64)) = fromBe64 s := by
  unfold tryInto fromBe64 fromBeBytes
  split <;> rfl

/-- Copying over a whole slice is copying into the range of all its elements. -/
theorem copyFromSlice_full {α : Type} (dst src : List α) :
    copyFromSlice dst src = copyIntoRange dst 0 dst.length src := by
  unfold copyFromSlice copyIntoRange
  split
  · rename_i h; simp [h]
  · rename_i h
    have : ¬ dst.length - 0 = src.length := by omega
    simp only [Nat.zero_le, Nat.le_refl, and_self]
    simp [h]

theorem toBeBytes32 (x : BitVec 32) : toBeBytes x = be32 x := rfl
theorem toLeBytes32 (x : BitVec 32) : toLeBytes x = le32 x := rfl
theorem toBeBytes64 (x : BitVec 64) : toBeBytes x = be64 x := rfl
theorem toLeBytes64 (x : BitVec 64) : toLeBytes x = le64 x := rfl

theorem mulU64_eq (c : Cfg) (a b : BitVec 64) : mulU c a b = mulU64 c a b := rfl
theorem shlU64_eq (c : Cfg) (a : BitVec 64) (n : Nat) : shlU c a n = shlU64 c a n := rfl

theorem whileR_succ {σ : Type} (n : Nat) (cond : σ → Res Bool) (body : σ → Res σ) (s : σ) :
    whileR (n + 1) cond body s =
      cond s >>= fun b => if b then body s >>= whileR n cond body else .ok s := by
  rw [whileR]
  cases cond s with
  | error e => rfl
  | ok b =>
    cases b with
    | false => rfl
    | true => cases body s <;> rfl

/-- A `while` loop over a pair whose second component is the rest of the input. -/
theorem whileR_inputLoop {H S : Type} (c : Cfg) (ops : BlockOps H) (hB : 0 < ops.B)
    (emb : BlockEngine H → S) (body : S × List Byte → Res (S × List Byte))
    (hbody : ∀ e b bs, body (emb e, b :: bs) = (do
      let inp := b :: bs
      let bufIdx := e.length % ops.B
      let remLen ← subUsize c ops.B bufIdx
      let writeLen := min remLen inp.length
      let endIdx ← addUsize c bufIdx writeLen
      let src ← sliceTo inp writeLen
      let buffer ← copyIntoRange e.buffer bufIdx endIdx src
      let length ← addUsize c e.length writeLen
      let e : BlockEngine H := { e with buffer := buffer, length := length }
      let e ← if length % ops.B = 0 then BlockEngine.processBlock ops e else pure e
      let inp ← sliceFrom inp writeLen
      pure (emb e, inp)))
    (m : Nat) (fuel : Nat) (e : BlockEngine H) (inp : List Byte) (hm : inp.length ≤ m)
    (hf : m < fuel) :
    whileR fuel (fun p => pure (!p.2.isEmpty)) body (emb e, inp) =
      (BlockEngine.inputLoop c ops m e inp).map fun e => (emb e, []) := by
  induction m generalizing fuel e inp with
  | zero =>
    have : inp = [] := List.eq_nil_of_length_eq_zero (by omega)
    subst this
    obtain ⟨f, rfl⟩ : ∃ f, fuel = f + 1 := ⟨fuel - 1, by omega⟩
    rfl
  | succ m ih =>
    obtain ⟨f, rfl⟩ : ∃ f, fuel = f + 1 := ⟨fuel - 1, by omega⟩
    cases inp with
    | nil => rfl
    | cons b bs =>
      rw [whileR_succ, BlockEngine.inputLoop]
      simp only [pure_eq, List.isEmpty_cons, Bool.not_false, ok_bind, if_true]
      rw [hbody]
      have hrem : subUsize c ops.B (e.length % ops.B) = .ok (ops.B - e.length % ops.B) := by
        unfold subUsize
        rw [if_pos (Nat.le_of_lt (Nat.mod_lt _ hB))]
      have hpos : 0 < min (ops.B - e.length % ops.B) (b :: bs).length := by
        have := Nat.mod_lt e.length hB
        simp only [List.length_cons]
        omega
      simp only [hrem, ok_bind]
      generalize min (ops.B - e.length % ops.B) (b :: bs).length = wl at hpos
      cases addUsize c (e.length % ops.B) wl with
      | error x => rfl
      | ok endIdx =>
      simp only [ok_bind]
      cases sliceTo (b :: bs) wl with
      | error x => rfl
      | ok src =>
      simp only [ok_bind]
      cases copyIntoRange e.buffer (e.length % ops.B) endIdx src with
      | error x => rfl
      | ok buffer =>
      simp only [ok_bind]
      cases addUsize c e.length wl with
      | error x => rfl
      | ok length =>
      simp only [ok_bind]
      have key : ∀ e' : BlockEngine H,
          ((do let inp ← sliceFrom (b :: bs) wl; Except.ok (emb e', inp) : Res (S × List Byte)) >>=
            whileR f (fun p => Except.ok !p.snd.isEmpty) body) =
          (do let inp ← sliceFrom (b :: bs) wl; BlockEngine.inputLoop c ops m e' inp).map
            fun e => (emb e, []) := by
        intro e'
        by_cases hle : wl ≤ (b :: bs).length
        · have hs : sliceFrom (b :: bs) wl = .ok ((b :: bs).drop wl) := by
            unfold sliceFrom; rw [if_pos hle]
          simp only [hs, ok_bind]
          apply ih
          · simp only [List.length_cons] at hm
            simp only [List.length_drop, List.length_cons]
            omega
          · omega
        · have hs : sliceFrom (b :: bs) wl = .error .sliceIndex := by
            unfold sliceFrom; rw [if_neg hle]
          simp only [hs]
          rfl
      by_cases hz : length % ops.B = 0
      · simp only [hz, if_true, pure_eq]
        cases BlockEngine.processBlock ops { e with buffer := buffer, length := length } with
        | error x => rfl
        | ok e' => simp only [ok_bind]; exact key e'
      · simp only [hz, if_false, pure_eq, ok_bind]
        exact key _

/-- The body of `input` for an engine type with a field for each field of `BlockEngine`. -/
theorem input_body_eq {H S : Type} (c : Cfg) (ops : BlockOps H) (hB : 0 < ops.B)
    (emb : BlockEngine H → S) (proc : S → Res S)
    (hproc : ∀ e, proc (emb e) = (BlockEngine.processBlock ops e).map emb)
    (e : BlockEngine H) (b : Byte) (bs : List Byte) :
    (do
      let rem_len ← subUsize c ops.B (e.length % ops.B)
      let x_2 ← addUsize c (e.length % ops.B) (min rem_len (b :: bs).length)
      checkRange e.buffer (e.length % ops.B) x_2
      let x_3 ← sliceTo (b :: bs) (min rem_len (b :: bs).length)
      let x_4 ← copyIntoRange e.buffer (e.length % ops.B) x_2 x_3
      let x_5 ← addUsize c e.length (min rem_len (b :: bs).length)
      if (x_5 % ops.B == 0) = true then do
        let self ← proc (emb { buffer := x_4, h := e.h, length := x_5 })
        let self ← pure self
        let inp ← sliceFrom (b :: bs) (min rem_len (b :: bs).length)
        pure (self, inp)
      else do
        let self ← pure (emb { buffer := x_4, h := e.h, length := x_5 })
        let inp ← sliceFrom (b :: bs) (min rem_len (b :: bs).length)
        (pure (self, inp) : Res (S × List Byte))) =
    (do
      let inp := b :: bs
      let bufIdx := e.length % ops.B
      let remLen ← subUsize c ops.B bufIdx
      let writeLen := min remLen inp.length
      let endIdx ← addUsize c bufIdx writeLen
      let src ← sliceTo inp writeLen
      let buffer ← copyIntoRange e.buffer bufIdx endIdx src
      let length ← addUsize c e.length writeLen
      let e : BlockEngine H := { e with buffer := buffer, length := length }
      let e ← if length % ops.B = 0 then BlockEngine.processBlock ops e else pure e
      let inp ← sliceFrom inp writeLen
      pure (emb e, inp)) := by
  simp only
  rw [subUsize, if_pos (Nat.le_of_lt (Nat.mod_lt _ hB))]
  simp only [ok_bind]
  refine bind_congr' fun j _ => ?_
  have hle : min (ops.B - e.length % ops.B) (b :: bs).length ≤ (b :: bs).length :=
    Nat.min_le_right _ _
  generalize min (ops.B - e.length % ops.B) (b :: bs).length = wl at hle
  simp only [sliceTo, if_pos hle, ok_bind, checkRange, copyIntoRange]
  split
  · simp only [ok_bind]
    split
    · simp only [ok_bind]
      refine bind_congr' fun l _ => ?_
      by_cases hz : l % ops.B = 0
      · simp only [hz, beq_self_eq_true, if_true, pure_bind]
        rw [hproc, map_bind_left]
      · simp only [beq_eq_false_iff_ne.2 hz, hz, Bool.false_eq_true, if_false, pure_bind]
    · rfl
  · rfl

/-- The body of `finalize`.  `pre` is what is input between the zeroes and the length. -/
theorem finalize_eq {H S ρ : Type} (c : Cfg) (hc : c.Valid) (ops : BlockOps H)
    (emb : BlockEngine H → S) (inputS : S → List Byte → Res S) (len : S → Nat)
    (hlen : ∀ e, len (emb e) = e.length)
    (hin : ∀ e inp, inp.length < c.usizeMod →
      inputS (emb e) inp = (BlockEngine.input c ops e inp).map emb)
    (mid : S → Res ρ) (zlen : Nat) (hz : zlen < 65536) (pre : S → Res S)
    (preM : List (List Byte)) (hpre : ∀ e, pre (emb e) = (preM.foldlM (BlockEngine.input c ops) e).map emb)
    (enc : BitVec 64 → List Byte) (henc : ∀ x, (enc x).length = 8) (e0 : BlockEngine H) :
    (do
      let self ← inputS (emb e0) [0x80#8]
      let self ←
        if decide ((len self % ops.B) > zlen) then do
          let self ← inputS self (List.replicate zlen 0#8)
          pure self
        else do
          pure self
      let pad_length ← subUsize c zlen (len self % ops.B)
      let x_4 ← sliceTo (List.replicate zlen 0#8) pad_length
      let self ← inputS self x_4
      debugAssert c ((len self % ops.B) == zlen)
      let self ← pre self
      let x_6 ← mulU c 8#64 (BitVec.ofNat 64 (len (emb e0)))
      let self ← inputS self (enc x_6)
      debugAssert c ((len self % ops.B) == 0)
      mid self) =
    (do
      let e ← BlockEngine.finalizeBlocks c ops zlen preM enc e0
      mid (emb e)) := by
  have hM := usizeMod_ge hc
  have tail : ∀ e2 : BlockEngine H,
      (do
        let pad_length ← subUsize c zlen (len (emb e2) % ops.B)
        let x_4 ← sliceTo (List.replicate zlen 0#8) pad_length
        let self ← inputS (emb e2) x_4
        debugAssert c ((len self % ops.B) == zlen)
        let self ← pre self
        let x_6 ← mulU c 8#64 (BitVec.ofNat 64 (len (emb e0)))
        let self ← inputS self (enc x_6)
        debugAssert c ((len self % ops.B) == 0)
        mid self) =
      (do
        let padLength ← subUsize c zlen (e2.length % ops.B)
        let z ← sliceTo (List.replicate zlen 0#8) padLength
        let e ← BlockEngine.input c ops e2 z
        debugAssert c (e.length % ops.B == zlen)
        let e' ← preM.foldlM (BlockEngine.input c ops) e
        let bits ← mulU64 c 8 (asU64 e0.length)
        let e ← BlockEngine.input c ops e' (enc bits)
        debugAssert c (e.length % ops.B == 0)
        mid (emb e)) := by
    intro e2
    rw [hlen]
    refine bind_congr' fun pad _ => bind_congr' fun z hz' => ?_
    have hzl : z.length < c.usizeMod := by
      unfold sliceTo at hz'
      split at hz'
      · injection hz' with hz'
        rw [← hz', List.length_take, List.length_replicate]
        omega
      · cases hz'
    rw [hin _ _ hzl, map_bind_left]
    refine bind_congr' fun e3 _ => ?_
    rw [hlen]
    refine bind_congr' fun _ _ => ?_
    rw [hpre, map_bind_left]
    refine bind_congr' fun e4 _ => ?_
    rw [hlen]
    refine bind_congr' fun bits _ => ?_
    rw [hin _ _ (by rw [henc]; omega), map_bind_left]
    refine bind_congr' fun e5 _ => ?_
    rw [hlen]
  unfold BlockEngine.finalizeBlocks
  simp only [bind_assoc, List.length_replicate]
  rw [hin _ _ (by simp; omega), map_bind_left]
  refine bind_congr' fun e1 _ => ?_
  rw [hlen]
  by_cases hgt : e1.length % ops.B > zlen
  · simp only [hgt, decide_true, if_true, pure_bind, bind_assoc]
    rw [hin _ _ (by simp; omega), map_bind_left]
    exact bind_congr' fun e2 _ => tail e2
  · simp only [hgt, decide_false, Bool.false_eq_true, if_false, pure_bind, bind_assoc]
    exact tail e1

end Chf.Rs
