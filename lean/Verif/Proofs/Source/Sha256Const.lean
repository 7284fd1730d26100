import Verif.Proofs.Source.Sha256

/-!
# The translation of `const_hash` and `hash_tag` against the model
-/

namespace Chf.Source.Sha256
open Chf Chf.Rs

/-- One iteration of the main loop, for either version of the rounds. -/
def bodyText (cfg : Cfg) (lines : List (Vars 32 → Res (Vars 32))) (bytes : List Byte) (finalize : Bool)
    (num_chunks : Nat) : List (BitVec 32) × Nat → Res (Flow (List (BitVec 32) × Nat) (List (BitVec 32) × Nat)) :=
  fun (state, chunk) => do
  let x_4 ←
    if !finalize then do
      let x_3 ← addUsize cfg chunk 1
      pure (x_3 == num_chunks)
    else pure false
  let x_5 ←
    if x_4 then do
      pure (Rs.Flow.ret (state, chunk))
    else do
      pure (Rs.Flow.next ())
  match x_5 with
  | Rs.Flow.ret r => pure (Rs.Flow.ret r)
  | Rs.Flow.next _ => do
    let x_6 ← mulUsize cfg chunk 64
    let x_7 ← addUsize cfg x_6 64
    let x_30 ←
      if decide (x_7 ≤ bytes.length) then do
        let x_8 ← mulUsize cfg chunk 64
        let x_9 ← Midstate.copy_w cfg bytes x_8
        pure x_9
      else do
        let buf : List Byte := List.replicate 64 0#8
        let i : Nat := 0
        let offset ← mulUsize cfg chunk 64
        let (buf, i) ← Rs.whileR cfg.usizeMod
          (fun (_, i) => do
            let x_11 ← addUsize cfg offset i
            pure (decide (x_11 < bytes.length)))
          (fun (buf, i) => do
            let x_12 ← addUsize cfg offset i
            let x_13 ← index bytes x_12
            let buf ← indexSet buf i x_13
            let i ← addUsize cfg i 1
            pure (buf, i)) (buf, i)
        let x_17 ←
          if !(decide ((bytes.length % 64) ≤ (64 - 9))) then do
            let x_16 ← addUsize cfg chunk 2
            pure (x_16 == num_chunks)
          else pure true
        let buf ←
          if x_17 then do
            let buf ← indexSet buf i 0x80#8
            pure buf
          else do
            pure buf
        let x_19 ← addUsize cfg chunk 1
        let buf ←
          if x_19 == num_chunks then do
            let bit_len ← Rs.mulU cfg (BitVec.ofNat 64 bytes.length) 8#64
            let buf ← indexSet buf (64 - 8) (BitVec.setWidth 8 ((bit_len >>> 56) &&& 0xFF#64))
            let buf ← indexSet buf (64 - 7) (BitVec.setWidth 8 ((bit_len >>> 48) &&& 0xFF#64))
            let buf ← indexSet buf (64 - 6) (BitVec.setWidth 8 ((bit_len >>> 40) &&& 0xFF#64))
            let buf ← indexSet buf (64 - 5) (BitVec.setWidth 8 ((bit_len >>> 32) &&& 0xFF#64))
            let buf ← indexSet buf (64 - 4) (BitVec.setWidth 8 ((bit_len >>> 24) &&& 0xFF#64))
            let buf ← indexSet buf (64 - 3) (BitVec.setWidth 8 ((bit_len >>> 16) &&& 0xFF#64))
            let buf ← indexSet buf (64 - 2) (BitVec.setWidth 8 ((bit_len >>> 8) &&& 0xFF#64))
            let buf ← indexSet buf (64 - 1) (BitVec.setWidth 8 ((bit_len >>> 0) &&& 0xFF#64))
            pure buf
          else do
            pure buf
        let x_29 ← Midstate.copy_w cfg buf 0
        pure x_29
    let w : List (BitVec 32) := x_30
    let chunk ← addUsize cfg chunk 1
    let a ← index state 0
    let b ← index state 1
    let c ← index state 2
    let d ← index state 3
    let e ← index state 4
    let f ← index state 5
    let g ← index state 6
    let h ← index state 7
    let (_, a, b, c, d, e, f, g, h) ← Rs.runLines (lines) (w, a, b, c, d, e, f, g, h)
    let x_344 ← index state 0
    let state ← indexSet state 0 (x_344 + a)
    let x_346 ← index state 1
    let state ← indexSet state 1 (x_346 + b)
    let x_348 ← index state 2
    let state ← indexSet state 2 (x_348 + c)
    let x_350 ← index state 3
    let state ← indexSet state 3 (x_350 + d)
    let x_352 ← index state 4
    let state ← indexSet state 4 (x_352 + e)
    let x_354 ← index state 5
    let state ← indexSet state 5 (x_354 + f)
    let x_356 ← index state 6
    let state ← indexSet state 6 (x_356 + g)
    let x_358 ← index state 7
    let state ← indexSet state 7 (x_358 + h)
    pure (Rs.Flow.next (state, chunk))

/-- One iteration of the output loop. -/
def outText (cfg : Cfg) (state : List (BitVec 32)) : List Byte × Nat → Res (List Byte × Nat) :=
  fun (output, i) => do
  let x_360 ← addUsize cfg i 0
  let x_361 ← index state x_360
  let x_362 ← mulUsize cfg i 4
  let x_363 ← addUsize cfg x_362 0
  let output ← indexSet output x_363 (BitVec.setWidth 8 (x_361 >>> 24))
  let x_365 ← addUsize cfg i 0
  let x_366 ← index state x_365
  let x_367 ← mulUsize cfg i 4
  let x_368 ← addUsize cfg x_367 1
  let output ← indexSet output x_368 (BitVec.setWidth 8 (x_366 >>> 16))
  let x_370 ← addUsize cfg i 0
  let x_371 ← index state x_370
  let x_372 ← mulUsize cfg i 4
  let x_373 ← addUsize cfg x_372 2
  let output ← indexSet output x_373 (BitVec.setWidth 8 (x_371 >>> 8))
  let x_375 ← addUsize cfg i 0
  let x_376 ← index state x_375
  let x_377 ← mulUsize cfg i 4
  let x_378 ← addUsize cfg x_377 3
  let output ← indexSet output x_378 (BitVec.setWidth 8 (x_376 >>> 0))
  let i ← addUsize cfg i 1
  pure (output, i)

/-- `const_hash` for either version of the rounds. -/
def constText (cfg : Cfg) (lines : List (Vars 32 → Res (Vars 32))) (bytes : List Byte)
    (finalize : Bool) : Res Midstate := do
  let x_1 ← addUsize cfg bytes.length 9
  let x_2 ← addUsize cfg x_1 63
  let num_chunks : Nat := x_2 / 64
  let (state, _) ← Rs.whileBreak cfg.usizeMod (fun (_, chunk) => pure (decide (chunk < num_chunks)))
    (bodyText cfg lines bytes finalize num_chunks) 
    ([0x6a09e667#32, 0xbb67ae85#32, 0x3c6ef372#32, 0xa54ff53a#32, 0x510e527f#32, 0x9b05688c#32,
      0x1f83d9ab#32, 0x5be0cd19#32], 0)
  let (output, _) ← Rs.whileR cfg.usizeMod (fun (_, i) => pure (decide (i < 8))) (outText cfg state)
    (List.replicate 32 0#8, 0)
  pure ({ f0 := output } : Midstate)

theorem const_fast_text (cfg : Cfg) (bytes : List Byte) (finalize : Bool) :
    Midstate.const_hash_fast cfg bytes finalize =
      constText cfg (Midstate.const_hash_fast.lines1 cfg) bytes finalize := by
  unfold Midstate.const_hash_fast constText bodyText outText
  rfl

theorem const_small_text (cfg : Cfg) (bytes : List Byte) (finalize : Bool) :
    Midstate.const_hash_small cfg bytes finalize =
      constText cfg (Midstate.const_hash_small.lines1 cfg) bytes finalize := by
  unfold Midstate.const_hash_small constText bodyText outText
  rfl

theorem mapM_length {α β : Type} (g : α → Res β) (l : List α) (r : List β) (h : l.mapM g = .ok r) :
    r.length = l.length := by
  induction l generalizing r with
  | nil => cases h; rfl
  | cons x l ih =>
    rw [List.mapM_cons] at h
    cases h1 : g x with
    | error e => rw [h1] at h; cases h
    | ok y =>
      rw [h1, ok_bind] at h
      cases h2 : l.mapM g with
      | error e => rw [h2] at h; cases h
      | ok ys => rw [h2] at h; cases h; rw [List.length_cons, List.length_cons, ih ys h2]

/-- A counter loop that writes `w[0]`, `w[1]`, ... -/
theorem fillLoop {α : Type} (cfg : Cfg) (N : Nat) (hN : N < cfg.usizeMod) (g : Nat → Res α)
    (cond : List α × Nat → Res Bool) (body : List α × Nat → Res (List α × Nat))
    (hcond : ∀ w i, w.length = N → cond (w, i) = .ok (decide (i < N)))
    (hbody : ∀ w i, w.length = N → i < N → body (w, i) = (do
      let x ← g i
      let w ← indexSet w i x
      let i ← addUsize cfg i 1
      pure (w, i))) (r : List α) : ∀ (l : List α) (fuel : Nat), l.length + r.length = N →
      r.length < fuel →
      whileR fuel cond body (l ++ r, l.length) =
        ((List.range' l.length r.length).mapM g).map fun v => (l ++ v, N) := by
  induction r with
  | nil =>
    intro l fuel hl hf
    obtain ⟨n, rfl⟩ : ∃ n, fuel = n + 1 := ⟨fuel - 1, by omega⟩
    have hl' : l.length = N := by simpa using hl
    rw [whileR_succ, hcond _ _ (by rw [List.append_nil]; exact hl'), ok_bind, hl',
      show decide (N < N) = false from decide_eq_false (Nat.lt_irrefl N)]
    rfl
  | cons x r ih =>
    intro l fuel hl hf
    rw [List.length_cons] at hl hf
    obtain ⟨n, rfl⟩ : ∃ n, fuel = n + 1 := ⟨fuel - 1, by omega⟩
    have hw : (l ++ x :: r).length = N := by rw [List.length_append, List.length_cons]; exact hl
    rw [whileR_succ, hcond _ _ hw, ok_bind, show decide (l.length < N) = true from
      decide_eq_true (by omega), if_pos rfl, hbody _ _ hw (by omega), List.length_cons,
      List.range'_succ, List.mapM_cons]
    cases h1 : g l.length with
    | error e => rfl
    | ok y =>
      have hs : indexSet (l ++ x :: r) l.length y = .ok ((l ++ [y]) ++ r) := by
        unfold indexSet
        rw [if_pos (by omega), List.set_append_right _ _ (Nat.le_refl _), Nat.sub_self]
        simp
      have ih' := ih (l ++ [y]) n (by rw [List.length_append, List.length_singleton]; omega) (by omega)
      rw [List.length_append, List.length_singleton] at ih'
      rw [ok_bind, ok_bind, hs, ok_bind, addUsize_ok (by omega)]
      refine ih'.trans ?_
      cases (List.range' (l.length + 1) r.length).mapM g with
      | error e => rfl
      | ok v => exact congrArg (fun z => Except.ok (z, N)) (List.append_assoc ..)

theorem read_u32_eq (cfg : Cfg) (bytes : List Byte) (i : Nat) :
    Midstate.read_u32 cfg bytes i = Chf.Sha256.readU32 cfg bytes i := rfl

theorem copy_w_eq (cfg : Cfg) (hc : cfg.Valid) (bytes : List Byte) (i : Nat) :
    Midstate.copy_w cfg bytes i = Chf.Sha256.copyW cfg bytes i := by
  have hM := usizeMod_ge hc
  unfold Midstate.copy_w Chf.Sha256.copyW
  have h := fillLoop cfg 16 (by omega)
    (fun k => do Chf.Sha256.readU32 cfg bytes (← addUsize cfg i (← mulUsize cfg k 4)))
    (fun (_, i) => pure (decide (i < 16)))
    (fun (w, k) => do
      let x_1 ← mulUsize cfg k 4
      let x_2 ← addUsize cfg i x_1
      let x_3 ← Midstate.read_u32 cfg bytes x_2
      let w ← indexSet w k x_3
      let i ← addUsize cfg k 1
      pure (w, i)) (fun _ _ _ => rfl) (fun _ _ _ _ => by
        simp only [read_u32_eq, bind_assoc]) (List.replicate 16 0#32) [] cfg.usizeMod rfl
    (by rw [List.length_replicate]; omega)
  refine (congrArg (fun z => z >>= _) h).trans ?_
  rw [List.length_replicate, List.length_nil, ← List.range_eq_range', map_bind_left]
  exact bind_pure _

theorem copyTail_eq (cfg : Cfg) (bytes : List Byte) (offset : Nat)
    (hb : bytes.length < cfg.usizeMod) (k : Nat) : ∀ (fuel : Nat) (buf : List Byte) (i : Nat),
    offset + i < cfg.usizeMod → bytes.length ≤ offset + i + k → bytes.length ≤ offset + i + fuel →
    whileR (fuel + 1) (fun (_, i) => do
        let x_11 ← addUsize cfg offset i
        pure (decide (x_11 < bytes.length)))
      (fun (buf, i) => do
        let x_12 ← addUsize cfg offset i
        let x_13 ← index bytes x_12
        let buf ← indexSet buf i x_13
        let i ← addUsize cfg i 1
        pure (buf, i)) (buf, i) = Chf.Sha256.copyTail cfg bytes offset (k + 1) buf i := by
  induction k with
  | zero =>
    intro fuel buf i h0 h1 h2
    rw [whileR_succ, Chf.Sha256.copyTail]
    simp only [addUsize_ok h0, ok_bind, pure_eq]
    rw [if_neg (by simp; omega), if_neg (by omega)]
  | succ k ih =>
    intro fuel buf i h0 h1 h2
    rw [whileR_succ, Chf.Sha256.copyTail]
    simp only [addUsize_ok h0, ok_bind, pure_eq, decide_eq_true_eq]
    split
    · rename_i hlt
      obtain ⟨n, rfl⟩ : ∃ n, fuel = n + 1 := ⟨fuel - 1, by omega⟩
      rw [addUsize_ok (show i + 1 < cfg.usizeMod by omega)]
      simp only [bind_assoc, ok_bind]
      refine bind_congr' fun b _ => bind_congr' fun buf' _ => ?_
      exact ih n buf' (i + 1) (by omega) (by omega) (by omega)
    · rfl

/-- What follows the computation of a message window in an iteration. -/
theorem block_eq (cfg : Cfg) (lines : List (Vars 32 → Res (Vars 32)))
    (hl : LinesAre (Chf.Sha256.line cfg) lines Chf.Sha256.constLines) (w : List (BitVec 32))
    (hw : w.length = 16) (st : Arr8 (BitVec 32)) (chunk : Nat) :
    (do
      let a ← index st.toList 0
      let b ← index st.toList 1
      let c ← index st.toList 2
      let d ← index st.toList 3
      let e ← index st.toList 4
      let f ← index st.toList 5
      let g ← index st.toList 6
      let h ← index st.toList 7
      let x ← Rs.runLines lines (w, a, b, c, d, e, f, g, h)
      match x with
      | (_, a, b, c, d, e, f, g, h) => do
      let x_344 ← index st.toList 0
      let state ← indexSet st.toList 0 (x_344 + a)
      let x_346 ← index state 1
      let state ← indexSet state 1 (x_346 + b)
      let x_348 ← index state 2
      let state ← indexSet state 2 (x_348 + c)
      let x_350 ← index state 3
      let state ← indexSet state 3 (x_350 + d)
      let x_352 ← index state 4
      let state ← indexSet state 4 (x_352 + e)
      let x_354 ← index state 5
      let state ← indexSet state 5 (x_354 + f)
      let x_356 ← index state 6
      let state ← indexSet state 6 (x_356 + g)
      let x_358 ← index state 7
      let state ← indexSet state 7 (x_358 + h)
      pure (Flow.next (state, chunk)) : Res (Flow (List (BitVec 32) × Nat) (List (BitVec 32) × Nat))) =
    (Chf.Sha256.constBlock cfg w st).map fun s => .next (s.toList, chunk) := by
  obtain ⟨v, hv, rfl⟩ := arr16_toList w hw
  have hr := runLines_eq _ _ hl { regs := st, win := v }
  unfold Chf.Sha256.constBlock
  rw [hv, ok_bind]
  generalize Chf.Sha256.constLines.foldl (Chf.Sha256.line cfg) { regs := st, win := v } = t at hr
  have h0 : index st.toList 0 = .ok st.x0 := rfl
  have h1 : index st.toList 1 = .ok st.x1 := rfl
  have h2 : index st.toList 2 = .ok st.x2 := rfl
  have h3 : index st.toList 3 = .ok st.x3 := rfl
  have h4 : index st.toList 4 = .ok st.x4 := rfl
  have h5 : index st.toList 5 = .ok st.x5 := rfl
  have h6 : index st.toList 6 = .ok st.x6 := rfl
  have h7 : index st.toList 7 = .ok st.x7 := rfl
  simp only [vars] at hr
  simp only [h0, h1, h2, h3, h4, h5, h6, h7, ok_bind, hr]
  rfl

theorem copyW_length (cfg : Cfg) (bytes : List Byte) (i : Nat) (w : List (BitVec 32))
    (h : Chf.Sha256.copyW cfg bytes i = .ok w) : w.length = 16 :=
  mapM_length _ _ _ h

theorem body_eq (cfg : Cfg) (hc : cfg.Valid) (lines : List (Vars 32 → Res (Vars 32)))
    (hl : LinesAre (Chf.Sha256.line cfg) lines Chf.Sha256.constLines) (bytes : List Byte)
    (fin : Bool) (n chunk : Nat) (st : Arr8 (BitVec 32)) (hb : bytes.length < cfg.usizeMod)
    (hn : n * 64 < cfg.usizeMod) (hch : chunk < n) :
    bodyText cfg lines bytes fin n (st.toList, chunk) =
      if !fin ∧ chunk + 1 = n then .ok (.ret (st.toList, chunk))
      else (if chunk * 64 + 64 ≤ bytes.length then Chf.Sha256.copyW cfg bytes (chunk * 64)
          else Chf.Sha256.lastWindow cfg bytes n chunk) >>= fun w =>
        (Chf.Sha256.constBlock cfg w st).map fun s => .next (s.toList, chunk + 1) := by
  have hM := usizeMod_ge hc
  have a1 : addUsize cfg chunk 1 = .ok (chunk + 1) := addUsize_ok (by omega)
  have a2 : addUsize cfg chunk 2 = .ok (chunk + 2) := addUsize_ok (by omega)
  have m1 : mulUsize cfg chunk 64 = .ok (chunk * 64) := mulUsize_ok (by omega)
  have a3 : addUsize cfg (chunk * 64) 64 = .ok (chunk * 64 + 64) := addUsize_ok (by omega)
  unfold bodyText
  simp only [a1, a2, m1, a3, ok_bind, copy_w_eq cfg hc]
  by_cases hbr : (!fin) = true ∧ chunk + 1 = n
  · simp only [hbr.1, hbr.2, if_true, pure_eq, ok_bind, beq_self_eq_true, and_self]
  · simp only [if_neg hbr]
    have hy : ∀ {β : Type} (k : Bool → Res β),
        (if (!fin) = true then (pure (chunk + 1 == n) >>= k : Res β) else pure false >>= k) = k false := by
      intro β k
      cases fin with
      | true => rfl
      | false =>
        have : (chunk + 1 == n) = false := by simpa using hbr
        rw [this]; rfl
    refine (hy _).trans ?_
    simp only [Bool.false_eq_true, if_false, pure_eq, ok_bind, decide_eq_true_eq]
    by_cases c1 : chunk * 64 + 64 ≤ bytes.length
    · simp only [if_pos c1]
      exact bind_congr' fun w hw => block_eq cfg lines hl w (copyW_length cfg _ _ w hw) st (chunk + 1)
    · simp only [if_neg c1, Chf.Sha256.lastWindow, m1, ok_bind, bind_assoc]
      have ht := copyTail_eq cfg bytes (chunk * 64) hb 64 (cfg.usizeMod - 1) (List.replicate 64 0#8) 0
        (by omega) (by omega) (by omega)
      rw [show cfg.usizeMod - 1 + 1 = cfg.usizeMod by omega] at ht
      refine (congrArg (fun z => z >>= _) ht).trans ?_
      refine bind_congr' fun p _ => ?_
      have fin_eq : ∀ buf : List Byte, (Chf.Sha256.copyW cfg buf 0 >>= fun w => _) = _ :=
        fun buf => bind_congr' fun w hw =>
          block_eq cfg lines hl w (copyW_length cfg _ _ w hw) st (chunk + 1)
      by_cases c2 : bytes.length % 64 ≤ 64 - 9 <;> by_cases c3 : chunk + 2 = n <;>
        by_cases c4 : chunk + 1 = n
      all_goals
        have b3 : (chunk + 2 == n) = decide (chunk + 2 = n) := rfl
        have b4 : (chunk + 1 == n) = decide (chunk + 1 = n) := rfl
        first | replace c3 := eq_false c3 | replace c3 := eq_true c3
        first | replace c4 := eq_false c4 | replace c4 := eq_true c4
        simp only [b3, b4, c2, c3, c4, decide_true, decide_false, Bool.not_true, Bool.not_false,
          Bool.false_eq_true, if_true, if_false, or_true, or_self, or_false,
          bind_assoc, Chf.Sha256.putBitLen]
        repeat (first | exact fin_eq _ | refine bind_congr' fun _ _ => ?_)

theorem outText_step (cfg : Cfg) (hc : cfg.Valid) (state : List (BitVec 32)) (i : Nat)
    (hi : i < state.length) (h8 : state.length = 8) (l r : List Byte) (a b c d : Byte)
    (hl : l.length = i * 4) :
    outText cfg state (l ++ a :: b :: c :: d :: r, i) =
      .ok ((l ++ Chf.Sha256.outBytes state[i]) ++ r, i + 1) := by
  have hM := usizeMod_ge hc
  have hx : index state i = .ok state[i] := by
    unfold index
    rw [List.getElem?_eq_getElem hi]
  have m : mulUsize cfg i 4 = .ok (i * 4) := mulUsize_ok (by omega)
  have p0 : addUsize cfg i 0 = .ok i := addUsize_ok (by omega)
  have p1 : addUsize cfg i 1 = .ok (i + 1) := addUsize_ok (by omega)
  have q0 : addUsize cfg (i * 4) 0 = .ok (i * 4) := addUsize_ok (by omega)
  have q1 : addUsize cfg (i * 4) 1 = .ok (i * 4 + 1) := addUsize_ok (by omega)
  have q2 : addUsize cfg (i * 4) 2 = .ok (i * 4 + 2) := addUsize_ok (by omega)
  have q3 : addUsize cfg (i * 4) 3 = .ok (i * 4 + 3) := addUsize_ok (by omega)
  have hset : ∀ (k : Nat) (t : List Byte) (x : Byte), k < t.length →
      indexSet (l ++ t) (i * 4 + k) x = .ok (l ++ t.set k x) := by
    intro k t x hk
    unfold indexSet
    rw [if_pos (by rw [List.length_append]; omega), List.set_append_right _ _ (by omega),
      show i * 4 + k - l.length = k by omega]
  unfold outText
  simp only [hx, m, p0, p1, q0, q1, q2, q3, ok_bind]
  rw [show i * 4 = i * 4 + 0 from rfl, hset 0 _ _ (by simp), ok_bind, hset 1 _ _ (by simp), ok_bind,
    hset 2 _ _ (by simp), ok_bind, hset 3 _ _ (by simp), ok_bind]
  simp [Chf.Sha256.outBytes, pure_eq]

theorem outLoop (cfg : Cfg) (hc : cfg.Valid) (state : List (BitVec 32)) (h8 : state.length = 8)
    (k : Nat) : ∀ (i : Nat) (l r : List Byte) (fuel : Nat), i + k = 8 → l.length = i * 4 →
      r.length = k * 4 → k < fuel →
      whileR fuel (fun x : List Byte × Nat => match x with | (_, i) => pure (decide (i < 8)))
        (outText cfg state) (l ++ r, i) =
        .ok (l ++ (state.drop i).flatMap Chf.Sha256.outBytes, 8) := by
  induction k with
  | zero =>
    intro i l r fuel hi hl hr hf
    obtain ⟨n, rfl⟩ : ∃ n, fuel = n + 1 := ⟨fuel - 1, by omega⟩
    obtain rfl : i = 8 := hi
    obtain rfl : r = [] := List.eq_nil_of_length_eq_zero hr
    rw [whileR_succ, List.drop_eq_nil_of_le (by omega)]
    rfl
  | succ k ih =>
    intro i l r fuel hi hl hr hf
    obtain ⟨n, rfl⟩ : ∃ n, fuel = n + 1 := ⟨fuel - 1, by omega⟩
    match r, hr with
    | [], hr => simp at hr
    | [_], hr => simp at hr; omega
    | [_, _], hr => simp at hr; omega
    | [_, _, _], hr => simp at hr; omega
    | a :: b :: c :: d :: r, hr =>
      have hi' : i < state.length := by omega
      rw [whileR_succ]
      show (Except.ok (decide (i < 8)) >>= _) = _
      rw [ok_bind, decide_eq_true (by omega : i < 8), if_pos rfl,
        outText_step cfg hc state i hi' h8 l r a b c d hl, ok_bind,
        ih (i + 1) (l ++ Chf.Sha256.outBytes state[i]) r n (by omega)
          (by rw [List.length_append, hl, Nat.add_mul]; rfl) (by simp at hr; omega) (by omega),
        List.drop_eq_getElem_cons hi', List.flatMap_cons, List.append_assoc]

theorem whileBreak_succ {σ : Type} (n : Nat) (cond : σ → Res Bool) (body : σ → Res (Flow σ σ)) (s : σ) :
    whileBreak (n + 1) cond body s = cond s >>= fun b =>
      if b then body s >>= fun f => Flow.rec (fun s => .ok s) (fun s => whileBreak n cond body s) f
      else .ok s := by
  rw [whileBreak]
  cases cond s with
  | error e => rfl
  | ok b =>
    cases b with
    | false => rfl
    | true =>
      rw [ok_bind, if_pos rfl]
      cases body s with
      | error e => rfl
      | ok f => cases f <;> rfl

theorem constLoop_eq (cfg : Cfg) (hc : cfg.Valid) (lines : List (Vars 32 → Res (Vars 32)))
    (hl : LinesAre (Chf.Sha256.line cfg) lines Chf.Sha256.constLines) (bytes : List Byte)
    (fin : Bool) (n : Nat) (hb : bytes.length < cfg.usizeMod) (hn : n * 64 < cfg.usizeMod)
    (k : Nat) : ∀ (chunk : Nat) (st : Arr8 (BitVec 32)) (fuel : Nat), n ≤ chunk + k → k < fuel →
      (whileBreak fuel (fun x : List (BitVec 32) × Nat => match x with
          | (_, chunk) => pure (decide (chunk < n)))
        (bodyText cfg lines bytes fin n) (st.toList, chunk)).map Prod.fst =
        (Chf.Sha256.constLoop cfg bytes fin n k chunk st).map Arr8.toList := by
  induction k with
  | zero =>
    intro chunk st fuel hk hf
    obtain ⟨m, rfl⟩ : ∃ m, fuel = m + 1 := ⟨fuel - 1, by omega⟩
    have h : decide (chunk < n) = false := decide_eq_false (by omega)
    rw [whileBreak, Chf.Sha256.constLoop, if_neg (by omega)]
    simp only [h, pure_eq]
    rfl
  | succ k ih =>
    intro chunk st fuel hk hf
    obtain ⟨m, rfl⟩ : ∃ m, fuel = m + 1 := ⟨fuel - 1, by omega⟩
    rw [whileBreak_succ, Chf.Sha256.constLoop]
    show ((Except.ok (decide (chunk < n)) >>= _) : Res _).map _ = _
    rw [ok_bind]
    by_cases h : chunk < n
    · rw [if_pos h, decide_eq_true h, if_pos rfl, body_eq cfg hc lines hl bytes fin n chunk st hb hn h]
      by_cases h2 : (!fin) = true ∧ chunk + 1 = n
      · rw [if_pos h2, if_pos h2]
        rfl
      · rw [if_neg h2, if_neg h2]
        have step : ∀ W : Res (List (BitVec 32)),
            Except.map Prod.fst ((W >>= fun w =>
                (Chf.Sha256.constBlock cfg w st).map fun s => Flow.next (s.toList, chunk + 1)) >>= fun f =>
              Flow.rec (fun s => .ok s) (fun s => whileBreak m
                (fun x : List (BitVec 32) × Nat => match x with
                  | (_, chunk) => pure (decide (chunk < n)))
                (bodyText cfg lines bytes fin n) s) f) =
            (W >>= fun w => Chf.Sha256.constBlock cfg w st >>= fun s =>
              Chf.Sha256.constLoop cfg bytes fin n k (chunk + 1) s).map Arr8.toList := by
          intro W
          cases W with
          | error e => rfl
          | ok w =>
            rw [ok_bind, ok_bind]
            cases Chf.Sha256.constBlock cfg w st with
            | error e => rfl
            | ok s => exact ih (chunk + 1) s m (by omega) (by omega)
        by_cases h3 : chunk * 64 + 64 ≤ bytes.length
        · rw [if_pos h3, if_pos h3]
          exact step _
        · rw [if_neg h3, if_neg h3]
          exact step _
    · rw [if_neg h, decide_eq_false h]
      rfl

theorem addUsize_lt {cfg : Cfg} (hc : cfg.Valid) {a b x : Nat} (h : addUsize cfg a b = .ok x) :
    x < cfg.usizeMod := by
  have hM := usizeMod_ge hc
  unfold addUsize at h
  split at h
  · cases h; assumption
  · split at h
    · cases h
    · cases h; exact Nat.mod_lt _ (by omega)

theorem constText_eq (cfg : Cfg) (hc : cfg.Valid) (lines : List (Vars 32 → Res (Vars 32)))
    (hl : LinesAre (Chf.Sha256.line cfg) lines Chf.Sha256.constLines) (bytes : List Byte)
    (fin : Bool) (hb : bytes.length < cfg.usizeMod) :
    constText cfg lines bytes fin =
      (Chf.Sha256.midstateConstHash cfg bytes fin).map fun d => ({ f0 := d } : Midstate) := by
  have hM := usizeMod_ge hc
  unfold constText Chf.Sha256.midstateConstHash
  cases h1 : addUsize cfg bytes.length 9 with
  | error e => rfl
  | ok x =>
    rw [ok_bind, ok_bind]
    cases h2 : addUsize cfg x 63 with
    | error e => rfl
    | ok y =>
      have hy := addUsize_lt hc h2
      have hd := Nat.div_mul_le_self y 64
      rw [ok_bind, ok_bind]
      have key := constLoop_eq cfg hc lines hl bytes fin (y / 64) hb (by omega) (y / 64) 0
        Chf.Sha256.constIv cfg.usizeMod (by omega) (by omega)
      show (whileBreak cfg.usizeMod _ _ (Chf.Sha256.constIv.toList, 0) >>= _) =
        (Chf.Sha256.constLoop cfg bytes fin (y / 64) (y / 64) 0 Chf.Sha256.constIv >>= fun s =>
          pure (s.toList.flatMap Chf.Sha256.outBytes)).map _
      revert key
      cases whileBreak cfg.usizeMod (fun x : List (BitVec 32) × Nat => match x with
          | (_, chunk) => pure (decide (chunk < y / 64)))
        (bodyText cfg lines bytes fin (y / 64)) (Chf.Sha256.constIv.toList, 0) with
      | error e =>
        cases Chf.Sha256.constLoop cfg bytes fin (y / 64) (y / 64) 0 Chf.Sha256.constIv with
        | error e' => intro key; cases key; rfl
        | ok s => intro key; cases key
      | ok p =>
        cases Chf.Sha256.constLoop cfg bytes fin (y / 64) (y / 64) 0 Chf.Sha256.constIv with
        | error e' => intro key; cases key
        | ok s =>
          intro key
          obtain ⟨p1, p2⟩ := p
          have hp : p1 = s.toList := by injection key
          subst hp
          rw [ok_bind]
          have ho := outLoop cfg hc s.toList rfl 8 0 [] (List.replicate 32 0#8) cfg.usizeMod rfl rfl rfl
            (by omega)
          refine (congrArg (fun z => z >>= _) ho).trans ?_
          rfl

theorem midstate_const_hash_eq (cfg : Cfg) (hc : cfg.Valid) (bytes : List Byte) (fin : Bool)
    (hb : bytes.length < cfg.usizeMod) :
    Midstate.const_hash cfg bytes fin =
      (Chf.Sha256.midstateConstHash cfg bytes fin).map fun d => ({ f0 := d } : Midstate) := by
  unfold Midstate.const_hash
  cases hs : cfg.smallHash with
  | true =>
    rw [if_pos rfl, const_small_text]
    refine constText_eq cfg hc _ ?_ bytes fin hb
    rw [show Chf.Sha256.line cfg = Chf.Sha256.smallLine by unfold Chf.Sha256.line; rw [hs]; rfl]
    exact const_small_lines cfg
  | false =>
    rw [if_neg (by decide), const_fast_text]
    refine constText_eq cfg hc _ ?_ bytes fin hb
    rw [show Chf.Sha256.line cfg = Chf.Sha256.fastLine by unfold Chf.Sha256.line; rw [hs]; rfl]
    exact const_fast_lines cfg

theorem const_hash_eq (cfg : Cfg) (hc : cfg.Valid) (bytes : List Byte)
    (hb : bytes.length < cfg.usizeMod) :
    Hash.const_hash cfg bytes =
      (Chf.Sha256.constHash cfg bytes).map fun d => ({ f0 := d } : Hash) := by
  unfold Hash.const_hash Chf.Sha256.constHash
  rw [midstate_const_hash_eq cfg hc bytes true hb]
  cases Chf.Sha256.midstateConstHash cfg bytes true <;> rfl

theorem hash_tag_eq (cfg : Cfg) (hc : cfg.Valid) (tag : List Byte)
    (hb : tag.length < cfg.usizeMod) :
    Midstate.hash_tag cfg tag =
      (Chf.Sha256.hashTag cfg tag).map fun d => ({ f0 := d } : Midstate) := by
  have hM := usizeMod_ge hc
  unfold Midstate.hash_tag Chf.Sha256.hashTag
  rw [const_hash_eq cfg hc tag hb]
  cases hh : Chf.Sha256.constHash cfg tag with
  | error e => rfl
  | ok d =>
    show (whileR _ _ _ _ >>= _) = _
    have hlen : d.length ≠ 0 := by
      unfold Chf.Sha256.constHash Chf.Sha256.midstateConstHash at hh
      cases h1 : addUsize cfg tag.length 9 with
      | error e => rw [h1] at hh; cases hh
      | ok x =>
        rw [h1, ok_bind] at hh
        cases h2 : addUsize cfg x 63 with
        | error e => rw [h2] at hh; cases hh
        | ok y =>
          rw [h2, ok_bind] at hh
          revert hh
          show ((Chf.Sha256.constLoop cfg tag true (y / 64) (y / 64) 0 Chf.Sha256.constIv >>= fun s =>
            pure (s.toList.flatMap Chf.Sha256.outBytes)) = Except.ok d) → _
          cases Chf.Sha256.constLoop cfg tag true (y / 64) (y / 64) 0 Chf.Sha256.constIv with
          | error e => intro hh; cases hh
          | ok s => intro hh; cases hh; simp [Arr8.toList, Chf.Sha256.outBytes]
    have hf := fillLoop cfg 64 (by omega) (fun i => index d (i % d.length))
      (fun x : List Byte × Nat => match x with | (buf, i) => pure (decide (i < buf.length)))
      (fun x : List Byte × Nat => match x with
        | (buf, i) => do
          let x_2 ← Rs.remUsize i d.length
          let x_3 ← index d x_2
          let buf ← indexSet buf i x_3
          let i ← addUsize cfg i 1
          pure (buf, i))
      (by intro w i hw; show Except.ok (decide (i < w.length)) = _; rw [hw])
      (by
        intro w i _ _
        show (Rs.remUsize i d.length >>= _) = _
        rw [show Rs.remUsize i d.length = .ok (i % d.length) from if_neg hlen]
        rfl)
      (List.replicate 64 0#8) [] cfg.usizeMod rfl (by rw [List.length_replicate]; omega)
    refine (congrArg (fun z => z >>= _) hf).trans ?_
    rw [show (List.range 64) = List.range' ([] : List Byte).length (List.replicate 64 0#8).length by
      rw [List.range_eq_range', List.length_replicate]; rfl]
    show _ = ((List.range' _ _).mapM (fun i => index d (i % d.length)) >>= fun buf =>
      Chf.Sha256.midstateConstHash cfg buf false).map _
    cases hm : (List.range' ([] : List Byte).length (List.replicate 64 0#8).length).mapM
      (fun i => index d (i % d.length)) with
    | error e => rfl
    | ok buf =>
      have hbl : buf.length = 64 := (mapM_length _ _ _ hm).trans (by
        rw [List.length_range', List.length_replicate])
      exact midstate_const_hash_eq cfg hc buf false (by omega)

end Chf.Source.Sha256
