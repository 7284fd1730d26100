import Verif.Proofs.Observe

/-!
# The observed block functions
-/

namespace Chf
open Obs

theorem foldlM_pure {α β : Type} {f : β → α → Obs β} {g : β → α → β}
    (h : ∀ b a, (f b a).res = pure (g b a)) (l : List α) (b : β) :
    (l.foldlM f b).res = pure (l.foldl g b) := by
  rw [foldlM_res]
  induction l generalizing b with
  | nil => rfl
  | cons a l ih => rw [List.foldlM_cons, h, pure_bind, ih]; rfl

theorem arr16_rel {α : Type} {a b : List α} (h : Len a b) : ResRel Any (arr16 a) (arr16 b) := by
  unfold arr16
  by_cases ha : a.length = 16
  · rw [dif_pos ha, dif_pos (h ▸ ha)]; trivial
  · rw [dif_neg ha, dif_neg (h ▸ ha)]; rfl

theorem arr8_rel {α : Type} : ∀ {a b : List α}, Len a b → ResRel Any (Arr8.ofList a) (Arr8.ofList b) := by
  intro a b h
  by_cases ha : a.length = 8
  · have hb := h ▸ ha
    match a, b, ha, hb with
    | [_, _, _, _, _, _, _, _], [_, _, _, _, _, _, _, _], _, _ => trivial
  · have hb := h ▸ ha
    have key : ∀ l : List α, l.length ≠ 8 → Arr8.ofList l = .error .unreachable := by
      intro l hl
      unfold Arr8.ofList
      split
      · exact absurd rfl hl
      · rfl
    rw [key a ha, key b hb]; rfl

theorem arr5_rel {α : Type} : ∀ {a b : List α}, Len a b → ResRel Any (Arr5.ofList a) (Arr5.ofList b) := by
  intro a b h
  by_cases ha : a.length = 5
  · have hb := h ▸ ha
    match a, b, ha, hb with
    | [_, _, _, _, _], [_, _, _, _, _], _, _ => trivial
  · have hb := h ▸ ha
    have key : ∀ l : List α, l.length ≠ 5 → Arr5.ofList l = .error .unreachable := by
      intro l hl
      unfold Arr5.ofList
      split
      · exact absurd rfl hl
      · rfl
    rw [key a ha, key b hb]; rfl

theorem fromBe32_rel (y y' : List Byte) (h : Len y y') : ResRel Any (fromBe32 y) (fromBe32 y') :=
  ResRel.ite (by rw [h]) (fun _ => trivial) fun _ => rfl

theorem fromLe32_rel (y y' : List Byte) (h : Len y y') : ResRel Any (fromLe32 y) (fromLe32 y') :=
  ResRel.ite (by rw [h]) (fun _ => trivial) fun _ => rfl

theorem fromBe64_rel (y y' : List Byte) (h : Len y y') : ResRel Any (fromBe64 y) (fromBe64 y') :=
  ResRel.ite (by rw [h]) (fun _ => trivial) fun _ => rfl

theorem loadW_same {n : Nat} (w w' : Vector (BitVec n) 16) (i : Fin 16) :
    Same Any (loadW w i) (loadW w' i) := Same.seeThen (Same.pure' trivial)

theorem storeW_same {n : Nat} (w w' : Vector (BitVec n) 16) (i : Fin 16) (v v' : BitVec n) :
    Same Any (storeW w i v) (storeW w' i v') := Same.seeThen (Same.pure' trivial)

theorem loadH8_same {n : Nat} (h h' : Arr8 (BitVec n)) : Same Any (loadH8 h) (loadH8 h') :=
  Same.seeThen (Same.pure' trivial)

@[simp] theorem loadW_res {n : Nat} (w : Vector (BitVec n) 16) (i : Fin 16) :
    (loadW w i).res = pure w[i] := rfl

@[simp] theorem storeW_res {n : Nat} (w : Vector (BitVec n) 16) (i : Fin 16) (v : BitVec n) :
    (storeW w i v).res = pure (w.set i v) := rfl

@[simp] theorem loadH8_res {n : Nat} (h : Arr8 (BitVec n)) : (loadH8 h).res = pure h := rfl

namespace Sha256

theorem fastRoundO_same (l : RoundLine 32) (s s' : RoundState 32) :
    Same Any (fastRoundO l s) (fastRoundO l s') :=
  Same.bind (loadW_same _ _ _) fun _ _ _ => Same.pure' trivial

theorem lineO_same (c : Cfg) (s s' : RoundState 32) (l : RoundLine 32) :
    Same Any (lineO c s l) (lineO c s' l) := by
  unfold lineO
  split
  · unfold smallLineO
    split
    · exact Same.bind (loadW_same _ _ _) fun _ _ _ => Same.pure' trivial
    · exact Same.bind (loadW_same _ _ _) fun _ _ _ => Same.bind (loadW_same _ _ _) fun _ _ _ =>
        Same.bind (loadW_same _ _ _) fun _ _ _ => Same.bind (loadW_same _ _ _) fun _ _ _ =>
        Same.bind (storeW_same _ _ _ _ _) fun _ _ _ => Same.pure' trivial
  · unfold fastLineO
    split
    · exact fastRoundO_same _ _ _
    · exact Same.bind (loadW_same _ _ _) fun _ _ _ => Same.bind (loadW_same _ _ _) fun _ _ _ =>
        Same.bind (loadW_same _ _ _) fun _ _ _ => Same.bind (loadW_same _ _ _) fun _ _ _ =>
        Same.bind (storeW_same _ _ _ _ _) fun _ _ _ => fastRoundO_same _ _ _

theorem lineO_res (c : Cfg) (s : RoundState 32) (l : RoundLine 32) :
    (lineO c s l).res = pure (line c s l) := by
  obtain ⟨ra, rb, rc, rd, re, rf, rg, rh, k, wi, later⟩ := l
  unfold lineO line
  cases later with
  | none =>
    split
    · simp only [smallLineO, smallLine, bind_res, loadW_res, pure_res, pure_bind]
    · simp only [fastLineO, fastLine, fastRoundO, fastRound, bind_res, loadW_res, pure_res, pure_bind]
  | some t =>
    obtain ⟨i1, i2, i3⟩ := t
    split
    · simp only [smallLineO, smallLine, bind_res, loadW_res, storeW_res, pure_res, pure_bind]
    · simp only [fastLineO, fastLine, fastRoundO, fastRound, bind_res, loadW_res, storeW_res, pure_res,
        pure_bind]

theorem software_same (c : Cfg) {b b' : List Byte} (h h' : Arr8 (BitVec 32)) (hb : Len b b') :
    Same Any (softwareProcessBlockO c b h) (softwareProcessBlockO c b' h') := by
  unfold softwareProcessBlockO
  rw [hb]
  refine Same.bind (Same.checkEq _) fun _ _ _ => ?_
  refine Same.bind (fillZipO_same _ _ _ fromBe32_rel 0 rfl (chunksExact_lens 4 hb)) fun w w' hw => ?_
  refine Same.bind (Same.unseen (arr16_rel hw)) fun _ _ _ => ?_
  refine Same.bind (loadH8_same h h') fun _ _ _ => ?_
  refine Same.bind (Same.foldlM (R := Any) (f := lineO c) (g := lineO c)
    (fun a b x _ => lineO_same c a b x) _ trivial) fun _ _ _ => ?_
  exact Same.seeThen (Same.pure' trivial)

theorem software_res (c : Cfg) (b : List Byte) (h : Arr8 (BitVec 32)) :
    (softwareProcessBlockO c b h).res = softwareProcessBlock c b h := by
  unfold softwareProcessBlockO softwareProcessBlock
  simp only [bind_res, check_res, unseen_res, fillZipO_res, loadH8_res, pure_bind, see_res, pure_res,
    foldlM_pure (lineO_res c)]

namespace Simd

theorem loadHO_same (h h' : Arr8 (BitVec 32)) (n : Nat) : Same Any (loadHO h n) (loadHO h' n) := by
  refine Same.seeThen (Same.unseen ?_)
  obtain ⟨_, _, _, _, _, _, _, _⟩ := h
  obtain ⟨_, _, _, _, _, _, _, _⟩ := h'
  unfold loadH
  match n with
  | 0 | 1 | 2 | 3 | 4 => trivial
  | 5 | 6 | 7 => exact rfl
  | n + 8 => simp [Arr8.toList, ResRel]

theorem loadBytesO_same {b b' : List Byte} (n : Nat) (h : Len b b') :
    Same Any (loadBytesO b n) (loadBytesO b' n) :=
  Same.seeThen (Same.unseen (ResRel.ite (by rw [h]) (fun _ => trivial) fun _ => rfl))

theorem storeHO_same (h h' : Arr8 (BitVec 32)) (n : Nat) (x x' : M128) :
    Same Any (storeHO h n x) (storeHO h' n x') :=
  Same.seeThen (Same.unseen (ResRel.ite Iff.rfl (fun _ => arr8_rel (by
    show List.length _ = List.length _
    simp only [List.length_append, List.length_take, List.length_drop, List.length_cons, List.length_nil,
      Arr8.toList])) fun _ => rfl))

theorem loadStateO_same (h h' : Arr8 (BitVec 32)) (s s' : Xmm) :
    Same Any (loadStateO h s) (loadStateO h' s') :=
  Same.bind (loadHO_same _ _ _) fun _ _ _ => Same.bind (loadHO_same _ _ _) fun _ _ _ => Same.pure' trivial

theorem rounds0_3O_same {b b' : List Byte} (hb : Len b b') (s s' : Xmm) :
    Same Any (rounds0_3O b s) (rounds0_3O b' s') :=
  Same.bind (loadBytesO_same _ hb) fun _ _ _ => Same.pure' trivial

theorem rounds4_7O_same {b b' : List Byte} (hb : Len b b') (s s' : Xmm) :
    Same Any (rounds4_7O b s) (rounds4_7O b' s') :=
  Same.bind (loadBytesO_same _ hb) fun _ _ _ => Same.pure' trivial

theorem rounds8_11O_same {b b' : List Byte} (hb : Len b b') (s s' : Xmm) :
    Same Any (rounds8_11O b s) (rounds8_11O b' s') :=
  Same.bind (loadBytesO_same _ hb) fun _ _ _ => Same.pure' trivial

theorem rounds12_15O_same {b b' : List Byte} (hb : Len b b') (s s' : Xmm) :
    Same Any (rounds12_15O b s) (rounds12_15O b' s') :=
  Same.bind (loadBytesO_same _ hb) fun _ _ _ => Same.pure' trivial

theorem processBlockO_same {b b' : List Byte} (h h' : Arr8 (BitVec 32)) (hb : Len b b') :
    Same Any (processBlockO b h) (processBlockO b' h') := by
  unfold processBlockO
  refine Same.bind (loadStateO_same _ _ _ _) fun _ _ _ => ?_
  refine Same.bind (rounds0_3O_same hb _ _) fun _ _ _ => ?_
  refine Same.bind (rounds4_7O_same hb _ _) fun _ _ _ => ?_
  refine Same.bind (rounds8_11O_same hb _ _) fun _ _ _ => ?_
  refine Same.bind (rounds12_15O_same hb _ _) fun _ _ _ => ?_
  exact Same.bind (storeHO_same _ _ _ _ _) fun _ _ _ => storeHO_same _ _ _ _ _

theorem loadHO_res (h : Arr8 (BitVec 32)) (n : Nat) : (loadHO h n).res = loadH h n := rfl

theorem loadBytesO_res (b : List Byte) (n : Nat) : (loadBytesO b n).res = loadBytes b n := rfl

theorem storeHO_res (h : Arr8 (BitVec 32)) (n : Nat) (x : M128) : (storeHO h n x).res = storeH h n x := rfl

theorem loadStateO_res (h : Arr8 (BitVec 32)) (s : Xmm) : (loadStateO h s).res = loadState h s := by
  unfold loadStateO loadState
  simp only [bind_res, loadHO_res, pure_res]

theorem rounds0_3O_res (b : List Byte) (s : Xmm) : (rounds0_3O b s).res = rounds0_3 b s := by
  unfold rounds0_3O rounds0_3
  simp only [bind_res, loadBytesO_res, pure_res]

theorem rounds4_7O_res (b : List Byte) (s : Xmm) : (rounds4_7O b s).res = rounds4_7 b s := by
  unfold rounds4_7O rounds4_7
  simp only [bind_res, loadBytesO_res, pure_res]

theorem rounds8_11O_res (b : List Byte) (s : Xmm) : (rounds8_11O b s).res = rounds8_11 b s := by
  unfold rounds8_11O rounds8_11
  simp only [bind_res, loadBytesO_res, pure_res]

theorem rounds12_15O_res (b : List Byte) (s : Xmm) : (rounds12_15O b s).res = rounds12_15 b s := by
  unfold rounds12_15O rounds12_15
  simp only [bind_res, loadBytesO_res, pure_res]

theorem processBlockO_res (b : List Byte) (h : Arr8 (BitVec 32)) :
    (processBlockO b h).res = processBlock b h := by
  unfold processBlockO processBlock
  simp only [bind_res, loadStateO_res, rounds0_3O_res, rounds4_7O_res, rounds8_11O_res,
    rounds12_15O_res, storeHO_res, storeState]

end Simd

theorem opsO_blind (c : Cfg) : (opsO c).Blind := by
  intro b b' h h' hb
  show Same Any (processBlockO c b h) (processBlockO c b' h')
  unfold processBlockO
  exact Same.ite (fun _ => Simd.processBlockO_same h h' hb) fun _ => software_same c h h' hb

theorem opsO_erases (c : Cfg) : (opsO c).Erases (ops c) := by
  refine ⟨rfl, fun b h => ?_⟩
  show (processBlockO c b h).res = processBlock c b h
  unfold processBlockO processBlock
  rw [ite_res, Simd.processBlockO_res, software_res]

end Sha256

namespace Sha512

theorem fastRoundO_same (l : RoundLine 64) (s s' : RoundState 64) :
    Same Any (fastRoundO l s) (fastRoundO l s') :=
  Same.bind (loadW_same _ _ _) fun _ _ _ => Same.pure' trivial

theorem lineO_same (c : Cfg) (s s' : RoundState 64) (l : RoundLine 64) :
    Same Any (lineO c s l) (lineO c s' l) := by
  unfold lineO
  split
  · unfold smallLineO
    split
    · exact Same.bind (loadW_same _ _ _) fun _ _ _ => Same.pure' trivial
    · exact Same.bind (loadW_same _ _ _) fun _ _ _ => Same.bind (loadW_same _ _ _) fun _ _ _ =>
        Same.bind (loadW_same _ _ _) fun _ _ _ => Same.bind (loadW_same _ _ _) fun _ _ _ =>
        Same.bind (storeW_same _ _ _ _ _) fun _ _ _ => Same.pure' trivial
  · unfold fastLineO
    split
    · exact fastRoundO_same _ _ _
    · exact Same.bind (loadW_same _ _ _) fun _ _ _ => Same.bind (loadW_same _ _ _) fun _ _ _ =>
        Same.bind (loadW_same _ _ _) fun _ _ _ => Same.bind (loadW_same _ _ _) fun _ _ _ =>
        Same.bind (storeW_same _ _ _ _ _) fun _ _ _ => fastRoundO_same _ _ _

theorem lineO_res (c : Cfg) (s : RoundState 64) (l : RoundLine 64) :
    (lineO c s l).res = pure (line c s l) := by
  obtain ⟨ra, rb, rc, rd, re, rf, rg, rh, k, wi, later⟩ := l
  unfold lineO line
  cases later with
  | none =>
    split
    · simp only [smallLineO, smallLine, bind_res, loadW_res, pure_res, pure_bind]
    · simp only [fastLineO, fastLine, fastRoundO, fastRound, bind_res, loadW_res, pure_res, pure_bind]
  | some t =>
    obtain ⟨i1, i2, i3⟩ := t
    split
    · simp only [smallLineO, smallLine, bind_res, loadW_res, storeW_res, pure_res, pure_bind]
    · simp only [fastLineO, fastLine, fastRoundO, fastRound, bind_res, loadW_res, storeW_res, pure_res,
        pure_bind]

theorem opsO_blind (c : Cfg) : (opsO c).Blind := by
  intro b b' h h' hb
  show Same Any (processBlockO c b h) (processBlockO c b' h')
  unfold processBlockO
  rw [hb]
  refine Same.bind (Same.checkEq _) fun _ _ _ => ?_
  refine Same.bind (fillZipO_same _ _ _ fromBe64_rel 0 rfl (chunksExact_lens 8 hb)) fun w w' hw => ?_
  refine Same.bind (Same.unseen (arr16_rel hw)) fun _ _ _ => ?_
  refine Same.bind (loadH8_same h h') fun _ _ _ => ?_
  refine Same.bind (Same.foldlM (R := Any) (f := lineO c) (g := lineO c)
    (fun a b x _ => lineO_same c a b x) _ trivial) fun _ _ _ => ?_
  exact Same.seeThen (Same.pure' trivial)

theorem opsO_erases (c : Cfg) : (opsO c).Erases (ops c) := by
  refine ⟨rfl, fun b h => ?_⟩
  show (processBlockO c b h).res = processBlock c b h
  unfold processBlockO processBlock
  simp only [bind_res, check_res, unseen_res, fillZipO_res, loadH8_res, pure_bind, see_res, pure_res,
    foldlM_pure (lineO_res c)]

end Sha512

namespace Sha1

theorem loadW_same {w w' : List (BitVec 32)} (i : Nat) (h : Len w w') :
    Same Any (loadW w i) (loadW w' i) := Same.seeThen (Same.check (index_rel i h))

theorem expandO_same {w w' : List (BitVec 32)} (h : Len w w') : Same Len (expandO w) (expandO w') := by
  unfold expandO
  refine Same.bind (Same.foldlM (R := Len) (fun a b i hab => ?_) _ h) fun _ _ hr =>
    Same.seeThen (Same.pure' hr)
  refine Same.seeThen (Same.bind (loadW_same _ hab) fun _ _ _ => Same.bind (loadW_same _ hab) fun _ _ _ =>
    Same.bind (loadW_same _ hab) fun _ _ _ => Same.bind (loadW_same _ hab) fun _ _ _ => ?_)
  exact Same.seeThen (Same.check (indexSet_rel _ _ _ hab))

theorem fkO_same (i : Nat) (b c d b' c' d' : BitVec 32) : Same Any (fkO i b c d) (fkO i b' c' d') :=
  Same.choose (fun _ => Same.pure' trivial) fun _ => Same.choose (fun _ => Same.pure' trivial) fun _ =>
    Same.choose (fun _ => Same.pure' trivial) fun _ => Same.choose (fun _ => Same.pure' trivial)
    fun _ => ⟨rfl, rfl⟩

theorem stepO_same (s s' : Arr5 (BitVec 32)) (x x' : BitVec 32) (i : Nat) :
    Same Any (stepO s x i) (stepO s' x' i) :=
  Same.seeThen (Same.bind (fkO_same _ _ _ _ _ _ _) fun _ _ _ => Same.pure' trivial)

theorem steps_same : ∀ (k : Nat) {w w' : List (BitVec 32)} (s s' : Arr5 (BitVec 32)), Len w w' →
    Same Any ((w.zipIdx k).foldlM (fun s wi => stepO s wi.1 wi.2) s)
      ((w'.zipIdx k).foldlM (fun s wi => stepO s wi.1 wi.2) s')
  | _, [], [], _, _, _ => Same.pure' trivial
  | k, x :: w, x' :: w', s, s', h => by
      rw [List.zipIdx_cons, List.zipIdx_cons, List.foldlM_cons, List.foldlM_cons]
      exact Same.bind (stepO_same _ _ _ _ _) fun _ _ _ => steps_same (k + 1) _ _ (Nat.succ.inj h)

theorem opsO_blind (c : Cfg) : (opsO c).Blind := by
  intro b b' h h' hb
  show Same Any (processBlockO c b h) (processBlockO c b' h')
  unfold processBlockO
  rw [hb]
  refine Same.bind (Same.checkEq _) fun _ _ _ => ?_
  refine Same.bind (fillZipO_same _ _ _ fromBe32_rel 0 rfl (chunksExact_lens 4 hb)) fun w w' hw => ?_
  refine Same.bind (expandO_same hw) fun w w' hw => Same.seeThen ?_
  exact Same.bind (steps_same 0 _ _ hw) fun _ _ _ => Same.seeThen (Same.pure' trivial)

theorem loadW_res (w : List (BitVec 32)) (i : Nat) : (loadW w i).res = index w i := by
  unfold loadW
  simp only [bind_res, see_res, pure_bind, check_res]

theorem fkO_res (i : Nat) (b c d : BitVec 32) : (fkO i b c d).res = fk i b c d := by
  unfold fkO fk
  simp only [choose_res, decide_eq_true_eq, unseen_res]
  rfl

theorem stepO_res (s : Arr5 (BitVec 32)) (x : BitVec 32) (i : Nat) : (stepO s x i).res = step s x i := by
  unfold stepO step
  simp only [bind_res, see_res, pure_bind, fkO_res, pure_res]

theorem opsO_erases (c : Cfg) : (opsO c).Erases (ops c) := by
  refine ⟨rfl, fun b h => ?_⟩
  show (processBlockO c b h).res = processBlock c b h
  unfold processBlockO processBlock expandO expand
  simp only [bind_res, check_res, fillZipO_res, pure_bind, see_res, pure_res, foldlM_res,
    loadW_res, stepO_res, bind_pure]

end Sha1

namespace Ripemd160

theorem getO_same (o : Obj) (s s' : Arr5 (BitVec 32)) (i : Fin 5) : Same Any (getO o s i) (getO o s' i) :=
  Same.seeThen (Same.pure' trivial)

theorem setO_same (o : Obj) (s s' : Arr5 (BitVec 32)) (i : Fin 5) (v v' : BitVec 32) :
    Same Any (setO o s i v) (setO o s' i v') := Same.seeThen (Same.pure' trivial)

theorem getO_res (o : Obj) (s : Arr5 (BitVec 32)) (i : Fin 5) : (getO o s i).res = pure (get s i) := rfl

theorem setO_res (o : Obj) (s : Arr5 (BitVec 32)) (i : Fin 5) (v : BitVec 32) :
    (setO o s i v).res = pure (set s i v) := rfl

theorem roundsO_same (c : Cfg) (o : Obj) (w w' : Vector (BitVec 32) 16) (add : BitVec 32)
    (f : BitVec 32 → BitVec 32 → BitVec 32 → BitVec 32) (ls : List RLine) (bb bb' : Arr5 (BitVec 32)) :
    Same Any (roundsO c o w add f ls bb) (roundsO c o w' add f ls bb') := by
  unfold roundsO
  refine Same.foldlM (R := Any) (fun a b l _ => ?_) ls trivial
  split
  · unfold smallRoundO
    exact Same.bind (getO_same _ _ _ _) fun _ _ _ => Same.bind (getO_same _ _ _ _) fun _ _ _ =>
      Same.bind (getO_same _ _ _ _) fun _ _ _ => Same.bind (getO_same _ _ _ _) fun _ _ _ =>
      Same.bind (getO_same _ _ _ _) fun _ _ _ => Same.bind (loadW_same _ _ _) fun _ _ _ =>
      Same.bind (getO_same _ _ _ _) fun _ _ _ => Same.bind (getO_same _ _ _ _) fun _ _ _ =>
      Same.bind (getO_same _ _ _ _) fun _ _ _ => Same.bind (setO_same _ _ _ _ _ _) fun _ _ _ =>
      setO_same _ _ _ _ _ _
  · unfold fastRoundO
    exact Same.bind (getO_same _ _ _ _) fun _ _ _ => Same.bind (getO_same _ _ _ _) fun _ _ _ =>
      Same.bind (getO_same _ _ _ _) fun _ _ _ => Same.bind (getO_same _ _ _ _) fun _ _ _ =>
      Same.bind (loadW_same _ _ _) fun _ _ _ => Same.bind (setO_same _ _ _ _ _ _) fun _ _ _ =>
      Same.bind (getO_same _ _ _ _) fun _ _ _ => Same.bind (getO_same _ _ _ _) fun _ _ _ =>
      Same.bind (setO_same _ _ _ _ _ _) fun _ _ _ => Same.bind (getO_same _ _ _ _) fun _ _ _ =>
      setO_same _ _ _ _ _ _

theorem roundsO_res (c : Cfg) (o : Obj) (w : Vector (BitVec 32) 16) (add : BitVec 32)
    (f : BitVec 32 → BitVec 32 → BitVec 32 → BitVec 32) (ls : List RLine) (bb : Arr5 (BitVec 32)) :
    (roundsO c o w add f ls bb).res = pure (rounds c w add f ls bb) := by
  unfold roundsO rounds
  refine foldlM_pure (fun b l => ?_) ls bb
  unfold round
  by_cases hc : c.smallHash = true
  · rw [if_pos hc, if_pos hc]
    unfold smallRoundO smallRound
    simp only [bind_res, getO_res, setO_res, loadW_res, pure_bind]
  · rw [if_neg hc, if_neg hc]
    unfold fastRoundO fastRound
    simp only [bind_res, getO_res, setO_res, loadW_res, pure_bind]

theorem opsO_blind (c : Cfg) : (opsO c).Blind := by
  intro b b' h h' hb
  show Same Any (processBlockO c b h) (processBlockO c b' h')
  unfold processBlockO
  rw [hb]
  refine Same.bind (Same.checkEq _) fun _ _ _ => ?_
  refine Same.bind (fillZipO_same _ _ _ fromLe32_rel 0 rfl (chunksExact_lens 4 hb)) fun w w' hw => ?_
  refine Same.bind (Same.unseen (arr16_rel hw)) fun w w' _ => ?_
  unfold processBlockMacroO
  refine Same.seeThen ?_
  iterate 10 refine Same.bind (roundsO_same _ _ _ _ _ _ _ _ _) fun _ _ _ => ?_
  iterate 5 refine Same.bind (getO_same _ _ _ _) fun _ _ _ => Same.bind (getO_same _ _ _ _) fun _ _ _ =>
    Same.bind (getO_same _ _ _ _) fun _ _ _ => Same.bind (setO_same _ _ _ _ _ _) fun _ _ _ => ?_
  exact Same.bind (getO_same _ _ _ _) fun _ _ _ => setO_same _ _ _ _ _ _

theorem opsO_erases (c : Cfg) : (opsO c).Erases (ops c) := by
  refine ⟨rfl, fun b h => ?_⟩
  show (processBlockO c b h).res = processBlock c b h
  unfold processBlockO processBlock processBlockMacroO processBlockMacro
  simp only [bind_res, check_res, unseen_res, fillZipO_res, pure_bind, see_res, roundsO_res, getO_res,
    setO_res]

end Ripemd160

end Chf
