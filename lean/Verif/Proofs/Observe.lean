import Verif.Model.ObserveEngines

/-!
# Observed functions: they compute what the model computes, and what is seen depends on lengths

`Same R x y`: the same is seen of `x` and `y`, and they panic in the same way or give values related
by `R`.
-/

namespace Chf
open Obs

/-! ## What is computed -/

theorem iteBind {α β : Type} (p : Prop) [Decidable p] (x y : Res α) (f : α → Res β) :
    (if p then x else y) >>= f = if p then x >>= f else y >>= f := by
  split <;> rfl

namespace Obs
variable {α β : Type}

@[simp] theorem pure_res (a : α) : (pure a : Obs α).res = pure a := rfl

@[simp] theorem bind_res (x : Obs α) (f : α → Obs β) :
    (x >>= f).res = x.res >>= fun a => (f a).res := by
  cases x with
  | mk r s => cases r <;> rfl

@[simp] theorem see_res (es : List Ev) : (see es).res = pure () := rfl
@[simp] theorem test_res (b : Bool) : (test b).res = pure b := rfl
@[simp] theorem check_res (r : Res α) : (check r).res = r := rfl
@[simp] theorem unseen_res (r : Res α) : (unseen r).res = r := rfl
@[simp] theorem mark_res (f : Ev → Ev) (x : Obs α) : (mark f x).res = x.res := rfl

@[simp] theorem ite_res (p : Prop) [Decidable p] (x y : Obs α) :
    (if p then x else y).res = if p then x.res else y.res := by
  split <;> rfl

@[simp] theorem choose_res (b : Bool) (x y : Obs α) :
    (choose b x y).res = if b then x.res else y.res := by
  cases b <;> unfold choose <;> rw [bind_res] <;> rfl

@[simp] theorem foldlM_res (f : β → α → Obs β) (l : List α) (b : β) :
    (l.foldlM f b).res = l.foldlM (fun b a => (f b a).res) b := by
  induction l generalizing b with
  | nil => rfl
  | cons a l ih =>
    rw [List.foldlM_cons, List.foldlM_cons, bind_res]
    congr 1
    funext b
    exact ih b

end Obs

/-! ## What is seen -/

/-- The same panic, or related values. -/
def ResRel {α β : Type} (R : α → β → Prop) : Res α → Res β → Prop
  | .ok a, .ok b => R a b
  | .error f, .error g => f = g
  | _, _ => False

theorem ResRel.mono {α β : Type} {R S : α → β → Prop} (h : ∀ a b, R a b → S a b) :
    ∀ {r : Res α} {r' : Res β}, ResRel R r r' → ResRel S r r'
  | .ok a, .ok b, hr => h a b hr
  | .error _, .error _, hr => hr
  | .ok _, .error _, hr => hr
  | .error _, .ok _, hr => hr

theorem ResRel.refl {α : Type} {R : α → α → Prop} (h : ∀ a, R a a) : ∀ r : Res α, ResRel R r r
  | .ok a => h a
  | .error _ => rfl

theorem ResRel.ite {α β : Type} {R : α → β → Prop} {p q : Prop} [Decidable p] [Decidable q] {x y : Res α}
    {x' y' : Res β} (hp : p ↔ q) (hx : p → ResRel R x x') (hy : ¬ p → ResRel R y y') :
    ResRel R (if p then x else y) (if q then x' else y') := by
  by_cases h : p
  · rw [if_pos h, if_pos (hp.mp h)]; exact hx h
  · rw [if_neg h, if_neg (fun k => h (hp.mpr k))]; exact hy h

/-- The same is seen, and the outcomes are related. -/
structure Same {α β : Type} (R : α → β → Prop) (x : Obs α) (y : Obs β) : Prop where
  seen : x.seen = y.seen
  res : ResRel R x.res y.res

namespace Same
variable {α β γ δ : Type} {R : α → β → Prop} {S : γ → δ → Prop}

theorem mono {R' : α → β → Prop} {x y} (h : Same R x y) (hr : ∀ a b, R a b → R' a b) : Same R' x y :=
  ⟨h.seen, h.res.mono hr⟩

theorem pure' {a b} (h : R a b) : Same R (pure a) (pure b) := ⟨rfl, h⟩

theorem bind {x : Obs α} {y : Obs β} {f : α → Obs γ} {g : β → Obs δ} (h : Same R x y)
    (hf : ∀ a b, R a b → Same S (f a) (g b)) : Same S (x >>= f) (y >>= g) := by
  obtain ⟨r, s⟩ := x
  obtain ⟨r', s'⟩ := y
  obtain ⟨h1, h2⟩ := h
  dsimp only at h1 h2
  subst h1
  cases r with
  | error e =>
    cases r' with
    | error e' => exact ⟨rfl, h2⟩
    | ok b => exact h2.elim
  | ok a =>
    cases r' with
    | error e' => exact h2.elim
    | ok b =>
      have h3 := hf a b h2
      exact ⟨congrArg (s ++ ·) h3.seen, h3.res⟩

theorem see (es : List Ev) : Same (fun _ _ => True) (see es) (see es) := ⟨rfl, trivial⟩

/-- After something that both see. -/
theorem seeThen {es : List Ev} {f : Unit → Obs γ} {g : Unit → Obs δ} (h : Same S (f ()) (g ())) :
    Same S (Obs.see es >>= f) (Obs.see es >>= g) := bind (see es) fun _ _ _ => h

/-- After the same test. -/
theorem testThen {b : Bool} {f : Bool → Obs γ} {g : Bool → Obs δ} (h : Same S (f b) (g b)) :
    Same S (test b >>= f) (test b >>= g) :=
  bind (R := fun x y => x = b ∧ y = b) ⟨rfl, rfl, rfl⟩ fun x y hxy => by
    rw [hxy.1, hxy.2]; exact h

/-- The same branch. -/
theorem choose {b : Bool} {f f' : Obs γ} {g g' : Obs δ} (h : b = true → Same S f g)
    (h' : b = false → Same S f' g') : Same S (choose b f f') (choose b g g') := by
  refine testThen ?_
  cases b with
  | true => rw [if_pos rfl, if_pos rfl]; exact h rfl
  | false => rw [if_neg Bool.false_ne_true, if_neg Bool.false_ne_true]; exact h' rfl

theorem check {r : Res α} {r' : Res β} (h : ResRel R r r') : Same R (check r) (check r') := by
  cases r <;> cases r' <;> first | exact ⟨rfl, h⟩ | exact h.elim

/-- The same operation on both sides. -/
theorem checkEq (r : Res α) : Same Eq (Obs.check r) (Obs.check r) :=
  check (ResRel.refl (fun _ => rfl) r)

theorem unseen {r : Res α} {r' : Res β} (h : ResRel R r r') : Same R (unseen r) (unseen r') :=
  ⟨rfl, h⟩

theorem mark {x : Obs α} {y : Obs β} (f : Ev → Ev) (h : Same R x y) : Same R (mark f x) (mark f y) :=
  ⟨congrArg (List.map f) h.seen, h.res⟩

theorem ite {p : Prop} [Decidable p] {f f' : Obs γ} {g g' : Obs δ} (h : p → Same S f g)
    (h' : ¬ p → Same S f' g') : Same S (if p then f else f') (if p then g else g') := by
  by_cases hp : p
  · rw [if_pos hp, if_pos hp]; exact h hp
  · rw [if_neg hp, if_neg hp]; exact h' hp

theorem foldlM {ε : Type} {f : α → ε → Obs α} {g : β → ε → Obs β}
    (h : ∀ a b x, R a b → Same R (f a x) (g b x)) :
    ∀ (l : List ε) {a b}, R a b → Same R (l.foldlM f a) (l.foldlM g b)
  | [], _, _, hr => pure' hr
  | x :: l, a, b, hr => by
      rw [List.foldlM_cons, List.foldlM_cons]
      exact bind (h a b x hr) fun a' b' hr' => foldlM h l hr'

end Same

/-! ## Lists and slices -/

/-- Lists of the same length. -/
abbrev Len {α : Type} (a b : List α) : Prop := a.length = b.length

/-- No relation. -/
abbrev Any {α β : Type} (_ : α) (_ : β) : Prop := True

section slices
variable {α β : Type}

theorem sliceTo_rel {a b : List α} (n : Nat) (h : Len a b) : ResRel Len (sliceTo a n) (sliceTo b n) := by
  unfold sliceTo
  refine ResRel.ite (by rw [h]) (fun _ => ?_) fun _ => rfl
  show (a.take n).length = (b.take n).length
  rw [List.length_take, List.length_take, h]

theorem sliceFrom_rel {a b : List α} (n : Nat) (h : Len a b) :
    ResRel Len (sliceFrom a n) (sliceFrom b n) := by
  unfold sliceFrom
  refine ResRel.ite (by rw [h]) (fun _ => ?_) fun _ => rfl
  show (a.drop n).length = (b.drop n).length
  rw [List.length_drop, List.length_drop, h]

theorem copyIntoRange_rel {a b s t : List α} (i j : Nat) (h : Len a b) (h' : Len s t) :
    ResRel Len (copyIntoRange a i j s) (copyIntoRange b i j t) := by
  unfold copyIntoRange
  refine ResRel.ite (by rw [h]) (fun _ => ResRel.ite (by rw [h']) (fun _ => ?_) fun _ => rfl) fun _ => rfl
  show (a.take i ++ s ++ a.drop j).length = (b.take i ++ t ++ b.drop j).length
  simp only [List.length_append, List.length_take, List.length_drop, h, h']

theorem index_rel {a b : List α} (i : Nat) (h : Len a b) : ResRel Any (index a i) (index b i) := by
  unfold index
  by_cases hi : i < a.length
  · rw [List.getElem?_eq_getElem hi, List.getElem?_eq_getElem (h ▸ hi)]; trivial
  · rw [List.getElem?_eq_none (Nat.le_of_not_lt hi),
      List.getElem?_eq_none (h ▸ Nat.le_of_not_lt hi)]; rfl

theorem indexSet_rel {a b : List α} (i : Nat) (x y : α) (h : Len a b) :
    ResRel Len (indexSet a i x) (indexSet b i y) := by
  unfold indexSet
  refine ResRel.ite (by rw [h]) (fun _ => ?_) fun _ => rfl
  show (a.set i x).length = (b.set i y).length
  rw [List.length_set, List.length_set, h]

/-- Lists of lists of the same lengths. -/
abbrev Lens (a b : List (List α)) : Prop := a.map List.length = b.map List.length

theorem chunksExact_lens {a b : List α} (n : Nat) (h : Len a b) :
    Lens (chunksExact n a) (chunksExact n b) := by
  unfold chunksExact Lens
  rw [h, List.map_map, List.map_map]
  refine List.map_congr_left fun i _ => ?_
  simp only [Function.comp_apply, List.length_take, List.length_drop, h]

theorem fillZipO_same (dst src : Obj) (k : Nat) {f : List Byte → Res α}
    (hf : ∀ y y', Len y y' → ResRel Any (f y) (f y')) :
    ∀ (i : Nat) {xs xs' : List α} {ys ys' : List (List Byte)}, Len xs xs' → Lens ys ys' →
      Same Len (fillZipO dst src k f i xs ys) (fillZipO dst src k f i xs' ys')
  | i, [], [], [], [], _, _ => Same.seeThen (Same.pure' rfl)
  | i, [], [], _ :: _, _ :: _, _, _ => Same.seeThen (Same.pure' rfl)
  | i, _ :: _, _ :: _, [], [], hx, _ => Same.seeThen (Same.pure' hx)
  | i, x :: xs, x' :: xs', y :: ys, y' :: ys', hx, hy => by
      have hy' : y.length = y'.length ∧ ys.map List.length = ys'.map List.length := by
        simpa [Lens] using hy
      refine Same.seeThen (Same.bind (Same.check (hf y y' hy'.1)) fun v v' _ => Same.seeThen ?_)
      exact Same.bind (fillZipO_same dst src k hf (i + 1) (Nat.succ.inj hx) hy'.2)
        fun r r' hr => Same.pure' (congrArg Nat.succ hr)

theorem storeZipO_same (k : Nat) {enc : α → List Byte} {n : Nat} (he : ∀ v, (enc v).length = n) :
    ∀ (i : Nat) {vs vs' : List α} {ret ret' : List Byte}, Len vs vs' → Len ret ret' →
      Same Len (storeZipO k enc i vs ret) (storeZipO k enc i vs' ret')
  | i, [], [], ret, ret', _, hr => Same.seeThen (Same.pure' hr)
  | i, v :: vs, v' :: vs', ret, ret', hv, hr => by
      unfold storeZipO
      rw [hr, he, he]
      refine Same.seeThen (Same.choose (fun _ => Same.pure' hr) fun _ => Same.choose (fun _ => ?_) fun _ => ⟨rfl, rfl⟩)
      refine Same.seeThen (Same.bind (storeZipO_same k he (i + 1) (Nat.succ.inj hv) ?_) fun r r' h => ?_)
      · show (ret.drop k).length = (ret'.drop k).length
        rw [List.length_drop, List.length_drop, hr]
      · refine Same.pure' ?_
        show (enc v ++ r).length = (enc v' ++ r').length
        rw [List.length_append, List.length_append, he, he, h]

@[simp] theorem fillZipO_res (dst src : Obj) (k : Nat) (f : β → Res α) :
    ∀ (i : Nat) (xs : List α) (ys : List β), (fillZipO dst src k f i xs ys).res = fillZip f xs ys
  | i, _ :: xs, y :: ys => by
      unfold fillZipO fillZip
      simp only [bind_res, see_res, check_res, pure_res, pure_bind, fillZipO_res dst src k f (i + 1) xs ys]
  | _, [], [] => rfl
  | _, [], _ :: _ => rfl
  | _, _ :: _, [] => rfl

@[simp] theorem storeZipO_res (k : Nat) (enc : α → List Byte) :
    ∀ (i : Nat) (vs : List α) (ret : List Byte),
      (storeZipO k enc i vs ret).res = storeZip k enc vs ret
  | _, [], _ => rfl
  | i, v :: vs, ret => by
      unfold storeZipO storeZip
      simp only [bind_res, see_res, choose_res, pure_res, pure_bind, unseen_res, decide_eq_true_eq,
        storeZipO_res k enc (i + 1) vs (ret.drop k)]
      rfl

end slices

/-! ## The buffered engine -/

namespace BlockEngine
variable {H : Type}

/-- The two engines differ in the contents of the buffer and in `h` only. -/
def Rel (e e' : BlockEngine H) : Prop := Len e.buffer e'.buffer ∧ e.length = e'.length

/-- The observed operations compute the operations. -/
structure _root_.Chf.ObsOps.Erases (o : ObsOps H) (ops : BlockOps H) : Prop where
  B : o.B = ops.B
  process : ∀ b h, (o.process b h).res = ops.process b h

/-- What is seen of the block function does not depend on the contents. -/
def _root_.Chf.ObsOps.Blind (o : ObsOps H) : Prop :=
  ∀ b b' h h', Len b b' → Same Any (o.process b h) (o.process b' h')

theorem processBlockO_same {o : ObsOps H} (ho : o.Blind) {e e' : BlockEngine H} (h : Rel e e') :
    Same Rel (processBlockO o e) (processBlockO o e') :=
  Same.bind (ho _ _ _ _ h.1) fun _ _ _ => Same.pure' h

theorem inputLoopO_same (c : Cfg) {o : ObsOps H} (ho : o.Blind) :
    ∀ (fuel : Nat) {e e' : BlockEngine H} {d d' : List Byte}, Rel e e' → Len d d' →
      Same Rel (inputLoopO c o fuel e d) (inputLoopO c o fuel e' d')
  | fuel, e, e', [], [], h, _ => by
      cases fuel <;> exact Same.seeThen (Same.pure' h)
  | 0, _, _, _ :: _, _ :: _, _, _ => ⟨rfl, rfl⟩
  | fuel + 1, e, e', x :: xs, y :: ys, h, hd => by
      unfold inputLoopO
      dsimp only
      rw [h.2, hd]
      refine Same.seeThen (Same.bind (Same.checkEq _) fun r _ hr => ?_)
      subst hr
      refine Same.testThen (Same.bind (Same.checkEq _) fun j _ hj => ?_)
      subst hj
      refine Same.bind (Same.check (sliceTo_rel _ hd)) fun s s' hs => ?_
      refine Same.bind (Same.check (copyIntoRange_rel _ _ h.1 hs)) fun b b' hb => ?_
      refine Same.seeThen (Same.bind (Same.checkEq _) fun l _ hl => ?_)
      subst hl
      refine Same.bind (R := Rel) (Same.choose (fun _ => processBlockO_same ho ⟨hb, rfl⟩)
        fun _ => Same.pure' ⟨hb, rfl⟩) fun e1 e1' h1 => ?_
      refine Same.bind (Same.check (sliceFrom_rel _ hd)) fun i i' hi => ?_
      exact inputLoopO_same c ho fuel h1 hi

theorem inputO_same (c : Cfg) {o : ObsOps H} (ho : o.Blind) {e e' : BlockEngine H} {d d' : List Byte}
    (h : Rel e e') (hd : Len d d') : Same Rel (inputO c o e d) (inputO c o e' d') := by
  unfold inputO
  rw [hd]
  exact inputLoopO_same c ho _ h hd

theorem finalizeBlocksO_same (c : Cfg) {o : ObsOps H} (ho : o.Blind) (zlen : Nat)
    (pre : List (List Byte)) (enc : BitVec 64 → List Byte) {e e' : BlockEngine H} (h : Rel e e') :
    Same Rel (finalizeBlocksO c o zlen pre enc e) (finalizeBlocksO c o zlen pre enc e') := by
  unfold finalizeBlocksO
  dsimp only
  rw [h.2]
  refine Same.bind (inputO_same c ho h rfl) fun e1 e1' h1 => ?_
  rw [h1.2]
  refine Same.bind (R := Rel) (Same.choose (fun _ => inputO_same c ho h1 rfl) fun _ => Same.pure' h1)
    fun e2 e2' h2 => ?_
  rw [h2.2]
  refine Same.bind (Same.checkEq _) fun p _ hp => ?_
  subst hp
  refine Same.bind (Same.checkEq _) fun z _ hz => ?_
  subst hz
  refine Same.bind (inputO_same c ho h2 rfl) fun e3 e3' h3 => ?_
  rw [h3.2]
  refine Same.bind (Same.checkEq _) fun _ _ _ => ?_
  refine Same.bind (Same.foldlM (f := inputO c o) (g := inputO c o) (fun a b x hab => inputO_same c ho hab rfl) pre h3) fun e4 e4' h4 => ?_
  refine Same.bind (Same.checkEq _) fun b _ hb => ?_
  subst hb
  refine Same.bind (inputO_same c ho h4 rfl) fun e5 e5' h5 => ?_
  rw [h5.2]
  exact Same.bind (Same.checkEq _) fun _ _ _ => Same.pure' h5

theorem inputLoopO_res (c : Cfg) {o : ObsOps H} {ops : BlockOps H} (ho : o.Erases ops) :
    ∀ (fuel : Nat) (e : BlockEngine H) (d : List Byte),
      (inputLoopO c o fuel e d).res = inputLoop c ops fuel e d
  | 0, _, [] => rfl
  | _ + 1, _, [] => rfl
  | 0, _, _ :: _ => rfl
  | fuel + 1, e, x :: xs => by
      unfold inputLoopO inputLoop
      simp only [bind_res, see_res, test_res, pure_res, pure_bind, choose_res, check_res, decide_eq_true_eq, iteBind,
        processBlockO, processBlock, ho.B, ho.process, inputLoopO_res c ho fuel]

theorem inputO_res (c : Cfg) {o : ObsOps H} {ops : BlockOps H} (ho : o.Erases ops)
    (e : BlockEngine H) (d : List Byte) : (inputO c o e d).res = input c ops e d :=
  inputLoopO_res c ho _ e d

theorem finalizeBlocksO_res (c : Cfg) {o : ObsOps H} {ops : BlockOps H} (ho : o.Erases ops)
    (zlen : Nat) (pre : List (List Byte)) (enc : BitVec 64 → List Byte) (e : BlockEngine H) :
    (finalizeBlocksO c o zlen pre enc e).res = finalizeBlocks c ops zlen pre enc e := by
  unfold finalizeBlocksO finalizeBlocks
  simp only [bind_res, pure_res, pure_bind, choose_res, check_res, decide_eq_true_eq, iteBind,
    inputO_res c ho, foldlM_res, ho.B]

end BlockEngine

end Chf
