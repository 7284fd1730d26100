import Verif.Seen.Prelude
import Verif.Proofs.Observe

/-!
# Observed operations: they compute what the operations compute, and what is seen depends on lengths
-/

namespace Chf.Tr
variable {α β γ δ σ τ : Type}

/-! ## What is computed -/

@[simp] theorem pure_res (a : α) : (pure a : Tr α).res = pure a := rfl
@[simp] theorem bind_res (x : Tr α) (f : α → Tr β) : (x >>= f).res = x.res >>= fun a => (f a).res := rfl
@[simp] theorem test_res (b : Bool) : (test b).res = pure b := rfl
@[simp] theorem op_res (es : List Ev) (r : Res α) : (op es r).res = r := rfl

@[simp] theorem all_res : ∀ bs : List Bool, (all bs).res = pure (bs.all id)
  | [] => rfl
  | _ :: _ => rfl

@[simp] theorem ite_res (p : Prop) [Decidable p] (x y : Tr α) :
    (if p then x else y).res = if p then x.res else y.res := by
  split <;> rfl

@[simp] theorem addUsize_res (c : Cfg) (a b : Nat) : (addUsize c a b).res = Chf.addUsize c a b := rfl
@[simp] theorem subUsize_res (c : Cfg) (a b : Nat) : (subUsize c a b).res = Chf.subUsize c a b := rfl
@[simp] theorem mulUsize_res (c : Cfg) (a b : Nat) : (mulUsize c a b).res = Chf.mulUsize c a b := rfl
@[simp] theorem remUsize_res (a b : Nat) : (remUsize a b).res = Rs.remUsize a b := rfl
@[simp] theorem addU_res {w : Nat} (c : Cfg) (a b : BitVec w) : (addU c a b).res = Rs.addU c a b := rfl
@[simp] theorem subU_res {w : Nat} (c : Cfg) (a b : BitVec w) : (subU c a b).res = Rs.subU c a b := rfl
@[simp] theorem mulU_res {w : Nat} (c : Cfg) (a b : BitVec w) : (mulU c a b).res = Rs.mulU c a b := rfl
@[simp] theorem shlU_res {w : Nat} (c : Cfg) (a : BitVec w) (n : Nat) :
    (shlU c a n).res = Rs.shlU c a n := rfl
@[simp] theorem shrU_res {w : Nat} (c : Cfg) (a : BitVec w) (n : Nat) :
    (shrU c a n).res = Rs.shrU c a n := rfl
@[simp] theorem assertR_res (b : Bool) : (assertR b).res = Chf.assertR b := rfl
@[simp] theorem debugAssert_res (c : Cfg) (b : Bool) :
    (debugAssert c b).res = Chf.debugAssert c b := rfl
@[simp] theorem fail_res (f : Fault) : (fail f : Tr α).res = .error f := rfl
@[simp] theorem index_res (s : List α) (i : Nat) : (index s i).res = Chf.index s i := rfl
@[simp] theorem indexSet_res (s : List α) (i : Nat) (x : α) :
    (indexSet s i x).res = Chf.indexSet s i x := rfl
@[simp] theorem getUnchecked_res (s : List α) (i : Nat) :
    (getUnchecked s i).res = Rs.getUnchecked s i := rfl
@[simp] theorem sliceTo_res (s : List α) (n : Nat) : (sliceTo s n).res = Chf.sliceTo s n := rfl
@[simp] theorem sliceFrom_res (s : List α) (n : Nat) : (sliceFrom s n).res = Chf.sliceFrom s n := rfl
@[simp] theorem sliceRange_res (s : List α) (i j : Nat) :
    (sliceRange s i j).res = Rs.sliceRange s i j := rfl
@[simp] theorem checkRange_res (s : List α) (i j : Nat) :
    (checkRange s i j).res = Rs.checkRange s i j := rfl
@[simp] theorem copyIntoRange_res (d : List α) (i j : Nat) (s : List α) :
    (copyIntoRange d i j s).res = Chf.copyIntoRange d i j s := rfl
@[simp] theorem copyFromSlice_res (d s : List α) : (copyFromSlice d s).res = Rs.copyFromSlice d s := rfl
@[simp] theorem tryInto_res (n : Nat) (s : List α) : (tryInto n s).res = Rs.tryInto n s := rfl
@[simp] theorem copyNonoverlapping_res {w : Nat} (c : Cfg) (s : List Byte) (i : Nat) (d : BitVec w)
    (n : Nat) : (copyNonoverlapping c s i d n).res = Rs.copyNonoverlapping c s i d n := rfl
@[simp] theorem loadu8_res (s : List Byte) (i : Nat) : (loadu8 s i).res = Rs.loadu8 s i := rfl
@[simp] theorem loadu32_res (s : List (BitVec 32)) (i : Nat) : (loadu32 s i).res = Rs.loadu32 s i := rfl
@[simp] theorem storeu32_res (s : List (BitVec 32)) (i : Nat) (v : BitVec 128) :
    (storeu32 s i v).res = Rs.storeu32 s i v := rfl

@[simp] theorem whileR_res (cond : σ → Tr Bool) (body : σ → Tr σ) : ∀ (n : Nat) (s : σ),
    (whileR n cond body s).res = Rs.whileR n (fun s => (cond s).res) (fun s => (body s).res) s
  | 0, _ => rfl
  | n + 1, s => by
      unfold whileR Rs.whileR
      simp only [bind_res, test_res, ite_res, pure_res, pure_bind, whileR_res cond body n]
      cases (cond s).res with
      | error e => rfl
      | ok b =>
        cases b with
        | false => rfl
        | true => cases (body s).res <;> rfl

@[simp] theorem whileBreak_res (cond : σ → Tr Bool) (body : σ → Tr (Rs.Flow σ σ)) :
    ∀ (n : Nat) (s : σ), (whileBreak n cond body s).res =
      Rs.whileBreak n (fun s => (cond s).res) (fun s => (body s).res) s
  | 0, _ => rfl
  | n + 1, s => by
      unfold whileBreak Rs.whileBreak
      simp only [bind_res, test_res, ite_res, pure_res, pure_bind]
      cases (cond s).res with
      | error e => rfl
      | ok b =>
        cases b with
        | false => rfl
        | true =>
          cases (body s).res with
          | error e => rfl
          | ok r =>
            cases r with
            | ret s => rfl
            | next s => exact whileBreak_res cond body n s

@[simp] theorem each_res (f : σ → α → Tr σ) : ∀ (xs : List α) (s : σ),
    (each xs f s).res = xs.foldlM (fun s a => (f s a).res) s
  | [], _ => rfl
  | x :: xs, s => by
      rw [List.foldlM_cons]
      unfold each
      simp only [bind_res, test_res, pure_bind, each_res f xs]

theorem runLines_res : ∀ {ls : List (σ → Tr σ)} {ls' : List (σ → Res σ)},
    List.map (fun f s => (f s).res) ls = ls' → ∀ s, (runLines ls s).res = Rs.runLines ls' s
  | [], _, rfl, _ => rfl
  | l :: ls, _, rfl, s => by
      show ((l s >>= fun s => runLines ls s)).res = (l s).res >>= fun s => Rs.runLines _ s
      rw [bind_res]
      congr 1
      funext s
      exact runLines_res rfl s

@[simp] theorem zipMut_res (f : α → β → Tr α) : ∀ (xs : List α) (ys : List β),
    (zipMut xs ys f).res = Rs.zipMut xs ys fun x y => (f x y).res
  | x :: xs, y :: ys => by
      unfold zipMut Rs.zipMut
      simp only [bind_res, test_res, pure_res, pure_bind, zipMut_res f xs ys]
  | [], [] => rfl
  | [], _ :: _ => rfl
  | _ :: _, [] => rfl

@[simp] theorem zipChunksMut_res (k : Nat) (f : α → List β → Tr (List β)) :
    ∀ (vals : List α) (ret : List β),
      (zipChunksMut k vals ret f).res = Rs.zipChunksMut k vals ret fun v r => (f v r).res
  | [], _ => rfl
  | v :: vals, ret => by
      unfold zipChunksMut Rs.zipChunksMut
      simp only [bind_res, test_res, pure_res, pure_bind, ite_res, zipChunksMut_res k f vals,
        decide_eq_true_eq]

/-! ## What is seen -/

/-- The same is seen, and the outcomes are related. -/
structure SameSeen (R : α → β → Prop) (x : Tr α) (y : Tr β) : Prop where
  seen : x.seen = y.seen
  res : ResRel R x.res y.res

namespace SameSeen
variable {R : α → β → Prop} {S : γ → δ → Prop}

theorem mono {R' : α → β → Prop} {x y} (h : SameSeen R x y) (hr : ∀ a b, R a b → R' a b) : SameSeen R' x y :=
  ⟨h.seen, h.res.mono hr⟩

theorem pure' {a b} (h : R a b) : SameSeen R (pure a) (pure b) := ⟨rfl, h⟩

theorem bind {x : Tr α} {y : Tr β} {f : α → Tr γ} {g : β → Tr δ} (h : SameSeen R x y)
    (hf : ∀ a b, R a b → SameSeen S (f a) (g b)) : SameSeen S (x >>= f) (y >>= g) := by
  obtain ⟨r, s⟩ := x
  obtain ⟨r', s'⟩ := y
  obtain ⟨h1, h2⟩ := h
  dsimp only at h1 h2
  subst h1
  cases r with
  | error e =>
    cases r' with
    | error e' => exact ⟨rfl, h2⟩
    | ok b => exact h2.elim
  | ok a =>
    cases r' with
    | error e' => exact h2.elim
    | ok b =>
      have h3 := hf a b h2
      exact ⟨congrArg (s ++ ·) h3.seen, h3.res⟩

theorem op {es : List Ev} {r : Res α} {r' : Res β} (h : ResRel R r r') :
    SameSeen R (Tr.op es r) (Tr.op es r') := by
  cases r <;> cases r' <;> first | exact ⟨rfl, h⟩ | exact h.elim

theorem refl (x : Tr α) : SameSeen Eq x x := ⟨rfl, ResRel.refl (fun _ => rfl) _⟩

theorem ite {p : Prop} [Decidable p] {f f' : Tr γ} {g g' : Tr δ} (h : p → SameSeen S f g)
    (h' : ¬ p → SameSeen S f' g') : SameSeen S (if p then f else f') (if p then g else g') := by
  by_cases hp : p
  · rw [if_pos hp, if_pos hp]; exact h hp
  · rw [if_neg hp, if_neg hp]; exact h' hp

/-- The same computation first. -/
theorem bindEq {x : Tr α} {f : α → Tr γ} {g : α → Tr δ} (hf : ∀ a, SameSeen S (f a) (g a)) :
    SameSeen S (x >>= f) (x >>= g) := bind (refl x) fun a b h => by subst h; exact hf a

/-- A branch on the same condition. -/
theorem testThen {b : Bool} {f f' : Tr γ} {g g' : Tr δ} (h : b = true → SameSeen S f g)
    (h' : b = false → SameSeen S f' g') :
    SameSeen S (test b >>= fun x => if x then f else f') (test b >>= fun x => if x then g else g') := by
  refine bind (R := fun x y => x = b ∧ y = b) ⟨rfl, rfl, rfl⟩ fun x y e => ?_
  rw [e.1, e.2]
  cases b with
  | true => exact h rfl
  | false => exact h' rfl

theorem index {a b : List γ} {i : Nat} (h : Len a b) : SameSeen Any (index a i) (index b i) :=
  op (index_rel i h)

theorem indexSet {a b : List γ} {i : Nat} {x y : γ} (h : Len a b) :
    SameSeen Len (indexSet a i x) (indexSet b i y) := op (indexSet_rel i x y h)

theorem getUnchecked {a b : List γ} {i : Nat} (h : Len a b) :
    SameSeen Any (getUnchecked a i) (getUnchecked b i) := by
  refine op ?_
  unfold Rs.getUnchecked
  by_cases hi : i < a.length
  · rw [List.getElem?_eq_getElem hi, List.getElem?_eq_getElem (h ▸ hi)]; trivial
  · rw [List.getElem?_eq_none (Nat.le_of_not_lt hi),
      List.getElem?_eq_none (h ▸ Nat.le_of_not_lt hi)]; rfl

theorem sliceTo {a b : List γ} {n : Nat} (h : Len a b) : SameSeen Len (sliceTo a n) (sliceTo b n) :=
  op (sliceTo_rel n h)

theorem sliceFrom {a b : List γ} {n : Nat} (h : Len a b) :
    SameSeen Len (sliceFrom a n) (sliceFrom b n) := by
  unfold Tr.sliceFrom
  rw [h]
  exact op (sliceFrom_rel n h)

theorem checkRange {a b : List γ} {i j : Nat} (h : Len a b) :
    SameSeen Any (checkRange a i j) (checkRange b i j) := by
  refine op ?_
  unfold Rs.checkRange
  exact ResRel.ite (by rw [h]) (fun _ => trivial) fun _ => rfl

theorem copyIntoRange {a b s t : List γ} {i j : Nat} (h : Len a b) (h' : Len s t) :
    SameSeen Len (copyIntoRange a i j s) (copyIntoRange b i j t) := by
  unfold Tr.copyIntoRange
  rw [h']
  exact op (copyIntoRange_rel i j h h')

theorem copyFromSlice {a b s t : List γ} (h : Len a b) (h' : Len s t) :
    SameSeen Len (copyFromSlice a s) (copyFromSlice b t) := by
  unfold Tr.copyFromSlice
  rw [h, h']
  refine op ?_
  unfold Rs.copyFromSlice
  exact ResRel.ite (by rw [h, h']) (fun _ => h') fun _ => rfl

theorem tryInto {a b : List γ} {n : Nat} (h : Len a b) : SameSeen Len (tryInto n a) (tryInto n b) := by
  refine op ?_
  unfold Rs.tryInto
  exact ResRel.ite (by rw [h]) (fun _ => h) fun _ => rfl

theorem copyNonoverlapping {w : Nat} {c : Cfg} {a b : List Byte} {i n : Nat} {d d' : BitVec w}
    (h : Len a b) : SameSeen Any (copyNonoverlapping c a i d n) (copyNonoverlapping c b i d' n) := by
  refine op ?_
  unfold Rs.copyNonoverlapping
  refine ResRel.ite (by rw [h]) (fun _ => ?_) fun _ => rfl
  dsimp only
  cases c.bigEndian <;> exact trivial

theorem loadu8 {a b : List Byte} {i : Nat} (h : Len a b) : SameSeen Any (loadu8 a i) (loadu8 b i) := by
  refine op ?_
  unfold Rs.loadu8
  exact ResRel.ite (by rw [h]) (fun _ => trivial) fun _ => rfl

theorem loadu32 {a b : List (BitVec 32)} {i : Nat} (h : Len a b) :
    SameSeen Any (loadu32 a i) (loadu32 b i) := by
  refine op ?_
  unfold Rs.loadu32
  have h' : ((a.drop i).take 4).length = ((b.drop i).take 4).length := by
    rw [List.length_take, List.length_take, List.length_drop, List.length_drop, h]
  generalize (a.drop i).take 4 = a at h'
  generalize (b.drop i).take 4 = b at h'
  match a, b, h' with
  | [], [], _ => rfl
  | [_], [_], _ => rfl
  | [_, _], [_, _], _ => rfl
  | [_, _, _], [_, _, _], _ => rfl
  | [_, _, _, _], [_, _, _, _], _ => exact trivial
  | _ :: _ :: _ :: _ :: _ :: _, _ :: _ :: _ :: _ :: _ :: _, _ => rfl

theorem storeu32 {a b : List (BitVec 32)} {i : Nat} {v v' : BitVec 128} (h : Len a b) :
    SameSeen Len (storeu32 a i v) (storeu32 b i v') := by
  refine op ?_
  unfold Rs.storeu32
  refine ResRel.ite (by rw [h]) (fun _ => ?_) fun _ => rfl
  show (List.length _) = List.length _
  simp only [List.length_append, List.length_take, List.length_drop, h, List.length_cons]

theorem shlU {w : Nat} {c : Cfg} {a b : BitVec w} {n : Nat} :
    SameSeen Any (shlU c a n) (shlU c b n) := by
  refine op ?_
  unfold Rs.shlU
  refine ResRel.ite Iff.rfl (fun _ => trivial) fun _ => ?_
  exact ResRel.ite Iff.rfl (fun _ => rfl) fun _ => trivial

theorem shrU {w : Nat} {c : Cfg} {a b : BitVec w} {n : Nat} :
    SameSeen Any (shrU c a n) (shrU c b n) := by
  refine op ?_
  unfold Rs.shrU
  refine ResRel.ite Iff.rfl (fun _ => trivial) fun _ => ?_
  exact ResRel.ite Iff.rfl (fun _ => rfl) fun _ => trivial

theorem fail {f : Fault} : SameSeen R (fail f) (fail f) := op rfl

/-- A test that gives the same on both sides. -/
theorem testEq {b b' : Bool} (h : b = b') : SameSeen Eq (test b) (test b') := by
  subst h; exact refl _

theorem whileR {cond : α → Tr Bool} {cond' : β → Tr Bool} {body : α → Tr α} {body' : β → Tr β}
    (hc : ∀ a b, R a b → SameSeen Eq (cond a) (cond' b)) (hb : ∀ a b, R a b → SameSeen R (body a) (body' b)) :
    ∀ {n : Nat} {a b}, R a b → SameSeen R (whileR n cond body a) (whileR n cond' body' b)
  | 0, _, _, _ => fail
  | n + 1, a, b, h => by
      unfold Tr.whileR
      refine bind (hc a b h) fun x y hxy => ?_
      subst hxy
      refine testThen (fun _ => ?_) fun _ => pure' h
      exact bind (hb a b h) fun s t hs => whileR hc hb hs

/-- What a block that may return does: the same, with related values. -/
def FlowRel {ρ ρ' : Type} (P : ρ → ρ' → Prop) (R : α → β → Prop) :
    Rs.Flow ρ α → Rs.Flow ρ' β → Prop
  | .ret r, .ret r' => P r r'
  | .next a, .next b => R a b
  | _, _ => False

theorem whileBreak {cond : α → Tr Bool} {cond' : β → Tr Bool} {body : α → Tr (Rs.Flow α α)}
    {body' : β → Tr (Rs.Flow β β)} (hc : ∀ a b, R a b → SameSeen Eq (cond a) (cond' b))
    (hb : ∀ a b, R a b → SameSeen (FlowRel R R) (body a) (body' b)) :
    ∀ {n : Nat} {a b}, R a b → SameSeen R (whileBreak n cond body a) (whileBreak n cond' body' b)
  | 0, _, _, _ => fail
  | n + 1, a, b, h => by
      unfold Tr.whileBreak
      refine bind (hc a b h) fun x y hxy => ?_
      subst hxy
      refine testThen (fun _ => ?_) fun _ => pure' h
      refine bind (hb a b h) fun s t hs => ?_
      match s, t, hs with
      | .ret _, .ret _, hs => exact pure' hs
      | .next _, .next _, hs => exact whileBreak hc hb hs

/-- Lists of related elements. -/
def Each {ε ζ : Type} (P : ε → ζ → Prop) : List ε → List ζ → Prop
  | [], [] => True
  | x :: xs, y :: ys => P x y ∧ Each P xs ys
  | _, _ => False

theorem Each.refl {ε : Type} {P : ε → ε → Prop} (h : ∀ x, P x x) : ∀ xs : List ε, Each P xs xs
  | [] => trivial
  | x :: xs => ⟨h x, refl h xs⟩

theorem Each.eq {ε : Type} (xs : List ε) : Each Eq xs xs := Each.refl (fun _ => rfl) xs

theorem Each.ofLen {ε ζ : Type} : ∀ {xs : List ε} {ys : List ζ}, xs.length = ys.length → Each Any xs ys
  | [], [], _ => trivial
  | _ :: _, _ :: _, h => ⟨trivial, ofLen (Nat.succ.inj h)⟩

theorem Each.ofLens {ε : Type} : ∀ {xs ys : List (List ε)}, Lens xs ys → Each Len xs ys
  | [], [], _ => trivial
  | [], _ :: _, h => by simp [Lens] at h
  | _ :: _, [], h => by simp [Lens] at h
  | x :: xs, y :: ys, h => by
      have h' : x.length = y.length ∧ xs.map List.length = ys.map List.length := by simpa [Lens] using h
      exact ⟨h'.1, ofLens h'.2⟩

theorem Each.len {ε ζ : Type} {P : ε → ζ → Prop} : ∀ {xs : List ε} {ys : List ζ}, Each P xs ys →
    xs.length = ys.length
  | [], [], _ => rfl
  | _ :: _, _ :: _, h => congrArg Nat.succ h.2.len

theorem Each.chunks {ε : Type} {xs ys : List ε} {k : Nat} (h : Len xs ys) :
    Each Len (chunksExact k xs) (chunksExact k ys) := ofLens (chunksExact_lens k h)

theorem Each.enumerate {ε : Type} {xs ys : List ε} (h : Len xs ys) :
    Each (fun p q => p.1 = q.1) (Rs.enumerate xs) (Rs.enumerate ys) := by
  unfold Rs.enumerate
  generalize 0 = k
  induction xs generalizing ys k with
  | nil =>
    cases ys with
    | nil => trivial
    | cons => simp [Len] at h
  | cons x xs ih =>
    cases ys with
    | nil => simp [Len] at h
    | cons y ys => exact ⟨rfl, ih (Nat.succ.inj h) (k + 1)⟩

theorem each {ε ζ : Type} {P : ε → ζ → Prop} {f : α → ε → Tr α} {g : β → ζ → Tr β}
    (h : ∀ a b x y, R a b → P x y → SameSeen R (f a x) (g b y)) :
    ∀ {l : List ε} {m : List ζ} {a b}, Each P l m → R a b → SameSeen R (each l f a) (each m g b)
  | [], [], _, _, _, hr => bindEq fun _ => pure' hr
  | x :: _, y :: _, a, b, hl, hr => bindEq fun _ => bind (h a b x y hr hl.1) fun _ _ hr' =>
      each h hl.2 hr'

theorem runLines {ls : List (α → Tr α)} {ls' : List (β → Tr β)} :
    Each (fun f g => ∀ a b, R a b → SameSeen R (f a) (g b)) ls ls' →
    ∀ {a b}, R a b → SameSeen R (runLines ls a) (runLines ls' b) := by
  induction ls generalizing ls' with
  | nil =>
    cases ls' with
    | nil => exact fun _ _ _ hr => pure' hr
    | cons => exact fun h => h.elim
  | cons l ls ih =>
    cases ls' with
    | nil => exact fun h => h.elim
    | cons l' ls' => exact fun h a b hr => bind (h.1 a b hr) fun _ _ hr' => ih h.2 hr'

theorem zipMut {ε ζ : Type} {P : ε → ζ → Prop} {f : α → ε → Tr α} {g : β → ζ → Tr β}
    (h : ∀ a b x y, P x y → SameSeen Any (f a x) (g b y)) :
    ∀ {xs : List α} {ys : List β} {l : List ε} {m : List ζ}, xs.length = ys.length → Each P l m →
      SameSeen (fun xs ys => xs.length = ys.length) (zipMut xs l f) (zipMut ys m g)
  | [], [], [], [], _, _ => bindEq fun _ => pure' rfl
  | [], [], _ :: _, _ :: _, _, _ => bindEq fun _ => pure' rfl
  | _ :: _, _ :: _, [], [], hx, _ => bindEq fun _ => pure' hx
  | x :: _, x' :: _, y :: _, y' :: _, hx, hy =>
      bindEq fun _ => bind (h x x' y y' hy.1) fun _ _ _ =>
        bind (zipMut h (Nat.succ.inj hx) hy.2) fun _ _ hr => pure' (congrArg Nat.succ hr)

theorem zipChunksMut {k : Nat} {f : α → List γ → Tr (List γ)} {g : β → List γ → Tr (List γ)}
    (h : ∀ a b r r', Len r r' → SameSeen Len (f a r) (g b r')) :
    ∀ {xs : List α} {ys : List β} {r r' : List γ}, xs.length = ys.length → Len r r' →
      SameSeen Len (zipChunksMut k xs r f) (zipChunksMut k ys r' g)
  | [], [], _, _, _, hr => bindEq fun _ => pure' hr
  | x :: xs, y :: ys, r, r', hx, hr => by
      unfold Tr.zipChunksMut
      rw [hr]
      refine testThen (fun _ => pure' hr) fun _ => ?_
      refine bind (h x y _ _ ?_) fun c c' hc => bind (zipChunksMut h (Nat.succ.inj hx) ?_) fun t t' ht => ?_
      · show (r.take k).length = (r'.take k).length
        rw [List.length_take, List.length_take, hr]
      · show (r.drop k).length = (r'.drop k).length
        rw [List.length_drop, List.length_drop, hr]
      · refine pure' ?_
        show (c ++ t).length = (c' ++ t').length
        rw [List.length_append, List.length_append, hc, ht]

end SameSeen

end Chf.Tr
