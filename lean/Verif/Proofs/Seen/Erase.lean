import Verif.Proofs.Seen.Basic

/-!
# Steps of the proofs that observing does not change results
-/

namespace Chf.Tr
variable {α β σ : Type}

theorem bindE {x : Tr α} {r : Res α} {f : α → Tr β} {g : α → Res β} (hx : x.res = r)
    (hf : ∀ a, (f a).res = g a) : (x >>= f).res = r >>= g := by
  subst hx
  have : (fun a => (f a).res) = g := funext hf
  subst this
  rfl

theorem testE {b : Bool} {f f' : Tr β} {g g' : Res β} (h : f.res = g) (h' : f'.res = g') :
    (test b >>= fun x => if x then f else f').res = if b then g else g' := by
  subst h
  subst h'
  cases b <;> rfl

theorem iteE {p : Prop} [Decidable p] {f f' : Tr β} {g g' : Res β} (h : f.res = g) (h' : f'.res = g') :
    (if p then f else f').res = if p then g else g' := by
  subst h
  subst h'
  exact ite_res p f f'

/-- A condition with `&&`. -/
theorem allE {b c : Bool} {f f' : Tr β} {g g' : Res β} (h : f.res = g) (h' : f'.res = g') :
    (all [b, c] >>= fun x => if x then f else f').res = if b && c then g else g' := by
  subst h
  subst h'
  cases b <;> cases c <;> rfl

/-! What follows a branch is, in the translation, in both branches. -/

theorem testK {b : Bool} {f f' : Tr α} {k : α → Tr β} {g g' : Res β} (h : (f >>= k).res = g)
    (h' : (f' >>= k).res = g') :
    ((test b >>= fun x => if x then f else f') >>= k).res = if b then g else g' := by
  subst h
  subst h'
  cases b <;> rfl

theorem allK {b c : Bool} {f f' : Tr α} {k : α → Tr β} {g g' : Res β} (h : (f >>= k).res = g)
    (h' : (f' >>= k).res = g') :
    ((all [b, c] >>= fun x => if x then f else f') >>= k).res = if b && c then g else g' := by
  subst h
  subst h'
  cases b <;> cases c <;> rfl

theorem iteK {p : Prop} [Decidable p] {f f' : Tr α} {k : α → Tr β} {g g' : Res β}
    (h : (f >>= k).res = g) (h' : (f' >>= k).res = g') :
    ((if p then f else f') >>= k).res = if p then g else g' := by
  subst h
  subst h'
  split <;> rfl

theorem assocK {x : Tr σ} {f : σ → Tr α} {k : α → Tr β} {g : Res β}
    (h : (x >>= fun a => f a >>= k).res = g) : ((x >>= f) >>= k).res = g := by
  subst h
  show (x.res >>= fun a => (f a).res) >>= (fun a => (k a).res) = x.res >>= fun a => (f a).res >>= fun a => (k a).res
  cases x.res <;> rfl

theorem pureK {a : α} {k : α → Tr β} {g : Res β} (h : (k a).res = g) : (pure a >>= k).res = g := h

theorem pureR {a : α} {x : Tr β} {k : α → Res β} (h : x.res = k a) : x.res = pure a >>= k := h

theorem assocR {x : Tr β} {r : Res σ} {f : σ → Res α} {k : α → Res β}
    (h : x.res = r >>= fun a => f a >>= k) : x.res = (r >>= f) >>= k := by
  rw [h]
  cases r <;> rfl

theorem failK {f : Fault} {k : α → Tr β} : ((fail f : Tr α) >>= k).res = (Except.error f : Res α) >>= fun a => (k a).res := rfl

theorem whileE {c : σ → Tr Bool} {c' : σ → Res Bool} {b : σ → Tr σ} {b' : σ → Res σ}
    (hc : ∀ s, (c s).res = c' s) (hb : ∀ s, (b s).res = b' s) (n : Nat) (s : σ) :
    (whileR n c b s).res = Rs.whileR n c' b' s := by
  have h1 : (fun s => (c s).res) = c' := funext hc
  have h2 : (fun s => (b s).res) = b' := funext hb
  subst h1
  subst h2
  exact whileR_res c b n s

theorem whileBreakE {c : σ → Tr Bool} {c' : σ → Res Bool} {b : σ → Tr (Rs.Flow σ σ)}
    {b' : σ → Res (Rs.Flow σ σ)} (hc : ∀ s, (c s).res = c' s) (hb : ∀ s, (b s).res = b' s) (n : Nat) (s : σ) :
    (whileBreak n c b s).res = Rs.whileBreak n c' b' s := by
  have h1 : (fun s => (c s).res) = c' := funext hc
  have h2 : (fun s => (b s).res) = b' := funext hb
  subst h1
  subst h2
  exact whileBreak_res c b n s

theorem eachE {f : σ → α → Tr σ} {g : σ → α → Res σ} (h : ∀ s a, (f s a).res = g s a) (xs : List α) (s : σ) :
    (each xs f s).res = xs.foldlM g s := by
  have : (fun s a => (f s a).res) = g := funext fun s => funext (h s)
  subst this
  exact each_res f xs s

theorem zipMutE {f : α → β → Tr α} {g : α → β → Res α} (h : ∀ a b, (f a b).res = g a b) (xs : List α)
    (ys : List β) : (zipMut xs ys f).res = Rs.zipMut xs ys g := by
  have : (fun a b => (f a b).res) = g := funext fun a => funext (h a)
  subst this
  exact zipMut_res f xs ys

theorem zipChunksMutE {k : Nat} {f : α → List β → Tr (List β)} {g : α → List β → Res (List β)}
    (h : ∀ a b, (f a b).res = g a b) (xs : List α) (ys : List β) :
    (zipChunksMut k xs ys f).res = Rs.zipChunksMut k xs ys g := by
  have : (fun a b => (f a b).res) = g := funext fun a => funext (h a)
  subst this
  exact zipChunksMut_res k f xs ys

end Chf.Tr

namespace Chf

/-- The next step has the same result observed and not observed. -/
macro "erase_step" : tactic => `(tactic| first
  | with_reducible refine Tr.pureR ?_
  | with_reducible refine Tr.pureK ?_
  | with_reducible refine Tr.testE ?_ ?_
  | with_reducible refine Tr.allE ?_ ?_
  | with_reducible refine Tr.testK ?_ ?_
  | with_reducible refine Tr.allK ?_ ?_
  | with_reducible refine Tr.iteK ?_ ?_
  | with_reducible refine Tr.assocK ?_
  | with_reducible refine Tr.assocR ?_
  | with_reducible refine Tr.bindE ?_ fun _ => ?_
  | with_reducible refine Tr.whileE (fun _ => ?_) (fun _ => ?_) _ _
  | with_reducible refine Tr.whileBreakE (fun _ => ?_) (fun _ => ?_) _ _
  | with_reducible refine Tr.eachE (fun _ _ => ?_) _ _
  | with_reducible refine Tr.zipMutE (fun _ _ => ?_) _ _
  | with_reducible refine Tr.zipChunksMutE (fun _ _ => ?_) _ _
  | with_reducible refine Tr.iteE ?_ ?_
  | dsimp only
  | split
  | rfl)

/-- All steps, with the functions that are called. -/
macro "erase" " [" ts:term,* "]" : tactic => do
  let ts := ts.getElems
  `(tactic| repeat' first | (first $[| with_reducible exact $ts]*) | erase_step)

end Chf
