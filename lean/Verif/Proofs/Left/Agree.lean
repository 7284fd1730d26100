import Verif.Left.Sha1
import Verif.Left.Sha256
import Verif.Left.Sha384
import Verif.Left.Sha512
import Verif.Left.Sha512_256
import Verif.Left.Sha256t
import Verif.Left.Ripemd160
import Verif.Left.Siphash24
import Verif.Left.Hmac

/-!
# The functions of `Verif/Left` compute what those of `Verif/Source` compute
-/

namespace Chf.Left

theorem res_pure {σ α : Type} (a : α) : res (pure a : Left σ α) = pure a := rfl

theorem res_keep {σ α : Type} (s : σ) (x : Res α) : res (keep s x) = x := by cases x <;> rfl

theorem res_field {τ σ α : Type} (put : τ → σ) (x : Left τ α) : res (field put x) = res x := by
  cases x <;> rfl

theorem res_bind {σ α β : Type} (x : Left σ α) (f : α → Left σ β) :
    res (x >>= f) = res x >>= fun a => res (f a) := by
  cases x <;> rfl

theorem res_ite {σ α : Type} (p : Prop) [Decidable p] (x y : Left σ α) :
    res (if p then x else y) = if p then res x else res y := by split <;> rfl

theorem res_flow {σ α ρ τ : Type} (x : Rs.Flow ρ τ) (f : ρ → Left σ α) (g : τ → Left σ α) :
    res (match x with | .ret r => f r | .next s => g s) =
      match x with | .ret r => res (f r) | .next s => res (g s) := by
  cases x <;> rfl

theorem res_whileR {τ σ : Type} (get : τ → σ) (fuel : Nat) (cond : τ → Left σ Bool) (body : τ → Left σ τ)
    (s : τ) :
    res (whileR get fuel cond body s) = Rs.whileR fuel (fun s => res (cond s)) (fun s => res (body s)) s := by
  induction fuel generalizing s with
  | zero => rfl
  | succ n ih =>
    unfold whileR Rs.whileR
    cases cond s with
    | error e => rfl
    | ok b =>
      cases b with
      | false => rfl
      | true =>
        cases h : body s with
        | error e => rfl
        | ok s => exact ih s

theorem bind_congr {α β : Type} {x y : Res α} {f g : α → Res β} (h : x = y) (hf : ∀ a, f a = g a) :
    x >>= f = y >>= g := by
  rw [h, funext hf]

theorem of_res {σ α : Type} {x : Left σ α} {a : α} (h : res x = .ok a) : x = .ok a := by
  cases x with
  | error e => cases h
  | ok b => cases h; rfl

end Chf.Left

namespace Chf.Source
open Left

namespace Sha1

theorem process_block_res (cfg : Cfg) (e : Engine) :
    res (Engine.process_block_left cfg e) = Engine.process_block cfg e := by
  unfold Engine.process_block_left Engine.process_block
  simp only [res_bind, res_keep, res_pure]

theorem input_res (cfg : Cfg) (e : Engine) (d : List Byte) :
    res (Engine.input_left cfg e d) = Engine.input cfg e d := by
  unfold Engine.input_left Engine.input
  simp only [res_bind, res_keep, res_pure, res_whileR, res_ite, process_block_res]

end Sha1

namespace Sha256

theorem simd_res (cfg : Cfg) (e : Engine) :
    res (Engine.process_block_simd_x86_intrinsics_left cfg e) = Engine.process_block_simd_x86_intrinsics cfg e := by
  unfold Engine.process_block_simd_x86_intrinsics_left Engine.process_block_simd_x86_intrinsics
  simp only [res_bind, res_keep, res_pure]

theorem software_res (cfg : Cfg) (e : Engine) :
    res (Engine.software_process_block_left cfg e) = Engine.software_process_block cfg e := by
  unfold Engine.software_process_block_left Engine.software_process_block
    Engine.software_process_block_small_left Engine.software_process_block_small
    Engine.software_process_block_fast_left Engine.software_process_block_fast
  simp only [res_ite, res_bind, res_keep, res_pure]

theorem process_block_res (cfg : Cfg) (e : Engine) :
    res (Engine.process_block_left cfg e) = Engine.process_block cfg e := by
  unfold Engine.process_block_left Engine.process_block
  simp only [res_bind, res_ite, res_pure, simd_res]
  split
  · exact bind_congr rfl fun _ => rfl
  · exact software_res cfg e

theorem input_res (cfg : Cfg) (e : Engine) (d : List Byte) :
    res (Engine.input_left cfg e d) = Engine.input cfg e d := by
  unfold Engine.input_left Engine.input
  simp only [res_bind, res_keep, res_pure, res_whileR, res_ite, process_block_res]

end Sha256

namespace Sha512

theorem process_block_res (cfg : Cfg) (e : Engine) :
    res (Engine.process_block_left cfg e) = Engine.process_block cfg e := by
  unfold Engine.process_block_left Engine.process_block
    Engine.process_block_small_left Engine.process_block_small
    Engine.process_block_fast_left Engine.process_block_fast
  simp only [res_ite, res_bind, res_keep, res_pure]

theorem input_res (cfg : Cfg) (e : Engine) (d : List Byte) :
    res (Engine.input_left cfg e d) = Engine.input cfg e d := by
  unfold Engine.input_left Engine.input
  simp only [res_bind, res_keep, res_pure, res_whileR, res_ite, process_block_res]

end Sha512

namespace Ripemd160

theorem process_block_res (cfg : Cfg) (e : Engine) :
    res (Engine.process_block_left cfg e) = Engine.process_block cfg e := by
  unfold Engine.process_block_left Engine.process_block
    Engine.process_block_small_left Engine.process_block_small
    Engine.process_block_fast_left Engine.process_block_fast
  simp only [res_ite, res_bind, res_keep, res_pure]

theorem input_res (cfg : Cfg) (e : Engine) (d : List Byte) :
    res (Engine.input_left cfg e d) = Engine.input cfg e d := by
  unfold Engine.input_left Engine.input
  simp only [res_bind, res_keep, res_pure, res_whileR, res_ite, process_block_res]

end Ripemd160

theorem Sha384.input_res (cfg : Cfg) (e : Sha384.Engine) (d : List Byte) :
    res (Sha384.Engine.input_left cfg e d) = Sha384.Engine.input cfg e d := by
  unfold Sha384.Engine.input_left Sha384.Engine.input
  simp only [res_bind, res_field, res_pure, Sha512.input_res]

theorem Sha512_256.input_res (cfg : Cfg) (e : Sha512_256.Engine) (d : List Byte) :
    res (Sha512_256.Engine.input_left cfg e d) = Sha512_256.Engine.input cfg e d := by
  unfold Sha512_256.Engine.input_left Sha512_256.Engine.input
  simp only [res_bind, res_field, res_pure, Sha512.input_res]

theorem Sha256t.input_res (cfg : Cfg) (T : Sha256t.Tag) (e : Sha256t.Engine) (d : List Byte) :
    res (Sha256t.Engine.input_left cfg T e d) = Sha256t.Engine.input cfg T e d := by
  unfold Sha256t.Engine.input_left Sha256t.Engine.input
  simp only [res_bind, res_field, res_pure, Sha256.input_res]

theorem Siphash24.input_res (cfg : Cfg) (e : Siphash24.Engine) (d : List Byte) :
    res (Siphash24.Engine.input_left cfg e d) = Siphash24.Engine.input cfg e d := by
  unfold Siphash24.Engine.input_left Siphash24.Engine.input
  simp only [res_bind, res_ite, res_keep, res_pure]
  refine bind_congr rfl fun l => ?_
  split
  · refine bind_congr rfl fun _ => bind_congr rfl fun _ => bind_congr rfl fun _ => bind_congr rfl fun _ => ?_
    split
    · exact bind_congr rfl fun _ => rfl
    · simp only [pure_bind, res_bind, res_keep, res_pure, res_whileR]
      refine bind_congr rfl fun _ => bind_congr ?_ fun _ => rfl
      congr 1
      funext s
      split <;> simp only [bind_assoc, pure_bind]
  · simp only [pure_bind, res_bind, res_keep, res_pure, res_whileR]
    refine bind_congr rfl fun _ => bind_congr ?_ fun _ => rfl
    congr 1
    funext s
    split <;> simp only [bind_assoc, pure_bind]

theorem Hmac.input_res (cfg : Cfg) {E : HashEngine} (E' : Left.Input E)
    (h : ∀ e d, res (E'.input e d) = E.input e d) (e : Hmac.Engine E) (d : List Byte) :
    res (Hmac.Engine.input_left cfg E' e d) = Hmac.Engine.input cfg E e d := by
  unfold Hmac.Engine.input_left Hmac.Engine.input
  simp only [res_bind, res_field, res_pure, h]

end Chf.Source
