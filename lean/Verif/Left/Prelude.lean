import Verif.Source.Prelude
import Verif.Model.Engine

/-!
# What a panic leaves in `*self`

A function with `&mut self` whose caller catches the panic (`std::panic::catch_unwind`) leaves the
fields of `self` as they were at the moment of the panic.  In the monad here a panic carries that
value.  The modules `Verif/Left/*` are the translated `input`s written over it (`tools/left.py`).
-/

namespace Chf

/-- A panic together with the value of `*self` when it happens. -/
abbrev Left (σ α : Type) := Except (Fault × σ) α

namespace Left

/-- An operation that does not assign to `self`: a panic of it leaves `s`. -/
def keep {σ α : Type} (s : σ) : Res α → Left σ α
  | .ok a => .ok a
  | .error f => .error (f, s)

/-- A call with `&mut self.field`: a panic of it leaves `put` of what it leaves in the field. -/
def field {τ σ α : Type} (put : τ → σ) : Left τ α → Left σ α
  | .ok a => .ok a
  | .error (f, t) => .error (f, put t)

/-- `while cond { body }` for at most `fuel` tests of the condition; `get` is `self` in the variables
of the loop. -/
def whileR {τ σ : Type} (get : τ → σ) (fuel : Nat) (cond : τ → Left σ Bool) (body : τ → Left σ τ) (s : τ) :
    Left σ τ :=
  match fuel with
  | 0 => .error (.fuel, get s)
  | n + 1 =>
    match cond s with
    | .error e => .error e
    | .ok false => .ok s
    | .ok true =>
      match body s with
      | .error e => .error e
      | .ok s => whileR get n cond body s

/-- `input` of an engine, and what it leaves. -/
structure Input (E : HashEngine) where
  input : E.State → List Byte → Left E.State E.State

/-- A caller that does not catch panics. -/
def res {σ α : Type} : Left σ α → Res α
  | .ok a => .ok a
  | .error (f, _) => .error f

/-- A caller that catches them has `*self` in any case. -/
def state {σ : Type} : Left σ σ → σ
  | .ok s => s
  | .error (_, s) => s

end Left

end Chf
