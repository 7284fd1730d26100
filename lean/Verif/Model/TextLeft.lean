import Verif.Model.Text
import Verif.Model.Unwind
import Verif.Left.Sha1
import Verif.Left.Sha256
import Verif.Left.Sha256t
import Verif.Left.Sha384
import Verif.Left.Sha512
import Verif.Left.Sha512_256
import Verif.Left.Ripemd160
import Verif.Left.Siphash24
import Verif.Left.Hmac

/-!
# What a panicking `input` of the translated text leaves behind

`Verif/Left` is the text of the `input`s once more, with the value of `*self` that each panic leaves.
-/

namespace Chf.Source
open Chf

/-- `input` of every engine of the text, and the engine that a panic of it leaves. -/
def inputLeft (cfg : Cfg) : (a : Alg) → (engineOf cfg a).State → List Byte →
    Left (engineOf cfg a).State (engineOf cfg a).State
  | .sha1 => Sha1.Engine.input_left cfg
  | .sha256 => Sha256.Engine.input_left cfg
  | .sha384 => Sha384.Engine.input_left cfg
  | .sha512 => Sha512.Engine.input_left cfg
  | .sha512_256 => Sha512_256.Engine.input_left cfg
  | .ripemd160 => Ripemd160.Engine.input_left cfg
  | .siphash24 => Siphash24.Engine.input_left cfg
  | .sha256t mid len data => Sha256t.Engine.input_left cfg (.ofMidstate cfg mid len data)
  | .hmac a => Hmac.Engine.input_left cfg (E := engineOf cfg a) ⟨inputLeft cfg a⟩

/-- The engines of the text for a program that catches the panics of `input`. -/
def catchText (cfg : Cfg) : CatchImpl where
  toImpl := text cfg
  left a e d := (inputLeft cfg a e d).state

end Chf.Source
