import Verif.Model.Sha256Const
import Verif.Model.Alg

/-!
# A user of the tagged engine

The tag that `Midstate::hash_tag` is made for, written as in the tests of `/repo/src/sha256t.rs`
(185-191) with `hash_tag(tag)` for the constant midstate.
-/

namespace Chf

/-- A tag whose engine is `from_midstate(hash_tag(tag), 64)`. -/
def bip340Tag (c : Cfg) (tag : List Byte) : Sha256t.Tag where
  engine := do
    let m ← Sha256.hashTag c tag
    Sha256.fromMidstate m 64

end Chf
