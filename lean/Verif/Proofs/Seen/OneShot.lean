import Verif.Proofs.Seen.Blind
import Verif.Proofs.Seen.Erases

/-!
# What is seen of the functions that hash in one call
-/

namespace Chf.Seen
open Chf Tr

theorem Sha1.hash_same (cfg : Cfg) {d d' : List Byte} (hd : Len d d') :
    SameSeen Any (Sha1.Hash.hash cfg d) (Sha1.Hash.hash cfg d') :=
  .bind ((Sha1.blind cfg).input ⟨rfl, rfl, rfl⟩ hd) fun _ _ he =>
    .bind ((Sha1.blind cfg).finalize he) fun _ _ _ => SameSeen.pure' trivial

theorem Sha1.hash_res (cfg : Cfg) (d : List Byte) :
    (Sha1.Hash.hash cfg d).res = Source.Sha1.Hash.hash cfg d := by
  unfold Sha1.Hash.hash Source.Sha1.Hash.hash
  erase [Sha1.input_res cfg _ _, Sha1.finalize_res cfg _]

theorem Sha256.hash_same (cfg : Cfg) {d d' : List Byte} (hd : Len d d') :
    SameSeen Any (Sha256.Hash.hash cfg d) (Sha256.Hash.hash cfg d') :=
  .bind ((Sha256.blind cfg).input ⟨rfl, rfl, rfl⟩ hd) fun _ _ he =>
    .bind ((Sha256.blind cfg).finalize he) fun _ _ _ => SameSeen.pure' trivial

theorem Sha256.hash_res (cfg : Cfg) (d : List Byte) :
    (Sha256.Hash.hash cfg d).res = Source.Sha256.Hash.hash cfg d := by
  unfold Sha256.Hash.hash Source.Sha256.Hash.hash
  erase [Sha256.input_res cfg _ _, Sha256.finalize_res cfg _]

theorem Sha384.hash_same (cfg : Cfg) {d d' : List Byte} (hd : Len d d') :
    SameSeen Any (Sha384.Hash.hash cfg d) (Sha384.Hash.hash cfg d') :=
  .bind ((Sha384.blind cfg).input ⟨rfl, rfl, rfl⟩ hd) fun _ _ he =>
    .bind ((Sha384.blind cfg).finalize he) fun _ _ _ => SameSeen.pure' trivial

theorem Sha384.hash_res (cfg : Cfg) (d : List Byte) :
    (Sha384.Hash.hash cfg d).res = Source.Sha384.Hash.hash cfg d := by
  unfold Sha384.Hash.hash Source.Sha384.Hash.hash
  erase [Sha384.input_res cfg _ _, Sha384.finalize_res cfg _]

theorem Sha512.hash_same (cfg : Cfg) {d d' : List Byte} (hd : Len d d') :
    SameSeen Any (Sha512.Hash.hash cfg d) (Sha512.Hash.hash cfg d') :=
  .bind ((Sha512.blind cfg).input ⟨rfl, rfl, rfl⟩ hd) fun _ _ he =>
    .bind ((Sha512.blind cfg).finalize he) fun _ _ _ => SameSeen.pure' trivial

theorem Sha512.hash_res (cfg : Cfg) (d : List Byte) :
    (Sha512.Hash.hash cfg d).res = Source.Sha512.Hash.hash cfg d := by
  unfold Sha512.Hash.hash Source.Sha512.Hash.hash
  erase [Sha512.input_res cfg _ _, Sha512.finalize_res cfg _]

theorem Sha512_256.hash_same (cfg : Cfg) {d d' : List Byte} (hd : Len d d') :
    SameSeen Any (Sha512_256.Hash.hash cfg d) (Sha512_256.Hash.hash cfg d') :=
  .bind ((Sha512_256.blind cfg).input ⟨rfl, rfl, rfl⟩ hd) fun _ _ he =>
    .bind ((Sha512_256.blind cfg).finalize he) fun _ _ _ => SameSeen.pure' trivial

theorem Sha512_256.hash_res (cfg : Cfg) (d : List Byte) :
    (Sha512_256.Hash.hash cfg d).res = Source.Sha512_256.Hash.hash cfg d := by
  unfold Sha512_256.Hash.hash Source.Sha512_256.Hash.hash
  erase [Sha512_256.input_res cfg _ _, Sha512_256.finalize_res cfg _]

theorem Ripemd160.hash_same (cfg : Cfg) {d d' : List Byte} (hd : Len d d') :
    SameSeen Any (Ripemd160.Hash.hash cfg d) (Ripemd160.Hash.hash cfg d') :=
  .bind ((Ripemd160.blind cfg).input ⟨rfl, rfl, rfl⟩ hd) fun _ _ he =>
    .bind ((Ripemd160.blind cfg).finalize he) fun _ _ _ => SameSeen.pure' trivial

theorem Ripemd160.hash_res (cfg : Cfg) (d : List Byte) :
    (Ripemd160.Hash.hash cfg d).res = Source.Ripemd160.Hash.hash cfg d := by
  unfold Ripemd160.Hash.hash Source.Ripemd160.Hash.hash
  erase [Ripemd160.input_res cfg _ _, Ripemd160.finalize_res cfg _]

theorem Siphash24.hash_same (cfg : Cfg) {d d' : List Byte} (hd : Len d d') :
    SameSeen Any (Siphash24.Hash.hash cfg d) (Siphash24.Hash.hash cfg d') :=
  .bind ((Siphash24.blind cfg).input ⟨rfl, rfl⟩ hd) fun _ _ _ => SameSeen.pure' trivial

theorem Siphash24.hash_res (cfg : Cfg) (d : List Byte) :
    (Siphash24.Hash.hash cfg d).res = Source.Siphash24.Hash.hash cfg d := by
  unfold Siphash24.Hash.hash Source.Siphash24.Hash.hash
  erase [Siphash24.input_res cfg _ _]

theorem Siphash24.hash_with_keys_same (cfg : Cfg) (k0 k1 k0' k1' : BitVec 64) {d d' : List Byte}
    (hd : Len d d') :
    SameSeen Any (Siphash24.Hash.hash_with_keys cfg k0 k1 d) (Siphash24.Hash.hash_with_keys cfg k0' k1' d') :=
  .bind ((Siphash24.blind cfg).input ⟨rfl, rfl⟩ hd) fun _ _ _ => SameSeen.pure' trivial

theorem Siphash24.hash_with_keys_res (cfg : Cfg) (k0 k1 : BitVec 64) (d : List Byte) :
    (Siphash24.Hash.hash_with_keys cfg k0 k1 d).res = Source.Siphash24.Hash.hash_with_keys cfg k0 k1 d := by
  unfold Siphash24.Hash.hash_with_keys Source.Siphash24.Hash.hash_with_keys
  erase [Siphash24.input_res cfg _ _]

theorem Siphash24.hash_to_u64_with_keys_same (cfg : Cfg) (k0 k1 k0' k1' : BitVec 64) {d d' : List Byte}
    (hd : Len d d') :
    SameSeen Any (Siphash24.Hash.hash_to_u64_with_keys cfg k0 k1 d) (Siphash24.Hash.hash_to_u64_with_keys cfg k0' k1' d') :=
  .bind ((Siphash24.blind cfg).input ⟨rfl, rfl⟩ hd) fun _ _ _ => SameSeen.pure' trivial

theorem Siphash24.hash_to_u64_with_keys_res (cfg : Cfg) (k0 k1 : BitVec 64) (d : List Byte) :
    (Siphash24.Hash.hash_to_u64_with_keys cfg k0 k1 d).res = Source.Siphash24.Hash.hash_to_u64_with_keys cfg k0 k1 d := by
  unfold Siphash24.Hash.hash_to_u64_with_keys Source.Siphash24.Hash.hash_to_u64_with_keys
  erase [Siphash24.input_res cfg _ _]

end Chf.Seen
