import Verif.Proofs.Seen.Erase
import Verif.Proofs.Seen.LinesSha256
import Verif.Proofs.Seen.LinesSha512
import Verif.Proofs.Seen.LinesRipemd160
import Verif.Seen.Sha1
import Verif.Seen.Sha384
import Verif.Seen.Sha512_256
import Verif.Seen.Sha256t
import Verif.Seen.Siphash24
import Verif.Seen.Hmac
import Verif.Seen.Lib
import Verif.Seen.Cmp

/-!
# The observed functions compute what the translated functions compute
-/

namespace Chf.Seen
open Chf Tr

theorem Sha1.process_block_res (cfg : Cfg) (e : Source.Sha1.Engine) :
    (Sha1.Engine.process_block cfg e).res = Source.Sha1.Engine.process_block cfg e := by
  unfold Sha1.Engine.process_block Source.Sha1.Engine.process_block
  try dsimp only
  repeat' erase_step

theorem Sha1.input_res (cfg : Cfg) (e : Source.Sha1.Engine) (d : List Byte) :
    (Sha1.Engine.input cfg e d).res = Source.Sha1.Engine.input cfg e d := by
  unfold Sha1.Engine.input Source.Sha1.Engine.input
  try dsimp only
  erase [Sha1.process_block_res cfg _]

theorem Sha1.midstate_res (cfg : Cfg) (e : Source.Sha1.Engine) :
    (Sha1.Engine.midstate cfg e).res = Source.Sha1.Engine.midstate cfg e := by
  unfold Sha1.Engine.midstate Source.Sha1.Engine.midstate
  try dsimp only
  repeat' erase_step

theorem Sha1.from_midstate_res (cfg : Cfg) (m : List Byte) (n : Nat) :
    (Sha1.Engine.from_midstate cfg m n).res = Source.Sha1.Engine.from_midstate cfg m n := by
  unfold Sha1.Engine.from_midstate Source.Sha1.Engine.from_midstate
  try dsimp only
  repeat' erase_step

theorem Sha1.finalize_res (cfg : Cfg) (e : Source.Sha1.Engine) :
    (Sha1.Engine.finalize cfg e).res = Source.Sha1.Engine.finalize cfg e := by
  unfold Sha1.Engine.finalize Source.Sha1.Engine.finalize
  try dsimp only
  erase [Sha1.input_res cfg _ _, Sha1.midstate_res cfg _]

set_option maxRecDepth 4000 in
theorem Ripemd160.process_block_fast_res (cfg : Cfg) (e : Source.Ripemd160.Engine) :
    (Ripemd160.Engine.process_block_fast cfg e).res = Source.Ripemd160.Engine.process_block_fast cfg e := by
  unfold Ripemd160.Engine.process_block_fast Source.Ripemd160.Engine.process_block_fast
  try dsimp only
  erase [runLines_res (Ripemd160.Engine.process_block_fast.lines1_res cfg) _]

set_option maxRecDepth 4000 in
theorem Ripemd160.process_block_small_res (cfg : Cfg) (e : Source.Ripemd160.Engine) :
    (Ripemd160.Engine.process_block_small cfg e).res = Source.Ripemd160.Engine.process_block_small cfg e := by
  unfold Ripemd160.Engine.process_block_small Source.Ripemd160.Engine.process_block_small
  try dsimp only
  erase [runLines_res (Ripemd160.Engine.process_block_small.lines1_res cfg) _]

theorem Ripemd160.process_block_res (cfg : Cfg) (e : Source.Ripemd160.Engine) :
    (Ripemd160.Engine.process_block cfg e).res = Source.Ripemd160.Engine.process_block cfg e := by
  unfold Ripemd160.Engine.process_block Source.Ripemd160.Engine.process_block
  try dsimp only
  erase [Ripemd160.process_block_fast_res cfg _, Ripemd160.process_block_small_res cfg _]

theorem Ripemd160.input_res (cfg : Cfg) (e : Source.Ripemd160.Engine) (d : List Byte) :
    (Ripemd160.Engine.input cfg e d).res = Source.Ripemd160.Engine.input cfg e d := by
  unfold Ripemd160.Engine.input Source.Ripemd160.Engine.input
  try dsimp only
  erase [Ripemd160.process_block_res cfg _]

theorem Ripemd160.midstate_res (cfg : Cfg) (e : Source.Ripemd160.Engine) :
    (Ripemd160.Engine.midstate cfg e).res = Source.Ripemd160.Engine.midstate cfg e := by
  unfold Ripemd160.Engine.midstate Source.Ripemd160.Engine.midstate
  try dsimp only
  repeat' erase_step

theorem Ripemd160.from_midstate_res (cfg : Cfg) (m : List Byte) (n : Nat) :
    (Ripemd160.Engine.from_midstate cfg m n).res = Source.Ripemd160.Engine.from_midstate cfg m n := by
  unfold Ripemd160.Engine.from_midstate Source.Ripemd160.Engine.from_midstate
  try dsimp only
  repeat' erase_step

theorem Ripemd160.finalize_res (cfg : Cfg) (e : Source.Ripemd160.Engine) :
    (Ripemd160.Engine.finalize cfg e).res = Source.Ripemd160.Engine.finalize cfg e := by
  unfold Ripemd160.Engine.finalize Source.Ripemd160.Engine.finalize
  try dsimp only
  erase [Ripemd160.input_res cfg _ _, Ripemd160.midstate_res cfg _]

theorem Sha512.process_block_fast_res (cfg : Cfg) (e : Source.Sha512.Engine) :
    (Sha512.Engine.process_block_fast cfg e).res = Source.Sha512.Engine.process_block_fast cfg e := by
  unfold Sha512.Engine.process_block_fast Source.Sha512.Engine.process_block_fast
  try dsimp only
  erase [runLines_res (Sha512.Engine.process_block_fast.lines1_res cfg) _]

theorem Sha512.process_block_small_res (cfg : Cfg) (e : Source.Sha512.Engine) :
    (Sha512.Engine.process_block_small cfg e).res = Source.Sha512.Engine.process_block_small cfg e := by
  unfold Sha512.Engine.process_block_small Source.Sha512.Engine.process_block_small
  try dsimp only
  erase [runLines_res (Sha512.Engine.process_block_small.lines1_res cfg) _]

theorem Sha512.process_block_res (cfg : Cfg) (e : Source.Sha512.Engine) :
    (Sha512.Engine.process_block cfg e).res = Source.Sha512.Engine.process_block cfg e := by
  unfold Sha512.Engine.process_block Source.Sha512.Engine.process_block
  try dsimp only
  erase [Sha512.process_block_fast_res cfg _, Sha512.process_block_small_res cfg _]

theorem Sha512.input_res (cfg : Cfg) (e : Source.Sha512.Engine) (d : List Byte) :
    (Sha512.Engine.input cfg e d).res = Source.Sha512.Engine.input cfg e d := by
  unfold Sha512.Engine.input Source.Sha512.Engine.input
  try dsimp only
  erase [Sha512.process_block_res cfg _]

theorem Sha512.midstate_res (cfg : Cfg) (e : Source.Sha512.Engine) :
    (Sha512.Engine.midstate cfg e).res = Source.Sha512.Engine.midstate cfg e := by
  unfold Sha512.Engine.midstate Source.Sha512.Engine.midstate
  try dsimp only
  repeat' erase_step

theorem Sha512.from_midstate_res (cfg : Cfg) (m : List Byte) (n : Nat) :
    (Sha512.Engine.from_midstate cfg m n).res = Source.Sha512.Engine.from_midstate cfg m n := by
  unfold Sha512.Engine.from_midstate Source.Sha512.Engine.from_midstate
  try dsimp only
  repeat' erase_step

theorem Sha512.finalize_res (cfg : Cfg) (e : Source.Sha512.Engine) :
    (Sha512.Engine.finalize cfg e).res = Source.Sha512.Engine.finalize cfg e := by
  unfold Sha512.Engine.finalize Source.Sha512.Engine.finalize
  try dsimp only
  erase [Sha512.input_res cfg _ _, Sha512.midstate_res cfg _]

theorem Sha256.process_block_simd_x86_intrinsics_res (cfg : Cfg) (e : Source.Sha256.Engine) :
    (Sha256.Engine.process_block_simd_x86_intrinsics cfg e).res = Source.Sha256.Engine.process_block_simd_x86_intrinsics cfg e := by
  unfold Sha256.Engine.process_block_simd_x86_intrinsics Source.Sha256.Engine.process_block_simd_x86_intrinsics
  try dsimp only
  erase [runLines_res (Sha256.Engine.process_block_simd_x86_intrinsics.lines1_res cfg _ _ _) _]

theorem Sha256.software_process_block_fast_res (cfg : Cfg) (e : Source.Sha256.Engine) :
    (Sha256.Engine.software_process_block_fast cfg e).res = Source.Sha256.Engine.software_process_block_fast cfg e := by
  unfold Sha256.Engine.software_process_block_fast Source.Sha256.Engine.software_process_block_fast
  try dsimp only
  erase [runLines_res (Sha256.Engine.software_process_block_fast.lines1_res cfg) _]

theorem Sha256.software_process_block_small_res (cfg : Cfg) (e : Source.Sha256.Engine) :
    (Sha256.Engine.software_process_block_small cfg e).res = Source.Sha256.Engine.software_process_block_small cfg e := by
  unfold Sha256.Engine.software_process_block_small Source.Sha256.Engine.software_process_block_small
  try dsimp only
  erase [runLines_res (Sha256.Engine.software_process_block_small.lines1_res cfg) _]

theorem Sha256.software_process_block_res (cfg : Cfg) (e : Source.Sha256.Engine) :
    (Sha256.Engine.software_process_block cfg e).res = Source.Sha256.Engine.software_process_block cfg e := by
  unfold Sha256.Engine.software_process_block Source.Sha256.Engine.software_process_block
  try dsimp only
  erase [Sha256.software_process_block_fast_res cfg _, Sha256.software_process_block_small_res cfg _]

theorem Sha256.process_block_res (cfg : Cfg) (e : Source.Sha256.Engine) :
    (Sha256.Engine.process_block cfg e).res = Source.Sha256.Engine.process_block cfg e := by
  unfold Sha256.Engine.process_block Source.Sha256.Engine.process_block
  try dsimp only
  erase [Sha256.process_block_simd_x86_intrinsics_res cfg _, Sha256.software_process_block_res cfg _]

theorem Sha256.input_res (cfg : Cfg) (e : Source.Sha256.Engine) (d : List Byte) :
    (Sha256.Engine.input cfg e d).res = Source.Sha256.Engine.input cfg e d := by
  unfold Sha256.Engine.input Source.Sha256.Engine.input
  try dsimp only
  erase [Sha256.process_block_res cfg _]

theorem Sha256.midstate_res (cfg : Cfg) (e : Source.Sha256.Engine) :
    (Sha256.Engine.midstate cfg e).res = Source.Sha256.Engine.midstate cfg e := by
  unfold Sha256.Engine.midstate Source.Sha256.Engine.midstate
  try dsimp only
  repeat' erase_step

theorem Sha256.from_midstate_res (cfg : Cfg) (m : Source.Sha256.Midstate) (n : Nat) :
    (Sha256.Engine.from_midstate cfg m n).res = Source.Sha256.Engine.from_midstate cfg m n := by
  unfold Sha256.Engine.from_midstate Source.Sha256.Engine.from_midstate
  try dsimp only
  repeat' erase_step

theorem Sha256.finalize_res (cfg : Cfg) (e : Source.Sha256.Engine) :
    (Sha256.Engine.finalize cfg e).res = Source.Sha256.Engine.finalize cfg e := by
  unfold Sha256.Engine.finalize Source.Sha256.Engine.finalize
  try dsimp only
  erase [Sha256.input_res cfg _ _, Sha256.midstate_res cfg _]

theorem Sha256.read_u32_res (cfg : Cfg) (d : List Byte) (i : Nat) :
    (Sha256.Midstate.read_u32 cfg d i).res = Source.Sha256.Midstate.read_u32 cfg d i := by
  unfold Sha256.Midstate.read_u32 Source.Sha256.Midstate.read_u32
  try dsimp only
  repeat' erase_step

theorem Sha256.copy_w_res (cfg : Cfg) (d : List Byte) (i : Nat) :
    (Sha256.Midstate.copy_w cfg d i).res = Source.Sha256.Midstate.copy_w cfg d i := by
  unfold Sha256.Midstate.copy_w Source.Sha256.Midstate.copy_w
  try dsimp only
  erase [Sha256.read_u32_res cfg _ _]

theorem Sha256.const_hash_fast_res (cfg : Cfg) (d : List Byte) (fin : Bool) :
    (Sha256.Midstate.const_hash_fast cfg d fin).res = Source.Sha256.Midstate.const_hash_fast cfg d fin := by
  unfold Sha256.Midstate.const_hash_fast Source.Sha256.Midstate.const_hash_fast
  try dsimp only
  erase [Sha256.copy_w_res cfg _ _, runLines_res (Sha256.Midstate.const_hash_fast.lines1_res cfg) _]

theorem Sha256.const_hash_small_res (cfg : Cfg) (d : List Byte) (fin : Bool) :
    (Sha256.Midstate.const_hash_small cfg d fin).res = Source.Sha256.Midstate.const_hash_small cfg d fin := by
  unfold Sha256.Midstate.const_hash_small Source.Sha256.Midstate.const_hash_small
  try dsimp only
  erase [Sha256.copy_w_res cfg _ _, runLines_res (Sha256.Midstate.const_hash_small.lines1_res cfg) _]

theorem Sha256.const_hash_res (cfg : Cfg) (d : List Byte) (fin : Bool) :
    (Sha256.Midstate.const_hash cfg d fin).res = Source.Sha256.Midstate.const_hash cfg d fin := by
  unfold Sha256.Midstate.const_hash Source.Sha256.Midstate.const_hash
  try dsimp only
  erase [Sha256.const_hash_small_res cfg _ _, Sha256.const_hash_fast_res cfg _ _]

theorem Sha256.hash_const_hash_res (cfg : Cfg) (d : List Byte) :
    (Sha256.Hash.const_hash cfg d).res = Source.Sha256.Hash.const_hash cfg d := by
  unfold Sha256.Hash.const_hash Source.Sha256.Hash.const_hash
  try dsimp only
  erase [Sha256.const_hash_res cfg _ _]

theorem Sha256.hash_tag_res (cfg : Cfg) (d : List Byte) :
    (Sha256.Midstate.hash_tag cfg d).res = Source.Sha256.Midstate.hash_tag cfg d := by
  unfold Sha256.Midstate.hash_tag Source.Sha256.Midstate.hash_tag
  try dsimp only
  erase [Sha256.hash_const_hash_res cfg _, Sha256.const_hash_res cfg _ _]

theorem Sha256.trait_from_midstate_res (cfg : Cfg) (m : Source.Sha256.Midstate) (n : Nat) :
    (Sha256.Engine.HashEngine.from_midstate cfg m n).res = Source.Sha256.Engine.HashEngine.from_midstate cfg m n := by
  unfold Sha256.Engine.HashEngine.from_midstate Source.Sha256.Engine.HashEngine.from_midstate
  try dsimp only
  repeat' erase_step

theorem Sha384.input_res (cfg : Cfg) (e : Source.Sha384.Engine) (d : List Byte) :
    (Sha384.Engine.input cfg e d).res = Source.Sha384.Engine.input cfg e d := by
  unfold Sha384.Engine.input Source.Sha384.Engine.input
  try dsimp only
  erase [Sha512.input_res cfg _ _]

theorem Sha384.finalize_res (cfg : Cfg) (e : Source.Sha384.Engine) :
    (Sha384.Engine.finalize cfg e).res = Source.Sha384.Engine.finalize cfg e := by
  unfold Sha384.Engine.finalize Source.Sha384.Engine.finalize
  try dsimp only
  erase [Sha512.finalize_res cfg _]

theorem Sha384.midstate_res (cfg : Cfg) (e : Source.Sha384.Engine) :
    (Sha384.Engine.midstate cfg e).res = Source.Sha384.Engine.midstate cfg e := by
  unfold Sha384.Engine.midstate Source.Sha384.Engine.midstate
  try dsimp only
  erase [Sha512.midstate_res cfg _]

theorem Sha384.from_midstate_res (cfg : Cfg) (m : List Byte) (n : Nat) :
    (Sha384.Engine.from_midstate cfg m n).res = Source.Sha384.Engine.from_midstate cfg m n := by
  unfold Sha384.Engine.from_midstate Source.Sha384.Engine.from_midstate
  try dsimp only
  erase [Sha512.from_midstate_res cfg _ _]

theorem Sha512_256.input_res (cfg : Cfg) (e : Source.Sha512_256.Engine) (d : List Byte) :
    (Sha512_256.Engine.input cfg e d).res = Source.Sha512_256.Engine.input cfg e d := by
  unfold Sha512_256.Engine.input Source.Sha512_256.Engine.input
  try dsimp only
  erase [Sha512.input_res cfg _ _]

theorem Sha512_256.finalize_res (cfg : Cfg) (e : Source.Sha512_256.Engine) :
    (Sha512_256.Engine.finalize cfg e).res = Source.Sha512_256.Engine.finalize cfg e := by
  unfold Sha512_256.Engine.finalize Source.Sha512_256.Engine.finalize
  try dsimp only
  erase [Sha512.finalize_res cfg _]

theorem Sha512_256.midstate_res (cfg : Cfg) (e : Source.Sha512_256.Engine) :
    (Sha512_256.Engine.midstate cfg e).res = Source.Sha512_256.Engine.midstate cfg e := by
  unfold Sha512_256.Engine.midstate Source.Sha512_256.Engine.midstate
  try dsimp only
  erase [Sha512.midstate_res cfg _]

theorem Sha512_256.from_midstate_res (cfg : Cfg) (m : List Byte) (n : Nat) :
    (Sha512_256.Engine.from_midstate cfg m n).res = Source.Sha512_256.Engine.from_midstate cfg m n := by
  unfold Sha512_256.Engine.from_midstate Source.Sha512_256.Engine.from_midstate
  try dsimp only
  erase [Sha512.from_midstate_res cfg _ _]

theorem Sha256t.input_res (cfg : Cfg) (T : Source.Sha256t.Tag) (T' : Sha256t.Tag) (e : Source.Sha256t.Engine) (d : List Byte) :
    (Sha256t.Engine.input cfg T T' e d).res = Source.Sha256t.Engine.input cfg T e d := by
  unfold Sha256t.Engine.input Source.Sha256t.Engine.input
  try dsimp only
  erase [Sha256.input_res cfg _ _]

theorem Sha256t.finalize_res (cfg : Cfg) (T : Source.Sha256t.Tag) (T' : Sha256t.Tag) (e : Source.Sha256t.Engine) :
    (Sha256t.Engine.finalize cfg T T' e).res = Source.Sha256t.Engine.finalize cfg T e := by
  unfold Sha256t.Engine.finalize Source.Sha256t.Engine.finalize
  try dsimp only
  erase [Sha256.finalize_res cfg _]

theorem Sha256t.midstate_res (cfg : Cfg) (T : Source.Sha256t.Tag) (T' : Sha256t.Tag) (e : Source.Sha256t.Engine) :
    (Sha256t.Engine.midstate cfg T T' e).res = Source.Sha256t.Engine.midstate cfg T e := by
  unfold Sha256t.Engine.midstate Source.Sha256t.Engine.midstate
  try dsimp only
  erase [Sha256.midstate_res cfg _]

theorem Sha256t.from_midstate_res (cfg : Cfg) (T : Source.Sha256t.Tag) (T' : Sha256t.Tag) (m : Source.Sha256.Midstate) (n : Nat) :
    (Sha256t.Engine.from_midstate cfg T T' m n).res = Source.Sha256t.Engine.from_midstate cfg T m n := by
  unfold Sha256t.Engine.from_midstate Source.Sha256t.Engine.from_midstate
  try dsimp only
  erase [Sha256.from_midstate_res cfg _ _]

theorem Siphash24.u8to64_le_res (cfg : Cfg) (d : List Byte) (i n : Nat) :
    (Siphash24.u8to64_le cfg d i n).res = Source.Siphash24.u8to64_le cfg d i n := by
  unfold Siphash24.u8to64_le Source.Siphash24.u8to64_le
  try dsimp only
  repeat' erase_step

theorem Siphash24.input_res (cfg : Cfg) (e : Source.Siphash24.Engine) (d : List Byte) :
    (Siphash24.Engine.input cfg e d).res = Source.Siphash24.Engine.input cfg e d := by
  unfold Siphash24.Engine.input Source.Siphash24.Engine.input
  try dsimp only
  erase [Siphash24.u8to64_le_res cfg _ _ _]

theorem Cmp.fixed_time_eq_res (cfg : Cfg) (a b : List Byte) :
    (Cmp.fixed_time_eq cfg a b).res = Source.Cmp.fixed_time_eq cfg a b := by
  unfold Cmp.fixed_time_eq Source.Cmp.fixed_time_eq
  try dsimp only
  repeat' erase_step

end Chf.Seen
