import Verif.Model.Run

/-!
# How much an observer of branches and addresses may see of the engines

The numbers of C87, for each engine.  What is counted is in `Verif/Seen/Prelude.lean`.
-/

namespace Chf.Seen

/-- How much is seen of an engine, at most. -/
structure Work where
  /-- Bytes of a block. -/
  block : Nat
  /-- For each block. -/
  perBlock : Nat
  /-- To make an engine. -/
  start : Nat
  /-- Bytes waiting in the buffer of a new engine. -/
  fresh : Nat
  /-- For a call of `input`, besides the blocks. -/
  call : Nat
  /-- For `finalize`, besides the blocks. -/
  finish : Nat
  /-- The last block takes this many bytes of padding more than the first byte of it. -/
  pad : Nat
  /-- For `midstate`. -/
  mid : Nat
  /-- For `from_midstate`. -/
  resume : Nat
  /-- Bytes of a digest. -/
  digest : Nat
  /-- The block size that the engine gives, a multiple of `block`. -/
  size : Nat

/-- For `input` of `n` bytes with `p` waiting. -/
def Work.input (w : Work) (p n : Nat) : Nat := w.call + w.perBlock * ((p + n) / w.block)

/-- For `finalize` with `p` bytes waiting. -/
def Work.finalize (w : Work) (p : Nat) : Nat := w.finish + w.perBlock * ((p + w.pad) / w.block + 1)

/-- For `hash` of `n` bytes. -/
def Work.hash (w : Work) (n : Nat) : Nat :=
  w.start + w.call + w.finish + w.perBlock * ((w.fresh + n + w.pad) / w.block + 1)

/-- For `hash_byte_chunks` of `k` slices with `n` bytes together. -/
def Work.chunks (w : Work) (k n : Nat) : Nat :=
  w.start + 1 + (1 + w.call) * k + w.finish + w.perBlock * ((w.fresh + n + w.pad) / w.block + 1)

def Sha1.work : Work := ⟨64, 921, 0, 0, 8, 50, 8, 16, 11, 20, 64⟩

def Ripemd160.work : Work := ⟨64, 1886, 0, 0, 8, 50, 8, 16, 11, 20, 64⟩

def Sha256.work : Work := ⟨64, 368, 0, 0, 8, 59, 8, 25, 17, 32, 64⟩

def Sha512.work : Work := ⟨128, 464, 0, 0, 8, 67, 16, 25, 17, 64, 128⟩

def Sha384.work : Work := ⟨128, 464, 0, 0, 8, 70, 16, 25, 17, 48, 128⟩

def Sha512_256.work : Work := ⟨128, 464, 0, 0, 8, 70, 16, 25, 17, 32, 128⟩

def Siphash24.work : Work := ⟨8, 2, 0, 0, 13, 0, 0, 0, 0, 8, 32⟩

/-- For a tag whose engine is made of a midstate and `n` bytes. -/
def Sha256t.work (n : Nat) : Work := ⟨64, 368, 17 + 8 + 368 * (n / 64), n % 64, 8, 59, 8, 25, 17, 32, 64⟩

/-- For `hmac::Engine` of an engine. -/
def Hmac.work (w : Work) : Work :=
  { block := w.block
    perBlock := w.perBlock
    start := 2 * w.start + 5 + 2 * (w.call + w.perBlock * (w.size / w.block))
    fresh := w.fresh
    call := w.call
    finish := 2 * w.finish + w.call + w.perBlock * ((w.fresh + w.digest + w.pad) / w.block + 1)
    pad := w.pad
    mid := 2 * w.mid
    resume := 2 * w.resume
    digest := w.digest
    size := w.size }

/-- For `hmac::Engine::new` with a key of `n` bytes. -/
def Hmac.keyed (w : Work) (n : Nat) : Nat :=
  if w.size < n then (Hmac.work w).start + w.hash n + 2 * w.digest else (Hmac.work w).start + 2 * n

/-- The numbers for each engine. -/
def workOf : Alg → Work
  | .sha1 => Sha1.work
  | .sha256 => Sha256.work
  | .sha384 => Sha384.work
  | .sha512 => Sha512.work
  | .sha512_256 => Sha512_256.work
  | .ripemd160 => Ripemd160.work
  | .siphash24 => Siphash24.work
  | .sha256t _ _ data => Sha256t.work data.length
  | .hmac a => Hmac.work (workOf a)

/-- What may be seen of making an engine. -/
def makeWork (a : Alg) : Make → Nat
  | .new => (workOf a).start
  | .default => (workOf a).start
  | .sipKeys _ _ => 0
  | .hmacKey key =>
      match a with
      | .hmac a => Hmac.keyed (workOf a) key.length
      | _ => 0
  | .resume _ _ => (workOf a).resume

end Chf.Seen
