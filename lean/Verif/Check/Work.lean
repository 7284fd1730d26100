import Verif.Check.Values
import Verif.Check.Instances
import Verif.Model.HashApi
import Verif.Model.Write
import Verif.Spec.Shape
import Verif.Spec.Panics

/-!
# Executable instances of the theorems about calls of the block functions and about hashing functions

As `Verif.Check.Instances`, for C33, C49 and C51 - C59.
-/

namespace Chf.Check
open Spec HashTy

/-! ## Collisions -/

/-- Chaining values can be compared. -/
def decH {c : Cfg} {a : Alg} {X : BlockHash} (h : a.blockHash c = some X) : DecidableEq X.H :=
  match a with
  | .sha1 | .ripemd160 => Option.some.inj h ▸ inferInstanceAs (DecidableEq (Arr5 (BitVec 32)))
  | .sha256 => Option.some.inj h ▸ inferInstanceAs (DecidableEq (Arr8 (BitVec 32)))
  | .sha384 | .sha512 | .sha512_256 =>
      Option.some.inj h ▸ inferInstanceAs (DecidableEq (Arr8 (BitVec 64)))
  | .siphash24 | .sha256t _ _ _ | .hmac _ => by cases h

/-- Two different calls with the same result. -/
def collides (c : Cfg) (X : BlockHash) (dec : DecidableEq X.H) (ds ds' : List (List Byte)) : Bool :=
  match X.calls c ds, X.calls c ds' with
  | .ok r, .ok r' => r.2.any fun x => r'.2.any fun x' =>
      !decide (x = x') &&
      match X.ops.process x.2 x.1, X.ops.process x'.2 x'.1 with
      | .ok h, .ok h' => decide (h = h')
      | _, _ => false
  | _, _ => false

def runsCollide (c : Cfg) (a : Alg) (ds ds' : List (List Byte)) : Bool :=
  match h : a.blockHash c with
  | none => false
  | some X => collides c X (decH h) ds ds'

/-- Both returned, and returned the same. -/
def agree (r r' : Res (List Byte)) : Bool :=
  match r, r' with
  | .ok d, .ok d' => decide (d = d')
  | _, _ => false

/-- Messages that a wrong padding could confuse. -/
def confusable : List (List (List Byte) × List (List Byte)) :=
  [([], [[0]]), ([], [[0x80]]), ([msg 3], [msg 3 ++ [0]]), ([msg 3], [msg 3, [0x80]]),
    ([msg 55], [msg 55 ++ [0x80]]), ([msg 64], [msg 64 ++ [0]]), ([msg 64], []), ([msg 64], [msg 65]),
    ([msg 119], [msg 119, [0x80, 0]]), ([List.replicate 64 0], [List.replicate 128 0]),
    ([List.replicate 63 0], [List.replicate 64 0]), ([msg 60, [1]], [msg 60, [2]]),
    ([[1] ++ msg 130], [[2] ++ msg 130]), ([msg 130 ++ [1]], [msg 130 ++ [2]])]

def untruncatedAlgs : List Alg := [.sha1, .sha256, .sha512, .ripemd160]

def check_C49_collision (_ : Unit) : Bool :=
  forall2 (cfgs.flatMap fun c => untruncatedAlgs.map (c, ·)) confusable fun x p =>
    !agree ((x.2.engine x.1).hashByteChunks p.1) ((x.2.engine x.1).hashByteChunks p.2) ||
      runsCollide x.1 x.2 p.1 p.2

/-- Tags and messages that a wrong tagging could confuse. -/
def taggedPairs : List ((List Byte × List Byte) × (List Byte × List Byte)) :=
  [(([1], [2]), ([1, 2], [])), (([1], []), ([2], [])), (([1], msg 70), ([2], msg 70)),
    (([], [1]), ([1], [])), ((msg 64, [3]), (msg 65, [3])), (([1], [2]), ([1], [2, 0])),
    (([1], []), ([1], [0x80]))]

def check_C57_tags (_ : Unit) : Bool :=
  forall2 cfgs taggedPairs fun c p =>
    !agree (Sha256t.hash c (bip340Tag c p.1.1) p.1.2) (Sha256t.hash c (bip340Tag c p.2.1) p.2.2) ||
      runsCollide c .sha256 [p.1.1] [p.2.1] ||
      runsCollide c .sha256 [sha256 p.1.1 ++ sha256 p.1.1 ++ p.1.2] [sha256 p.2.1 ++ sha256 p.2.1 ++ p.2.2]

/-- `new(key)`, one `input`, `finalize`. -/
def hmacOne (c : Cfg) (a : Alg) (key m : List Byte) : Res (List Byte) := do
  let e ← Hmac.new c (a.engine c) key
  let e ← (Hmac.engine c (a.engine c)).inputs e [m]
  (Hmac.engine c (a.engine c)).finalize e

def hmacInner (a : Alg) (key m : List Byte) : List Byte :=
  (hmacKey a.hashSpec a.blockSize key).map (· ^^^ 0x36) ++ m

def hmacOuter (a : Alg) (key m : List Byte) : List Byte :=
  (hmacKey a.hashSpec a.blockSize key).map (· ^^^ 0x5c) ++ a.hashSpec (hmacInner a key m)

/-- Keys of equal length and messages that a wrong HMAC could confuse. -/
def hmacPairs : List ((List Byte × List Byte) × (List Byte × List Byte)) :=
  [((msg 20 ++ [1], [5]), (msg 20 ++ [2], [5])), (([1] ++ msg 20, [5]), ([2] ++ msg 20, [5])),
    ((msg 63 ++ [1], []), (msg 63 ++ [2], [])), ((msg 130 ++ [1], [7]), (msg 130 ++ [2], [7])),
    (([1] ++ msg 130, [7]), ([2] ++ msg 130, [7])), ((msg 20, [5]), (msg 20, [6])),
    ((msg 20, [5]), (msg 20, [])), ((msg 20, msg 70), (msg 20, msg 70 ++ [0])), (([1], [2]), ([2], [1])),
    (([0], [7]), ([0x14], [7]))]

def check_C57_hmac_same_length (_ : Unit) : Bool :=
  forall2 (cfgs.flatMap fun c => untruncatedAlgs.map (c, ·)) hmacPairs fun x p =>
    !agree (hmacOne x.1 x.2 p.1.1 p.1.2) (hmacOne x.1 x.2 p.2.1 p.2.2) ||
      (runsCollide x.1 x.2 [p.1.1] [p.2.1] ||
      (runsCollide x.1 x.2 [hmacInner x.2 p.1.1 p.1.2] [hmacInner x.2 p.2.1 p.2.2] ||
      runsCollide x.1 x.2 [hmacOuter x.2 p.1.1 p.1.2] [hmacOuter x.2 p.2.1 p.2.2]))

/-! ## Work and lengths -/

def fieldOf : Alg → Nat × Nat
  | .sha384 | .sha512 | .sha512_256 => (128, 16)
  | _ => (64, 8)

def check_C56_streaming (_ : Unit) : Bool :=
  forall2 (cfgs.flatMap fun c => blockAlgs.map (c, ·)) chunkings fun x ds =>
    match x.2.blockHash x.1 with
    | none => false
    | some X =>
      match X.traceInputs x.1 ds with
      | .error _ => true
      | .ok (_, bs) =>
        let B := (fieldOf x.2).1
        decide (bs.length = ds.flatten.length / B ∧ (∀ b ∈ bs, b.length = B) ∧
          bs.flatten = ds.flatten.take (ds.flatten.length / B * B))

def check_C56_total (_ : Unit) : Bool :=
  forall2 (cfgs.flatMap fun c => blockAlgs.map (c, ·)) chunkings fun x ds =>
    match x.2.blockHash x.1 with
    | none => false
    | some X =>
      match X.trace x.1 ds with
      | .error _ => true
      | .ok (_, bs) =>
        decide (bs.length = (ds.flatten.length + (fieldOf x.2).2) / (fieldOf x.2).1 + 1)

def check_C55_lengths_decide (_ : Unit) : Bool :=
  forall2 cfgs programs fun c p =>
    decide (((Impl.crate c).answers [] p).map Answer.blank =
      ((Impl.crate c).answers [] (p.map Call.blank)).map Answer.blank)

/-! ## Permutations -/

def blocks64 : List (List Byte) := [List.replicate 64 0, msg 64, List.replicate 64 0xff]
def blocks128 : List (List Byte) := [List.replicate 128 0, msg 128, List.replicate 128 0xff]

/-- Chaining values that differ in one word each. -/
def states8 (w : Nat) : List (Arr8 (BitVec w)) :=
  [⟨0, 0, 0, 0, 0, 0, 0, 0⟩, ⟨1, 0, 0, 0, 0, 0, 0, 0⟩, ⟨0, 2, 0, 0, 0, 0, 0, 0⟩, ⟨0, 0, 3, 0, 0, 0, 0, 0⟩,
    ⟨0, 0, 0, 4, 0, 0, 0, 0⟩, ⟨0, 0, 0, 0, 5, 0, 0, 0⟩, ⟨0, 0, 0, 0, 0, 6, 0, 0⟩, ⟨0, 0, 0, 0, 0, 0, 7, 0⟩,
    ⟨0, 0, 0, 0, 0, 0, 0, 8⟩]

def states5 : List (Arr5 (BitVec 32)) :=
  [⟨0, 0, 0, 0, 0⟩, ⟨1, 0, 0, 0, 0⟩, ⟨0, 2, 0, 0, 0⟩, ⟨0, 0, 3, 0, 0⟩, ⟨0, 0, 0, 4, 0⟩, ⟨0, 0, 0, 0, 5⟩]

def sub8 {w : Nat} (a b : Arr8 (BitVec w)) : Arr8 (BitVec w) :=
  ⟨a.x0 - b.x0, a.x1 - b.x1, a.x2 - b.x2, a.x3 - b.x3, a.x4 - b.x4, a.x5 - b.x5, a.x6 - b.x6, a.x7 - b.x7⟩

def sub5 {w : Nat} (a b : Arr5 (BitVec w)) : Arr5 (BitVec w) :=
  ⟨a.x0 - b.x0, a.x1 - b.x1, a.x2 - b.x2, a.x3 - b.x3, a.x4 - b.x4⟩

/-- No two of the chaining values are moved by the same difference. -/
def movesApart {H : Type} [DecidableEq H] (sub : H → H → H) (states : List H) (f : H → Res H) : Bool :=
  forall2 states states fun h h' =>
    decide (h = h') ||
    match f h, f h' with
    | .ok r, .ok r' => !decide (sub r h = sub r' h')
    | _, _ => true

def check_C53_sha256_difference (_ : Unit) : Bool :=
  forall2 cfgs blocks64 fun c b => movesApart sub8 (states8 32) (Sha256.processBlock c b)

def check_C53_sha512_difference (_ : Unit) : Bool :=
  forall2 cfgs blocks128 fun c b => movesApart sub8 (states8 64) (Sha512.processBlock c b)

def check_C53_sha1_difference (_ : Unit) : Bool :=
  forall2 cfgs blocks64 fun c b => movesApart sub5 states5 (Sha1.processBlock c b)

def sipStates : List Siphash24.State :=
  [⟨0, 0, 0, 0⟩, ⟨1, 0, 0, 0⟩, ⟨0, 1, 0, 0⟩, ⟨0, 0, 1, 0⟩, ⟨0, 0, 0, 1⟩, ⟨1, 1, 1, 1⟩]

/-- `from_midstate(μ, n)`, `input`, `midstate`. -/
def sipLeads (c : Cfg) (n : Nat) (data : List Byte) (μ : Siphash24.State) : Res Siphash24.State := do
  let e ← (Siphash24.engine c).fromMidstate μ n
  let e ← (Siphash24.engine c).input e data
  (Siphash24.engine c).midstate e

def check_C54_bijection (_ : Unit) : Bool :=
  forall2 cfgs (sipStates.flatMap fun μ => sipStates.map (μ, ·)) fun c p =>
    decide (p.1 = p.2) ||
    [msg 0, msg 8, msg 30].all fun d =>
      match sipLeads c 5 d p.1, sipLeads c 5 d p.2 with
      | .ok ν, .ok ν' => !decide (ν = ν')
      | _, _ => true

def moreKeys : List (BitVec 64 × BitVec 64) := sipKeys ++ [(1, 0), (0, 1), (1, 1), (0x8000000000000000, 0), (0, 0x8000000000000000)]

def sipMid (c : Cfg) (e : Siphash24.Engine) : Res Siphash24.State := (Siphash24.engine c).midstate e

def check_C54_keys (_ : Unit) : Bool :=
  forall2 cfgs (moreKeys.flatMap fun k => moreKeys.map (k, ·)) fun c p =>
    decide (p.1 = p.2) ||
    [[], [msg 3], [msg 8, msg 30]].all fun ds =>
      match (Siphash24.engine c).inputs (Siphash24.withKeys p.1.1 p.1.2) ds,
          (Siphash24.engine c).inputs (Siphash24.withKeys p.2.1 p.2.2) ds with
      | .ok e, .ok e' => !decide (sipMid c e = sipMid c e')
      | _, _ => true

/-! ## Hash values -/

def bytesOf {s : Source} (r : Res (Hash s)) : Res (List Byte) := r.map asBytes

def check_C51_engine (_ : Unit) : Bool :=
  engines.all fun x =>
    let E := x.2.engine x.1
    decide ((HashApi.engine x.1 x.2 >>= E.finalize) = (E.new >>= E.finalize) ∧
      (HashApi.engine x.1 x.2 >>= E.finalize) = (E.default >>= E.finalize))

def check_C51_from_engine (_ : Unit) : Bool :=
  forall2 engines inputs3 fun x ds =>
    let E := x.2.engine x.1
    match E.new >>= (E.inputs · ds) with
    | .error _ => true
    | .ok e => decide (bytesOf (HashApi.fromEngine x.1 x.2 e) = E.finalize e)

def check_C51_hash_chunks (_ : Unit) : Bool :=
  forall2 engines inputs3 fun x ds =>
    decide (bytesOf (HashApi.hash x.1 x.2 ds.flatten) = bytesOf (do
      let e ← HashApi.engine x.1 x.2
      let e ← (x.2.engine x.1).inputs e ds
      HashApi.fromEngine x.1 x.2 e))

def check_C51_hash (_ : Unit) : Bool :=
  forall2 engines lengths fun x n =>
    match HashApi.hash x.1 x.2 (msg n) with
    | .error _ => false
    | .ok v => decide (asBytes v = x.2.hashSpec (msg n)) &&
      match toStr v with
      | .error _ => false
      | .ok str => decide (str.length = 2 * x.2.outLen ∧ value16 str = beNat (x.2.hashSpec (msg n)))

def check_C51_const_hash (_ : Unit) : Bool :=
  forall2 cfgs lengths fun c n =>
    decide (bytesOf (HashApi.constHash c (msg n)) = bytesOf (HashApi.hash c .sha256 (msg n)))

def check_C51_hash_with_keys (_ : Unit) : Bool :=
  forall2 cfgs (sipKeys.flatMap fun k => lengths.map (k, ·)) fun c x =>
    decide (bytesOf (HashApi.hashWithKeys c x.1.1 x.1.2 (msg x.2)) =
      .ok (leBytes 8 (siphash24 x.1.1 x.1.2 (msg x.2)).toNat))

/-- A hasher that remembers everything. -/
def recorder : HashApi.Hasher (List (Nat ⊕ List Byte)) where
  write st bs := st ++ [.inr bs]
  writeLen st n := st ++ [.inl n]

def check_C52_consistent (_ : Unit) : Bool :=
  onPairs fun _ a b => !HashTy.eq a b || decide (HashApi.feed recorder a [] = HashApi.feed recorder b [])

def check_C52_separates (_ : Unit) : Bool :=
  onPairs fun _ a b => HashTy.eq a b || !decide (HashApi.feed recorder a [] = HashApi.feed recorder b [])

def check_C52_across_types (_ : Unit) : Bool :=
  forall2 sources sources fun s t => fills.all fun f =>
    !decide (asBytes (mk s f) = asBytes (mk t f)) ||
      decide (HashApi.feed recorder (mk s f) [] = HashApi.feed recorder (mk t f) [])

/-! ## Writers -/

def check_C33_flush (_ : Unit) : Bool :=
  engines.all fun x =>
    match x.2.writer x.1, (x.2.engine x.1).new with
    | some w, .ok e =>
      match w.flush e with
      | .ok (e', .ok ()) => decide ((x.2.engine x.1).finalize e' = (x.2.engine x.1).finalize e)
      | _ => false
    | _, _ => true

/-- What readers give, and the bytes of it. -/
def readings : List (List Writer.ReadResult × List Byte) :=
  [([], []), ([.ok (msg 3)], msg 3), ([.ok (msg 64), .error .interrupted, .ok (msg 5)], msg 64 ++ msg 5),
    ([.error .interrupted, .error .interrupted, .ok (msg 200)], msg 200),
    ([.ok (msg 9), .ok [], .ok (msg 5)], msg 9)]

def check_C58_digest (_ : Unit) : Bool :=
  forall2 engines readings fun x r =>
    match x.2.writer x.1 with
    | none => true
    | some w => decide ((do
        let e ← (x.2.engine x.1).default
        let (e, n) ← w.copy e 0 r.1
        let d ← (x.2.engine x.1).finalize e
        pure (n, d)) = (do
        let d ← (x.2.engine x.1).hash r.2
        pure (.ok r.2.length, d)))

/-! ## Panics -/

/-- Ways to make engines, and slices to input, some of which meet the places where panics are to be
expected. -/
def makers : List (Alg × Make) :=
  (algs.map fun a => (a, Make.new)) ++
  [(.sha1, .resume (.bytes (msg 20)) 64), (.sha1, .resume (.bytes (msg 20)) 63),
    (.sha1, .resume (.bytes (msg 20)) (2 ^ 61 - 64)), (.sha256, .resume (.bytes (msg 32)) (2 ^ 64 - 64)),
    (.sha256, .resume (.bytes (msg 32)) 32), (.ripemd160, .resume (.bytes (msg 20)) 1),
    (.siphash24, .resume (.sip ⟨1, 2, 3, 4⟩) 5), (.sha512, .resume (.bytes (msg 64)) 128),
    (.sha512, .resume (.bytes (msg 64)) 64), (.sha384, .resume (.bytes (msg 64)) 256),
    (.sha512_256, .resume (.bytes (msg 64)) 3), (.hmac .sha1, .hmacKey (msg 100)),
    (.hmac .sha512, .hmacKey (msg 100)),
    (.hmac .sha256, .resume (.pair (.bytes (msg 32)) (.bytes (msg 32))) 65),
    (.hmac .sha384, .resume (.pair (.bytes (msg 64)) (.bytes (msg 64))) 128)]

def inputLens : List (List Nat) := [[0], [7, 1], [28], [31], [55], [63, 1], [64], [65, 200], [119], [128, 112]]

def probe (x : Alg × Make) (ns : List Nat) : List Call :=
  [.make x.1 x.2] ++
    (ns.flatMap fun n => [.input 0 (msg n), .input 0 (List.replicate n 0), .count 0, .midstate 0]) ++ [.finalize 0]

def check_C59_panics (_ : Unit) : Bool :=
  forall2 cfgs makers fun c x => inputLens.all fun ns =>
    (((Impl.crate c).answers [] (probe x ns)).zip (probe x ns)).all fun y =>
      match y.1 with
      | .panic f => decide (mayPanic c y.2 f)
      | _ => true

def check_C59_simd (_ : Unit) : Bool :=
  [0, 15, 16, 47, 48, 60, 63, 64, 65, 80].all fun n =>
    let r := Sha256.Simd.processBlock (msg n) ⟨1, 2, 3, 4, 5, 6, 7, 8⟩
    decide (r = .error .ub ↔ n < 64) && decide (Sha256.Simd.processBlock ((msg n).take 64) ⟨1, 2, 3, 4, 5, 6, 7, 8⟩ = r)

def workChecks : List (String × (Unit → Bool)) := [
  ("C33_flush", check_C33_flush),
  ("C49_collision", check_C49_collision),
  ("C51_engine", check_C51_engine),
  ("C51_from_engine", check_C51_from_engine),
  ("C51_hash_chunks", check_C51_hash_chunks),
  ("C51_hash", check_C51_hash),
  ("C51_const_hash", check_C51_const_hash),
  ("C51_hash_with_keys", check_C51_hash_with_keys),
  ("C52_consistent", check_C52_consistent),
  ("C52_separates", check_C52_separates),
  ("C52_across_types", check_C52_across_types),
  ("C53_sha256_difference", check_C53_sha256_difference),
  ("C53_sha512_difference", check_C53_sha512_difference),
  ("C53_sha1_difference", check_C53_sha1_difference),
  ("C54_bijection", check_C54_bijection),
  ("C54_keys", check_C54_keys),
  ("C55_lengths_decide", check_C55_lengths_decide),
  ("C56_streaming", check_C56_streaming),
  ("C56_total", check_C56_total),
  ("C57_tags", check_C57_tags),
  ("C57_hmac_same_length", check_C57_hmac_same_length),
  ("C58_digest", check_C58_digest),
  ("C59_panics", check_C59_panics),
  ("C59_simd", check_C59_simd)]

end Chf.Check
