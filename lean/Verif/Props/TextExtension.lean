import Verif.Props.TextShattered

/-!
# C92: length extension with the translated text
-/

namespace Chf.Props
open Chf Chf.Rs Chf.Spec

/-- The functions whose digest can be extended. -/
def extensible : Alg → Bool
  | .sha1 | .sha256 | .ripemd160 => true
  | _ => false

theorem length_reversed {d : List Byte} (hd : d.length = 20) :
    (((blocks 4 d).map List.reverse).flatten).length = 20 := by
  have key : ∀ l : List (List Byte), ((l.map List.reverse).flatten).length = l.flatten.length := by
    intro l
    induction l with
    | nil => rfl
    | cons b l ih => simp only [List.map_cons, List.flatten_cons, List.length_append, List.length_reverse, ih]
  have hf := blocks_flatten_remainder 4 (by decide) d
  have hr : remainder 4 d = [] := List.drop_of_length_le (by rw [hd]; decide)
  rw [hr, List.append_nil] at hf
  rw [key, hf, hd]

theorem parse5_reversed (h : Arr5 (BitVec 32)) :
    parse5 (((blocks 4 (serializeRmd h)).map List.reverse).flatten) = h := by
  have hl : (serializeRmd h).length = 20 := length_serializeRmd h
  have hb : ∀ b ∈ (blocks 4 (serializeRmd h)).map List.reverse, b.length = 4 := by
    intro b hb
    obtain ⟨x, hx, rfl⟩ := List.mem_map.1 hb
    rw [List.length_reverse]
    exact mem_blocks_length hx
  have hf := blocks_flatten_remainder 4 (by decide) (serializeRmd h)
  have hr : remainder 4 (serializeRmd h) = [] := by
    rw [remainder, hl]
    exact List.drop_of_length_le (by rw [hl]; decide)
  rw [hr, List.append_nil] at hf
  apply wordsRmd_inj
  rw [serializeRmd_parse5 _ (length_reversed hl), Source.blocks_flatten (by decide) hb, List.map_map]
  simp only [Function.comp_def, List.reverse_reverse, List.map_id']
  exact hf

theorem ripemd160_extension {c : Cfg} (hc : c.Valid) (m : List Byte) (chunks : List (List Byte))
    (hfit : Fits c ((pad 64 8 leBytes m).length + chunks.flatten.length)) :
    ∃ e e', (Ripemd160.engine c).fromMidstate (asMidstate .ripemd160 (ripemd160 m))
        (pad 64 8 leBytes m).length = .ok e ∧
      (Ripemd160.engine c).inputs e chunks = .ok e' ∧
      (Ripemd160.engine c).finalize e' = .ok (ripemd160 (pad 64 8 leBytes m ++ chunks.flatten)) := by
  have hp : 64 ∣ (pad 64 8 leBytes m).length := pad_dvd (by decide) (fun x => length_leBytes _ _) m
  have hlt : (pad 64 8 leBytes m).length < c.usizeMod := by have := hfit.2; omega
  have hbytes : (pad 64 8 leBytes m).length + chunks.flatten.length + 144 < 2 ^ c.usizeBits := hfit.2
  obtain ⟨e, h2, R⟩ := (Alg.ripemd160.lawful hc trivial).resume_ok
    (μ := asMidstate .ripemd160 (ripemd160 m)) (n := (pad 64 8 leBytes m).length)
    (Alg.ripemd160.typed_log ⟨length_reversed (Alg.hashSpec_length .ripemd160 m), hlt⟩)
    (C22_aligned_succeeds.md (P := mdRmd) (p := parse5) (Nat.dvd_iff_mod_eq_zero.mp hp))
  rw [asMidstate, show ripemd160 m = serializeRmd (chain 64 compressRmd ivRmd (pad 64 8 leBytes m)) from rfl,
    parse5_reversed] at R
  have hs : ∀ d ∈ chunks, (Alg.ripemd160.log c).slice d.length := fun _ _ => trivial
  obtain ⟨e', h3, R'⟩ := (Alg.ripemd160.lawful hc trivial).inputs_ok chunks hs R (by
    show (!c.overflowChecks || decide (_ + (0 + _) < 2 ^ c.usizeBits)) = true
    rw [decide_eq_true (by omega), Bool.or_true])
  refine ⟨e, e', h2, h3, ?_⟩
  refine ((Alg.ripemd160.lawful hc trivial).digest R').trans ?_
  refine (Md.digest_fits (P := mdRmd) (c := c) (r := fun μ _ => .ok (parse5 μ)) (.inl rfl) (by decide)
    (by decide) (Nat.le_refl _) hfit).trans (congrArg _ ?_)
  rw [List.nil_append, ← digestWith_Rmd, digestWith_append mdRmd (by decide) _ _ _ hp,
    List.length_append]
  rfl

theorem make_resume (c : Cfg) (a : Alg) (v : MidVal) (n : Nat) :
    a.make c (.resume v n) = (a.readMid c v).map fun μ => (a.engine c).fromMidstate μ n := by
  cases a <;> rfl

theorem extend_sim {c : Cfg} (hc : c.Valid) {a : Alg} (hf : Source.Fits c a) {v : MidVal} {n : Nat}
    (hn : n < c.usizeMod) {chunks : List (List Byte)} (hch : ∀ d ∈ chunks, d.length < c.usizeMod)
    {d : List Byte} {m m'} (h1 : a.make c (.resume v n) = some (.ok m))
    (h2 : (a.engine c).inputs m chunks = .ok m') (h3 : (a.engine c).finalize m' = .ok d) :
    ∃ e e', Source.make c a (.resume v n) = some (.ok e) ∧
      (Source.engineOf c a).inputs e chunks = .ok e' ∧ (Source.engineOf c a).finalize e' = .ok d := by
  refine ⟨(Source.algSim hc a hf).st m, (Source.algSim hc a hf).st m', ?_, ?_, ?_⟩
  · rw [Source.make_sim hc a hf (.resume v n) hn, h1]
    rfl
  · rw [(Source.algSim hc a hf).inputs m chunks hch, h2]
    rfl
  · rw [(Source.algSim hc a hf).finalize, h3]

/-- C92: who knows the digest of `m` and the length of `m`, but not `m`, obtains with the translated text
the digest of the padded `m` followed by any further bytes. -/
theorem C92_extension {c : Cfg} (hc : c.Valid) (a : Alg) (ha : extensible a = true) (m : List Byte)
    (chunks : List (List Byte)) (hfit : Fits c ((padded a m).length + chunks.flatten.length)) :
    ∃ d e e', (Source.engineOf c a).hash m = .ok d ∧
      Source.make c a (.resume (.bytes (asMidstate a d)) (padded a m).length) = some (.ok e) ∧
      (Source.engineOf c a).inputs e chunks = .ok e' ∧
      (Source.engineOf c a).finalize e' =
        (Source.engineOf c a).hash (padded a m ++ chunks.flatten) := by
  have hb : (padded a m).length + chunks.flatten.length + 144 < 2 ^ c.usizeBits := hfit.2
  have hle : m.length ≤ (padded a m).length := by
    cases a <;> (simp only [padded, pad, List.length_append]; omega)
  have hch : ∀ d ∈ chunks, d.length < c.usizeMod := fun d hd => by
    have := length_le_flatten hd
    show _ < 2 ^ c.usizeBits
    omega
  have hn : (padded a m).length < c.usizeMod := by show _ < 2 ^ c.usizeBits; omega
  have hash : ∀ x : List Byte, Fits c x.length → (Source.engineOf c a).hash x = .ok (a.hashSpec x) := by
    intro x hx
    have hbs : hasBlocks a = true := by cases a <;> first | (cases ha; done) | rfl
    obtain ⟨ok, hb, hs⟩ := hasBlocks_ok hbs c
    have := C67_engines hc a ok [x] (by rw [List.flatten_singleton, hb, hs, Nat.zero_add]; exact hx.1)
      (by rw [List.flatten_singleton, hb, hs, Nat.zero_add]; exact hx.2)
    rw [← Lawful.hash_eq_chunks, List.flatten_singleton] at this
    exact this
  rw [hash m (hfit.mono (by omega)), hash (padded a m ++ chunks.flatten)
    (by rw [List.length_append]; exact hfit)]
  have hmodel : ∀ hf : Source.Fits c a, (a.engine c).hash m = .ok (a.hashSpec m) := fun hf =>
    ((Source.algSim hc a hf).hash m (by omega)).symm.trans (hash m (hfit.mono (by omega)))
  have lift : ∀ (_ : Source.Fits c a) {μ x}, a.readMid c (.bytes (asMidstate a (a.hashSpec m))) = some μ →
      (a.engine c).fromMidstate μ (padded a m).length = .ok x →
      ∀ {y}, (a.engine c).inputs x chunks = .ok y →
      (a.engine c).finalize y = .ok (a.hashSpec (padded a m ++ chunks.flatten)) →
      ∃ d e e', Except.ok (ε := Fault) (a.hashSpec m) = .ok d ∧
        Source.make c a (.resume (.bytes (asMidstate a d)) (padded a m).length) = some (.ok e) ∧
        (Source.engineOf c a).inputs e chunks = .ok e' ∧
        (Source.engineOf c a).finalize e' = .ok (a.hashSpec (padded a m ++ chunks.flatten)) := by
    intro hf μ x h0 h1 y h2 h3
    obtain ⟨e, e', g1, g2, g3⟩ := extend_sim hc hf hn hch
      (v := .bytes (asMidstate a (a.hashSpec m))) (by rw [make_resume, h0, Option.map_some, h1]) h2 h3
    exact ⟨_, e, e', rfl, g1, g2, g3⟩
  cases a with
  | sha1 =>
    obtain ⟨d, x, y, h1, h2, h3, h4⟩ := C42_sha1_extension hc m chunks hfit.1 hfit.2
    cases h1.symm.trans (hmodel trivial)
    exact lift trivial (if_pos (Alg.hashSpec_length .sha1 m)) h2 h3 h4
  | sha256 =>
    obtain ⟨d, x, y, h1, h2, h3, h4⟩ := C42_sha256_extension hc m chunks hfit.1 hfit.2
    cases h1.symm.trans (hmodel trivial)
    exact lift trivial (if_pos (Alg.hashSpec_length .sha256 m)) h2 h3 h4
  | ripemd160 =>
    obtain ⟨x, y, h2, h3, h4⟩ := ripemd160_extension hc m chunks hfit
    exact lift trivial (if_pos (length_reversed (Alg.hashSpec_length .ripemd160 m))) h2 h3 h4
  | _ => cases ha

/-- A three-byte message, extended by two bytes, with a 16-bit `usize`. -/
example : let c : Cfg := { Cfg.debug64 with usizeBits := 16 }
    c.Valid ∧ Fits c ((padded .ripemd160 [1, 2, 3]).length + ([[4], [5]] : List (List Byte)).flatten.length) := by
  refine ⟨by decide, by decide +kernel, by decide +kernel⟩

/-- C92: a digest of SHA-384 or SHA-512/256 has not the type of a midstate, and `from_midstate` of SHA-512
always panics, so none of them can be extended in this way. -/
theorem C92_others {c : Cfg} (hc : c.Valid) (m : List Byte) (n : Nat) (hn : n < 2 ^ c.usizeBits) :
    Source.make c .sha384 (.resume (.bytes (sha384 m)) n) = none ∧
    Source.make c .sha512_256 (.resume (.bytes (sha512_256 m)) n) = none ∧
    ∃ f, Source.make c .sha512 (.resume (.bytes (sha512 m)) n) = some (.error f) := by
  refine ⟨?_, ?_, ?_⟩
  · have h : Source.readMid c .sha384 (.bytes (sha384 m)) = none :=
      if_neg (by rw [show (sha384 m).length = 48 from Alg.hashSpec_length .sha384 m]; decide)
    show (Source.readMid c .sha384 (.bytes (sha384 m))).map
      (fun μ => (Source.engineOf c .sha384).fromMidstate μ n) = none
    rw [h]; rfl
  · have h : Source.readMid c .sha512_256 (.bytes (sha512_256 m)) = none :=
      if_neg (by rw [show (sha512_256 m).length = 32 from Alg.hashSpec_length .sha512_256 m]; decide)
    show (Source.readMid c .sha512_256 (.bytes (sha512_256 m))).map
      (fun μ => (Source.engineOf c .sha512_256).fromMidstate μ n) = none
    rw [h]; rfl
  · cases hr : Source.make c .sha512 (.resume (.bytes (sha512 m)) n) with
    | none =>
      have h : Source.readMid c .sha512 (.bytes (sha512 m)) = some (sha512 m) :=
        if_pos (Alg.hashSpec_length .sha512 m)
      have h' : (Source.readMid c .sha512 (.bytes (sha512 m))).map
        (fun μ => (Source.engineOf c .sha512).fromMidstate μ n) = none := hr
      rw [h] at h'
      cases h'
    | some r =>
      have := (C82_from_midstate hc .sha512 trivial rfl _ n hn hr).1
      by_cases h : n % 128 = 0
      · exact ⟨.expect, by rw [this .expect (if_pos h)]⟩
      · exact ⟨.assertion, by rw [this .assertion (if_neg h)]⟩

end Chf.Props
