import Verif.Props.Text
import Verif.Props.TextTypes

/-!
# C99: the keys of the translated SipHash, and its digests as numbers
-/

namespace Chf.Props
open Chf Chf.Rs Chf.Spec

theorem bind_ok_inv {α β : Type} {x : Res α} {f : α → Res β} {y : β} (h : (x >>= f) = .ok y) :
    ∃ a, x = .ok a ∧ f a = .ok y := by
  cases x with
  | error g => cases h
  | ok a => exact ⟨a, rfl, h⟩

theorem rest_keys {c : Cfg} {e e' : Siphash24.Engine} {d : List Byte} {n : Nat}
    (h : Siphash24.input.rest c e d n = .ok e') : Siphash24.keys e' = Siphash24.keys e := by
  unfold Siphash24.input.rest at h
  obtain ⟨_, -, h⟩ := bind_ok_inv h
  obtain ⟨_, -, h⟩ := bind_ok_inv h
  obtain ⟨_, -, h⟩ := bind_ok_inv h
  obtain ⟨_, -, h⟩ := bind_ok_inv h
  cases h
  rfl

/-- The model's `input` keeps the keys of any engine. -/
theorem input_keys {c : Cfg} {e e' : Siphash24.Engine} {d : List Byte}
    (h : Siphash24.input c e d = .ok e') : Siphash24.keys e' = Siphash24.keys e := by
  unfold Siphash24.input at h
  obtain ⟨l, -, h⟩ := bind_ok_inv h
  dsimp only at h
  split at h
  · obtain ⟨_, -, h⟩ := bind_ok_inv h
    obtain ⟨_, -, h⟩ := bind_ok_inv h
    obtain ⟨_, -, h⟩ := bind_ok_inv h
    obtain ⟨_, -, h⟩ := bind_ok_inv h
    split at h
    · obtain ⟨_, -, h⟩ := bind_ok_inv h
      cases h
      rfl
    · have := rest_keys h
      simp only [Siphash24.keys] at this ⊢
      exact this
  · have := rest_keys h
    simp only [Siphash24.keys] at this ⊢
    exact this

theorem emb_surj (e : Source.Siphash24.Engine) : ∃ m, Source.Siphash24.emb m = e :=
  ⟨⟨e.k0, e.k1, e.length, ⟨e.state.v0, e.state.v2, e.state.v1, e.state.v3⟩, e.tail, e.ntail⟩, rfl⟩

/-- C99: `input` of the translated text keeps the keys of every engine. -/
theorem C99_input_keys {c : Cfg} (hc : c.Valid) (e e' : Source.Siphash24.Engine) (d : List Byte)
    (hd : d.length < c.usizeMod) (h : Source.Siphash24.Engine.input c e d = .ok e') :
    Source.Siphash24.Engine.keys c e' = Source.Siphash24.Engine.keys c e := by
  obtain ⟨m, rfl⟩ := emb_surj e
  rw [Source.Siphash24.input_eq c hc m d hd] at h
  cases hm : Siphash24.input c m d with
  | error f => rw [hm] at h; cases h
  | ok m' =>
    rw [hm] at h
    cases h
    exact input_keys hm

/-- C99: `keys` returns what `with_keys` was given, after any inputs; engines made without keys, also by
`from_midstate`, have zero keys. -/
theorem C99_keys {c : Cfg} (hc : c.Valid) (ds : List (List Byte)) (hs : ∀ d ∈ ds, d.length < c.usizeMod)
    (e0 e : Source.Siphash24.Engine) (h : (Source.Siphash24.engine c).inputs e0 ds = .ok e) :
    (∀ k0 k1, e0 = Source.Siphash24.Engine.with_keys c k0 k1 → Source.Siphash24.Engine.keys c e = (k0, k1)) ∧
    (e0 = Source.Siphash24.Engine.new c ∨ e0 = Source.Siphash24.Engine.default c ∨
        e0 = Source.Siphash24.Hash.engine c ∨ (∃ μ n, e0 = Source.Siphash24.Engine.from_midstate c μ n) →
      Source.Siphash24.Engine.keys c e = (0, 0)) := by
  have key : Source.Siphash24.Engine.keys c e = Source.Siphash24.Engine.keys c e0 := by
    induction ds generalizing e0 with
    | nil => cases h; rfl
    | cons d ds ih =>
      obtain ⟨e1, h1, h2⟩ := bind_ok_inv h
      rw [ih (fun x hx => hs x (List.mem_cons_of_mem _ hx)) e1 h2]
      exact C99_input_keys hc e0 e1 d (hs d List.mem_cons_self) h1
  rw [key]
  refine ⟨fun k0 k1 he => ?_, fun he => ?_⟩
  · rw [he]; rfl
  · rcases he with rfl | rfl | rfl | ⟨μ, n, rfl⟩ <;> rfl

/-- C99: the two ways to end an engine agree, for every engine: the hash is the little-endian bytes of the
number. -/
theorem C99_from_engine (c : Cfg) (e : Source.Siphash24.Engine) :
    (Source.Siphash24.Hash.from_engine c e).f0 =
      leBytes 8 (Source.Siphash24.Hash.from_engine_to_u64 c e).toNat ∧
    Source.Siphash24.Hash.as_u64 c (Source.Siphash24.Hash.from_engine c e) =
      Source.Siphash24.Hash.from_engine_to_u64 c e ∧
    Source.Siphash24.Hash.from_u64 c (Source.Siphash24.Hash.from_engine_to_u64 c e) =
      Source.Siphash24.Hash.from_engine c e := by
  have h3 : Source.Siphash24.Hash.from_u64 c (Source.Siphash24.Hash.from_engine_to_u64 c e) =
      Source.Siphash24.Hash.from_engine c e := rfl
  refine ⟨le64_eq _, ?_, h3⟩
  rw [← h3]
  exact (C70_u64 c).1 _

/-- C99: hashing with keys in one call and through an engine, to bytes and to a number, is SipHash-2-4, for
every message a slice can hold. -/
theorem C99_value {c : Cfg} (hc : c.Valid) (k0 k1 : BitVec 64) (m : List Byte) (hm : m.length < c.usizeMod) :
    ∃ h e, Source.Siphash24.Hash.hash_with_keys c k0 k1 m = .ok h ∧
      Source.Siphash24.Engine.input c (Source.Siphash24.Engine.with_keys c k0 k1) m = .ok e ∧
      Source.Siphash24.Hash.from_engine c e = h ∧
      Source.Siphash24.Hash.as_u64 c h = siphash24 k0 k1 m ∧
      Source.Siphash24.Hash.hash_to_u64_with_keys c k0 k1 m = .ok (siphash24 k0 k1 m) ∧
      Source.Siphash24.Hash.from_engine_to_u64 c e = siphash24 k0 k1 m := by
  obtain ⟨h1, h2⟩ := C67_siphash24_keys hc k0 k1 m hm
  obtain ⟨e, he, h3⟩ := bind_ok_inv (show (Source.Siphash24.Engine.input c
    (Source.Siphash24.Engine.with_keys c k0 k1) m >>= fun e =>
      pure (Source.Siphash24.Hash.from_engine_to_u64 c e)) = _ from h2)
  have h3 : Source.Siphash24.Hash.from_engine_to_u64 c e = siphash24 k0 k1 m := Except.ok.inj h3
  refine ⟨_, e, h1, he, ?_, ?_, h2, h3⟩
  · refine Except.ok.inj (Eq.trans ?_ h1)
    show _ = (Source.Siphash24.Engine.input c (Source.Siphash24.Engine.with_keys c k0 k1) m >>= fun e =>
      pure (Source.Siphash24.Hash.from_engine c e))
    rw [he]
    rfl
  · have := (C99_from_engine c e).1
    rw [h3] at this
    rw [← this, ← h3]
    exact (C99_from_engine c e).2.1

/-- A number with its bytes reversed. -/
def byteSwap (x : BitVec 64) : Nat := beNat (leBytes 8 x.toNat)

/-- C99: hashes made of numbers are equal exactly if the numbers are; they print as the digits of the number
with its bytes reversed, and are ordered by that, not by the numbers. -/
theorem C99_order (c : Cfg) (T : Source.Sha256t.Tag) (x y : BitVec 64) :
    ((Source.hashText c T .siphash24).eq (Source.Siphash24.Hash.from_u64 c x)
      (Source.Siphash24.Hash.from_u64 c y) = true ↔ x = y) ∧
    (Source.hashText c T .siphash24).cmp (Source.Siphash24.Hash.from_u64 c x)
      (Source.Siphash24.Hash.from_u64 c y) = compare (byteSwap x) (byteSwap y) ∧
    ∃ s, (Source.hashText c T .siphash24).display (Source.Siphash24.Hash.from_u64 c x) ⟨false⟩ = .ok s ∧
      s.length = 16 ∧ (∀ b ∈ s, IsLowerDigit b) ∧ value16 s = byteSwap x := by
  have hb : ∀ x : BitVec 64, (Source.Siphash24.Hash.from_u64 c x).f0 = leBytes 8 x.toNat := fun x => le64_eq x
  have hl := (C70_u64 c).2.1
  refine ⟨?_, ?_, ?_⟩
  · have h : (Source.hashText c T .siphash24).eq (Source.Siphash24.Hash.from_u64 c x)
        (Source.Siphash24.Hash.from_u64 c y) = true ↔
        (Source.Siphash24.Hash.from_u64 c x).f0 = (Source.Siphash24.Hash.from_u64 c y).f0 := (C72_eq c T .siphash24 _ _).1
    rw [h]
    refine ⟨fun h => ?_, fun h => by rw [h]⟩
    have hx := (C70_u64 c).1 x
    rw [show Source.Siphash24.Hash.from_u64 c x = Source.Siphash24.Hash.from_u64 c y from
      congrArg Source.Siphash24.Hash.mk h, (C70_u64 c).1 y] at hx
    exact hx.symm
  · unfold byteSwap
    rw [← hb, ← hb]
    exact (C72_order c T .siphash24 _ _ (hl x) (hl y)).1
  · obtain ⟨lo, -, -, h, -, -, -, -, -, h1, h2, h3, -⟩ := C73_format (c := c) (T := T) (t := .siphash24)
      (Source.Siphash24.Hash.from_u64 c x) (hl x)
    refine ⟨lo, h, h1, h2, h3.trans ?_⟩
    unfold byteSwap
    rw [← hb]
    rfl

/-- C99: so the order of hashes is not the order of their numbers. -/
theorem C99_order_not_numeric : ¬ ∀ x y : BitVec 64,
    (Source.hashText .debug64 ⟨.error .fuel⟩ .siphash24).cmp (Source.Siphash24.Hash.from_u64 .debug64 x)
      (Source.Siphash24.Hash.from_u64 .debug64 y) = compare x.toNat y.toNat := by
  intro h
  have := h 0x100 0x1
  revert this
  decide +kernel

example : Cfg.release32.Valid ∧ (List.replicate 9 (0 : Byte)).length < Cfg.release32.usizeMod ∧
    (Source.Siphash24.Engine.input .release32 (Source.Siphash24.Engine.with_keys .release32 1 2)
      (List.replicate 9 0)).map (Source.Siphash24.Engine.keys .release32) = .ok (1, 2) ∧
    byteSwap 0x0123456789abcdef = 0xefcdab8967452301 := by
  decide +kernel

end Chf.Props
