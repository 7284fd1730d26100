import Verif.Proofs.Seen.Linears
import Verif.Proofs.Seen.Programs
import Verif.Seen.Lib
import Verif.Proofs.Source.Reach

/-!
# How much is seen of the engines that callers can obtain
-/

namespace Chf.Source
open Chf Tr Seen

/-- Engines with `p` bytes in the buffer. -/
def okOf (c : Cfg) : (a : Alg) → Nat → (engineOf c a).State → Prop
  | .sha1 => Seen.Sha1.Ok
  | .sha256 => Seen.Sha256.Ok
  | .sha384 => Seen.Sha384.Ok
  | .sha512 => Seen.Sha512.Ok
  | .sha512_256 => Seen.Sha512_256.Ok
  | .ripemd160 => Seen.Ripemd160.Ok
  | .siphash24 => Seen.Siphash24.Ok
  | .sha256t _ _ _ => Seen.Sha256t.Ok
  | .hmac a => Seen.Hmac.Ok' (workOf a) (okOf c a)

theorem linearOf {c : Cfg} (hc : c.Valid) : (a : Alg) → Linear c (seenOf c a) (workOf a) (okOf c a)
  | .sha1 => Seen.Sha1.linear hc
  | .sha256 => Seen.Sha256.linear hc
  | .sha384 => Seen.Sha384.linear hc
  | .sha512 => Seen.Sha512.linear hc
  | .sha512_256 => Seen.Sha512_256.linear hc
  | .ripemd160 => Seen.Ripemd160.linear hc
  | .siphash24 => Seen.Siphash24.linear hc
  | .sha256t mid len data => Seen.Sha256t.linear hc mid len data
  | .hmac a => Seen.Hmac.linear (linearOf hc a) hc

theorem make_costs {c : Cfg} (hc : c.Valid) (a : Alg) (how : Make) (ht : how.Typed c) {x}
    (hx : makeSeen c a how = some x) : Costs (makeWork a how) (fun e => ∃ p, okOf c a p e) x := by
  have L := linearOf hc a
  cases how with
  | new =>
    have : makeSeen c a .new = some (seenOf c a).new := by cases a <;> rfl
    cases this.symm.trans hx
    exact L.new.mono (Nat.le_refl _) fun e h => ⟨_, h⟩
  | default =>
    have : makeSeen c a .default = some (seenOf c a).default := by cases a <;> rfl
    cases this.symm.trans hx
    exact L.default.mono (Nat.le_refl _) fun e h => ⟨_, h⟩
  | sipKeys k0 k1 =>
    cases a with
    | siphash24 => cases hx; exact Costs.pure ⟨0, rfl, rfl⟩
    | _ => cases hx
  | hmacKey key =>
    cases a with
    | hmac a => cases hx; exact (Seen.Hmac.new_costs (linearOf hc a) hc ht).mono (Nat.le_refl _) fun e h => ⟨_, h⟩
    | _ => cases hx
  | resume v n =>
    have : makeSeen c a (.resume v n) = (readMid c a v).map fun μ => (seenOf c a).fromMidstate μ n := by
      cases a <;> rfl
    rw [this] at hx
    cases hv : readMid c a v with
    | none => rw [hv] at hx; cases hx
    | some μ =>
      rw [hv] at hx
      cases hx
      exact (L.fromMidstate μ n).mono (Nat.le_refl _) fun e h => ⟨_, h⟩

theorem Reach.ok {c : Cfg} (hc : c.Valid) {a : Alg} {e} (h : Reach c a e) :
    okOf c a ((engineOf c a).nBytesHashed e % (workOf a).block) e := by
  have L := linearOf hc a
  have key : ∃ p, okOf c a p e := by
    induction h with
    | made how ht hm =>
      cases hx : makeSeen c a how with
      | none =>
        have := make_res c a how
        rw [hx, hm] at this
        cases this
      | some x =>
        refine (make_costs hc a how ht hx).res _ ?_
        have := make_res c a how
        rw [hx, hm] at this
        exact Option.some.inj this
    | input d _ hd hi ih =>
      obtain ⟨p, hp⟩ := ih
      refine ⟨_, (L.input p _ d hp hd).res _ ?_⟩
      rw [(erasesOf c a).input]
      exact hi
  obtain ⟨p, hp⟩ := key
  rw [L.pos p e hp]
  exact hp

theorem chunks_costs {c : Cfg} {E : HashEngine} {E' : Tr.HashEngine E} {w : Work}
    {Ok : Nat → E.State → Prop} (L : Linear c E' w Ok) : ∀ (ds : List (List Byte)) (p : Nat) (e : E.State),
    Ok p e → p < w.block → (∀ d ∈ ds, d.length < c.usizeMod) →
    Costs (1 + (1 + w.call) * ds.length + w.perBlock * ((p + ds.flatten.length) / w.block))
      (fun e' => Ok ((p + ds.flatten.length) % w.block) e')
      (Tr.each ds (fun e d => E'.input e d) e)
  | [], p, e, h, hp, _ => by
      refine Costs.bind' (n := 1) (m := 0) Costs.test (fun _ _ => Costs.pure ?_) (by simp)
      rw [List.flatten_nil, List.length_nil, Nat.add_zero, Nat.mod_eq_of_lt hp]
      exact h
  | d :: ds, p, e, h, hp, hd => by
      have hb : 0 < w.block := Nat.lt_of_le_of_lt (Nat.zero_le _) hp
      unfold Tr.each
      refine Costs.bind' (n := 1) Costs.test (fun _ _ => Costs.bind (L.input p e d h (hd d (by simp)))
        fun e' h' => (chunks_costs L ds _ e' h' (Nat.mod_lt _ hb) fun x hx => hd x (by simp [hx])).mono
          (Nat.le_refl _) fun e'' h'' => ?_) ?_
      · rw [Nat.mod_add_mod] at h''
        rw [List.flatten_cons, List.length_append, ← Nat.add_assoc]
        exact h''
      · have key : (p + d.length) / w.block + ((p + d.length) % w.block + ds.flatten.length) / w.block =
            (p + (d :: ds).flatten.length) / w.block := by
          have h := Nat.div_add_mod (p + d.length) w.block
          have h2 : p + (d :: ds).flatten.length =
              ((p + d.length) % w.block + ds.flatten.length) + w.block * ((p + d.length) / w.block) := by
            rw [List.flatten_cons, List.length_append]
            omega
          rw [h2, Nat.add_mul_div_left _ _ hb, Nat.add_comm]
        unfold Work.input
        rw [← key, Nat.mul_add, List.length_cons, Nat.mul_succ]
        omega

theorem hash_chunks_costs {c : Cfg} {E : HashEngine} {E' : Tr.HashEngine E} {w : Work}
    {Ok : Nat → E.State → Prop} (L : Linear c E' w Ok) (ds : List (List Byte))
    (hd : ∀ d ∈ ds, d.length < c.usizeMod) :
    Costs (w.chunks ds.length ds.flatten.length) (fun h => h.length = w.digest)
      (Seen.Lib.HashEngine.hash_byte_chunks c E E' ds) := by
  have hb : 0 < w.block := Nat.lt_of_le_of_lt (Nat.zero_le _) L.fresh
  have key : (w.fresh + ds.flatten.length) / w.block + ((w.fresh + ds.flatten.length) % w.block + w.pad) / w.block =
      (w.fresh + ds.flatten.length + w.pad) / w.block := by
    have h := Nat.div_add_mod (w.fresh + ds.flatten.length) w.block
    have h2 : w.fresh + ds.flatten.length + w.pad =
        ((w.fresh + ds.flatten.length) % w.block + w.pad) + w.block * ((w.fresh + ds.flatten.length) / w.block) := by
      omega
    rw [h2, Nat.add_mul_div_left _ _ hb, Nat.add_comm]
  refine Costs.bind' L.new (fun e he => Costs.bind (chunks_costs L ds _ e he L.fresh hd) fun e he => L.finalize _ e he) ?_
  unfold Work.chunks Work.finalize
  rw [← key, Nat.mul_add, Nat.mul_add, Nat.mul_add]
  omega

end Chf.Source
