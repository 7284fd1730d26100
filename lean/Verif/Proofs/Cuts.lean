import Verif.Proofs.Kept
import Verif.Proofs.Alg

/-!
# Lemmas: the state of an engine does not depend on how its input is cut
-/

namespace Chf
open Spec

theorem late {p B i n : Nat} (h0 : 0 < B) (h : ∃ j < n, (p + j) % B = i) :
    ∃ j < n, n ≤ j + B ∧ (p + j) % B = i := by
  obtain ⟨j, hj, e⟩ := h
  obtain ⟨k, hk⟩ : ∃ k, k = n - j := ⟨_, rfl⟩
  induction k using Nat.strongRecOn generalizing j with
  | _ k ih =>
    by_cases h : n ≤ j + B
    · exact ⟨j, hj, h, e⟩
    · exact ih (n - (j + B)) (by omega) (j + B) (by omega)
        (by rw [← Nat.add_assoc, Nat.add_mod_right]; exact e) rfl

/-- What has been written to a buffer determines it. -/
theorem Kept.unique {B p : Nat} {old m x y : List Byte} (h0 : 0 < B) (hl : old.length = B)
    (k : Kept B p old m x) (l : Kept B p old m y) : x = y := by
  apply List.ext_getElem?
  intro i
  by_cases hi : i < B
  · by_cases h : ∃ j < m.length, (p + j) % B = i
    · obtain ⟨j, hj, hb, e⟩ := late h0 h
      rw [← e, k.2.1 j hj hb, l.2.1 j hj hb]
    · have h' : ∀ j < m.length, (p + j) % B ≠ i := fun j hj e => h ⟨j, hj, e⟩
      rw [k.2.2 i hi h', l.2.2 i hi h']
  · rw [List.getElem?_eq_none (by rw [k.1]; omega), List.getElem?_eq_none (by rw [l.1]; omega)]

variable {H : Type}

theorem MdRel.same {c : Cfg} {P : Md H} (hB : 0 < P.B) {e e' : BlockEngine H} {s m}
    (R : MdRel c P e s m) (R' : MdRel c P e' s m) (hb : e.buffer = e'.buffer) : e = e' := by
  have h1 := R.2.h_eq hB
  have h2 := R'.2.h_eq hB
  have h3 := R.2.len
  have h4 := R'.2.len
  cases e
  cases e'
  simp only at h1 h2 h3 h4 hb
  rw [h1, h3, hb, ← h2, ← h4]

theorem SipRel_same {c : Cfg} {e e' : Siphash24.Engine} {s m}
    (R : Siphash24.SipRel c e s m) (R' : Siphash24.SipRel c e' s m) : e = e' := by
  obtain ⟨p, r, hm, h8, hr, hn, ht, hs⟩ := R.split
  obtain ⟨p', r', hm', h8', hr', hn', ht', hs'⟩ := R'.split
  have hl : p.length = p'.length := by
    have h1 := congrArg List.length hm
    have h2 := congrArg List.length hm'
    rw [List.length_append] at h1 h2
    omega
  obtain ⟨rfl, rfl⟩ := List.append_inj (hm.symm.trans hm') hl
  have hv : e.state = e'.state := by
    rw [← Siphash24.ofSip_toSip e.state, ← Siphash24.ofSip_toSip e'.state, hs, hs']
  have h1 := R.k0.trans R'.k0.symm
  have h2 := R.k1.trans R'.k1.symm
  have h3 := R.len.trans R'.len.symm
  have h4 := ht.trans ht'.symm
  have h5 := hn.trans hn'.symm
  cases e
  cases e'
  simp only at h1 h2 h3 h4 h5 hv
  rw [h1, h2, h3, h4, h5, hv]

/-- Any number of inputs write to the buffer, round and round. -/
theorem inputs_kept {c : Cfg} {ops : BlockOps H} (h0 : 0 < ops.B) (hd : ops.B ∣ c.usizeMod)
    (hm : ops.B < c.usizeMod) {start fin mid from_} (ds : List (List Byte)) :
    ∀ {e e' : BlockEngine H}, (mdEngine c ops start fin mid from_).inputs e ds = .ok e' →
      Kept ops.B e.length e.buffer ds.flatten e'.buffer := by
  induction ds with
  | nil => intro e e' h; cases h; exact Kept.nil _ _ _
  | cons d ds ih =>
    intro e e' h
    obtain ⟨e1, h1, h2⟩ := BlockEngine.bindOk h
    obtain ⟨k, l⟩ := BlockEngine.inputLoop_kept h0 hd hm _ _ _ h1
    rw [List.flatten_cons]
    exact k.append ((ih h2).mod l)

theorem Lawful.cuts {E : HashEngine} {S : LogSpec E.Midstate} (W : Lawful E S) {e s m}
    (R : W.Rel e s m) {ds ds' : List (List Byte)} (hf : ds.flatten = ds'.flatten)
    (h : ∀ d ∈ ds, S.slice d.length) (h' : ∀ d ∈ ds', S.slice d.length)
    (u : ∀ {x y}, E.inputs e ds = .ok x → E.inputs e ds' = .ok y → W.Rel x s (m ++ ds'.flatten) →
      W.Rel y s (m ++ ds'.flatten) → x = y) :
    E.inputs e ds = E.inputs e ds' := by
  cases ha : S.accepts s (m.length + ds'.flatten.length) with
  | false =>
    rw [W.inputs_err ds h R (by rw [hf]; exact ha), W.inputs_err ds' h' R ha]
  | true =>
    obtain ⟨x, hx, Rx⟩ := W.inputs_ok ds h R (by rw [hf]; exact ha)
    obtain ⟨y, hy, Ry⟩ := W.inputs_ok ds' h' R ha
    rw [hf] at Rx
    rw [hx, hy, u hx hy Rx Ry]

theorem MdFacts.cuts {c : Cfg} {P : Md H} {ops zlen pre enc start fin mid from_ resume}
    (F : MdFacts c P ops zlen pre enc start fin mid from_ resume) {e s m}
    (R : F.lawful.Rel e s m) {ds ds' : List (List Byte)} (hf : ds.flatten = ds'.flatten) :
    (mdEngine c ops start fin mid from_).inputs e ds = (mdEngine c ops start fin mid from_).inputs e ds' := by
  have hB : 0 < P.B := by rcases F.B_ok with h | h <;> omega
  have hd : ops.B ∣ c.usizeMod ∧ ops.B < c.usizeMod := by
    rw [F.B_eq]
    unfold Cfg.usizeMod
    rcases F.B_ok with h | h <;> rcases F.valid with v | v | v <;> rw [h, v] <;> decide
  refine F.lawful.cuts R hf (fun _ _ => trivial) (fun _ _ => trivial) fun {x y} hx hy Rx Ry => ?_
  refine MdRel.same hB Rx Ry ?_
  have k := inputs_kept (by rw [F.B_eq]; exact hB) hd.1 hd.2 ds hx
  have l := inputs_kept (by rw [F.B_eq]; exact hB) hd.1 hd.2 ds' hy
  rw [hf] at k
  exact Kept.unique (by rw [F.B_eq]; exact hB) (by rw [F.B_eq]; exact R.2.buf) k l

theorem tagged_inputs {c : Cfg} {T} (ds : List (List Byte)) : ∀ e,
    (Sha256t.engine c T).inputs e ds = (Sha256.engine c).inputs e ds := by
  induction ds with
  | nil => intro e; rfl
  | cons d ds ih =>
    intro e
    show ((Sha256.engine c).input e d >>= fun x => (Sha256t.engine c T).inputs x ds) =
      ((Sha256.engine c).input e d >>= fun x => (Sha256.engine c).inputs x ds)
    exact congrArg _ (funext ih)

theorem hmac_inputs {c : Cfg} {E : HashEngine} (ds : List (List Byte)) : ∀ e : Hmac.Engine E,
    (Hmac.engine c E).inputs e ds = (E.inputs e.iengine ds).map fun i => { e with iengine := i } := by
  induction ds with
  | nil => intro e; rfl
  | cons d ds ih =>
    intro e
    show ((E.input e.iengine d >>= fun i => pure { e with iengine := i }) >>=
      fun x => (Hmac.engine c E).inputs x ds) = (E.input e.iengine d >>= fun i => E.inputs i ds).map _
    cases E.input e.iengine d with
    | error f => rfl
    | ok i => exact ih _

/-- The state after inputs, or the panic, does not depend on how the bytes are cut. -/
theorem Alg.cuts {c : Cfg} (hc : c.Valid) : (a : Alg) → (ok : a.Ok c) → ∀ {e s m},
    (a.lawful hc ok).Rel e s m → ∀ {ds ds' : List (List Byte)}, ds.flatten = ds'.flatten →
    (∀ d ∈ ds, d.length < c.usizeMod) → (∀ d ∈ ds', d.length < c.usizeMod) →
    (a.engine c).inputs e ds = (a.engine c).inputs e ds'
  | .sha1, _, _, _, _, R, _, _, hf, _, _ => (Sha1.facts hc).cuts R hf
  | .sha256, _, _, _, _, R, _, _, hf, _, _ => (Sha256.facts hc).cuts R hf
  | .sha384, _, _, _, _, R, _, _, hf, _, _ => (Sha384.facts hc).cuts R hf
  | .sha512, _, _, _, _, R, _, _, hf, _, _ => (Sha512.facts hc).cuts R hf
  | .sha512_256, _, _, _, _, R, _, _, hf, _, _ => (Sha512_256.facts hc).cuts R hf
  | .ripemd160, _, _, _, _, R, _, _, hf, _, _ => (Ripemd160.facts hc).cuts R hf
  | .sha256t _ _ _, _, e, _, _, R, ds, ds', hf, _, _ =>
    (tagged_inputs ds e).trans (((Sha256.facts hc).cuts R hf).trans (tagged_inputs ds' e).symm)
  | .siphash24, _, _, _, _, R, _, _, hf, h, h' =>
    (Siphash24.lawful hc).cuts R hf h h' fun _ _ Rx Ry => SipRel_same Rx Ry
  | .hmac a, ok, e, _, _, R, ds, ds', hf, h, h' =>
    (hmac_inputs ds e).trans
      ((congrArg _ (Alg.cuts hc a ok.1 R.1 hf h h')).trans (hmac_inputs ds' e).symm)

end Chf
