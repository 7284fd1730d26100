import Verif.Props.Midstate

/-!
# C19–C21: engines that do not resume correctly

For RIPEMD-160, SipHash and HMAC `from_midstate(e.midstate(), e.n_bytes_hashed())` succeeds but gives
a different engine.  Each section has the statement one would want, its refutation, and a theorem that
says when the engine does resume.
-/

namespace Chf.Props
open Spec

/-! ## C19: RIPEMD-160 -/

/-- What C19 asks for. -/
def C19_statement : Prop :=
  ∀ c : Cfg, c.Valid → ∀ e, Reachable c .ripemd160 e →
    64 ∣ (Ripemd160.engine c).nBytesHashed e → Resumes c .ripemd160 e

theorem leWords_serializeRmd (h : Arr5 (BitVec 32)) : leWords 32 (serializeRmd h) = h.toList := by
  have key : ∀ l : List (BitVec 32), leWords 32 (l.flatMap fun x => leBytes 4 x.toNat) = l := by
    intro l
    induction l with
    | nil => rfl
    | cons x l ih =>
      rw [List.flatMap_cons, leWords, blocks_cons (by decide) (by simp), List.map_cons]
      rw [leWords] at ih
      rw [ih, leNat_leBytes]
      congr 1
      rw [Nat.mod_eq_of_lt (by have := x.isLt; omega)]
      simp
  exact key _

/-- Reading big-endian and writing little-endian reverses every word. -/
theorem serializeRmd_parse5 (μ : List Byte) (hμ : μ.length = 20) :
    serializeRmd (parse5 μ) = ((blocks 4 μ).map List.reverse).flatten := by
  have h : (parse5 μ).toList = beWords 32 μ := by
    rw [list5 (beWords 32 μ) (by simp [hμ]) 0]; rfl
  have key : ∀ l : List (List Byte), (∀ b ∈ l, b.length = 4) →
      ((l.map fun bs => BitVec.ofNat 32 (beNat bs)).flatMap fun x => leBytes 4 x.toNat) =
        (l.map List.reverse).flatten := by
    intro l
    induction l with
    | nil => intro _; rfl
    | cons b l ih =>
      intro hl
      have hb4 : b.length = 4 := hl b (by simp)
      have hr : leBytes 4 (beNat b) = b.reverse := by
        have := leBytes_leNat b.reverse
        rw [List.length_reverse, hb4, ← beNat_eq] at this
        exact this
      rw [List.map_cons, List.flatMap_cons, ih (fun x hx => hl x (by simp [hx])), List.map_cons,
        List.flatten_cons, BitVec.toNat_ofNat,
        Nat.mod_eq_of_lt (by have := beNat_lt b; rw [hb4] at this; exact this), hr]
  rw [serializeRmd, h, beWords]
  exact key _ fun b hb => mem_blocks_length hb

theorem flatten_map_reverse_eq : ∀ l : List (List Byte), (∀ b ∈ l, b.length = 4) →
    ((l.map List.reverse).flatten = l.flatten ↔ ∀ b ∈ l, b.reverse = b) := by
  intro l
  induction l with
  | nil => intro _; simp
  | cons b l ih =>
    intro hl
    have hb : b.length = 4 := hl b (by simp)
    rw [List.map_cons, List.flatten_cons, List.flatten_cons]
    constructor
    · intro h
      obtain ⟨h1, h2⟩ := List.append_inj h (by simp)
      intro x hx
      rcases List.mem_cons.1 hx with rfl | hx
      · exact h1
      · exact (ih fun x hx => hl x (by simp [hx])).1 h2 x hx
    · intro h
      rw [h b (by simp), (ih fun x hx => hl x (by simp [hx])).2 fun x hx => h x (by simp [hx])]

/-- What C19 amounts to: at a block boundary a RIPEMD-160 engine resumes from its midstate if and
only if each of the five 4-byte words of the midstate reads the same backwards. -/
theorem C19_resumes_iff_partial {c : Cfg} (hc : c.Valid) {e : Ripemd160.Engine}
    (he : Reachable c .ripemd160 e) (hn : 64 ∣ (Ripemd160.engine c).nBytesHashed e) :
    ∃ μ, (Ripemd160.engine c).midstate e = .ok μ ∧ μ.length = 20 ∧
      (Resumes c .ripemd160 e ↔ ∀ w ∈ blocks 4 μ, w.reverse = w) := by
  obtain ⟨k, h⟩ := he
  obtain ⟨s, m, R, _⟩ := h.rel hc (a := .ripemd160) trivial
  have W := Alg.ripemd160.lawful hc trivial
  have hcount := (Alg.ripemd160.lawful hc trivial).count R
  have hmid : (Ripemd160.engine c).midstate e =
      .ok (serializeRmd (chain 64 compressRmd s.1 m)) := (Alg.ripemd160.lawful hc trivial).mid R
  generalize hch : chain 64 compressRmd s.1 m = g at hmid
  refine ⟨_, hmid, length_serializeRmd _, ?_⟩
  have hn0 : (Ripemd160.engine c).nBytesHashed e % 64 = 0 := Nat.dvd_iff_mod_eq_zero.mp hn
  have hlt : (Ripemd160.engine c).nBytesHashed e < c.usizeMod := by
    rw [show (Ripemd160.engine c).nBytesHashed e = _ from hcount]
    exact Nat.mod_lt _ (Nat.two_pow_pos _)
  have ht : Alg.ripemd160.Typed c (serializeRmd g) ((Ripemd160.engine c).nBytesHashed e) :=
    ⟨length_serializeRmd _, hlt⟩
  have hflat : (blocks 4 (serializeRmd g)).flatten = serializeRmd g := by
    have h1 := blocks_flatten_remainder 4 (by decide) (serializeRmd g)
    rw [remainder, length_serializeRmd, List.drop_of_length_le (by simp), List.append_nil] at h1
    exact h1
  have hiff := flatten_map_reverse_eq (blocks 4 (serializeRmd g)) fun b hb => mem_blocks_length hb
  rw [hflat, ← serializeRmd_parse5 _ (length_serializeRmd _)] at hiff
  have hres := C22_aligned_succeeds.md (P := mdRmd) (c := c) (p := parse5) (μ := serializeRmd g) hn0
  obtain ⟨e', h1, R'⟩ := (Alg.ripemd160.lawful hc trivial).resume_ok (Alg.ripemd160.typed_log ht) hres
  have hmid' : (Ripemd160.engine c).midstate e' = .ok (serializeRmd (parse5 (serializeRmd g))) :=
    (Alg.ripemd160.lawful hc trivial).mid R'
  rw [← hiff]
  constructor
  · rintro ⟨μ, e2, h2, h3, h4⟩
    have hμ : μ = serializeRmd g := Except.ok.inj (h2.symm.trans hmid)
    subst hμ
    have he2 : e2 = e' := Except.ok.inj (h3.symm.trans h1)
    subst he2
    have h5 := h4 [] (by simp)
    have h6 : (Ripemd160.engine c).midstate e = (Ripemd160.engine c).midstate e2 :=
      congrArg (fun r : Res (Nat × Res (List Byte) × Res (List Byte)) =>
        match r with
        | .ok x => x.2.1
        | .error f => .error f) h5
    rw [hmid, hmid'] at h6
    exact (Except.ok.inj h6).symm
  · intro h2
    have h3 : parse5 (serializeRmd g) = g := by
      have := congrArg (leWords 32) h2
      rw [leWords_serializeRmd, leWords_serializeRmd] at this
      have inj : ∀ a b : Arr5 (BitVec 32), a.toList = b.toList → a = b := by
        intro a b hab
        cases a; cases b
        simpa [Arr5.toList] using hab
      exact inj _ _ this
    refine ⟨_, e', hmid, h1, obsEq_of hc (a := .ripemd160) trivial R R' fun x => ?_⟩
    have hm : 64 ∣ m.length := by
      rw [show (Ripemd160.engine c).nBytesHashed e = _ from hcount] at hn
      exact log_aligned (pow_dvd hc).1 R.1 hn
    have h4 := Md.observe_resume mdRmd c (fun μ _ => .ok (parse5 μ)) (by decide) s m hm
      ((Alg.ripemd160.lawful hc trivial).accepted R) x
    refine h4.symm.trans ?_
    have h5 : (chain 64 compressRmd s.1 m, (s.2 + m.length) % 2 ^ c.usizeBits) =
        (parse5 (serializeRmd g), (Ripemd160.engine c).nBytesHashed e) := by
      rw [h3, hch]
      exact congrArg _ hcount.symm
    exact congrArg (fun s => (mdRmd.log c fun μ _ => .ok (parse5 μ)).observe s [] x) h5

/-- A new engine is at a block boundary. -/
example : Reachable .debug64 .ripemd160 Ripemd160.Engine.default ∧
    64 ∣ (Ripemd160.engine .debug64).nBytesHashed Ripemd160.Engine.default :=
  ⟨⟨_, .new rfl⟩, by decide⟩

/-- C19 is false, already for a new engine. -/
theorem C19_refuted : ¬ C19_statement := by
  intro h
  have hc : Cfg.debug64.Valid := by decide
  obtain ⟨μ, h1, _, h2⟩ := C19_resumes_iff_partial hc (e := Ripemd160.Engine.default) ⟨_, .new rfl⟩
    (by decide)
  have h3 : (Ripemd160.engine .debug64).midstate Ripemd160.Engine.default = .ok (serializeRmd ivRmd) :=
    (Ripemd160.facts hc).mid_eq _
  have hμ : μ = serializeRmd ivRmd := Except.ok.inj (h1.symm.trans h3)
  subst hμ
  have h4 := h2.1 (h .debug64 hc _ ⟨_, .new rfl⟩ (by decide))
  revert h4
  decide

set_option maxRecDepth 10000 in
/-- The digest of the resumed engine really is another one: resuming a new engine and finalizing does
not give the hash of the empty message. -/
theorem C19_wrong_digest_refuted :
    (do
      let e ← (Ripemd160.engine .debug64).new
      let μ ← (Ripemd160.engine .debug64).midstate e
      let e ← (Ripemd160.engine .debug64).fromMidstate μ ((Ripemd160.engine .debug64).nBytesHashed e)
      (Ripemd160.engine .debug64).finalize e) ≠ (Ripemd160.engine .debug64).hash [] := by
  decide +kernel

/-! ## C20: SipHash -/

/-- What C20 asks for. -/
def C20_statement : Prop :=
  ∀ c : Cfg, c.Valid → ∀ e, Reachable c .siphash24 e →
    8 ∣ (Siphash24.engine c).nBytesHashed e → Resumes c .siphash24 e

/-- C20 fails for every engine that has hashed anything: the resumed engine counts from 0 and has
both keys 0. -/
theorem C20_never_resumes {c : Cfg} {e : Siphash24.Engine}
    (hn : (Siphash24.engine c).nBytesHashed e ≠ 0) : ¬ Resumes c .siphash24 e := by
  rintro ⟨μ, e', h1, h2, h3⟩
  have h4 := h3 [] (by simp)
  cases h2
  have h5 : (Siphash24.engine c).nBytesHashed e = 0 :=
    congrArg (fun r : Res (Nat × Res Siphash24.State × Res (List Byte)) =>
      match r with
      | .ok x => x.1
      | .error _ => 0) h4
  exact hn h5

theorem sip_eight : ∃ e, Reachable .debug64 .siphash24 e ∧
    (Siphash24.engine .debug64).nBytesHashed e = 8 := by
  have hc : Cfg.debug64.Valid := by decide
  obtain ⟨e, he, R⟩ := (Alg.siphash24.lawful hc trivial).new_rel
  obtain ⟨e', he', R'⟩ := (Alg.siphash24.lawful hc trivial).input_ok (List.replicate 8 0)
    (by show 8 < 2 ^ 64; decide) R (by decide)
  refine ⟨e', ⟨_, .input _ (.new he) (by decide) he'⟩, ?_⟩
  have := (Alg.siphash24.lawful hc trivial).count R'
  rw [show (Siphash24.engine .debug64).nBytesHashed e' = _ from this]
  decide

example : ∃ e, (Siphash24.engine .debug64).nBytesHashed e ≠ 0 :=
  sip_eight.imp fun e h => by rw [h.2]; decide

/-- C20 is false. -/
theorem C20_refuted : ¬ C20_statement := by
  intro h
  obtain ⟨e, he, hn⟩ := sip_eight
  exact C20_never_resumes (by rw [hn]; decide) (h .debug64 (by decide) e he (by rw [hn]; decide))

set_option maxRecDepth 10000 in
/-- The digest of the resumed engine is another one: after 8 zero bytes. -/
theorem C20_wrong_digest_refuted :
    (do
      let e ← (Siphash24.engine .debug64).new
      let e ← (Siphash24.engine .debug64).input e (List.replicate 8 0)
      let μ ← (Siphash24.engine .debug64).midstate e
      let e ← (Siphash24.engine .debug64).fromMidstate μ ((Siphash24.engine .debug64).nBytesHashed e)
      (Siphash24.engine .debug64).finalize e) ≠ (Siphash24.engine .debug64).hash (List.replicate 8 0) := by
  decide +kernel

theorem leWords_append_sip (m x : List Byte) (hm : 8 ∣ m.length) :
    leWords 64 (m ++ x) = leWords 64 m ++ leWords 64 x := Siphash24.leWords_append _ _ hm

theorem sip_digest (c : Cfg) (s : SipStart) (m : List Byte) :
    (Alg.log c .siphash24).digest s m = .ok (leBytes 8 (sipFrom s.v m).toNat) := rfl

/-- What is left of C20: if the number of bytes hashed is a multiple of 256, the resumed engine gives
the same midstates and digests (but not the same counts) whatever is input into both. -/
theorem C20_digests_partial {c : Cfg} (hc : c.Valid) {e : Siphash24.Engine}
    (he : Reachable c .siphash24 e) (hn : 256 ∣ (Siphash24.engine c).nBytesHashed e) :
    ∃ μ e', (Siphash24.engine c).midstate e = .ok μ ∧
      (Siphash24.engine c).fromMidstate μ ((Siphash24.engine c).nBytesHashed e) = .ok e' ∧
      ∀ ds : List (List Byte), (∀ d ∈ ds, d.length < c.usizeMod) → ∀ e1,
        (Siphash24.engine c).inputs e ds = .ok e1 → ∃ e2, (Siphash24.engine c).inputs e' ds = .ok e2 ∧
          (Siphash24.engine c).midstate e2 = (Siphash24.engine c).midstate e1 ∧
          (Siphash24.engine c).finalize e2 = (Siphash24.engine c).finalize e1 := by
  obtain ⟨k, h⟩ := he
  obtain ⟨s, m, R, _⟩ := h.rel hc (a := .siphash24) trivial
  have W := Alg.siphash24.lawful hc trivial
  have hcount : (Siphash24.engine c).nBytesHashed e = m.length % 2 ^ c.usizeBits :=
    (Alg.siphash24.lawful hc trivial).count R
  have hmid := (Alg.siphash24.lawful hc trivial).mid R
  have h256 : 256 ∣ 2 ^ c.usizeBits := by
    unfold Cfg.Valid at hc
    rcases hc with h | h | h <;> rw [h] <;> decide
  have hm : 256 ∣ m.length := by
    rw [hcount] at hn
    exact (Nat.dvd_mod_iff h256).mp hn
  have hm8 : 8 ∣ m.length := Nat.dvd_trans (by decide) hm
  have hres : (Alg.log c .siphash24).resume ((Alg.log c .siphash24).mid s m)
      ((Siphash24.engine c).nBytesHashed e) =
      .ok (⟨0, 0, (leWords 64 m).foldl sipAbsorb s.v⟩ : SipStart) := by
    simp only [Alg.log, logSip]
  obtain ⟨e', h1, R'⟩ := (Alg.siphash24.lawful hc trivial).resume_ok
    (by
      rw [hcount]
      exact Nat.mod_lt _ (Nat.two_pow_pos _)) hres
  refine ⟨_, e', hmid, h1, ?_⟩
  intro ds hs e1 hi
  have hs' : ∀ d ∈ ds, (Alg.log c .siphash24).slice d.length := fun d hd =>
    Alg.siphash24.log_slice (hs d hd)
  cases hacc : (Alg.log c .siphash24).accepts s (m.length + ds.flatten.length) with
  | false =>
    have := (Alg.siphash24.lawful hc trivial).inputs_err ds hs' R hacc
    exact absurd (hi.symm.trans this) (by simp)
  | true =>
    obtain ⟨e1', h2, R1⟩ := (Alg.siphash24.lawful hc trivial).inputs_ok ds hs' R hacc
    have : e1 = e1' := Except.ok.inj (hi.symm.trans h2)
    subst this
    obtain ⟨e2, h3, R2⟩ := (Alg.siphash24.lawful hc trivial).inputs_ok ds hs' R' (by
      refine (Alg.siphash24.lawful hc trivial).mono ?_ hacc
      simp only [List.length_nil]
      omega)
    refine ⟨e2, h3, ?_, ?_⟩
    · rw [List.nil_append] at R2
      have d1 := (Alg.siphash24.lawful hc trivial).mid R1
      have d2 := (Alg.siphash24.lawful hc trivial).mid R2
      refine d2.trans (Eq.trans (congrArg _ ?_) d1.symm)
      simp only [Alg.log, logSip, leWords_append_sip _ _ hm8, List.foldl_append]
      rfl
    · rw [List.nil_append] at R2
      have d1 := ((Alg.siphash24.lawful hc trivial).digest R1).trans (sip_digest c s _)
      have d2 := ((Alg.siphash24.lawful hc trivial).digest R2).trans (sip_digest c _ _)
      have hpad : sipPad (m ++ ds.flatten) = m ++ sipPad ds.flatten := by
        obtain ⟨q, hq⟩ := hm
        have h8 : (m ++ ds.flatten).length % 8 = ds.flatten.length % 8 := by
          rw [List.length_append, hq]; omega
        have hb : BitVec.ofNat 8 (m ++ ds.flatten).length = BitVec.ofNat 8 ds.flatten.length := by
          apply BitVec.eq_of_toNat_eq
          rw [BitVec.toNat_ofNat, BitVec.toNat_ofNat, List.length_append, hq]
          omega
        simp only [sipPad, h8, hb, List.append_assoc]
      refine d2.trans (Eq.trans ?_ d1.symm)
      rw [sipFrom, sipFrom, hpad, leWords_append_sip _ _ hm8, List.foldl_append]

/-- A keyed engine after 256 bytes. -/
example : ∃ e, Reachable .release64 .siphash24 e ∧
    256 ∣ (Siphash24.engine .release64).nBytesHashed e ∧
    (Siphash24.engine .release64).nBytesHashed e ≠ 0 := by
  have hc : Cfg.release64.Valid := by decide
  obtain ⟨e', he', R'⟩ := (Alg.siphash24.lawful hc trivial).input_ok (List.replicate 256 0)
    (by show _ < 2 ^ 64; rw [List.length_replicate]; decide) (Siphash24.withKeys_rel hc 3 4) (by decide)
  have : (Siphash24.engine .release64).nBytesHashed e' = 256 := by
    rw [show (Siphash24.engine .release64).nBytesHashed e' = _ from
      (Alg.siphash24.lawful hc trivial).count R']
    decide +kernel
  refine ⟨e', ⟨_, .input _ (.sipKeys 3 4) ?_ he'⟩, ?_⟩
  · rw [List.length_replicate]; decide
  · rw [this]; decide

/-! ## C21: HMAC -/

/-- What C21 asks for. -/
def C21_statement : Prop :=
  ∀ c : Cfg, c.Valid → ∀ a ∈ [Alg.sha1, .sha256], ∀ e, Reachable c (.hmac a) e →
    a.blockSize ∣ ((Alg.hmac a).engine c).nBytesHashed e → Resumes c (.hmac a) e

/-- Successive inputs into an HMAC engine go to its inner engine. -/
theorem hmac_inputs (c : Cfg) (E : HashEngine) (ds : List (List Byte)) : ∀ e : Hmac.Engine E,
    (Hmac.engine c E).inputs e ds = (do
      let i ← E.inputs e.iengine ds
      pure { e with iengine := i }) := by
  induction ds with
  | nil => intro e; rfl
  | cons d ds ih =>
    intro e
    simp only [HashEngine.inputs]
    show (do
      let e ← (do
        let i ← E.input e.iengine d
        pure { e with iengine := i } : Res (Hmac.Engine E))
      (Hmac.engine c E).inputs e ds) = _
    cases h : E.input e.iengine d with
    | error f => rfl
    | ok i =>
      simp only [bind, Except.bind, pure, Except.pure]
      rw [ih]
      rfl

/-- HMAC engines with indistinguishable halves are indistinguishable. -/
theorem hmac_obsEq {c : Cfg} {E : HashEngine} {e e' : Hmac.Engine E}
    (hd : ∀ ds x d, (∀ y ∈ ds, y.length < c.usizeMod) → E.inputs e.iengine ds = .ok x →
      E.finalize x = .ok d → d.length < c.usizeMod)
    (hi : ObsEq c E e.iengine e'.iengine) (ho : ObsEq c E e.oengine e'.oengine) :
    ObsEq c (Hmac.engine c E) e e' := by
  intro ds hs
  have h1 := hi ds hs
  have h2 := ho
  unfold HashEngine.observe at h1 ⊢
  rw [hmac_inputs, hmac_inputs]
  cases hx : E.inputs e.iengine ds with
  | error f =>
    cases hy : E.inputs e'.iengine ds with
    | error f' => rw [hx, hy] at h1; cases h1; rfl
    | ok y => rw [hx, hy] at h1; cases h1
  | ok x =>
    cases hy : E.inputs e'.iengine ds with
    | error f' => rw [hx, hy] at h1; cases h1
    | ok y =>
      rw [hx, hy] at h1
      simp only [bind, Except.bind, pure, Except.pure, Except.ok.injEq, Prod.mk.injEq] at h1
      obtain ⟨h3, h4, h5⟩ := h1
      have hmid : E.midstate e.oengine = E.midstate e'.oengine := by
        have := ho [] (by simp)
        simp only [HashEngine.observe, HashEngine.inputs, bind, Except.bind, pure, Except.pure,
          Except.ok.injEq, Prod.mk.injEq] at this
        exact this.2.1
      have hfin : Hmac.finalize E { e with iengine := x } = Hmac.finalize E { e' with iengine := y } := by
        simp only [Hmac.finalize, h5]
        cases hz : E.finalize y with
        | error f => rfl
        | ok ih =>
          have := ho [ih] (by
            intro d h
            rw [List.mem_singleton.mp h]
            exact hd ds x ih hs hx (h5.trans hz))
          simp only [HashEngine.observe, HashEngine.inputs, bind, Except.bind, pure, Except.pure] at this ⊢
          cases hp : E.input e.oengine ih with
          | error f =>
            cases hq : E.input e'.oengine ih with
            | error f' => rw [hp, hq] at this; cases this; rfl
            | ok q => rw [hp, hq] at this; cases this
          | ok p =>
            cases hq : E.input e'.oengine ih with
            | error f' => rw [hp, hq] at this; cases this
            | ok q =>
              rw [hp, hq] at this
              simp only [Except.ok.injEq, Prod.mk.injEq] at this
              exact this.2.2
      have hm2 : (Hmac.engine c E).midstate { e with iengine := x } =
          (Hmac.engine c E).midstate { e' with iengine := y } := by
        simp only [Hmac.engine, h4, hmid]
      simp only [bind, Except.bind, pure, Except.pure]
      rw [hm2, show (Hmac.engine c E).finalize { e with iengine := x } =
        (Hmac.engine c E).finalize { e' with iengine := y } from hfin,
        show (Hmac.engine c E).nBytesHashed { e with iengine := x } =
          (Hmac.engine c E).nBytesHashed { e' with iengine := y } from h3]

/-- What is left of C21, for HMAC over any engine: if both halves resume and have hashed the same
number of bytes, the HMAC engine resumes. -/
theorem C21_resume_partial {c : Cfg} (hc : c.Valid) (a : Alg) (ok : a.Ok c)
    {e : Hmac.Engine (a.engine c)} (hri : Reachable c a e.iengine)
    (hi : Resumes c a e.iengine) (ho : Resumes c a e.oengine)
    (hn : (a.engine c).nBytesHashed e.iengine = (a.engine c).nBytesHashed e.oengine) :
    Resumes c (.hmac a) e := by
  obtain ⟨μ, i, h1, h2, h3⟩ := hi
  obtain ⟨ν, o, h4, h5, h6⟩ := ho
  refine ⟨({ inner := μ, outer := ν } : Hmac.Midstate (a.engine c)),
    ({ iengine := i, oengine := o } : Hmac.Engine (a.engine c)), ?_, ?_, hmac_obsEq ?_ h3 h6⟩
  · show (do
      let i ← (a.engine c).midstate e.iengine
      let o ← (a.engine c).midstate e.oengine
      pure { inner := i, outer := o } : Res (Hmac.Midstate (a.engine c))) = _
    rw [h1, h4]
    rfl
  · show (do
      let i ← (a.engine c).fromMidstate μ ((a.engine c).nBytesHashed e.iengine)
      let o ← (a.engine c).fromMidstate ν ((a.engine c).nBytesHashed e.iengine)
      pure { iengine := i, oengine := o } : Res (Hmac.Engine (a.engine c))) = _
    rw [h2, hn, h5]
    rfl
  · intro ds x d hs hx hfin
    obtain ⟨k, hk⟩ := hri
    obtain ⟨s, m, R, _⟩ := (hk.inputs ds hs hx).rel hc ok
    rw [(a.lawful hc ok).digest R] at hfin
    have h7 := (a.lawful hc ok).digest_len hfin
    have h8 := (a.lawful hc ok).out_le
    have h9 := usizeMod_ge hc
    omega

/-- The two halves of a keyed HMAC engine. -/
theorem hmac_new_parts {c : Cfg} {E : HashEngine} {key : List Byte} {e : Hmac.Engine E}
    (h : Hmac.new c E key = .ok e) :
    ∃ i x y, E.default = .ok i ∧ x.length = E.blockSize ∧ y.length = E.blockSize ∧
      E.input i x = .ok e.iengine ∧ E.input i y = .ok e.oengine := by
  have slice : ∀ (l s : List Byte) n, sliceTo l n = .ok s → s.length = n := by
    intro l s n hl
    unfold sliceTo at hl
    split at hl
    · cases hl
      rw [List.length_take]
      omega
    · cases hl
  have rest : ∀ (i : E.State) (pads : List Byte × List Byte), E.default = .ok i →
      (do
        let ip ← sliceTo pads.1 E.blockSize
        let iengine ← E.input i ip
        let op ← sliceTo pads.2 E.blockSize
        let oengine ← E.input i op
        pure { iengine := iengine, oengine := oengine } : Res (Hmac.Engine E)) = .ok e →
      ∃ i x y, E.default = .ok i ∧ x.length = E.blockSize ∧ y.length = E.blockSize ∧
        E.input i x = .ok e.iengine ∧ E.input i y = .ok e.oengine := by
    intro i pads hi h
    cases h1 : sliceTo pads.1 E.blockSize with
    | error f => rw [h1] at h; cases h
    | ok x =>
      cases h2 : E.input i x with
      | error f => simp only [h1, bind, Except.bind, h2] at h; cases h
      | ok a =>
        cases h3 : sliceTo pads.2 E.blockSize with
        | error f => simp only [h1, bind, Except.bind, h2, h3] at h; cases h
        | ok y =>
          cases h4 : E.input i y with
          | error f => simp only [h1, bind, Except.bind, h2, h3, h4] at h; cases h
          | ok b =>
            simp only [h1, bind, Except.bind, h2, h3, h4] at h
            cases h
            exact ⟨i, x, y, hi, slice _ _ _ h1, slice _ _ _ h3, h2, h4⟩
  unfold Hmac.new at h
  cases h0 : debugAssert c (decide (E.blockSize ≤ 128)) with
  | error f => rw [h0] at h; cases h
  | ok u =>
    obtain ⟨i, hi⟩ : ∃ i, E.default = .ok i := by
      cases hi : E.default with
      | error f => simp only [h0, bind, Except.bind, hi] at h; cases h
      | ok i => exact ⟨i, rfl⟩
    · by_cases hgt : key.length > E.blockSize
      · cases hh : E.hash key with
        | error f => simp only [h0, bind, Except.bind, hi, hgt, if_true, hh] at h; cases h
        | ok hash =>
          refine rest i (Hmac.xorZip (List.replicate 128 0x36) hash,
            Hmac.xorZip (List.replicate 128 0x5c) hash) hi ?_
          simp only [h0, bind, Except.bind, hi, hgt, if_true, hh, pure, Except.pure] at h ⊢
          exact h
      · refine rest i (Hmac.xorZip (List.replicate 128 0x36) key,
            Hmac.xorZip (List.replicate 128 0x5c) key) hi ?_
        simp only [h0, bind, Except.bind, hi, hgt, if_false, pure, Except.pure] at h ⊢
        exact h

/-- The engines over which HMAC is resumable directly after `new(key)`. -/
theorem C21_new_key_partial {c : Cfg} (hc : c.Valid) (a : Alg) (ha : a = .sha1 ∨ a = .sha256)
    {key : List Byte} {e : Hmac.Engine (a.engine c)} (h : Hmac.new c (a.engine c) key = .ok e) :
    Resumes c (.hmac a) e := by
  obtain ⟨i, x, y, h1, hx, hy, h2, h3⟩ := hmac_new_parts h
  have ok : a.Ok c := by rcases ha with rfl | rfl <;> trivial
  have hB : a.blockSize = 64 := by rcases ha with rfl | rfl <;> rfl
  rw [Alg.blockSize_eq, hB] at hx hy
  have hlt : 64 < c.usizeMod := by have := usizeMod_ge hc; omega
  have r1 : Reachable c a e.iengine := ⟨_, .input x (.default h1) (by omega) h2⟩
  have r2 : Reachable c a e.oengine := ⟨_, .input y (.default h1) (by omega) h3⟩
  have count : ∀ (z : List Byte) e', z.length = 64 → (a.engine c).input i z = .ok e' →
      (a.engine c).nBytesHashed e' = 64 := by
    intro z e' hz hi
    obtain ⟨i', h1', R⟩ := (a.lawful hc ok).default_rel
    rw [h1] at h1'
    cases h1'
    have hb : a.base = 0 := by rcases ha with rfl | rfl <;> rfl
    obtain ⟨e2, h4, R2⟩ := (a.lawful hc ok).input_ok z (a.log_slice (by omega)) R
      (a.fresh_accepts ok _ (by omega))
    rw [hi] at h4
    cases h4
    rw [(a.lawful hc ok).count R2]
    rcases ha with rfl | rfl
    · show (0 + ([] ++ z).length) % c.usizeMod = 64
      rw [List.nil_append, hz, Nat.zero_add, Nat.mod_eq_of_lt hlt]
    · show (0 + ([] ++ z).length) % c.usizeMod = 64
      rw [List.nil_append, hz, Nat.zero_add, Nat.mod_eq_of_lt hlt]
  have n1 := count x _ hx h2
  have n2 := count y _ hy h3
  refine C21_resume_partial hc a ok r1 ?_ ?_ (n1.trans n2.symm)
  · rcases ha with rfl | rfl
    · exact C17_sha1_resume hc r1 ⟨1, n1⟩
    · exact C16_sha256_resume hc r1 ⟨1, n1⟩
  · rcases ha with rfl | rfl
    · exact C17_sha1_resume hc r2 ⟨1, n2⟩
    · exact C16_sha256_resume hc r2 ⟨1, n2⟩

example : ∃ e, Hmac.new .debug64 (Alg.sha256.engine .debug64) [1, 2, 3] = .ok e :=
  C10_hmac_new_no_panic rfl .sha256 ⟨trivial, by decide⟩ [1, 2, 3] (by decide)

set_option maxRecDepth 10000 in
/-- The run that refutes C21: HMAC-SHA-256 with the empty key after 64 zero bytes, and the digests
before and after the round trip through the midstate. -/
theorem C21_wrong_digest_refuted :
    (do
      let E := Hmac.engine .debug64 (Sha256.engine .debug64)
      let e ← Hmac.new .debug64 (Sha256.engine .debug64) []
      let e ← E.input e (List.replicate 64 0)
      let μ ← E.midstate e
      let e' ← E.fromMidstate μ (E.nBytesHashed e)
      pure (E.nBytesHashed e % 64 == 0 && E.finalize e != E.finalize e')) = Except.ok true := by
  decide +kernel

theorem bind_ok {α β : Type} {x : Res α} {f : α → Res β} {b : β} (h : (x >>= f) = .ok b) :
    ∃ a, x = .ok a ∧ f a = .ok b := by
  cases x with
  | error e => cases h
  | ok a => exact ⟨a, rfl, h⟩

/-- C21 is false. -/
theorem C21_refuted : ¬ C21_statement := by
  intro h
  obtain ⟨e0, h0, r0⟩ := bind_ok C21_wrong_digest_refuted
  obtain ⟨e, h1, r1⟩ := bind_ok r0
  obtain ⟨μ, h2, r2⟩ := bind_ok r1
  obtain ⟨e', h3, r3⟩ := bind_ok r2
  have r4 := Except.ok.inj r3
  rw [Bool.and_eq_true, bne_iff_ne, beq_iff_eq] at r4
  obtain ⟨h4, h5⟩ := r4
  have hr : Reachable .debug64 (.hmac .sha256) e := ⟨_, .input _ (.hmacKey [] (by decide) h0) (by decide) h1⟩
  obtain ⟨μ', e2, h6, h7, h8⟩ := h .debug64 (by decide) .sha256 (by simp) e hr
    (Nat.dvd_iff_mod_eq_zero.mpr h4)
  have hμ : μ' = μ := Except.ok.inj (h6.symm.trans h2)
  subst hμ
  have he : e2 = e' := Except.ok.inj (h7.symm.trans h3)
  subst he
  have h9 := h8 [] (by simp)
  refine h5 ?_
  exact congrArg (fun r : Res (Nat × Res (Hmac.Midstate (Sha256.engine .debug64)) × Res (List Byte)) =>
      match r with
      | .ok x => x.2.2
      | .error f => .error f) h9

end Chf.Props
