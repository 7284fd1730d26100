import Verif.Props.TextCollisions
import Verif.Props.TextMidstate
import Verif.Props.TextWrite

/-!
# C102: the translated `sha256t.rs` with tags written by others
-/

namespace Chf.Props
open Chf Chf.Rs Chf.Spec

/-- A tag whose `engine()` uses the public interface: the engine that it returns, if it does, was made and fed by
public calls. -/
def PublicTag (c : Cfg) (T : Source.Sha256t.Tag) : Prop :=
  ∀ e, T.engine = .ok e → Source.Reach c .sha256 e.f0

/-- C102: for every tag `new`, `default` and `Hash::engine` are the tag's `engine()`. -/
theorem C102_engine (c : Cfg) (T : Source.Sha256t.Tag) :
    (Source.Sha256t.engine c T).new = T.engine ∧ (Source.Sha256t.engine c T).default = T.engine ∧
    Source.Sha256t.Hash.engine c T = T.engine := ⟨rfl, rfl, rfl⟩

theorem tagged_inputs_text (c : Cfg) (T : Source.Sha256t.Tag) : ∀ (ds : List (List Byte)) (e : Source.Sha256t.Engine),
    (Source.Sha256t.engine c T).inputs e ds =
      ((Source.Sha256.engine c).inputs e.f0 ds).map fun x => ⟨x, ()⟩
  | [], _ => rfl
  | d :: ds, e => by
      show ((Source.Sha256.Engine.input c e.f0 d >>= fun x => pure ({ e with f0 := x } : Source.Sha256t.Engine)) >>=
        fun e => (Source.Sha256t.engine c T).inputs e ds) =
        (Source.Sha256.Engine.input c e.f0 d >>= fun x => (Source.Sha256.engine c).inputs x ds).map _
      cases Source.Sha256.Engine.input c e.f0 d with
      | error f => rfl
      | ok x => exact tagged_inputs_text c T ds { e with f0 := x }

/-- C102: for every tag an engine shows what its SHA-256 engine shows after any input. -/
theorem C102_view (c : Cfg) (T : Source.Sha256t.Tag) (e : Source.Sha256t.Engine) (ds : List (List Byte)) :
    (Source.Sha256t.engine c T).observe e ds = (Source.Sha256.engine c).observe e.f0 ds := by
  unfold HashEngine.observe
  rw [tagged_inputs_text]
  cases (Source.Sha256.engine c).inputs e.f0 ds <;> rfl

/-- The digest of an engine that callers can obtain depends on the bytes input, not on how they are cut. -/
theorem reach_chunks {c : Cfg} (hc : c.Valid) {e : Source.Sha256.Engine} (he : Source.Reach c .sha256 e)
    (ds : List (List Byte)) (hl : ds.flatten.length < c.usizeMod) :
    ((Source.Sha256.engine c).inputs e ds >>= (Source.Sha256.engine c).finalize) =
      ((Source.Sha256.engine c).inputs e [ds.flatten] >>= (Source.Sha256.engine c).finalize) := by
  obtain ⟨m, ⟨k, hm⟩, rfl⟩ := he.model hc (a := .sha256) trivial
  obtain ⟨s, l, R, -⟩ := hm.rel hc (a := .sha256) trivial
  have S := Source.algSim hc .sha256 trivial
  have sim : ∀ ds : List (List Byte), (∀ d ∈ ds, d.length < c.usizeMod) →
      ((Source.Sha256.engine c).inputs ((Source.algSim hc .sha256 trivial).st m) ds >>=
        (Source.Sha256.engine c).finalize) = ((Alg.sha256.engine c).inputs m ds >>= (Alg.sha256.engine c).finalize) := by
    intro ds hd
    have h := (Source.algSim hc .sha256 trivial).inputs m ds hd
    refine (congrArg (· >>= (Source.Sha256.engine c).finalize) h).trans ?_
    cases (Alg.sha256.engine c).inputs m ds with
    | error f => rfl
    | ok m' => exact (Source.algSim hc .sha256 trivial).finalize m'
  have h1 := (Alg.sha256.lawful hc trivial).inputs_finalize ds (fun _ _ => trivial) R
  have h2 := (Alg.sha256.lawful hc trivial).inputs_finalize [ds.flatten] (fun _ _ => trivial) R
  rw [List.flatten_singleton, ← h1] at h2
  rw [sim ds fun d hd => Nat.lt_of_le_of_lt (length_le_flatten hd) hl,
    sim [ds.flatten] fun d hd => by rw [List.mem_singleton.1 hd]; exact hl]
  exact h2.symm

/-- C102: for every tag whose `engine()` uses the public interface, `Hash::hash` of a message is `Hash::engine`, inputs
of the message cut in any way, and `Hash::from_engine`; panics included. -/
theorem C102_hash {c : Cfg} (hc : c.Valid) {T : Source.Sha256t.Tag} (hT : PublicTag c T) (ds : List (List Byte))
    (hl : ds.flatten.length < c.usizeMod) :
    Source.Sha256t.Hash.hash c T ds.flatten = (do
      let e ← Source.Sha256t.Hash.engine c T
      let e ← (Source.Sha256t.engine c T).inputs e ds
      Source.Sha256t.Hash.from_engine c T e) := by
  unfold Source.Sha256t.Hash.hash
  rw [(C102_engine c T).2.2]
  cases he : T.engine with
  | error f => rfl
  | ok e =>
    have h := congrArg (Except.map fun d => (⟨d, ()⟩ : Source.Sha256t.Hash)) (reach_chunks hc (hT e he) ds hl)
    rw [Rs.ok_bind, Rs.ok_bind, tagged_inputs_text]
    refine Eq.trans ?_ (h.symm.trans ?_)
    · show _ = Except.map _ ((Source.Sha256.Engine.input c e.f0 ds.flatten >>= fun e => .ok e) >>= _)
      show ((Source.Sha256.Engine.input c e.f0 ds.flatten >>= fun x =>
        pure ({ e with f0 := x } : Source.Sha256t.Engine)) >>= fun e => _) = _
      cases Source.Sha256.Engine.input c e.f0 ds.flatten with
      | error f => rfl
      | ok x =>
        show (Source.Sha256.Engine.finalize c x >>= fun d => pure _) = Except.map _ (Source.Sha256.Engine.finalize c x)
        cases Source.Sha256.Engine.finalize c x <;> rfl
    · cases (Source.Sha256.engine c).inputs e.f0 ds with
      | error f => rfl
      | ok x =>
        show Except.map _ (Source.Sha256.Engine.finalize c x) = (Source.Sha256.Engine.finalize c x >>= fun d => pure _)
        cases Source.Sha256.Engine.finalize c x <;> rfl

theorem tagged_hash_text (c : Cfg) (T : Source.Sha256t.Tag) {e} (he : T.engine = .ok e) (msg : List Byte) :
    Source.Sha256t.Hash.hash c T msg =
      ((Source.Sha256.engine c).inputs e.f0 [msg] >>= (Source.Sha256.engine c).finalize).map fun d => ⟨d, ()⟩ := by
  unfold Source.Sha256t.Hash.hash
  rw [(C102_engine c T).2.2, he, Rs.ok_bind]
  show ((Source.Sha256.Engine.input c e.f0 msg >>= fun x =>
    pure ({ e with f0 := x } : Source.Sha256t.Engine)) >>= fun e => _) =
    Except.map _ ((Source.Sha256.Engine.input c e.f0 msg >>= fun e => .ok e) >>= _)
  cases Source.Sha256.Engine.input c e.f0 msg with
  | error f => rfl
  | ok x =>
    show (Source.Sha256.Engine.finalize c x >>= fun d => pure _) = Except.map _ (Source.Sha256.Engine.finalize c x)
    cases Source.Sha256.Engine.finalize c x <;> rfl

/-- What an engine shows decides the digest. -/
theorem finalize_of_shown {E : HashEngine} {e e' : E.State} {ds : List (List Byte)}
    (h : E.observe e ds = E.observe e' ds) : (E.inputs e ds >>= E.finalize) = (E.inputs e' ds >>= E.finalize) := by
  unfold HashEngine.observe at h
  cases h1 : E.inputs e ds with
  | error f =>
    cases h2 : E.inputs e' ds with
    | error g => rw [h1, h2] at h; cases h; rfl
    | ok x => rw [h1, h2] at h; cases h
  | ok x =>
    cases h2 : E.inputs e' ds with
    | error g => rw [h1, h2] at h; cases h
    | ok y =>
      rw [h1, h2] at h
      injection h with h
      injection h with _ h
      injection h with h _

/-- C102: two tags at whole blocks with the same byte count and the same midstate hash every message alike. -/
theorem C102_same {c : Cfg} (hc : c.Valid) {T T' : Source.Sha256t.Tag} (hT : PublicTag c T) (hT' : PublicTag c T')
    {e e'} (he : T.engine = .ok e) (he' : T'.engine = .ok e')
    (hn : 64 ∣ Source.Sha256t.Engine.n_bytes_hashed c T e)
    (hl : Source.Sha256t.Engine.n_bytes_hashed c T e = Source.Sha256t.Engine.n_bytes_hashed c T' e')
    (hm : Source.Sha256t.Engine.midstate c T e = Source.Sha256t.Engine.midstate c T' e')
    (msg : List Byte) (hlen : msg.length < c.usizeMod) :
    Source.Sha256t.Hash.hash c T msg = Source.Sha256t.Hash.hash c T' msg := by
  rw [tagged_hash_text c T he, tagged_hash_text c T' he']
  have h : ObsEq c (Source.engineOf c .sha256) e.f0 e'.f0 :=
    (C82_states hc .sha256 trivial (B := 64) rfl (hT e he) (hT' e' he') hn).2 ⟨hl, hm⟩
  exact congrArg _ (finalize_of_shown (h [msg] fun d hd => by rw [List.mem_singleton.1 hd]; exact hlen))

/-- `T::engine()` resumes from the midstate and the byte count of a SHA-256 engine that was input `ps`. -/
def StartsAfter (c : Cfg) (T : Source.Sha256t.Tag) (ps : List (List Byte)) : Prop :=
  T.engine = do
    let e ← (Source.Sha256.engine c).new
    let e ← (Source.Sha256.engine c).inputs e ps
    let μ ← (Source.Sha256.engine c).midstate e
    Source.Sha256t.Engine.from_midstate c T μ ((Source.Sha256.engine c).nBytesHashed e)

theorem reach_inputs_tags {c : Cfg} : ∀ (ds : List (List Byte)) {e e' : Source.Sha256.Engine},
    Source.Reach c .sha256 e → (∀ d ∈ ds, d.length < c.usizeMod) →
    (Source.Sha256.engine c).inputs e ds = .ok e' → Source.Reach c .sha256 e'
  | [], _, _, he, _, h => by cases h; exact he
  | d :: ds, e, e', he, hd, h => by
      have h : ((Source.Sha256.engine c).input e d >>= fun e => (Source.Sha256.engine c).inputs e ds) = .ok e' := h
      cases h1 : (Source.Sha256.engine c).input e d with
      | error f => rw [h1] at h; cases h
      | ok x =>
        rw [h1] at h
        exact reach_inputs_tags ds (.input d he (hd d (by simp)) h1) (fun d hd' => hd d (by simp [hd'])) h

/-- Feeding a new SHA-256 engine. -/
theorem sha256_fed {c : Cfg} (hc : c.Valid) (ps : List (List Byte)) (hf : Fits c ps.flatten.length) :
    ∃ e0 e μ, (Source.Sha256.engine c).new = .ok e0 ∧ (Source.Sha256.engine c).inputs e0 ps = .ok e ∧
      (Source.Sha256.engine c).nBytesHashed e = ps.flatten.length ∧ (Source.Sha256.engine c).midstate e = .ok μ ∧
      Source.Reach c .sha256 e := by
  have hb : ps.flatten.length + 144 < 2 ^ c.usizeBits := hf.2
  have hd : ∀ d ∈ ps, d.length < c.usizeMod := fun d hd => by
    have := length_le_flatten hd
    show _ < 2 ^ c.usizeBits
    omega
  obtain ⟨m0, h0, R0⟩ := (Alg.sha256.lawful hc trivial).new_rel
  obtain ⟨m, h1, R⟩ := (Alg.sha256.lawful hc trivial).inputs_ok ps (fun _ _ => trivial) R0 (by
    show (!c.overflowChecks || decide (0 + (0 + ps.flatten.length) < 2 ^ c.usizeBits)) = true
    rw [decide_eq_true (by omega), Bool.or_true])
  have e0 : (Source.Sha256.engine c).new = .ok ((Source.algSim hc .sha256 trivial).st m0) := by
    refine (Source.algSim hc .sha256 trivial).new.trans ?_
    rw [h0]
    rfl
  have e1 : (Source.Sha256.engine c).inputs ((Source.algSim hc .sha256 trivial).st m0) ps =
      .ok ((Source.algSim hc .sha256 trivial).st m) := by
    refine ((Source.algSim hc .sha256 trivial).inputs m0 ps hd).trans ?_
    rw [h1]
    rfl
  have e2 := (Source.algSim hc .sha256 trivial).midstate m
  rw [(Alg.sha256.lawful hc trivial).mid R] at e2
  refine ⟨_, _, _, e0, e1, ?_, e2, reach_inputs_tags ps (.made .new trivial (congrArg some e0)) hd e1⟩
  refine ((Source.algSim hc .sha256 trivial).nBytesHashed m).trans
    (((Alg.sha256.lawful hc trivial).count R).trans ?_)
  show (0 + ([] ++ ps.flatten).length) % 2 ^ c.usizeBits = ps.flatten.length
  rw [List.nil_append, Nat.zero_add, Nat.mod_eq_of_lt (by omega)]

/-- C102: a tag that starts after whole blocks `P` hashes every message as SHA-256 of `P` and the message. -/
theorem C102_prefix {c : Cfg} (hc : c.Valid) {T : Source.Sha256t.Tag} {ps : List (List Byte)}
    (hT : StartsAfter c T ps) (hp : 64 ∣ ps.flatten.length) (msg : List Byte)
    (hf : Fits c (ps.flatten.length + msg.length)) :
    Source.Sha256t.Hash.hash c T msg = .ok ⟨sha256 (ps.flatten ++ msg), ()⟩ := by
  obtain ⟨e0, e, -, h0, h1, hn, -, hr⟩ := sha256_fed hc ps (hf.mono (by omega))
  obtain ⟨μ, e', h2, h3, ho⟩ := C82_resume hc .sha256 rfl trivial hr (Eq.mpr (congrArg (64 ∣ ·) hn) hp)
  have he : T.engine = .ok ⟨e', ()⟩ := by
    refine Eq.trans hT ?_
    rw [h0, Rs.ok_bind, h1, Rs.ok_bind]
    refine (congrArg (· >>= fun μ => Source.Sha256t.Engine.from_midstate c T μ
      ((Source.Sha256.engine c).nBytesHashed e)) h2).trans ?_
    exact congrArg (· >>= fun x => (pure ⟨x, ()⟩ : Res Source.Sha256t.Engine)) h3
  have hb : ps.flatten.length + msg.length + 144 < 2 ^ c.usizeBits := hf.2
  rw [tagged_hash_text c T he]
  have h4 := finalize_of_shown (ho [msg] fun d hd => by
    rw [List.mem_singleton.1 hd]
    show _ < 2 ^ c.usizeBits
    omega)
  have h5 := C67_engines hc .sha256 trivial (ps ++ [msg]) (by
      rw [List.flatten_append, List.flatten_singleton, List.length_append]
      have := hf.1
      show 8 * (0 + _ + 0) < _
      omega) (by
      rw [List.flatten_append, List.flatten_singleton, List.length_append]
      show 0 + _ + 0 + 144 < _
      omega)
  rw [List.flatten_append, List.flatten_singleton] at h5
  refine (congrArg (Except.map _) (h4.symm.trans (Eq.trans ?_ h5))).trans rfl
  show _ = ((Source.Sha256.engine c).new >>= fun e =>
    (Source.Sha256.engine c).inputs e (ps ++ [msg]) >>= (Source.Sha256.engine c).finalize)
  rw [h0, Rs.ok_bind, inputs_append, h1]
  rfl

/-- There are tags that start after given bytes. -/
example : ∃ T, StartsAfter .debug64 T [List.replicate 40 1, List.replicate 24 2] ∧
    64 ∣ [List.replicate 40 (1 : Byte), List.replicate 24 2].flatten.length ∧
    (Source.Sha256t.Hash.hash .debug64 T [7]).map (·.f0) =
      .ok (sha256 (List.replicate 40 1 ++ List.replicate 24 2 ++ [7])) := by
  refine ⟨⟨do
    let e ← (Source.Sha256.engine .debug64).new
    let e ← (Source.Sha256.engine .debug64).inputs e [List.replicate 40 1, List.replicate 24 2]
    let μ ← (Source.Sha256.engine .debug64).midstate e
    Source.Sha256t.Engine.from_midstate .debug64 ⟨.error .unreachable⟩ μ
      ((Source.Sha256.engine .debug64).nBytesHashed e)⟩, rfl, by decide, by decide +kernel⟩

/-- C102: a tag that starts after anything but whole blocks panics whenever it is used. -/
theorem C102_part {c : Cfg} (hc : c.Valid) {T : Source.Sha256t.Tag} {ps : List (List Byte)}
    (hT : StartsAfter c T ps) (hp : ¬ 64 ∣ ps.flatten.length) (hf : Fits c ps.flatten.length) (msg : List Byte) :
    T.engine = .error .assertion ∧ Source.Sha256t.Hash.hash c T msg = .error .assertion := by
  obtain ⟨e0, e, μ, h0, h1, hn, h2, -⟩ := sha256_fed hc ps hf
  have he : T.engine = .error .assertion := by
    refine Eq.trans hT ?_
    rw [h0, Rs.ok_bind, h1, Rs.ok_bind]
    refine (congrArg (· >>= fun μ => Source.Sha256t.Engine.from_midstate c T μ
      ((Source.Sha256.engine c).nBytesHashed e)) h2).trans ?_
    show Source.Sha256t.Engine.from_midstate c T μ _ = _
    rw [hn]
    show (Source.Sha256.Engine.from_midstate c μ _ >>= fun x => _) = _
    have : ((ps.flatten.length % Source.Sha256.BLOCK_SIZE) == 0) = false := by
      show (ps.flatten.length % 64 == 0) = false
      rw [beq_eq_false_iff_ne]
      omega
    unfold Source.Sha256.Engine.from_midstate
    rw [this]
    rfl
  refine ⟨he, ?_⟩
  unfold Source.Sha256t.Hash.hash
  rw [(C102_engine c T).2.2, he]
  rfl

/-- C102: two tags that start after different whole blocks of the same length give the same hash, of any two messages,
only if the compression function of the text collides. -/
theorem C102_separate {c : Cfg} (hc : c.Valid) {T T' : Source.Sha256t.Tag} {ps ps' : List (List Byte)}
    (hT : StartsAfter c T ps) (hT' : StartsAfter c T' ps') (hp : 64 ∣ ps.flatten.length)
    (hl : ps.flatten.length = ps'.flatten.length) (msg msg' : List Byte)
    (hf : Fits c (ps.flatten.length + msg.length)) (hf' : Fits c (ps'.flatten.length + msg'.length)) {d}
    (h : Source.Sha256t.Hash.hash c T msg = .ok d) (h' : Source.Sha256t.Hash.hash c T' msg' = .ok d)
    (hne : (ps.flatten, msg) ≠ (ps'.flatten, msg')) :
    BlocksCollide c .sha256 (ps.flatten ++ msg) (ps'.flatten ++ msg') := by
  rw [C102_prefix hc hT hp msg hf] at h
  rw [C102_prefix hc hT' (hl ▸ hp) msg' hf'] at h'
  have he := Except.ok.inj (h.trans h'.symm)
  injection he with he
  rw [← List.length_append] at hf hf'
  refine (collide_text hc (a := .sha256) rfl hf hf' (fun e => hne ?_) he).resolve_right
    (C89_untruncated hc .sha256 rfl _ _ hf)
  obtain ⟨h1, h2⟩ := List.append_inj e hl
  rw [h1, h2]

/-- C102: of two tags where one starts after the blocks of the other and more, the other gives every hash of the one:
of the message with those further blocks before it. -/
theorem C102_nested {c : Cfg} (hc : c.Valid) {T T' : Source.Sha256t.Tag} {ps ps' : List (List Byte)} {more : List Byte}
    (hT : StartsAfter c T ps) (hT' : StartsAfter c T' ps') (hp : 64 ∣ ps.flatten.length) (hm : 64 ∣ more.length)
    (he : ps'.flatten = ps.flatten ++ more) (msg : List Byte) (hf : Fits c (ps'.flatten.length + msg.length)) :
    Source.Sha256t.Hash.hash c T' msg = Source.Sha256t.Hash.hash c T (more ++ msg) := by
  have hl : ps'.flatten.length = ps.flatten.length + more.length := by rw [he, List.length_append]
  rw [C102_prefix hc hT' (hl ▸ Nat.dvd_add hp hm) msg hf, C102_prefix hc hT hp (more ++ msg) (hf.mono (by
    rw [List.length_append]
    omega)), he, List.append_assoc]

/-- C102: a tag whose `engine()` resumes from 32 bytes and a count and inputs slices uses the public interface. -/
theorem C102_public {c : Cfg} {T : Source.Sha256t.Tag} (mid : List Byte) (hm : mid.length = 32) (n : Nat)
    (hn : n < c.usizeMod) (data : List (List Byte)) (hd : ∀ d ∈ data, d.length < c.usizeMod)
    (h : T.engine = do
      let e ← Source.Sha256t.Engine.from_midstate c T ⟨mid⟩ n
      (Source.Sha256t.engine c T).inputs e data) : PublicTag c T := by
  intro e he
  rw [h] at he
  have hi : Source.Sha256t.Engine.from_midstate c T ⟨mid⟩ n =
      (Source.Sha256.engine c).fromMidstate (⟨mid⟩ : Source.Sha256.Midstate) n >>= fun x => .ok ⟨x, ()⟩ := rfl
  rw [hi] at he
  cases h1 : (Source.Sha256.engine c).fromMidstate (⟨mid⟩ : Source.Sha256.Midstate) n with
  | error f => rw [h1] at he; cases he
  | ok x =>
    rw [h1, Rs.ok_bind, Rs.ok_bind, tagged_inputs_text] at he
    cases h2 : (Source.Sha256.engine c).inputs x data with
    | error f => rw [h2] at he; cases he
    | ok y =>
      rw [h2] at he
      cases he
      refine reach_inputs_tags data (.made (.resume (.bytes mid) n) hn ?_) hd h2
      show (Source.readMid c .sha256 (.bytes mid)).map (fun μ => (Source.engineOf c .sha256).fromMidstate μ n) = _
      rw [show Source.readMid c .sha256 (.bytes mid) = some (⟨mid⟩ : Source.Sha256.Midstate) from if_pos hm]
      exact congrArg some h1

end Chf.Props
