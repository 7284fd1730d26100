import Verif.Props.Permutations
import Verif.Props.TextExtension

/-!
# C94: the translated block functions are feed-forward permutations, SipHash's absorption a permutation
-/

namespace Chf.Props
open Chf Chf.Rs Chf.Spec

/-- An engine of the translated text resumed from `v` with the length `n` shows the midstate `w` after
inputting `data`. -/
def TextLeads (c : Cfg) (a : Alg) (n : Nat) (data : List Byte) (v w : MidVal) : Prop :=
  ∃ e e' μ, Source.make c a (.resume v n) = some (.ok e) ∧ (Source.engineOf c a).input e data = .ok e' ∧
    (Source.engineOf c a).midstate e' = .ok μ ∧ Source.showMid c a μ = w

theorem textLeads_iff {c : Cfg} (hc : c.Valid) {a : Alg} (hf : Source.Fits c a) {n : Nat} {data : List Byte}
    {v w : MidVal} (hn : n < c.usizeMod) (hd : data.length < c.usizeMod) :
    TextLeads c a n data v w ↔
      ∃ μ ν, a.readMid c v = some μ ∧ Leads (a.engine c) n data μ ν ∧ a.showMid c ν = w := by
  have hm : Source.make c a (.resume v n) = _ := Source.make_sim hc a hf (.resume v n) hn
  rw [make_resume] at hm
  constructor
  · rintro ⟨e, e', μ, h1, h2, h3, h4⟩
    rw [hm] at h1
    cases hr : a.readMid c v with
    | none => rw [hr] at h1; cases h1
    | some x =>
      rw [hr] at h1
      replace h1 : ((a.engine c).fromMidstate x n).map (Source.algSim hc a hf).st = .ok e := Option.some.inj h1
      cases hx : (a.engine c).fromMidstate x n with
      | error f => rw [hx] at h1; cases h1
      | ok m =>
        rw [hx] at h1
        cases h1
        have h2' := ((Source.algSim hc a hf).input m data hd).symm.trans h2
        cases hi : (a.engine c).input m data with
        | error f => rw [hi] at h2'; cases h2'
        | ok m' =>
          rw [hi] at h2'
          cases h2'
          have h3' := ((Source.algSim hc a hf).midstate m').symm.trans h3
          cases hmid : (a.engine c).midstate m' with
          | error f => rw [hmid] at h3'; cases h3'
          | ok ν =>
            rw [hmid] at h3'
            cases h3'
            refine ⟨x, ν, rfl, ?_, (Source.showMid_sim hc a hf ν).symm.trans h4⟩
            simp only [Leads, hx, hi, hmid, ok_bind]
  · rintro ⟨x, ν, hr, hl, h4⟩
    unfold Leads at hl
    obtain ⟨m, hx, hl⟩ := Source.bind_ok_of hl
    obtain ⟨m', hi, hmid⟩ := Source.bind_ok_of hl
    refine ⟨(Source.algSim hc a hf).st m, (Source.algSim hc a hf).st m', (Source.algSim hc a hf).mid ν, ?_, ?_, ?_,
      (Source.showMid_sim hc a hf ν).trans h4⟩
    · rw [hm, hr]
      exact congrArg (fun r : Res _ => some (r.map (Source.algSim hc a hf).st)) hx
    · rw [(Source.algSim hc a hf).input m data hd, hi]; rfl
    · rw [(Source.algSim hc a hf).midstate m', hmid]; rfl

/-- C94: for every 64-byte block there is exactly one midstate that inputting the block leaves as it is,
for the translated text of SHA-256. -/
theorem C94_sha256_fixed_point {c : Cfg} (hc : c.Valid) (block : List Byte) (hb : block.length = 64)
    (n : Nat) (hn : 64 ∣ n) (hlen : n + 64 < c.usizeMod) :
    ∃ μ : List Byte, μ.length = 32 ∧ TextLeads c .sha256 n block (.bytes μ) (.bytes μ) ∧
      ∀ v, TextLeads c .sha256 n block v v → v = .bytes μ := by
  have key : ∀ v w, TextLeads c .sha256 n block v w ↔ _ := fun v w =>
    textLeads_iff hc (a := .sha256) trivial (v := v) (w := w) (by omega) (by omega)
  obtain ⟨μ, h1, h2, h3⟩ := C53_sha256_fixed_point hc block hb n hn hlen
  refine ⟨μ, h1, (key _ _).2 ⟨μ, μ, if_pos h1, h2, rfl⟩, fun v hv => ?_⟩
  obtain ⟨x, y, hx, hl, hy⟩ := (key _ _).1 hv
  cases v with
  | bytes bs =>
    simp only [Alg.readMid] at hx
    split at hx
    · rename_i hlb
      cases hx
      cases hy
      exact congrArg _ (h3 _ hlb hl)
    · cases hx
  | _ => cases hx

/-- C94: the same for SHA-1. -/
theorem C94_sha1_fixed_point {c : Cfg} (hc : c.Valid) (block : List Byte) (hb : block.length = 64)
    (n : Nat) (hn : 64 ∣ n) (hlen : n + 64 < c.usizeMod) :
    ∃ μ : List Byte, μ.length = 20 ∧ TextLeads c .sha1 n block (.bytes μ) (.bytes μ) ∧
      ∀ v, TextLeads c .sha1 n block v v → v = .bytes μ := by
  have key : ∀ v w, TextLeads c .sha1 n block v w ↔ _ := fun v w =>
    textLeads_iff hc (a := .sha1) trivial (v := v) (w := w) (by omega) (by omega)
  obtain ⟨μ, h1, h2, h3⟩ := C53_sha1_fixed_point hc block hb n hn hlen
  refine ⟨μ, h1, (key _ _).2 ⟨μ, μ, if_pos h1, h2, rfl⟩, fun v hv => ?_⟩
  obtain ⟨x, y, hx, hl, hy⟩ := (key _ _).1 hv
  cases v with
  | bytes bs =>
    simp only [Alg.readMid] at hx
    split at hx
    · rename_i hlb
      cases hx
      cases hy
      exact congrArg _ (h3 _ hlb hl)
    · cases hx
  | _ => cases hx

/-- The midstate of SHA-256 that the block `0, 1, …, 63` leaves as it is. -/
def fixed256 : List Byte :=
  [138, 254, 230, 55, 49, 182, 197, 33, 211, 103, 115, 134, 63, 183, 122, 91, 109, 252, 88, 147, 167, 212,
    188, 69, 177, 67, 218, 98, 42, 86, 1, 60]

/-- The midstate of SHA-1 that the block `0, 1, …, 63` leaves as it is. -/
def fixed1 : List Byte :=
  [180, 234, 243, 63, 197, 98, 186, 143, 130, 251, 221, 47, 134, 50, 34, 144, 5, 158, 117, 114]

/-- The block `0, 1, …, 63`. -/
def countBlock : List Byte := (List.range 64).map (BitVec.ofNat 8)

/-- The case of C94 for this block. -/
theorem fixed256_leads {c : Cfg} (hc : c.Valid) {n : Nat} (hn : n % 64 = 0) (hlen : n + 64 < c.usizeMod) :
    TextLeads c .sha256 n countBlock (.bytes fixed256) (.bytes fixed256) := by
  have hl : countBlock.length = 64 := by decide
  refine (textLeads_iff hc (a := .sha256) trivial (by omega) (by omega)).2 ⟨fixed256, fixed256, rfl, ?_, rfl⟩
  refine (leads_iff hc .sha256 trivial (n := n) (data := countBlock) (μ := fixed256) (ν := fixed256)
    (s := (parse8 fixed256, n)) ⟨rfl, by show _ < c.usizeMod; omega⟩ ?_
    (show countBlock.length < c.usizeMod by omega) ?_).2 ?_
  · simp only [Alg.log, log256, Md.log, md256, hn]
    rfl
  · simp only [Alg.log, log256, Md.log, Bool.or_eq_true, decide_eq_true_eq, hl]
    exact .inr hlen
  · show serialize8 (chain 64 compress256 (parse8 fixed256) countBlock) = fixed256
    decide +kernel

theorem fixed1_leads {c : Cfg} (hc : c.Valid) {n : Nat} (hn : n % 64 = 0) (hlen : n + 64 < c.usizeMod) :
    TextLeads c .sha1 n countBlock (.bytes fixed1) (.bytes fixed1) := by
  have hl : countBlock.length = 64 := by decide
  refine (textLeads_iff hc (a := .sha1) trivial (by omega) (by omega)).2 ⟨fixed1, fixed1, rfl, ?_, rfl⟩
  refine (leads_iff hc .sha1 trivial (n := n) (data := countBlock) (μ := fixed1) (ν := fixed1)
    (s := (parse5 fixed1, n)) ⟨rfl, by show _ < c.usizeMod; omega⟩ ?_
    (show countBlock.length < c.usizeMod by omega) ?_).2 ?_
  · simp only [Alg.log, log1, Md.log, md1, hn]
    rfl
  · simp only [Alg.log, log1, Md.log, Bool.or_eq_true, decide_eq_true_eq, hl]
    exact .inr hlen
  · show serialize5 (chain 64 compress1 (parse5 fixed1) countBlock) = fixed1
    decide +kernel

theorem arr8_of {α} {l : List α} (h : l.length = 8) : ∃ s : Arr8 α, s.toList = l := by
  match l, h with
  | [a, b, c, d, e, f, g, i], _ => exact ⟨⟨a, b, c, d, e, f, g, i⟩, rfl⟩

theorem arr5_of {α} {l : List α} (h : l.length = 5) : ∃ s : Arr5 α, s.toList = l := by
  match l, h with
  | [a, b, c, d, e], _ => exact ⟨⟨a, b, c, d, e⟩, rfl⟩

theorem arr8_inj {α} {s t : Arr8 α} (h : s.toList = t.toList) : s = t := by
  cases s; cases t; simp only [Arr8.toList, List.cons.injEq, and_true] at h
  obtain ⟨rfl, rfl, rfl, rfl, rfl, rfl, rfl, rfl⟩ := h
  rfl

theorem arr5_inj {α} {s t : Arr5 α} (h : s.toList = t.toList) : s = t := by
  cases s; cases t; simp only [Arr5.toList, List.cons.injEq, and_true] at h
  obtain ⟨rfl, rfl, rfl, rfl, rfl⟩ := h
  rfl

theorem add_toList {w : Nat} (h Δ : Arr8 (BitVec w)) :
    (Sha2.add h Δ).toList = List.zipWith (· + ·) h.toList Δ.toList := rfl

/-- C94: for every block and all differences `Δ` there is exactly one state that the translated block
function of SHA-512 moves by `Δ`, word by word. -/
theorem C94_sha512_difference (c : Cfg) (buffer : List Byte) (hb : buffer.length = 128) (n : Nat)
    (Δ : List (BitVec 64)) (hΔ : Δ.length = 8) :
    ∃ h : List (BitVec 64), h.length = 8 ∧
      Source.Sha512.Engine.process_block c ⟨h, n, buffer⟩ = .ok ⟨List.zipWith (· + ·) h Δ, n, buffer⟩ ∧
      ∀ h' : List (BitVec 64), h'.length = 8 →
        Source.Sha512.Engine.process_block c ⟨h', n, buffer⟩ = .ok ⟨List.zipWith (· + ·) h' Δ, n, buffer⟩ →
        h' = h := by
  obtain ⟨Δ, rfl⟩ := arr8_of hΔ
  have run : ∀ h : Arr8 (BitVec 64), Source.Sha512.Engine.process_block c ⟨h.toList, n, buffer⟩ =
      (Sha512.processBlock c buffer h).map fun g => ⟨g.toList, n, buffer⟩ := by
    intro h
    refine (Source.Sha512.process_block_eq c ⟨buffer, h, n⟩).trans ?_
    unfold BlockEngine.processBlock Sha512.ops
    simp only
    cases Sha512.processBlock c buffer h <;> rfl
  obtain ⟨h, h1, h2⟩ := C53_sha512_difference c buffer hb Δ
  refine ⟨h.toList, rfl, by rw [run, h1]; rfl, fun h' hl he => ?_⟩
  obtain ⟨h', rfl⟩ := arr8_of hl
  refine congrArg _ (h2 h' ?_)
  rw [run] at he
  cases hp : Sha512.processBlock c buffer h' with
  | error f => rw [hp] at he; cases he
  | ok g =>
    rw [hp] at he
    injection he with he
    injection he with he
    exact congrArg _ (arr8_inj he)

/-- C94: the same for SHA-256, with or without SHA-NI. -/
theorem C94_sha256_difference {c : Cfg} (hc : c.Valid) (buffer : List Byte) (hb : buffer.length = 64) (n : Nat)
    (Δ : List (BitVec 32)) (hΔ : Δ.length = 8) :
    ∃ h : List (BitVec 32), h.length = 8 ∧
      Source.Sha256.Engine.process_block c ⟨buffer, h, n⟩ = .ok ⟨buffer, List.zipWith (· + ·) h Δ, n⟩ ∧
      ∀ h' : List (BitVec 32), h'.length = 8 →
        Source.Sha256.Engine.process_block c ⟨buffer, h', n⟩ = .ok ⟨buffer, List.zipWith (· + ·) h' Δ, n⟩ →
        h' = h := by
  obtain ⟨Δ, rfl⟩ := arr8_of hΔ
  have run : ∀ h : Arr8 (BitVec 32), Source.Sha256.Engine.process_block c ⟨buffer, h.toList, n⟩ =
      (Sha256.processBlock c buffer h).map fun g => ⟨buffer, g.toList, n⟩ := by
    intro h
    refine (Source.Sha256.process_block_eq c hc ⟨buffer, h, n⟩).trans ?_
    unfold BlockEngine.processBlock Sha256.ops
    simp only
    cases Sha256.processBlock c buffer h <;> rfl
  obtain ⟨h, h1, h2⟩ := C53_sha256_difference c buffer hb Δ
  refine ⟨h.toList, rfl, by rw [run, h1]; rfl, fun h' hl he => ?_⟩
  obtain ⟨h', rfl⟩ := arr8_of hl
  refine congrArg _ (h2 h' ?_)
  rw [run] at he
  cases hp : Sha256.processBlock c buffer h' with
  | error f => rw [hp] at he; cases he
  | ok g =>
    rw [hp] at he
    injection he with he
    injection he with _ he
    exact congrArg _ (arr8_inj he)

/-- C94: the same for SHA-1. -/
theorem C94_sha1_difference (c : Cfg) (buffer : List Byte) (hb : buffer.length = 64) (n : Nat)
    (Δ : List (BitVec 32)) (hΔ : Δ.length = 5) :
    ∃ h : List (BitVec 32), h.length = 5 ∧
      Source.Sha1.Engine.process_block c ⟨buffer, h, n⟩ = .ok ⟨buffer, List.zipWith (· + ·) h Δ, n⟩ ∧
      ∀ h' : List (BitVec 32), h'.length = 5 →
        Source.Sha1.Engine.process_block c ⟨buffer, h', n⟩ = .ok ⟨buffer, List.zipWith (· + ·) h' Δ, n⟩ →
        h' = h := by
  obtain ⟨Δ, rfl⟩ := arr5_of hΔ
  have run : ∀ h : Arr5 (BitVec 32), Source.Sha1.Engine.process_block c ⟨buffer, h.toList, n⟩ =
      (Sha1.processBlock c buffer h).map fun g => ⟨buffer, g.toList, n⟩ := by
    intro h
    refine (Source.Sha1.process_block_eq c ⟨buffer, h, n⟩).trans ?_
    unfold BlockEngine.processBlock Sha1.ops
    simp only
    cases Sha1.processBlock c buffer h <;> rfl
  obtain ⟨h, h1, h2⟩ := C53_sha1_difference c buffer hb Δ
  refine ⟨h.toList, rfl, by rw [run, h1]; rfl, fun h' hl he => ?_⟩
  obtain ⟨h', rfl⟩ := arr5_of hl
  refine congrArg _ (h2 h' ?_)
  rw [run] at he
  cases hp : Sha1.processBlock c buffer h' with
  | error f => rw [hp] at he; cases he
  | ok g =>
    rw [hp] at he
    injection he with he
    injection he with _ he
    exact congrArg _ (arr5_inj he)

/-- C94: for any data, every state of the translated SipHash is reached by inputting that data from
exactly one state. -/
theorem C94_siphash_bijection {c : Cfg} (hc : c.Valid) (data : List Byte) (hd : data.length < c.usizeMod)
    (n : Nat) (hn : n < c.usizeMod) (ν : Siphash24.State) :
    ∃ μ, TextLeads c .siphash24 n data (.sip μ) (.sip ν) ∧
      ∀ v, TextLeads c .siphash24 n data v (.sip ν) → v = .sip μ := by
  have key : ∀ v w, TextLeads c .siphash24 n data v w ↔ _ := fun v w =>
    textLeads_iff hc (a := .siphash24) trivial (v := v) (w := w) hn hd
  obtain ⟨μ, h1, h2⟩ := C54_bijection hc data hd n hn ν
  refine ⟨μ, (key _ _).2 ⟨μ, ν, rfl, h1, rfl⟩, fun v hv => ?_⟩
  obtain ⟨x, y, hx, hl, hy⟩ := (key _ _).1 hv
  cases v with
  | sip s =>
    cases hx
    cases hy
    exact congrArg _ (h2 _ hl)
  | _ => cases hx

/-- The state from which the bytes `0, 1, …, 20` lead to `⟨1, 3, 2, 4⟩`. -/
def before21 : Siphash24.State :=
  { v0 := 0xf8b0416f29ebe6d5, v2 := 0x6d4af8299cda6bc4, v1 := 0x666a15ab9e7c8fc4, v3 := 0x17ff74fc91fbe1ff }

/-- The case of C94 for these bytes. -/
theorem before21_leads {c : Cfg} (hc : c.Valid) {n : Nat} (hn : n < c.usizeMod) :
    TextLeads c .siphash24 n (countBlock.take 21) (.sip before21) (.sip ⟨1, 3, 2, 4⟩) := by
  have hl : (countBlock.take 21).length = 21 := by decide
  have h16 := usizeMod_ge hc
  have hd : (countBlock.take 21).length < c.usizeMod := by
    omega
  refine (textLeads_iff hc (a := .siphash24) trivial hn hd).2 ⟨before21, ⟨1, 3, 2, 4⟩, rfl, ?_, rfl⟩
  refine (leads_iff hc .siphash24 trivial (s := ⟨0, 0, Siphash24.toSip before21⟩) hn rfl hd (by
    simp only [Alg.log, logSip, Bool.or_eq_true, decide_eq_true_eq]; exact .inr hd)).2 ?_
  show Siphash24.ofSip ((leWords 64 (countBlock.take 21)).foldl sipAbsorb (Siphash24.toSip before21)) = ⟨1, 3, 2, 4⟩
  decide +kernel

theorem map_inj {α β : Type} {f : α → β} (hf : ∀ x y, f x = f y → x = y) {r r' : Res α}
    (h : r.map f = r'.map f) : r = r' := by
  cases r with
  | error f => cases r' with
    | error g => injection h with h; exact congrArg _ h
    | ok y => cases h
  | ok x => cases r' with
    | error g => cases h
    | ok y => injection h with h; exact congrArg _ (hf _ _ h)

/-- C94: engines of the translated text with different keys never get the same state from the same
data, cut in the same way. -/
theorem C94_siphash_keys {c : Cfg} (hc : c.Valid) (k0 k1 k0' k1' : BitVec 64) (chunks : List (List Byte))
    (hs : ∀ d ∈ chunks, d.length < c.usizeMod) {e0 e0' e e'}
    (h0 : Source.make c .siphash24 (.sipKeys k0 k1) = some (.ok e0))
    (h0' : Source.make c .siphash24 (.sipKeys k0' k1') = some (.ok e0'))
    (h : (Source.engineOf c .siphash24).inputs e0 chunks = .ok e)
    (h' : (Source.engineOf c .siphash24).inputs e0' chunks = .ok e')
    (hm : (Source.engineOf c .siphash24).midstate e = (Source.engineOf c .siphash24).midstate e') :
    k0 = k0' ∧ k1 = k1' := by
  have S : ∀ {k0 k1 e0 e}, Source.make c .siphash24 (.sipKeys k0 k1) = some (.ok e0) →
      (Source.engineOf c .siphash24).inputs e0 chunks = .ok e →
      ∃ m, (Siphash24.engine c).inputs (Siphash24.withKeys k0 k1) chunks = .ok m ∧
        e = (Source.algSim hc .siphash24 trivial).st m := by
    intro k0 k1 e0 e h0 h
    rw [Source.make_sim hc .siphash24 trivial (.sipKeys k0 k1) trivial] at h0
    have h0 := Except.ok.inj (Option.some.inj h0)
    subst h0
    have h := ((Source.algSim hc .siphash24 trivial).inputs _ chunks hs).symm.trans h
    cases hi : (Siphash24.engine c).inputs (Siphash24.withKeys k0 k1) chunks with
    | error f =>
      rw [show ((Alg.siphash24.engine c).inputs _ chunks) = _ from hi] at h
      cases h
    | ok m =>
      rw [show ((Alg.siphash24.engine c).inputs _ chunks) = _ from hi] at h
      exact ⟨m, rfl, (Except.ok.inj h).symm⟩
  obtain ⟨m, h1, rfl⟩ := S h0 h
  obtain ⟨m', h1', rfl⟩ := S h0' h'
  refine C54_keys hc k0 k1 k0' k1' chunks hs h1 h1' ?_
  have hm : ((Alg.siphash24.engine c).midstate m).map (Source.algSim hc .siphash24 trivial).mid =
      ((Alg.siphash24.engine c).midstate m').map (Source.algSim hc .siphash24 trivial).mid :=
    ((Source.algSim hc .siphash24 trivial).midstate m).symm.trans
      (hm.trans ((Source.algSim hc .siphash24 trivial).midstate m'))
  exact map_inj (fun x y h => by
    have := congrArg (Source.algSim hc .siphash24 trivial).midInv h
    exact ((Source.algSim hc .siphash24 trivial).midInv_mid x).symm.trans
      (this.trans ((Source.algSim hc .siphash24 trivial).midInv_mid y))) hm

end Chf.Props
