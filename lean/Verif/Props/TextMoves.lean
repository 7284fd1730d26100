import Verif.Spec.TextMoves
import Verif.Props.TextPermutations
import Verif.Props.TextMidstate
import Verif.Props.Contract

/-!
# C109: midstates are moved by the data alone, in the translated text
-/

namespace Chf.Props
open Chf Chf.Rs Chf.Spec

theorem midFrom_model {c : Cfg} (hc : c.Valid) {a : Alg} (hf : Source.Fits c a) {v : MidVal} {n : Nat}
    {ds : List (List Byte)} (hn : n < c.usizeMod) (hd : ∀ d ∈ ds, d.length < c.usizeMod) :
    midFrom c a v n ds = (a.readMid c v).map fun μ => (do
      let e ← (a.engine c).fromMidstate μ n
      let e ← (a.engine c).inputs e ds
      let ν ← (a.engine c).midstate e
      pure (a.showMid c ν) : Res MidVal) := by
  unfold midFrom
  rw [Source.make_sim hc a hf (.resume v n) hn, make_resume, Option.map_map, Option.map_map]
  refine congrArg (fun f => Option.map f _) (funext fun μ => ?_)
  show (((a.engine c).fromMidstate μ n).map (Source.algSim hc a hf).st >>= _) = _
  cases (a.engine c).fromMidstate μ n with
  | error f => rfl
  | ok m =>
    show ((Source.engineOf c a).inputs ((Source.algSim hc a hf).st m) ds >>= _) = ((a.engine c).inputs m ds >>= _)
    rw [(Source.algSim hc a hf).inputs m ds hd]
    cases (a.engine c).inputs m ds with
    | error f => rfl
    | ok m' =>
      show ((Source.engineOf c a).midstate ((Source.algSim hc a hf).st m') >>= _) = ((a.engine c).midstate m' >>= _)
      rw [(Source.algSim hc a hf).midstate m']
      cases (a.engine c).midstate m' with
      | error f => rfl
      | ok ν => exact congrArg Except.ok (Source.showMid_sim hc a hf ν)

/-- The midstate after `ds` is a function of the midstate before and of the bytes, and a homomorphism at
whole blocks. -/
structure Moves (c : Cfg) (a : Alg) where
  len : Nat
  step : List Byte → List Byte → List Byte
  mid : ∀ {v n} {ds : List (List Byte)}, 64 ∣ n → n + ds.flatten.length < c.usizeMod →
    midFrom c a v n ds = match v with
      | .bytes μ => if μ.length = len then some (.ok (.bytes (step μ ds.flatten))) else none
      | _ => none
  length : ∀ μ x, (step μ x).length = len
  append : ∀ {μ x} y, 64 ∣ x.length → step μ (x ++ y) = step (step μ x) y
  nil : ∀ {μ}, μ.length = len → step μ [] = μ

theorem slices_lt {c : Cfg} {n : Nat} {ds : List (List Byte)} (h : n + ds.flatten.length < c.usizeMod) :
    ∀ d ∈ ds, d.length < c.usizeMod := fun d hd => by
  have := (List.sublist_flatten_of_mem hd).length_le
  omega

theorem run_model {c : Cfg} (hc : c.Valid) (a : Alg) (ok : a.Ok c) {n : Nat} {ds : List (List Byte)}
    {μ : (a.engine c).Midstate} {s} (ht : (a.log c).typed μ n) (hr : (a.log c).resume μ n = .ok s)
    (hd : ∀ d ∈ ds, d.length < c.usizeMod) (hacc : (a.log c).accepts s ds.flatten.length = true) :
    (do
      let e ← (a.engine c).fromMidstate μ n
      let e ← (a.engine c).inputs e ds
      let ν ← (a.engine c).midstate e
      pure (a.showMid c ν) : Res MidVal) = .ok (a.showMid c ((a.log c).mid s ds.flatten)) := by
  obtain ⟨e, he, R⟩ := (a.lawful hc ok).resume_ok ht hr
  obtain ⟨e', he', R'⟩ := (a.lawful hc ok).inputs_ok ds (fun d h => a.log_slice (hd d h)) R
    (by rw [List.length_nil, Nat.zero_add]; exact hacc)
  have hm := (a.lawful hc ok).mid R'
  rw [List.nil_append] at hm
  simp only [he, he', hm, ok_bind]
  rfl

def moves256 {c : Cfg} (hc : c.Valid) : Moves c .sha256 where
  len := 32
  step μ x := serialize8 (chain 64 compress256 (parse8 μ) x)
  mid := by
    intro v n ds hn hb
    rw [midFrom_model hc (a := .sha256) trivial (by omega) (slices_lt hb)]
    cases v with
    | bytes μ =>
      simp only [Alg.readMid]
      split
      · next hμ =>
        have ht : (Alg.log c .sha256).typed μ n :=
          ⟨by show _ = (serialize8 iv256).length; rw [hμ, length_serialize8_32], by show _ < c.usizeMod; omega⟩
        have hr : (Alg.log c .sha256).resume μ n = .ok (parse8 μ, n) := by
          simp only [Alg.log, log256, Md.log, md256, Nat.mod_eq_zero_of_dvd hn]
          rfl
        exact congrArg some (run_model hc .sha256 trivial ht hr (slices_lt hb) (by
          simp only [Alg.log, log256, Md.log, Bool.or_eq_true, decide_eq_true_eq]
          exact .inr hb))
      · rfl
    | _ => rfl
  length μ x := length_serialize8_32 _
  append := by
    intro μ x y hx
    rw [chain_append (by decide) _ _ _ _ hx, parse8_serialize8]
  nil := fun h => serialize8_parse8 _ h

def moves1 {c : Cfg} (hc : c.Valid) : Moves c .sha1 where
  len := 20
  step μ x := serialize5 (chain 64 compress1 (parse5 μ) x)
  mid := by
    intro v n ds hn hb
    rw [midFrom_model hc (a := .sha1) trivial (by omega) (slices_lt hb)]
    cases v with
    | bytes μ =>
      simp only [Alg.readMid]
      split
      · next hμ =>
        have ht : (Alg.log c .sha1).typed μ n :=
          ⟨by show _ = (serialize5 iv1).length; rw [hμ, length_serialize5], by show _ < c.usizeMod; omega⟩
        have hr : (Alg.log c .sha1).resume μ n = .ok (parse5 μ, n) := by
          simp only [Alg.log, log1, Md.log, md1, Nat.mod_eq_zero_of_dvd hn]
          rfl
        exact congrArg some (run_model hc .sha1 trivial ht hr (slices_lt hb) (by
          simp only [Alg.log, log1, Md.log, Bool.or_eq_true, decide_eq_true_eq]
          exact .inr hb))
      · rfl
    | _ => rfl
  length μ x := length_serialize5 _
  append := by
    intro μ x y hx
    rw [chain_append (by decide) _ _ _ _ hx, parse5_serialize5]
  nil := fun h => serialize5_parse5 _ h

theorem moves {c : Cfg} (hc : c.Valid) {a : Alg} (ha : a = .sha1 ∨ a = .sha256) : Nonempty (Moves c a) := by
  rcases ha with rfl | rfl
  · exact ⟨moves1 hc⟩
  · exact ⟨moves256 hc⟩

theorem Moves.ok {c : Cfg} {a : Alg} (M : Moves c a) {v w n} {ds : List (List Byte)} (hn : 64 ∣ n)
    (hb : n + ds.flatten.length < c.usizeMod) (h : midFrom c a v n ds = some (.ok w)) :
    ∃ μ, v = .bytes μ ∧ μ.length = M.len ∧ w = .bytes (M.step μ ds.flatten) := by
  rw [M.mid hn hb] at h
  cases v with
  | bytes μ =>
    dsimp only at h
    split at h
    · next hl => exact ⟨μ, rfl, hl, (Except.ok.inj (Option.some.inj h)).symm⟩
    · cases h
  | _ => cases h

/-- C109: how inputs move a midstate depends neither on the count nor on how the bytes are cut. -/
theorem C109_anywhere {c : Cfg} (hc : c.Valid) {a : Alg} (ha : a = .sha1 ∨ a = .sha256) (v : MidVal) (n n' : Nat)
    (ds ds' : List (List Byte)) (hn : 64 ∣ n) (hn' : 64 ∣ n') (hds : ds.flatten = ds'.flatten)
    (hb : n + ds.flatten.length < c.usizeMod) (hb' : n' + ds.flatten.length < c.usizeMod) :
    midFrom c a v n ds = midFrom c a v n' ds' := by
  obtain ⟨M⟩ := moves hc ha
  rw [M.mid hn hb, M.mid hn' (hds ▸ hb'), hds]

/-- C109: after whole blocks one can go on from the midstate they lead to, with any count. -/
theorem C109_compose {c : Cfg} (hc : c.Valid) {a : Alg} (ha : a = .sha1 ∨ a = .sha256) (v w : MidVal) (n n' : Nat)
    (ds es : List (List Byte)) (hn : 64 ∣ n) (hn' : 64 ∣ n') (hd : 64 ∣ ds.flatten.length)
    (hb : n + (ds ++ es).flatten.length < c.usizeMod) (hb' : n' + es.flatten.length < c.usizeMod)
    (h : midFrom c a v n ds = some (.ok w)) :
    midFrom c a v n (ds ++ es) = midFrom c a w n' es := by
  obtain ⟨M⟩ := moves hc ha
  rw [M.mid hn hb, M.mid hn' hb']
  rw [List.flatten_append, List.length_append] at hb
  obtain ⟨μ, rfl, hl, rfl⟩ := M.ok hn (by omega) h
  dsimp only
  rw [if_pos hl, if_pos (M.length ..), List.flatten_append, M.append _ hd]

/-- C109: blocks that lead a midstate to itself do so any number of times, at any count and cut in any way. -/
theorem C109_repeat {c : Cfg} (hc : c.Valid) {a : Alg} (ha : a = .sha1 ∨ a = .sha256) (v : MidVal) (n n' k : Nat)
    (x : List Byte) (es : List (List Byte)) (hn : 64 ∣ n) (hn' : 64 ∣ n') (hx : 64 ∣ x.length)
    (hes : es.flatten = (List.replicate k x).flatten) (hb : n + x.length < c.usizeMod)
    (hb' : n' + es.flatten.length < c.usizeMod) (h : midFrom c a v n [x] = some (.ok v)) :
    midFrom c a v n' es = some (.ok v) := by
  obtain ⟨M⟩ := moves hc ha
  obtain ⟨μ, rfl, hl, e⟩ := M.ok hn (by simpa using hb) h
  have e' : M.step μ x = μ := by
    have := MidVal.bytes.inj e
    rw [List.flatten_singleton] at this
    exact this.symm
  rw [M.mid hn' hb', hes]
  dsimp only
  rw [if_pos hl]
  have : ∀ k, M.step μ (List.replicate k x).flatten = μ := by
    intro k
    induction k with
    | zero => exact M.nil hl
    | succ k ih => rw [List.replicate_succ, List.flatten_cons, M.append _ hx, e', ih]
  rw [this]

theorem reach_inputs109 {c : Cfg} {a : Alg} : ∀ (ds : List (List Byte)) {e e'}, Source.Reach c a e →
    (∀ d ∈ ds, d.length < c.usizeMod) → (Source.engineOf c a).inputs e ds = .ok e' → Source.Reach c a e'
  | [], e, e', he, _, h => by cases h; exact he
  | d :: ds, e, e', he, hd, h => by
    unfold HashEngine.inputs at h
    obtain ⟨e1, h1, h2⟩ := Source.bind_ok_of h
    exact reach_inputs109 ds (.input d he (hd d (List.mem_cons_self ..)) h1)
      (fun x hx => hd x (List.mem_cons_of_mem _ hx)) h2

theorem count_text {c : Cfg} (hc : c.Valid) {a : Alg} (ok : a.Ok c) {v : MidVal} {n : Nat}
    {ds : List (List Byte)} (hn : n < c.usizeMod) (hd : ∀ d ∈ ds, d.length < c.usizeMod) {e e1}
    (h : Source.make c a (.resume v n) = some (.ok e)) (h1 : (Source.engineOf c a).inputs e ds = .ok e1)
    {N : Nat} (hN : ∀ {μ s}, a.readMid c v = some μ → (a.log c).typed μ n →
      (a.log c).resume μ n = .ok s → (a.log c).accepts s ds.flatten.length = true ∧
        (a.log c).count s ds.flatten.length = N) :
    (Source.engineOf c a).nBytesHashed e1 = N := by
  have hf := fits_of_ok a ok
  rw [Source.make_sim hc a hf (.resume v n) hn, make_resume] at h
  cases hr : a.readMid c v with
  | none => rw [hr] at h; cases h
  | some μ =>
    rw [hr] at h
    replace h : ((a.engine c).fromMidstate μ n).map (Source.algSim hc a hf).st = .ok e := Option.some.inj h
    have ht : (a.log c).typed μ n := a.typed_log (Source.readMid_typed hr hn)
    cases hs : (a.log c).resume μ n with
    | error f =>
      rw [(a.lawful hc ok).resume_err ht hs] at h
      cases h
    | ok s =>
      obtain ⟨hacc, hcount⟩ := hN hr ht hs
      obtain ⟨m, hm, R⟩ := (a.lawful hc ok).resume_ok ht hs
      obtain ⟨m', hm', R'⟩ := (a.lawful hc ok).inputs_ok ds (fun d h => a.log_slice (hd d h)) R
        (by rw [List.length_nil, Nat.zero_add]; exact hacc)
      rw [hm] at h
      cases h
      rw [(Source.algSim hc a hf).inputs m ds hd, hm'] at h1
      cases h1
      rw [(Source.algSim hc a hf).nBytesHashed, (a.lawful hc ok).count R', List.nil_append, hcount]

theorem count_moves {c : Cfg} (hc : c.Valid) {a : Alg} (ha : a = .sha1 ∨ a = .sha256) {v : MidVal} {n : Nat}
    {ds : List (List Byte)} (hn : 64 ∣ n) (hb : n + ds.flatten.length < c.usizeMod) {e e1}
    (h : Source.make c a (.resume v n) = some (.ok e)) (h1 : (Source.engineOf c a).inputs e ds = .ok e1) :
    (Source.engineOf c a).nBytesHashed e1 = n + ds.flatten.length := by
  rcases ha with rfl | rfl
  · refine count_text hc (a := .sha1) trivial (by omega) (slices_lt hb) h h1 fun {μ s} _ _ hs => ?_
    simp only [Alg.log, log1, Md.log, md1, Nat.mod_eq_zero_of_dvd hn] at hs
    cases hs
    simp only [Alg.log, log1, Md.log, Bool.or_eq_true, decide_eq_true_eq]
    exact ⟨.inr hb, Nat.mod_eq_of_lt hb⟩
  · refine count_text hc (a := .sha256) trivial (by omega) (slices_lt hb) h h1 fun {μ s} _ _ hs => ?_
    simp only [Alg.log, log256, Md.log, md256, Nat.mod_eq_zero_of_dvd hn] at hs
    cases hs
    simp only [Alg.log, log256, Md.log, Bool.or_eq_true, decide_eq_true_eq]
    exact ⟨.inr hb, Nat.mod_eq_of_lt hb⟩

/-- C109: an engine resumed from `v` that was input whole blocks which lead to `w` is for every caller one
resumed from `w` with the length that many bytes greater. -/
theorem C109_resume {c : Cfg} (hc : c.Valid) {a : Alg} (ha : a = .sha1 ∨ a = .sha256) (v w : MidVal) (n : Nat)
    (ds : List (List Byte)) (hn : 64 ∣ n) (hd : 64 ∣ ds.flatten.length) (hb : n + ds.flatten.length < c.usizeMod)
    (h : midFrom c a v n ds = some (.ok w)) :
    ∃ e e1 e', Source.make c a (.resume v n) = some (.ok e) ∧ (Source.engineOf c a).inputs e ds = .ok e1 ∧
      Source.make c a (.resume w (n + ds.flatten.length)) = some (.ok e') ∧
      ObsEq c (Source.engineOf c a) e1 e' := by
  have props : a.Ok c ∧ isSip a = false ∧ keepsMid a = true ∧ stride a = some 64 ∧
      ∀ {n}, 64 ∣ n → resumePanic a n = none := by
    rcases ha with rfl | rfl <;> exact ⟨trivial, rfl, rfl, rfl, fun h => if_pos (Nat.mod_eq_zero_of_dvd h)⟩
  obtain ⟨ok, sip, keep, str, panic⟩ := props
  obtain ⟨M⟩ := moves hc ha
  obtain ⟨μ, rfl, hl, rfl⟩ := M.ok hn hb h
  have hN : 64 ∣ n + ds.flatten.length := Nat.dvd_add hn hd
  -- the engine before
  unfold midFrom at h
  obtain ⟨r, hr, k⟩ := Option.map_eq_some_iff.1 h
  obtain ⟨e, rfl, k1⟩ := Source.bind_ok_of k
  obtain ⟨e1, h1, k2⟩ := Source.bind_ok_of k1
  obtain ⟨μ1, h2, k3⟩ := Source.bind_ok_of k2
  have h3 : Source.showMid c a μ1 = _ := Except.ok.inj k3
  -- the engine resumed after
  have hw := M.mid (v := .bytes (M.step μ ds.flatten)) (n := n + ds.flatten.length) (ds := []) hN
    (by rw [List.flatten_nil]; exact hb)
  dsimp only at hw
  rw [if_pos (M.length ..)] at hw
  unfold midFrom at hw
  obtain ⟨r, hr', -⟩ := Option.map_eq_some_iff.1 hw
  obtain ⟨e', rfl, c', m'⟩ := (C82_from_midstate hc a ok sip _ _ hb hr').2 (panic hN)
  refine ⟨e, e1, e', hr, h1, hr', ?_⟩
  have he : Source.Reach c a e := .made (.resume _ n) (show n < c.usizeMod by omega) hr
  have count := count_moves hc ha hn hb hr h1
  refine (C82_states hc a ok str (reach_inputs109 ds he (slices_lt hb) h1) (.made (.resume _ _) hb hr')
    (by rw [count]; exact hN)).2 ⟨count.trans c'.symm, ?_⟩
  have m'' := m' keep
  cases hx : (Source.engineOf c a).midstate e' with
  | error f => rw [hx] at m''; cases m''
  | ok ν =>
    rw [hx] at m''
    rw [h2]
    have : Source.showMid c a μ1 = Source.showMid c a ν := h3.trans (Except.ok.inj m'').symm
    rcases ha with rfl | rfl
    · exact congrArg Except.ok (MidVal.bytes.inj this)
    · exact congrArg (fun x => Except.ok (Source.Sha256.Midstate.mk x)) (MidVal.bytes.inj this)

/-- The case of C109: one hundred copies of the block `0, 1, …, 63` leave the midstate of C94 as it is, so an
engine resumed there with the length 128 is one resumed with the length 6528. -/
example {c : Cfg} (hc : c.Valid) :
    ∃ e e1 e', Source.make c .sha256 (.resume (.bytes fixed256) 128) = some (.ok e) ∧
      (Source.engineOf c .sha256).inputs e (List.replicate 100 countBlock) = .ok e1 ∧
      Source.make c .sha256 (.resume (.bytes fixed256) 6528) = some (.ok e') ∧
      ObsEq c (Source.engineOf c .sha256) e1 e' := by
  have h16 : 6528 < c.usizeMod := Nat.lt_of_lt_of_le (by decide) (usizeMod_ge hc)
  have hl : (List.replicate 100 countBlock).flatten.length = 6400 := by decide +kernel
  have := C109_resume hc (.inr rfl) (.bytes fixed256) (.bytes fixed256) 128 (List.replicate 100 countBlock)
    ⟨2, rfl⟩ (by rw [hl]; exact ⟨100, rfl⟩) (by rw [hl]; exact h16)
    (C109_repeat hc (.inr rfl) _ 0 128 100 countBlock _ ⟨0, rfl⟩ ⟨2, rfl⟩ (by decide) rfl
      (show 0 + countBlock.length < _ from Nat.lt_of_lt_of_le (by decide) (usizeMod_ge hc)) (by rw [hl]; exact h16) ?_)
  · rwa [hl] at this
  · obtain ⟨e, e', μ, h1, h2, h3, h4⟩ := fixed256_leads hc (n := 0) rfl
      (Nat.lt_of_lt_of_le (by decide) (usizeMod_ge hc))
    unfold midFrom
    rw [h1, Option.map_some, ok_bind, inputs_one, h2, ok_bind, h3, ok_bind, h4]
    rfl

end Chf.Props
