import Verif.Proofs.ObserveEngines
import Verif.Spec.Shape

/-!
# What is seen of programs
-/

namespace Chf
open Obs Spec

theorem len_blank (d : List Byte) : Len d (blankBytes d) := by simp [Len, blankBytes]

theorem blankBytes_eq {d d' : List Byte} (h : Len d d') : blankBytes d = blankBytes d' := by
  unfold blankBytes; rw [h]

theorem Alg.showMid_blank (c : Cfg) : (a : Alg) → {μ μ' : (a.engine c).Midstate} → a.LikeMid c μ μ' →
    MidVal.blank (a.showMid c μ) = MidVal.blank (a.showMid c μ')
  | .sha1, _, _, h => congrArg MidVal.bytes (blankBytes_eq h)
  | .sha256, _, _, h => congrArg MidVal.bytes (blankBytes_eq h)
  | .sha384, _, _, h => congrArg MidVal.bytes (blankBytes_eq h)
  | .sha512, _, _, h => congrArg MidVal.bytes (blankBytes_eq h)
  | .sha512_256, _, _, h => congrArg MidVal.bytes (blankBytes_eq h)
  | .ripemd160, _, _, h => congrArg MidVal.bytes (blankBytes_eq h)
  | .sha256t _ _ _, _, _, h => congrArg MidVal.bytes (blankBytes_eq h)
  | .siphash24, _, _, _ => rfl
  | .hmac a, _, _, h => by
      show MidVal.pair _ _ = MidVal.pair _ _
      rw [Alg.showMid_blank c a h.1, Alg.showMid_blank c a h.2]

/-- Both absent, or both present and related. -/
inductive OptRel {α β : Type} (R : α → β → Prop) : Option α → Option β → Prop
  | none : OptRel R none none
  | some {a b} : R a b → OptRel R (some a) (some b)

theorem readBytes_blank (n : Nat) (bs : List Byte) :
    OptRel Len (if bs.length = n then some bs else none)
      (if (blankBytes bs).length = n then some (blankBytes bs) else none) := by
  rw [← len_blank bs]
  split
  · exact .some (len_blank bs)
  · exact .none

theorem Alg.readMid_blank (c : Cfg) : (a : Alg) → (v : MidVal) →
    OptRel (a.LikeMid c) (a.readMid c v) (a.readMid c (MidVal.blank v))
  | .sha1, .bytes bs => readBytes_blank 20 bs
  | .sha256, .bytes bs => readBytes_blank 32 bs
  | .sha384, .bytes bs => readBytes_blank 64 bs
  | .sha512, .bytes bs => readBytes_blank 64 bs
  | .sha512_256, .bytes bs => readBytes_blank 64 bs
  | .ripemd160, .bytes bs => readBytes_blank 20 bs
  | .sha256t _ _ _, .bytes bs => readBytes_blank 32 bs
  | .siphash24, .bytes _ => .none
  | .hmac _, .bytes _ => .none
  | .sha1, .sip _ => .none
  | .sha256, .sip _ => .none
  | .sha384, .sip _ => .none
  | .sha512, .sip _ => .none
  | .sha512_256, .sip _ => .none
  | .ripemd160, .sip _ => .none
  | .sha256t _ _ _, .sip _ => .none
  | .siphash24, .sip _ => .some trivial
  | .hmac _, .sip _ => .none
  | .sha1, .pair _ _ => .none
  | .sha256, .pair _ _ => .none
  | .sha384, .pair _ _ => .none
  | .sha512, .pair _ _ => .none
  | .sha512_256, .pair _ _ => .none
  | .ripemd160, .pair _ _ => .none
  | .sha256t _ _ _, .pair _ _ => .none
  | .siphash24, .pair _ _ => .none
  | .hmac a, .pair i o => by
      have hi := Alg.readMid_blank c a i
      have ho := Alg.readMid_blank c a o
      unfold MidVal.blank Alg.readMid
      revert hi ho
      generalize a.readMid c i = x
      generalize a.readMid c (MidVal.blank i) = x'
      generalize a.readMid c o = y
      generalize a.readMid c (MidVal.blank o) = y'
      intro hi ho
      cases hi with
      | none => exact .none
      | some h1 =>
        cases ho with
        | none => exact .none
        | some h2 => exact .some ⟨h1, h2⟩

theorem Alg.makeO_blank (c : Cfg) (a : Alg) (mk : Make) :
    OptRel (Same (a.Like c)) (a.makeO c mk) (a.makeO c (Make.blank mk)) := by
  have hb := a.observed_blind c
  cases mk with
  | new => cases a <;> exact .some (Same.ofRefl hb.refl _)
  | default => cases a <;> exact .some (Same.ofRefl hb.refl _)
  | sipKeys k0 k1 =>
    cases a with
    | siphash24 => exact .some (Same.pure' ⟨rfl, rfl⟩)
    | _ => exact .none
  | hmacKey key =>
    cases a with
    | hmac a => exact .some (Hmac.newO_same c (a.observed_blind c) (len_blank key))
    | _ => exact .none
  | resume μ n =>
    have h : ∀ {x y}, OptRel (a.LikeMid c) x y → OptRel (Same (a.Like c))
        (x.map fun μ => (a.observed c).fromMidstate μ n) (y.map fun μ => (a.observed c).fromMidstate μ n) := by
      intro x y h
      cases h with
      | none => exact .none
      | some h => exact .some (hb.fromMidstate n h)
    have := h (a.readMid_blank c μ)
    cases a <;> exact this

theorem Alg.makeO_res (c : Cfg) (a : Alg) (mk : Make) : (a.makeO c mk).map Obs.res = a.make c mk := by
  have he := a.observed_erases c
  cases mk with
  | new => cases a <;> exact congrArg some he.new
  | default => cases a <;> exact congrArg some he.default
  | sipKeys k0 k1 => cases a <;> rfl
  | hmacKey key =>
    cases a with
    | hmac a => exact congrArg some (Hmac.newO_res c (a.observed_erases c) key)
    | _ => rfl
  | resume μ n =>
    have h : ((a.readMid c μ).map fun μ => (a.observed c).fromMidstate μ n).map Obs.res =
        (a.readMid c μ).map fun μ => (a.engine c).fromMidstate μ n := by
      rw [Option.map_map]
      congr 1
      funext μ
      exact he.fromMidstate μ n
    cases a <;> exact h

/-- Slots that cannot be told apart. -/
inductive SlotLike (c : Cfg) : Option ((a : Alg) × (Impl.crate c).State a) →
    Option ((a : Alg) × (Impl.crate c).State a) → Prop
  | gone : SlotLike c none none
  | live (a : Alg) {e e' : (a.engine c).State} (h : a.Like c e e') : SlotLike c (some ⟨a, e⟩) (some ⟨a, e'⟩)

/-- Pools that cannot be told apart. -/
structure PoolLike (c : Cfg) (p q : (Impl.crate c).Pool) : Prop where
  len : p.length = q.length
  slot : ∀ i, SlotLike c ((Impl.crate c).slot p i) ((Impl.crate c).slot q i)

namespace PoolLike
variable {c : Cfg} {p q : (Impl.crate c).Pool}

theorem nil : PoolLike c [] [] := ⟨rfl, fun _ => .gone⟩

theorem push (h : PoolLike c p q) {x y} (hx : SlotLike c x y) : PoolLike c (p ++ [x]) (q ++ [y]) := by
  refine ⟨by simp [h.len], fun i => ?_⟩
  have := h.slot i
  simp only [Impl.slot] at *
  rcases Nat.lt_trichotomy i p.length with hi | hi | hi
  · rw [List.getElem?_append_left hi, List.getElem?_append_left (by rw [← h.len]; exact hi)]
    exact this
  · subst hi
    rw [List.getElem?_concat_length, h.len, List.getElem?_concat_length]
    exact hx
  · rw [List.getElem?_eq_none (by simp; omega), List.getElem?_eq_none (by simp [← h.len]; omega)]
    exact .gone

theorem set (h : PoolLike c p q) (i : Nat) {x y} (hx : SlotLike c x y) :
    PoolLike c (p.set i x) (q.set i y) := by
  refine ⟨by simp [h.len], fun j => ?_⟩
  have := h.slot j
  simp only [Impl.slot, List.getElem?_set, h.len] at *
  split
  · split
    · exact hx
    · exact .gone
  · exact this

end PoolLike

/-- One call: the same is seen, the answers have the same shape, and the pools stay alike. -/
theorem step_blank (c : Cfg) {p q : (Impl.crate c).Pool} (h : PoolLike c p q) (x : Call) :
    Impl.callSeen c p x = Impl.callSeen c q (Call.blank x) ∧
    Answer.blank ((Impl.crate c).step p x).2 = Answer.blank ((Impl.crate c).step q (Call.blank x)).2 ∧
    PoolLike c ((Impl.crate c).step p x).1 ((Impl.crate c).step q (Call.blank x)).1 := by
  cases x with
  | make a mk =>
    have hm := a.makeO_blank c mk
    have h1 := a.makeO_res c mk
    have h2 := a.makeO_res c (Make.blank mk)
    simp only [Call.blank, Impl.callSeen, Impl.step, Impl.crate]
    rw [← h1, ← h2]
    revert hm
    generalize a.makeO c mk = m
    generalize a.makeO c (Make.blank mk) = m'
    intro hm
    cases hm with
    | none => exact ⟨rfl, rfl, h⟩
    | @some x y hs =>
      obtain ⟨r, s⟩ := x
      obtain ⟨r', s'⟩ := y
      obtain ⟨hs1, hs2⟩ := hs
      refine ⟨hs1, ?_⟩
      cases r with
      | error f =>
        cases r' with
        | error g => exact ⟨congrArg Answer.panic hs2, h⟩
        | ok b => exact hs2.elim
      | ok e =>
        cases r' with
        | error g => exact hs2.elim
        | ok e' => exact ⟨rfl, h.push (.live a hs2)⟩
  | clone i =>
    have hi := h.slot i
    simp only [Call.blank, Impl.callSeen, Impl.step]
    revert hi
    generalize (Impl.crate c).slot p i = x
    generalize (Impl.crate c).slot q i = y
    intro hi
    cases hi with
    | gone => exact ⟨trivial, rfl, h⟩
    | live a ha => exact ⟨trivial, rfl, h.push (.live a ha)⟩
  | input i d =>
    have hi := h.slot i
    simp only [Call.blank, Impl.callSeen, Impl.step]
    revert hi
    generalize (Impl.crate c).slot p i = x
    generalize (Impl.crate c).slot q i = y
    intro hi
    cases hi with
    | gone => exact ⟨rfl, rfl, h⟩
    | @live a e e' ha =>
      have hs := (a.observed_blind c).input ha (len_blank d)
      refine ⟨hs.seen, ?_⟩
      have hr := hs.res
      rw [(a.observed_erases c).input, (a.observed_erases c).input] at hr
      simp only [Impl.crate]
      revert hr
      generalize (a.engine c).input e d = r
      generalize (a.engine c).input e' (blankBytes d) = r'
      intro hr
      cases r with
      | error f =>
        cases r' with
        | error g => exact ⟨congrArg Answer.panic hr, h.set i .gone⟩
        | ok b => exact hr.elim
      | ok e =>
        cases r' with
        | error g => exact hr.elim
        | ok e' => exact ⟨rfl, h.set i (.live a hr)⟩
  | count i =>
    have hi := h.slot i
    simp only [Call.blank, Impl.callSeen, Impl.step]
    revert hi
    generalize (Impl.crate c).slot p i = x
    generalize (Impl.crate c).slot q i = y
    intro hi
    cases hi with
    | gone => exact ⟨trivial, rfl, h⟩
    | live a ha => exact ⟨trivial, congrArg Answer.count ((a.observed_blind c).count ha), h⟩
  | midstate i =>
    have hi := h.slot i
    simp only [Call.blank, Impl.callSeen, Impl.step]
    revert hi
    generalize (Impl.crate c).slot p i = x
    generalize (Impl.crate c).slot q i = y
    intro hi
    cases hi with
    | gone => exact ⟨rfl, rfl, h⟩
    | @live a e e' ha =>
      have hs := (a.observed_blind c).midstate ha
      refine ⟨hs.seen, ?_⟩
      have hr := hs.res
      rw [(a.observed_erases c).midstate, (a.observed_erases c).midstate] at hr
      simp only [Impl.crate]
      revert hr
      generalize (a.engine c).midstate e = r
      generalize (a.engine c).midstate e' = r'
      intro hr
      cases r with
      | error f =>
        cases r' with
        | error g => exact ⟨congrArg Answer.panic hr, h⟩
        | ok b => exact hr.elim
      | ok e =>
        cases r' with
        | error g => exact hr.elim
        | ok e' => exact ⟨congrArg Answer.midstate (a.showMid_blank c hr), h⟩
  | finalize i =>
    have hi := h.slot i
    simp only [Call.blank, Impl.callSeen, Impl.step]
    revert hi
    generalize (Impl.crate c).slot p i = x
    generalize (Impl.crate c).slot q i = y
    intro hi
    cases hi with
    | gone => exact ⟨rfl, rfl, h⟩
    | @live a e e' ha =>
      have hs := (a.observed_blind c).finalize ha
      refine ⟨hs.seen, ?_⟩
      have hr := hs.res
      rw [(a.observed_erases c).finalize, (a.observed_erases c).finalize] at hr
      simp only [Impl.crate]
      revert hr
      generalize (a.engine c).finalize e = r
      generalize (a.engine c).finalize e' = r'
      intro hr
      cases r with
      | error f =>
        cases r' with
        | error g => exact ⟨congrArg Answer.panic hr, h.set i .gone⟩
        | ok b => exact hr.elim
      | ok e =>
        cases r' with
        | error g => exact hr.elim
        | ok e' => exact ⟨congrArg Answer.digest (blankBytes_eq hr), h.set i .gone⟩

theorem program_blank (c : Cfg) : ∀ (xs : List Call) {p q : (Impl.crate c).Pool}, PoolLike c p q →
    Impl.programSeen c p xs = Impl.programSeen c q (xs.map Call.blank) ∧
    ((Impl.crate c).answers p xs).map Answer.blank =
      ((Impl.crate c).answers q (xs.map Call.blank)).map Answer.blank
  | [], _, _, _ => ⟨rfl, rfl⟩
  | x :: xs, p, q, h => by
      have h1 := step_blank c h x
      have h2 := program_blank c xs h1.2.2
      constructor
      · show _ :: _ = _ :: _
        rw [h1.1, h2.1]
      · show _ :: _ = _ :: _
        rw [h1.2.1, h2.2]

end Chf
