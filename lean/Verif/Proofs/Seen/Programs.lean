import Verif.Proofs.Seen.Blind
import Verif.Proofs.Seen.Erases
import Verif.Proofs.Seen.Sha256Const
import Verif.Proofs.ObservePrograms
import Verif.Model.TextSeen

/-!
# What is seen of programs over the translated text
-/

namespace Chf.Source
open Chf Tr Seen

/-- Engines that cannot be told apart. -/
def like (c : Cfg) : (a : Alg) → (engineOf c a).State → (engineOf c a).State → Prop
  | .sha1 => Seen.Sha1.Alike
  | .sha256 => Seen.Sha256.Alike
  | .sha384 => fun (e e' : Sha384.Engine) => Seen.Sha512.Alike e.f0 e'.f0
  | .sha512 => Seen.Sha512.Alike
  | .sha512_256 => fun (e e' : Sha512_256.Engine) => Seen.Sha512.Alike e.f0 e'.f0
  | .ripemd160 => Seen.Ripemd160.Alike
  | .siphash24 => Seen.Siphash24.Alike
  | .sha256t _ _ _ => fun (e e' : Sha256t.Engine) => Seen.Sha256.Alike e.f0 e'.f0
  | .hmac a => Seen.Hmac.Alike (like c a)

/-- Midstates that cannot be told apart. -/
def likeMid (c : Cfg) : (a : Alg) → (engineOf c a).Midstate → (engineOf c a).Midstate → Prop
  | .sha1 => Len
  | .sha256 => fun (m m' : Sha256.Midstate) => Len m.f0 m'.f0
  | .sha384 => Len
  | .sha512 => Len
  | .sha512_256 => Len
  | .ripemd160 => Len
  | .siphash24 => Any
  | .sha256t _ _ _ => fun (m m' : Sha256.Midstate) => Len m.f0 m'.f0
  | .hmac a => fun (m m' : Hmac.Midstate (engineOf c a)) => likeMid c a m.inner m'.inner ∧ likeMid c a m.outer m'.outer

theorem tag_same (c : Cfg) (mid : List Byte) (len : Nat) (data : List Byte) :
    SameSeen (fun e e' => Seen.Sha256.Alike e.f0 e'.f0) (Sha256t.Tag.ofMidstateSeen c mid len data).engine
      (Sha256t.Tag.ofMidstateSeen c mid len data).engine :=
  SameSeen.bind (Seen.Sha256.from_midstate_same c rfl len) fun _ _ h =>
    SameSeen.bind (Seen.Sha256.input_same c h rfl) fun _ _ h => SameSeen.pure' h

theorem tag_res (c : Cfg) (mid : List Byte) (len : Nat) (data : List Byte) :
    (Sha256t.Tag.ofMidstateSeen c mid len data).engine.res = (Sha256t.Tag.ofMidstate c mid len data).engine :=
  bindE (Seen.Sha256.from_midstate_res c _ _) fun _ => bindE (Seen.Sha256.input_res c _ _) fun _ => rfl

theorem blindOf (c : Cfg) : (a : Alg) → Blind (seenOf c a) (like c a) (likeMid c a)
  | .sha1 => Seen.Sha1.blind c
  | .sha256 => Seen.Sha256.blind c
  | .sha384 => Seen.Sha384.blind c
  | .sha512 => Seen.Sha512.blind c
  | .sha512_256 => Seen.Sha512_256.blind c
  | .ripemd160 => Seen.Ripemd160.blind c
  | .siphash24 => Seen.Siphash24.blind c
  | .sha256t mid len data => Seen.Sha256t.blind c (tag_same c mid len data)
  | .hmac a => Seen.Hmac.blind c (blindOf c a)

theorem erasesOf (c : Cfg) : (a : Alg) → Erases (seenOf c a)
  | .sha1 => Seen.Sha1.erases c
  | .sha256 => Seen.Sha256.erases c
  | .sha384 => Seen.Sha384.erases c
  | .sha512 => Seen.Sha512.erases c
  | .sha512_256 => Seen.Sha512_256.erases c
  | .ripemd160 => Seen.Ripemd160.erases c
  | .siphash24 => Seen.Siphash24.erases c
  | .sha256t mid len data => Seen.Sha256t.erases c (tag_res c mid len data)
  | .hmac a => Seen.Hmac.erases c (erasesOf c a)

theorem showMid_blank (c : Cfg) : (a : Alg) → {μ μ' : (engineOf c a).Midstate} → likeMid c a μ μ' →
    MidVal.blank (showMid c a μ) = MidVal.blank (showMid c a μ')
  | .sha1, _, _, h => congrArg MidVal.bytes (blankBytes_eq h)
  | .sha256, _, _, h => congrArg MidVal.bytes (blankBytes_eq h)
  | .sha384, _, _, h => congrArg MidVal.bytes (blankBytes_eq h)
  | .sha512, _, _, h => congrArg MidVal.bytes (blankBytes_eq h)
  | .sha512_256, _, _, h => congrArg MidVal.bytes (blankBytes_eq h)
  | .ripemd160, _, _, h => congrArg MidVal.bytes (blankBytes_eq h)
  | .sha256t _ _ _, _, _, h => congrArg MidVal.bytes (blankBytes_eq h)
  | .siphash24, _, _, _ => rfl
  | .hmac a, _, _, h => by
      show MidVal.pair _ _ = MidVal.pair _ _
      rw [showMid_blank c a h.1, showMid_blank c a h.2]

theorem readSha256_blank (c : Cfg) (bs : List Byte) :
    OptRel (fun m m' => Len m.f0 m'.f0)
      (if bs.length = 32 then some (Sha256.Midstate.from_byte_array c bs) else none)
      (if (blankBytes bs).length = 32 then some (Sha256.Midstate.from_byte_array c (blankBytes bs)) else none) := by
  rw [← len_blank bs]
  split
  · exact .some (len_blank bs)
  · exact .none

theorem readMid_blank (c : Cfg) : (a : Alg) → (v : MidVal) →
    OptRel (likeMid c a) (readMid c a v) (readMid c a (MidVal.blank v))
  | .sha1, .bytes bs => readBytes_blank 20 bs
  | .sha256, .bytes bs => readSha256_blank c bs
  | .sha384, .bytes bs => readBytes_blank 64 bs
  | .sha512, .bytes bs => readBytes_blank 64 bs
  | .sha512_256, .bytes bs => readBytes_blank 64 bs
  | .ripemd160, .bytes bs => readBytes_blank 20 bs
  | .sha256t _ _ _, .bytes bs => readSha256_blank c bs
  | .siphash24, .bytes _ => .none
  | .hmac _, .bytes _ => .none
  | .sha1, .sip _ => .none
  | .sha256, .sip _ => .none
  | .sha384, .sip _ => .none
  | .sha512, .sip _ => .none
  | .sha512_256, .sip _ => .none
  | .ripemd160, .sip _ => .none
  | .sha256t _ _ _, .sip _ => .none
  | .siphash24, .sip _ => .some trivial
  | .hmac _, .sip _ => .none
  | .sha1, .pair _ _ => .none
  | .sha256, .pair _ _ => .none
  | .sha384, .pair _ _ => .none
  | .sha512, .pair _ _ => .none
  | .sha512_256, .pair _ _ => .none
  | .ripemd160, .pair _ _ => .none
  | .sha256t _ _ _, .pair _ _ => .none
  | .siphash24, .pair _ _ => .none
  | .hmac a, .pair i o => by
      have hi := readMid_blank c a i
      have ho := readMid_blank c a o
      unfold MidVal.blank readMid
      revert hi ho
      generalize readMid c a i = x
      generalize readMid c a (MidVal.blank i) = x'
      generalize readMid c a o = y
      generalize readMid c a (MidVal.blank o) = y'
      intro hi ho
      cases hi with
      | none => exact .none
      | some h1 =>
        cases ho with
        | none => exact .none
        | some h2 => exact .some ⟨h1, h2⟩

theorem make_blank (c : Cfg) (a : Alg) (mk : Make) :
    OptRel (SameSeen (like c a)) (makeSeen c a mk) (makeSeen c a (Make.blank mk)) := by
  have hb := blindOf c a
  cases mk with
  | new => cases a <;> exact .some hb.new
  | default => cases a <;> exact .some hb.default
  | sipKeys k0 k1 =>
    cases a with
    | siphash24 => exact .some (SameSeen.pure' ⟨rfl, rfl⟩)
    | _ => exact .none
  | hmacKey key =>
    cases a with
    | hmac a => exact .some (Seen.Hmac.new_same c (blindOf c a) (len_blank key))
    | _ => exact .none
  | resume μ n =>
    have h : ∀ {x y}, OptRel (likeMid c a) x y → OptRel (SameSeen (like c a))
        (x.map fun μ => (seenOf c a).fromMidstate μ n) (y.map fun μ => (seenOf c a).fromMidstate μ n) := by
      intro x y h
      cases h with
      | none => exact .none
      | some h => exact .some (hb.fromMidstate h n)
    have := h (readMid_blank c a μ)
    cases a <;> exact this

theorem make_res (c : Cfg) (a : Alg) (mk : Make) : (makeSeen c a mk).map Tr.res = make c a mk := by
  have he := erasesOf c a
  cases mk with
  | new => cases a <;> exact congrArg some he.new
  | default => cases a <;> exact congrArg some he.default
  | sipKeys k0 k1 => cases a <;> rfl
  | hmacKey key =>
    cases a with
    | hmac a => exact congrArg some (Seen.Hmac.new_res c (erasesOf c a) key)
    | _ => rfl
  | resume μ n =>
    have h : ((readMid c a μ).map fun μ => (seenOf c a).fromMidstate μ n).map Tr.res =
        (readMid c a μ).map fun μ => (engineOf c a).fromMidstate μ n := by
      rw [Option.map_map]
      congr 1
      funext μ
      exact he.fromMidstate μ n
    cases a <;> exact h

/-- Slots that cannot be told apart. -/
inductive SlotLike (c : Cfg) : Option ((a : Alg) × (text c).State a) →
    Option ((a : Alg) × (text c).State a) → Prop
  | gone : SlotLike c none none
  | live (a : Alg) {e e' : (engineOf c a).State} (h : like c a e e') : SlotLike c (some ⟨a, e⟩) (some ⟨a, e'⟩)

/-- Pools that cannot be told apart. -/
structure PoolLike (c : Cfg) (p q : (text c).Pool) : Prop where
  len : p.length = q.length
  slot : ∀ i, SlotLike c ((text c).slot p i) ((text c).slot q i)

namespace PoolLike
variable {c : Cfg} {p q : (text c).Pool}

theorem nil : PoolLike c [] [] := ⟨rfl, fun _ => .gone⟩

theorem push (h : PoolLike c p q) {x y} (hx : SlotLike c x y) : PoolLike c (p ++ [x]) (q ++ [y]) := by
  refine ⟨by simp [h.len], fun i => ?_⟩
  have := h.slot i
  simp only [Impl.slot] at *
  rcases Nat.lt_trichotomy i p.length with hi | hi | hi
  · rw [List.getElem?_append_left hi, List.getElem?_append_left (by rw [← h.len]; exact hi)]
    exact this
  · subst hi
    rw [List.getElem?_concat_length, h.len, List.getElem?_concat_length]
    exact hx
  · rw [List.getElem?_eq_none (by simp; omega), List.getElem?_eq_none (by simp [← h.len]; omega)]
    exact .gone

theorem set (h : PoolLike c p q) (i : Nat) {x y} (hx : SlotLike c x y) :
    PoolLike c (p.set i x) (q.set i y) := by
  refine ⟨by simp [h.len], fun j => ?_⟩
  have := h.slot j
  simp only [Impl.slot, List.getElem?_set, h.len] at *
  split
  · split
    · exact hx
    · exact .gone
  · exact this

end PoolLike

/-- One call: the same is seen, the answers have the same shape, and the pools stay alike. -/
theorem step_blank (c : Cfg) {p q : (text c).Pool} (h : PoolLike c p q) (x : Call) :
    callSeen c p x = callSeen c q (Call.blank x) ∧
    Answer.blank ((text c).step p x).2 = Answer.blank ((text c).step q (Call.blank x)).2 ∧
    PoolLike c ((text c).step p x).1 ((text c).step q (Call.blank x)).1 := by
  cases x with
  | make a mk =>
    have hm := make_blank c a mk
    have h1 := make_res c a mk
    have h2 := make_res c a (Make.blank mk)
    simp only [Call.blank, callSeen, Impl.step, text]
    rw [← h1, ← h2]
    revert hm
    generalize makeSeen c a mk = m
    generalize makeSeen c a (Make.blank mk) = m'
    intro hm
    cases hm with
    | none => exact ⟨rfl, rfl, h⟩
    | @some x y hs =>
      obtain ⟨r, s⟩ := x
      obtain ⟨r', s'⟩ := y
      obtain ⟨hs1, hs2⟩ := hs
      refine ⟨hs1, ?_⟩
      cases r with
      | error f =>
        cases r' with
        | error g => exact ⟨congrArg Answer.panic hs2, h⟩
        | ok b => exact hs2.elim
      | ok e =>
        cases r' with
        | error g => exact hs2.elim
        | ok e' => exact ⟨rfl, h.push (.live a hs2)⟩
  | clone i =>
    have hi := h.slot i
    simp only [Call.blank, callSeen, Impl.step]
    revert hi
    generalize (text c).slot p i = x
    generalize (text c).slot q i = y
    intro hi
    cases hi with
    | gone => exact ⟨trivial, rfl, h⟩
    | live a ha => exact ⟨trivial, rfl, h.push (.live a ha)⟩
  | input i d =>
    have hi := h.slot i
    simp only [Call.blank, callSeen, Impl.step]
    revert hi
    generalize (text c).slot p i = x
    generalize (text c).slot q i = y
    intro hi
    cases hi with
    | gone => exact ⟨rfl, rfl, h⟩
    | @live a e e' ha =>
      have hs := (blindOf c a).input ha (len_blank d)
      refine ⟨hs.seen, ?_⟩
      have hr := hs.res
      rw [(erasesOf c a).input, (erasesOf c a).input] at hr
      simp only [text]
      revert hr
      generalize (engineOf c a).input e d = r
      generalize (engineOf c a).input e' (blankBytes d) = r'
      intro hr
      cases r with
      | error f =>
        cases r' with
        | error g => exact ⟨congrArg Answer.panic hr, h.set i .gone⟩
        | ok b => exact hr.elim
      | ok e =>
        cases r' with
        | error g => exact hr.elim
        | ok e' => exact ⟨rfl, h.set i (.live a hr)⟩
  | count i =>
    have hi := h.slot i
    simp only [Call.blank, callSeen, Impl.step]
    revert hi
    generalize (text c).slot p i = x
    generalize (text c).slot q i = y
    intro hi
    cases hi with
    | gone => exact ⟨trivial, rfl, h⟩
    | live a ha => exact ⟨trivial, congrArg Answer.count ((blindOf c a).count ha), h⟩
  | midstate i =>
    have hi := h.slot i
    simp only [Call.blank, callSeen, Impl.step]
    revert hi
    generalize (text c).slot p i = x
    generalize (text c).slot q i = y
    intro hi
    cases hi with
    | gone => exact ⟨rfl, rfl, h⟩
    | @live a e e' ha =>
      have hs := (blindOf c a).midstate ha
      refine ⟨hs.seen, ?_⟩
      have hr := hs.res
      rw [(erasesOf c a).midstate, (erasesOf c a).midstate] at hr
      simp only [text]
      revert hr
      generalize (engineOf c a).midstate e = r
      generalize (engineOf c a).midstate e' = r'
      intro hr
      cases r with
      | error f =>
        cases r' with
        | error g => exact ⟨congrArg Answer.panic hr, h⟩
        | ok b => exact hr.elim
      | ok e =>
        cases r' with
        | error g => exact hr.elim
        | ok e' => exact ⟨congrArg Answer.midstate (showMid_blank c a hr), h⟩
  | finalize i =>
    have hi := h.slot i
    simp only [Call.blank, callSeen, Impl.step]
    revert hi
    generalize (text c).slot p i = x
    generalize (text c).slot q i = y
    intro hi
    cases hi with
    | gone => exact ⟨rfl, rfl, h⟩
    | @live a e e' ha =>
      have hs := (blindOf c a).finalize ha
      refine ⟨hs.seen, ?_⟩
      have hr := hs.res
      rw [(erasesOf c a).finalize, (erasesOf c a).finalize] at hr
      simp only [text]
      revert hr
      generalize (engineOf c a).finalize e = r
      generalize (engineOf c a).finalize e' = r'
      intro hr
      cases r with
      | error f =>
        cases r' with
        | error g => exact ⟨congrArg Answer.panic hr, h.set i .gone⟩
        | ok b => exact hr.elim
      | ok e =>
        cases r' with
        | error g => exact hr.elim
        | ok e' => exact ⟨congrArg Answer.digest (blankBytes_eq hr), h.set i .gone⟩

theorem program_blank (c : Cfg) : ∀ (xs : List Call) {p q : (text c).Pool}, PoolLike c p q →
    programSeen c p xs = programSeen c q (xs.map Call.blank) ∧
    ((text c).answers p xs).map Answer.blank =
      ((text c).answers q (xs.map Call.blank)).map Answer.blank
  | [], _, _, _ => ⟨rfl, rfl⟩
  | x :: xs, p, q, h => by
      have h1 := step_blank c h x
      have h2 := program_blank c xs h1.2.2
      constructor
      · show _ :: _ = _ :: _
        rw [h1.1, h2.1]
      · show _ :: _ = _ :: _
        rw [h1.2.1, h2.2]

end Chf.Source
