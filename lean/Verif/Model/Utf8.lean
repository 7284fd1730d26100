import Verif.Rust

/-!
# `str::from_utf8`
-/

namespace Chf

/-- Unicode's well-formed UTF-8 byte sequences (table 3-7), which is what `str::from_utf8` accepts. -/
def utf8Valid : List Byte → Bool
  | [] => true
  | a :: rest =>
      let cont (b : Byte) : Bool := 0x80 ≤ b && b ≤ 0xbf
      if a ≤ 0x7f then utf8Valid rest
      else if 0xc2 ≤ a && a ≤ 0xdf then
        match rest with
        | b :: rest => cont b && utf8Valid rest
        | _ => false
      else if 0xe0 ≤ a && a ≤ 0xef then
        match rest with
        | b :: c :: rest =>
            cont b && cont c && !(a == 0xe0 && b ≤ 0x9f) && !(a == 0xed && 0xa0 ≤ b) && utf8Valid rest
        | _ => false
      else if 0xf0 ≤ a && a ≤ 0xf4 then
        match rest with
        | b :: c :: d :: rest =>
            cont b && cont c && cont d && !(a == 0xf0 && b ≤ 0x8f) && !(a == 0xf4 && 0x90 ≤ b) &&
              utf8Valid rest
        | _ => false
      else false

end Chf
