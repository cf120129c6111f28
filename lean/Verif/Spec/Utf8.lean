/-! UTF-8, by the table of well-formed byte sequences of the Unicode standard (table 3-7). -/

namespace Verif.Spec

/-- The octets of one character after the first. -/
def Tail (b : UInt8) : Prop := 0x80 ≤ b.toNat ∧ b.toNat ≤ 0xbf

/-- The octets of one character. -/
def Utf8Char : List UInt8 → Prop
  | [a] => a.toNat ≤ 0x7f
  | [a, b] => 0xc2 ≤ a.toNat ∧ a.toNat ≤ 0xdf ∧ Tail b
  | [a, b, c] =>
    (a.toNat = 0xe0 ∧ 0xa0 ≤ b.toNat ∧ b.toNat ≤ 0xbf ∨
     0xe1 ≤ a.toNat ∧ a.toNat ≤ 0xef ∧ a.toNat ≠ 0xed ∧ Tail b ∨
     a.toNat = 0xed ∧ 0x80 ≤ b.toNat ∧ b.toNat ≤ 0x9f) ∧ Tail c
  | [a, b, c, d] =>
    (a.toNat = 0xf0 ∧ 0x90 ≤ b.toNat ∧ b.toNat ≤ 0xbf ∨
     0xf1 ≤ a.toNat ∧ a.toNat ≤ 0xf3 ∧ Tail b ∨
     a.toNat = 0xf4 ∧ 0x80 ≤ b.toNat ∧ b.toNat ≤ 0x8f) ∧ Tail c ∧ Tail d
  | _ => False

/-- A text in UTF-8: a sequence of characters. -/
def Utf8 (text : List UInt8) : Prop := ∃ chars : List (List UInt8), (∀ c ∈ chars, Utf8Char c) ∧ text = chars.flatten

end Verif.Spec
