/-! How a table of 128 septets is laid out on a page of characters. -/

namespace Verif.Spec

/-- The value of a lower case hex digit. -/
def LowerHex (c v : Nat) : Prop := 0x30 ≤ c ∧ c ≤ 0x39 ∧ v = c - 0x30 ∨ 0x61 ≤ c ∧ c ≤ 0x66 ∧ v = c - 0x57

/-- The five characters that stand for the entry of one septet: nothing, the name of a control or of the space, the
character itself, or its number in four hex digits if it is U+0400 or above (but not for the euro sign). -/
def Entry (v : Option Nat) (cell : List Nat) : Prop :=
  match v with
  | none => cell = "     ".toList.map Char.toNat
  | some v =>
    if v = 0x0a then cell = " LF  ".toList.map Char.toNat
    else if v = 0x0c then cell = " FF  ".toList.map Char.toNat
    else if v = 0x0d then cell = " CR  ".toList.map Char.toNat
    else if v = 0x1b then cell = "ESC  ".toList.map Char.toNat
    else if v = 0x20 then cell = " SP  ".toList.map Char.toNat
    else if v < 0x400 ∨ v = 0x20ac then cell = [0x20, 0x20, v, 0x20, 0x20]
    else ∃ c3 c2 c1 c0 d3 d2 d1 d0, cell = [c3, c2, c1, c0, 0x20] ∧ LowerHex c3 d3 ∧ LowerHex c2 d2 ∧ LowerHex c1 d1 ∧
      LowerHex c0 d0 ∧ v = 0x1000 * d3 + 0x100 * d2 + 0x10 * d1 + d0

end Verif.Spec
