import Verif.Model.Prelude

/-! Hexadecimal text. -/

namespace Verif.Spec
open Verif.Model

/-- The hexadecimal digits, upper case; the value of a digit is its position. -/
def hexUpper : List UInt8 := [0x30, 0x31, 0x32, 0x33, 0x34, 0x35, 0x36, 0x37, 0x38, 0x39, 0x41, 0x42, 0x43, 0x44, 0x45, 0x46]

/-- The hexadecimal digits, lower case. -/
def hexLower : List UInt8 := [0x30, 0x31, 0x32, 0x33, 0x34, 0x35, 0x36, 0x37, 0x38, 0x39, 0x61, 0x62, 0x63, 0x64, 0x65, 0x66]

/-- `c` is a hexadecimal digit, of either case, with value `v`. -/
def HexDigit (c : UInt8) (v : Nat) : Prop := hexUpper[v]? = some c ∨ hexLower[v]? = some c

/-- `HexText s b`: the text spells the octets, two digits each, in any mixture of cases. -/
inductive HexText : List UInt8 → List UInt8 → Prop
  | nil : HexText [] []
  | cons {c d : UInt8} {x y : Nat} {s b : List UInt8} : HexDigit c x → HexDigit d y → HexText s b →
      HexText (c :: d :: s) (UInt8.ofNat (16 * x + y) :: b)

end Verif.Spec
