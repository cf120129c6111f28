import Verif.Model.Prelude

/-! Octets shown in rows of sixteen, by columns. -/

namespace Verif.Spec
open Verif.Model

/-- The hexadecimal digit of a number below 16. -/
def hexChar (n : Nat) : UInt8 :=
  ([0x30, 0x31, 0x32, 0x33, 0x34, 0x35, 0x36, 0x37, 0x38, 0x39, 0x61, 0x62, 0x63, 0x64, 0x65, 0x66] : List UInt8).getD n 0

/-- The column of the first digit of octet `i` of a row; there is one more space after eight octets. -/
def hexColumn (i : Nat) : Nat := 10 + 3 * i + i / 8

/-- A row of up to sixteen octets: the offset of the first in columns 0 to 7, the octets as two digits each, and
between bars from column 60 on the octets as characters, with a full stop for what is not printable. -/
structure RowOf (off : Nat) (octets line : List UInt8) : Prop where
  length : line.length = octets.length + 62
  offset : ∀ j, j < 8 → line[j]? = some (hexChar (off / 16 ^ (7 - j) % 16))
  hex : ∀ (i : Nat) (b : UInt8), octets[i]? = some b →
    line[hexColumn i]? = some (hexChar (b.toNat / 16)) ∧ line[hexColumn i + 1]? = some (hexChar (b.toNat % 16))
  char : ∀ (i : Nat) (b : UInt8), octets[i]? = some b → line[61 + i]? = some (if 0x20 ≤ b.toNat ∧ b.toNat ≤ 0x7e then b else 0x2e)
  bars : line[60]? = some 0x7c ∧ line[61 + octets.length]? = some 0x7c
  blank : ∀ c, 8 ≤ c → c < 60 → (∀ i, i < octets.length → c ≠ hexColumn i ∧ c ≠ hexColumn i + 1) → line[c]? = some 0x20

/-- The rows of octets. -/
def RowsOf (octets : List UInt8) (lines : List (List UInt8)) : Prop :=
  lines.length = (octets.length + 15) / 16 ∧
    ∀ (k : Nat) (line : List UInt8), lines[k]? = some line → RowOf (16 * k) ((octets.drop (16 * k)).take 16) line

/-- Lines of which the first follows a label of seven characters and the others are indented as much. -/
def labelled (label : List UInt8) : List (List UInt8) → List UInt8
  | [] => label ++ [0x0a]
  | r :: rs => label ++ r ++ [0x0a] ++ rs.flatMap (fun r => List.replicate 7 0x20 ++ r ++ [0x0a])

end Verif.Spec
