import Verif.Model.Dcs

/-! The coding groups of TS 23.038 section 4, by the upper four bits of the data coding scheme. -/

namespace Verif.Spec
open Verif.Model

/-- Coding group. -/
def group (d : UInt8) : Nat := d.toNat / 16

/-- Which alphabets a coding group can carry: 00xx-01xx any; 10xx reserved; 1100, 1101 message waiting (7 bit);
1110 message waiting (UCS-2); 1111 7 bit or 8 bit. -/
def CanCarry (g : Nat) (a : Alphabet) : Prop :=
  g ≤ 7 ∧ a ≠ .reserved ∨ (g = 12 ∨ g = 13) ∧ a = .a7Bit ∨ g = 14 ∧ a = .ucs2 ∨
    g = 15 ∧ (a = .a7Bit ∨ a = .a8Bit)

instance (g : Nat) (a : Alphabet) : Decidable (CanCarry g a) := by unfold CanCarry; infer_instance

/-- Coding groups that have class bits that can be set. -/
def CanClass (g : Nat) : Prop := g ≤ 7 ∨ g = 15

instance (g : Nat) : Decidable (CanClass g) := by unfold CanClass; infer_instance

end Verif.Spec
