/-!
Specification of the bit layout of TS 23.038 section 6.1.2: an octet string read as a bit string, least
significant bit of each octet first, and a septet string read the same way with seven bits per element.
Independent of the model.
-/

namespace Verif.Spec

/-- The `n` low bits of `x`, least significant first. -/
def bits (n x : Nat) : List Bool := (List.range n).map x.testBit

/-- The bits of an octet string. -/
def octetBits (p : List UInt8) : List Bool := p.flatMap fun o => bits 8 o.toNat

/-- The bits of a septet string (the 7 low bits of every element). -/
def septetBits (u : List UInt8) : List Bool := u.flatMap fun s => bits 7 s.toNat

/-- Every element is a septet. -/
def Septets (u : List UInt8) : Prop := ∀ s ∈ u, s.toNat < 128

end Verif.Spec
