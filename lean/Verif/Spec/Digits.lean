/-! Semi-octet digits, TS 23.040 section 9.1.2.3: the 15 digit characters and the nibbles of an octet. -/

namespace Verif.Spec

/-- The characters 0-9, *, #, a, b, c; a digit's code is its position. -/
def digitChars : List UInt8 :=
  [0x30, 0x31, 0x32, 0x33, 0x34, 0x35, 0x36, 0x37, 0x38, 0x39, 0x2a, 0x23, 0x61, 0x62, 0x63]

/-- A string of digit characters. -/
def Digits (ds : List UInt8) : Prop := ∀ d ∈ ds, d ∈ digitChars

instance (ds : List UInt8) : Decidable (Digits ds) := by unfold Digits; infer_instance

/-- The code of a digit character. -/
def digitCode (d : UInt8) : Nat := digitChars.idxOf d

/-- The two half-octets, low one first. -/
def nibbles (o : UInt8) : List Nat := [o.toNat % 16, o.toNat / 16]

end Verif.Spec
