import Verif.Model.Dcs

/-! The SMS data coding scheme as TS 23.038 section 4 gives it, by coding group (bits 7..4) and bit. -/

namespace Verif.Spec
open Verif.Model

/-- What a data coding scheme says about the user data. -/
structure Coding where
  /-- the alphabet; reserved codings are to be taken as the GSM 7 bit default alphabet -/
  alphabet : Alphabet
  /-- the message class 0..3, when there is one -/
  cls : Option Nat := none
  /-- whether the text is compressed -/
  compressed : Bool := false
  deriving DecidableEq

/-- Character set by bits 3 and 2 of the general groups: 00 GSM 7 bit, 01 8 bit data, 10 UCS2, 11 reserved. -/
def generalAlphabet (b3 b2 : Bool) : Alphabet :=
  match b3, b2 with
  | false, false => .a7Bit
  | false, true => .a8Bit
  | true, false => .ucs2
  | true, true => .a7Bit

/-- The table of TS 23.038 section 4.
* 00xx general and 01xx marked for automatic deletion: bit 5 compressed, bit 4 says that bits 1 and 0 are the class;
* 10xx reserved;
* 1100 and 1101 message waiting, GSM 7 bit; 1110 message waiting, UCS2;
* 1111: bit 2 says 8 bit data, bits 1 and 0 are the class. -/
def coding (d : UInt8) : Coding :=
  let bit := d.toNat.testBit
  let cls := 2 * (bit 1).toNat + (bit 0).toNat
  match bit 7, bit 6, bit 5, bit 4 with
  | false, _, c, k => ⟨generalAlphabet (bit 3) (bit 2), if k then some cls else none, c⟩
  | true, false, _, _ => { alphabet := .a7Bit }
  | true, true, false, _ => { alphabet := .a7Bit }
  | true, true, true, false => { alphabet := .ucs2 }
  | true, true, true, true => ⟨if bit 2 then .a8Bit else .a7Bit, some cls, false⟩

/-- The reserved coding groups 10xx. -/
def reservedGroup (d : UInt8) : Bool := d.toNat.testBit 7 && !d.toNat.testBit 6

end Verif.Spec
