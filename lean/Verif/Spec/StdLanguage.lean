import Verif.Spec.Alphabet
import Verif.Model.UserData

/-! How a header announces languages: 3GPP TS 23.040, 9.2.3.24.15 and 9.2.3.24.16. -/

namespace Verif.Spec
open Verif.Model

/-- Information element identifier of the national language single shift. -/
def stdShiftIEI : UInt8 := 0x24

/-- Information element identifier of the national language locking shift. -/
def stdLockingIEI : UInt8 := 0x25

/-- The language that the elements `iei` announce: the last of them counts (9.2.3.24), its octet is the
identifier, of which 1 to 13 are defined (TS 23.038, 6.2.1.2.4); others stand for the default table.  The
elements have one octet by the standard; of longer ones the first octet is taken here. -/
def languageOf (udh : List IE) (iei : UInt8) : Int :=
  match (udh.filter fun ie => ie.ID = iei).getLast? with
  | some ⟨_, n :: _⟩ => if 1 ≤ n.toNat ∧ n.toNat ≤ 13 then n.toNat else 0
  | _ => 0

end Verif.Spec
