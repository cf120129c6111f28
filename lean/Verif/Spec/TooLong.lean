import Verif.Spec.Arrival
import Verif.Spec.Reassembly

/-! What comes of the TPDUs of one message that numbers them in an octet. -/

namespace Verif.Spec
open Verif.Model
open Verif.Spec.Reassembly (Result)

/-- The answer to the `k`-th, counted from 0, of `pdus`, the TPDUs of a message in sequence, of which a receiver sees the
numbers modulo 256 only.  Let `c` be their count as seen.  If `c` is 0 or 1, each TPDU comes back as a message of its own.
Otherwise, those with numbers of 0 or above `c` are refused, and each of those numbered `c` completes a message of `c`
TPDUs: itself and those just before it. -/
def answerTo (pdus : List TPDU) (k : Nat) : Result :=
  let c := pdus.length % 256
  let seq := (k + 1) % 256
  if c < 2 then .returned [pdus[k]?] none
  else if seq = 0 ∨ c < seq then .returned [] (some .reassemblyInconsistency)
  else if seq < c then .returned [] none
  else .returned (((pdus.drop (k + 1 - c)).take c).map some) none

end Verif.Spec
