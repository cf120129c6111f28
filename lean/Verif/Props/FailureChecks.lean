import Verif.Proofs.FailureCases
import Verif.Props.TpduSafe

/-! C90: the inputs of Proofs/FailureCases fail as they should. -/

namespace Verif.Props
open Verif.Model Verif.Proofs Verif.Spec

/-- The header indicator of a first octet. -/
def udhiOf (fo : UInt8) : Bool := fo.toNat / 64 % 2 = 1

/-- The validity period format of a first octet. -/
def vpfOf (fo : UInt8) : Nat := fo.toNat / 8 % 4

/-- All the cases of one first octet are as they should be. -/
def casesHold (fo : UInt8) (d : Int) : Bool :=
  match typeName d (fo.toNat % 4) with
  | none => true
  | some name => (failCases name (udhiOf fo) (vpfOf fo)).all fun w =>
    match plainErr w.2.1 with
    | none => true
    | some c => hasErr (name ++ "." ++ w.1) c (Sms.Unmarshal (fo :: w.2.2) d)

theorem casesHold_mt : ∀ fo, casesHold fo 0 = true := by apply forall_u8_dec; decide +kernel
theorem casesHold_mo : ∀ fo, casesHold fo 1 = true := by apply forall_u8_dec; decide +kernel

end Verif.Props
