import Verif.Model.Tpdu

/-! What of a TPDU is shown by smsdecode: when two TPDUs look the same. -/

namespace Verif.Spec
open Verif.Model

/-- The same validity period to the eye: the moment, or the duration, and for the enhanced format the three bits
of its functionality indicator that say how the duration is written. -/
def SamePeriod (v v' : ValidityPeriod) : Prop :=
  v.Format = v'.Format ∧ (v.Format = VpfAbsolute → v.Time = v'.Time) ∧
  (v.Format = VpfRelative ∨ v.Format = VpfEnhanced → v.Duration = v'.Duration) ∧
  (v.Format = VpfEnhanced → v.EFI &&& 7 = v'.EFI &&& 7)

/-- The same optional fields to the eye: the three bits of the parameter indicator that mean something and whether
it is 0, the protocol and the coding if they are announced, the header and the user data. -/
def SameOptions (t t' : TPDU) : Prop :=
  t.PI &&& 7 = t'.PI &&& 7 ∧ (t.PI = 0 ↔ t'.PI = 0) ∧ (t.PI &&& 1 ≠ 0 → t.PID = t'.PID) ∧
  (t.PI &&& 2 ≠ 0 → t.DCS = t'.DCS) ∧ t.UDH = t'.UDH ∧ t.UD = t'.UD

/-- The same TPDU to the eye.  Of an address only the number, with a plus sign if it is international; of the first
octet all but the bits that are reserved in the type, except that the reply path of a command and of reports is not
shown. -/
def LooksLike (t t' : TPDU) : Prop :=
  t.SmsType = t'.SmsType ∧
  (t.SmsType = SmsDeliver → t.FirstOctet &&& 0xef = t'.FirstOctet &&& 0xef ∧ t.OA.Number = t'.OA.Number ∧ t.PID = t'.PID ∧
    t.DCS = t'.DCS ∧ t.SCTS = t'.SCTS ∧ t.UDH = t'.UDH ∧ t.UD = t'.UD) ∧
  (t.SmsType = SmsSubmit → t.FirstOctet = t'.FirstOctet ∧ t.MR = t'.MR ∧ t.DA.Number = t'.DA.Number ∧ t.PID = t'.PID ∧
    t.DCS = t'.DCS ∧ SamePeriod t.VP t'.VP ∧ t.UDH = t'.UDH ∧ t.UD = t'.UD) ∧
  (t.SmsType = SmsCommand → t.FirstOctet &&& 0x63 = t'.FirstOctet &&& 0x63 ∧ t.MR = t'.MR ∧ t.PID = t'.PID ∧ t.CT = t'.CT ∧
    t.MN = t'.MN ∧ t.DA.Number = t'.DA.Number ∧ t.UD = t'.UD) ∧
  (t.SmsType = SmsDeliverReport → t.FirstOctet &&& 0x43 = t'.FirstOctet &&& 0x43 ∧ t.FCS = t'.FCS ∧ SameOptions t t') ∧
  (t.SmsType = SmsSubmitReport → t.FirstOctet &&& 0x43 = t'.FirstOctet &&& 0x43 ∧ t.FCS = t'.FCS ∧ t.SCTS = t'.SCTS ∧
    SameOptions t t') ∧
  (t.SmsType = SmsStatusReport → t.FirstOctet &&& 0x6f = t'.FirstOctet &&& 0x6f ∧ t.MR = t'.MR ∧ t.RA.Number = t'.RA.Number ∧
    t.SCTS = t'.SCTS ∧ t.DT = t'.DT ∧ t.ST = t'.ST ∧ SameOptions t t')

end Verif.Spec
