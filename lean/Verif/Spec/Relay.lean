import Verif.Spec.WellFormed

/-! The TPDUs that can be passed on: reading one and writing it again loses nothing.  Each condition names the
one case in which the library reads something that it cannot write back. -/

namespace Verif.Spec
open Verif.Model

/-- A year that two digits can say. -/
def YearOk (t : GoTime) : Prop := 1970 ≤ t.Year ∧ t.Year ≤ 2069

/-- Not five minutes (relative code 0), not an absolute time outside the window, less than 100 hours. -/
def VpKept (v : ValidityPeriod) : Prop :=
  (v.Format = VpfRelative → v.Duration ≠ 5 * minute) ∧
  (v.Format = VpfAbsolute → YearOk v.Time) ∧
  (v.Format = VpfEnhanced → (v.EFI &&& 7 = EvpfRelative → v.Duration ≠ 5 * minute) ∧
    (v.EFI &&& 7 = EvpfRelativeHHMMSS → v.Duration < 100 * hour))

/-- Not a reserved coding group, no empty header before user data, and a header that did not run past its declared length so far
that the length of the whole no longer fits its octet. -/
def UdKept (t : TPDU) : Prop :=
  t.Alphabet.2 = none ∧ (t.UDHI = true → (t.UDH ≠ [] ∨ t.UD = []) ∧ udLen t ≤ 255)

/-- The conditions on the fields each type has.  Reports with FCS 0 and commands with a header are not written
as they are read. -/
def Kept (t : TPDU) : Prop :=
  (t.SmsType = SmsDeliver → YearOk t.SCTS ∧ UdKept t) ∧
  (t.SmsType = SmsDeliverReport → t.FCS ≠ 0 ∧ (PI.UDL t.PI = true → UdKept t)) ∧
  (t.SmsType = SmsSubmitReport → t.FCS ≠ 0 ∧ YearOk t.SCTS ∧ (PI.UDL t.PI = true → UdKept t)) ∧
  (t.SmsType = SmsSubmit → VpKept t.VP ∧ UdKept t) ∧
  (t.SmsType = SmsStatusReport → YearOk t.SCTS ∧ YearOk t.DT ∧ (PI.UDL t.PI = true → UdKept t)) ∧
  (t.SmsType = SmsCommand → t.UDHI = true → t.UDH = [] ∧ t.UD = [])

instance (t : GoTime) : Decidable (YearOk t) := by unfold YearOk; infer_instance
instance (v : ValidityPeriod) : Decidable (VpKept v) := by unfold VpKept; infer_instance
instance (t : TPDU) : Decidable (UdKept t) := by unfold UdKept; infer_instance
instance (t : TPDU) : Decidable (Kept t) := by unfold Kept; infer_instance

end Verif.Spec
