import Verif.Spec.WellFormed

/-! Which TPDUs have a representation in octets.  -/

namespace Verif.Spec
open Verif.Model

/-- The fields of an SMS-SUBMIT can be written: an address, a period of validity in the format that the first octet
names, and user data. -/
def SubmitOk (t : TPDU) : Prop := AddrOk t.DA ∧ VpOk t.VP ∧ FirstOctet.VPF t.FirstOctet = t.VP.Format ∧ UdOk t

/-- Those of an SMS-DELIVER. -/
def DeliverOk (t : TPDU) : Prop := AddrOk t.OA ∧ TimeOk t.SCTS ∧ UdOk t

/-- Those of an SMS-STATUS-REPORT. -/
def StatusOk (t : TPDU) : Prop := AddrOk t.RA ∧ TimeOk t.SCTS ∧ TimeOk t.DT ∧ OptOk t

/-- Those of an SMS-DELIVER-REPORT: there must be a failure cause. -/
def DeliverReportOk (t : TPDU) : Prop := t.FCS ≠ 0 ∧ OptOk t

/-- Those of an SMS-SUBMIT-REPORT. -/
def SubmitReportOk (t : TPDU) : Prop := t.FCS ≠ 0 ∧ TimeOk t.SCTS ∧ OptOk t

/-- Those of an SMS-COMMAND: there must be no header, and none announced unless there is no command data either. -/
def CommandOk (t : TPDU) : Prop := AddrOk t.DA ∧ t.UDH = [] ∧ (t.UDHI = false ∨ t.UD = []) ∧ t.UD.length ≤ 255

/-- The TPDU has only fields of its type set, and they can be written. -/
def Writable (t : TPDU) : Prop :=
  (FirstOctet.MTI t.FirstOctet = 0 ∧ DeliverOk t ∧
    t = { Direction := MT, FirstOctet := t.FirstOctet, OA := t.OA, PID := t.PID, DCS := t.DCS, SCTS := t.SCTS,
          UDH := t.UDH, UD := t.UD }) ∨
  (FirstOctet.MTI t.FirstOctet = 1 ∧ SubmitOk t ∧
    t = { Direction := MO, FirstOctet := t.FirstOctet, MR := t.MR, DA := t.DA, PID := t.PID, DCS := t.DCS, VP := t.VP,
          UDH := t.UDH, UD := t.UD }) ∨
  (FirstOctet.MTI t.FirstOctet = 2 ∧ StatusOk t ∧
    t = { Direction := MT, FirstOctet := t.FirstOctet, MR := t.MR, RA := t.RA, SCTS := t.SCTS, DT := t.DT, ST := t.ST,
          PI := t.PI, PID := if PI.PID t.PI then t.PID else 0, DCS := if PI.DCS t.PI then t.DCS else 0,
          UDH := if PI.UDL t.PI then t.UDH else [], UD := if PI.UDL t.PI then t.UD else [] }) ∨
  (FirstOctet.MTI t.FirstOctet = 0 ∧ DeliverReportOk t ∧
    t = { Direction := MO, FirstOctet := t.FirstOctet, FCS := t.FCS,
          PI := t.PI, PID := if PI.PID t.PI then t.PID else 0, DCS := if PI.DCS t.PI then t.DCS else 0,
          UDH := if PI.UDL t.PI then t.UDH else [], UD := if PI.UDL t.PI then t.UD else [] }) ∨
  (FirstOctet.MTI t.FirstOctet = 1 ∧ SubmitReportOk t ∧
    t = { Direction := MT, FirstOctet := t.FirstOctet, FCS := t.FCS, SCTS := t.SCTS,
          PI := t.PI, PID := if PI.PID t.PI then t.PID else 0, DCS := if PI.DCS t.PI then t.DCS else 0,
          UDH := if PI.UDL t.PI then t.UDH else [], UD := if PI.UDL t.PI then t.UD else [] }) ∨
  (FirstOctet.MTI t.FirstOctet = 2 ∧ CommandOk t ∧
    t = { Direction := MO, FirstOctet := t.FirstOctet, MR := t.MR, PID := t.PID, CT := t.CT, MN := t.MN, DA := t.DA,
          DCS := 4, UDH := t.UDH, UD := t.UD })

end Verif.Spec
