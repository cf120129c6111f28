import Verif.Model.Tpdu

/-! Small spec for C98: the fields of a TPDU in the order in which they are on the wire. -/

namespace Verif.Spec
open Verif.Model

/-- The fields after the first octet. -/
inductive Field where
  | mr | oa | da | ra | pid | dcs | scts | dt | st | fcs | pi | ct | mn | vp | ud
  deriving DecidableEq, Repr

/-- The name of the field in errors. -/
def Field.name : Field → String
  | .mr => "mr" | .oa => "oa" | .da => "da" | .ra => "ra" | .pid => "pid" | .dcs => "dcs" | .scts => "scts" | .dt => "dt"
  | .st => "st" | .fcs => "fcs" | .pi => "pi" | .ct => "ct" | .mn => "mn" | .vp => "vp" | .ud => "ud"

/-- The fields of each type, TS 23.040, 9.2.2.  A command has no DCS on the wire: it is given that of octets, before
the user data are read. -/
def fieldsOf (st : UInt8) : List Field :=
  if st = SmsDeliver then [.oa, .pid, .dcs, .scts, .ud]
  else if st = SmsDeliverReport then [.fcs, .pi, .pid, .dcs, .ud]
  else if st = SmsSubmitReport then [.fcs, .pi, .scts, .pid, .dcs, .ud]
  else if st = SmsSubmit then [.mr, .da, .pid, .dcs, .vp, .ud]
  else if st = SmsStatusReport then [.mr, .ra, .scts, .dt, .st, .pi, .pid, .dcs, .ud]
  else if st = SmsCommand then [.mr, .pid, .ct, .mn, .da, .dcs, .ud]
  else []

/-- The TPDUs have the same in the field. -/
def Agree (f : Field) (a b : TPDU) : Prop := match f with
  | .mr => a.MR = b.MR | .oa => a.OA = b.OA | .da => a.DA = b.DA | .ra => a.RA = b.RA | .pid => a.PID = b.PID
  | .dcs => a.DCS = b.DCS | .scts => a.SCTS = b.SCTS | .dt => a.DT = b.DT | .st => a.ST = b.ST | .fcs => a.FCS = b.FCS
  | .pi => a.PI = b.PI | .ct => a.CT = b.CT | .mn => a.MN = b.MN | .vp => a.VP = b.VP
  | .ud => a.UDH = b.UDH ∧ a.UD = b.UD

instance (f : Field) (a b : TPDU) : Decidable (Agree f a b) := by cases f <;> unfold Agree <;> infer_instance

/-- What becomes of the field in which decoding fails: most are as before, but single octets that are read from a
buffer become 0, and a validity period loses its format. -/
def AtFault (st : UInt8) (k : Field) (before after : TPDU) : Prop :=
  if st = SmsCommand ∧ k = .mr then after.MR = 0
  else if st = SmsCommand ∧ k = .ct then after.CT = 0
  else if st = SmsCommand ∧ k = .mn then after.MN = 0
  else if (st = SmsCommand ∨ st = SmsDeliver) ∧ k = .pid then after.PID = 0
  else if k = .vp then after.VP = { before.VP with Format := VpfNotPresent }
  else Agree k after before

end Verif.Spec
