import Verif.Model.Tpdu

/-! Building a TPDU with the options of `New` and the setters. -/

namespace Verif.Spec.Build
open Verif.Model

/-- One thing done to a TPDU under construction. -/
inductive Op where
  /-- an option given to `New`, `NewSubmit` or `NewDeliver` -/
  | option (o : TpduOption)
  | setDCS (d : UInt8)
  | setPID (p : UInt8)
  | setVP (v : ValidityPeriod)
  /-- `none` is nil -/
  | setUD (u : Option Bytes)
  /-- `none` is nil -/
  | setUDH (u : Option UDH)
  | setSmsType (st : Int)
  /-- assigning those of the fields that nothing announces from another TPDU -/
  | fields (u : TPDU)

/-- Doing it. -/
def Op.run (t : TPDU) : Op → M TPDU
  | .option o => o.apply t
  | .setDCS d => .ok (t.SetDCS d)
  | .setPID p => .ok (t.SetPID p)
  | .setVP v => .ok (t.SetVP v)
  | .setUD u => .ok (t.SetUD u)
  | .setUDH u => .ok (t.SetUDH u)
  | .setSmsType st => t.SetSmsType st
  | .fields u => .ok { t with
      OA := u.OA, DA := u.DA, RA := u.RA, FCS := u.FCS, MR := u.MR, CT := u.CT, MN := u.MN, SCTS := u.SCTS, DT := u.DT,
      ST := u.ST }

/-- `New` with the options and then the other things, in this order. -/
def build (options : List TpduOption) (ops : List Op) : M TPDU := do
  let t ← TPDU.New options
  ops.foldlM Op.run t

/-- All that is done. -/
def all (options : List TpduOption) (ops : List Op) : List Op := options.map .option ++ ops

/-- The last of what `f` finds in the things done. -/
def last {α : Type} (f : Op → Option α) (ops : List Op) : Option α := (ops.filterMap f).getLast?

/-- The header given. -/
def header : Op → Option UDH
  | .option (.udh u) => some u
  | .setUDH u => some (u.getD [])
  | _ => none

/-- Whether `SetUDH` was given a header. -/
def headerFlag : Op → Option Bool
  | .setUDH u => some u.isSome
  | _ => none

/-- The user data given. -/
def userData : Op → Option Bytes
  | .setUD u => some (u.getD [])
  | _ => none

/-- Whether there is user data or a header, according to the setters. -/
def dataFlag : Op → Option Bool
  | .setUD u => some u.isSome
  | .setUDH (some _) => some true
  | _ => none

/-- The data coding scheme given. -/
def dcs : Op → Option UInt8
  | .option (.dcs d) => some d
  | .setDCS d => some d
  | _ => none

/-- The protocol identifier given. -/
def pid : Op → Option UInt8
  | .setPID p => some p
  | _ => none

/-- The validity period given. -/
def vp : Op → Option ValidityPeriod
  | .setVP v => some v
  | _ => none

/-- The message type indicator given: the upper bits of a type. -/
def mti : Op → Option Nat
  | .option (.messageType m) => some m.toNat
  | .option (.smsType st) => some (st / 2).toNat
  | .setSmsType st => some (st / 2).toNat
  | _ => none

/-- The direction given: the lowest bit of a type. -/
def direction : Op → Option Int
  | .option (.direction d) => some d
  | .option (.smsType st) => some (st % 2)
  | .setSmsType st => some (st % 2)
  | _ => none

/-- The types given. -/
def types : Op → Option Int
  | .option (.smsType st) => some st
  | .setSmsType st => some st
  | _ => none

/-- Whether a message type option is one of the four there are. -/
def MtiOk : Op → Prop
  | .option (.messageType m) => m < 4
  | _ => True

/-- A validity period of one of the four formats. -/
def VpfOk : Op → Prop
  | .setVP v => v.Format < 4
  | _ => True

instance (o : Op) : Decidable (MtiOk o) := by unfold MtiOk; split <;> infer_instance
instance (o : Op) : Decidable (VpfOk o) := by unfold VpfOk; split <;> infer_instance

/-- What the TPDU has after the things done: of each field, the last value given. -/
structure Has (ops : List Op) (t : TPDU) : Prop where
  udh : t.UDH = (last header ops).getD []
  udhi : t.UDHI = (last headerFlag ops).getD false
  ud : t.UD = (last userData ops).getD []
  udl : PI.UDL t.PI = (last dataFlag ops).getD false
  dcs : t.DCS = (last dcs ops).getD 0
  piDcs : PI.DCS t.PI = (last Build.dcs ops).isSome
  pid : t.PID = (last pid ops).getD 0
  piPid : PI.PID t.PI = (last Build.pid ops).isSome
  vp : t.VP = (last vp ops).getD {}
  vpf : FirstOctet.VPF t.FirstOctet = t.VP.Format
  mti : (FirstOctet.MTI t.FirstOctet).toNat = (last mti ops).getD 0
  direction : t.Direction = (last Build.direction ops).getD 0
  /-- the bits of PI and of the first octet that stand for something else are 0 -/
  others : t.PI < 8 ∧ t.FirstOctet &&& 0xa4 = 0

/-- The originator given. -/
def oa : Op → Option Address
  | .option (.oa a) => some a
  | .fields u => some u.OA
  | _ => none

/-- The recipient given. -/
def da : Op → Option Address
  | .option (.da a) => some a
  | .fields u => some u.DA
  | _ => none

/-- The TPDU from which the fields were assigned that no option and no setter concerns. -/
def assigned : Op → Option TPDU
  | .fields u => some u
  | _ => none

/-- The fields that nothing announces: the last value given, at first an address without number, a zero time or 0. -/
structure HasFields (ops : List Op) (t : TPDU) : Prop where
  oa : t.OA = (last oa ops).getD ⟨0x80, []⟩
  da : t.DA = (last da ops).getD ⟨0x80, []⟩
  rest : ∃ u, u = (last assigned ops).getD { RA := ⟨0x80, []⟩ } ∧ t.RA = u.RA ∧ t.FCS = u.FCS ∧ t.MR = u.MR ∧ t.CT = u.CT ∧
    t.MN = u.MN ∧ t.SCTS = u.SCTS ∧ t.DT = u.DT ∧ t.ST = u.ST

end Verif.Spec.Build
