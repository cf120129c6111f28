import Verif.Model.Print
import Verif.Spec.Hex

/-! The fields that smsdecode shows, each with its label, and how its value is read from text. -/

namespace Verif.Spec
open Verif.Model

/-- `out` is the text of these lines. -/
def Lines (out : Bytes) (ls : List Bytes) : Prop := out = ls.flatMap (· ++ [0x0a]) ∧ ∀ l ∈ ls, (0x0a : UInt8) ∉ l

/-- The number that decimal digits write. -/
def decimalValue (ds : Bytes) : Nat := ds.foldl (fun a d => 10 * a + (d.toNat - 48)) 0

/-- `ds` writes the number, in decimal digits only. -/
def Writes (ds : Bytes) (n : Nat) : Prop := ds ≠ [] ∧ (∀ d ∈ ds, 0x30 ≤ d ∧ d ≤ 0x39) ∧ decimalValue ds = n

/-- The value of a field. -/
inductive Value where
  | flag (b : Bool)
  | decimal (n : Nat)
  | octet (o : UInt8)
  | text (s : Bytes)
  | time (t : GoTime)
  | parameters (p : UInt8)

/-- The text says the value: a flag as a word, a number in decimal, an octet in hexadecimal, perhaps with an
explanation after it, a text as it is, a time by its civil date, time of day and zone (hours and minutes), a
parameter indicator by naming what it announces. -/
def Spells : Value → Bytes → Prop
  | .flag b, v => v = if b then b!"true" else b!"false"
  | .decimal n, v => Writes v n
  | .octet o, v => ∃ x y rest, v = b!"0x" ++ x :: y :: rest ∧ HexText [x, y] [o] ∧ (rest = [] ∨ rest.head? = some 0x20)
  | .text s, v => v = s
  | .time t, v => ∃ y mo d h mi s zh zm, Writes y t.Year.natAbs ∧ Writes mo t.Month.toNat ∧ Writes d t.Day.toNat ∧
      Writes h t.Hour.toNat ∧ Writes mi t.Minute.toNat ∧ Writes s t.Second.toNat ∧ Writes zh (t.off.natAbs / 3600) ∧
      Writes zm (t.off.natAbs / 60 % 60) ∧ zm.length = 2 ∧
      v = (if t.Year < 0 then b!"-" else []) ++ y ++ b!"-" ++ mo ++ b!"-" ++ d ++ b!" " ++ h ++ b!":" ++ mi ++ b!":" ++ s ++ b!" " ++
        (if t.off < 0 then b!"-" else b!"+") ++ zh ++ zm
  | .parameters p, v => v = match decide (p &&& 1 ≠ 0), decide (p &&& 2 ≠ 0), decide (p &&& 4 ≠ 0) with
      | true, true, true => b!"PID|DCS|UDL"
      | true, true, false => b!"PID|DCS"
      | true, false, true => b!"PID|UDL"
      | true, false, false => b!"PID"
      | false, true, true => b!"DCS|UDL"
      | false, true, false => b!"DCS"
      | false, false, true => b!"UDL"
      | false, false, false => if p = 0 then b!"0" else []

/-- The optional fields of a report. -/
def optionalFields (t : TPDU) : List (Bytes × Value) :=
  (if t.PI &&& 1 ≠ 0 then [(b!"TP-PID", .octet t.PID)] else []) ++ (if t.PI &&& 2 ≠ 0 then [(b!"TP-DCS", .octet t.DCS)] else [])

/-- A flag of the first octet. -/
def bit (t : TPDU) (mask : UInt8) : Value := .flag (t.FirstOctet &&& mask ≠ 0)

/-- The fields of a TPDU that have one value, with the label of each (3GPP TS 23.040, 9.2.2). -/
def fields (t : TPDU) : List (Bytes × Value) :=
  if t.SmsType = SmsDeliver then
    [(b!"TPDU", .text b!"SMS-DELIVER"), (b!"TP-MTI", .octet 0), (b!"TP-MMS", bit t 0x04), (b!"TP-LP", bit t 0x08), (b!"TP-RP", bit t 0x80),
      (b!"TP-UDHI", bit t 0x40), (b!"TP-SRI", bit t 0x20), (b!"TP-OA", .text t.OA.Number), (b!"TP-PID", .octet t.PID),
      (b!"TP-DCS", .octet t.DCS), (b!"TP-SCTS", .time t.SCTS)]
  else if t.SmsType = SmsSubmit then
    [(b!"TPDU", .text b!"SMS-SUBMIT"), (b!"TP-MTI", .octet 1), (b!"TP-RD", bit t 0x04), (b!"TP-VPF", .octet (t.FirstOctet >>> 3 &&& 3)),
      (b!"TP-RP", bit t 0x80), (b!"TP-UDHI", bit t 0x40), (b!"TP-SRR", bit t 0x20), (b!"TP-MR", .decimal t.MR.toNat),
      (b!"TP-DA", .text t.DA.Number), (b!"TP-PID", .octet t.PID), (b!"TP-DCS", .octet t.DCS)]
  else if t.SmsType = SmsCommand then
    [(b!"TPDU", .text b!"SMS-COMMAND"), (b!"TP-MTI", .octet 2), (b!"TP-UDHI", bit t 0x40), (b!"TP-SRR", bit t 0x20),
      (b!"TP-MR", .decimal t.MR.toNat), (b!"TP-PID", .octet t.PID), (b!"TP-CT", .octet t.CT), (b!"TP-MN", .decimal t.MN.toNat),
      (b!"TP-DA", .text t.DA.Number), (b!"TP-SCTS", .time t.SCTS), (b!"TP-CDL", .decimal t.UD.length)]
  else if t.SmsType = SmsDeliverReport then
    [(b!"TPDU", .text b!"SMS-DELIVER-REPORT"), (b!"TP-MTI", .octet 0), (b!"TP-UDHI", bit t 0x40), (b!"TP-FCS", .octet t.FCS),
      (b!"TP-PI", .parameters t.PI)] ++ optionalFields t
  else if t.SmsType = SmsSubmitReport then
    [(b!"TPDU", .text b!"SMS-SUBMIT-REPORT"), (b!"TP-MTI", .octet 1), (b!"TP-UDHI", bit t 0x40), (b!"TP-FCS", .octet t.FCS),
      (b!"TP-PI", .parameters t.PI), (b!"TP-SCTS", .time t.SCTS)] ++ optionalFields t
  else
    [(b!"TPDU", .text b!"SMS-STATUS-REPORT"), (b!"TP-MTI", .octet 2), (b!"TP-UDHI", bit t 0x40), (b!"TP-MMS", bit t 0x04),
      (b!"TP-LP", bit t 0x08), (b!"TP-SRQ", bit t 0x20), (b!"TP-MR", .decimal t.MR.toNat), (b!"TP-RA", .text t.RA.Number),
      (b!"TP-SCTS", .time t.SCTS), (b!"TP-DT", .time t.DT), (b!"TP-ST", .octet t.ST), (b!"TP-PI", .parameters t.PI)] ++ optionalFields t

/-- The number of the address of a TPDU: of the originator, the destination or the recipient. -/
def party (t : TPDU) : Bytes :=
  if t.SmsType = SmsDeliver then t.OA.Number
  else if t.SmsType = SmsSubmit ∨ t.SmsType = SmsCommand then t.DA.Number
  else if t.SmsType = SmsStatusReport then t.RA.Number
  else []

/-- In these lines exactly one begins with the label, and says the value. -/
def Shows (ls : List Bytes) (label : Bytes) (x : Value) : Prop :=
  ∃ v, ls.filter ((label ++ b!": ").isPrefixOf ·) = [label ++ b!": " ++ v] ∧ Spells x v

end Verif.Spec
