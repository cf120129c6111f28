import Verif.Model.Tpdu

/-! How many octets a TPDU takes, field by field (3GPP TS 23.040 9.2.2), and how many it may take. -/

namespace Verif.Spec.Size
open Verif.Model

/-- 9.1.2.5: a length, a type, and two digits to the octet; or, for an alphanumeric address, characters of 7 bits. -/
def addr (a : Address) : Nat :=
  2 + if a.TOA.toNat / 16 % 8 = 5 then (7 * (Unicode.decodeRunes a.Addr).length + 7) / 8 else (a.Addr.length + 1) / 2

/-- 9.2.3.12: nothing, one octet or seven. -/
def period (v : ValidityPeriod) : Nat := if v.Format = 0 then 0 else if v.Format = 2 then 1 else 7

/-- 9.2.3.24: a length, and an identifier, a length and the data of each element. -/
def header (udh : List IE) : Nat := if udh = [] then 0 else 1 + (udh.map fun ie => 2 + ie.Data.length).sum

/-- The length, the header and the user data.  Septets begin at a septet boundary counted from the beginning of the
header, of which there are `(8 * header + 6) / 7` septets. -/
def userData (t : TPDU) : Nat :=
  1 + if t.Alphabet.1 = .a7Bit ∧ t.UD ≠ [] then (7 * ((8 * header t.UDH + 6) / 7 + t.UD.length) + 7) / 8
    else header t.UDH + t.UD.length

/-- 9.2.3.27: what bits 0, 1 and 2 of the parameter indicator announce. -/
def optional (t : TPDU) : Nat :=
  (if t.PI.toNat.testBit 0 then 1 else 0) + (if t.PI.toNat.testBit 1 then 1 else 0) + (if t.PI.toNat.testBit 2 then userData t else 0)

/-- The failure cause, in the reports that have one. -/
def cause (t : TPDU) : Nat := if t.FCS = 0 then 0 else 1

/-- The octets of the address there is in a TPDU of the type. -/
def address (t : TPDU) : Nat :=
  if t.SmsType = SmsDeliver then addr t.OA
  else if t.SmsType = SmsStatusReport then addr t.RA
  else if t.SmsType = SmsSubmit ∨ t.SmsType = SmsCommand then addr t.DA
  else 0

/-- All octets. -/
def tpdu (t : TPDU) : Nat :=
  if t.SmsType = SmsDeliver then 1 + address t + 1 + 1 + 7 + userData t
  else if t.SmsType = SmsDeliverReport then 1 + cause t + 1 + optional t
  else if t.SmsType = SmsSubmitReport then 1 + cause t + 1 + 7 + optional t
  else if t.SmsType = SmsSubmit then 1 + 1 + address t + 1 + 1 + period t.VP + userData t
  else if t.SmsType = SmsStatusReport then 1 + 1 + address t + 7 + 7 + 1 + (if t.PI = 0 then 0 else 1 + optional t)
  else 1 + 1 + 1 + 1 + 1 + address t + 1 + t.UD.length

/-- 9.2.2 leaves 140 octets for the user data of an SMS-DELIVER and an SMS-SUBMIT, which with all other fields at their
longest makes 163 and 164 octets.  The other types have what is left of 164 octets. -/
def limit (t : TPDU) : Nat := if t.SmsType = SmsDeliver then 163 else 164

/-- All the fields there can be are there, at their longest but for the user data: an address of 12 octets, a validity
period of 7, and in a report all that the parameter indicator can announce. -/
def Full (t : TPDU) : Prop :=
  (address t = 0 ∨ address t = 12) ∧ (t.SmsType = SmsSubmit → period t.VP = 7) ∧
  (t.SmsType = SmsDeliverReport ∨ t.SmsType = SmsSubmitReport ∨ t.SmsType = SmsStatusReport →
    t.PI.toNat.testBit 0 = true ∧ t.PI.toNat.testBit 1 = true ∧ t.PI.toNat.testBit 2 = true)

end Verif.Spec.Size
