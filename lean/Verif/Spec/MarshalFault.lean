import Verif.Spec.Encodable

/-! What is wrong with a TPDU that has no encoding: the first field that cannot be encoded, and what it holds that cannot. -/

namespace Verif.Spec
open Verif.Model

/-- The first character of an alphanumeric address that is not of the default alphabet, the first octet of another that is not
a digit. -/
def addrFault (a : Address) : Option Err :=
  if a.TypeOfNumber = 5 then
    ((Unicode.decodeRunes a.Addr).find? fun r => (Charset.NewDecoder 0).all fun p => p.2 ≠ r).map .gsm7InvalidUTF8
  else (a.Addr.find? fun d => d ∉ digitChars).map .semiInvalidDigit

/-- The last two digits of a year before year 0, unless they are 00; or quarters of hours of a zone of 20 hours or more. -/
def timeFault (t : GoTime) : Option Err :=
  if t.Year < 0 ∧ t.Year % 100 ≠ 0 then some (.bcdInvalidInteger (-(-t.Year % 100)))
  else if 20 * 3600 ≤ t.off then some (.bcdInvalidInteger (t.off / 900))
  else if t.off ≤ -(20 * 3600) then some (.bcdInvalidInteger (-(-t.off / 900)))
  else none

/-- The first of the hours, the minutes and the seconds of a negative duration, as package time computes them, that is not zero. -/
def hmsFault (d : Int) : Option Err :=
  if d < 0 then
    [Float.whole (-d) hour % 100, Float.whole (-d) minute % 60, Float.whole (-d) second % 60].find? (· ≠ 0) |>.map fun n => .bcdInvalidInteger (-n)
  else none

/-- An absolute period with such a time, an enhanced one of an unknown kind or with such a duration, or an unknown format. -/
def vpFault (v : ValidityPeriod) : Option (String × Err) :=
  if v.Format = VpfNotPresent ∨ v.Format = VpfRelative then none
  else if v.Format = VpfAbsolute then (timeFault v.Time).map fun e => ("vp", e)
  else if v.Format = VpfEnhanced then
    if 3 < v.EFI.toNat % 8 then some ("vp.fi", .invalid)
    else if v.EFI.toNat % 8 = 3 then (hmsFault v.Duration).map fun e => ("vp.enhanced", e)
    else none
  else some ("vp.vpf", .invalid)

/-- A reserved coding group (10xx), or UCS-2 of an odd number of octets. -/
def udFault (t : TPDU) : Option (String × Err) :=
  if 8 ≤ t.DCS.toNat / 16 ∧ t.DCS.toNat / 16 ≤ 11 then some ("ud.alphabet", .invalid)
  else if t.Alphabet.1 = .ucs2 ∧ t.UD.length % 2 = 1 then some ("ud.sm", .oddUCS2Length)
  else none

/-- User data that bit 2 of the parameter indicator announces. -/
def optFault (t : TPDU) : Option (String × Err) := if t.PI.toNat.testBit 2 then udFault t else none

/-- The address in the field `f`. -/
def addrIn (f : String) (a : Address) : Option (String × Err) := (addrFault a).map fun e => (f ++ ".addr", e)

/-- The time in the field `f`. -/
def timeIn (f : String) (t : GoTime) : Option (String × Err) := (timeFault t).map fun e => (f, e)

/-- The first fault of a TPDU of the type of that name.  The user data of an SMS-SUBMIT comes before its validity period. -/
def fault (name : String) (t : TPDU) : Option (String × Err) :=
  if name = "SmsDeliver" then addrIn "oa" t.OA <|> timeIn "scts" t.SCTS <|> udFault t
  else if name = "SmsDeliverReport" then optFault t
  else if name = "SmsSubmitReport" then timeIn "scts" t.SCTS <|> optFault t
  else if name = "SmsSubmit" then addrIn "da" t.DA <|> udFault t <|> vpFault t.VP
  else if name = "SmsStatusReport" then addrIn "ra" t.RA <|> timeIn "scts" t.SCTS <|> timeIn "dt" t.DT <|> optFault t
  else if name = "SmsCommand" then addrIn "da" t.DA
  else none

/-- The names of the six types. -/
def typeNames : List (UInt8 × String) :=
  [(SmsDeliver, "SmsDeliver"), (SmsDeliverReport, "SmsDeliverReport"), (SmsSubmitReport, "SmsSubmitReport"), (SmsSubmit, "SmsSubmit"),
   (SmsStatusReport, "SmsStatusReport"), (SmsCommand, "SmsCommand")]

end Verif.Spec
