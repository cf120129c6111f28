import Verif.Model.Prelude

/-! The errors that the decoding of a TPDU may report: the fields of each type and what can be wrong with them. -/

namespace Verif.Spec
open Verif.Model

/-- What can be wrong with a field. -/
inductive Cause where
  /-- it goes beyond the end -/
  | short
  /-- it does not go to the end, or has something in its padding -/
  | long
  /-- an unknown data coding or format -/
  | unknown
  /-- an octet that is to be zero is not -/
  | nonZero
  /-- UCS-2 of an odd number of octets -/
  | odd
  /-- an octet that is not two decimal digits -/
  | digits
  /-- an escaped septet in an alphanumeric address -/
  | septet
  /-- one digit too many in an address -/
  | fill
  deriving DecidableEq

/-- The error that reports it. -/
def Cause.Is : Cause → Err → Prop
  | .short, e => e = .underflow
  | .long, e => e = .overlength
  | .unknown, e => e = .invalid
  | .nonZero, e => e = .nonZero
  | .odd, e => e = .oddUCS2Length
  | .digits, e => ∃ b : UInt8, e = .bcdInvalidOctet b ∧ (9 < b.toNat / 16 ∨ 9 < b.toNat % 16)
  | .septet, e => ∃ g : UInt8, e = .gsm7InvalidSeptet g ∧ g < 0x80 ∧ g ≠ 0x1b
  | .fill, e => e = .semiMissingFill

/-- An octet. -/
def octet (f : String) : List (String × Cause) := [(f, .short)]

/-- A time stamp. -/
def stamp (f : String) : List (String × Cause) := [(f, .short), (f, .digits)]

/-- User data, with or without a header (`udhi`), in any data coding (`coded`) or in octets only. -/
def userData (coded udhi : Bool) : List (String × Cause) :=
  [("ud.udl", .short), ("ud.sm", .short), ("ud.ud", .long)] ++
  (if coded then [("ud.alphabet", .unknown), ("ud.sm", .long), ("ud.sm", .odd)] else []) ++
  (if udhi then [("ud.udh.ie", .short), ("ud.udh.ied", .short)] else [])

/-- A validity period of the format `vpf`. -/
def validity (vpf : Nat) : List (String × Cause) :=
  if vpf = 0 then []
  else if vpf = 1 then [("vp", .short), ("vp.enhanced", .unknown), ("vp.enhanced", .nonZero), ("vp.enhanced", .digits)]
  else if vpf = 2 then [("vp", .short)]
  else [("vp", .short), ("vp", .digits)]

/-- The failures of each type of TPDU, by the header indicator and the validity period format of its first octet. -/
def failures (name : String) (udhi : Bool) (vpf : Nat) : List (String × Cause) :=
  if name = "SmsDeliver" then
    [("oa.addr", .short), ("oa.addr", .fill), ("oa.addr", .septet)] ++ octet "pid" ++ octet "dcs" ++ stamp "scts" ++ userData true udhi
  else if name = "SmsDeliverReport" then
    octet "fcs" ++ octet "pi" ++ octet "pid" ++ octet "dcs" ++ userData true udhi
  else if name = "SmsSubmit" then
    octet "mr" ++ [("da.addr", .short), ("da.addr", .fill), ("da.addr", .septet)] ++ octet "pid" ++ octet "dcs" ++ validity vpf ++
      userData true udhi
  else if name = "SmsSubmitReport" then
    octet "fcs" ++ octet "pi" ++ stamp "scts" ++ octet "pid" ++ octet "dcs" ++ userData true udhi
  else if name = "SmsStatusReport" then
    octet "mr" ++ [("ra.addr", .short), ("ra.addr", .fill), ("ra.addr", .septet)] ++ stamp "scts" ++ stamp "dt" ++ octet "st" ++
      octet "pid" ++ octet "dcs" ++ userData true udhi
  else if name = "SmsCommand" then
    octet "mr" ++ octet "pid" ++ octet "ct" ++ octet "mn" ++ [("da.addr", .short), ("da.addr", .fill), ("da.addr", .septet)] ++
      userData false udhi
  else []

end Verif.Spec
