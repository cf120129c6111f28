import Verif.Model.Tpdu

/-! What the decoding of a TPDU writes and what it leaves as it was. -/

namespace Verif.Spec
open Verif.Model

/-- The number of octets of the address whose length is at offset `i`. -/
def addrOctets (src : List UInt8) (i : Nat) : Nat := 2 + ((src.getD i 0).toNat + 1) / 2

/-- The number of octets of the validity period, by the format in the first octet. -/
def vpOctets (fo : UInt8) : Nat := [0, 7, 1, 7].getD (fo.toNat / 8 % 4) 0

/-- Where the parameter indicator of a report is. -/
def piOffset (st : UInt8) (src : List UInt8) : Nat := if st = SmsStatusReport then 2 + addrOctets src 2 + 7 + 7 + 1 else 2

/-- The parameter indicator of a report, if there is one. -/
def piOf (st : UInt8) (src : List UInt8) : Option UInt8 := src[piOffset st src]?

/-- The bit `n` of the parameter indicator. -/
def announced (st : UInt8) (src : List UInt8) (n : Nat) : Bool := match piOf st src with
  | some pi => pi.toNat.testBit n
  | none => false

/-- The user data, from its length octet to the end, if the TPDU has any. -/
def udOf (st : UInt8) (src : List UInt8) : Option (List UInt8) :=
  if st = SmsDeliver then some (src.drop (1 + addrOctets src 1 + 2 + 7))
  else if st = SmsSubmit then some (src.drop (2 + addrOctets src 2 + 2 + vpOctets (src.getD 0 0)))
  else if st = SmsCommand then some (src.drop (5 + addrOctets src 5))
  else if announced st src 2 then
    some (src.drop (piOffset st src + 1 + (if st = SmsSubmitReport then 7 else 0) +
      (if announced st src 0 then 1 else 0) + (if announced st src 1 then 1 else 0)))
  else none

/-- A report that has user data but no DCS: the DCS of the receiver says what the user data is. -/
def borrowsDCS (st : UInt8) (src : List UInt8) : Bool :=
  (st = SmsDeliverReport || st = SmsSubmitReport || st = SmsStatusReport) && announced st src 2 && !announced st src 1

/-- User data of length 0 leaves header and text as they were; a header that goes to the end leaves the text. -/
def udInto (u : Option (List UInt8)) (t r : TPDU) : TPDU :=
  match u with
  | none => t
  | some u =>
    if u.getD 0 0 = 0 then t
    else if r.FirstOctet.toNat.testBit 6 = true ∧ u.length = 2 + (u.getD 1 0).toNat then { t with UDH := r.UDH }
    else { t with UDH := r.UDH, UD := r.UD }

/-- Of a validity period the format is written, and what the format uses. -/
def vpInto (v r : ValidityPeriod) : ValidityPeriod :=
  if r.Format = VpfAbsolute then { v with Format := r.Format, Time := r.Time }
  else if r.Format = VpfEnhanced then { v with Format := r.Format, EFI := r.EFI, Duration := r.Duration }
  else if r.Format = VpfRelative then { v with Format := r.Format, Duration := r.Duration }
  else { v with Format := r.Format }

/-- The optional fields of a report. -/
def optInto (st : UInt8) (src : List UInt8) (t r : TPDU) : TPDU :=
  { t with PI := if (piOf st src).isSome then r.PI else t.PI,
           PID := if announced st src 0 then r.PID else t.PID,
           DCS := if announced st src 1 then r.DCS else t.DCS }

/-- The fields of `r`, which was read from `src`, written into `t`: those that the type has. -/
def into (st : UInt8) (src : List UInt8) (t r : TPDU) : TPDU :=
  udInto (udOf st src) (
    if st = SmsDeliver then { t with FirstOctet := r.FirstOctet, OA := r.OA, PID := r.PID, DCS := r.DCS, SCTS := r.SCTS }
    else if st = SmsSubmit then
      { t with FirstOctet := r.FirstOctet, MR := r.MR, DA := r.DA, PID := r.PID, DCS := r.DCS, VP := vpInto t.VP r.VP }
    else if st = SmsCommand then
      { t with FirstOctet := r.FirstOctet, MR := r.MR, PID := r.PID, CT := r.CT, MN := r.MN, DA := r.DA, DCS := r.DCS }
    else if st = SmsDeliverReport then optInto st src { t with FirstOctet := r.FirstOctet, FCS := r.FCS } r
    else if st = SmsSubmitReport then optInto st src { t with FirstOctet := r.FirstOctet, FCS := r.FCS, SCTS := r.SCTS } r
    else optInto st src { t with FirstOctet := r.FirstOctet, MR := r.MR, RA := r.RA, SCTS := r.SCTS, DT := r.DT, ST := r.ST } r) r

end Verif.Spec
