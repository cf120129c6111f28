import Verif.Model.Tpdu
import Verif.Spec.Alphabet
import Verif.Spec.Bits
import Verif.Spec.Digits

/-! The octets of a TPDU as 3GPP TS 23.040 lays them out (9.1.2, 9.2.2, 9.2.3), as relations between the fields
and the octets that represent them. -/

namespace Verif.Spec
open Verif.Model

/-- 9.1.2.3: two decimal digits in an octet, the first one in the low half. -/
def twoDigits (n : Nat) : UInt8 := UInt8.ofNat (16 * (n % 10) + n / 10)

/-- 9.1.2.5: the number of useful semi-octets, the type of address, and the address value.  A number is digits,
filled up with 1111; an alphanumeric address (type of number 101) is septets of the default alphabet. -/
def AddrWire (a : Address) (p : List UInt8) : Prop :=
  ∃ (n : UInt8) (body : List UInt8), p = n :: a.TOA :: body ∧
    if a.TOA.toNat / 16 % 8 = 5 then
      ∃ g, Septets g ∧ g.map (fun s => Alphabet.locking 0 s.toNat) = (Unicode.decodeRunes a.Addr).map some ∧
        n.toNat = (7 * g.length + 3) / 4 ∧ ∃ k < 8, octetBits body = septetBits g ++ List.replicate k false
    else
      n.toNat = a.Addr.length ∧
        body.flatMap nibbles = a.Addr.map digitCode ++ (if a.Addr.length % 2 = 1 then [15] else [])

/-- 9.2.3.11: year, month, day, hour, minute, second, and the quarters of an hour the local time is ahead of
GMT, with a sign in bit 3. -/
def TimeWire (t : GoTime) (p : List UInt8) : Prop :=
  p = [twoDigits (t.Year % 100).toNat, twoDigits t.Month.toNat, twoDigits t.Day.toNat, twoDigits t.Hour.toNat,
    twoDigits t.Minute.toNat, twoDigits t.Second.toNat,
    UInt8.ofNat (16 * (t.off.natAbs / 900 % 10) + (if t.off ≤ -900 then 8 else 0) + t.off.natAbs / 900 / 10)]

/-- 9.2.3.12.1: the minutes that an octet of the relative format stands for. -/
def relativeMinutes (c : Nat) : Int :=
  if c ≤ 143 then 5 * (c + 1)
  else if c ≤ 167 then 12 * 60 + 30 * (c - 143)
  else if c ≤ 196 then 24 * 60 * (c - 166)
  else 7 * 24 * 60 * (c - 192)

/-- The octet stands for the longest period of the scale that is not longer than `d`. -/
def RelativeWire (d : Int) (c : UInt8) : Prop :=
  relativeMinutes c.toNat * minute ≤ d ∧ ∀ c' < 256, relativeMinutes c' * minute ≤ d → relativeMinutes c' ≤ relativeMinutes c.toNat

/-- 9.2.3.12: nothing, an octet, a time stamp, or seven octets of the enhanced format, of which those not used
are zero. -/
def VpWire (v : ValidityPeriod) (p : List UInt8) : Prop :=
  (v.Format = 0 ∧ p = []) ∨
  (v.Format = 2 ∧ ∃ c, RelativeWire v.Duration c ∧ p = [c]) ∨
  (v.Format = 3 ∧ TimeWire v.Time p) ∨
  (v.Format = 1 ∧ v.EFI.toNat % 8 = 0 ∧ p = [v.EFI, 0, 0, 0, 0, 0, 0]) ∨
  (v.Format = 1 ∧ v.EFI.toNat % 8 = 1 ∧ ∃ c, RelativeWire v.Duration c ∧ p = [v.EFI, c, 0, 0, 0, 0, 0]) ∨
  (v.Format = 1 ∧ v.EFI.toNat % 8 = 2 ∧ p = [v.EFI, UInt8.ofNat (min (v.Duration / second).toNat 255), 0, 0, 0, 0, 0]) ∨
  (v.Format = 1 ∧ v.EFI.toNat % 8 = 3 ∧ p = [v.EFI, twoDigits (v.Duration / hour).toNat,
    twoDigits (v.Duration / minute % 60).toNat, twoDigits (v.Duration / second % 60).toNat, 0, 0, 0])

/-- 9.2.3.24: the octets of the header: its length, then identifier, length and data of each element. -/
def hdrWire (udh : List IE) : List UInt8 :=
  if udh = [] then []
  else UInt8.ofNat (udh.map fun ie => 2 + ie.Data.length).sum ::
    (udh.map fun ie => ie.ID :: UInt8.ofNat ie.Data.length :: ie.Data).flatten

/-- 9.2.3.16, 9.2.3.24: the length, the header and the user data.  Septets begin at a septet boundary counted from
the beginning of the header, and the length counts septets; otherwise it counts octets. -/
def UdWire (t : TPDU) (p : List UInt8) : Prop :=
  ∃ (udl : UInt8) (o : List UInt8), p = udl :: o ∧
    if t.Alphabet.1 = .a7Bit then
      ∃ fill < 7, ∃ k < 8, (8 * (hdrWire t.UDH).length + fill) % 7 = 0 ∧
        udl.toNat = (8 * (hdrWire t.UDH).length + fill) / 7 + t.UD.length ∧
        octetBits o = octetBits (hdrWire t.UDH) ++ List.replicate fill false ++ septetBits t.UD ++ List.replicate k false
    else udl.toNat = o.length ∧ o = hdrWire t.UDH ++ t.UD

/-- 9.2.3.27: the octets that the parameter indicator announces in bits 0, 1 and 2. -/
def OptWire (t : TPDU) (p : List UInt8) : Prop :=
  ∃ ud, (if t.PI.toNat.testBit 2 then UdWire t ud else ud = []) ∧
    p = (if t.PI.toNat.testBit 0 then [t.PID] else []) ++ (if t.PI.toNat.testBit 1 then [t.DCS] else []) ++ ud

/-- 9.2.2.1 to 9.2.2.4: the order of the fields of each type.  The type follows from the direction (0 to the
mobile, 1 from it) and the low two bits of the first octet.  The failure cause is there in the reports that have
one, and the parameter indicator of a status report when something follows it. -/
def Wire (t : TPDU) (p : List UInt8) : Prop :=
  -- SMS-DELIVER
  (t.Direction = 0 ∧ t.FirstOctet.toNat % 4 = 0 ∧ ∃ oa ts ud, AddrWire t.OA oa ∧ TimeWire t.SCTS ts ∧ UdWire t ud ∧
    p = [t.FirstOctet] ++ oa ++ [t.PID] ++ [t.DCS] ++ ts ++ ud) ∨
  -- SMS-DELIVER-REPORT
  (t.Direction = 1 ∧ t.FirstOctet.toNat % 4 = 0 ∧ ∃ opt, OptWire t opt ∧
    p = [t.FirstOctet] ++ (if t.FCS = 0 then [] else [t.FCS]) ++ [t.PI] ++ opt) ∨
  -- SMS-SUBMIT
  (t.Direction = 1 ∧ t.FirstOctet.toNat % 4 = 1 ∧ ∃ da vp ud, AddrWire t.DA da ∧ VpWire t.VP vp ∧ UdWire t ud ∧
    p = [t.FirstOctet] ++ [t.MR] ++ da ++ [t.PID] ++ [t.DCS] ++ vp ++ ud) ∨
  -- SMS-SUBMIT-REPORT
  (t.Direction = 0 ∧ t.FirstOctet.toNat % 4 = 1 ∧ ∃ ts opt, TimeWire t.SCTS ts ∧ OptWire t opt ∧
    p = [t.FirstOctet] ++ (if t.FCS = 0 then [] else [t.FCS]) ++ [t.PI] ++ ts ++ opt) ∨
  -- SMS-STATUS-REPORT
  (t.Direction = 0 ∧ t.FirstOctet.toNat % 4 = 2 ∧ ∃ ra ts dt opt, AddrWire t.RA ra ∧ TimeWire t.SCTS ts ∧
    TimeWire t.DT dt ∧ (if t.PI = 0 then opt = [] else ∃ o, OptWire t o ∧ opt = t.PI :: o) ∧
    p = [t.FirstOctet] ++ [t.MR] ++ ra ++ ts ++ dt ++ [t.ST] ++ opt) ∨
  -- SMS-COMMAND
  (t.Direction = 1 ∧ t.FirstOctet.toNat % 4 = 2 ∧ ∃ (da : List UInt8) (cdl : UInt8), AddrWire t.DA da ∧ cdl.toNat = (hdrWire t.UDH ++ t.UD).length ∧
    p = [t.FirstOctet] ++ [t.MR] ++ [t.PID] ++ [t.CT] ++ [t.MN] ++ da ++ [cdl] ++ hdrWire t.UDH ++ t.UD)

/-! What has to be so that the fields fit the octets for them. -/

/-- Not more digits, or septets, than the length octet can count. -/
def AddrFits (a : Address) : Prop :=
  if a.TOA.toNat / 16 % 8 = 5 then (Unicode.decodeRunes a.Addr).length ≤ 145 else a.Addr.length ≤ 255

/-- A period of at least ten minutes on the relative scale; not negative; less than 100 hours. -/
def VpFits (v : ValidityPeriod) : Prop :=
  (v.Format = 2 → 10 * minute ≤ v.Duration) ∧
  (v.Format = 1 → v.EFI.toNat % 8 = 1 → 10 * minute ≤ v.Duration) ∧
  (v.Format = 1 → v.EFI.toNat % 8 = 2 → 0 ≤ v.Duration) ∧
  (v.Format = 1 → v.EFI.toNat % 8 = 3 → 0 ≤ v.Duration ∧ v.Duration < 100 * hour)

/-- A length that its octet can count, septets where septets are packed, and no header alone that does not end at
a septet boundary. -/
def UdFits (t : TPDU) : Prop :=
  if t.Alphabet.1 = .a7Bit then
    Septets t.UD ∧ t.UD.length + (8 * (hdrWire t.UDH).length + 6) / 7 ≤ 255 ∧ (t.UD = [] → (hdrWire t.UDH).length % 7 = 0)
  else (hdrWire t.UDH).length + t.UD.length ≤ 255

/-- All that for the fields each type has.  A command has no header. -/
def Fits (t : TPDU) : Prop :=
  (t.SmsType = SmsDeliver → AddrFits t.OA ∧ UdFits t) ∧
  (t.SmsType = SmsDeliverReport → t.PI.toNat.testBit 2 = true → UdFits t) ∧
  (t.SmsType = SmsSubmitReport → t.PI.toNat.testBit 2 = true → UdFits t) ∧
  (t.SmsType = SmsSubmit → AddrFits t.DA ∧ VpFits t.VP ∧ UdFits t) ∧
  (t.SmsType = SmsStatusReport → AddrFits t.RA ∧ (t.PI.toNat.testBit 2 = true → UdFits t)) ∧
  (t.SmsType = SmsCommand → AddrFits t.DA ∧ t.UDH = [] ∧ t.UD.length ≤ 255)

end Verif.Spec
