import Verif.Model.Tpdu
import Verif.Spec.Bits
import Verif.Spec.Digits

/-! What makes the fields of a TPDU representable on the wire. -/

namespace Verif.Spec
open Verif.Model

/-- Representable addresses: at most 255 digits, or an alphanumeric address of at most 145 septets of the
default alphabet without escapes. -/
def AddrOk (a : Address) : Prop :=
  (a.TypeOfNumber ≠ 5 ∧ Digits a.Addr ∧ a.Addr.length ≤ 255) ∨
  (a.TypeOfNumber = 5 ∧ 0x1b ∉ a.Addr ∧
    ∃ g, (Gsm7.NewEncoder []).WithoutExt.Encode a.Addr = .ok g ∧ g.length ≤ 145)

/-- Representable times: whole seconds, years 1970..2069, offset of at most 79 quarters of an hour. -/
def TimeOk (t : GoTime) : Prop :=
  t.nsec = 0 ∧ 1970 ≤ t.Year ∧ t.Year ≤ 2069 ∧ ∃ q : Int, t.off = q * 15 * 60 ∧ -79 ≤ q ∧ q ≤ 79

/-- The validity periods that their format can represent. -/
inductive VpOk : ValidityPeriod → Prop
  /-- no validity period -/
  | absent : VpOk {}
  /-- relative: the meaning of a code other than 0 -/
  | relative (c : UInt8) (h : c ≠ 0) : VpOk { Format := VpfRelative, Duration := relativeToDuration c }
  /-- absolute: a representable time -/
  | absolute (t : GoTime) (h : TimeOk t) : VpOk { Format := VpfAbsolute, Time := t }
  /-- enhanced, no period; any of the upper bits of the functionality indicator -/
  | enhancedNone (efi : UInt8) (he : efi &&& 7 = EvpfNotPresent) : VpOk { Format := VpfEnhanced, EFI := efi }
  /-- enhanced, relative -/
  | enhancedRelative (efi c : UInt8) (he : efi &&& 7 = EvpfRelative) (h : c ≠ 0) :
      VpOk { Format := VpfEnhanced, EFI := efi, Duration := relativeToDuration c }
  /-- enhanced, up to 255 seconds -/
  | enhancedSeconds (efi : UInt8) (n : Nat) (he : efi &&& 7 = EvpfRelativeSeconds) (h : n ≤ 255) :
      VpOk { Format := VpfEnhanced, EFI := efi, Duration := second * n }
  /-- enhanced, hours, minutes and seconds below 100 hours -/
  | enhancedHHMMSS (efi : UInt8) (n : Nat) (he : efi &&& 7 = EvpfRelativeHHMMSS) (h : n < 100 * 3600) :
      VpOk { Format := VpfEnhanced, EFI := efi, Duration := second * n }

/-- Octets of a marshalled header: every element has two octets besides its data, and there is one length
octet for a non-empty header. -/
def hdrLen (udh : List IE) : Nat :=
  if udh = [] then 0 else (udh.map fun ie => 2 + ie.Data.length).sum + 1

/-- The user data length: septets (rounding the header up) or octets. -/
def udLen (t : TPDU) : Nat :=
  if t.Alphabet.1 = .a7Bit then t.UD.length + (8 * hdrLen t.UDH + 6) / 7 else t.UD.length + hdrLen t.UDH

instance (l : List UInt8) : Decidable (Septets l) := by unfold Septets; infer_instance

/-- Representable user data: a defined coding group, the UDHI bit announcing the header (it may be
set without a header if there is no user data at all), 7-bit user data
consisting of septets, UCS-2 user data of even length, and a length fitting its octet. -/
structure UdOk (t : TPDU) : Prop where
  alpha : t.Alphabet.2 = none
  udhi : (t.UDH ≠ [] → t.UDHI = true) ∧ (t.UDHI = true → t.UDH ≠ [] ∨ t.UD = [])
  septets : t.Alphabet.1 = .a7Bit → Septets t.UD
  even : t.Alphabet.1 = .ucs2 → t.UD.length % 2 = 0
  fits : udLen t ≤ 255

/-- Representable optional part of a report: user data is present only when announced; without a DCS it is
read as DCS 0. -/
structure OptOk (t : TPDU) : Prop where
  ud : PI.UDL t.PI = true → UdOk t
  dcs : PI.UDL t.PI = true → PI.DCS t.PI = false → t.DCS = 0

end Verif.Spec
