import Verif.Model.Tpdu
import Verif.Spec.Digits

/-! Which TPDUs have an encoding at all, field by field. -/

namespace Verif.Spec
open Verif.Model

/-- A string of digit characters, or for an alphanumeric address a text of characters of the default alphabet. -/
def AddrEnc (a : Address) : Prop :=
  if a.TypeOfNumber = 5 then ∀ r ∈ Unicode.decodeRunes a.Addr, ∃ g, (g, r) ∈ Charset.NewDecoder 0 else Digits a.Addr

/-- A year whose last two digits can be taken, and an offset of less than 20 hours. -/
def TimeEnc (t : GoTime) : Prop := (0 ≤ t.Year ∨ t.Year % 100 = 0) ∧ -(20 * 3600) < t.off ∧ t.off < 20 * 3600

/-- A known format; a time that can be encoded; an enhanced period of a known kind, and for hours, minutes and
seconds one that is not negative, or whose hours (counting modulo 100), minutes and seconds, as package time computes
them, are all zero. -/
def VpEnc (v : ValidityPeriod) : Prop :=
  v.Format = VpfNotPresent ∨ v.Format = VpfRelative ∨ v.Format = VpfAbsolute ∧ TimeEnc v.Time ∨
  v.Format = VpfEnhanced ∧ (v.EFI.toNat % 8 < 3 ∨ v.EFI.toNat % 8 = 3 ∧ (0 ≤ v.Duration ∨
    Float.whole v.Duration hour % 100 = 0 ∧ Float.whole v.Duration minute % 60 = 0 ∧ Float.whole v.Duration second % 60 = 0))

/-- A coding group that is not reserved (10xx), and an even number of octets of UCS-2. -/
def UdEnc (t : TPDU) : Prop :=
  ¬ (8 ≤ t.DCS.toNat / 16 ∧ t.DCS.toNat / 16 ≤ 11) ∧ (t.Alphabet.1 = .ucs2 → t.UD.length % 2 = 0)

/-- User data is encoded only when bit 2 of the parameter indicator announces it. -/
def OptEnc (t : TPDU) : Prop := t.PI.toNat.testBit 2 = true → UdEnc t

/-- The fields of each TPDU type. -/
def Encodable (t : TPDU) : Prop :=
  (t.SmsType = SmsDeliver ∧ AddrEnc t.OA ∧ TimeEnc t.SCTS ∧ UdEnc t) ∨
  (t.SmsType = SmsDeliverReport ∧ OptEnc t) ∨
  (t.SmsType = SmsSubmitReport ∧ TimeEnc t.SCTS ∧ OptEnc t) ∨
  (t.SmsType = SmsSubmit ∧ AddrEnc t.DA ∧ UdEnc t ∧ VpEnc t.VP) ∨
  (t.SmsType = SmsStatusReport ∧ AddrEnc t.RA ∧ TimeEnc t.SCTS ∧ TimeEnc t.DT ∧ OptEnc t) ∨
  (t.SmsType = SmsCommand ∧ AddrEnc t.DA)

end Verif.Spec
