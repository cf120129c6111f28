import Verif.Proofs.Address

/-! C13, C14, C57: addresses. -/

namespace Verif.Props
open Verif.Model Verif.Model.Address Verif.Spec Verif.Proofs

/-- C13: numeric addresses of at most 255 digits round-trip, whatever follows, and take 2 + ceil(n/2) octets. -/
theorem C13_numeric_roundtrip (a : Address) (rest : List UInt8) (hton : a.TypeOfNumber ≠ 5) (hd : Digits a.Addr)
    (hl : a.Addr.length ≤ 255) :
    ∃ p, a.MarshalBinary = .ok p ∧ p.length = 2 + (a.Addr.length + 1) / 2 ∧
      UnmarshalBinary (p ++ rest) = .ok (a, p.length) :=
  addr_numeric a rest hton hd hl

/-- C13: an invalid digit is reported. -/
theorem C13_invalid_digit (a : Address) (hton : a.TypeOfNumber ≠ 5) (hd : ¬ Digits a.Addr) :
    ∃ d ∈ a.Addr, d ∉ digitChars ∧ a.MarshalBinary = fail (.encode "addr" (.semiInvalidDigit d)) :=
  addr_numeric_error a hton hd

/-- The bound of C13 is needed: 256 digits marshal to a length octet of 0. -/
theorem C13_bound : (⟨0x91, List.replicate 256 0x31⟩ : Address).MarshalBinary =
    .ok (0 :: 0x91 :: List.replicate 128 0x11) := by decide +kernel

example : (⟨0x91, [0x36, 0x31, 0x34]⟩ : Address).TypeOfNumber ≠ 5 ∧ Digits [0x36, 0x31, 0x34] ∧
    (⟨0x91, [0x36, 0x31, 0x34]⟩ : Address).MarshalBinary = .ok [0x03, 0x91, 0x16, 0xf4] := by decide

/-- C14: an alphanumeric address whose text is in the default alphabet (no shift table, no ESC), of at most
145 septets, round-trips, whatever follows. -/
theorem C14_alphanumeric_roundtrip (a : Address) (rest g : List UInt8) (hton : a.TypeOfNumber = 5)
    (henc : (Gsm7.NewEncoder []).WithoutExt.Encode a.Addr = .ok g) (hesc : 0x1b ∉ a.Addr) (hl : g.length ≤ 145) :
    ∃ p, a.MarshalBinary = .ok p ∧ p.length = 2 + (7 * g.length + 7) / 8 ∧
      UnmarshalBinary (p ++ rest) = .ok (a, p.length) :=
  addr_alpha a rest g hton henc hesc hl

/-- The bound of C14 is needed: 147 septets marshal to a length octet of 2 instead of 258. -/
theorem C14_bound : ((⟨0xd0, List.replicate 147 0x61⟩ : Address).MarshalBinary.map fun p => p.head?) =
    .ok (some 2) := by decide +kernel

example : (⟨0xd0, [0x4d, 0x65, 0x73]⟩ : Address).TypeOfNumber = 5 ∧
    (Gsm7.NewEncoder []).WithoutExt.Encode [0x4d, 0x65, 0x73] = .ok [0x4d, 0x65, 0x73] ∧
    (⟨0xd0, [0x4d, 0x65, 0x73]⟩ : Address).MarshalBinary = .ok [0x06, 0xd0, 0xcd, 0xf2, 0x1c] := by
  decide +kernel

/-- C57: a number with or without its '+' is stored without and reported with exactly one; the type of
address octet has bit 7 set, type international (1) and plan ISDN (1): it is 0x91. -/
theorem C57_number (n : List UInt8) (h : n.head? ≠ some 0x2b) :
    (NewFromNumber n).Number = 0x2b :: n ∧ (NewFromNumber (0x2b :: n)).Number = 0x2b :: n ∧
    NewFromNumber n = ⟨0x91, n⟩ ∧ NewFromNumber (0x2b :: n) = ⟨0x91, n⟩ := by
  have htoa : (((({} : Address).SetTypeOfNumber TonInternational).SetNumberingPlan NpISDN).TOA ||| 0x80) = 0x91 := by
    decide
  have hn : NewFromNumber n = ⟨0x91, n⟩ := by
    unfold NewFromNumber SetNumber
    split
    · simp at h
    · exact congrArg (Address.mk · n) htoa
  have hn' : NewFromNumber (0x2b :: n) = ⟨0x91, n⟩ := by
    unfold NewFromNumber SetNumber
    exact congrArg (Address.mk · n) htoa
  have hnum : (⟨0x91, n⟩ : Address).Number = 0x2b :: n := by
    have : ({ TOA := 0x91, Addr := n } : Address).TypeOfNumber = TonInternational := by
      show ((0x91 : UInt8) >>> 4) &&& 0x07 = TonInternational
      decide
    unfold Number
    rw [if_pos this]
  rw [hn, hn']
  exact ⟨hnum, hnum, rfl, rfl⟩

example : (NewFromNumber [0x2b, 0x36, 0x31]).Number = [0x2b, 0x36, 0x31] := by decide

end Verif.Props
