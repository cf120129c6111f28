import Verif.Model.Flags
import Verif.Proofs.Basic
import Verif.Props.TpduSafe
import Verif.Props.UserData

/-! C70: the first octet means what the standard says. -/

namespace Verif.Props
open Verif.Model Verif.Proofs

/-- The TPDU types of TS 23.040 9.2.3.1 by direction and TP-MTI (bits 1 and 0 of the first octet); value 3 is
reserved. -/
def mtiTable : Int → Nat → Option UInt8
  | 0, 0 => some SmsDeliver
  | 0, 1 => some SmsSubmitReport
  | 0, 2 => some SmsStatusReport
  | 1, 0 => some SmsDeliverReport
  | 1, 1 => some SmsSubmit
  | 1, 2 => some SmsCommand
  | _, _ => none

/-- C70: the flags are the bits TS 23.040 9.2.3 gives: TP-MMS and TP-RD bit 2, TP-LP bit 3, TP-SRI, TP-SRR and
TP-SRQ bit 5, TP-UDHI bit 6, TP-RP bit 7. -/
theorem C70_flags (f : UInt8) :
    FirstOctet.MMS f = f.toNat.testBit 2 ∧ FirstOctet.RD f = f.toNat.testBit 2 ∧ FirstOctet.LP f = f.toNat.testBit 3 ∧
    FirstOctet.SRI f = f.toNat.testBit 5 ∧ FirstOctet.SRR f = f.toNat.testBit 5 ∧
    FirstOctet.SRQ f = f.toNat.testBit 5 ∧ FirstOctet.UDHI f = f.toNat.testBit 6 ∧
    FirstOctet.RP f = f.toNat.testBit 7 := by
  revert f; apply forall_u8; decide +kernel

/-- C70: TP-VPF is bits 4 and 3: 00 no validity period, 10 relative, 01 enhanced, 11 absolute. -/
theorem C70_vpf (f : UInt8) : FirstOctet.VPF f =
    match f.toNat.testBit 4, f.toNat.testBit 3 with
    | false, false => VpfNotPresent
    | true, false => VpfRelative
    | false, true => VpfEnhanced
    | true, true => VpfAbsolute := by
  revert f; apply forall_u8; decide +kernel

/-- C70: TP-MTI is bits 1 and 0, and with the direction gives the type; types are six different values. -/
theorem C70_type (t : TPDU) (h : t.Direction = MT ∨ t.Direction = MO) :
    t.MTI.toNat = t.FirstOctet.toNat % 4 ∧
    ∀ st, mtiTable t.Direction (t.FirstOctet.toNat % 4) = some st → t.SmsType = st := by
  have h1 : ∀ f : UInt8, (FirstOctet.MTI f).toNat = f.toNat % 4 ∧
      (∀ st ∈ mtiTable 0 (f.toNat % 4), smsType (FirstOctet.MTI f) 0 = st) ∧
      (∀ st ∈ mtiTable 1 (f.toNat % 4), smsType (FirstOctet.MTI f) 1 = st) := by
    apply forall_u8; decide +kernel
  obtain ⟨a, b, c⟩ := h1 t.FirstOctet
  refine ⟨a, fun st hst => ?_⟩
  unfold TPDU.SmsType
  rcases h with h | h
  · have h : t.Direction = 0 := h
    rw [h] at hst ⊢; exact b st hst
  · have h : t.Direction = 1 := h
    rw [h] at hst ⊢; exact c st hst

/-- C70 (partial, missing: the reserved value 3, see the counterexample): TPDUs of a reserved message type are
all rejected, in both directions, and no other first octet is. -/
theorem C70_reserved_partial (t : TPDU) (h : t.Direction = MT ∨ t.Direction = MO) (fo : UInt8) (body : List UInt8) :
    fo.toNat % 4 = 3 ↔
    ∃ st, t.UnmarshalBinary (fo :: body) = fail (.decode "tpdu.firstOctet" 0 (.unsupportedSmsType st)) := by
  have hf : ∀ d : Int, d = 0 ∨ d = 1 → (fo.toNat % 4 = 3 ↔ smsType (FirstOctet.MTI fo) d ∉ sixTypes) := by
    intro d hd
    rcases hd with rfl | rfl
    · revert fo; apply forall_u8; decide +kernel
    · revert fo; apply forall_u8; decide +kernel
  rw [hf t.Direction h]
  constructor
  · intro hm
    rcases unmarshal_cases t fo body with ⟨_, h'⟩ | ⟨hm', _⟩
    · exact ⟨_, h'⟩
    · exact absurd hm' hm
  · rintro ⟨st, hst⟩ hm
    rcases unmarshal_cases t fo body with ⟨hm', _⟩ | ⟨_, name, m, h', hname, hs⟩
    · exact hm' hm
    · rw [h'] at hst
      unfold wrapD at hst
      split at hst
      · cases hst
      · rename_i e
        obtain ⟨f', e', h1, h2⟩ := newDecodeError_form name 1 e
        rw [h1] at hst
        simp only [fail, Except.error.injEq, Fault.err.injEq, Err.decode.injEq] at hst
        omega
      · cases hst

/-- C70 is false as stated: TS 23.040 9.2.3.1 says that a mobile processes a TPDU of the reserved message type
as an SMS-DELIVER; the library rejects it. -/
theorem C70_counterexample :
    ({ Direction := MT } : TPDU).UnmarshalBinary
      [0x07, 0x03, 0x91, 0x21, 0xf3, 0x00, 0x00, 0x51, 0x50, 0x71, 0x32, 0x20, 0x05, 0x23, 0x01, 0x41] =
      fail (.decode "tpdu.firstOctet" 0 (.unsupportedSmsType 6)) ∧
    (({ Direction := MT } : TPDU).UnmarshalBinary
      [0x04, 0x03, 0x91, 0x21, 0xf3, 0x00, 0x00, 0x51, 0x50, 0x71, 0x32, 0x20, 0x05, 0x23, 0x01, 0x41]).map
        (fun t => Sms.Decode [t] []) = .ok (.ok [0x41]) := by decide +kernel

/-- C70: a TPDU is part of a multi-part message exactly when the last element of its header with identifier 0 has
three octets or the last one with identifier 8 has four. -/
theorem C70_single (t : TPDU) : t.IsSingleSegment = false ↔
    ∃ pre ie post, t.UDH = pre ++ ie :: post ∧ (∀ x ∈ post, x.ID ≠ ie.ID) ∧
      (ie.ID = 0 ∧ ie.Data.length = 3 ∨ ie.ID = 8 ∧ ie.Data.length = 4) := by
  have h8 : (∃ c, t.UDH.ConcatInfo8 = some c) ↔ ∃ ie, t.UDH.IE 0 = some ie ∧ ie.Data.length = 3 := by
    unfold UDH.ConcatInfo8
    constructor
    · rintro ⟨c, h⟩
      split at h
      · exact ⟨_, ‹_›, rfl⟩
      · cases h
    · rintro ⟨⟨id, d⟩, h1, h2⟩
      match d, h2 with
      | [a, b, c], _ => rw [h1]; exact ⟨_, rfl⟩
  have h16 : (∃ c, t.UDH.ConcatInfo16 = some c) ↔ ∃ ie, t.UDH.IE 8 = some ie ∧ ie.Data.length = 4 := by
    unfold UDH.ConcatInfo16
    constructor
    · rintro ⟨c, h⟩
      split at h
      · exact ⟨_, ‹_›, rfl⟩
      · cases h
    · rintro ⟨⟨id, d⟩, h1, h2⟩
      match d, h2 with
      | [a, b, c, e], _ => rw [h1]; exact ⟨_, rfl⟩
  have hc : t.IsSingleSegment = false ↔ (∃ c, t.UDH.ConcatInfo8 = some c) ∨ ∃ c, t.UDH.ConcatInfo16 = some c := by
    unfold TPDU.IsSingleSegment TPDU.ConcatInfo UDH.ConcatInfo
    by_cases hl : t.UDH.length = 0
    · rw [if_pos hl]
      have : t.UDH = [] := List.eq_nil_of_length_eq_zero hl
      rw [this]
      simp [UDH.ConcatInfo8, UDH.ConcatInfo16, UDH.IE]
    · rw [if_neg hl]
      cases h1 : t.UDH.ConcatInfo8 <;> cases h2 : t.UDH.ConcatInfo16 <;> simp
  rw [hc, h8, h16]
  constructor
  · rintro (⟨ie, h1, h2⟩ | ⟨ie, h1, h2⟩)
    · obtain ⟨h3, a, b, e, hn⟩ := (C15_ie_some _ _ _).mp h1
      exact ⟨a, ie, b, e, by rw [h3]; exact hn, .inl ⟨h3, h2⟩⟩
    · obtain ⟨h3, a, b, e, hn⟩ := (C15_ie_some _ _ _).mp h1
      exact ⟨a, ie, b, e, by rw [h3]; exact hn, .inr ⟨h3, h2⟩⟩
  · rintro ⟨a, ie, b, e, hn, (⟨h3, h2⟩ | ⟨h3, h2⟩)⟩
    · exact .inl ⟨ie, (C15_ie_some _ _ _).mpr ⟨h3, a, b, e, by rw [← h3]; exact hn⟩, h2⟩
    · exact .inr ⟨ie, (C15_ie_some _ _ _).mpr ⟨h3, a, b, e, by rw [← h3]; exact hn⟩, h2⟩

example : ({ UDH := [⟨0, [7, 2, 1]⟩, ⟨5, []⟩] } : TPDU).IsSingleSegment = false ∧
    ({ UDH := [⟨0, [7, 2, 1]⟩, ⟨0, []⟩] } : TPDU).IsSingleSegment = true ∧
    ({ FirstOctet := 0x51, Direction := MO } : TPDU).SmsType = SmsSubmit := by decide

end Verif.Props
