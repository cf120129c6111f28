import Verif.Proofs.Prefix
import Verif.Props.TpduSafe
import Verif.Model.Sms

/-! C29, C30: truncated and overlong TPDUs. -/

namespace Verif.Props
open Verif.Model Verif.Spec Verif.Proofs

/-- C29: no proper prefix of the binary form of a well-formed SMS-SUBMIT is accepted. -/
theorem C29_submit_truncated (t : TPDU) (hdir : t.Direction = MO) (hmti : FirstOctet.MTI t.FirstOctet = 1)
    (hda : AddrOk t.DA) (hvp : VpOk t.VP) (hvpf : FirstOctet.VPF t.FirstOctet = t.VP.Format) (hud : UdOk t)
    (p q : List UInt8) (hq : q ≠ []) (hm : t.MarshalBinary = .ok (p ++ q)) : ∃ e, Sms.Unmarshal p MO = .error (.err e) := by
  rcases C28_sms_no_panic p MO with ⟨t1, h⟩ | h
  · exact absurd h (submit_cut t t1 p q hq hdir hmti hda hvp hvpf hud hm)
  · exact h

/-- C29: no proper prefix of the binary form of a well-formed SMS-DELIVER is accepted. -/
theorem C29_deliver_truncated (t : TPDU) (hdir : t.Direction = MT) (hmti : FirstOctet.MTI t.FirstOctet = 0)
    (hoa : AddrOk t.OA) (hts : TimeOk t.SCTS) (hud : UdOk t)
    (p q : List UInt8) (hq : q ≠ []) (hm : t.MarshalBinary = .ok (p ++ q)) : ∃ e, Sms.Unmarshal p MT = .error (.err e) := by
  rcases C28_sms_no_panic p MT with ⟨t1, h⟩ | h
  · exact absurd h (deliver_cut t t1 p q hq hdir hmti hoa hts hud hm)
  · exact h

/-- A well-formed submit without user data, cut just before its last octet. -/
example : let t : TPDU := { Direction := MO, FirstOctet := 0x01, DA := ⟨0x91, [0x31]⟩ }
    AddrOk t.DA ∧ VpOk t.VP ∧ FirstOctet.VPF t.FirstOctet = t.VP.Format ∧ UdOk t ∧
    t.MarshalBinary = .ok ([0x01, 0, 1, 0x91, 0xf1, 0, 0] ++ [0]) ∧
    Sms.Unmarshal [0x01, 0, 1, 0x91, 0xf1, 0, 0] MO = fail (.decode "SmsSubmit.ud.udl" 7 .underflow) :=
  ⟨.inl (by decide), .absent, by decide, ⟨by decide, by decide, by decide, by decide, by decide⟩, by decide +kernel,
    by decide +kernel⟩

/-- C30 is false as stated: with a user data length of 0 whatever follows is ignored. -/
theorem C30_counterexample : ∃ t, Sms.Unmarshal [0x01, 0, 1, 0x91, 0xf1, 0, 0, 0] MO = .ok t ∧
    Sms.Unmarshal ([0x01, 0, 1, 0x91, 0xf1, 0, 0, 0] ++ [1, 2, 3]) MO = .ok t := by
  refine ⟨{ Direction := MO, FirstOctet := 0x01, DA := ⟨0x91, [0x31]⟩ }, ?_⟩
  decide +kernel

/-- C30, partial: bytes appended to an accepted SMS-SUBMIT make it rejected, except that a message with neither
user data nor header may be accepted again, with the same result.  Missing: rejection of the latter, which
is false (`C30_counterexample`). -/
theorem C30_submit_partial (fo : UInt8) (body q : List UInt8) (t : TPDU) (hmti : FirstOctet.MTI fo = 1) (hq : q ≠ [])
    (h : Sms.Unmarshal (fo :: body) MO = .ok t) :
    (∃ e, Sms.Unmarshal (fo :: body ++ q) MO = .error (.err e)) ∨
    (Sms.Unmarshal (fo :: body ++ q) MO = .ok t ∧ t.UD = [] ∧ t.UDH = []) := by
  have hst : ({ Direction := MO, FirstOctet := fo } : TPDU).SmsType = SmsSubmit :=
    (smsType_of { Direction := MO, FirstOctet := fo } 1 MO hmti rfl).trans (by decide)
  rcases C28_sms_no_panic (fo :: body ++ q) MO with ⟨t', h'⟩ | h'
  · right
    unfold Sms.Unmarshal at h h' ⊢
    rw [unmarshal_Submit _ _ hst, wrapD_eq_ok] at h
    have h'' := h'
    rw [List.cons_append, unmarshal_Submit _ _ hst, wrapD_eq_ok] at h''
    obtain ⟨e1, e2, e3⟩ := submit_ext _ _ _ _ q hq h h''
    rw [e1] at h'
    exact ⟨h', e3, e2⟩
  · exact .inl h'

/-- C30, partial: the same for SMS-DELIVER. -/
theorem C30_deliver_partial (fo : UInt8) (body q : List UInt8) (t : TPDU) (hmti : FirstOctet.MTI fo = 0) (hq : q ≠ [])
    (h : Sms.Unmarshal (fo :: body) MT = .ok t) :
    (∃ e, Sms.Unmarshal (fo :: body ++ q) MT = .error (.err e)) ∨
    (Sms.Unmarshal (fo :: body ++ q) MT = .ok t ∧ t.UD = [] ∧ t.UDH = []) := by
  have hst : ({ Direction := MT, FirstOctet := fo } : TPDU).SmsType = SmsDeliver :=
    (smsType_of { Direction := MT, FirstOctet := fo } 0 MT hmti rfl).trans (by decide)
  rcases C28_sms_no_panic (fo :: body ++ q) MT with ⟨t', h'⟩ | h'
  · right
    unfold Sms.Unmarshal at h h' ⊢
    rw [unmarshal_Deliver _ _ hst, wrapD_eq_ok] at h
    have h'' := h'
    rw [List.cons_append, unmarshal_Deliver _ _ hst, wrapD_eq_ok] at h''
    obtain ⟨e1, e2, e3⟩ := deliver_ext _ _ _ _ q hq h h''
    rw [e1] at h'
    exact ⟨h', e3, e2⟩
  · exact .inl h'

/-- An accepted submit with text. -/
example : ∃ t, Sms.Unmarshal [0x01, 0, 1, 0x91, 0xf1, 0, 4, 2, 0x61, 0x62] MO = .ok t ∧ t.UD ≠ [] ∧
    Sms.Unmarshal ([0x01, 0, 1, 0x91, 0xf1, 0, 4, 2, 0x61, 0x62] ++ [0]) MO = fail (.decode "SmsSubmit.ud.ud" 8 .overlength) :=
  ⟨{ Direction := MO, FirstOctet := 0x01, DA := ⟨0x91, [0x31]⟩, DCS := 4, UD := [0x61, 0x62] }, by decide +kernel⟩

end Verif.Props
