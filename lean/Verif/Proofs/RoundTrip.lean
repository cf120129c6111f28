import Verif.Proofs.RelayExact

/-! What is known of a TPDU that is read back as it was. -/

namespace Verif.Proofs
open Verif.Model Verif.Spec

/-- What was read, with nothing lost, is representable. -/
theorem kept_ok (d : Int) (src : Bytes) (t : TPDU)
    (h : ({ Direction := d } : TPDU).UnmarshalBinary src = .ok t) (hk : Kept t) :
    (t.SmsType = SmsDeliver → AddrOk t.OA ∧ TimeOk t.SCTS ∧ UdOk t) ∧
    (t.SmsType = SmsDeliverReport → t.FCS ≠ 0 ∧ OptOk t) ∧
    (t.SmsType = SmsSubmitReport → t.FCS ≠ 0 ∧ TimeOk t.SCTS ∧ OptOk t) ∧
    (t.SmsType = SmsSubmit → AddrOk t.DA ∧ VpOk t.VP ∧ FirstOctet.VPF t.FirstOctet = t.VP.Format ∧ UdOk t) ∧
    (t.SmsType = SmsStatusReport → AddrOk t.RA ∧ TimeOk t.SCTS ∧ TimeOk t.DT ∧ OptOk t) ∧
    (t.SmsType = SmsCommand → AddrOk t.DA ∧ t.UDH = [] ∧ (t.UDHI = false ∨ t.UD = []) ∧ t.UD.length ≤ 255) := by
  have hkind := unmarshal_kind _ _ _ h
  cases src with
  | nil => cases h
  | cons fo body =>
    have hfo : fo = t.FirstOctet := by simpa using hkind.1
    have hdir : t.Direction = d := hkind.2.1
    have hst : ({ Direction := d, FirstOctet := fo } : TPDU).SmsType = t.SmsType := by
      unfold TPDU.SmsType; rw [hfo, hdir]
    obtain ⟨k1, k2, k3, k4, k5, k6⟩ := hk
    unfold TPDU.UnmarshalBinary at h
    rw [if_neg (by simp)] at h
    simp only [idx_zero_cons, ok_bind, hst] at h
    obtain ⟨b, _, h⟩ := bind_eq_ok.1 h
    refine ⟨fun hs => ?_, fun hs => ?_, fun hs => ?_, fun hs => ?_, fun hs => ?_, fun hs => ?_⟩
    · rw [if_pos hs] at h
      obtain ⟨e, i1, i2, i3⟩ := deliver_inv _ _ _ _ (wrapD_eq_ok.1 h)
      exact ⟨i1, i2 (k1 hs).1, i3 (k1 hs).2⟩
    · rw [if_neg (by rw [hs]; decide), if_pos hs] at h
      obtain ⟨e, i1⟩ := deliverReport_inv _ _ _ _ (wrapD_eq_ok.1 h)
      exact ⟨(k2 hs).1, i1 (k2 hs).2⟩
    · rw [if_neg (by rw [hs]; decide), if_neg (by rw [hs]; decide), if_pos hs] at h
      obtain ⟨e, i1, i2⟩ := submitReport_inv _ _ _ _ (wrapD_eq_ok.1 h)
      exact ⟨(k3 hs).1, i1 (k3 hs).2.1, i2 (k3 hs).2.2⟩
    · rw [if_neg (by rw [hs]; decide), if_neg (by rw [hs]; decide), if_neg (by rw [hs]; decide), if_pos hs] at h
      obtain ⟨e, i1, i2, i3, i4⟩ := submit_inv _ _ _ _ (wrapD_eq_ok.1 h)
      exact ⟨i1, i3 (k4 hs).1, by rw [i2, hfo], i4 (k4 hs).2⟩
    · rw [if_neg (by rw [hs]; decide), if_neg (by rw [hs]; decide), if_neg (by rw [hs]; decide), if_neg (by rw [hs]; decide), if_pos hs] at h
      obtain ⟨e, i1, i2, i3, i4⟩ := statusReport_inv _ _ _ _ (wrapD_eq_ok.1 h)
      exact ⟨i1, i2 (k5 hs).1, i3 (k5 hs).2.1, i4 (k5 hs).2.2⟩
    · rw [if_neg (by rw [hs]; decide), if_neg (by rw [hs]; decide), if_neg (by rw [hs]; decide), if_neg (by rw [hs]; decide),
        if_neg (by rw [hs]; decide), if_pos hs] at h
      obtain ⟨e, i1, i2⟩ := command_inv _ _ _ _ (wrapD_eq_ok.1 h)
      have hal : t.Alphabet = (.a8Bit, none) := by
        have : t.DCS = DCS.Dcs8BitData := congrArg TPDU.DCS e
        unfold TPDU.Alphabet; rw [this]; decide
      have hu := k6 hs
      have hud := i2 ⟨by rw [hal], fun hx => ⟨.inr (hu hx).2, by
        unfold udLen; rw [hal, (hu hx).1, (hu hx).2]; decide⟩⟩
      have h0 : t.UDH = [] := Classical.byContradiction fun hx => hx (hu (hud.udhi.1 hx)).1
      have h1 : t.UDHI = false ∨ t.UD = [] := by
        cases h : t.UDHI
        · exact .inl rfl
        · exact .inr (hu h).2
      have hl := hud.fits
      unfold udLen at hl
      rw [hal, if_neg (by decide), h0] at hl
      exact ⟨i1, h0, h1, by simp [hdrLen] at hl; exact hl⟩

end Verif.Proofs
