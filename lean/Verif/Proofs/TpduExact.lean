import Verif.Proofs.Remarshal

/-! When commands and reports round-trip. -/

namespace Verif.Proofs
open Verif.Model Verif.Spec

/-- A header that is announced takes at least one octet from the user data. -/
theorem decode_hdr_short (T : TPDU) (u : Bytes) (hu : T.UDHI = true) (h8 : T.Alphabet = (.a8Bit, none)) (hUD : T.UD = [])
    (hne : u ≠ []) (hl : u.length ≤ 255) : Post (T.decodeUserData (byteOf u.length :: u)) (fun r => r.UD.length < u.length) := by
  have hpos : 0 < u.length := List.length_pos_iff.2 hne
  have hb : (byteOf u.length).toNat = u.length := by rw [toNat_byteOf]; omega
  unfold TPDU.decodeUserData
  rw [if_neg (by simp), idx_zero_cons, h8]
  simp only [ok_bind, hb]
  rw [if_neg (by omega)]
  simp only [reduceCtorEq, if_false, false_and]
  split
  · exact .fail
  split
  · exact .fail
  refine Post.bind' (Q := fun r => 1 ≤ r.2) ?_ ?_
  · refine Post.bind ?_; intro s
    refine Post.wrapD ?_
    unfold UDH.UnmarshalBinary
    split
    · exact .fail
    refine Post.bind ?_; intro n
    simp only
    split
    · exact .fail
    refine Post.bind ?_; intro ies
    exact .ok (by simp)
  rintro ⟨udh, udhl⟩ hh
  simp only at hh ⊢
  split
  · exact .ok (by simpa [hUD] using hpos)
  refine Post.bind' (fun s hs => (slice_eq_ok hs).2.2) ?_
  intro s hs
  refine .ok ?_
  rw [hs]
  simp only [List.length_drop, List.length_take, List.length_cons]
  omega

/-- Reading what was written for a command. -/
theorem command_relay (t : TPDU) (hdir : t.Direction = MO) (hmti : FirstOctet.MTI t.FirstOctet = 2) (hda : AddrOk t.DA) :
    ∃ p, t.MarshalBinary = .ok p ∧ ∀ r, ({ Direction := MO } : TPDU).UnmarshalBinary p = .ok r ↔
      TPDU.decodeUserData
        { Direction := MO, FirstOctet := t.FirstOctet, MR := t.MR, PID := t.PID, CT := t.CT, MN := t.MN, DA := t.DA,
          DCS := DCS.Dcs8BitData } (byteOf t.UD.length :: t.UD) = .ok r := by
  obtain ⟨da, ha, ha'⟩ := addr_rt _ hda
  have hst : t.SmsType = SmsCommand := by rw [smsType_of t _ _ hmti hdir]; decide
  have hst' : ({ Direction := MO, FirstOctet := t.FirstOctet } : TPDU).SmsType = SmsCommand :=
    (smsType_of { Direction := MO, FirstOctet := t.FirstOctet } 2 MO hmti rfl).trans (by decide)
  have hm : t.marshalCommand = .ok (t.FirstOctet :: t.MR :: t.PID :: t.CT :: t.MN :: (da ++ byteOf t.UD.length :: t.UD)) := by
    unfold TPDU.marshalCommand
    simp only [ha, wrapE_ok, ok_bind, pure_ok]
    simp
  refine ⟨_, marshal_Command t hst _ hm, fun r => ?_⟩
  rw [unmarshal_Command _ _ hst', wrapD_eq_ok]
  unfold TPDU.unmarshalCommand
  simp only [TPDU.readByte, wrapD_ok, ok_bind, ha', List.drop_left]
  rw [wrapD_eq_ok]

theorem marshal_eq {t : TPDU} {p q : Bytes} (h : t.MarshalBinary = .ok p) (h' : t.MarshalBinary = .ok q) : p = q := by
  rw [h] at h'; injection h'

theorem command_exact (t : TPDU) (hdir : t.Direction = MO) (hmti : FirstOctet.MTI t.FirstOctet = 2) (hda : AddrOk t.DA)
    (hud : t.UD.length ≤ 255) :
    (∃ p, t.MarshalBinary = .ok p ∧ ({ Direction := MO } : TPDU).UnmarshalBinary p = .ok
      { Direction := MO, FirstOctet := t.FirstOctet, MR := t.MR, PID := t.PID, CT := t.CT, MN := t.MN, DA := t.DA,
        DCS := DCS.Dcs8BitData, UDH := t.UDH, UD := t.UD }) ↔ t.UDH = [] ∧ (t.UDHI = false ∨ t.UD = []) := by
  obtain ⟨p, hp, hr⟩ := command_relay t hdir hmti hda
  constructor
  · rintro ⟨q, hq, hq'⟩
    rw [hp] at hq; cases hq
    rw [hr] at hq'
    by_cases he : t.UD = []
    · refine ⟨?_, .inr he⟩
      rw [he] at hq'
      cases hU : t.UDH with
      | nil => rfl
      | cons a l => rw [hU] at hq'; cases hq'
    · cases hu : t.UDHI
      · obtain ⟨q, hq, hq2⟩ := command_rt t hdir hmti hda (.inl hu) hud
        rw [hp] at hq; cases hq
        rw [hr] at hq2
        have := hq'.symm.trans hq2
        injection this with this
        exact ⟨congrArg TPDU.UDH this, .inl rfl⟩
      · have hal : ({ DCS := DCS.Dcs8BitData } : TPDU).Alphabet = (.a8Bit, none) := by decide
        have := decode_hdr_short
          { Direction := MO, FirstOctet := t.FirstOctet, MR := t.MR, PID := t.PID, CT := t.CT, MN := t.MN, DA := t.DA,
            DCS := DCS.Dcs8BitData } t.UD hu hal rfl he hud _ hq'
        simp at this
  · rintro ⟨hh, hu⟩
    rw [hh]; exact command_rt t hdir hmti hda hu hud

theorem opt_fcs (t : TPDU) (src : Bytes) (ri : Nat) (h1 : t.UDH = []) (h2 : t.UD = []) (h3 : t.PID = 0) (h4 : t.DCS = 0)
    (r : TPDU) (h : t.unmarshalOptionals src ri = .ok r) : r.FCS = t.FCS := by
  obtain ⟨_, _, _, _, e⟩ := (opt_inv t src ri h1 h2 h3 h4 r h).1.elim
  rw [e]

theorem deliverReport_exact (t : TPDU) (hdir : t.Direction = MO) (hmti : FirstOctet.MTI t.FirstOctet = 0) (hopt : OptOk t) :
    (∃ p, t.MarshalBinary = .ok p ∧ ({ Direction := MO } : TPDU).UnmarshalBinary p = .ok
      { Direction := MO, FirstOctet := t.FirstOctet, FCS := t.FCS,
        PI := t.PI, PID := if PI.PID t.PI then t.PID else 0, DCS := if PI.DCS t.PI then t.DCS else 0,
        UDH := if PI.UDL t.PI then t.UDH else [], UD := if PI.UDL t.PI then t.UD else [] }) ↔ t.FCS ≠ 0 := by
  refine ⟨?_, fun h => deliverReport_rt t hdir hmti h hopt⟩
  rintro ⟨p, hp, hp'⟩ h0
  have hst : t.SmsType = SmsDeliverReport := by rw [smsType_of t _ _ hmti hdir]; decide
  have hst' : ({ Direction := MO, FirstOctet := t.FirstOctet } : TPDU).SmsType = SmsDeliverReport :=
    (smsType_of { Direction := MO, FirstOctet := t.FirstOctet } 0 MO hmti rfl).trans (by decide)
  obtain ⟨e, he, he'⟩ := opt_rt t { Direction := MO, FirstOctet := t.FirstOctet, FCS := t.FCS, PI := t.PI }
      [t.FCS, t.PI] hopt rfl rfl rfl rfl rfl rfl
  have hm : t.marshalDeliverReport = .ok (t.FirstOctet :: t.PI :: (t.piOctets ++ e)) := by
    unfold TPDU.marshalDeliverReport
    simp only [he, ok_bind, pure_ok, h0]
    simp
  have := marshal_eq hp (marshal_DeliverReport t hst _ hm)
  subst this
  rw [unmarshal_DeliverReport _ _ hst', wrapD_eq_ok] at hp'
  unfold TPDU.unmarshalDeliverReport at hp'
  rw [readAt_head] at hp'
  simp only [ok_bind] at hp'
  obtain ⟨pi, hpi, hp'⟩ := bind_eq_ok.1 hp'
  have hf := opt_fcs { Direction := MO, FirstOctet := t.FirstOctet, FCS := t.PI, PI := pi } _ _ rfl rfl rfl rfl _ hp'
  have hz : t.PI = 0 := by rw [← h0]; exact hf.symm
  have hoe : t.piOctets = [] := by unfold TPDU.piOctets; rw [hz]; rfl
  have hee : e = [] := by
    unfold TPDU.optUserData at he
    rw [hz, if_neg (by decide)] at he
    injection he with he; exact he.symm
  rw [hoe, hee] at hpi
  unfold TPDU.readAt at hpi
  rw [if_pos (by simp)] at hpi
  cases hpi

theorem submitReport_exact (t : TPDU) (hdir : t.Direction = MT) (hmti : FirstOctet.MTI t.FirstOctet = 1)
    (hts : TimeOk t.SCTS) (hopt : OptOk t) :
    (∃ p, t.MarshalBinary = .ok p ∧ ({ Direction := MT } : TPDU).UnmarshalBinary p = .ok
      { Direction := MT, FirstOctet := t.FirstOctet, FCS := t.FCS, SCTS := t.SCTS,
        PI := t.PI, PID := if PI.PID t.PI then t.PID else 0, DCS := if PI.DCS t.PI then t.DCS else 0,
        UDH := if PI.UDL t.PI then t.UDH else [], UD := if PI.UDL t.PI then t.UD else [] }) ↔ t.FCS ≠ 0 := by
  refine ⟨?_, fun h => submitReport_rt t hdir hmti h hts hopt⟩
  rintro ⟨p, hp, hp'⟩ h0
  have hst : t.SmsType = SmsSubmitReport := by rw [smsType_of t _ _ hmti hdir]; decide
  have hst' : ({ Direction := MT, FirstOctet := t.FirstOctet } : TPDU).SmsType = SmsSubmitReport :=
    (smsType_of { Direction := MT, FirstOctet := t.FirstOctet } 1 MT hmti rfl).trans (by decide)
  obtain ⟨ts, hv, hl, hv'⟩ := time_rt _ hts
  obtain ⟨e, he, he'⟩ := opt_rt t { Direction := MT, FirstOctet := t.FirstOctet, FCS := t.FCS, PI := t.PI, SCTS := t.SCTS }
      (t.FCS :: t.PI :: ts) hopt rfl rfl rfl rfl rfl rfl
  have hm : t.marshalSubmitReport = .ok (t.FirstOctet :: t.PI :: (ts ++ (t.piOctets ++ e))) := by
    unfold TPDU.marshalSubmitReport
    simp only [he, hv, wrapE_ok, ok_bind, pure_ok, h0]
    simp
  have := marshal_eq hp (marshal_SubmitReport t hst _ hm)
  subst this
  rw [unmarshal_SubmitReport _ _ hst', wrapD_eq_ok] at hp'
  unfold TPDU.unmarshalSubmitReport at hp'
  rw [readAt_head] at hp'
  simp only [ok_bind] at hp'
  obtain ⟨pi, hpi, hp'⟩ := bind_eq_ok.1 hp'
  split at hp'
  · cases hp'
  rename_i hlen
  obtain ⟨s, hs, hp'⟩ := bind_eq_ok.1 hp'
  obtain ⟨scts, hscts, hp'⟩ := bind_eq_ok.1 hp'
  have hf := opt_fcs { Direction := MT, FirstOctet := t.FirstOctet, FCS := t.PI, PI := pi, SCTS := scts } _ _ rfl rfl rfl rfl _ hp'
  have hz : t.PI = 0 := by rw [← h0]; exact hf.symm
  have hoe : t.piOctets = [] := by unfold TPDU.piOctets; rw [hz]; rfl
  have hee : e = [] := by
    unfold TPDU.optUserData at he
    rw [hz, if_neg (by decide)] at he
    injection he with he; exact he.symm
  rw [hoe, hee] at hlen
  simp [hl] at hlen

end Verif.Proofs
