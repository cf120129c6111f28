import Verif.Spec.Representable
import Verif.Proofs.RoundTrip
import Verif.Props.Tpdu
import Verif.Props.Remarshal

/-! C105: exactly which TPDUs come back as they were. -/

namespace Verif.Props
open Verif.Model Verif.Spec Verif.Proofs

/-- What is read back as it was had its type and could be written. -/
theorem back_ok (t : TPDU) (hd : t.Direction = MO ∨ t.Direction = MT) (p : Bytes) (h : t.MarshalBinary = .ok p)
    (h' : ({ Direction := t.Direction } : TPDU).UnmarshalBinary p = .ok t) :
    Known t.SmsType ∧
    (t.SmsType = SmsDeliver → DeliverOk t) ∧ (t.SmsType = SmsDeliverReport → DeliverReportOk t) ∧
    (t.SmsType = SmsSubmitReport → SubmitReportOk t) ∧ (t.SmsType = SmsSubmit → SubmitOk t) ∧
    (t.SmsType = SmsStatusReport → StatusOk t) ∧ (t.SmsType = SmsCommand → CommandOk t) :=
  ⟨(unmarshal_kind _ _ _ h').2.2, kept_ok _ p t h' ((C72_exact _ hd p t h').1 ⟨p, h, h'⟩)⟩

/-- C105: a TPDU comes back from its octets as it was if and only if only fields of its type are set and they are
representable. -/
theorem C105_exact (t : TPDU) (hd : t.Direction = MO ∨ t.Direction = MT) :
    (∃ p, t.MarshalBinary = .ok p ∧ ({ Direction := t.Direction } : TPDU).UnmarshalBinary p = .ok t) ↔ Writable t := by
  constructor
  · rintro ⟨p, h, h'⟩
    obtain ⟨hk, o1, o2, o3, o4, o5, o6⟩ := back_ok t hd p h h'
    obtain ⟨m1, m2, m3, m4, m5, m6⟩ := type_mti t hd
    have done : ∀ {d : Int} {t' : TPDU}, t.Direction = d →
        (∃ q, t.MarshalBinary = .ok q ∧ ({ Direction := d } : TPDU).UnmarshalBinary q = .ok t') → t = t' := by
      rintro d t' e ⟨q, hq, hq'⟩
      rw [h] at hq; cases hq
      rw [← e, h'] at hq'; injection hq'
    unfold Known at hk
    rcases hk with hs | hs | hs | hs | hs | hs
    all_goals first
      | (obtain ⟨a, b⟩ := m1 hs; exact .inl ⟨b, o1 hs, done a (deliver_rt t a b (o1 hs).1 (o1 hs).2.1 (o1 hs).2.2)⟩)
      | (obtain ⟨a, b⟩ := m4 hs
         exact .inr (.inl ⟨b, o4 hs, done a (submit_rt t a b (o4 hs).1 (o4 hs).2.1 (o4 hs).2.2.1 (o4 hs).2.2.2)⟩))
      | (obtain ⟨a, b⟩ := m5 hs
         exact .inr (.inr (.inl ⟨b, o5 hs, done a (status_rt t a b (o5 hs).1 (o5 hs).2.1 (o5 hs).2.2.1 (o5 hs).2.2.2)⟩)))
      | (obtain ⟨a, b⟩ := m2 hs
         exact .inr (.inr (.inr (.inl ⟨b, o2 hs, done a (deliverReport_rt t a b (o2 hs).1 (o2 hs).2)⟩))))
      | (obtain ⟨a, b⟩ := m3 hs
         exact .inr (.inr (.inr (.inr (.inl ⟨b, o3 hs, done a (submitReport_rt t a b (o3 hs).1 (o3 hs).2.1 (o3 hs).2.2)⟩)))))
      | (obtain ⟨a, b⟩ := m6 hs
         refine .inr (.inr (.inr (.inr (.inr ⟨b, o6 hs, ?_⟩))))
         rw [(o6 hs).2.1]
         exact done a (command_rt t a b (o6 hs).1 (o6 hs).2.2.1 (o6 hs).2.2.2))
  · have done : ∀ {d : Int} {t' : TPDU}, t.Direction = d → t = t' →
        (∃ q, t.MarshalBinary = .ok q ∧ ({ Direction := d } : TPDU).UnmarshalBinary q = .ok t') →
        ∃ p, t.MarshalBinary = .ok p ∧ ({ Direction := t.Direction } : TPDU).UnmarshalBinary p = .ok t := by
      rintro d t' e e' ⟨q, hq, hq'⟩
      exact ⟨q, hq, by rw [e, hq', ← e']⟩
    rintro (⟨hm, o, e⟩ | ⟨hm, o, e⟩ | ⟨hm, o, e⟩ | ⟨hm, o, e⟩ | ⟨hm, o, e⟩ | ⟨hm, o, e⟩) <;>
      have hd' := congrArg TPDU.Direction e
    · exact done hd' e (deliver_rt t hd' hm o.1 o.2.1 o.2.2)
    · exact done hd' e (submit_rt t hd' hm o.1 o.2.1 o.2.2.1 o.2.2.2)
    · exact done hd' e (status_rt t hd' hm o.1 o.2.1 o.2.2.1 o.2.2.2)
    · exact done hd' e (deliverReport_rt t hd' hm o.1 o.2)
    · exact done hd' e (submitReport_rt t hd' hm o.1 o.2.1 o.2.2)
    · rw [o.2.1] at e
      exact done hd' e (command_rt t hd' hm o.1 o.2.2.1 o.2.2.2)

/-- Those of the examples that set only fields of their type come back. -/
example : Writable exSubmit ∧ Writable exDeliver ∧ Writable exStatus :=
  ⟨.inr (.inl ⟨by decide, ⟨.inl (by decide), .relative 5 (by decide), by decide, by decide, by decide, by decide, by decide, by decide⟩, rfl⟩),
   .inl ⟨by decide, ⟨.inr ⟨by decide, by decide, [0x48, 0x69], by decide +kernel, by decide⟩,
    ⟨rfl, by decide +kernel, by decide +kernel, 4, by decide, by decide, by decide⟩, by decide, by decide, by decide, by decide, by decide⟩, rfl⟩,
   .inr (.inr (.inl ⟨by decide, ⟨.inl (by decide),
    ⟨rfl, by decide +kernel, by decide +kernel, 4, by decide, by decide, by decide⟩,
    ⟨rfl, by decide +kernel, by decide +kernel, 4, by decide, by decide, by decide⟩,
    fun _ => ⟨by decide, by decide, by decide, by decide, by decide⟩, by decide⟩, rfl⟩))⟩

/-- C105, for a submit whatever its other fields: the fields of a submit come back if and only if they are representable. -/
theorem C105_submit (t : TPDU) (hdir : t.Direction = MO) (hmti : FirstOctet.MTI t.FirstOctet = 1) :
    (∃ p, t.MarshalBinary = .ok p ∧ ({ Direction := MO } : TPDU).UnmarshalBinary p = .ok
      { Direction := MO, FirstOctet := t.FirstOctet, MR := t.MR, DA := t.DA, PID := t.PID, DCS := t.DCS,
        VP := t.VP, UDH := t.UDH, UD := t.UD }) ↔ SubmitOk t := by
  constructor
  · rintro ⟨p, h, h'⟩
    have hst := smsType_of t _ _ hmti hdir
    generalize ht' : ({ Direction := MO, FirstOctet := t.FirstOctet, MR := t.MR, DA := t.DA, PID := t.PID, DCS := t.DCS, VP := t.VP, UDH := t.UDH, UD := t.UD } : TPDU) = t' at h'
    have hst' : t'.SmsType = t.SmsType := by subst ht'; unfold TPDU.SmsType; rw [hdir]
    have hs : t.SmsType = SmsSubmit := by rw [hst]; decide
    have hm : t'.MarshalBinary = .ok p := by
      rw [← h]
      unfold TPDU.MarshalBinary
      rw [hst', hs]
      subst ht'
      rfl
    have hd' : t'.Direction = MO := by subst ht'; rfl
    have := (back_ok t' (.inl hd') p hm (by rw [hd']; exact h')).2.2.2.2.1 (hst'.trans hs)
    subst ht'
    exact ⟨this.1, this.2.1, this.2.2.1, ⟨this.2.2.2.1, this.2.2.2.2, this.2.2.2.3, this.2.2.2.4, this.2.2.2.5⟩⟩
  · rintro ⟨h1, h2, h3, h4⟩
    exact submit_rt t hdir hmti h1 h2 h3 h4

/-- C105, for a deliver. -/
theorem C105_deliver (t : TPDU) (hdir : t.Direction = MT) (hmti : FirstOctet.MTI t.FirstOctet = 0) :
    (∃ p, t.MarshalBinary = .ok p ∧ ({ Direction := MT } : TPDU).UnmarshalBinary p = .ok
      { Direction := MT, FirstOctet := t.FirstOctet, OA := t.OA, PID := t.PID, DCS := t.DCS,
        SCTS := t.SCTS, UDH := t.UDH, UD := t.UD }) ↔ DeliverOk t := by
  constructor
  · rintro ⟨p, h, h'⟩
    have hst := smsType_of t _ _ hmti hdir
    generalize ht' : ({ Direction := MT, FirstOctet := t.FirstOctet, OA := t.OA, PID := t.PID, DCS := t.DCS, SCTS := t.SCTS, UDH := t.UDH, UD := t.UD } : TPDU) = t' at h'
    have hst' : t'.SmsType = t.SmsType := by subst ht'; unfold TPDU.SmsType; rw [hdir]
    have hs : t.SmsType = SmsDeliver := by rw [hst]; decide
    have hm : t'.MarshalBinary = .ok p := by
      rw [← h]
      unfold TPDU.MarshalBinary
      rw [hst', hs]
      subst ht'
      rfl
    have hd' : t'.Direction = MT := by subst ht'; rfl
    have := (back_ok t' (.inr hd') p hm (by rw [hd']; exact h')).2.1 (hst'.trans hs)
    subst ht'
    exact ⟨this.1, this.2.1, ⟨this.2.2.1, this.2.2.2, this.2.2.3, this.2.2.4, this.2.2.5⟩⟩
  · rintro ⟨h1, h2, h3⟩
    exact deliver_rt t hdir hmti h1 h2 h3

/-- C105, for a command. -/
theorem C105_command (t : TPDU) (hdir : t.Direction = MO) (hmti : FirstOctet.MTI t.FirstOctet = 2) :
    (∃ p, t.MarshalBinary = .ok p ∧ ({ Direction := MO } : TPDU).UnmarshalBinary p = .ok
      { Direction := MO, FirstOctet := t.FirstOctet, MR := t.MR, PID := t.PID, CT := t.CT, MN := t.MN, DA := t.DA,
        DCS := 4, UDH := t.UDH, UD := t.UD }) ↔ CommandOk t := by
  constructor
  · rintro ⟨p, h, h'⟩
    have hst := smsType_of t _ _ hmti hdir
    generalize ht' : ({ Direction := MO, FirstOctet := t.FirstOctet, MR := t.MR, PID := t.PID, CT := t.CT, MN := t.MN, DA := t.DA, DCS := 4, UDH := t.UDH, UD := t.UD } : TPDU) = t' at h'
    have hst' : t'.SmsType = t.SmsType := by subst ht'; unfold TPDU.SmsType; rw [hdir]
    have hs : t.SmsType = SmsCommand := by rw [hst]; decide
    have hm : t'.MarshalBinary = .ok p := by
      rw [← h]
      unfold TPDU.MarshalBinary
      rw [hst', hs]
      subst ht'
      rfl
    have hd' : t'.Direction = MO := by subst ht'; rfl
    have := (back_ok t' (.inl hd') p hm (by rw [hd']; exact h')).2.2.2.2.2.2 (hst'.trans hs)
    subst ht'
    exact this
  · rintro ⟨h1, h2, h3, h4⟩
    obtain ⟨p, hp, hp'⟩ := command_rt t hdir hmti h1 h3 h4
    exact ⟨p, hp, by rw [hp', h2]; rfl⟩

/-- What the optional fields of a report are, and what is read of them. -/
theorem opt_back {t t' : TPDU} (hdcs : PI.UDL t.PI = true → PI.DCS t.PI = false → t.DCS = 0)
    (e0 : t'.FirstOctet = t.FirstOctet) (e1 : t'.PI = t.PI) (e2 : t'.PID = if PI.PID t.PI then t.PID else 0)
    (e3 : t'.DCS = if PI.DCS t.PI then t.DCS else 0) (e4 : t'.UDH = if PI.UDL t.PI then t.UDH else [])
    (e5 : t'.UD = if PI.UDL t.PI then t.UD else []) :
    t'.optUserData = t.optUserData ∧ t'.piOctets = t.piOctets ∧ (OptOk t' → OptOk t) := by
  have hd : PI.UDL t.PI = true → t'.DCS = t.DCS := by
    intro h
    rw [e3]
    cases hc : PI.DCS t.PI
    · exact (hdcs h hc).symm
    · rfl
  have ha : PI.UDL t.PI = true → t'.Alphabet = t.Alphabet := by
    intro h; unfold TPDU.Alphabet; rw [hd h]
  have hu : t'.UDHI = t.UDHI := by unfold TPDU.UDHI; rw [e0]
  refine ⟨?_, ?_, fun ho => ⟨fun h => ?_, hdcs⟩⟩
  · unfold TPDU.optUserData
    rw [e1]
    cases h : PI.UDL t.PI
    · rfl
    · rw [if_pos rfl, if_pos rfl]
      unfold TPDU.encodeUserData
      rw [ha h, e4, e5, h]
      rfl
  · unfold TPDU.piOctets
    rw [e1, e2, e3]
    cases PI.PID t.PI <;> cases PI.DCS t.PI <;> rfl
  · have u := ho.1 (by rw [e1]; exact h)
    rw [if_pos h] at e4 e5
    have hl : udLen t' = udLen t := by unfold udLen; rw [ha h, e4, e5]
    exact ⟨by rw [← ha h]; exact u.1, by rw [← e4, ← e5, ← hu]; exact u.2, by rw [← ha h, ← e5]; exact u.3,
      by rw [← ha h, ← e5]; exact u.4, by rw [← hl]; exact u.5⟩

/-- C105, for a status report whose DCS is announced or 0 if there is user data. -/
theorem C105_status (t : TPDU) (hdir : t.Direction = MT) (hmti : FirstOctet.MTI t.FirstOctet = 2)
    (hdcs : PI.UDL t.PI = true → PI.DCS t.PI = false → t.DCS = 0) :
    (∃ p, t.MarshalBinary = .ok p ∧ ({ Direction := MT } : TPDU).UnmarshalBinary p = .ok
      { Direction := MT, FirstOctet := t.FirstOctet, MR := t.MR, RA := t.RA, SCTS := t.SCTS, DT := t.DT, ST := t.ST,
        PI := t.PI, PID := if PI.PID t.PI then t.PID else 0, DCS := if PI.DCS t.PI then t.DCS else 0,
        UDH := if PI.UDL t.PI then t.UDH else [], UD := if PI.UDL t.PI then t.UD else [] }) ↔ StatusOk t := by
  constructor
  · rintro ⟨p, h, h'⟩
    have hst := smsType_of t _ _ hmti hdir
    generalize ht' : ({ Direction := MT, FirstOctet := t.FirstOctet, MR := t.MR, RA := t.RA, SCTS := t.SCTS, DT := t.DT, ST := t.ST, PI := t.PI, PID := if PI.PID t.PI then t.PID else 0, DCS := if PI.DCS t.PI then t.DCS else 0, UDH := if PI.UDL t.PI then t.UDH else [], UD := if PI.UDL t.PI then t.UD else [] } : TPDU) = t' at h'
    have hst' : t'.SmsType = t.SmsType := by subst ht'; unfold TPDU.SmsType; rw [hdir]
    have hs : t.SmsType = SmsStatusReport := by rw [hst]; decide
    obtain ⟨o1, o2, o3⟩ := opt_back (t := t) (t' := t') hdcs (by subst ht'; rfl) (by subst ht'; rfl) (by subst ht'; rfl)
      (by subst ht'; rfl) (by subst ht'; rfl) (by subst ht'; rfl)
    have hm : t'.MarshalBinary = .ok p := by
      rw [← h]
      unfold TPDU.MarshalBinary
      rw [hst', hs]
      unfold TPDU.marshalDeliverReport TPDU.marshalSubmitReport TPDU.marshalStatusReport
      rw [o1, o2]
      subst ht'
      rfl
    have hd' : t'.Direction = MT := by subst ht'; rfl
    have := (back_ok t' (.inr hd') p hm (by rw [hd']; exact h')).2.2.2.2.2.1 (hst'.trans hs)
    have hopt := o3 this.2.2.2
    subst ht'
    exact ⟨this.1, this.2.1, this.2.2.1, hopt⟩
  · intro h
    exact status_rt t hdir hmti h.1 h.2.1 h.2.2.1 h.2.2.2

/-- C105, for a deliver report, likewise. -/
theorem C105_deliver_report (t : TPDU) (hdir : t.Direction = MO) (hmti : FirstOctet.MTI t.FirstOctet = 0)
    (hdcs : PI.UDL t.PI = true → PI.DCS t.PI = false → t.DCS = 0) :
    (∃ p, t.MarshalBinary = .ok p ∧ ({ Direction := MO } : TPDU).UnmarshalBinary p = .ok
      { Direction := MO, FirstOctet := t.FirstOctet, FCS := t.FCS,
        PI := t.PI, PID := if PI.PID t.PI then t.PID else 0, DCS := if PI.DCS t.PI then t.DCS else 0,
        UDH := if PI.UDL t.PI then t.UDH else [], UD := if PI.UDL t.PI then t.UD else [] }) ↔ DeliverReportOk t := by
  constructor
  · rintro ⟨p, h, h'⟩
    have hst := smsType_of t _ _ hmti hdir
    generalize ht' : ({ Direction := MO, FirstOctet := t.FirstOctet, FCS := t.FCS, PI := t.PI, PID := if PI.PID t.PI then t.PID else 0, DCS := if PI.DCS t.PI then t.DCS else 0, UDH := if PI.UDL t.PI then t.UDH else [], UD := if PI.UDL t.PI then t.UD else [] } : TPDU) = t' at h'
    have hst' : t'.SmsType = t.SmsType := by subst ht'; unfold TPDU.SmsType; rw [hdir]
    have hs : t.SmsType = SmsDeliverReport := by rw [hst]; decide
    obtain ⟨o1, o2, o3⟩ := opt_back (t := t) (t' := t') hdcs (by subst ht'; rfl) (by subst ht'; rfl) (by subst ht'; rfl)
      (by subst ht'; rfl) (by subst ht'; rfl) (by subst ht'; rfl)
    have hm : t'.MarshalBinary = .ok p := by
      rw [← h]
      unfold TPDU.MarshalBinary
      rw [hst', hs]
      unfold TPDU.marshalDeliverReport TPDU.marshalSubmitReport TPDU.marshalStatusReport
      rw [o1, o2]
      subst ht'
      rfl
    have hd' : t'.Direction = MO := by subst ht'; rfl
    have := (back_ok t' (.inl hd') p hm (by rw [hd']; exact h')).2.2.1 (hst'.trans hs)
    have hopt := o3 this.2
    subst ht'
    exact ⟨this.1, hopt⟩
  · intro h
    exact deliverReport_rt t hdir hmti h.1 h.2

/-- C105, for a submit report, likewise. -/
theorem C105_submit_report (t : TPDU) (hdir : t.Direction = MT) (hmti : FirstOctet.MTI t.FirstOctet = 1)
    (hdcs : PI.UDL t.PI = true → PI.DCS t.PI = false → t.DCS = 0) :
    (∃ p, t.MarshalBinary = .ok p ∧ ({ Direction := MT } : TPDU).UnmarshalBinary p = .ok
      { Direction := MT, FirstOctet := t.FirstOctet, FCS := t.FCS, SCTS := t.SCTS,
        PI := t.PI, PID := if PI.PID t.PI then t.PID else 0, DCS := if PI.DCS t.PI then t.DCS else 0,
        UDH := if PI.UDL t.PI then t.UDH else [], UD := if PI.UDL t.PI then t.UD else [] }) ↔ SubmitReportOk t := by
  constructor
  · rintro ⟨p, h, h'⟩
    have hst := smsType_of t _ _ hmti hdir
    generalize ht' : ({ Direction := MT, FirstOctet := t.FirstOctet, FCS := t.FCS, SCTS := t.SCTS, PI := t.PI, PID := if PI.PID t.PI then t.PID else 0, DCS := if PI.DCS t.PI then t.DCS else 0, UDH := if PI.UDL t.PI then t.UDH else [], UD := if PI.UDL t.PI then t.UD else [] } : TPDU) = t' at h'
    have hst' : t'.SmsType = t.SmsType := by subst ht'; unfold TPDU.SmsType; rw [hdir]
    have hs : t.SmsType = SmsSubmitReport := by rw [hst]; decide
    obtain ⟨o1, o2, o3⟩ := opt_back (t := t) (t' := t') hdcs (by subst ht'; rfl) (by subst ht'; rfl) (by subst ht'; rfl)
      (by subst ht'; rfl) (by subst ht'; rfl) (by subst ht'; rfl)
    have hm : t'.MarshalBinary = .ok p := by
      rw [← h]
      unfold TPDU.MarshalBinary
      rw [hst', hs]
      unfold TPDU.marshalDeliverReport TPDU.marshalSubmitReport TPDU.marshalStatusReport
      rw [o1, o2]
      subst ht'
      rfl
    have hd' : t'.Direction = MT := by subst ht'; rfl
    have := (back_ok t' (.inr hd') p hm (by rw [hd']; exact h')).2.2.2.1 (hst'.trans hs)
    have hopt := o3 this.2.2
    subst ht'
    exact ⟨this.1, this.2.1, hopt⟩
  · intro h
    exact submitReport_rt t hdir hmti h.1 h.2.1 h.2.2

/-- The condition on the DCS is met by the examples of C25 and C27. -/
example : (PI.UDL exStatus.PI = true → PI.DCS exStatus.PI = false → exStatus.DCS = 0) ∧
    (PI.UDL (exReport MO 0).PI = true → PI.DCS (exReport MO 0).PI = false → (exReport MO 0).DCS = 0) := by decide

/-- The conditions on each are met by the examples of C23 to C26; a submit whose first octet does not name the format of
its period does not come back. -/
example : SubmitOk exSubmit ∧ ¬ SubmitOk { exSubmit with FirstOctet := 0x41 } :=
  ⟨⟨.inl (by decide), .relative 5 (by decide), by decide, by decide, by decide, by decide, by decide, by decide⟩,
    fun h => absurd h.2.2.1 (by decide)⟩

end Verif.Props
