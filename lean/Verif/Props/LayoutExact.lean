import Verif.Props.Layout

/-! C74, exactly, for reports and commands. -/

namespace Verif.Props
open Verif.Model Verif.Spec Verif.Proofs

theorem one_ne : (1 : UInt8) ≠ 0 := by decide

/-- C74: exactly which conforming deliver reports are read as what they say: those with a failure cause. -/
theorem C74_deliver_report_exact (t : TPDU) (p : Bytes) (hdir : t.Direction = MO) (hmti : FirstOctet.MTI t.FirstOctet = 0)
    (hopt : OptOk t) (hf : Fits t) (hw : Wire t p) :
    ({ Direction := MO } : TPDU).UnmarshalBinary p = .ok
      { Direction := MO, FirstOctet := t.FirstOctet, FCS := t.FCS,
        PI := t.PI, PID := if PI.PID t.PI then t.PID else 0, DCS := if PI.DCS t.PI then t.DCS else 0,
        UDH := if PI.UDL t.PI then t.UDH else [], UD := if PI.UDL t.PI then t.UD else [] } ↔ t.FCS ≠ 0 := by
  rw [← C27_deliver_report_exact t hdir hmti hopt]
  obtain ⟨q, hq, _⟩ := C27_deliver_report_roundtrip_partial { t with FCS := 1 } hdir hmti one_ne ⟨fun h => have u := hopt.1 h; ⟨u.1, u.2, u.3, u.4, u.5⟩, hopt.2⟩
  have he : Encodable t := (C71_exact { t with FCS := 1 }).1 ⟨q, hq⟩
  have hm := (C73_exact_partial t p (.inl hdir) hf).2 ⟨he, hw⟩
  refine ⟨fun h => ⟨p, hm, h⟩, ?_⟩
  rintro ⟨p', hm', h⟩
  rw [hm] at hm'
  cases hm'
  exact h

/-- C74: and likewise the submit reports. -/
theorem C74_submit_report_exact (t : TPDU) (p : Bytes) (hdir : t.Direction = MT) (hmti : FirstOctet.MTI t.FirstOctet = 1)
    (hts : TimeOk t.SCTS) (hopt : OptOk t) (hf : Fits t) (hw : Wire t p) :
    ({ Direction := MT } : TPDU).UnmarshalBinary p = .ok
      { Direction := MT, FirstOctet := t.FirstOctet, FCS := t.FCS, SCTS := t.SCTS,
        PI := t.PI, PID := if PI.PID t.PI then t.PID else 0, DCS := if PI.DCS t.PI then t.DCS else 0,
        UDH := if PI.UDL t.PI then t.UDH else [], UD := if PI.UDL t.PI then t.UD else [] } ↔ t.FCS ≠ 0 := by
  rw [← C27_submit_report_exact t hdir hmti hts hopt]
  obtain ⟨q, hq, _⟩ := C27_submit_report_roundtrip_partial { t with FCS := 1 } hdir hmti one_ne hts ⟨fun h => have u := hopt.1 h; ⟨u.1, u.2, u.3, u.4, u.5⟩, hopt.2⟩
  have he : Encodable t := (C71_exact { t with FCS := 1 }).1 ⟨q, hq⟩
  have hm := (C73_exact_partial t p (.inr hdir) hf).2 ⟨he, hw⟩
  refine ⟨fun h => ⟨p, hm, h⟩, ?_⟩
  rintro ⟨p', hm', h⟩
  rw [hm] at hm'
  cases hm'
  exact h

/-- C74: exactly which conforming commands are: those that do not announce a header, or have no command data. -/
theorem C74_command_exact (t : TPDU) (p : Bytes) (hdir : t.Direction = MO) (hmti : FirstOctet.MTI t.FirstOctet = 2)
    (hda : AddrOk t.DA) (hf : Fits t) (hw : Wire t p) :
    ({ Direction := MO } : TPDU).UnmarshalBinary p = .ok
      { Direction := MO, FirstOctet := t.FirstOctet, MR := t.MR, PID := t.PID, CT := t.CT, MN := t.MN, DA := t.DA,
        DCS := DCS.Dcs8BitData, UDH := t.UDH, UD := t.UD } ↔ t.UDH = [] ∧ (t.UDHI = false ∨ t.UD = []) := by
  have hst : t.SmsType = SmsCommand := by rw [smsType_of t _ _ hmti hdir]; decide
  have hud : t.UD.length ≤ 255 := (hf.2.2.2.2.2 hst).2.2
  rw [← C26_exact t hdir hmti hda hud]
  obtain ⟨q, hq, _⟩ := C26_command_roundtrip_partial { t with FirstOctet := 2, UDH := [] } hdir (by decide : FirstOctet.MTI 2 = 2) hda (show FirstOctet.UDHI 2 = false by decide) rfl hud
  have he' : Encodable { t with FirstOctet := 2, UDH := [] } := (C71_exact { t with FirstOctet := 2, UDH := [] }).1 ⟨q, hq⟩
  have he : Encodable t := by
    have hst' : ({ t with FirstOctet := 2, UDH := [] } : TPDU).SmsType = SmsCommand := by
      rw [smsType_of { t with FirstOctet := 2, UDH := [] } 2 MO (by decide : FirstOctet.MTI 2 = 2) hdir]; decide
    unfold Encodable at he' ⊢
    rw [hst'] at he'
    rw [hst]
    rcases he' with h | h | h | h | h | h
    · exact absurd h.1 (by decide)
    · exact absurd h.1 (by decide)
    · exact absurd h.1 (by decide)
    · exact absurd h.1 (by decide)
    · exact absurd h.1 (by decide)
    · exact .inr (.inr (.inr (.inr (.inr ⟨rfl, h.2⟩))))
  have hm := (C73_exact_partial t p (.inl hdir) hf).2 ⟨he, hw⟩
  refine ⟨fun h => ⟨p, hm, h⟩, ?_⟩
  rintro ⟨p', hm', h⟩
  rw [hm] at hm'
  cases hm'
  exact h

/-- A report and a command to which these apply. -/
example : let t : TPDU := { Direction := MO, PI := 1, PID := 0 }
    OptOk t ∧ Fits t ∧ Wire t [0, 1, 0] ∧ t.FCS = 0 :=
  ⟨⟨fun h => absurd h (by decide), fun h => absurd h (by decide)⟩,
    ⟨fun h => absurd h (by decide), fun _ h => absurd h (by decide), fun h => absurd h (by decide), fun h => absurd h (by decide),
      fun h => absurd h (by decide), fun h => absurd h (by decide)⟩, C74_counterexample.1, rfl⟩

example : let t : TPDU := { Direction := MO, FirstOctet := 0x42, DA := ⟨0x91, [0x31]⟩, UD := [0xff] }
    AddrOk t.DA ∧ Fits t ∧ Wire t [0x42, 0, 0, 0, 0, 1, 0x91, 0xf1, 1, 0xff] ∧ t.UDHI = true := by
  have hf : Fits { Direction := MO, FirstOctet := 0x42, DA := ⟨0x91, [0x31]⟩, UD := [0xff] } :=
    ⟨fun h => absurd h (by decide), fun h => absurd h (by decide), fun h => absurd h (by decide), fun h => absurd h (by decide),
      fun h => absurd h (by decide), fun _ => ⟨by unfold AddrFits; decide, rfl, by decide⟩⟩
  exact ⟨.inl (by decide), hf, C73_layout_partial _ _ (.inl rfl) hf (by decide +kernel), by decide⟩

end Verif.Props
