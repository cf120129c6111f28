import Verif.Spec.WellFormed
import Verif.Proofs.Tpdu
import Verif.Proofs.TpduExact

/-! C23–C27: binary round trips of the six TPDU types.  `Verif.Spec.WellFormed` says which fields are
representable.  Each theorem gives the decoded TPDU exactly: the fields listed are those of the original,
every field not listed has its zero value, in a TPDU fresh except for its direction. -/

namespace Verif.Props
open Verif.Model Verif.Spec Verif.Proofs

/-- C23: SMS-SUBMIT. -/
theorem C23_submit_roundtrip (t : TPDU) (hdir : t.Direction = MO) (hmti : FirstOctet.MTI t.FirstOctet = 1)
    (hda : AddrOk t.DA) (hvp : VpOk t.VP) (hvpf : FirstOctet.VPF t.FirstOctet = t.VP.Format) (hud : UdOk t) :
    ∃ p, t.MarshalBinary = .ok p ∧ ({ Direction := MO } : TPDU).UnmarshalBinary p = .ok
      { Direction := MO, FirstOctet := t.FirstOctet, MR := t.MR, DA := t.DA, PID := t.PID, DCS := t.DCS,
        VP := t.VP, UDH := t.UDH, UD := t.UD } := submit_rt t hdir hmti hda hvp hvpf hud

/-- A submit with all parts: header, relative validity period, 7-bit text. -/
def exSubmit : TPDU :=
  { Direction := MO, FirstOctet := 0x51, MR := 7, DA := ⟨0x91, [0x31, 0x32, 0x33]⟩, PID := 1, DCS := 0,
    VP := { Format := VpfRelative, Duration := relativeToDuration 5 },
    UDH := [⟨0, [3, 2, 1]⟩], UD := [0x48, 0x69] }

example : exSubmit.Direction = MO ∧ FirstOctet.MTI exSubmit.FirstOctet = 1 ∧ AddrOk exSubmit.DA ∧ VpOk exSubmit.VP ∧
    FirstOctet.VPF exSubmit.FirstOctet = exSubmit.VP.Format ∧ UdOk exSubmit :=
  ⟨rfl, by decide, .inl (by decide), .relative 5 (by decide), by decide,
    ⟨by decide, by decide, by decide, by decide, by decide⟩⟩

/-- C24: SMS-DELIVER. -/
theorem C24_deliver_roundtrip (t : TPDU) (hdir : t.Direction = MT) (hmti : FirstOctet.MTI t.FirstOctet = 0)
    (hoa : AddrOk t.OA) (hts : TimeOk t.SCTS) (hud : UdOk t) :
    ∃ p, t.MarshalBinary = .ok p ∧ ({ Direction := MT } : TPDU).UnmarshalBinary p = .ok
      { Direction := MT, FirstOctet := t.FirstOctet, OA := t.OA, PID := t.PID, DCS := t.DCS,
        SCTS := t.SCTS, UDH := t.UDH, UD := t.UD } := deliver_rt t hdir hmti hoa hts hud

/-- A UCS-2 deliver from an alphanumeric address. -/
def exDeliver : TPDU :=
  { Direction := MT, FirstOctet := 0x00, OA := ⟨0xd0, [0x48, 0x69]⟩, PID := 1, DCS := 8,
    SCTS := ⟨1700000000, 0, 3600⟩, UD := [0x4e, 0x2d] }

example : exDeliver.Direction = MT ∧ FirstOctet.MTI exDeliver.FirstOctet = 0 ∧ AddrOk exDeliver.OA ∧ TimeOk exDeliver.SCTS ∧
    UdOk exDeliver :=
  ⟨rfl, by decide, .inr ⟨by decide, by decide, [0x48, 0x69], by decide +kernel, by decide⟩,
    ⟨rfl, by decide +kernel, by decide +kernel, 4, by decide, by decide, by decide⟩,
    ⟨by decide, by decide, by decide, by decide, by decide⟩⟩

/-- C25: SMS-STATUS-REPORT, for every parameter indicator. -/
theorem C25_status_report_roundtrip (t : TPDU) (hdir : t.Direction = MT) (hmti : FirstOctet.MTI t.FirstOctet = 2)
    (hra : AddrOk t.RA) (hts : TimeOk t.SCTS) (hdt : TimeOk t.DT) (hopt : OptOk t) :
    ∃ p, t.MarshalBinary = .ok p ∧ ({ Direction := MT } : TPDU).UnmarshalBinary p = .ok
      { Direction := MT, FirstOctet := t.FirstOctet, MR := t.MR, RA := t.RA, SCTS := t.SCTS, DT := t.DT, ST := t.ST,
        PI := t.PI, PID := if PI.PID t.PI then t.PID else 0, DCS := if PI.DCS t.PI then t.DCS else 0,
        UDH := if PI.UDL t.PI then t.UDH else [], UD := if PI.UDL t.PI then t.UD else [] } :=
  status_rt t hdir hmti hra hts hdt hopt

/-- A status report with all optional fields. -/
def exStatus : TPDU :=
  { Direction := MT, FirstOctet := 0x02, MR := 9, RA := ⟨0x91, [0x31, 0x32, 0x33]⟩, PID := 1, DCS := 4, PI := 7, ST := 3,
    SCTS := ⟨1700000000, 0, 3600⟩, DT := ⟨1700000005, 0, 3600⟩, UD := [1, 2, 3] }

example : exStatus.Direction = MT ∧ FirstOctet.MTI exStatus.FirstOctet = 2 ∧ AddrOk exStatus.RA ∧ TimeOk exStatus.SCTS ∧
    TimeOk exStatus.DT ∧ OptOk exStatus :=
  ⟨rfl, by decide, .inl (by decide),
    ⟨rfl, by decide +kernel, by decide +kernel, 4, by decide, by decide, by decide⟩,
    ⟨rfl, by decide +kernel, by decide +kernel, 4, by decide, by decide, by decide⟩,
    ⟨fun _ => ⟨by decide, by decide, by decide, by decide, by decide⟩, by decide⟩⟩

/-- C26, partial: SMS-COMMAND without a header.  Missing: a command with a user data header, for which the
property is false (`C26_counterexample`). -/
theorem C26_command_roundtrip_partial (t : TPDU) (hdir : t.Direction = MO) (hmti : FirstOctet.MTI t.FirstOctet = 2)
    (hda : AddrOk t.DA) (hudhi : t.UDHI = false) (hudh : t.UDH = []) (hud : t.UD.length ≤ 255) :
    ∃ p, t.MarshalBinary = .ok p ∧ ({ Direction := MO } : TPDU).UnmarshalBinary p = .ok
      { Direction := MO, FirstOctet := t.FirstOctet, MR := t.MR, PID := t.PID, CT := t.CT, MN := t.MN, DA := t.DA,
        DCS := DCS.Dcs8BitData, UDH := t.UDH, UD := t.UD } := by
  rw [hudh]; exact command_rt t hdir hmti hda (.inl hudhi) hud

/-- A command with command data. -/
def exCommand : TPDU :=
  { Direction := MO, FirstOctet := 0x02, MR := 9, DA := ⟨0x91, [0x31, 0x32, 0x33]⟩, PID := 1, CT := 2, MN := 3, UD := [1, 2, 3] }

example : exCommand.Direction = MO ∧ FirstOctet.MTI exCommand.FirstOctet = 2 ∧ AddrOk exCommand.DA ∧ exCommand.UDHI = false ∧
    exCommand.UDH = [] ∧ exCommand.UD.length ≤ 255 :=
  ⟨rfl, by decide, .inl (by decide), by decide, rfl, by decide⟩

/-- C26 is false for a command with a header: `marshalCommand` leaves the header out, and what it produces
for this well-formed command cannot be decoded. -/
theorem C26_counterexample :
    let t : TPDU := { Direction := MO, FirstOctet := 0x42, DA := ⟨0x91, [0x31]⟩, DCS := DCS.Dcs8BitData,
                      UDH := [⟨0, [3, 2, 1]⟩], UD := [0xff] }
    AddrOk t.DA ∧ UdOk t ∧ ∃ p, t.MarshalBinary = .ok p ∧ ∀ t', ({ Direction := MO } : TPDU).UnmarshalBinary p ≠ .ok t' := by
  refine ⟨.inl (by decide), ⟨by decide, by decide, by decide, by decide, by decide⟩,
    [0x42, 0, 0, 0, 0, 1, 0x91, 0xf1, 1, 0xff], by decide +kernel, fun t' => ?_⟩
  have : ({ Direction := MO } : TPDU).UnmarshalBinary [0x42, 0, 0, 0, 0, 1, 0x91, 0xf1, 1, 0xff] =
      .error (.err (.decode "SmsCommand.ud.udh.ie" 10 .underflow)) := by decide +kernel
  rw [this]; simp

/-- C26: exactly which commands round-trip: those without a header whose first octet does not announce one, unless
there is no command data either. -/
theorem C26_exact (t : TPDU) (hdir : t.Direction = MO) (hmti : FirstOctet.MTI t.FirstOctet = 2) (hda : AddrOk t.DA)
    (hud : t.UD.length ≤ 255) :
    (∃ p, t.MarshalBinary = .ok p ∧ ({ Direction := MO } : TPDU).UnmarshalBinary p = .ok
      { Direction := MO, FirstOctet := t.FirstOctet, MR := t.MR, PID := t.PID, CT := t.CT, MN := t.MN, DA := t.DA,
        DCS := DCS.Dcs8BitData, UDH := t.UDH, UD := t.UD }) ↔ t.UDH = [] ∧ (t.UDHI = false ∨ t.UD = []) :=
  command_exact t hdir hmti hda hud

/-- The example after `C26_command_roundtrip_partial` is one that does, and this is one that does not. -/
example : AddrOk ⟨0x91, [0x31]⟩ ∧ ({ Direction := MO, FirstOctet := 0x42, UD := [0xff] } : TPDU).UDHI = true :=
  ⟨.inl (by decide), by decide⟩

/-- C27, partial: SMS-DELIVER-REPORT for RP-ERROR (FCS not 0).  Missing: FCS 0, for which the property is
false (`C27_counterexample`). -/
theorem C27_deliver_report_roundtrip_partial (t : TPDU) (hdir : t.Direction = MO) (hmti : FirstOctet.MTI t.FirstOctet = 0)
    (hfcs : t.FCS ≠ 0) (hopt : OptOk t) :
    ∃ p, t.MarshalBinary = .ok p ∧ ({ Direction := MO } : TPDU).UnmarshalBinary p = .ok
      { Direction := MO, FirstOctet := t.FirstOctet, FCS := t.FCS,
        PI := t.PI, PID := if PI.PID t.PI then t.PID else 0, DCS := if PI.DCS t.PI then t.DCS else 0,
        UDH := if PI.UDL t.PI then t.UDH else [], UD := if PI.UDL t.PI then t.UD else [] } :=
  deliverReport_rt t hdir hmti hfcs hopt

/-- C27, partial: SMS-SUBMIT-REPORT for RP-ERROR (FCS not 0).  Missing: FCS 0, for which the property is
false (`C27_counterexample`). -/
theorem C27_submit_report_roundtrip_partial (t : TPDU) (hdir : t.Direction = MT) (hmti : FirstOctet.MTI t.FirstOctet = 1)
    (hfcs : t.FCS ≠ 0) (hts : TimeOk t.SCTS) (hopt : OptOk t) :
    ∃ p, t.MarshalBinary = .ok p ∧ ({ Direction := MT } : TPDU).UnmarshalBinary p = .ok
      { Direction := MT, FirstOctet := t.FirstOctet, FCS := t.FCS, SCTS := t.SCTS,
        PI := t.PI, PID := if PI.PID t.PI then t.PID else 0, DCS := if PI.DCS t.PI then t.DCS else 0,
        UDH := if PI.UDL t.PI then t.UDH else [], UD := if PI.UDL t.PI then t.UD else [] } :=
  submitReport_rt t hdir hmti hfcs hts hopt

/-- C27: exactly which deliver reports round-trip: those with a failure cause. -/
theorem C27_deliver_report_exact (t : TPDU) (hdir : t.Direction = MO) (hmti : FirstOctet.MTI t.FirstOctet = 0) (hopt : OptOk t) :
    (∃ p, t.MarshalBinary = .ok p ∧ ({ Direction := MO } : TPDU).UnmarshalBinary p = .ok
      { Direction := MO, FirstOctet := t.FirstOctet, FCS := t.FCS,
        PI := t.PI, PID := if PI.PID t.PI then t.PID else 0, DCS := if PI.DCS t.PI then t.DCS else 0,
        UDH := if PI.UDL t.PI then t.UDH else [], UD := if PI.UDL t.PI then t.UD else [] }) ↔ t.FCS ≠ 0 :=
  deliverReport_exact t hdir hmti hopt

/-- C27: exactly which submit reports round-trip: those with a failure cause. -/
theorem C27_submit_report_exact (t : TPDU) (hdir : t.Direction = MT) (hmti : FirstOctet.MTI t.FirstOctet = 1)
    (hts : TimeOk t.SCTS) (hopt : OptOk t) :
    (∃ p, t.MarshalBinary = .ok p ∧ ({ Direction := MT } : TPDU).UnmarshalBinary p = .ok
      { Direction := MT, FirstOctet := t.FirstOctet, FCS := t.FCS, SCTS := t.SCTS,
        PI := t.PI, PID := if PI.PID t.PI then t.PID else 0, DCS := if PI.DCS t.PI then t.DCS else 0,
        UDH := if PI.UDL t.PI then t.UDH else [], UD := if PI.UDL t.PI then t.UD else [] }) ↔ t.FCS ≠ 0 :=
  submitReport_exact t hdir hmti hts hopt

/-- A report with an FCS and 7-bit text; `FirstOctet` 0 makes it a deliver report (MO), 1 a submit report (MT). -/
def exReport (d : Int) (fo : UInt8) : TPDU :=
  { Direction := d, FirstOctet := fo, FCS := 0xd0, PI := 6, DCS := 0, SCTS := ⟨1700000000, 0, 3600⟩, UD := [0x48, 0x69] }

example : (exReport MO 0).FCS ≠ 0 ∧ OptOk (exReport MO 0) ∧ (exReport MT 1).FCS ≠ 0 ∧ TimeOk (exReport MT 1).SCTS ∧
    OptOk (exReport MT 1) :=
  ⟨by decide, ⟨fun _ => ⟨by decide, by decide, by decide, by decide, by decide⟩, by decide⟩,
    by decide, ⟨rfl, by decide +kernel, by decide +kernel, 4, by decide, by decide, by decide⟩,
    ⟨fun _ => ⟨by decide, by decide, by decide, by decide, by decide⟩, by decide⟩⟩

/-- C27 is false for FCS 0 (RP-ACK): the octet is left out when marshalling but expected when unmarshalling,
so the parameter indicator is read as the FCS. -/
theorem C27_counterexample :
    (∃ t : TPDU, t.Direction = MO ∧ FirstOctet.MTI t.FirstOctet = 0 ∧ t.FCS = 0 ∧ OptOk t ∧
      ∃ p, t.MarshalBinary = .ok p ∧ ∃ t', ({ Direction := MO } : TPDU).UnmarshalBinary p = .ok t' ∧
        t'.FCS ≠ t.FCS ∧ t'.PI ≠ t.PI) ∧
    (∃ t : TPDU, t.Direction = MT ∧ FirstOctet.MTI t.FirstOctet = 1 ∧ t.FCS = 0 ∧ TimeOk t.SCTS ∧ OptOk t ∧
      ∃ p, t.MarshalBinary = .ok p ∧ ∀ t', ({ Direction := MT } : TPDU).UnmarshalBinary p ≠ .ok t') := by
  constructor
  · exact ⟨{ Direction := MO, PI := 1, PID := 0 }, rfl, by decide, rfl,
      ⟨fun h => absurd h (by decide), by decide⟩, [0, 1, 0],
      by decide +kernel, { Direction := MO, FCS := 1, PI := 0 }, by decide +kernel, by decide, by decide⟩
  · refine ⟨{ Direction := MT, FirstOctet := 1, SCTS := ⟨1700000000, 0, 3600⟩ }, rfl, by decide, rfl,
      ⟨rfl, by decide +kernel, by decide +kernel, 4, by decide, by decide, by decide⟩, ⟨fun h => absurd h (by decide), by decide⟩,
      [1, 0, 0x32, 0x11, 0x41, 0x32, 0x31, 0x02, 0x40], by decide +kernel, fun t' => ?_⟩
    have : ({ Direction := MT } : TPDU).UnmarshalBinary [1, 0, 0x32, 0x11, 0x41, 0x32, 0x31, 0x02, 0x40] =
        .error (.err (.decode "SmsSubmitReport.scts" 3 .underflow)) := by decide +kernel
    rw [this]; simp

end Verif.Props
