import Verif.Proofs.Cut
import Verif.Props.Tpdu
import Verif.Props.TpduSafe

/-! C78: reports and commands that are cut short. -/

namespace Verif.Props
open Verif.Model Verif.Spec Verif.Proofs

/-- No proper prefix of a well-formed SMS-COMMAND (C26) is accepted. -/
theorem C78_command_partial (t : TPDU) (hdir : t.Direction = MO) (hmti : FirstOctet.MTI t.FirstOctet = 2) (hda : AddrOk t.DA)
    (hudhi : t.UDHI = false ∨ t.UD = []) (hud : t.UD.length ≤ 255) (p q : List UInt8) (hq : q ≠ []) (hm : t.MarshalBinary = .ok (p ++ q)) :
    ∃ e, Sms.Unmarshal p MO = .error (.err e) := by
  rcases C28_sms_no_panic p MO with ⟨t1, h⟩ | h
  · exact absurd h (command_cut t t1 p q hq hdir hmti hda hudhi hud hm)
  · exact h

/-- No proper prefix of a well-formed SMS-DELIVER-REPORT (C27) is accepted. -/
theorem C78_deliver_report_partial (t : TPDU) (hdir : t.Direction = MO) (hmti : FirstOctet.MTI t.FirstOctet = 0) (hfcs : t.FCS ≠ 0)
    (hopt : OptOk t) (p q : List UInt8) (hq : q ≠ []) (hm : t.MarshalBinary = .ok (p ++ q)) :
    ∃ e, Sms.Unmarshal p MO = .error (.err e) := by
  rcases C28_sms_no_panic p MO with ⟨t1, h⟩ | h
  · exact absurd h (deliverReport_cut t t1 p q hq hdir hmti hfcs hopt hm)
  · exact h

/-- No proper prefix of a well-formed SMS-SUBMIT-REPORT (C27) is accepted. -/
theorem C78_submit_report_partial (t : TPDU) (hdir : t.Direction = MT) (hmti : FirstOctet.MTI t.FirstOctet = 1) (hfcs : t.FCS ≠ 0)
    (hts : TimeOk t.SCTS) (hopt : OptOk t) (p q : List UInt8) (hq : q ≠ []) (hm : t.MarshalBinary = .ok (p ++ q)) :
    ∃ e, Sms.Unmarshal p MT = .error (.err e) := by
  rcases C28_sms_no_panic p MT with ⟨t1, h⟩ | h
  · exact absurd h (submitReport_cut t t1 p q hq hdir hmti hfcs hts hopt hm)
  · exact h

/-- The one proper prefix of a well-formed SMS-STATUS-REPORT (C25) that is accepted is the report without all its optional part. -/
theorem C78_status_report_exact (t t1 : TPDU) (hdir : t.Direction = MT) (hmti : FirstOctet.MTI t.FirstOctet = 2) (hra : AddrOk t.RA)
    (hts : TimeOk t.SCTS) (hdt : TimeOk t.DT) (hopt : OptOk t) (p q : List UInt8) (hq : q ≠ []) (hm : t.MarshalBinary = .ok (p ++ q)) :
    Sms.Unmarshal p MT = .ok t1 ↔ t.PI ≠ 0 ∧ ({ t with PI := 0 } : TPDU).MarshalBinary = .ok p ∧
      t1 = { Direction := MT, FirstOctet := t.FirstOctet, MR := t.MR, RA := t.RA, SCTS := t.SCTS, DT := t.DT, ST := t.ST } := by
  have hopt0 : OptOk { t with PI := 0 } := by
    have e3 : ¬ PI.UDL 0 = true := by decide
    exact ⟨fun h => absurd h e3, fun h => absurd h e3⟩
  obtain ⟨m, hm0, hr⟩ := C25_status_report_roundtrip { t with PI := 0 } hdir hmti hra hts hdt hopt0
  have e1 : PI.PID 0 = false := by decide
  have e2 : PI.DCS 0 = false := by decide
  have e3 : PI.UDL 0 = false := by decide
  simp only [e1, e2, e3, Bool.false_eq_true, if_false] at hr
  constructor
  · intro h
    obtain ⟨a, b⟩ := status_cut t t1 p q hq hdir hmti hra hts hdt hopt hm h
    refine ⟨a, b, ?_⟩
    rw [b] at hm0; cases hm0
    unfold Sms.Unmarshal at h
    rw [h] at hr
    cases hr
    rfl
  · rintro ⟨a, b, rfl⟩
    rw [b] at hm0; cases hm0
    exact hr

/-- C78 is false of status reports with optional parts: cut off after the status they are accepted. -/
theorem C78_counterexample : ∃ p q t1, exStatus.MarshalBinary = .ok (p ++ q) ∧ q ≠ [] ∧ exStatus.UD ≠ [] ∧ Sms.Unmarshal p MT = .ok t1 ∧
    t1.UD = [] := by
  refine ⟨[0x02, 9, 3, 0x91, 0x21, 0xf3, 0x32, 0x11, 0x41, 0x32, 0x31, 0x02, 0x40, 0x32, 0x11, 0x41, 0x32, 0x31, 0x52, 0x40, 3],
    [7, 1, 4, 3, 1, 2, 3], _, by decide +kernel, by decide, by decide, by rfl, by rfl⟩

/-- The other hypotheses are met by the examples of C26 and C27. -/
example : exCommand.MarshalBinary = .ok ([0x02, 9, 1, 2, 3, 3, 0x91, 0x21, 0xf3, 3, 1, 2] ++ [3]) ∧
    (exReport MO 0).MarshalBinary = .ok ([0, 0xd0, 6, 0, 2, 0xc8] ++ [0x34]) := by decide +kernel

end Verif.Props
