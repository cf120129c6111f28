import Verif.Proofs.Trailing
import Verif.Props.TpduPrefix

/-! C30, C77: what Unmarshal does with octets that follow an accepted TPDU, exactly. -/

namespace Verif.Props
open Verif.Model Verif.Spec Verif.Proofs

/-! Helpers: from the body of a TPDU to the whole of it. -/

theorem split_whole {t0 : TPDU} {fo : UInt8} {body q : Bytes} {k : Nat} {t t' : TPDU} {st : String} {f : Bytes → M TPDU}
    (hu : ∀ b, t0.UnmarshalBinary (fo :: b) = wrapD st 1 (f b)) (hs : Split f body k) (hq : q ≠ [])
    (h : t0.UnmarshalBinary (fo :: body) = .ok t) :
    t0.UnmarshalBinary (fo :: body ++ q) = .ok t' ↔ (fo :: body)[k + 1]? = some 0 ∧ t' = t := by
  rw [hu, wrapD_eq_ok] at h
  rw [List.cons_append, hu, wrapD_eq_ok, split_append hs t t' q hq h]
  rfl

theorem ignores_whole {t0 : TPDU} {fo : UInt8} {body q : Bytes} {k : Nat} {t : TPDU} {st : String} {f : Bytes → M TPDU}
    (hu : ∀ b, t0.UnmarshalBinary (fo :: b) = wrapD st 1 (f b)) (hs : Ignores f body k)
    (h : t0.UnmarshalBinary (fo :: body) = .ok t) : t0.UnmarshalBinary (fo :: body ++ q) = .ok t := by
  rw [List.cons_append, hu, hs.2 q, ← hu, h]

/-! The properties. -/

/-- C30 for SMS-SUBMIT, exactly: octets may follow just if the user data length is 0, and then they change nothing. -/
theorem C30_submit_exact (fo : UInt8) (body q : List UInt8) (t t' : TPDU) (hmti : FirstOctet.MTI fo = 1) (hq : q ≠ [])
    (h : Sms.Unmarshal (fo :: body) MO = .ok t) :
    Sms.Unmarshal (fo :: body ++ q) MO = .ok t' ↔
      (fo :: body)[Trailing.submit (fo :: body)]? = some 0 ∧ t' = t := by
  have hst : ({ Direction := MO, FirstOctet := fo } : TPDU).SmsType = SmsSubmit :=
    (smsType_of { Direction := MO, FirstOctet := fo } 1 MO hmti rfl).trans (by decide)
  have hu := unmarshal_Submit { Direction := MO } fo hst
  have hb := h
  unfold Sms.Unmarshal at hb
  rw [hu, wrapD_eq_ok] at hb
  have key := split_whole (q := q) (t' := t') hu (submit_split _ _ _ hb) hq h
  refine key.trans ?_
  have e : Trailing.submit (fo :: body) = 1 + (2 + (Trailing.octet body 1 + 1) / 2) + 2 +
      (match fo.toNat / 8 % 4 with | 0 => 0 | 2 => 1 | _ => 7) + 1 := by
    show 2 + (2 + (Trailing.octet body 1 + 1) / 2) + 2 + (match fo.toNat / 8 % 4 with | 0 => 0 | 2 => 1 | _ => 7) = _
    omega
  rw [e]
  exact Iff.rfl

/-- C30 for SMS-DELIVER, exactly. -/
theorem C30_deliver_exact (fo : UInt8) (body q : List UInt8) (t t' : TPDU) (hmti : FirstOctet.MTI fo = 0) (hq : q ≠ [])
    (h : Sms.Unmarshal (fo :: body) MT = .ok t) :
    Sms.Unmarshal (fo :: body ++ q) MT = .ok t' ↔
      (fo :: body)[Trailing.deliver (fo :: body)]? = some 0 ∧ t' = t := by
  have hst : ({ Direction := MT, FirstOctet := fo } : TPDU).SmsType = SmsDeliver :=
    (smsType_of { Direction := MT, FirstOctet := fo } 0 MT hmti rfl).trans (by decide)
  have hu := unmarshal_Deliver { Direction := MT } fo hst
  have hb := h
  unfold Sms.Unmarshal at hb
  rw [hu, wrapD_eq_ok] at hb
  have key := split_whole (q := q) (t' := t') hu (deliver_split _ _ _ hb) hq h
  refine key.trans ?_
  have e : Trailing.deliver (fo :: body) = 2 + (Trailing.octet body 0 + 1) / 2 + 2 + 7 + 1 := by
    show 1 + (2 + (Trailing.octet body 0 + 1) / 2) + 2 + 7 = _
    omega
  rw [e]

/-- C77: SMS-COMMAND. -/
theorem C77_command_exact (fo : UInt8) (body q : List UInt8) (t t' : TPDU) (hmti : FirstOctet.MTI fo = 2) (hq : q ≠ [])
    (h : Sms.Unmarshal (fo :: body) MO = .ok t) :
    Sms.Unmarshal (fo :: body ++ q) MO = .ok t' ↔
      (fo :: body)[Trailing.command (fo :: body)]? = some 0 ∧ t' = t := by
  have hst : ({ Direction := MO, FirstOctet := fo } : TPDU).SmsType = SmsCommand :=
    (smsType_of { Direction := MO, FirstOctet := fo } 2 MO hmti rfl).trans (by decide)
  have hu := unmarshal_Command { Direction := MO } fo hst
  have hb := h
  unfold Sms.Unmarshal at hb
  rw [hu, wrapD_eq_ok] at hb
  have key := split_whole (q := q) (t' := t') hu (command_split _ _ _ hb) hq h
  refine key.trans ?_
  have e : Trailing.command (fo :: body) = 4 + (2 + (Trailing.octet body 4 + 1) / 2) + 1 := by
    show 5 + (2 + (Trailing.octet body 4 + 1) / 2) = _
    omega
  rw [e]

/-- C77: SMS-DELIVER-REPORT.  Without a user data length any octets may follow, and they change nothing. -/
theorem C77_deliver_report_exact (fo : UInt8) (body q : List UInt8) (t t' : TPDU) (hmti : FirstOctet.MTI fo = 0) (hq : q ≠ [])
    (h : Sms.Unmarshal (fo :: body) MO = .ok t) :
    Sms.Unmarshal (fo :: body ++ q) MO = .ok t' ↔
      (Trailing.hasLength (fo :: body) 2 → (fo :: body)[Trailing.deliverReport (fo :: body)]? = some 0) ∧ t' = t := by
  have hst : ({ Direction := MO, FirstOctet := fo } : TPDU).SmsType = SmsDeliverReport :=
    (smsType_of { Direction := MO, FirstOctet := fo } 0 MO hmti rfl).trans (by decide)
  have hu := unmarshal_DeliverReport { Direction := MO } fo hst
  have hb := h
  unfold Sms.Unmarshal at hb
  rw [hu, wrapD_eq_ok] at hb
  have hs := deliverReport_split _ _ _ hb
  have e : Trailing.deliverReport (fo :: body) = 2 + (Trailing.octet body 1 % 2 + Trailing.octet body 1 / 2 % 2) + 1 := by
    show 3 + (Trailing.octet body 1 % 2 + Trailing.octet body 1 / 2 % 2) = _
    omega
  have eh : Trailing.hasLength (fo :: body) 2 = (Trailing.octet body 1 / 4 % 2 = 1) := rfl
  rw [e, eh]
  split at hs
  · next hl =>
    refine (split_whole (q := q) (t' := t') hu hs hq h).trans ?_
    simp [hl]
  · next hl =>
    have := ignores_whole (q := q) hu hs h
    unfold Sms.Unmarshal
    rw [this]
    simp only [hl, false_implies, true_and]
    exact ⟨fun x => by cases x; rfl, fun x => by rw [x]⟩

/-- C77: SMS-SUBMIT-REPORT. -/
theorem C77_submit_report_exact (fo : UInt8) (body q : List UInt8) (t t' : TPDU) (hmti : FirstOctet.MTI fo = 1) (hq : q ≠ [])
    (h : Sms.Unmarshal (fo :: body) MT = .ok t) :
    Sms.Unmarshal (fo :: body ++ q) MT = .ok t' ↔
      (Trailing.hasLength (fo :: body) 2 → (fo :: body)[Trailing.submitReport (fo :: body)]? = some 0) ∧ t' = t := by
  have hst : ({ Direction := MT, FirstOctet := fo } : TPDU).SmsType = SmsSubmitReport :=
    (smsType_of { Direction := MT, FirstOctet := fo } 1 MT hmti rfl).trans (by decide)
  have hu := unmarshal_SubmitReport { Direction := MT } fo hst
  have hb := h
  unfold Sms.Unmarshal at hb
  rw [hu, wrapD_eq_ok] at hb
  have hs := submitReport_split _ _ _ hb
  have e : Trailing.submitReport (fo :: body) = 2 + 7 + (Trailing.octet body 1 % 2 + Trailing.octet body 1 / 2 % 2) + 1 := by
    show 3 + 7 + (Trailing.octet body 1 % 2 + Trailing.octet body 1 / 2 % 2) = _
    omega
  have eh : Trailing.hasLength (fo :: body) 2 = (Trailing.octet body 1 / 4 % 2 = 1) := rfl
  rw [e, eh]
  split at hs
  · next hl =>
    refine (split_whole (q := q) (t' := t') hu hs hq h).trans ?_
    simp [hl]
  · next hl =>
    have := ignores_whole (q := q) hu hs h
    unfold Sms.Unmarshal
    rw [this]
    simp only [hl, false_implies, true_and]
    exact ⟨fun x => by cases x; rfl, fun x => by rw [x]⟩

theorem status_index (fo : UInt8) (body : Bytes) :
    Trailing.statusIndicator (fo :: body) = 1 + (2 + (Trailing.octet body 1 + 1) / 2) + 7 + 7 + 1 + 1 := by
  show 2 + (2 + (Trailing.octet body 1 + 1) / 2) + 7 + 7 + 1 = _
  omega

/-- C77: SMS-STATUS-REPORT with a parameter indicator. -/
theorem C77_status_report_exact (fo : UInt8) (body q : List UInt8) (t t' : TPDU) (hmti : FirstOctet.MTI fo = 2) (hq : q ≠ [])
    (h : Sms.Unmarshal (fo :: body) MT = .ok t) (hpi : Trailing.statusIndicator (fo :: body) < (fo :: body).length) :
    Sms.Unmarshal (fo :: body ++ q) MT = .ok t' ↔
      (Trailing.hasLength (fo :: body) (Trailing.statusIndicator (fo :: body)) →
        (fo :: body)[Trailing.statusReport (fo :: body)]? = some 0) ∧ t' = t := by
  have hst : ({ Direction := MT, FirstOctet := fo } : TPDU).SmsType = SmsStatusReport :=
    (smsType_of { Direction := MT, FirstOctet := fo } 2 MT hmti rfl).trans (by decide)
  have hu := unmarshal_StatusReport { Direction := MT } fo hst
  have hb := h
  unfold Sms.Unmarshal at hb
  rw [hu, wrapD_eq_ok] at hb
  rw [status_index, List.length_cons] at hpi
  have hs := statusReport_split _ _ _ hb (by omega)
  unfold Trailing.statusReport Trailing.hasLength Trailing.optionals
  rw [status_index]
  have eo : Trailing.octet (fo :: body) (1 + (2 + (Trailing.octet body 1 + 1) / 2) + 7 + 7 + 1 + 1) =
      Trailing.octet body (1 + (2 + (Trailing.octet body 1 + 1) / 2) + 7 + 7 + 1) := rfl
  rw [eo]
  generalize 1 + (2 + (Trailing.octet body 1 + 1) / 2) + 7 + 7 + 1 = k at *
  generalize Trailing.octet body k = o at *
  rw [show k + 1 + 1 + (o % 2 + o / 2 % 2) = k + 1 + (o % 2 + o / 2 % 2) + 1 by omega]
  split at hs
  · next hl =>
    refine (split_whole (q := q) (t' := t') hu hs hq h).trans ?_
    simp [hl]
  · next hl =>
    have := ignores_whole (q := q) hu hs h
    unfold Sms.Unmarshal
    rw [this]
    simp only [hl, false_implies, true_and]
    exact ⟨fun x => by cases x; rfl, fun x => by rw [x]⟩

/-- C77: what follows an SMS-STATUS-REPORT without a parameter indicator is its parameter indicator and the rest that this announces;
what was read before stays. -/
theorem C77_status_report_bare (fo x : UInt8) (body q : List UInt8) (t t' : TPDU) (hmti : FirstOctet.MTI fo = 2)
    (h : Sms.Unmarshal (fo :: body) MT = .ok t) (hpi : (fo :: body).length ≤ Trailing.statusIndicator (fo :: body))
    (h' : Sms.Unmarshal (fo :: body ++ x :: q) MT = .ok t') :
    t' = { t with PI := x, PID := t'.PID, DCS := t'.DCS, UDH := t'.UDH, UD := t'.UD } ∧ t.PI = 0 ∧ t.PID = 0 ∧ t.DCS = 0 ∧ t.UDH = [] ∧ t.UD = [] := by
  have hst : ({ Direction := MT, FirstOctet := fo } : TPDU).SmsType = SmsStatusReport :=
    (smsType_of { Direction := MT, FirstOctet := fo } 2 MT hmti rfl).trans (by decide)
  have hu := unmarshal_StatusReport { Direction := MT } fo hst
  unfold Sms.Unmarshal at h h'
  rw [List.cons_append, hu, wrapD_eq_ok] at h'
  rw [hu, wrapD_eq_ok] at h
  rw [status_index, List.length_cons] at hpi
  exact statusReport_bare _ t t' body x q rfl h (by omega) h'

/-- A status report without a parameter indicator. -/
def exBare : Bytes := [0x02, 9, 2, 0x91, 0x21, 0x11, 0x10, 0x20, 0x30, 0x40, 0x50, 0x40, 0x11, 0x10, 0x20, 0x30, 0x40, 0x50, 0x40, 0]

example : (∃ t, Sms.Unmarshal exBare MT = .ok t ∧ t.MR = 9) ∧ exBare.length ≤ Trailing.statusIndicator exBare ∧
    (∃ t, Sms.Unmarshal (exBare ++ [1, 7]) MT = .ok t ∧ t.PID = 7) :=
  ⟨⟨_, by rfl, by rfl⟩, by decide, _, by rfl, by rfl⟩

/-- As stated C77 fails: octets after a report that announces no user data are ignored, as are those after a command whose user data
length is 0. -/
theorem C77_counterexample :
    (∃ t, Sms.Unmarshal [0x00, 0x80, 0] MO = .ok t ∧ Sms.Unmarshal ([0x00, 0x80, 0] ++ [1, 2, 3]) MO = .ok t) ∧
    (∃ t, Sms.Unmarshal (exBare ++ [1, 7]) MT = .ok t ∧ Sms.Unmarshal (exBare ++ [1, 7] ++ [1, 2, 3]) MT = .ok t) ∧
    (∃ t, Sms.Unmarshal [0x02, 1, 0, 2, 5, 2, 0x91, 0x21, 0] MO = .ok t ∧
      Sms.Unmarshal ([0x02, 1, 0, 2, 5, 2, 0x91, 0x21, 0] ++ [1, 2, 3]) MO = .ok t) :=
  ⟨⟨_, by rfl, by rfl⟩, ⟨_, by rfl, by rfl⟩, _, by rfl, by rfl⟩

/-- Accepted reports that announce user data: what follows is rejected. -/
example : (∃ t, Sms.Unmarshal [0x00, 0x80, 6, 4, 2, 0x61, 0x62] MO = .ok t ∧ t.UD = [0x61, 0x62]) ∧
    Trailing.hasLength [0x00, 0x80, 6, 4, 2, 0x61, 0x62] 2 ∧ Trailing.deliverReport [0x00, 0x80, 6, 4, 2, 0x61, 0x62] = 4 ∧
    (∃ e, Sms.Unmarshal ([0x00, 0x80, 6, 4, 2, 0x61, 0x62] ++ [0]) MO = .error (.err e)) :=
  ⟨⟨_, by rfl, by rfl⟩, by decide, by decide, _, by rfl⟩

end Verif.Props
