import Verif.Proofs.Ignored

/-! C120: what of a TPDU does not matter. -/

namespace Verif.Props
open Verif.Model Verif.Model.Collector Verif.Spec Verif.Proofs.Ignored

/-- C120: TPDUs that have the same use have the same text, or the same error. -/
theorem C120_decode (segs segs' : List TPDU) (options : List CharsetOpt) (h : Both SameUse segs segs') :
    Sms.Decode segs options = Sms.Decode segs' options :=
  decodeLoop_same _ h []

/-- C120: and one is a complete message exactly if the other is. -/
theorem C120_complete (segs segs' : List TPDU) (h : Both SameUse segs segs') :
    Sms.IsCompleteMessage segs = Sms.IsCompleteMessage segs' := by
  have hl := both_length h
  cases h with
  | nil => rfl
  | cons h1 h2 =>
    have h3 := completeLoop_same
    unfold Sms.IsCompleteMessage
    have hc : ∀ {t t' : TPDU}, SameUse t t' → t.ConcatInfo = t'.ConcatInfo := fun h => concat_same h.udh
    simp only [hc h1, hl]
    split
    · rfl
    · split
      · rfl
      · exact h3 _ _ (.cons h1 h2) 0

/-- C120: a Collector is told apart from another by nothing else: whatever happens to both, with TPDUs that have the same
use, the calls and the handler get the TPDUs of the same calls, in the same places, and the same errors. -/
theorem C120_collect (timeout handler : Bool) (es es' : List Event) (h : Both SameEvent es es') :
    match run (New timeout handler) es, run (New timeout handler) es' with
    | .ok (_, os), .ok (_, os') => Both SameOutput os os'
    | .error f, .error f' => f = f'
    | _, _ => False := by
  have hr := run_E h (New timeout handler) (New timeout handler) rfl
  cases h1 : run (New timeout handler) es with
  | error f =>
    rw [h1] at hr
    cases h2 : run (New timeout handler) es' with
    | error f' => rw [h2] at hr; cases hr; rfl
    | ok q' => rw [h2] at hr; cases hr
  | ok q =>
    rw [h1] at hr
    cases h2 : run (New timeout handler) es' with
    | error f' => rw [h2] at hr; cases hr
    | ok q' =>
      rw [h2] at hr
      have hr := (Prod.mk.inj (Except.ok.inj hr)).2
      exact both_of_map (fun a b => out_same) q.2 q'.2 hr

/-- C120: so whole messages that are returned have the same text. -/
theorem C120_text (d d' : List (Option Ptr)) (options : List CharsetOpt) (h : Both SamePlace d d') :
    Sms.Decode (d.filterMap (·.map Ptr.pdu)) options = Sms.Decode (d'.filterMap (·.map Ptr.pdu)) options := by
  apply C120_decode
  induction h with
  | nil => exact .nil
  | cons h1 _ ih =>
    cases h1 with
    | none => exact ih
    | some _ hu => exact .cons hu ih

/-- C120: in particular an information element of another kind, anywhere in the header, changes nothing of this, nor do the
fields of a TPDU that are not named in `SameUse`. -/
theorem C120_element (t : TPDU) (before after : List IE) (ie : IE) (hid : ie.ID ∉ [0, 8, 24, 25]) (fo mr pid : UInt8)
    (scts : GoTime) (hmti : fo &&& 3 = t.FirstOctet &&& 3) :
    SameUse { t with UDH := before ++ after }
      { t with FirstOctet := fo, MR := mr, PID := pid, SCTS := scts, UDH := before ++ ie :: after } := by
  have hm : TPDU.SmsType { t with FirstOctet := fo, MR := mr, PID := pid, SCTS := scts, UDH := before ++ ie :: after } =
      TPDU.SmsType { t with UDH := before ++ after } := by
    unfold TPDU.SmsType FirstOctet.MTI
    show smsType (fo &&& 3) t.Direction = smsType (t.FirstOctet &&& 3) t.Direction
    rw [hmti]
  refine ⟨hm.symm, rfl, rfl, rfl, rfl, ?_⟩
  have hu : Heeded ie = false := by
    simp only [List.mem_cons, List.not_mem_nil, or_false, not_or] at hid
    simp [Heeded, hid]
  simp [List.filter_append, hu]

/-- Beside C120: two parts of a message in UCS-2, and the same with a port element before, between or after what matters; both
come back complete at the second part, and a character split between them is the same. -/
example :
    let a (ies : List IE) (n : UInt8) (ud : List UInt8) : TPDU := { FirstOctet := 0x40, DCS := 8, UDH := ies ++ [⟨0, [7, 2, n]⟩], UD := ud }
    let es := [Event.collect (a [] 1 [0xd8, 0x3d]), .collect (a [] 2 [0xde, 0x00])]
    let es' := [Event.collect (a [⟨5, [1, 2, 3, 4]⟩] 1 [0xd8, 0x3d]), .collect (a [⟨4, [1, 2]⟩] 2 [0xde, 0x00])]
    Both SameEvent es es' ∧
    ((run (New true true) es).map fun r => r.2.length) = .ok 2 ∧
    ((run (New true true) es').map fun r => r.2.map fun o => match o with
      | .returned d none => (Sms.Decode (d.filterMap (·.map Ptr.pdu)) []).toOption
      | _ => none) = .ok [some [], some [0xf0, 0x9f, 0x98, 0x80]] := by
  refine ⟨.cons (.collect ⟨rfl, rfl, rfl, rfl, rfl, rfl⟩) (.cons (.collect ⟨rfl, rfl, rfl, rfl, rfl, rfl⟩) .nil), ?_, ?_⟩ <;>
    decide +kernel

end Verif.Props
