import Verif.Proofs.Safe
import Verif.Proofs.Tpdu
import Verif.Model.Sms

/-! C28, C31: decoding arbitrary bytes. -/

namespace Verif.Props
open Verif.Model Verif.Proofs

/-- The name of a TPDU type, by direction (0 to the mobile, 1 from it) and message type indicator. -/
def typeName (d : Int) (mti : Nat) : Option String :=
  if d = 0 then [some "SmsDeliver", some "SmsSubmitReport", some "SmsStatusReport"].getD mti none
  else [some "SmsDeliverReport", some "SmsSubmit", some "SmsCommand"].getD mti none

/-- The six types. -/
def sixTypes : List UInt8 := [SmsDeliver, SmsDeliverReport, SmsSubmitReport, SmsSubmit, SmsStatusReport, SmsCommand]

/-- What `UnmarshalBinary` does with any non-empty input: it either reports the type as unsupported, or runs
one of the six decoders on the rest and prefixes its errors. -/
theorem unmarshal_cases (t : TPDU) (fo : UInt8) (body : Bytes) :
    smsType (FirstOctet.MTI fo) t.Direction ∉ sixTypes ∧ t.UnmarshalBinary (fo :: body) =
      fail (.decode "tpdu.firstOctet" 0 (.unsupportedSmsType (smsType (FirstOctet.MTI fo) t.Direction))) ∨
    smsType (FirstOctet.MTI fo) t.Direction ∈ sixTypes ∧ ∃ name m, t.UnmarshalBinary (fo :: body) = wrapD name 1 m ∧ name = smsTypeString (smsType (FirstOctet.MTI fo) t.Direction) ∧
      Safe body.length m (fun _ => True) := by
  have e : ({ t with FirstOctet := fo } : TPDU).SmsType = smsType (FirstOctet.MTI fo) t.Direction := rfl
  by_cases h : smsType (FirstOctet.MTI fo) t.Direction = SmsDeliver
  · rw [h] at e ⊢; rw [unmarshal_Deliver t fo e]; exact .inr ⟨by decide, _, _, rfl, rfl, safe_deliver _ _⟩
  by_cases h : smsType (FirstOctet.MTI fo) t.Direction = SmsDeliverReport
  · rw [h] at e ⊢; rw [unmarshal_DeliverReport t fo e]; exact .inr ⟨by decide, _, _, rfl, rfl, safe_deliverReport _ _⟩
  by_cases h : smsType (FirstOctet.MTI fo) t.Direction = SmsSubmitReport
  · rw [h] at e ⊢; rw [unmarshal_SubmitReport t fo e]; exact .inr ⟨by decide, _, _, rfl, rfl, safe_submitReport _ _⟩
  by_cases h : smsType (FirstOctet.MTI fo) t.Direction = SmsSubmit
  · rw [h] at e ⊢; rw [unmarshal_Submit t fo e]; exact .inr ⟨by decide, _, _, rfl, rfl, safe_submit _ _⟩
  by_cases h : smsType (FirstOctet.MTI fo) t.Direction = SmsStatusReport
  · rw [h] at e ⊢; rw [unmarshal_StatusReport t fo e]; exact .inr ⟨by decide, _, _, rfl, rfl, safe_statusReport _ _⟩
  by_cases h : smsType (FirstOctet.MTI fo) t.Direction = SmsCommand
  · rw [h] at e ⊢; rw [unmarshal_Command t fo e]; exact .inr ⟨by decide, _, _, rfl, rfl, safe_command _ _⟩
  left
  refine ⟨by simp [sixTypes, *], ?_⟩
  unfold TPDU.UnmarshalBinary
  rw [if_neg (by simp)]
  simp only [idx_zero_cons, ok_bind, slice_tail, e]
  simp only [*, if_false]
  rfl

/-- C28: on every input, whatever the receiver held before, `UnmarshalBinary` returns a TPDU or an error. -/
theorem C28_no_panic (t : TPDU) (src : List UInt8) :
    (∃ t', t.UnmarshalBinary src = .ok t') ∨ ∃ e, t.UnmarshalBinary src = .error (.err e) := by
  cases src with
  | nil => exact .inr ⟨_, rfl⟩
  | cons fo body =>
    rcases unmarshal_cases t fo body with ⟨_, h⟩ | ⟨_, name, m, h, _, hs⟩
    · exact .inr ⟨_, h⟩
    · rw [h]
      unfold Safe at hs
      split at hs
      · exact .inl ⟨_, rfl⟩
      · exact .inr ⟨_, rfl⟩
      · exact hs.elim

/-- C28: the same for `sms.Unmarshal`. -/
theorem C28_sms_no_panic (src : List UInt8) (d : Int) :
    (∃ t', Sms.Unmarshal src d = .ok t') ∨ ∃ e, Sms.Unmarshal src d = .error (.err e) := C28_no_panic _ src

theorem newDecodeError_form (f : String) (o : Nat) (e : Err) :
    ∃ f' e', newDecodeError f o e = .decode f' (o + errOff e) e' ∧ (f' = f ∨ ∃ r, f' = f ++ "." ++ r) := by
  unfold newDecodeError
  split
  · exact ⟨_, _, by rw [Nat.add_comm]; rfl, .inr ⟨_, rfl⟩⟩
  · exact ⟨_, _, rfl, .inl rfl⟩
  · rename_i h1 h2
    refine ⟨f, e, ?_, .inl rfl⟩
    cases e <;> first | rfl | exact (h1 _ _ _ rfl).elim

/-- C31: every error is a decode error whose offset lies within the input, or just after its end. -/
theorem C31_offset (t : TPDU) (src : List UInt8) (e : Err) (h : t.UnmarshalBinary src = .error (.err e)) :
    ∃ f o e', e = .decode f o e' ∧ o ≤ src.length := by
  cases src with
  | nil => cases h; exact ⟨_, _, _, rfl, Nat.zero_le _⟩
  | cons fo body =>
    rcases unmarshal_cases t fo body with ⟨_, h'⟩ | ⟨_, name, m, h', _, hs⟩
    · rw [h'] at h; cases h; exact ⟨_, _, _, rfl, Nat.zero_le _⟩
    · rw [h'] at h
      unfold Safe at hs
      unfold wrapD at h
      split at hs
      · cases h
      · cases h
        obtain ⟨f', e', h1, _⟩ := newDecodeError_form name 1 ‹_›
        exact ⟨_, _, _, h1, by simp; omega⟩
      · cases h

theorem typeName_mt : ∀ fo : UInt8, typeName 0 (fo.toNat % 4) =
    if fo.toNat % 4 = 3 then none else some (smsTypeString (smsType (FirstOctet.MTI fo) MT)) := by
  apply forall_u8; decide +kernel

theorem typeName_mo : ∀ fo : UInt8, typeName 1 (fo.toNat % 4) =
    if fo.toNat % 4 = 3 then none else some (smsTypeString (smsType (FirstOctet.MTI fo) MO)) := by
  apply forall_u8; decide +kernel

theorem smsType_six : ∀ fo : UInt8, ∀ d ∈ [MT, MO], smsType (FirstOctet.MTI fo) d ∈ sixTypes ↔ fo.toNat % 4 ≠ 3 := by
  apply forall_u8; decide +kernel

/-- C31: without a first octet, or with a reserved type, the error names the first octet; otherwise its path
starts with the name of the TPDU's type. -/
theorem C31_field (t : TPDU) (src : List UInt8) (e : Err) (hd : t.Direction = 0 ∨ t.Direction = 1)
    (h : t.UnmarshalBinary src = .error (.err e)) :
    match src with
    | [] => e = .decode "tpdu.firstOctet" 0 .underflow
    | fo :: _ => match typeName t.Direction (fo.toNat % 4) with
      | none => ∃ st, e = .decode "tpdu.firstOctet" 0 (.unsupportedSmsType st)
      | some name => ∃ f o e', e = .decode f o e' ∧ (f = name ∨ ∃ r, f = name ++ "." ++ r) := by
  cases src with
  | nil => cases h; rfl
  | cons fo body =>
    have hn : typeName t.Direction (fo.toNat % 4) = if fo.toNat % 4 = 3 then none else
        some (smsTypeString (smsType (FirstOctet.MTI fo) t.Direction)) := by
      rcases hd with hd | hd
      · rw [hd]; exact typeName_mt fo
      · rw [hd]; exact typeName_mo fo
    simp only
    rw [hn]
    have h6 := smsType_six fo t.Direction (by rcases hd with hd | hd <;> rw [hd] <;> decide)
    rcases unmarshal_cases t fo body with ⟨hm, h'⟩ | ⟨hm, name, m, h', hname, hs⟩
    · rw [if_pos (Decidable.of_not_not fun x => hm (h6.mpr x))]
      rw [h'] at h
      cases h
      exact ⟨_, rfl⟩
    · rw [if_neg (h6.mp hm)]
      rw [h'] at h
      unfold Safe at hs
      unfold wrapD at h
      split at hs
      · cases h
      · cases h
        obtain ⟨f', e', h1, h2⟩ := newDecodeError_form name 1 ‹_›
        exact ⟨_, _, _, h1, hname ▸ h2⟩
      · cases h

/-- Errors deep inside, at the end, and at the start. -/
example : Sms.Unmarshal [0x40, 0x01, 0x91, 0xf1, 0, 4, 0, 0, 0, 0, 0, 0, 0, 2, 3, 0] MT =
    fail (.decode "SmsDeliver.ud.udh.ie" 15 .underflow) := by decide +kernel
example : Sms.Unmarshal [0x01] MO = fail (.decode "SmsSubmit.mr" 1 .underflow) := by decide +kernel
example : Sms.Unmarshal [0x03] MO = fail (.decode "tpdu.firstOctet" 0 (.unsupportedSmsType 7)) := by decide +kernel

end Verif.Props
