import Verif.Model.Into
import Verif.Spec.Partly
import Verif.Proofs.Into

/-!
C98: when decoding a TPDU fails, the receiver holds what was decoded up to the error.
-/

namespace Verif.Props
open Verif.Model Verif.Spec Verif.Proofs Verif.Proofs.Partly

/-- C98: what the receiver holds after an error is given by `UnmarshalInto`; it fails when `UnmarshalBinary` does, with
the same error, and otherwise leaves the same TPDU. -/
theorem C98_refines (t : TPDU) (src : Bytes) : t.UnmarshalBinary src = match UnmarshalInto src t with
    | (.ok _, t') => .ok t'
    | (.error f, _) => .error f := (into_dropped src t).symm

/-- The decoder of what follows the first octet. -/
private def bodyInto (st : UInt8) : Bytes → Into Unit :=
  if st = SmsDeliver then unmarshalDeliverInto
  else if st = SmsDeliverReport then unmarshalDeliverReportInto
  else if st = SmsSubmitReport then unmarshalSubmitReportInto
  else if st = SmsSubmit then unmarshalSubmitInto
  else if st = SmsStatusReport then unmarshalStatusReportInto
  else unmarshalCommandInto

private theorem into_cons (fo : UInt8) (body : Bytes) (t : TPDU) : UnmarshalInto (fo :: body) t =
    if fieldsOf ({ t with FirstOctet := fo } : TPDU).SmsType = [] then
      (.error (.err (newDecodeError "tpdu.firstOctet" 0 (.unsupportedSmsType ({ t with FirstOctet := fo } : TPDU).SmsType))),
        { t with FirstOctet := 0 })
    else Into.wrap (smsTypeString ({ t with FirstOctet := fo } : TPDU).SmsType) 1 (bodyInto ({ t with FirstOctet := fo } : TPDU).SmsType body)
      { t with FirstOctet := fo } := by
  unfold UnmarshalInto
  rw [if_neg (by simp), bind_eval, idx_zero_cons]
  simp only [bind_assign, bind_this, bind_eval]
  rw [show slice (fo :: body) 1 ((fo :: body).length : Int) = .ok body from drop_slice (fo :: body) 1 (by simp)]
  simp only
  generalize ({ t with FirstOctet := fo } : TPDU).SmsType = st
  unfold fieldsOf bodyInto
  repeat' split
  all_goals first | rfl | simp_all

private theorem body_follows {st : UInt8} (h : fieldsOf st ≠ []) : ∃ l, Follows (fun s t => bodyInto st s t) l ∧ Fine st l := by
  unfold bodyInto
  by_cases h1 : st = SmsDeliver
  · subst h1; exact ⟨_, follows_exec deliver_fine.sound deliver_fine.nodup deliver_exec, deliver_fine⟩
  by_cases h2 : st = SmsDeliverReport
  · subst h2; exact ⟨_, follows_exec deliverReport_fine.sound deliverReport_fine.nodup deliverReport_exec, deliverReport_fine⟩
  by_cases h3 : st = SmsSubmitReport
  · subst h3; exact ⟨_, follows_exec submitReport_fine.sound submitReport_fine.nodup submitReport_exec, submitReport_fine⟩
  by_cases h4 : st = SmsSubmit
  · subst h4; exact ⟨_, follows_exec submit_fine.sound submit_fine.nodup submit_exec, submit_fine⟩
  by_cases h5 : st = SmsStatusReport
  · subst h5; exact ⟨_, status_follows, status_fine⟩
  by_cases h6 : st = SmsCommand
  · subst h6; exact ⟨_, follows_exec command_fine.sound command_fine.nodup command_exec, command_fine⟩
  · exact absurd (by simp [fieldsOf, h1, h2, h3, h4, h5, h6]) h

private theorem binary_ok {fo : UInt8} {body : Bytes} {t r : TPDU} (h : fieldsOf ({ t with FirstOctet := fo } : TPDU).SmsType ≠ []) :
    t.UnmarshalBinary (fo :: body) = .ok r ↔
      bodyInto ({ t with FirstOctet := fo } : TPDU).SmsType body { t with FirstOctet := fo } = (.ok (), r) := by
  rw [C98_refines, into_cons, if_neg h]
  unfold Into.wrap
  rcases bodyInto ({ t with FirstOctet := fo } : TPDU).SmsType body { t with FirstOctet := fo } with ⟨_ | _, t'⟩
  · rename_i f; cases f <;> simp
  · simp

/-- C98, tpdu.go:564-567: "In the case of error the TPDU will be partially unmarshalled, up to the point that the decoding
error was detected."  An error that is not in the first octet names a field, of those of the type; the fields before it
are as they are after any decoding of octets that begin with those read so far (and there are such octets); the fields
after it, and those that the type does not have, are as before.  The field itself is as before, or cleared. -/
theorem C98_partially {src : Bytes} {t t' : TPDU} {e : Err} (h : UnmarshalInto src t = (.error (.err e), t')) :
    (src = [] ∧ t' = t) ∨ ∃ fo body, src = fo :: body ∧
      ((fieldsOf ({ t with FirstOctet := fo } : TPDU).SmsType = [] ∧ t' = { t with FirstOctet := 0 }) ∨
      ∃ st, st = ({ t with FirstOctet := fo } : TPDU).SmsType ∧
      ∃ before field after offset cause, fieldsOf st = before ++ field :: after ∧
        e = newDecodeError (smsTypeString st) 1 (newDecodeError field.name offset cause) ∧
        t'.Direction = t.Direction ∧ t'.FirstOctet = fo ∧
        (∀ f, f ∉ before → f ≠ field → Agree f t' t) ∧
        AtFault st field t t' ∧
        ∃ read, fo :: read <+: src ∧
          (∃ more r, t.UnmarshalBinary (fo :: read ++ more) = .ok r) ∧
          ∀ more r, t.UnmarshalBinary (fo :: read ++ more) = .ok r → ∀ f ∈ before, Agree f t' r) := by
  cases src with
  | nil => left; cases h; exact ⟨rfl, rfl⟩
  | cons fo body =>
    right
    refine ⟨fo, body, rfl, ?_⟩
    rw [into_cons] at h
    by_cases hst : fieldsOf ({ t with FirstOctet := fo } : TPDU).SmsType = []
    · rw [if_pos hst] at h
      cases h
      exact .inl ⟨hst, rfl⟩
    rw [if_neg hst] at h
    right
    refine ⟨_, rfl, ?_⟩
    obtain ⟨l, hF, hl⟩ := body_follows hst
    have hb : ∃ e', bodyInto ({ t with FirstOctet := fo } : TPDU).SmsType body { t with FirstOctet := fo } = (.error (.err e'), t') ∧
        e = newDecodeError (smsTypeString ({ t with FirstOctet := fo } : TPDU).SmsType) 1 e' := by
      unfold Into.wrap at h
      rcases hx : bodyInto ({ t with FirstOctet := fo } : TPDU).SmsType body { t with FirstOctet := fo } with ⟨_ | _, u⟩
      · rw [hx] at h
        rename_i f
        cases f with
        | err e' => cases h; exact ⟨e', rfl, rfl⟩
        | panic k => cases h
      · rw [hx] at h; cases h
    obtain ⟨e', hb, rfl⟩ := hb
    obtain ⟨bef, k, aft, o, e'', pre, P⟩ := partly hF hl hb
    refine ⟨bef, k, aft, o, e'', P.fields, by rw [P.err], P.dir, P.fo, fun f h1 h2 => ?_, ?_, pre, ?_, ?_, ?_⟩
    · have := P.rest f h1 h2
      cases f <;> exact this
    · exact P.fault
    · exact List.cons_prefix_cons.2 ⟨rfl, P.start⟩
    · obtain ⟨tail, r, hr⟩ := P.can
      exact ⟨tail, r, (binary_ok hst).2 hr⟩
    · intro more r hr
      exact P.same more r ((binary_ok hst).1 hr)

/-! Not vacuous: a deliver that ends in the timestamp.  OA and PID are those read, the DCS too; SCTS and UD are as they were. -/
private def used : TPDU := { MR := 9, PID := 8, DCS := 7, UD := [1, 2] }

example : UnmarshalInto [4, 2, 0x91, 0x21, 5, 6, 0x22, 0x30] used =
    (.error (.err (newDecodeError "SmsDeliver" 1 (newDecodeError "scts" 5 .underflow))),
      { used with FirstOctet := 4, OA := ⟨0x91, ['1', '2'].map (fun c => UInt8.ofNat c.toNat)⟩, PID := 5, DCS := 6 }) := by decide +kernel

/-- The PID of a deliver that ends before it becomes 0, but not that of a submit. -/
example : UnmarshalInto [4, 0, 0x91] used =
    (.error (.err (newDecodeError "SmsDeliver" 1 (newDecodeError "pid" 2 .eof))), { used with FirstOctet := 4, OA := ⟨0x91, []⟩, PID := 0 }) := by
  decide +kernel

example : UnmarshalInto [1, 3, 0, 0x91] { used with Direction := MO } =
    (.error (.err (newDecodeError "SmsSubmit" 1 (newDecodeError "pid" 3 .underflow))),
      { used with Direction := MO, FirstOctet := 1, MR := 3, DA := ⟨0x91, []⟩ }) := by decide +kernel

/-- There is a fourth message type, which is not decoded: the first octet is then lost. -/
example : UnmarshalInto [3] { used with Direction := MO, FirstOctet := 1 } =
    (.error (.err (newDecodeError "tpdu.firstOctet" 0 (.unsupportedSmsType 7))), { used with Direction := MO, FirstOctet := 0 }) := by
  decide +kernel

end Verif.Props
