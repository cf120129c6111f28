import Verif.Proofs.MarshalFault

/-! C92: the error of MarshalBinary. -/

namespace Verif.Props
open Verif.Model Verif.Spec Verif.Proofs

theorem report_marshal (t : TPDU) : Reports t.MarshalBinary (match typeNames.lookup t.SmsType with
    | some name => (fault name t).map fun p => .encode (name ++ "." ++ p.1) p.2
    | none => some (.unsupportedSmsType t.SmsType)) := by
  unfold TPDU.MarshalBinary
  simp only
  by_cases h : t.SmsType = SmsDeliver
  · rw [if_pos h, h]
    refine report_type (o := fault "SmsDeliver" t) ((Reports.bind (report_addrIn _ _) fun _ => .bind (report_timeIn _ _) fun _ =>
      .bind (report_ud t) fun _ => Reports.ok _).congr ?_)
    rw [show (none : Option Err) = Option.map encErr none from rfl]
    simp only [or_map]
    unfold fault; simp
  rw [if_neg h]
  by_cases h1 : t.SmsType = SmsDeliverReport
  · rw [if_pos h1, h1]
    refine report_type (o := fault "SmsDeliverReport" t) ((Reports.bind (report_opt t) fun _ => Reports.ok _).congr ?_)
    rw [show (none : Option Err) = Option.map encErr none from rfl]
    simp only [or_map]
    unfold fault; simp
  rw [if_neg h1]
  by_cases h2 : t.SmsType = SmsSubmitReport
  · rw [if_pos h2, h2]
    refine report_type (o := fault "SmsSubmitReport" t) ((Reports.bind (report_timeIn _ _) fun _ => .bind (report_opt t) fun _ => Reports.ok _).congr ?_)
    rw [show (none : Option Err) = Option.map encErr none from rfl]
    simp only [or_map]
    unfold fault; simp
  rw [if_neg h2]
  by_cases h3 : t.SmsType = SmsSubmit
  · rw [if_pos h3, h3]
    refine report_type (o := fault "SmsSubmit" t) ?_
    unfold TPDU.marshalSubmit
    by_cases hv : t.VP.Format ≠ VpfNotPresent
    · simp only [if_pos hv]
      refine (Reports.bind (report_addrIn _ _) fun _ => .bind (report_ud t) fun _ =>
          .bind (report_vp _) fun _ => Reports.ok _).congr ?_
      rw [show (none : Option Err) = Option.map encErr none from rfl]
      simp only [or_map]
      unfold fault; simp
    · simp only [if_neg hv]
      refine (Reports.bind (report_addrIn _ _) fun _ => .bind (report_ud t) fun _ => Reports.ok _).congr ?_
      rw [show (none : Option Err) = Option.map encErr none from rfl]
      simp only [or_map]
      have : vpFault t.VP = none := by unfold vpFault; simp at hv; simp [hv]
      unfold fault; simp [this]
  rw [if_neg h3]
  by_cases h4 : t.SmsType = SmsStatusReport
  · rw [if_pos h4, h4]
    refine report_type (o := fault "SmsStatusReport" t) ((Reports.bind (report_addrIn _ _) fun _ => .bind (report_timeIn _ _) fun _ =>
      .bind (report_timeIn _ _) fun _ => .bind (report_opt t) (o' := none) fun _ => ?_).congr ?_)
    · simp only; split <;> exact Reports.ok _
    · rw [show (none : Option Err) = Option.map encErr none from rfl]
      simp only [or_map]
      unfold fault; simp
  rw [if_neg h4]
  by_cases h5 : t.SmsType = SmsCommand
  · rw [if_pos h5, h5]
    refine report_type (o := fault "SmsCommand" t) ((Reports.bind (report_addrIn _ _) fun _ => Reports.ok _).congr ?_)
    rw [show (none : Option Err) = Option.map encErr none from rfl]
    simp only [or_map]
    unfold fault; simp
  rw [if_neg h5]
  have : typeNames.lookup t.SmsType = none := by
    unfold typeNames
    simp only [List.lookup, beq_eq_false_iff_ne.2 h, beq_eq_false_iff_ne.2 h1, beq_eq_false_iff_ne.2 h2, beq_eq_false_iff_ne.2 h3,
      beq_eq_false_iff_ne.2 h4, beq_eq_false_iff_ne.2 h5]
  rw [this]
  exact .fail _

/-- C92: the error that `MarshalBinary` returns, for any TPDU: of the type, if it is none of the six, and otherwise of the first
field that cannot be encoded, with what in it cannot. -/
theorem C92_exact (t : TPDU) (e : Err) : t.MarshalBinary = .error (.err e) ↔
    (typeNames.lookup t.SmsType = none ∧ e = .unsupportedSmsType t.SmsType) ∨
    ∃ name f c, typeNames.lookup t.SmsType = some name ∧ fault name t = some (f, c) ∧ e = .encode (name ++ "." ++ f) c := by
  have h := report_marshal t
  rcases hn : typeNames.lookup t.SmsType with _ | name
  · rw [hn] at h
    rcases h with ⟨h, _⟩ | ⟨e', he, h⟩
    · cases h
    · cases he
      rw [h]
      constructor
      · intro h; cases h; exact .inl ⟨rfl, rfl⟩
      · rintro (⟨_, rfl⟩ | ⟨_, _, _, h, _⟩)
        · rfl
        · cases h
  · rw [hn] at h
    rcases hf : fault name t with _ | ⟨f, c⟩
    · simp only [hf] at h
      rcases h with ⟨_, a, h⟩ | ⟨e', he, _⟩
      · rw [h]
        constructor
        · intro h; cases h
        · rintro (⟨h, _⟩ | ⟨_, f, c, h1, h2, _⟩)
          · cases h
          · cases h1; rw [hf] at h2; cases h2
      · cases he
    · simp only [hf] at h
      rcases h with ⟨h, _⟩ | ⟨e', he, h⟩
      · cases h
      · cases he
        rw [h]
        constructor
        · intro h; cases h; exact .inr ⟨name, f, c, rfl, hf, rfl⟩
        · rintro (⟨h, _⟩ | ⟨_, f, c, h1, h2, rfl⟩)
          · cases h
          · cases h1; rw [hf] at h2; cases h2; rfl

/-- C92: so there is an encoding if and only if the type is one of the six and no field is at fault. -/
theorem C92_ok (t : TPDU) : (∃ p, t.MarshalBinary = .ok p) ↔ ∃ name, typeNames.lookup t.SmsType = some name ∧ fault name t = none := by
  have h := report_marshal t
  rcases hn : typeNames.lookup t.SmsType with _ | name
  · rw [hn] at h
    rcases h with ⟨h, _⟩ | ⟨e', he, h⟩
    · cases h
    · rw [h]; exact ⟨fun ⟨_, h⟩ => (by cases h), fun ⟨_, h, _⟩ => (by cases h)⟩
  · rw [hn] at h
    rcases h with ⟨h, p, hp⟩ | ⟨e', he, h⟩
    · rw [Option.map_eq_none_iff] at h
      exact ⟨fun _ => ⟨name, rfl, h⟩, fun _ => ⟨p, hp⟩⟩
    · rw [h]
      refine ⟨fun ⟨_, h⟩ => (by cases h), fun ⟨n, hn, hf⟩ => ?_⟩
      cases hn
      simp only [hf] at he
      cases he

/-- An SMS-SUBMIT whose address, data coding and validity period are all wrong: the address is reported; with that put right, the
coding; and then the minutes of the period. -/
example : (
    let t : TPDU := { Direction := MO, FirstOctet := 1, DA := ⟨0x91, [0x31, 0x2b]⟩, DCS := 0x80, VP := { Format := VpfEnhanced, EFI := 3, Duration := -180 * second } }
    let u := { t with DA := ⟨0x91, [0x31]⟩ }
    let v := { u with DCS := 0 }
    [fault "SmsSubmit" t, fault "SmsSubmit" u, fault "SmsSubmit" v]) =
    [some ("da.addr", .semiInvalidDigit 0x2b), some ("ud.alphabet", .invalid), some ("vp.enhanced", .bcdInvalidInteger (-3))] := by
  decide +kernel

end Verif.Props
