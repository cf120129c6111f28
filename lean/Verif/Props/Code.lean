import Verif.Props.Cut
import Verif.Props.TpduPrefix
import Verif.Props.RoundTripExact

/-! C107: the octets of TPDUs as a code. -/

namespace Verif.Props
open Verif.Model Verif.Spec Verif.Proofs Verif.Model.TPDU

/-- A writable TPDU is of one direction or the other. -/
theorem writable_dir {t : TPDU} (h : Writable t) : t.Direction = MO ∨ t.Direction = MT := by
  rcases h with ⟨_, _, e⟩ | ⟨_, _, e⟩ | ⟨_, _, e⟩ | ⟨_, _, e⟩ | ⟨_, _, e⟩ | ⟨_, _, e⟩ <;> rw [e] <;> simp

/-- C107: two TPDUs of the same direction that come back from their octets as they were (C105) have the same
octets only if they are the same. -/
theorem C107_injective (t t' : TPDU) (hd : t.Direction = t'.Direction) (h : Writable t) (h' : Writable t')
    (he : t.MarshalBinary = t'.MarshalBinary) : t = t' := by
  obtain ⟨p, h1, h2⟩ := (C105_exact t (writable_dir h)).2 h
  obtain ⟨p', h3, h4⟩ := (C105_exact t' (writable_dir h')).2 h'
  rw [← he, h1] at h3
  cases h3
  rw [← hd, h2] at h4
  exact Except.ok.inj h4

/-- C107: the octets of such a TPDU are the beginning of those of another exactly if both are status reports
that agree in all fields but the optional ones, of which the one has none. -/
theorem C107_prefix (t t' : TPDU) (hd : t.Direction = t'.Direction) (h : Writable t) (h' : Writable t') :
    (∃ p q, q ≠ [] ∧ t.MarshalBinary = .ok p ∧ t'.MarshalBinary = .ok (p ++ q)) ↔
      t'.SmsType = SmsStatusReport ∧ t'.PI ≠ 0 ∧ t = { t' with PI := 0, PID := 0, DCS := 0, UDH := [], UD := [] } := by
  constructor
  · rintro ⟨p, q, hq, hm, hm'⟩
    obtain ⟨p0, h1, h2⟩ := (C105_exact t (writable_dir h)).2 h
    rw [hm] at h1; cases h1
    rw [hd] at h2
    have reject : ∀ {d}, t'.Direction = d → (∃ e, Model.Sms.Unmarshal p d = .error (.err e)) → False := by
      rintro d rfl ⟨e, he⟩
      unfold Model.Sms.Unmarshal at he
      rw [h2] at he; cases he
    rcases h' with ⟨m, ok, e⟩ | ⟨m, ok, e⟩ | ⟨m, ok, e⟩ | ⟨m, ok, e⟩ | ⟨m, ok, e⟩ | ⟨m, ok, e⟩
    · have hdir : t'.Direction = MT := by rw [e]
      exact (reject hdir (C29_deliver_truncated t' hdir m ok.1 ok.2.1 ok.2.2 p q hq hm')).elim
    · have hdir : t'.Direction = MO := by rw [e]
      exact (reject hdir (C29_submit_truncated t' hdir m ok.1 ok.2.1 ok.2.2.1 ok.2.2.2 p q hq hm')).elim
    · have hdir : t'.Direction = MT := by rw [e]
      have hu : Model.Sms.Unmarshal p MT = .ok t := by unfold Model.Sms.Unmarshal; rw [← hdir]; exact h2
      obtain ⟨a, _, b⟩ := (C78_status_report_exact t' t hdir m ok.1 ok.2.1 ok.2.2.1 ok.2.2.2 p q hq hm').1 hu
      refine ⟨by rw [smsType_of t' _ _ m hdir]; decide, a, ?_⟩
      rw [b, e]
    · have hdir : t'.Direction = MO := by rw [e]
      exact (reject hdir (C78_deliver_report_partial t' hdir m ok.1 ok.2 p q hq hm')).elim
    · have hdir : t'.Direction = MT := by rw [e]
      exact (reject hdir (C78_submit_report_partial t' hdir m ok.1 ok.2.1 ok.2.2 p q hq hm')).elim
    · have hdir : t'.Direction = MO := by rw [e]
      exact (reject hdir (C78_command_partial t' hdir m ok.1 ok.2.2.1 ok.2.2.2 p q hq hm')).elim
  · rintro ⟨hst, hpi, he⟩
    have hmk := type_mti t' (writable_dir h')
    have hdir : t'.Direction = MT ∧ FirstOctet.MTI t'.FirstOctet = 2 := hmk.2.2.2.2.1 hst
    have hok : ∀ u : TPDU, u.Direction = MT → FirstOctet.MTI u.FirstOctet = 2 → Writable u → StatusOk u := by
      intro u hu hmu hw
      rcases hw with ⟨m, _, e⟩ | ⟨m, _, e⟩ | ⟨m, ok, e⟩ | ⟨m, _, e⟩ | ⟨m, _, e⟩ | ⟨m, _, e⟩
      · rw [hmu] at m; cases m
      · rw [hmu] at m; cases m
      · exact ok
      · rw [hmu] at m; cases m
      · rw [hmu] at m; cases m
      · rw [e] at hu; cases hu
    have hst0 : t.SmsType = SmsStatusReport := by rw [he, ← hst]; rfl
    obtain ⟨r1, r2, r3, r4⟩ := hok t' hdir.1 hdir.2 h'
    obtain ⟨_, _, _, s4⟩ := hok t (hd.trans hdir.1) (by rw [he]; exact hdir.2) h
    obtain ⟨ra, ha, _⟩ := addr_rt _ r1
    obtain ⟨ts, hv, _⟩ := time_rt _ r2
    obtain ⟨dt, hw, _⟩ := time_rt _ r3
    obtain ⟨e', he', _⟩ := opt_rt t' { FirstOctet := t'.FirstOctet, PI := t'.PI } [] r4 rfl rfl rfl rfl rfl rfl
    obtain ⟨e, he0, _⟩ := opt_rt t { FirstOctet := t.FirstOctet, PI := t.PI } [] s4 rfl rfl rfl rfl rfl rfl
    have hm' := marshal_StatusReport t' hst _ (status_bytes t' ra ts dt e' ha hv hw he')
    have hm := marshal_StatusReport t hst0 _ (status_bytes t ra ts dt e (by rw [he]; exact ha) (by rw [he]; exact hv)
      (by rw [he]; exact hw) he0)
    have hp0 : t.PI = 0 := by rw [he]
    rw [if_pos hp0, List.append_nil] at hm
    rw [if_neg hpi] at hm'
    refine ⟨_, [t'.PI] ++ t'.piOctets ++ e', by simp, hm, ?_⟩
    rw [hm', he]

/-- Not a status report without optional fields. -/
def Delimited (t : TPDU) : Prop := ¬ (t.SmsType = SmsStatusReport ∧ t.PI = 0)

/-- C107: one after the other, without anything between them, such TPDUs can be told apart, if there are no status
reports without optional fields among them: different sequences have different octets. -/
theorem C107_stream (d : Int) : ∀ (l l' : List TPDU) (ps ps' : List (List UInt8)),
    (∀ t ∈ l, t.Direction = d ∧ Writable t ∧ Delimited t) → (∀ t ∈ l', t.Direction = d ∧ Writable t ∧ Delimited t) →
    l.map (·.MarshalBinary) = ps.map .ok → l'.map (·.MarshalBinary) = ps'.map .ok → ps.flatten = ps'.flatten → l = l' := by
  have some_octets : ∀ {t : TPDU} {p : List UInt8}, Writable t → t.MarshalBinary = .ok p → p ≠ [] := by
    rintro t p hw hm rfl
    obtain ⟨p, h1, h2⟩ := (C105_exact t (writable_dir hw)).2 hw
    rw [hm] at h1; cases h1; cases h2
  have apart : ∀ {t t' : TPDU} {p q r : List UInt8}, t.Direction = t'.Direction → Writable t → Writable t' → Delimited t →
      t.MarshalBinary = .ok p → t'.MarshalBinary = .ok q → q = p ++ r → r = [] := by
    intro t t' p q r hd hw hw' hdel hm hm' he
    apply Classical.byContradiction
    intro hr
    obtain ⟨a, b, c⟩ := (C107_prefix t t' hd hw hw').1 ⟨p, r, hr, hm, by rw [hm', he]⟩
    exact hdel ⟨by rw [c, ← a]; rfl, by rw [c]⟩
  intro l
  induction l with
  | nil =>
    intro l' ps ps' _ h' hm hm' he
    cases l' with
    | nil => rfl
    | cons t' l' =>
      cases ps with
      | cons => cases hm
      | nil =>
        cases ps' with
        | nil => cases hm'
        | cons p' ps' =>
          simp only [List.map_cons, List.cons.injEq] at hm'
          have := some_octets (h' t' (by simp)).2.1 hm'.1
          simp at he
          exact absurd he.1.symm (fun h => this h.symm)
  | cons t l ih =>
    intro l' ps ps' h h' hm hm' he
    cases ps with
    | nil => cases hm
    | cons p ps =>
      simp only [List.map_cons, List.cons.injEq] at hm
      obtain ⟨d1, w1, n1⟩ := h t (by simp)
      have hp := some_octets w1 hm.1
      cases l' with
      | nil =>
        cases ps' with
        | cons => cases hm'
        | nil => simp at he; exact absurd he.1 hp
      | cons t' l' =>
        cases ps' with
        | nil => cases hm'
        | cons p' ps' =>
          simp only [List.map_cons, List.cons.injEq] at hm'
          obtain ⟨d2, w2, n2⟩ := h' t' (by simp)
          simp only [List.flatten_cons] at he
          have hpp : p = p' ∧ ps.flatten = ps'.flatten := by
            rcases List.append_eq_append_iff.1 he with ⟨r, h1, h2⟩ | ⟨r, h1, h2⟩
            · have := apart (d1.trans d2.symm) w1 w2 n1 hm.1 hm'.1 h1
              subst this
              rw [List.append_nil] at h1
              exact ⟨h1.symm, h2⟩
            · have := apart (d2.trans d1.symm) w2 w1 n2 hm'.1 hm.1 h1
              subst this
              rw [List.append_nil] at h1
              exact ⟨h1, h2.symm⟩
          have ht := C107_injective t t' (d1.trans d2.symm) w1 w2 (by rw [hm.1, hm'.1, hpp.1])
          rw [ht, ih l' ps ps' (fun u hu => h u (by simp [hu])) (fun u hu => h' u (by simp [hu])) hm.2 hm'.2 hpp.2]

/-- A status report without optional fields. -/
def exPlain : TPDU :=
  { Direction := MT, FirstOctet := 0x02, MR := 9, RA := ⟨0x91, [0x31, 0x32, 0x33]⟩, ST := 3,
    SCTS := ⟨1700000000, 0, 3600⟩, DT := ⟨1700000005, 0, 3600⟩ }

/-- Another, about a message to a number of 32 digits. -/
def exNext : TPDU :=
  { Direction := MT, FirstOctet := 0x06, MR := 4, RA := ⟨0x91, List.replicate 32 0x31⟩, ST := 3,
    SCTS := ⟨1700000000, 0, 3600⟩, DT := ⟨1700000005, 0, 3600⟩ }

/-- The status report with the octets of both. -/
def exBoth : TPDU :=
  { exPlain with
    PI := 6, DCS := 4
    UD := [0x91, 0x11, 0x11, 0x11, 0x11, 0x11, 0x11, 0x11, 0x11, 0x11, 0x11, 0x11, 0x11, 0x11, 0x11, 0x11, 0x11,
      0x32, 0x11, 0x41, 0x32, 0x31, 0x02, 0x40, 0x32, 0x11, 0x41, 0x32, 0x31, 0x52, 0x40, 3] }

theorem ex_time (n : Int) (h : n = 0 ∨ n = 5) : TimeOk ⟨1700000000 + n, 0, 3600⟩ := by
  rcases h with rfl | rfl
  · exact ⟨rfl, by decide +kernel, by decide +kernel, 4, by decide, by decide, by decide⟩
  · exact ⟨rfl, by decide +kernel, by decide +kernel, 4, by decide, by decide, by decide⟩

theorem exCode : Writable exPlain ∧ Writable exNext ∧ Writable exBoth :=
  ⟨.inr (.inr (.inl ⟨by decide, ⟨.inl (by decide), ex_time 0 (.inl rfl), ex_time 5 (.inr rfl),
      fun h => absurd h (by decide), by decide⟩, rfl⟩)),
   .inr (.inr (.inl ⟨by decide, ⟨.inl (by decide +kernel), ex_time 0 (.inl rfl), ex_time 5 (.inr rfl),
      fun h => absurd h (by decide), by decide⟩, rfl⟩)),
   .inr (.inr (.inl ⟨by decide, ⟨.inl (by decide), ex_time 0 (.inl rfl), ex_time 5 (.inr rfl),
      fun _ => ⟨by decide +kernel, by decide +kernel, by decide +kernel, by decide +kernel, by decide +kernel⟩, by decide⟩, rfl⟩))⟩

/-- C107: with status reports without optional fields TPDUs one after the other cannot be told apart: two of them
have the octets of a third. -/
theorem C107_ambiguous : Writable exPlain ∧ Writable exNext ∧ Writable exBoth ∧
    ∃ p q, exPlain.MarshalBinary = .ok p ∧ exNext.MarshalBinary = .ok q ∧ exBoth.MarshalBinary = .ok (p ++ q) :=
  ⟨exCode.1, exCode.2.1, exCode.2.2,
    [2, 9, 3, 0x91, 0x21, 0xf3, 0x32, 0x11, 0x41, 0x32, 0x31, 0x02, 0x40, 0x32, 0x11, 0x41, 0x32, 0x31, 0x52, 0x40, 3],
    [6, 4, 32, 0x91, 0x11, 0x11, 0x11, 0x11, 0x11, 0x11, 0x11, 0x11, 0x11, 0x11, 0x11, 0x11, 0x11, 0x11, 0x11, 0x11,
      0x32, 0x11, 0x41, 0x32, 0x31, 0x02, 0x40, 0x32, 0x11, 0x41, 0x32, 0x31, 0x52, 0x40, 3],
    by decide +kernel, by decide +kernel, by decide +kernel⟩

/-- Beside C107: the status report with optional fields is among those that can be told apart. -/
example : Writable exBoth ∧ Delimited exBoth := ⟨exCode.2.2, by unfold Delimited; decide⟩

end Verif.Props
