import Verif.Props.Trailing

/-! C78: any octets that are accepted both whole and cut short. -/

namespace Verif.Props
open Verif.Model Verif.Spec Verif.Proofs

/-- The MTI of the first octet is 0, 1, 2 or 3. -/
theorem mti_cases : ∀ fo : UInt8, FirstOctet.MTI fo = 0 ∨ FirstOctet.MTI fo = 1 ∨ FirstOctet.MTI fo = 2 ∨ FirstOctet.MTI fo = 3 := by
  apply forall_u8
  decide +kernel

theorem mti_reserved (fo : UInt8) (body : List UInt8) (dirn : Int) (hd : dirn = MT ∨ dirn = MO) (h : FirstOctet.MTI fo = 3) (t : TPDU) :
    Sms.Unmarshal (fo :: body) dirn ≠ .ok t := by
  have hst : ({ Direction := dirn, FirstOctet := fo } : TPDU).SmsType = smsType 3 dirn :=
    smsType_of { Direction := dirn, FirstOctet := fo } 3 dirn h rfl
  intro he
  unfold Sms.Unmarshal TPDU.UnmarshalBinary at he
  rw [if_neg (by simp)] at he
  obtain ⟨x, hx, he⟩ := bind_eq_ok.1 he
  have hx' : x = fo := by cases hx; rfl
  subst hx'
  obtain ⟨b, _, he⟩ := bind_eq_ok.1 he
  simp only [hst] at he
  rcases hd with rfl | rfl <;> cases he

/-- C78, all octets whatever: if a TPDU is accepted, and also with octets `q` after it, so that it is the longer one cut
short, then both say the same, except that a status report may lack all that is optional. -/
theorem C78_accepted (p q : List UInt8) (dirn : Int) (t t' : TPDU) (hd : dirn = MT ∨ dirn = MO) (h : Sms.Unmarshal p dirn = .ok t)
    (h' : Sms.Unmarshal (p ++ q) dirn = .ok t') :
    t' = t ∨ (dirn = MT ∧ p.head?.map FirstOctet.MTI = some 2) ∧ t.PI = 0 ∧ t.PID = 0 ∧ t.DCS = 0 ∧ t.UDH = [] ∧ t.UD = [] ∧
      t' = { t with PI := t'.PI, PID := t'.PID, DCS := t'.DCS, UDH := t'.UDH, UD := t'.UD } := by
  match p, q with
  | [], _ => cases h
  | fo :: body, [] =>
    rw [List.append_nil, h] at h'
    exact .inl (Except.ok.inj h').symm
  | fo :: body, x :: q =>
    have hq : x :: q ≠ [] := by simp
    rcases hd with rfl | rfl
    · rcases mti_cases fo with m | m | m | m
      · exact .inl ((C30_deliver_exact fo body _ t t' m hq h).1 h').2
      · exact .inl ((C77_submit_report_exact fo body _ t t' m hq h).1 h').2
      · by_cases hl : Trailing.statusIndicator (fo :: body) < (fo :: body).length
        · exact .inl ((C77_status_report_exact fo body _ t t' m hq h hl).1 h').2
        · obtain ⟨e, e1, e2, e3, e4, e5⟩ := C77_status_report_bare fo x body q t t' m h (by omega) h'
          have hx : t'.PI = x := by rw [e]
          exact .inr ⟨⟨rfl, congrArg some m⟩, e1, e2, e3, e4, e5, by rw [hx]; exact e⟩
      · exact absurd h (mti_reserved fo body MT (.inl rfl) m t)
    · rcases mti_cases fo with m | m | m | m
      · exact .inl ((C77_deliver_report_exact fo body _ t t' m hq h).1 h').2
      · exact .inl ((C30_submit_exact fo body _ t t' m hq h).1 h').2
      · exact .inl ((C77_command_exact fo body _ t t' m hq h).1 h').2
      · exact absurd h (mti_reserved fo body MO (.inr rfl) m t)

/-- A command that is accepted both whole and cut short. -/
example : ∃ t, Sms.Unmarshal [0x02, 1, 0, 2, 5, 2, 0x91, 0x21, 0] MO = .ok t ∧
    Sms.Unmarshal ([0x02, 1, 0, 2, 5, 2, 0x91, 0x21, 0] ++ [1, 2, 3]) MO = .ok t := ⟨_, by rfl, by rfl⟩

end Verif.Props
