import Verif.Props.Build
import Verif.Props.RoundTripExact

/-! C76: exactly which of the TPDUs built come back. -/

namespace Verif.Props
open Verif.Model Verif.Spec Verif.Proofs Verif.Spec.Build

/-- If there is a header in the end, the last `SetUDH` was given one (not nil); and if the last `SetUDH` was given one,
even an empty one, then in the end there is a header, or else no user data. -/
def HeaderSaid (ops : List Op) : Prop :=
  ((last header ops).getD [] ≠ [] → last headerFlag ops = some true) ∧
  (last headerFlag ops = some true → (last header ops).getD [] ≠ [] ∨ (last userData ops).getD [] = [])

theorem flag_iff (ops : List Op) : (last headerFlag ops).getD false = true ↔ last headerFlag ops = some true := by
  cases last headerFlag ops <;> simp

theorem built (st : Int) (options : List TpduOption) (ops : List Op) (t : TPDU)
    (hk : ∀ o ∈ all options ops, mti o = none ∧ direction o = none) (hv : ∀ o ∈ all options ops, VpfOk o)
    (h : build (.smsType st :: options) ops = .ok t) :
    Has (all (.smsType st :: options) ops) t ∧ (FirstOctet.MTI t.FirstOctet).toNat = (st / 2).toNat ∧ t.Direction = st % 2 ∧
    t.UDH = (last header (all options ops)).getD [] ∧ t.UDHI = (last headerFlag (all options ops)).getD false ∧
    t.UD = (last userData (all options ops)).getD [] := by
  have hall : all (.smsType st :: options) ops = .option (.smsType st) :: all options ops := rfl
  have H := C76_last_writer (.smsType st :: options) ops t
    (by
      rw [hall]; intro o ho
      rcases List.mem_cons.1 ho with rfl | ho
      · trivial
      · have := (hk o ho).1
        unfold MtiOk; split
        · cases this
        · trivial)
    (by
      rw [hall]; intro o ho
      rcases List.mem_cons.1 ho with rfl | ho
      · trivial
      · exact hv o ho) h
  have hm := H.mti
  have hd := H.direction
  rw [hall, last_cons_none _ _ _ (fun o ho => (hk o ho).1)] at hm
  rw [hall, last_cons_none _ _ _ (fun o ho => (hk o ho).2)] at hd
  exact ⟨H, hm, hd, H.udh, H.udhi, H.ud⟩

/-- C76: a submit comes back as it was built if and only if its values can be written and its header was announced. -/
theorem C76_submit_exact (options : List TpduOption) (ops : List Op) (t : TPDU)
    (hk : ∀ o ∈ all options ops, mti o = none ∧ direction o = none) (hv : ∀ o ∈ all options ops, VpfOk o)
    (h : build (.smsType 3 :: options) ops = .ok t) :
    (∃ p, t.MarshalBinary = .ok p ∧ ({ Direction := MO } : TPDU).UnmarshalBinary p = .ok
      { Direction := MO, FirstOctet := t.FirstOctet, MR := t.MR, DA := t.DA, PID := t.PID, DCS := t.DCS,
        VP := t.VP, UDH := t.UDH, UD := t.UD }) ↔
    HeaderSaid (all options ops) ∧ AddrOk t.DA ∧ VpOk t.VP ∧ t.Alphabet.2 = none ∧ (t.Alphabet.1 = .a7Bit → Septets t.UD) ∧
    (t.Alphabet.1 = .ucs2 → t.UD.length % 2 = 0) ∧ udLen t ≤ 255 := by
  obtain ⟨H, hm, hd, e1, e2, e3⟩ := built 3 options ops t hk hv h
  rw [C105_submit t hd (UInt8.toNat_inj.1 hm)]
  unfold HeaderSaid SubmitOk
  rw [← flag_iff, ← e1, ← e2, ← e3]
  constructor
  · rintro ⟨a, b, _, u⟩
    exact ⟨u.udhi, a, b, u.alpha, u.septets, u.even, u.fits⟩
  · rintro ⟨a, b, c, d, e, f, g⟩
    exact ⟨b, c, H.vpf, d, a, e, f, g⟩

/-- C76: and likewise a deliver. -/
theorem C76_deliver_exact (options : List TpduOption) (ops : List Op) (t : TPDU)
    (hk : ∀ o ∈ all options ops, mti o = none ∧ direction o = none) (hv : ∀ o ∈ all options ops, VpfOk o)
    (h : build (.smsType 0 :: options) ops = .ok t) :
    (∃ p, t.MarshalBinary = .ok p ∧ ({ Direction := MT } : TPDU).UnmarshalBinary p = .ok
      { Direction := MT, FirstOctet := t.FirstOctet, OA := t.OA, PID := t.PID, DCS := t.DCS,
        SCTS := t.SCTS, UDH := t.UDH, UD := t.UD }) ↔
    HeaderSaid (all options ops) ∧ AddrOk t.OA ∧ TimeOk t.SCTS ∧ t.Alphabet.2 = none ∧ (t.Alphabet.1 = .a7Bit → Septets t.UD) ∧
    (t.Alphabet.1 = .ucs2 → t.UD.length % 2 = 0) ∧ udLen t ≤ 255 := by
  obtain ⟨H, hm, hd, e1, e2, e3⟩ := built 0 options ops t hk hv h
  rw [C105_deliver t hd (UInt8.toNat_inj.1 hm)]
  unfold HeaderSaid DeliverOk
  rw [← flag_iff, ← e1, ← e2, ← e3]
  constructor
  · rintro ⟨a, b, u⟩
    exact ⟨u.udhi, a, b, u.alpha, u.septets, u.even, u.fits⟩
  · rintro ⟨a, b, c, d, e, f, g⟩
    exact ⟨b, c, d, a, e, f, g⟩

/-- A status report comes back if and only if its values can be written and, unless the last of the setters concerned was
`SetUD(nil)`, its header was announced.  What is read has the header only if the parameter indicator announces user data. -/
theorem C76_status_exact (options : List TpduOption) (ops : List Op) (t : TPDU)
    (hk : ∀ o ∈ all options ops, mti o = none ∧ direction o = none) (hv : ∀ o ∈ all options ops, VpfOk o)
    (h : build (.smsType 4 :: options) ops = .ok t) :
    (∃ p, t.MarshalBinary = .ok p ∧ ({ Direction := MT } : TPDU).UnmarshalBinary p = .ok
      { Direction := MT, FirstOctet := t.FirstOctet, MR := t.MR, RA := t.RA, SCTS := t.SCTS, DT := t.DT, ST := t.ST,
        PI := t.PI, PID := t.PID, DCS := t.DCS,
        UDH := if PI.UDL t.PI then t.UDH else [], UD := if PI.UDL t.PI then t.UD else [] }) ↔
    AddrOk t.RA ∧ TimeOk t.SCTS ∧ TimeOk t.DT ∧ (last dataFlag (all options ops) = some true →
    HeaderSaid (all options ops) ∧ t.Alphabet.2 = none ∧ (t.Alphabet.1 = .a7Bit → Septets t.UD) ∧
    (t.Alphabet.1 = .ucs2 → t.UD.length % 2 = 0) ∧ udLen t ≤ 255) := by
  obtain ⟨H, hm, hd, e1, e2, e3⟩ := built 4 options ops t hk hv h
  have hdcs : PI.DCS t.PI = false → t.DCS = 0 := by
    rw [H.dcs, H.piDcs]
    cases last dcs (all (.smsType 4 :: options) ops) <;> simp
  have hpid : PI.PID t.PI = false → t.PID = 0 := by
    rw [H.pid, H.piPid]
    cases last pid (all (.smsType 4 :: options) ops) <;> simp
  have hx := C105_status t hd (UInt8.toNat_inj.1 hm) (fun _ => hdcs)
  have i1 : (if PI.DCS t.PI then t.DCS else 0) = t.DCS := by
    cases hc : PI.DCS t.PI
    · exact (hdcs hc).symm
    · rfl
  have i2 : (if PI.PID t.PI then t.PID else 0) = t.PID := by
    cases hc : PI.PID t.PI
    · exact (hpid hc).symm
    · rfl
  rw [i1, i2] at hx
  rw [hx]
  have hl : PI.UDL t.PI = true ↔ last dataFlag (all options ops) = some true := by
    rw [H.udl]
    show (last dataFlag (all options ops)).getD false = true ↔ _
    cases last dataFlag (all options ops) <;> simp
  rw [← hl]
  unfold HeaderSaid StatusOk
  rw [← flag_iff, ← e1, ← e2, ← e3]
  constructor
  · rintro ⟨a, b, c, u⟩
    exact ⟨a, b, c, fun h => have u := u.1 h; ⟨u.udhi, u.alpha, u.septets, u.even, u.fits⟩⟩
  · rintro ⟨a, b, c, d⟩
    exact ⟨a, b, c, fun h => have u := d h; ⟨u.2.1, u.1, u.2.2.1, u.2.2.2.1, u.2.2.2.2⟩, fun _ => hdcs⟩

/-- The header of the example of a submit was announced, that of the first counterexample not; that of this one was,
though given to `WithUDH`. -/
example : HeaderSaid (all [.dcs 0, .da ⟨0x91, [0x31, 0x32]⟩] exSub) ∧
    ¬ HeaderSaid (all [.dcs 4, .da ⟨0x91, [0x31, 0x32]⟩, .udh [⟨0, [3, 2, 1]⟩]] [.setUD (some [0x48, 0x69])]) ∧
    HeaderSaid (all [] [.setUDH (some []), .option (.udh [⟨0, [3, 2, 1]⟩])]) := by
  unfold HeaderSaid; decide

end Verif.Props
