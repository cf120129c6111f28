import Verif.Proofs.Reuse
import Verif.Model.PduMode
import Verif.Model.Print

/-! C93: decoding into a TPDU, or a PDU, that was used before. -/

namespace Verif.Props
open Verif.Model Verif.Spec Verif.Proofs

/-- The claim: what was in the receiver has no part in what is decoded. -/
def AsNew (t : TPDU) (src : Bytes) : Prop := t.UnmarshalBinary src = ({ Direction := t.Direction } : TPDU).UnmarshalBinary src

theorem of_alike {t t' : TPDU} {src : Bytes} {st : UInt8} (h : Alike (t.UnmarshalBinary src) (t'.UnmarshalBinary src) fun r r' => r = into st src t r') :
    (∀ e, t.UnmarshalBinary src = .error e ↔ t'.UnmarshalBinary src = .error e) ∧
    ∀ r, t.UnmarshalBinary src = .ok r ↔ ∃ r', t'.UnmarshalBinary src = .ok r' ∧ r = into st src t r' := by
  rcases h with ⟨e, h, h'⟩ | ⟨a, b, h, h', rfl⟩
  · rw [h, h']
    exact ⟨fun _ => Iff.rfl, fun r => ⟨fun h => (by cases h), fun ⟨_, h, _⟩ => (by cases h)⟩⟩
  · rw [h, h']
    refine ⟨fun e => ⟨fun h => (by cases h), fun h => (by cases h)⟩, fun r => ⟨?_, ?_⟩⟩
    · intro h; cases h; exact ⟨b, rfl, rfl⟩
    · rintro ⟨_, h, rfl⟩; cases h; rfl

/-- **C93** as claimed is false (below), but exactly this holds.  Whatever the receiver `t` is and whatever is
decoded, `t` and a new TPDU fail with the same error, or both succeed and what results in `t` is `t` with the
fields that `into` names taken from the other result.  The new TPDU has the direction of `t` and, only if a
report has user data and no DCS, the DCS of `t`. -/
theorem C93_exact_partial (t : TPDU) (src : Bytes) (st : UInt8) (new : TPDU)
    (hst : st = ({ Direction := t.Direction, FirstOctet := src.getD 0 0 } : TPDU).SmsType)
    (hnew : new = { Direction := t.Direction, DCS := if borrowsDCS st src then t.DCS else 0 }) :
    (∀ e, t.UnmarshalBinary src = .error e ↔ new.UnmarshalBinary src = .error e) ∧
    (∀ r, t.UnmarshalBinary src = .ok r ↔ ∃ r', new.UnmarshalBinary src = .ok r' ∧ r = into st src t r') := by
  have hst' : ({ t with FirstOctet := src.getD 0 0 } : TPDU).SmsType = st := by
    rw [hst]; unfold TPDU.SmsType; rfl
  have a := alike_unmarshal t new (by rw [hnew]) src (fun h => by
    rw [hst'] at h; rw [hnew]; show _ = ite _ _ _; rw [if_pos h])
  rw [hst'] at a
  exact of_alike a

/-- Decoding the same octets again changes nothing, whatever the receiver was at first. -/
theorem C93_again_partial (t r : TPDU) (src : Bytes) (h : t.UnmarshalBinary src = .ok r) : r.UnmarshalBinary src = .ok r := by
  have a := (of_alike (alike_unmarshal t t rfl src fun _ => rfl)).2 r
  obtain ⟨r', h1, h2⟩ := a.1 h
  rw [h] at h1; cases h1
  have hd : r.Direction = t.Direction := by rw [h2, into_direction]
  have b := (of_alike (alike_unmarshal r t hd src (fun hb => by
    rw [h2]
    refine into_dcs ?_ t r
    rw [← hb]; unfold TPDU.SmsType; rw [hd]))).2 r
  exact b.2 ⟨r, h, (into_self _ _ _).symm⟩

/-- A receiver in which nothing but the direction is set does as claimed. -/
theorem C93_new_partial (t : TPDU) (src : Bytes) (h : t = { Direction := t.Direction }) : AsNew t src := by
  unfold AsNew; rw [← h]

/-! The ways in which the receiver shows. -/

/-- A deliver with no user data keeps the text and the header that were there. -/
theorem C93_udl_false : ∃ t src, ¬ AsNew t src ∧ ∃ r, t.UnmarshalBinary src = .ok r ∧ r.UD = b!"old" ∧ r.UDH = [⟨1, [2]⟩] :=
  ⟨{ UD := b!"old", UDH := [⟨1, [2]⟩] }, [0x04, 0x04, 0x91, 0x21, 0x43, 0x00, 0x00, 0x11, 0x10, 0x10, 0x21, 0x43, 0x65, 0x00, 0x00],
    by unfold AsNew; decide +kernel, _, rfl, by decide +kernel, by decide +kernel⟩

/-- A header with nothing after it keeps the text that was there. -/
theorem C93_header_false : ∃ t src, ¬ AsNew t src ∧ ∃ r, t.UnmarshalBinary src = .ok r ∧ r.UD = b!"old" ∧ r.UDH = [⟨1, [2]⟩] :=
  ⟨{ UD := b!"old" }, [0x44, 0x04, 0x91, 0x21, 0x43, 0x00, 0x04, 0x11, 0x10, 0x10, 0x21, 0x43, 0x65, 0x00, 0x04, 0x03, 0x01, 0x01, 0x02],
    by unfold AsNew; decide +kernel, _, rfl, by decide +kernel, by decide +kernel⟩

/-- A status report that ends with the status keeps the parameter indicator, and so marshals to other octets. -/
theorem C93_pi_false : ∃ t src, ¬ AsNew t src ∧ ∃ r, t.UnmarshalBinary src = .ok r ∧ r.MarshalBinary ≠ .ok src :=
  ⟨{ PI := 1 }, [0x06, 0x07, 0x04, 0x91, 0x21, 0x43, 0x11, 0x10, 0x10, 0x21, 0x43, 0x65, 0x00, 0x11, 0x10, 0x10, 0x21, 0x43, 0x65, 0x00, 0x00],
    by unfold AsNew; decide +kernel, _, rfl, by decide +kernel⟩

/-- A report with user data and no DCS is read by the DCS that was there. -/
theorem C93_dcs_false : ∃ t src r r', ¬ AsNew t src ∧ t.UnmarshalBinary src = .ok r ∧
    ({ Direction := t.Direction } : TPDU).UnmarshalBinary src = .ok r' ∧ r.UD = [0xe8, 0x32] ∧ r'.UD = b!"he" :=
  ⟨{ DCS := 4, Direction := MO }, [0x00, 0x00, 0x04, 0x02, 0xe8, 0x32], _, _, by unfold AsNew; decide +kernel, rfl, rfl,
    by decide +kernel, by decide +kernel⟩

/-- Without a service centre address in the octets a PDU keeps the one that it has, and otherwise the PDU that
it was has no part in the outcome. -/
theorem C93_smsc_partial (p : PDU) (src : Bytes) :
    p.unmarshalBinary src = match src with
      | 0 :: t => .ok ⟨p.SMSC, t⟩
      | src => PDU.UnmarshalBinary src := by
  rcases src with _ | ⟨l, t⟩
  · rfl
  have hl : ¬ (l :: t).length < 1 := by simp
  by_cases h : l = 0
  · subst h
    unfold PDU.unmarshalBinary SMSCAddress.UnmarshalBinary
    rw [if_neg hl]
    simp only [idx_zero_cons, ok_bind]
    rw [if_pos (show (0 : UInt8).toNat = 0 from rfl)]
    show (slice (0 :: t) (1 : Int) ((0 :: t).length : Nat) >>= fun t => pure (⟨p.SMSC, t⟩ : PDU)) = _
    rw [slice_tail]; rfl
  · have h0 : ¬ l.toNat = 0 := fun e => h (UInt8.toNat_inj.1 e)
    split
    · rename_i e; cases e; exact absurd rfl h
    unfold PDU.UnmarshalBinary PDU.unmarshalBinary SMSCAddress.UnmarshalBinary
    rw [if_neg hl, if_neg hl]
    simp only [idx_zero_cons, ok_bind]
    rw [if_neg h0, if_neg h0]

/-! The hypotheses are met: a submit is decoded into a receiver in which all of its fields have other values,
and none of these is left. -/
example : ∃ t src r, ({ Direction := t.Direction, FirstOctet := src.getD 0 0 } : TPDU).SmsType = SmsSubmit ∧ t.UnmarshalBinary src = .ok r ∧ AsNew t src :=
  ⟨{ Direction := MO, MR := 9, DA := ⟨0x91, b!"99"⟩, PID := 9, DCS := 8, UD := b!"old", UDH := [⟨1, [2]⟩] },
    [0x01, 0x07, 0x04, 0x91, 0x21, 0x43, 0x00, 0x04, 0x02, 0x41, 0x42], _, by decide, rfl, by unfold AsNew; decide +kernel⟩

end Verif.Props
