import Verif.Props.Settings
import Verif.Props.Address

/-! C100 for the options that have a name. -/

namespace Verif.Props
open Verif.Model Verif.Spec Verif.Proofs
open Verif.Model.Sms (EncoderOption)

private theorem said {α : Type} (says : EncoderOption → Option α) (before after : List EncoderOption) (o : EncoderOption) (a : α)
    (ho : says o = some a) (hs : ∀ o ∈ after, says o = none) : lastSaid says (before ++ o :: after) = some a := by
  unfold lastSaid
  rw [List.reverse_append, List.reverse_cons, List.append_assoc, List.findSome?_append]
  have : after.reverse.findSome? says = none := by
    rw [List.findSome?_eq_none_iff]
    intro x hx
    exact hs x (List.mem_reverse.1 hx)
  rw [this]
  simp [ho]

/-- C100: the options with a name do what it says, unless an option after it, of the encoder or of the call, says
otherwise about the same matter.  `AsDeliver` gives SMS-DELIVER TPDUs, type 0 in the direction to the mobile, `AsSubmit` gives
SMS-SUBMIT TPDUs, type 1 in the other direction, `To` and `From` give the destination and the originator, an international
number, with or without its '+', and `As8Bit` and `AsUCS2` give coding schemes 4 and 8. -/
theorem C100_named (os os' : List EncoderOption) (hk : MTIsKnown (os ++ os')) (msg : List UInt8) (r : Model.Sms.EncResult)
    (h : (Model.Sms.NewEncoder os).Encode msg os' = .ok r) (p : TPDU) (hp : p ∈ r.pdus)
    (before after : List EncoderOption) (o : EncoderOption) (ho : os ++ os' = before ++ o :: after) :
    ((∀ x ∈ after, saysDirection x = none ∧ saysMTI x = none) →
      (o = Model.Sms.AsDeliver → p.Direction = 0 ∧ p.FirstOctet &&& 3 = 0) ∧
      (o = Model.Sms.AsSubmit → p.Direction = 1 ∧ p.FirstOctet &&& 3 = 1)) ∧
    (∀ number, number.head? ≠ some 0x2b → (o = Model.Sms.To number ∨ o = Model.Sms.To (0x2b :: number)) →
      (∀ x ∈ after, saysDA x = none) → p.DA = ⟨0x91, number⟩ ∧ p.DA.Number = 0x2b :: number) ∧
    (∀ number, number.head? ≠ some 0x2b → (o = Model.Sms.From number ∨ o = Model.Sms.From (0x2b :: number)) →
      (∀ x ∈ after, saysOA x = none) → p.OA = ⟨0x91, number⟩ ∧ p.OA.Number = 0x2b :: number) ∧
    ((∀ x ∈ after, saysDCS x = none) →
      (o = Model.Sms.As8Bit → p.DCS = 4) ∧ (o = Model.Sms.AsUCS2 → p.DCS = 8)) := by
  obtain ⟨h1, h2, h3, h4, h5, h6, _⟩ := C100_tpdus os os' hk msg r h p hp
  rw [ho] at h1 h2 h3 h4 h5 h6
  refine ⟨fun hs => ⟨?_, ?_⟩, ?_, ?_, fun hs => ⟨?_, ?_⟩⟩
  · rintro rfl
    rw [h1, h2, said saysDirection before after Model.Sms.AsDeliver 0 rfl (fun x hx => (hs x hx).1),
      said saysMTI before after Model.Sms.AsDeliver 0 rfl (fun x hx => (hs x hx).2)]
    exact ⟨rfl, rfl⟩
  · rintro rfl
    rw [h1, h2, said saysDirection before after Model.Sms.AsSubmit 1 rfl (fun x hx => (hs x hx).1),
      said saysMTI before after Model.Sms.AsSubmit 1 rfl (fun x hx => (hs x hx).2)]
    exact ⟨rfl, rfl⟩
  · rintro number hn hoo hs
    obtain ⟨n1, n2, n3, n4⟩ := C57_number number hn
    rcases hoo with rfl | rfl
    · rw [h3, said saysDA before after _ _ rfl hs]
      exact ⟨n3, n1⟩
    · rw [h3, said saysDA before after _ _ rfl hs]
      exact ⟨n4, n2⟩
  · rintro number hn hoo hs
    obtain ⟨n1, n2, n3, n4⟩ := C57_number number hn
    rcases hoo with rfl | rfl
    · rw [h4, said saysOA before after _ _ rfl hs]
      exact ⟨n3, n1⟩
    · rw [h4, said saysOA before after _ _ rfl hs]
      exact ⟨n4, n2⟩
  · rintro rfl
    rw [said saysDCS before after Model.Sms.As8Bit 4 rfl hs] at h6
    exact h6 (by decide)
  · rintro rfl
    rw [said saysDCS before after Model.Sms.AsUCS2 8 rfl hs] at h6
    exact h6 (by decide)

/-- C100: `sms.Encode` makes SMS-SUBMIT TPDUs unless an option says otherwise. -/
theorem C100_submit (options : List EncoderOption) (hk : MTIsKnown options)
    (hs : ∀ x ∈ options, saysDirection x = none ∧ saysMTI x = none) (msg : List UInt8) (pdus : List TPDU)
    (h : Model.Sms.Encode msg options = .ok pdus) (p : TPDU) (hp : p ∈ pdus) : p.SmsType = SmsSubmit ∧ p.SmsType = 3 := by
  unfold Model.Sms.Encode at h
  obtain ⟨r, h1, h2⟩ := bind_eq_ok.1 h
  cases h2
  have hk' : MTIsKnown ((Model.Sms.AsSubmit :: options) ++ []) := by
    intro m hm
    rw [List.append_nil] at hm
    rcases List.mem_cons.1 hm with h | h
    · cases h
    · exact hk m h
  obtain ⟨d1, d2⟩ := ((C100_named _ [] hk' msg r h1 p hp [] options Model.Sms.AsSubmit (by simp)).1 hs).2 rfl
  have : p.SmsType = 3 := by
    unfold TPDU.SmsType FirstOctet.MTI
    have e : p.FirstOctet &&& FirstOctet.FoMTIMask = 1 := d2
    rw [e, d1]
    decide
  exact ⟨this, this⟩

/-- Beside C100: a message from an encoder for deliveries, with the originator, and the number of the destination changed in
the call. -/
example :
    let as := [Model.Sms.AsDeliver, Model.Sms.From [0x31, 0x32], Model.Sms.To [0x2b, 0x33]]
    let bs := [Model.Sms.To [0x34], Model.Sms.AsUCS2]
    (((Model.Sms.NewEncoder as).Encode [0, 65] bs).map fun r => r.pdus.map fun p => (p.SmsType, p.OA, p.DA, p.DCS)) =
      .ok [(0, ⟨0x91, [0x31, 0x32]⟩, ⟨0x91, [0x34]⟩, 8)] ∧ MTIsKnown (as ++ bs) := by
  refine ⟨by decide +kernel, ?_⟩
  intro m hm
  simp [Model.Sms.AsDeliver, Model.Sms.From, Model.Sms.To, Model.Sms.AsUCS2] at hm

end Verif.Props
