import Verif.Proofs.Size
import Verif.Props.MarshalSafe
import Verif.Props.SmsEncode

/-! C114: TPDUs whose user data is within the block size fit in a message of the network. -/

namespace Verif.Props
open Verif.Model Verif.Spec Verif.Proofs

/-- C114: whatever the TPDU, what `MarshalBinary` writes has the octets that its fields take. -/
theorem C114_size (t : TPDU) (p : List UInt8) (h : t.MarshalBinary = .ok p) : p.length = Size.tpdu t := Size.tpdu_len t p h

theorem marshal_types (t : TPDU) (p : List UInt8) (h : t.MarshalBinary = .ok p) : t.SmsType ∈ smsTypes := by
  rcases (C71_exact t).1 ⟨p, h⟩ with ⟨h, _⟩ | ⟨h, _⟩ | ⟨h, _⟩ | ⟨h, _⟩ | ⟨h, _⟩ | ⟨h, _⟩ <;> rw [h] <;> decide

/-- What the user data takes besides its length octet. -/
theorem ud_le (t : TPDU) (h : (t.UD.length : Int) ≤ t.UDBlockSize) (hu : t.Alphabet.1 = .ucs2 → t.UD.length % 2 = 0) :
    Size.userData t ≤ 1 + baseSize t := by
  rw [blockSize_eq, Size.header_eq] at h
  have hr := alphabet_ne_reserved t
  unfold Size.userData
  generalize t.Alphabet.1 = a at *
  generalize baseSize t = b at *
  cases a with
  | reserved => exact absurd rfl hr
  | a7Bit =>
    simp only [unitsLeft] at h
    split
    · omega
    · rename_i hne
      have : t.UD = [] := Classical.byContradiction fun h => hne ⟨rfl, h⟩
      rw [this] at h ⊢
      simp only [List.length_nil] at h ⊢
      omega
  | a8Bit => simp only [unitsLeft] at h; rw [if_neg (by simp)]; omega
  | ucs2 => simp only [unitsLeft] at h; rw [if_neg (by simp)]; omega

theorem ud_gt (t : TPDU) (hne : t.UD ≠ []) (h : ¬ (t.UD.length : Int) ≤ t.UDBlockSize) (hu : t.Alphabet.1 = .ucs2 → t.UD.length % 2 = 0) :
    1 + baseSize t < Size.userData t := by
  rw [blockSize_eq, Size.header_eq] at h
  have hr := alphabet_ne_reserved t
  unfold Size.userData
  generalize t.Alphabet.1 = a at *
  generalize baseSize t = b at *
  cases a with
  | reserved => exact absurd rfl hr
  | a7Bit =>
    simp only [unitsLeft] at h
    rw [if_pos ⟨rfl, hne⟩]
    omega
  | a8Bit => simp only [unitsLeft] at h; rw [if_neg (by simp)]; omega
  | ucs2 =>
    simp only [unitsLeft] at h
    have := hu rfl
    rw [if_neg (by simp)]
    omega

/-- Commands are written as octets whatever their coding scheme. -/
theorem cmd_ud (t : TPDU) (h : (t.UD.length : Int) ≤ t.UDBlockSize) (h7 : t.Alphabet.1 ≠ .a7Bit) : t.UD.length ≤ baseSize t := by
  rw [blockSize_eq] at h
  have hr := alphabet_ne_reserved t
  generalize t.Alphabet.1 = a at *
  generalize baseSize t = b at *
  cases a with
  | reserved => exact absurd rfl hr
  | a7Bit => exact absurd rfl h7
  | a8Bit => simp only [unitsLeft] at h; omega
  | ucs2 => simp only [unitsLeft] at h; omega

theorem period_le (v : ValidityPeriod) : Size.period v ≤ 7 := by unfold Size.period; split <;> (try split) <;> omega

theorem optional_le (t : TPDU) (n : Nat) (h : Size.userData t ≤ n) : Size.optional t ≤ 2 + n := by
  unfold Size.optional; split <;> split <;> split <;> omega

/-- C114, partial: a TPDU whose address is within the 12 octets of the standard and whose user data is within the
block size takes at most 164 octets, and an SMS-DELIVER 163.  Missing: commands with a 7-bit coding scheme, for which it is
false (`C114_counterexample`). -/
theorem C114_limit_partial (t : TPDU) (p : List UInt8) (h : t.MarshalBinary = .ok p) (ha : Size.address t ≤ 12)
    (hud : (t.UD.length : Int) ≤ t.UDBlockSize) (hc : t.SmsType = SmsCommand → t.Alphabet.1 ≠ .a7Bit) : p.length ≤ Size.limit t := by
  rw [C114_size t p h]
  have hv := period_le t.VP
  have hcause : Size.cause t = if t.FCS = 0 then 0 else 1 := rfl
  have enc := (C71_exact t).1 ⟨p, h⟩
  have opt : (t.SmsType = SmsDeliverReport ∨ t.SmsType = SmsSubmitReport ∨ t.SmsType = SmsStatusReport) → OptEnc t →
      Size.optional t ≤ 3 + baseSize t := by
    intro _ ho
    by_cases hb : t.PI.toNat.testBit 2 = true
    · have := optional_le t _ (ud_le t hud (ho hb).2); omega
    · have : Size.optional t ≤ 2 := by
        unfold Size.optional
        rw [if_neg hb]; split <;> split <;> omega
      omega
  unfold Size.tpdu Size.limit
  rcases enc with ⟨hs, _, _, hu⟩ | ⟨hs, hu⟩ | ⟨hs, _, hu⟩ | ⟨hs, _, hu, _⟩ | ⟨hs, _, _, _, hu⟩ | ⟨hs, _⟩
  · have := ud_le t hud hu.2
    have hb : baseSize t = 140 := by unfold baseSize; rw [if_pos (.inr hs)]
    rw [if_pos hs, if_pos hs]; omega
  · have := opt (.inl hs) hu
    have hb : baseSize t = if t.FCS = 0 then 159 else 158 := by unfold baseSize; rw [hs]; rfl
    rw [hs, if_neg (by decide), if_pos rfl, if_neg (by decide)]
    split at hb <;> rename_i hz <;> simp only [hz, if_true, if_false] at hcause <;> omega
  · have := opt (.inr (.inl hs)) hu
    have hb : baseSize t = if t.FCS = 0 then 152 else 151 := by unfold baseSize; rw [hs]; rfl
    rw [hs, if_neg (by decide), if_neg (by decide), if_pos rfl, if_neg (by decide)]
    split at hb <;> rename_i hz <;> simp only [hz, if_true, if_false] at hcause <;> omega
  · have := ud_le t hud hu.2
    have hb : baseSize t = 140 := by unfold baseSize; rw [if_pos (.inl hs)]
    rw [hs, if_neg (by decide), if_neg (by decide), if_neg (by decide), if_pos rfl, if_neg (by decide)]; omega
  · have := opt (.inr (.inr hs)) hu
    have hb : baseSize t = 131 := by unfold baseSize; rw [hs]; rfl
    rw [hs, if_neg (by decide), if_neg (by decide), if_neg (by decide), if_neg (by decide), if_pos rfl, if_neg (c := SmsStatusReport = SmsDeliver) (by decide)]
    split <;> omega
  · have := cmd_ud t hud (hc hs)
    have hb : baseSize t = 146 := by unfold baseSize; rw [hs]; rfl
    rw [hs, if_neg (by decide), if_neg (by decide), if_neg (by decide), if_neg (by decide), if_neg (by decide), if_neg (by decide)]
    omega

/-- C114: and the block size is all there is room for: when the other fields are at their longest, not one unit more
of user data fits. -/
theorem C114_tight (t : TPDU) (p : List UInt8) (h : t.MarshalBinary = .ok p) (hf : Size.Full t) (hne : t.UD ≠ [])
    (hc : t.SmsType = SmsCommand → t.Alphabet.1 = .a8Bit ∧ t.UDH = []) :
    p.length ≤ Size.limit t ↔ (t.UD.length : Int) ≤ t.UDBlockSize := by
  obtain ⟨ha, hv, hopt⟩ := hf
  have ha' : Size.address t ≤ 12 := by omega
  constructor
  · intro hle
    apply Classical.byContradiction
    intro hbig
    rw [C114_size t p h] at hle
    have hcause : Size.cause t = if t.FCS = 0 then 0 else 1 := rfl
    have enc := (C71_exact t).1 ⟨p, h⟩
    have opt : (t.SmsType = SmsDeliverReport ∨ t.SmsType = SmsSubmitReport ∨ t.SmsType = SmsStatusReport) → OptEnc t →
        3 + baseSize t < Size.optional t := by
      intro hs ho
      obtain ⟨h0, h1, h2⟩ := hopt hs
      have := ud_gt t hne hbig (ho h2).2
      unfold Size.optional
      rw [if_pos h0, if_pos h1, if_pos h2]; omega
    have has : ∀ a : Address, 2 ≤ Size.addr a := fun a => by unfold Size.addr; omega
    have haddr : (t.SmsType = SmsDeliver ∨ t.SmsType = SmsStatusReport ∨ t.SmsType = SmsSubmit ∨ t.SmsType = SmsCommand) → Size.address t = 12 := by
      intro hs
      rcases ha with ha | ha
      · unfold Size.address at ha
        rcases hs with hs | hs | hs | hs <;> rw [hs] at ha
        · rw [if_pos rfl] at ha; have := has t.OA; omega
        · rw [if_neg (by decide), if_pos rfl] at ha; have := has t.RA; omega
        · rw [if_neg (by decide), if_neg (by decide), if_pos (by decide)] at ha; have := has t.DA; omega
        · rw [if_neg (by decide), if_neg (by decide), if_pos (by decide)] at ha; have := has t.DA; omega
      · exact ha
    unfold Size.tpdu Size.limit at hle
    rcases enc with ⟨hs, _, _, hu⟩ | ⟨hs, hu⟩ | ⟨hs, _, hu⟩ | ⟨hs, _, hu, _⟩ | ⟨hs, _, _, _, hu⟩ | ⟨hs, _⟩
    · have := ud_gt t hne hbig hu.2
      have hb : baseSize t = 140 := by unfold baseSize; rw [if_pos (.inr hs)]
      have := haddr (.inl hs)
      rw [if_pos hs, if_pos hs] at hle; omega
    · have := opt (.inl hs) hu
      have hb : baseSize t = if t.FCS = 0 then 159 else 158 := by unfold baseSize; rw [hs]; rfl
      rw [hs, if_neg (by decide), if_pos rfl, if_neg (by decide)] at hle
      split at hb <;> rename_i hz <;> simp only [hz, if_true, if_false] at hcause <;> omega
    · have := opt (.inr (.inl hs)) hu
      have hb : baseSize t = if t.FCS = 0 then 152 else 151 := by unfold baseSize; rw [hs]; rfl
      rw [hs, if_neg (by decide), if_neg (by decide), if_pos rfl, if_neg (by decide)] at hle
      split at hb <;> rename_i hz <;> simp only [hz, if_true, if_false] at hcause <;> omega
    · have := ud_gt t hne hbig hu.2
      have hb : baseSize t = 140 := by unfold baseSize; rw [if_pos (.inl hs)]
      have := haddr (.inr (.inr (.inl hs)))
      have := hv hs
      rw [hs, if_neg (by decide), if_neg (by decide), if_neg (by decide), if_pos rfl, if_neg (by decide)] at hle; omega
    · have := opt (.inr (.inr hs)) hu
      have hb : baseSize t = 131 := by unfold baseSize; rw [hs]; rfl
      have := haddr (.inr (.inl hs))
      have hp0 : t.PI ≠ 0 := by
        intro h0
        have := (hopt (.inr (.inr hs))).1
        rw [h0] at this; exact absurd this (by decide)
      rw [hs, if_neg (by decide), if_neg (by decide), if_neg (by decide), if_neg (by decide), if_pos rfl,
        if_neg hp0, if_neg (by decide)] at hle
      omega
    · have hb : baseSize t = 146 := by unfold baseSize; rw [hs]; rfl
      have := haddr (.inr (.inr (.inr hs)))
      rw [hs, if_neg (by decide), if_neg (by decide), if_neg (by decide), if_neg (by decide), if_neg (by decide), if_neg (by decide)] at hle
      rw [blockSize_eq, (hc hs).1, (hc hs).2, hb] at hbig
      simp only [unitsLeft] at hbig
      have : hdrLen [] = 0 := rfl
      omega
  · intro hud
    exact C114_limit_partial t p h ha' hud fun hs h7 => by rw [(hc hs).1] at h7; cases h7

/-- C114: the TPDUs of `Encode`, whatever the encoder, the message and the options, have no more than that if the address of
the template is within 12 octets, unless the template is a command. -/
theorem C114_encode (e : Model.Sms.Encoder) (msg : List UInt8) (options : List Model.Sms.EncoderOption) (r : Model.Sms.EncResult)
    (hr : e.Encode msg options = .ok r) (ha : Size.address (callTemplate e options) ≤ 12)
    (hc : (callTemplate e options).SmsType ≠ SmsCommand) :
    ∀ p ∈ r.pdus, (p.UD.length : Int) ≤ p.UDBlockSize ∧ ∀ b, p.MarshalBinary = .ok b → b.length ≤ Size.limit (callTemplate e options) := by
  have seg : ∀ (e' : Model.Sms.Encoder) (t : TPDU) (d : Bytes), t.SmsType = (callTemplate e options).SmsType →
      t.DA = (callTemplate e options).DA → t.OA = (callTemplate e options).OA → t.RA = (callTemplate e options).RA →
      e'.segment t d = .ok r →
      ∀ p ∈ r.pdus, (p.UD.length : Int) ≤ p.UDBlockSize ∧ ∀ b, p.MarshalBinary = .ok b → b.length ≤ Size.limit (callTemplate e options) := by
    intro e' t d ht hda hoa hra h p hp
    obtain ⟨res, hres, hh⟩ := bind_eq_ok.1 h
    cases hh
    obtain ⟨h1, h2, h3, h4, h5, _⟩ := Size.segment_le t d _ res hres p hp
    refine ⟨h1, fun b hb => ?_⟩
    have hl : Size.limit p = Size.limit (callTemplate e options) := by unfold Size.limit; rw [h2, ht]
    rw [← hl]
    refine C114_limit_partial p b hb ?_ h1 (fun h => absurd (by rw [← ht, ← h2]; exact h) hc)
    have : Size.address p = Size.address (callTemplate e options) := by
      unfold Size.address; rw [h2, ht, h3, h4, h5, hda, hoa, hra]
    rw [this]; exact ha
  unfold Model.Sms.Encoder.Encode at hr
  simp only at hr
  split at hr
  · exact seg _ _ _ rfl rfl rfl rfl hr
  · split at hr
    · cases hr
    · cases hr
    · rename_i dcs _
      refine seg _ _ _ ?_ ?_ ?_ ?_ hr
      · have hm : ∀ f : UInt8, FirstOctet.MTI (f ||| 0x40) = FirstOctet.MTI f := by apply forall_u8; decide +kernel
        split
        · show smsType (FirstOctet.MTI (_ ||| 0x40)) _ = _
          rw [hm]
          split <;> rfl
        · split <;> rfl
      · split <;> split <;> rfl
      · split <;> split <;> rfl
      · split <;> split <;> rfl

/-- C114 fails for commands: their data are written as octets, but the block size counts septets unless the coding scheme
says otherwise.  166 octets make a TPDU of 184. -/
theorem C114_counterexample :
    let t : TPDU := { Direction := 1, FirstOctet := 2, DA := ⟨0x91, List.replicate 20 0x31⟩, UD := List.replicate 166 0 }
    t.SmsType = SmsCommand ∧ Size.address t = 12 ∧ (t.UD.length : Int) ≤ t.UDBlockSize ∧
      ∃ b, t.MarshalBinary = .ok b ∧ b.length = 184 := by
  refine ⟨by decide, by decide +kernel, by decide +kernel, ?_⟩
  obtain ⟨b, hb⟩ := (C71_exact { Direction := 1, FirstOctet := 2, DA := ⟨0x91, List.replicate 20 0x31⟩, UD := List.replicate 166 0 }).2
    (.inr (.inr (.inr (.inr (.inr ⟨by decide, by
      unfold AddrEnc; rw [if_neg (by decide)]; intro d hd; rw [List.eq_of_mem_replicate hd]; decide⟩)))))
  refine ⟨b, hb, ?_⟩
  rw [C114_size _ _ hb]
  decide +kernel

/-- And a number of 21 digits is one octet too many. -/
example :
    let t : TPDU := { Direction := 1, FirstOctet := 0x19, DA := ⟨0x91, List.replicate 21 0x31⟩, DCS := 4, VP := { Format := 3 },
                      UD := List.replicate 140 0 }
    Size.address t = 13 ∧ (t.UD.length : Int) ≤ t.UDBlockSize ∧ Size.tpdu t = 165 := by
  refine ⟨by decide +kernel, by decide +kernel, by decide +kernel⟩

/-- Beside `C114_tight`: a submit report with everything that can be announced, which has no room left. -/
example : let t : TPDU := { Direction := 0, FirstOctet := 1, FCS := 0xd0, PI := 7, DCS := 4, UD := List.replicate 151 0 }
    Size.Full t ∧ t.SmsType = SmsSubmitReport ∧ (∃ b, t.MarshalBinary = .ok b) ∧ Size.tpdu t = 164 ∧ t.UDBlockSize = 151 := by
  refine ⟨⟨by decide, by decide, by decide⟩, by decide, ?_, by decide +kernel, by decide +kernel⟩
  exact (C71_exact _).2 (.inr (.inr (.inl ⟨by decide, ⟨by decide, by decide, by decide⟩, fun _ => ⟨by decide, by decide⟩⟩)))

/-- Beside `C114_encode`: text of 161 characters to a number of 11 digits. -/
example : (Model.Sms.NewEncoder [Model.Sms.AsSubmit, Model.Sms.To (List.replicate 11 0x31)]).pdu.SmsType = SmsSubmit ∧
    Size.address (Model.Sms.NewEncoder [Model.Sms.AsSubmit, Model.Sms.To (List.replicate 11 0x31)]).pdu = 8 := by
  decide +kernel

end Verif.Props
