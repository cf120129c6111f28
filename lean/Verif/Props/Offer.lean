import Verif.Proofs.Offer

/-! C99: offering national language tables does not take more TPDUs than doing without. -/

namespace Verif.Props
open Verif.Model Verif.Spec Verif.Proofs

/-- C99: whatever the template and the options, the options that offer tables can be given without making the
message longer: if it can be encoded without them, it can be encoded with them, in no more TPDUs. -/
theorem C99_never_more (e : Model.Sms.Encoder) (he : e.eopts = []) (msg : List UInt8)
    (options : List Model.Sms.EncoderOption) (r : Model.Sms.EncResult)
    (h : e.Encode msg (withoutCharsets options) = .ok r) :
    ∃ r', e.Encode msg options = .ok r' ∧ r'.pdus.length ≤ r.pdus.length := by
  obtain ⟨hp, ho, ho'⟩ := Offer.fold_tables options e e rfl
  rw [he] at ho ho'
  rw [List.nil_append] at ho
  rcases alphabet_cases ((withoutCharsets options).foldl Model.Sms.Encoder.apply e).pdu with ha | hx
  · by_cases hL : ¬ Representable .default msg ∧ InSeptets (Offer.tables options) msg
    · -- a table is used; without it, UCS-2 would be
      obtain ⟨hd, hs⟩ := hL
      obtain ⟨pre, L, post, eo, g1, g2⟩ := find_first (offered (Offer.tables options)) (fun L => Representable L msg)
        (by rcases hs with hs | hs
            · exact absurd hs hd
            · exact hs)
      obtain ⟨⟨d, hE, hg⟩, _⟩ := C40_language msg (Offer.tables options) hd pre post L eo g1 g2
      have hE0 := C40_fallback msg [] (by
        rintro (h0 | ⟨M, hM, _⟩)
        · exact hd h0
        · exact absurd hM (by simp [offered, offeredLocking, offeredShift, sinceAll, choices]))
      have hc : CanCarry (group ((withoutCharsets options).foldl Model.Sms.Encoder.apply e).pdu.DCS)
          (EncodeUserData msg ((withoutCharsets options).foldl Model.Sms.Encoder.apply e).eopts).2.2 := by
        by_cases hc : CanCarry (group ((withoutCharsets options).foldl Model.Sms.Encoder.apply e).pdu.DCS)
          (EncodeUserData msg ((withoutCharsets options).foldl Model.Sms.Encoder.apply e).eopts).2.2
        · exact hc
        · rw [encode_conflict e msg _ ha hc] at h; cases h
      obtain ⟨dcs0, hd0, hr0⟩ := encode_auto e msg (withoutCharsets options) ha hc
      rw [hr0] at h
      rw [ho', hE0] at h hd0 hc
      have ha' : ((options.foldl Model.Sms.Encoder.apply e).pdu).Alphabet.1 = .a7Bit := by rw [hp]; exact ha
      have hc' : CanCarry (group (options.foldl Model.Sms.Encoder.apply e).pdu.DCS)
          (EncodeUserData msg (options.foldl Model.Sms.Encoder.apply e).eopts).2.2 := by
        rw [hp, ho, hE]
        have ha'' : (DCS.Alphabet ((withoutCharsets options).foldl Model.Sms.Encoder.apply e).pdu.DCS).1 = .a7Bit := ha
        have key : ∀ x : UInt8, (DCS.Alphabet x).1 = .a7Bit → CanCarry (group x) .ucs2 → CanCarry (group x) .a7Bit := by
          apply forall_u8; decide +kernel
        exact key _ ha'' hc
      obtain ⟨dcs, hd1, hr1⟩ := encode_auto e msg options ha' hc'
      rw [hr1]
      rw [ho, hE] at hd1 ⊢
      obtain ⟨res, hs1, hs2⟩ := bind_eq_ok.1 h
      cases hs2
      simp only at hs1 hd0 hd1 ⊢
      have hb0 : baseSize (autoTemplate ((withoutCharsets options).foldl Model.Sms.Encoder.apply e).pdu dcs0 []) =
          baseSize (options.foldl Model.Sms.Encoder.apply e).pdu := by
        rw [hp]; exact baseSize_congr _ _ rfl rfl
      have hb1 : baseSize (autoTemplate (options.foldl Model.Sms.Encoder.apply e).pdu dcs L.header) =
          baseSize (options.foldl Model.Sms.Encoder.apply e).pdu := by
        refine baseSize_congr _ _ ?_ rfl
        unfold TPDU.SmsType autoTemplate
        simp only
        split <;> simp only [mti_udhi]
      generalize (options.foldl Model.Sms.Encoder.apply e).pdu = t at *
      have hA0 : (autoTemplate ((withoutCharsets options).foldl Model.Sms.Encoder.apply e).pdu dcs0 []).Alphabet.1 = .ucs2 :=
        congrArg Prod.fst hd0
      have hnext := Offer.ucs2_segments _ _ _ hA0 res hs1
      rw [hb0] at hnext
      have h2 := Offer.ucs2_length (Unicode.decodeRunes msg)
      have hgl : d.length ≤ 2 * (Unicode.decodeRunes msg).length :=
        Offer.loop_length _ _ d ((encoder_encode_eq _ msg).symm.trans hg)
      have hmne : Unicode.decodeRunes msg ≠ [] := fun h0 => hd (by intro r hr; rw [h0] at hr; cases hr)
      have hmlen : 0 < (Unicode.decodeRunes msg).length := List.length_pos_iff.2 hmne
      have hLh : L.header ≠ [] := by
        intro h0
        apply hd
        obtain ⟨l, s⟩ := L
        cases l <;> cases s <;> simp [Lang.header] at h0
        exact g2
      have hlen : (autoTemplate t dcs L.header).UDH = L.header := by unfold autoTemplate; simp [hLh]
      have hl7 := Offer.header_len L
      rcases Offer.base_cases t with hz | hB
      · rw [hz] at hnext; omega
      · have hroom : Room (autoTemplate t dcs L.header) (encCfg e) :=
          room_of _ _ (by rw [hb1]; exact hB) rfl (by rw [hlen]; omega)
        obtain ⟨res', hs', _⟩ := C33_pieces _ d _ hroom
        refine ⟨_, by rw [hs']; rfl, ?_⟩
        simp only
        by_cases hdn : d = []
        · subst hdn; cases hs'; simp
        have hA : (autoTemplate t dcs L.header).Alphabet.1 = .a7Bit := congrArg Prod.fst hd1
        have hcount := Offer.septet_segments _ d _ hA hdn hroom res' hs' (baseSize t) (by
          rw [blockSize_eq]
          have q1 : (segTemplate (autoTemplate t dcs L.header) (encCfg e)).Alphabet.1 = .a7Bit := hA
          have q2 : baseSize (segTemplate (autoTemplate t dcs L.header) (encCfg e)) = baseSize t :=
            (baseSize_congr _ _ rfl rfl).trans hb1
          have q3 : hdrLen (segTemplate (autoTemplate t dcs L.header) (encCfg e)).UDH ≤ 12 := by
            show hdrLen ((autoTemplate t dcs L.header).UDH ++ [newInfoElement 0 0 0]) ≤ 12
            rw [hlen]
            obtain ⟨l, s⟩ := L
            cases l <;> cases s <;> simp [Lang.header, hdrLen, newInfoElement]
          rw [q1, q2]
          simp only [unitsLeft]
          generalize hdrLen (segTemplate (autoTemplate t dcs L.header) (encCfg e)).UDH = x at *
          omega)
        have : (res'.pdus.length - 1) * baseSize t < res.pdus.length * baseSize t := by
          rw [Nat.mul_comm res.pdus.length]; omega
        have := Nat.lt_of_mul_lt_mul_right this
        omega
    · -- the same encoding is chosen
      have hsame : EncodeUserData msg (Offer.tables options) = EncodeUserData msg [] := by
        by_cases hd : Representable .default msg
        · obtain ⟨d, x1, x2⟩ := C40_default msg (Offer.tables options) hd
          obtain ⟨d', y1, y2⟩ := C40_default msg [] hd
          rw [x2] at y2; cases y2
          rw [x1, y1]
        · rw [C40_fallback _ _ (fun hh => hL ⟨hd, hh⟩), C40_fallback _ _ (by
            rintro (h0 | ⟨M, hM, _⟩)
            · exact hd h0
            · exact absurd hM (by simp [offered, offeredLocking, offeredShift, sinceAll, choices]))]
      refine ⟨r, ?_, Nat.le_refl _⟩
      rw [← h]
      unfold Model.Sms.Encoder.Encode Model.Sms.Encoder.segment
      simp only
      rw [hp, ho, ho', hsame, (apply_counters options e).1, (apply_counters options e).2,
        (apply_counters (withoutCharsets options) e).1, (apply_counters (withoutCharsets options) e).2]
  · refine ⟨r, ?_, Nat.le_refl _⟩
    rw [encode_explicit e msg _ hx] at h
    rw [encode_explicit e msg options (by rw [hp]; exact hx), hp]
    exact h

/-- C99 for `sms.Encode`. -/
theorem C99_encode (msg : List UInt8) (options : List Model.Sms.EncoderOption) (ps : List TPDU)
    (h : Model.Sms.Encode msg (withoutCharsets options) = .ok ps) :
    ∃ ps', Model.Sms.Encode msg options = .ok ps' ∧ ps'.length ≤ ps.length := by
  have hn : ∀ os : List Model.Sms.EncoderOption, Model.Sms.Encode msg os =
      (do let r ← (Model.Sms.NewEncoder []).Encode msg (Model.Sms.AsSubmit :: os); return r.pdus) := fun _ => rfl
  rw [hn] at h
  obtain ⟨r, h1, h2⟩ := bind_eq_ok.1 h
  cases h2
  obtain ⟨r', g1, g2⟩ := C99_never_more (Model.Sms.NewEncoder []) rfl msg (Model.Sms.AsSubmit :: options) r h1
  exact ⟨r'.pdus, by rw [hn, g1]; rfl, g2⟩

/-- The text of the examples: "ç", which the default tables lack, and carets, which take one septet in the
Portuguese locking table and two in the default shift table. -/
def carets (n : Nat) : List UInt8 := [0xc3, 0xa7] ++ List.replicate n 0x5e

/-- 100 carets: two TPDUs in UCS-2, one with the Portuguese tables offered. -/
example : (Model.Sms.Encode (carets 100) []).map List.length = .ok 2 ∧
    withoutCharsets [.charsets (.charset [3])] = [] ∧
    (Model.Sms.Encode (carets 100) [.charsets (.charset [3])]).map List.length = .ok 1 := by
  refine ⟨?_, rfl, ?_⟩ <;> decide +kernel

/-- The same is not true of tables offered in addition to others: with the Turkish tables before the
Portuguese, the first that will do are used, and take two septets for each caret. -/
theorem C99_counterexample :
    (Model.Sms.Encode (carets 140) [.charsets (.charset [3])]).map List.length = .ok 1 ∧
    (Model.Sms.Encode (carets 140) [.charsets (.charset [1]), .charsets (.charset [3])]).map List.length = .ok 2 := by
  constructor <;> decide +kernel

end Verif.Props
