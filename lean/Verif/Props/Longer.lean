import Verif.Proofs.Longer

/-! C116: a longer text never takes fewer TPDUs. -/

namespace Verif.Props
open Verif.Model Verif.Spec Verif.Proofs

/-- C116 for `Segment`: whatever the template and the message, if the message can be segmented, so can what is left
when its end is taken away, in no more TPDUs. -/
theorem C116_segment (t : TPDU) (a b : List UInt8) (cfg : SegCfg) (res : SegResult) (h : t.Segment (a ++ b) cfg = .ok res) :
    ∃ res', t.Segment a cfg = .ok res' ∧ res'.pdus.length ≤ res.pdus.length := Longer.segment_prefix t a b cfg res h

/-- C116 when the alphabet is given, so that what is encoded is octets, which can be taken away anywhere. -/
theorem C116_given (e : Model.Sms.Encoder) (a b : List UInt8) (options : List Model.Sms.EncoderOption)
    (hx : ((options.foldl Model.Sms.Encoder.apply e).pdu).Alphabet.1 ≠ .a7Bit) (r : Model.Sms.EncResult)
    (h : e.Encode (a ++ b) options = .ok r) :
    ∃ r', e.Encode a options = .ok r' ∧ r'.pdus.length ≤ r.pdus.length := by
  rcases alphabet_cases ((options.foldl Model.Sms.Encoder.apply e).pdu) with ha | ha
  · exact absurd ha hx
  · rw [encode_explicit e _ options ha] at h ⊢
    obtain ⟨res, h1, h2⟩ := bind_eq_ok.1 h
    cases h2
    obtain ⟨res', g1, g2⟩ := Longer.segment_prefix _ a b _ res h1
    rw [g1]
    exact ⟨_, rfl, g2⟩

/-- If both texts are encoded with the same tables. -/
theorem longer_same (e : Model.Sms.Encoder) (a b : List UInt8) (options : List Model.Sms.EncoderOption)
    (ha : ((options.foldl Model.Sms.Encoder.apply e).pdu).Alphabet.1 = .a7Bit) (d d' : Bytes) (udh : UDH) (al : Alphabet)
    (h1 : EncodeUserData a (options.foldl Model.Sms.Encoder.apply e).eopts = (d, udh, al))
    (h2 : EncodeUserData (a ++ b) (options.foldl Model.Sms.Encoder.apply e).eopts = (d ++ d', udh, al)) (r : Model.Sms.EncResult)
    (h : e.Encode (a ++ b) options = .ok r) :
    ∃ r', e.Encode a options = .ok r' ∧ r'.pdus.length ≤ r.pdus.length := by
  have hc : CanCarry (group ((options.foldl Model.Sms.Encoder.apply e).pdu).DCS) al := by
    by_cases hc : CanCarry (group ((options.foldl Model.Sms.Encoder.apply e).pdu).DCS) al
    · exact hc
    · rw [encode_conflict e _ options ha (by rw [h2]; exact hc)] at h; cases h
  obtain ⟨dcs, k1, k2⟩ := encode_auto_dcs e a options ha (by rw [h1]; exact hc)
  obtain ⟨dcs', k3, k4⟩ := encode_auto_dcs e (a ++ b) options ha (by rw [h2]; exact hc)
  rw [h1] at k1 k2
  rw [h2] at k3 k4
  simp only at k1 k2 k3 k4
  rw [k1] at k3; cases k3
  rw [k4] at h
  rw [k2]
  obtain ⟨res, g1, g2⟩ := bind_eq_ok.1 h
  cases g2
  obtain ⟨res', g3, g4⟩ := Longer.segment_prefix _ d d' _ res g1
  rw [g3]
  exact ⟨_, rfl, g4⟩

/-- If the longer text needs UCS-2 and the shorter does not. -/
theorem longer_ucs2 (e : Model.Sms.Encoder) (a b : List UInt8) (options : List Model.Sms.EncoderOption)
    (ha : ((options.foldl Model.Sms.Encoder.apply e).pdu).Alphabet.1 = .a7Bit) (g m : Bytes) (udh : UDH)
    (hu : udh = [] ∧ hdrLen ((options.foldl Model.Sms.Encoder.apply e).pdu).UDH ≤ 110 ∨ udh ≠ [] ∧ hdrLen udh ≤ 7)
    (h1 : EncodeUserData a (options.foldl Model.Sms.Encoder.apply e).eopts = (g, udh, .a7Bit))
    (h2 : EncodeUserData (a ++ b) (options.foldl Model.Sms.Encoder.apply e).eopts = (m, [], .ucs2)) (hl : g.length ≤ m.length)
    (r : Model.Sms.EncResult) (h : e.Encode (a ++ b) options = .ok r) :
    ∃ r', e.Encode a options = .ok r' ∧ r'.pdus.length ≤ r.pdus.length := by
  have hcU : CanCarry (group ((options.foldl Model.Sms.Encoder.apply e).pdu).DCS) .ucs2 := by
    by_cases hc : CanCarry (group ((options.foldl Model.Sms.Encoder.apply e).pdu).DCS) .ucs2
    · exact hc
    · rw [encode_conflict e _ options ha (by rw [h2]; exact hc)] at h; cases h
  have hc : CanCarry (group ((options.foldl Model.Sms.Encoder.apply e).pdu).DCS) .a7Bit := by
    have ha'' : (DCS.Alphabet ((options.foldl Model.Sms.Encoder.apply e).pdu).DCS).1 = .a7Bit := ha
    have key : ∀ x : UInt8, (DCS.Alphabet x).1 = .a7Bit → CanCarry (group x) .ucs2 → CanCarry (group x) .a7Bit := by
      apply forall_u8; decide +kernel
    exact key _ ha'' hcU
  obtain ⟨dcs, k1, k2⟩ := encode_auto e a options ha (by rw [h1]; exact hc)
  obtain ⟨dcs', k3, k4⟩ := encode_auto e (a ++ b) options ha (by rw [h2]; exact hcU)
  rw [h1] at k1 k2
  rw [h2] at k3 k4
  simp only at k1 k2 k3 k4
  rw [k4] at h
  rw [k2]
  obtain ⟨res, g1, g2⟩ := bind_eq_ok.1 h
  cases g2
  generalize (options.foldl Model.Sms.Encoder.apply e).pdu = t at *
  have hA : (autoTemplate t dcs udh).Alphabet.1 = .a7Bit := congrArg Prod.fst k1
  have hAU : (autoTemplate t dcs' []).Alphabet.1 = .ucs2 := congrArg Prod.fst k3
  have hb : baseSize (autoTemplate t dcs udh) = baseSize t := by
    refine baseSize_congr _ _ ?_ rfl
    unfold TPDU.SmsType autoTemplate
    simp only
    split <;> simp only [mti_udhi]
  have hbU : baseSize (autoTemplate t dcs' []) = baseSize t := baseSize_congr _ _ rfl rfl
  have q1 : (segTemplate (autoTemplate t dcs udh) (encCfg e)).Alphabet.1 = .a7Bit := hA
  have q1U : (segTemplate (autoTemplate t dcs' []) (encCfg e)).Alphabet.1 = .ucs2 := hAU
  have q2 : baseSize (segTemplate (autoTemplate t dcs udh) (encCfg e)) = baseSize t := (baseSize_congr _ _ rfl rfl).trans hb
  have q2U : baseSize (segTemplate (autoTemplate t dcs' []) (encCfg e)) = baseSize t := (baseSize_congr _ _ rfl rfl).trans hbU
  have hseg : ∀ u : UDH, hdrLen u ≤ hdrLen (u ++ [newInfoElement 0 0 0]) ∧ hdrLen (u ++ [newInfoElement 0 0 0]) ≤ hdrLen u + 6 := by
    intro u
    cases u with
    | nil => decide
    | cons x u =>
      simp only [hdrLen, List.cons_append, List.map_cons, List.map_append, List.sum_cons, List.sum_append, List.map_nil,
        List.sum_nil, newInfoElement, reduceCtorEq, if_false, List.length_cons, List.length_nil]
      omega
  have e1 : (autoTemplate t dcs' []).UDH = t.UDH := rfl
  have e2 : (segTemplate (autoTemplate t dcs' []) (encCfg e)).UDH = t.UDH ++ [newInfoElement 0 0 0] := rfl
  have e3 : (autoTemplate t dcs udh).UDH = if udh ≠ [] then udh else t.UDH := rfl
  have e4 : (segTemplate (autoTemplate t dcs udh) (encCfg e)).UDH = (if udh ≠ [] then udh else t.UDH) ++ [newInfoElement 0 0 0] := rfl
  have hB := Offer.base_cases t
  have s1 := hseg t.UDH
  have s2 := hseg udh
  obtain ⟨res', r1, r2⟩ := Longer.septets_ucs2 (autoTemplate t dcs udh) (autoTemplate t dcs' []) g m (encCfg e) hA hAU hl (by
    rw [blockSize_eq, blockSize_eq, hA, hAU, hb, hbU, e1, e3]
    simp only [unitsLeft]
    rcases hu with ⟨rfl, hu⟩ | ⟨hu0, hu⟩
    · rw [if_neg (by simp)]
      generalize hdrLen t.UDH = x at *
      generalize baseSize t = y at *
      omega
    · rw [if_pos hu0]
      generalize hdrLen t.UDH = x at *
      generalize hdrLen udh = z at *
      generalize baseSize t = y at *
      omega) (by
    rw [blockSize_eq, blockSize_eq, q1, q1U, q2, q2U, e2, e4]
    simp only [unitsLeft]
    rcases hu with ⟨rfl, hu⟩ | ⟨hu0, hu⟩
    · rw [if_neg (by simp)]
      generalize hdrLen (t.UDH ++ [newInfoElement 0 0 0]) = x at *
      generalize baseSize t = y at *
      omega
    · rw [if_pos hu0]
      generalize hdrLen (t.UDH ++ [newInfoElement 0 0 0]) = x at *
      generalize hdrLen (udh ++ [newInfoElement 0 0 0]) = z at *
      generalize baseSize t = y at *
      omega) res g1
  rw [r1]
  exact ⟨_, rfl, r2⟩

/-- The default encoder takes the characters one by one. -/
theorem default_append {a b : List UInt8} (hu : Utf8 a) (L : Lang) (g : Bytes)
    (h : Gsm7.Encode (a ++ b) [.charset (L.locking.getD 0), .extCharset (L.shift.getD 0)] = .ok g) :
    ∃ g1 g2, Gsm7.Encode a [.charset (L.locking.getD 0), .extCharset (L.shift.getD 0)] = .ok g1 ∧ g = g1 ++ g2 := by
  unfold Gsm7.Encode at h ⊢
  rw [encoder_encode_eq, Longer.decodeRunes_utf8 hu] at h
  rw [encoder_encode_eq]
  exact Longer.loop_append _ _ _ g h

theorem representable_prefix {a b : List UInt8} (hu : Utf8 a) {L : Lang} (h : Representable L (a ++ b)) : Representable L a := by
  intro r hr
  exact h r (by rw [Longer.decodeRunes_utf8 hu]; simp [hr])

theorem ucs2_prefix {a : List UInt8} (hu : Utf8 a) (b : List UInt8) :
    Ucs2.Encode (Unicode.decodeRunes (a ++ b)) = Ucs2.Encode (Unicode.decodeRunes a) ++ Ucs2.Encode (Unicode.decodeRunes b) := by
  rw [Longer.decodeRunes_utf8 hu]; simp [Ucs2.Encode]

theorem no_tables : offered [] = [] := by simp [offered, offeredLocking, offeredShift, sinceAll, choices]

/-- A text in septets takes no more than its characters take in UCS-2. -/
theorem septets_le {a b : List UInt8} (hu : Utf8 a) {o : List Gsm7.Option'} {g : Bytes} (h : Gsm7.Encode a o = .ok g) :
    g.length ≤ (Ucs2.Encode (Unicode.decodeRunes (a ++ b))).length := by
  unfold Gsm7.Encode at h
  rw [encoder_encode_eq] at h
  have h1 := Offer.loop_length _ _ g h
  have h2 := Offer.ucs2_length (Unicode.decodeRunes (a ++ b))
  rw [Longer.decodeRunes_utf8 hu, List.length_append] at h2
  rw [Longer.decodeRunes_utf8 hu]
  omega

/-- C116, whatever tables are offered, for a text that cannot be encoded in septets: what is left when characters are
taken away from its end takes no more TPDUs.  The header of the template may take up to 110 octets. -/
theorem C116_ucs2 (e : Model.Sms.Encoder) (a b : List UInt8) (hu : Utf8 a) (options : List Model.Sms.EncoderOption)
    (hh : hdrLen ((options.foldl Model.Sms.Encoder.apply e).pdu).UDH ≤ 110)
    (hn : ¬ InSeptets (options.foldl Model.Sms.Encoder.apply e).eopts (a ++ b)) (r : Model.Sms.EncResult)
    (h : e.Encode (a ++ b) options = .ok r) :
    ∃ r', e.Encode a options = .ok r' ∧ r'.pdus.length ≤ r.pdus.length := by
  by_cases ha : ((options.foldl Model.Sms.Encoder.apply e).pdu).Alphabet.1 = .a7Bit
  · have hw := C40_fallback _ _ hn
    by_cases hd : Representable .default a
    · obtain ⟨d, x1, x2⟩ := C40_default a (options.foldl Model.Sms.Encoder.apply e).eopts hd
      exact longer_ucs2 e a b options ha d _ [] (.inl ⟨rfl, hh⟩) x1 hw (septets_le hu x2) r h
    · by_cases hs : InSeptets (options.foldl Model.Sms.Encoder.apply e).eopts a
      · obtain ⟨pre, L, post, eo, g1, g2⟩ := find_first (offered (options.foldl Model.Sms.Encoder.apply e).eopts) (fun L => Representable L a)
          (by rcases hs with hs | hs
              · exact absurd hs hd
              · exact hs)
        obtain ⟨⟨d, hE, hg⟩, _⟩ := C40_language a _ hd pre post L eo g1 g2
        have hLh : L.header ≠ [] := by
          intro h0
          apply hd
          obtain ⟨l, s⟩ := L
          cases l <;> cases s <;> simp [Lang.header] at h0
          exact g2
        exact longer_ucs2 e a b options ha d _ L.header (.inr ⟨hLh, Offer.header_len L⟩) hE hw (septets_le hu hg) r h
      · exact longer_same e a b options ha _ _ [] .ucs2 (C40_fallback _ _ hs) (by rw [hw, ucs2_prefix hu]) r h
  · exact C116_given e a b options ha r h

/-- C116, partial: if no tables of other languages are offered, what is left when characters are taken away from the end
of a text takes no more TPDUs, whatever alphabets the two need.  Missing: with tables offered, for which it is false
(`C116_counterexample`), unless the text needs UCS-2 (`C116_ucs2`) or both use the same tables (`C116_same_tables`);
templates with a header of more than 110 octets. -/
theorem C116_longer_partial (e : Model.Sms.Encoder) (a b : List UInt8) (hu : Utf8 a) (options : List Model.Sms.EncoderOption)
    (hh : hdrLen ((options.foldl Model.Sms.Encoder.apply e).pdu).UDH ≤ 110)
    (ho : e.eopts = [] ∧ withoutCharsets options = options) (r : Model.Sms.EncResult)
    (h : e.Encode (a ++ b) options = .ok r) :
    ∃ r', e.Encode a options = .ok r' ∧ r'.pdus.length ≤ r.pdus.length := by
  have ho : (options.foldl Model.Sms.Encoder.apply e).eopts = [] := by
    have := (Offer.fold_tables options e e rfl).2.2
    rw [ho.2] at this
    rw [this, ho.1]
  by_cases hn : InSeptets (options.foldl Model.Sms.Encoder.apply e).eopts (a ++ b)
  · by_cases ha : ((options.foldl Model.Sms.Encoder.apply e).pdu).Alphabet.1 = .a7Bit
    · have hd : Representable .default (a ++ b) := by
        rcases hn with hn | ⟨L, hL, _⟩
        · exact hn
        · rw [ho, no_tables] at hL; cases hL
      obtain ⟨d, x1, x2⟩ := C40_default (a ++ b) (options.foldl Model.Sms.Encoder.apply e).eopts hd
      obtain ⟨d', y1, y2⟩ := C40_default a (options.foldl Model.Sms.Encoder.apply e).eopts (representable_prefix hu hd)
      unfold Gsm7.Encode at x2 y2
      rw [encoder_encode_eq, Longer.decodeRunes_utf8 hu] at x2
      rw [encoder_encode_eq] at y2
      obtain ⟨g1, g2, k1, rfl⟩ := Longer.loop_append _ _ _ d x2
      rw [y2] at k1; cases k1
      exact longer_same e a b options ha _ _ [] .a7Bit y1 x1 r h
    · exact C116_given e a b options ha r h
  · exact C116_ucs2 e a b hu options hh hn r h

/-- C116 when both texts are encoded in the same tables: the first of those offered that has the characters of the shorter
text also has those of the longer one. -/
theorem C116_same_tables (e : Model.Sms.Encoder) (a b : List UInt8) (hu : Utf8 a) (options : List Model.Sms.EncoderOption)
    (pre post : List Lang) (L : Lang) (ho : offered (options.foldl Model.Sms.Encoder.apply e).eopts = pre ++ L :: post)
    (hp : ∀ M ∈ pre, ¬ Representable M a) (hL : Representable L (a ++ b)) (hd : ¬ Representable .default a)
    (r : Model.Sms.EncResult) (h : e.Encode (a ++ b) options = .ok r) :
    ∃ r', e.Encode a options = .ok r' ∧ r'.pdus.length ≤ r.pdus.length := by
  have hd' : ¬ Representable .default (a ++ b) := fun h => hd (representable_prefix hu h)
  have hp' : ∀ M ∈ pre, ¬ Representable M (a ++ b) := fun M hM h => hp M hM (representable_prefix hu h)
  by_cases ha : ((options.foldl Model.Sms.Encoder.apply e).pdu).Alphabet.1 = .a7Bit
  · obtain ⟨⟨d, x1, x2⟩, _⟩ := C40_language (a ++ b) _ hd' pre post L ho hp' hL
    obtain ⟨⟨d', y1, y2⟩, _⟩ := C40_language a _ hd pre post L ho hp (representable_prefix hu hL)
    obtain ⟨g1, g2, k1, rfl⟩ := default_append hu L d x2
    rw [y2] at k1; cases k1
    exact longer_same e a b options ha _ _ L.header .a7Bit y1 x1 r h
  · exact C116_given e a b options ha r h

/-- C116, partial: the same if one pair of tables is offered, in addition to the default ones, and already the shorter
text needs it.  Missing: as for `C116_longer_partial`. -/
theorem C116_language_partial (e : Model.Sms.Encoder) (a b : List UInt8) (hu : Utf8 a) (options : List Model.Sms.EncoderOption)
    (hh : hdrLen ((options.foldl Model.Sms.Encoder.apply e).pdu).UDH ≤ 110) (L : Lang)
    (ho : offered (options.foldl Model.Sms.Encoder.apply e).eopts = [L]) (hd : ¬ Representable .default a)
    (r : Model.Sms.EncResult) (h : e.Encode (a ++ b) options = .ok r) :
    ∃ r', e.Encode a options = .ok r' ∧ r'.pdus.length ≤ r.pdus.length := by
  by_cases hn : InSeptets (options.foldl Model.Sms.Encoder.apply e).eopts (a ++ b)
  · have hL : Representable L (a ++ b) := by
      rcases hn with hn | ⟨M, hM, hR⟩
      · exact absurd (representable_prefix hu hn) hd
      · rw [ho] at hM
        rw [← List.mem_singleton.1 hM]; exact hR
    exact C116_same_tables e a b hu options [] [] L ho (by simp) hL hd r h
  · exact C116_ucs2 e a b hu options hh hn r h

/-- Beside: the Portuguese locking table is the only one offered, "ê" needs it, and so does "êa". -/
example : offered [.locking [3]] = [⟨some 3, none⟩] ∧ ¬ Representable .default [0xc3, 0xaa] ∧
    Representable ⟨some 3, none⟩ ([0xc3, 0xaa] ++ [0x61]) := by
  refine ⟨by decide +kernel, ?_, ?_⟩
  · rw [representable_iff]
    rintro ⟨g, h⟩
    have : (Gsm7.Encode [0xc3, 0xaa] (langOpts .default)).isOk = false := by decide +kernel
    rw [h] at this; cases this
  · exact (representable_iff _ _).2 ⟨_, show Gsm7.Encode _ _ = .ok [0x04, 0x61] by decide +kernel⟩

/-- C116 is false when tables are offered: carets take two septets each until a "ç" is added, for which the Portuguese
tables are needed, in which they take one. -/
theorem C116_counterexample :
    (Model.Sms.Encode (List.replicate 100 0x5e) [.charsets (.charset [3])]).map List.length = .ok 2 ∧
    (Model.Sms.Encode (List.replicate 100 0x5e ++ [0xc3, 0xa7]) [.charsets (.charset [3])]).map List.length = .ok 1 := by
  constructor <;> decide +kernel

/-- C116 is false if what is taken away is not a whole number of characters: half a character is not in the GSM
alphabet. -/
theorem C116_half :
    (Model.Sms.Encode (List.replicate 100 0x61 ++ [0xc3]) []).map List.length = .ok 2 ∧
    (Model.Sms.Encode (List.replicate 100 0x61 ++ [0xc3] ++ [0xa9]) []).map List.length = .ok 1 := by
  constructor <;> decide +kernel

/-- Beside C116: 150 letters take one TPDU, with a "ç" three. -/
example : Utf8 (List.replicate 150 0x61) ∧
    (Model.Sms.Encode (List.replicate 150 0x61) []).map List.length = .ok 1 ∧
    (Model.Sms.Encode (List.replicate 150 0x61 ++ [0xc3, 0xa7]) []).map List.length = .ok 3 := by
  refine ⟨⟨List.replicate 150 [0x61], ?_, by decide +kernel⟩, ?_, ?_⟩
  · intro c hc
    rw [(List.mem_replicate.1 hc).2]
    show (0x61 : UInt8).toNat ≤ 0x7f
    decide
  · decide +kernel
  · decide +kernel

end Verif.Props
