import Verif.Props.Wire
import Verif.Props.SmsEncodeExact

/-! C39: the exceptions are exact. -/

namespace Verif.Props
open Verif.Model Verif.Spec Verif.Proofs

/-- The octets determine what is unmarshalled. -/
theorem sent_unique (ps qs qs' : List TPDU) (h : Sent ps qs) (h' : Sent ps qs') : qs = qs' := by
  obtain ⟨w, h1, h2⟩ := h
  obtain ⟨w', h1', h2'⟩ := h'
  have inj : ∀ {α : Type} (l l' : List α), l.map (Except.ok : α → M α) = l'.map .ok → l = l' := by
    intro α l
    induction l with
    | nil => intro l' h; cases l' with | nil => rfl | cons => cases h
    | cons x l ih =>
      intro l' h
      cases l' with
      | nil => cases h
      | cons y l' =>
        simp only [List.map_cons, List.cons.injEq] at h
        obtain ⟨e, h⟩ := h
        cases e
        rw [ih l' h]
  have : w = w' := inj _ _ (h1.symm.trans h1')
  subst this
  exact inj _ _ (h2.symm.trans h2')

/-- What is encoded with an automatically chosen alphabet can be marshalled and unmarshalled. -/
theorem auto_sent (e : Model.Sms.Encoder) (text : List UInt8) (options : List Model.Sms.EncoderOption)
    (hs : Sendable (callTemplate e options)) (hu : hdrLen (callTemplate e options).UDH ≤ 121)
    (hudhi : (callTemplate e options).UDHI = true ↔ (callTemplate e options).UDH ≠ [])
    (halpha : (callTemplate e options).Alphabet.1 = .a7Bit) (r : Model.Sms.EncResult) (hr : e.Encode text options = .ok r) :
    ∃ qs, Sent r.pdus qs ∧ qs.length = r.pdus.length ∧ ∀ pq ∈ r.pdus.zip qs, SameContent pq.1 pq.2 := by
  have hst : (callTemplate e options).SmsType ∈ smsTypes := by
    rcases sendable_type _ hs with h | h <;> rw [h] <;> decide
  have h2 : (options.foldl Model.Sms.Encoder.apply e).eopts = callCharsets e options := rfl
  have hc : CanCarry (group (callTemplate e options).DCS) (EncodeUserData text (callCharsets e options)).2.2 := by
    by_cases hc : CanCarry (group (callTemplate e options).DCS) (EncodeUserData text (callCharsets e options)).2.2
    · exact hc
    · have := encode_conflict e text options halpha hc
      rw [hr] at this; cases this
  obtain ⟨dcs, hdcs, henc⟩ := encode_auto e text options halpha hc
  rw [h2] at hdcs henc
  rw [hr] at henc
  obtain ⟨res, hres, henc⟩ := bind_eq_ok.mp henc.symm
  cases henc
  have hL : ∃ (L : Lang), (EncodeUserData text (callCharsets e options)).2.1 = L.header ∧
      ((EncodeUserData text (callCharsets e options)).2.2 = .a7Bit → Septets (EncodeUserData text (callCharsets e options)).1) ∧
      ((EncodeUserData text (callCharsets e options)).2.2 = .ucs2 → (EncodeUserData text (callCharsets e options)).1.length % 2 = 0) := by
    rcases auto_cases text (callCharsets e options) with ⟨L, d, hd, hg, _⟩ | ⟨hd, _⟩
    · refine ⟨L, (by rw [hd]), ?_, (by rw [hd]; intro h; cases h)⟩
      intro _
      rw [hd]
      exact (C10_output _ _ _ _ hg).1
    · refine ⟨.default, (by rw [hd]), (by rw [hd]; intro h; cases h), ?_⟩
      intro _
      rw [hd]
      show (Ucs2.Encode _).length % 2 = 0
      unfold Ucs2.Encode; rw [putBE16_length]; omega
  obtain ⟨L, hhdr, h7, h2'⟩ := hL
  rw [hhdr] at hres
  change (autoTemplate (callTemplate e options) dcs L.header).Segment _ _ = _ at hres
  have hal : (autoTemplate (callTemplate e options) dcs L.header).Alphabet =
    ((EncodeUserData text (callCharsets e options)).2.2, none) := by rw [autoTemplate_alphabet, hdcs]
  refine segments_sent _ _ (encCfg e) rfl (autoTemplate_room _ dcs L e hst hu) ?_ (by rw [hal]) ?_
    (by rw [hal]; exact h7) (by rw [hal]; exact h2') res hres
  · have := sendable_of _ hs (if L.header ≠ [] then (callTemplate e options).FirstOctet ||| FirstOctet.FoUDHI else (callTemplate e options).FirstOctet)
      (autoTemplate (callTemplate e options) dcs L.header).PI (callTemplate e options).MR dcs
      (if L.header ≠ [] then L.header else (callTemplate e options).UDH) (callTemplate e options).UD
      (by split
          · exact .inr rfl
          · exact .inl rfl)
    exact this
  · unfold autoTemplate TPDU.UDHI
    simp only
    by_cases h : L.header = []
    · simp only [h, ne_eq, not_true_eq_false, if_false]
      exact hudhi
    · simp only [ne_eq, h, not_false_iff, if_true]
      have := udhi_set (callTemplate e options).FirstOctet
      simp [FirstOctet.FoUDHI, this]

/-- C39, exactly: text in an automatically chosen alphabet survives the wire if and only if the coding group can
carry the alphabet, the text is UTF-8, and it is sent in UCS-2 or has no U+001B.  The hypotheses are those of
`C39_text_partial` that are about the template and the options. -/
theorem C39_exact (e : Model.Sms.Encoder) (text : List UInt8) (options : List Model.Sms.EncoderOption)
    (dopts : List CharsetOpt) (a : Alphabet)
    (hs : Sendable (callTemplate e options)) (hu : hdrLen (callTemplate e options).UDH ≤ 121)
    (hudhi : (callTemplate e options).UDHI = true ↔ (callTemplate e options).UDH ≠ [])
    (hci : (callTemplate e options).ConcatInfo = none)
    (halpha : (callTemplate e options).Alphabet.1 = .a7Bit)
    (ha : Chosen (callTemplate e options).DCS (callCharsets e options) text a)
    (hm : Matching (callCharsets e options) dopts)
    (hnat : Representable .default text → ∀ ie ∈ (callTemplate e options).UDH, ie.ID ≠ 24 ∧ ie.ID ≠ 25) :
    (∃ r, e.Encode text options = .ok r ∧
      Arrives (callTemplate e options).SmsType (peer (callTemplate e options)) r.pdus dopts text) ↔
    CanCarry (group (callTemplate e options).DCS) a ∧ Utf8 text ∧ (a = .a7Bit → 0x1b ∉ text) := by
  constructor
  · rintro ⟨r, hr, qs, hsent, hdec, _⟩
    obtain ⟨qs', hsent', hlen, hsame⟩ := auto_sent e text options hs hu hudhi halpha r hr
    have := sent_unique _ _ _ hsent hsent'
    subst this
    have hst : (callTemplate e options).SmsType ∈ smsTypes := by
      rcases sendable_type _ hs with h | h <;> rw [h] <;> decide
    refine (C38_exact e text options dopts a hst hu halpha ha hm hnat).1 ⟨r, hr, ?_⟩
    rw [← hdec]
    exact (decodeLoop_same _ _ _ hlen hsame []).symm
  · rintro ⟨hcarry, hutf, hesc⟩
    exact C39_text_partial e text options dopts a hs hu hudhi hci halpha ha hcarry hm hnat hesc ((utf8_iff text).1 hutf)

/-- C39, exactly, for the plain use of the library: text submitted to a number of up to 255 digits, with any charset
options, arrives if and only if it is UTF-8 and is sent in UCS-2 or has no U+001B. -/
theorem C39_submit_exact (digits text : List UInt8) (cs : List CharsetOpt) (hd : Digits digits) (hl : digits.length ≤ 255) :
    (∃ pdus, Sms.Encode text (Sms.To digits :: cs.map .charsets) = .ok pdus ∧
      Arrives SmsSubmit ⟨0x91, digits⟩ pdus [] text) ↔ Utf8 text ∧ (InSeptets cs text → 0x1b ∉ text) := by
  constructor
  · rintro ⟨pdus, he, harr⟩
    have hplus : digits.head? ≠ some 0x2b := by
      intro h
      have : (0x2b : UInt8) ∈ digits := by
        cases digits with
        | nil => cases h
        | cons x xs => cases h; simp
      exact absurd (hd _ this) (by decide)
    have hnum : Address.NewFromNumber digits = ⟨0x91, digits⟩ := (C57_number digits hplus).2.2.1
    obtain ⟨a, ha, _⟩ := C41_chosen 0 cs text
    have hty : ({ Direction := MO, FirstOctet := 1, DA := ⟨0x91, digits⟩ } : TPDU).SmsType = SmsSubmit := by
      show smsType (FirstOctet.MTI 1) MO = SmsSubmit
      decide
    have hp : peer { Direction := MO, FirstOctet := 1, DA := ⟨0x91, digits⟩ } = ⟨0x91, digits⟩ := by
      unfold peer; rw [if_pos hty]
    have hx := C39_exact ⟨cs, { Direction := MO, FirstOctet := 1, DA := ⟨0x91, digits⟩ }, Model.Sms.newCounter,
      Model.Sms.newCounter⟩ text [] [] a
      (.submit rfl (by show FirstOctet.MTI 1 = 1; decide) (.inl ⟨by show ((0x91 : UInt8) >>> 4) &&& 0x07 ≠ 5; decide, hd, hl⟩)
        .absent (by show FirstOctet.VPF 1 = VpfNotPresent; decide))
      (Nat.zero_le _) (by show FirstOctet.UDHI 1 = true ↔ ([] : UDH) ≠ []; decide) rfl
      (by show (DCS.Alphabet 0).1 = .a7Bit; decide) ha (C38_matching cs).1 (by intro _ ie hie; cases hie)
    unfold Model.Sms.Encode at he
    rw [submit_encoder, hnum] at he
    obtain ⟨r, hr, h⟩ := bind_eq_ok.1 he
    cases h
    obtain ⟨_, h1, h2⟩ := hx.1 ⟨r, hr, by
      show Arrives ({ Direction := MO, FirstOctet := 1, DA := ⟨0x91, digits⟩ } : TPDU).SmsType
        (peer { Direction := MO, FirstOctet := 1, DA := ⟨0x91, digits⟩ }) _ _ _
      rw [hty, hp]; exact harr⟩
    refine ⟨h1, ?_⟩
    intro hin
    refine h2 ?_
    cases ha with
    | septets => rfl
    | octets h => cases h
    | ucs2 h => cases h
    | fallback _ h => exact absurd hin h
  · rintro ⟨hutf, hesc⟩
    obtain ⟨pdus, h1, h2, _⟩ := C39_submit_partial digits text cs hd hl hesc ((utf8_iff text).1 hutf)
    exact ⟨pdus, h1, h2⟩

/-- Both sides occur: "a" arrives; U+001B "e" and the octet 0xff do not. -/
example : Utf8 [0x61] ∧ InSeptets [] [0x1b, 0x65] ∧ ¬ Utf8 [0xff] := by
  refine ⟨encodeRunes_utf8 [0x61], ?_, ?_⟩
  · rcases C40_alphabet [0x1b, 0x65] [] with ⟨_, h⟩ | ⟨h, _⟩
    · exact h
    · exact absurd h (by decide +kernel)
  · rintro ⟨chars, h, e⟩
    cases chars with
    | nil => cases e
    | cons c cs =>
      have hc := h c (by simp)
      match c with
      | [] => exact hc
      | x :: c =>
        have : x = 0xff := by simp at e; exact e.1.symm
        subst this
        unfold Utf8Char at hc
        split at hc
        all_goals first | exact hc.elim | (rename_i he; cases he; simp at hc)

end Verif.Props
