import Verif.Proofs.Utf8
import Verif.Props.SmsEncode

/-! C38: the exception for U+001B is exact. -/

namespace Verif.Props
open Verif.Model Verif.Proofs Verif.Spec

/-- C38: whatever the segments and the decode options, text decoded from septets never contains U+001B. -/
theorem C38_no_escape (segs : List TPDU) (dopts : List CharsetOpt) (text : List UInt8)
    (h : ∀ s ∈ segs, s.Alphabet.1 = .a7Bit) (hd : Sms.Decode segs dopts = .ok text) : 0x1b ∉ text := by
  unfold Model.Sms.Decode at hd
  generalize Model.Sms.decodeOpts dopts = opts at hd
  induction segs generalizing text with
  | nil => rw [Model.Sms.decodeLoop] at hd; simp at hd; cases hd; simp
  | cons s ss ih =>
    have h7 := h s (by simp)
    obtain ⟨t, e1, e2⟩ := Sms.decodeUserData_7bit s.UD s.UDH s.Alphabet.1 opts (by rw [h7]; simp) (by rw [h7]; simp)
    rw [Model.Sms.decodeLoop] at hd
    simp only [ne_eq, not_true_eq_false, if_false, e1] at hd
    obtain ⟨rest, h1, h2⟩ := bind_eq_ok.1 hd
    cases h2
    rw [decoder_decode_eq] at e2
    obtain ⟨rs, e, hn, _⟩ := decoder_loop_no_esc _ (locking_ok _).esc (shift_ok _).esc s.UD false t e2
    have ht : 0x1b ∉ t := by rw [e, encodeRunes_mem_esc]; exact hn
    simp only [List.mem_append, not_or]
    exact ⟨ht, ih rest (fun q hq => h q (by simp [hq])) h1⟩

theorem decodeUserData_utf8 (ud : Bytes) (udh : UDH) (alpha : Alphabet) (opts : List CharsetOpt) (h : alpha ≠ .a8Bit) :
    Utf8 (DecodeUserData ud udh alpha opts).text := by
  by_cases hu : alpha = .ucs2
  · subst hu
    exact encodeRunes_utf8 _
  · obtain ⟨t, e1, e2⟩ := Sms.decodeUserData_7bit ud udh alpha opts hu h
    rw [e1]
    rw [decoder_decode_eq] at e2
    obtain ⟨rs, e, _⟩ := decoder_loop_no_esc _ (locking_ok _).esc (shift_ok _).esc ud false t e2
    show Utf8 t
    rw [e]
    exact encodeRunes_utf8 rs

theorem decodeLoop_utf8 (opts : List CharsetOpt) (segs : List TPDU) (h : ∀ s ∈ segs, s.Alphabet.1 ≠ .a8Bit) :
    ∀ (dangling text : List UInt8), Model.Sms.decodeLoop opts segs dangling = .ok text → Utf8 text := by
  induction segs with
  | nil =>
    intro dangling text hd
    rw [Model.Sms.decodeLoop] at hd
    split at hd
    · cases hd
    · cases hd; exact encodeRunes_utf8 []
  | cons s ss ih =>
    intro dangling text hd
    have ih' := ih (fun q hq => h q (by simp [hq]))
    rw [Model.Sms.decodeLoop] at hd
    have h1 := decodeUserData_utf8 (if dangling ≠ [] then dangling ++ s.UD else s.UD) s.UDH s.Alphabet.1 opts (h s (by simp))
    split at hd
    · obtain ⟨rest, h2, h3⟩ := bind_eq_ok.1 hd
      cases h3
      exact utf8_append h1 (ih' _ _ h2)
    · obtain ⟨rest, h2, h3⟩ := bind_eq_ok.1 hd
      cases h3
      exact utf8_append h1 (ih' _ _ h2)
    · cases hd

/-- C79: whatever the segments and the decode options, text decoded from septets and UCS-2 is UTF-8: what the
segments hold that is no character of the alphabet is replaced. -/
theorem C79_utf8 (segs : List TPDU) (dopts : List CharsetOpt) (text : List UInt8)
    (h : ∀ s ∈ segs, s.Alphabet.1 ≠ .a8Bit) (hd : Sms.Decode segs dopts = .ok text) : Utf8 text :=
  decodeLoop_utf8 _ segs h [] text hd

/-- Beside C79: half of a surrogate pair followed by another character is replaced by U+FFFD, and a septet that is
not in the table by a space. -/
example : Sms.Decode [{ DCS := 8, UD := [0xd8, 0, 0, 0x41] }] [] = .ok [0xef, 0xbf, 0xbd] ∧
    Sms.Decode [{ DCS := 0, UD := [0x80] }] [] = .ok [0x20] := by
  constructor <;> decide +kernel

/-- C79: the exception is needed, as octets are returned as they are, UTF-8 or not. -/
theorem C79_octets (segs : List TPDU) (dopts : List CharsetOpt) (h : ∀ s ∈ segs, s.Alphabet.1 = .a8Bit) :
    Sms.Decode segs dopts = .ok (segs.flatMap TPDU.UD) := by
  unfold Model.Sms.Decode
  generalize Model.Sms.decodeOpts dopts = opts
  induction segs with
  | nil => rfl
  | cons s ss ih =>
    rw [Model.Sms.decodeLoop]
    simp only [ne_eq, not_true_eq_false, if_false, h s (by simp)]
    show (do let rest ← Model.Sms.decodeLoop opts ss []; return s.UD ++ rest) = _
    rw [ih (fun q hq => h q (by simp [hq]))]
    rfl

/-- The segments of a text in an automatically chosen alphabet are in that alphabet. -/
theorem auto_alphabets (e : Model.Sms.Encoder) (text : List UInt8) (options : List Model.Sms.EncoderOption) (a : Alphabet)
    (hst : (callTemplate e options).SmsType ∈ smsTypes) (hu : hdrLen (callTemplate e options).UDH ≤ 121)
    (halpha : (callTemplate e options).Alphabet.1 = .a7Bit)
    (ha : Chosen (callTemplate e options).DCS (callCharsets e options) text a)
    (hcarry : CanCarry (group (callTemplate e options).DCS) a) (r : Model.Sms.EncResult) (hr : e.Encode text options = .ok r) :
    ∀ p ∈ r.pdus, p.Alphabet.1 = a := by
  have hal : (DCS.Alphabet (callTemplate e options).DCS).1 = .a7Bit := halpha
  have hEa : (EncodeUserData text (callCharsets e options)).2.2 = a := by
    rcases C40_alphabet text (callCharsets e options) with ⟨hh, hh'⟩ | ⟨hh, hh'⟩ <;> rw [hh]
    · cases ha with
      | septets h hs => rfl
      | octets h => rw [hal] at h; cases h
      | ucs2 h => rw [hal] at h; cases h
      | fallback h hs => exact absurd hh' hs
    · cases ha with
      | septets h hs => exact absurd hs hh'
      | octets h => rw [hal] at h; cases h
      | ucs2 h => rfl
      | fallback h hs => rfl
  obtain ⟨dcs, hdcs, henc⟩ := encode_auto e text options halpha (by rw [show (List.foldl _ e options).eopts = callCharsets e options from rfl, hEa]; exact hcarry)
  have h1 : (options.foldl Model.Sms.Encoder.apply e).pdu = callTemplate e options := rfl
  have h2 : (options.foldl Model.Sms.Encoder.apply e).eopts = callCharsets e options := rfl
  rw [h1, h2] at henc
  rw [h2, hEa] at hdcs
  have hL : ∃ (L : Lang), (EncodeUserData text (callCharsets e options)).2.1 = L.header := by
    rcases auto_cases text (callCharsets e options) with ⟨L, d, hd, _⟩ | ⟨hd, _⟩
    · exact ⟨L, by rw [hd]⟩
    · exact ⟨.default, by rw [hd]⟩
  obtain ⟨L, hL⟩ := hL
  rw [hL] at henc
  have hroom := autoTemplate_room (callTemplate e options) dcs L e hst hu
  obtain ⟨res, hres, _, hforms⟩ := segment_forms _ (EncodeUserData text (callCharsets e options)).1 (encCfg e) rfl hroom
  rw [henc, hres] at hr
  cases hr
  intro p hp
  obtain ⟨⟨fo, pi, mr, udh, ud, rfl, _⟩, _⟩ := hforms p hp
  show (DCS.Alphabet dcs).1 = a
  rw [hdcs]

/-- C38, exactly: text encoded with an automatically chosen alphabet is recovered if and only if the coding group
can carry the alphabet, the text is UTF-8, and it is sent in UCS-2 or has no U+001B.  The hypotheses are those of
`C38_text_partial` that are about the template and the options. -/
theorem C38_exact (e : Model.Sms.Encoder) (text : List UInt8) (options : List Model.Sms.EncoderOption)
    (dopts : List CharsetOpt) (a : Alphabet)
    (hst : (callTemplate e options).SmsType ∈ smsTypes) (hu : hdrLen (callTemplate e options).UDH ≤ 121)
    (halpha : (callTemplate e options).Alphabet.1 = .a7Bit)
    (ha : Chosen (callTemplate e options).DCS (callCharsets e options) text a)
    (hm : Matching (callCharsets e options) dopts)
    (hnat : Representable .default text → ∀ ie ∈ (callTemplate e options).UDH, ie.ID ≠ 24 ∧ ie.ID ≠ 25) :
    (∃ r, e.Encode text options = .ok r ∧ Sms.Decode r.pdus dopts = .ok text) ↔
      CanCarry (group (callTemplate e options).DCS) a ∧ Utf8 text ∧ (a = .a7Bit → 0x1b ∉ text) := by
  constructor
  · rintro ⟨r, hr, hdec⟩
    have hcarry : CanCarry (group (callTemplate e options).DCS) a := by
      by_cases hc : CanCarry (group (callTemplate e options).DCS) a
      · exact hc
      · have := (C41_error_iff e text options a ha .dcsConflict).2 ⟨rfl, hc⟩
        rw [hr] at this; cases this
    have hall := auto_alphabets e text options a hst hu halpha ha hcarry r hr
    have hne : a ≠ .a8Bit := by
      rintro rfl
      cases ha with
      | octets h => rw [show (DCS.Alphabet (callTemplate e options).DCS).1 = .a7Bit from halpha] at h; cases h
    refine ⟨hcarry, C79_utf8 r.pdus dopts text (fun p hp => by rw [hall p hp]; exact hne) hdec, ?_⟩
    rintro rfl
    exact C38_no_escape r.pdus dopts text hall hdec
  · rintro ⟨hcarry, hutf, hesc⟩
    exact C38_text_partial e text options dopts a hst hu halpha ha hcarry hm hnat hesc ((utf8_iff text).1 hutf)

/-- Both sides occur: "a" is recovered, and U+001B "e" comes back as the euro sign. -/
example : (∃ pdus, Sms.Encode [0x61] [] = .ok pdus ∧ Sms.Decode pdus [] = .ok [0x61]) ∧
    (∃ pdus, Sms.Encode [0x1b, 0x65] [] = .ok pdus ∧ Sms.Decode pdus [] = .ok [0xe2, 0x82, 0xac]) :=
  ⟨⟨[{ Direction := 1, FirstOctet := 1, MR := 1, UD := [0x61] }], by decide +kernel, by decide +kernel⟩,
   C38_counterexample.1⟩

end Verif.Props
