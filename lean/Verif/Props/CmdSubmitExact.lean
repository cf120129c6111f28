import Verif.Props.CmdSubmit
import Verif.Props.WireExact
import Verif.Proofs.Remarshal
import Verif.Proofs.Trailing
import Verif.Props.MarshalSafe

/-! C65: the exceptions are exact. -/

namespace Verif.Props
open Verif.Model Verif.Spec Verif.Proofs

/-- The recipient of an SMS-SUBMIT that was unmarshalled is one that can be marshalled. -/
theorem unmarshal_da (b : List UInt8) (q : TPDU) (h : Sms.Unmarshal b MO = .ok q) (hs : q.SmsType = SmsSubmit) : AddrOk q.DA := by
  have hkind := unmarshal_kind _ _ _ h
  unfold Model.Sms.Unmarshal at h
  cases b with
  | nil => cases h
  | cons fo body =>
    have hfo : fo = q.FirstOctet := by simpa using hkind.1
    have hdir : q.Direction = MO := hkind.2.1
    have hst : ({ Direction := MO, FirstOctet := fo } : TPDU).SmsType = SmsSubmit := by
      rw [← hs]; unfold TPDU.SmsType; rw [hfo, hdir]
    unfold TPDU.UnmarshalBinary at h
    rw [if_neg (by simp)] at h
    simp only [idx_zero_cons, ok_bind, hst] at h
    obtain ⟨c, _, h⟩ := bind_eq_ok.1 h
    rw [if_neg (by decide), if_neg (by decide), if_neg (by decide), if_pos trivial] at h
    exact (submit_inv _ _ _ _ (wrapD_eq_ok.1 h)).2.1

theorem hexText_nil (b : List UInt8) (h : HexText [] b) : b = [] := by cases h; rfl

theorem hexText_unique {s b : List UInt8} (h : HexText s b) (b' : List UInt8) (h' : HexText s b') : b = b' := by
  have h1 := (hex_iff _ s (Nat.le_refl _) b).2 h
  have h2 := (hex_iff _ s (Nat.le_refl _) b').2 h'
  rw [h1] at h2
  cases h2
  rfl

theorem spells_unique (lines : List (List UInt8)) : ∀ w w', Spells lines w → Spells lines w' → w = w' := by
  induction lines with
  | nil =>
    intro w w' h h'
    have h1 := h.1; have h2 := h'.1
    cases w with
    | nil => cases w' with | nil => rfl | cons => simp at h2
    | cons => simp at h1
  | cons l lines ih =>
    intro w w' h h'
    cases w with
    | nil => have := h.1; simp at this
    | cons b w =>
      cases w' with
      | nil => have := h'.1; simp at this
      | cons b' w' =>
        have e : b = b' := hexText_unique (h.2 (l, b) (by simp)) b' (h'.2 (l, b') (by simp))
        have e' := ih w w' ⟨by simpa using h.1, fun p hp => h.2 p (by simp [hp])⟩
          ⟨by simpa using h'.1, fun p hp => h'.2 p (by simp [hp])⟩
        rw [e, e']

/-- What is submitted to a number can be marshalled and unmarshalled, and the text tells whether it is decoded. -/
theorem submit_sent (digits text : List UInt8) (cs : List CharsetOpt) (hd : Digits digits) (hl : digits.length ≤ 255) :
    ∀ pdus, Sms.Encode text (Sms.To digits :: cs.map .charsets) = .ok pdus →
      (∀ p ∈ pdus, p.Direction = MO) ∧
      ∃ qs, Sent pdus qs ∧ (Sms.Decode qs [] = .ok text → Utf8 text ∧ (InSeptets cs text → 0x1b ∉ text)) := by
  intro pdus he
  have hplus : digits.head? ≠ some 0x2b := by
    intro h
    have : (0x2b : UInt8) ∈ digits := by
      cases digits with
      | nil => cases h
      | cons x xs => cases h; simp
    exact absurd (hd _ this) (by decide)
  have hnum : Address.NewFromNumber digits = ⟨0x91, digits⟩ := (C57_number digits hplus).2.2.1
  obtain ⟨a, ha, _⟩ := C41_chosen 0 cs text
  unfold Model.Sms.Encode at he
  rw [submit_encoder, hnum] at he
  obtain ⟨r, hr, h⟩ := bind_eq_ok.1 he
  cases h
  have hsend : Sendable { Direction := MO, FirstOctet := 1, DA := ⟨0x91, digits⟩ } :=
    .submit rfl (by show FirstOctet.MTI 1 = 1; decide) (.inl ⟨by show ((0x91 : UInt8) >>> 4) &&& 0x07 ≠ 5; decide, hd, hl⟩)
      .absent (by show FirstOctet.VPF 1 = VpfNotPresent; decide)
  have halpha : ({ Direction := MO, FirstOctet := 1, DA := ⟨0x91, digits⟩ } : TPDU).Alphabet.1 = .a7Bit := by
    show (DCS.Alphabet 0).1 = .a7Bit; decide
  have hty : ({ Direction := MO, FirstOctet := 1, DA := ⟨0x91, digits⟩ } : TPDU).SmsType = SmsSubmit := by
    show smsType (FirstOctet.MTI 1) MO = SmsSubmit
    decide
  obtain ⟨qs, hsent, hlen, hsame⟩ := auto_sent ⟨cs, { Direction := MO, FirstOctet := 1, DA := ⟨0x91, digits⟩ }, Model.Sms.newCounter,
    Model.Sms.newCounter⟩ text [] hsend (Nat.zero_le _) (by show FirstOctet.UDHI 1 = true ↔ ([] : UDH) ≠ []; decide) halpha r hr
  refine ⟨?_, qs, hsent, ?_⟩
  · -- the direction
    obtain ⟨w, h1, h2⟩ := hsent
    intro p hp
    obtain ⟨i, hi⟩ := List.mem_iff_getElem?.1 hp
    have hseg := hr
    have hcarry : CanCarry (group 0) (EncodeUserData text cs).2.2 := by
      rcases C40_alphabet text cs with ⟨h, _⟩ | ⟨h, _⟩ <;> rw [h] <;> decide
    obtain ⟨dcs, hdcs, henc⟩ := encode_auto ⟨cs, { Direction := MO, FirstOctet := 1, DA := ⟨0x91, digits⟩ }, Model.Sms.newCounter,
      Model.Sms.newCounter⟩ text [] halpha hcarry
    rw [hr] at henc
    simp only [List.foldl_nil] at henc
    have hL : ∃ (L : Lang), (EncodeUserData text cs).2.1 = L.header := by
      rcases auto_cases text cs with ⟨L, d, hd, _⟩ | ⟨hd, _⟩
      · exact ⟨L, by rw [hd]⟩
      · exact ⟨.default, by rw [hd]⟩
    obtain ⟨L, hL⟩ := hL
    rw [hL] at henc
    have hroom := autoTemplate_room { Direction := MO, FirstOctet := 1, DA := ⟨0x91, digits⟩ } dcs L
      ⟨cs, { Direction := MO, FirstOctet := 1, DA := ⟨0x91, digits⟩ }, Model.Sms.newCounter, Model.Sms.newCounter⟩
      (by rw [hty]; decide) (Nat.zero_le _)
    obtain ⟨res, hres, _, hforms⟩ := segment_forms _ (EncodeUserData text cs).1 (encCfg _) rfl hroom
    rw [hres] at henc
    cases henc
    obtain ⟨⟨fo, pi, mr, udh, ud, rfl, _⟩, _⟩ := hforms p hp
    rfl
  · intro hdec
    obtain ⟨_, h1, h2⟩ := (C38_exact ⟨cs, { Direction := MO, FirstOctet := 1, DA := ⟨0x91, digits⟩ }, Model.Sms.newCounter,
      Model.Sms.newCounter⟩ text [] [] a (by show TPDU.SmsType { Direction := MO, FirstOctet := 1, DA := ⟨0x91, digits⟩ } ∈ _; rw [hty]; decide) (Nat.zero_le _) halpha ha
      (C38_matching cs).1 (by intro _ ie hie; cases hie)).1 ⟨r, hr, by
        rw [← hdec]
        exact (decodeLoop_same _ _ _ hlen hsame []).symm⟩
    refine ⟨h1, ?_⟩
    intro hin
    refine h2 ?_
    cases ha with
    | septets => rfl
    | octets h => cases h
    | ucs2 h => cases h
    | fallback _ h => exact absurd hin h

/-- C65, exactly: the command prints, in hex, SMS-SUBMITs to the number that are decoded to the text if and only if
the number is, after an optional "+", at most 255 digits, and the text is UTF-8 and is sent in UCS-2 or has no
U+001B. -/
theorem C65_exact (number text : List UInt8) (nli : Int) (hn : number ≠ []) (ht : text ≠ []) :
    (∃ lines wire qs, SmsSubmit.main number text nli = .ok (.tpdus lines) ∧ Spells lines wire ∧
      wire.map (fun b => Sms.Unmarshal b MO) = qs.map .ok ∧ Sms.Decode qs [] = .ok text ∧
      ∀ q ∈ qs, q.SmsType = SmsSubmit ∧ q.DA = ⟨0x91, digitsOf number⟩) ↔
    Digits (digitsOf number) ∧ (digitsOf number).length ≤ 255 ∧ Utf8 text ∧
      (InSeptets (languageCharsets nli) text → 0x1b ∉ text) := by
  constructor
  · rintro ⟨lines, wire, qs, hmain, hspell, hun, hdec, hq⟩
    have hqs : ∃ q qs', qs = q :: qs' := by
      cases qs with
      | nil => cases hdec; exact absurd rfl ht
      | cons q qs' => exact ⟨q, qs', rfl⟩
    obtain ⟨q, qs', rfl⟩ := hqs
    obtain ⟨b, wire', rfl⟩ : ∃ b wire', wire = b :: wire' := by
      cases wire with
      | nil => cases hun
      | cons b w => exact ⟨b, w, rfl⟩
    have hb : Sms.Unmarshal b MO = .ok q := by
      simp only [List.map_cons, List.cons.injEq] at hun
      exact hun.1
    have hd : Digits (digitsOf number) := by
      by_cases hd : Digits (digitsOf number)
      · exact hd
      · obtain ⟨lines', h1, h2, h3⟩ := C65_invalid_number number text nli hn ht hd
        rw [hmain] at h1
        cases h1
        cases lines with
        | nil => exact absurd rfl h2
        | cons l lines =>
          have hl := h3 l (by simp)
          subst hl
          have := hexText_nil b (hspell.2 ([], b) (by simp))
          subst this
          cases hb
    obtain ⟨q1, q2⟩ := hq q (by simp)
    have hl : (digitsOf number).length ≤ 255 := by
      have := unmarshal_da b q hb q1
      rw [q2] at this
      rcases this with ⟨_, _, h⟩ | ⟨h, _⟩
      · exact h
      · exact absurd h (by show ¬ ((0x91 : UInt8) >>> 4) &&& 0x07 = 5; decide)
    refine ⟨hd, hl, ?_⟩
    obtain ⟨pdus, he, _⟩ := submit_segments number text nli
    have he' := he
    rw [(cmd_encode number text nli).resolve_right (fun h => h hd)] at he'
    obtain ⟨hdir, qs2, hsent, hfin⟩ := submit_sent (digitsOf number) text (languageCharsets nli) hd hl pdus he'
    obtain ⟨w, hw1, hw2⟩ := hsent
    have hlines : lines = w.map Hex.EncodeToString := by
      unfold SmsSubmit.main at hmain
      rw [if_neg (by simp [hn, ht])] at hmain
      simp only at hmain
      rw [he] at hmain
      simp only at hmain
      rw [lines_ok pdus w hw1] at hmain
      cases hmain
      rfl
    have hwire : b :: wire' = w := by
      rw [hlines] at hspell
      exact spells_unique _ _ _ hspell (spells_encode w)
    have hlen : pdus.length = w.length := by simpa using congrArg List.length hw1
    have key : ∀ (ps : List TPDU) (ws : List (List UInt8)), ps.length = ws.length → (∀ p ∈ ps, p.Direction = MO) →
        ws.map (fun b => Sms.Unmarshal b MO) = (ps.zip ws).map (fun pw => Sms.Unmarshal pw.2 pw.1.Direction) := by
      intro ps
      induction ps with
      | nil => intro ws h _; cases ws <;> simp at h; rfl
      | cons p ps ih =>
        intro ws h hp
        cases ws with
        | nil => simp at h
        | cons w ws =>
          rw [List.map_cons, List.zip_cons_cons, List.map_cons, ih ws (by simpa using h) (fun p' h' => hp p' (by simp [h'])),
            hp p (by simp)]
    rw [hwire, key pdus w hlen hdir] at hun
    have : q :: qs' = qs2 := sent_unique pdus _ _ ⟨w, hw1, hun⟩ ⟨w, hw1, hw2⟩
    subst this
    exact hfin hdec
  · rintro ⟨hd, hl, hutf, hesc⟩
    obtain ⟨lines, wire, qs, h1, h2, h3, h4, _, h5⟩ :=
      C65_submit_partial number text nli hn ht hd hl hesc ((utf8_iff text).1 hutf)
    exact ⟨lines, wire, qs, h1, h2, h3, h4, h5⟩

/-- Whatever the arguments are, the command does not fail: it prints its usage if the number or the message is
missing, and otherwise at least one line. -/
theorem C65_usage (number text : List UInt8) (nli : Int) :
    (number = [] ∨ text = [] → SmsSubmit.main number text nli = .ok .usage) ∧
    (number ≠ [] → text ≠ [] → ∃ lines, SmsSubmit.main number text nli = .ok (.tpdus lines) ∧ lines ≠ []) := by
  constructor
  · intro h
    unfold SmsSubmit.main
    rw [if_pos h]
  · intro hn ht
    obtain ⟨pdus, he, hne, _⟩ := submit_segments number text nli
    have hmap : ∀ ps : List TPDU, ∃ l, ps.mapM SmsSubmit.hexLine = Except.ok l ∧ l.length = ps.length := by
      intro ps
      induction ps with
      | nil => exact ⟨[], rfl, rfl⟩
      | cons p ps ih =>
        obtain ⟨l, h1, h2⟩ := ih
        have hp : ∃ x, SmsSubmit.hexLine p = .ok x := by
          unfold SmsSubmit.hexLine
          rcases C71_no_panic p with ⟨b, hb⟩ | ⟨e, hb⟩ <;> rw [hb] <;> exact ⟨_, rfl⟩
        obtain ⟨x, hx⟩ := hp
        refine ⟨x :: l, ?_, by simp [h2]⟩
        rw [List.mapM_cons, hx, h1]
        rfl
    obtain ⟨l, h1, h2⟩ := hmap pdus
    refine ⟨l, ?_, ?_⟩
    · unfold SmsSubmit.main
      rw [if_neg (by simp [hn, ht])]
      simp only
      rw [he]
      simp only
      rw [h1]
      rfl
    · intro hl
      have := hne ht
      rw [hl] at h2
      exact this (List.length_eq_zero_iff.1 h2.symm)

/-- Beside it: no message, and the message "A" to the number "12". -/
example : SmsSubmit.main [0x31, 0x32] [] 0 = .ok .usage ∧
    SmsSubmit.main [0x31, 0x32] [0x41] 0 = .ok (.tpdus
      [[0x30, 0x31, 0x30, 0x31, 0x30, 0x32, 0x39, 0x31, 0x32, 0x31, 0x30, 0x30, 0x30, 0x30, 0x30, 0x31, 0x34, 0x31]]) :=
  ⟨rfl, by decide +kernel⟩

end Verif.Props
