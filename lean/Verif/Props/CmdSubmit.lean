import Verif.Model.Cmd
import Verif.Props.Counter
import Verif.Props.Wire
import Verif.Props.PduMode
import Verif.Props.Semioctet

/-! C65: what the command smssubmit prints. -/

namespace Verif.Props
open Verif.Model Verif.Spec Verif.Proofs

/-- The digits of a number: a leading "+" is dropped. -/
def digitsOf (number : List UInt8) : List UInt8 := if number.head? = some 0x2b then number.tail else number

/-- `Spells lines wire`: each line spells the octets of the corresponding element of `wire` in hex. -/
def Spells (lines wire : List (List UInt8)) : Prop :=
  lines.length = wire.length ∧ ∀ p ∈ lines.zip wire, HexText p.1 p.2

/-! Helpers. -/

/-- The address is made of the digits, whatever they are. -/
theorem newFromNumber_any (number : List UInt8) : Address.NewFromNumber number = ⟨0x91, digitsOf number⟩ := by
  have htoa : (((({} : Address).SetTypeOfNumber Address.TonInternational).SetNumberingPlan Address.NpISDN).TOA ||| 0x80) = 0x91 := by
    decide
  match number with
  | [] => exact congrArg (Address.mk · []) htoa
  | c :: rest =>
    by_cases hc : c = 0x2b
    · subst hc
      exact congrArg (Address.mk · rest) htoa
    · unfold digitsOf
      rw [if_neg (by simpa using hc)]
      exact (C57_number _ (by simpa using hc)).2.2.1

/-- The options given by the command make the encoder of `C39_submit_partial`. -/
theorem cmd_encode (number msg : List UInt8) (nli : Int) :
    Sms.Encode msg ([Sms.AsSubmit, Sms.To number] ++ (if nli ≠ 0 then [.charsets (.charset [nli])] else [])) =
      Sms.Encode msg (Sms.To (digitsOf number) :: (languageCharsets nli).map .charsets) ∨
    ¬ Digits (digitsOf number) := by
  by_cases hd : Digits (digitsOf number)
  · left
    have hplus : (digitsOf number).head? ≠ some 0x2b := by
      intro h
      have : (0x2b : UInt8) ∈ digitsOf number := by
        match hh : digitsOf number with
        | [] => rw [hh] at h; cases h
        | x :: xs => rw [hh] at h; cases h; simp
      exact absurd (hd _ this) (by decide)
    have hto : Sms.To number = Sms.To (digitsOf number) := by
      unfold Model.Sms.To
      rw [newFromNumber_any, (C57_number _ hplus).2.2.1]
    have hcs : (if nli ≠ 0 then [Model.Sms.EncoderOption.charsets (.charset [nli])] else []) =
        (languageCharsets nli).map .charsets := by
      unfold languageCharsets
      by_cases h : nli = 0 <;> simp [h]
    rw [hto, hcs]
    rfl
  · exact .inr hd

theorem submit_segments (number msg : List UInt8) (nli : Int) :
    ∃ pdus, Sms.Encode msg ([Sms.AsSubmit, Sms.To number] ++ (if nli ≠ 0 then [.charsets (.charset [nli])] else [])) = .ok pdus ∧
      (msg ≠ [] → pdus ≠ []) ∧ ∀ p ∈ pdus, p.SmsType = SmsSubmit ∧ p.DA = ⟨0x91, digitsOf number⟩ := by
  have henc : Sms.NewEncoder (Sms.AsSubmit :: ([Sms.AsSubmit, Sms.To number] ++ (if nli ≠ 0 then [.charsets (.charset [nli])] else []))) =
      ⟨languageCharsets nli, { Direction := MO, FirstOctet := 1, DA := ⟨0x91, digitsOf number⟩ }, Model.Sms.newCounter, Model.Sms.newCounter⟩ := by
    rw [← newFromNumber_any]
    unfold languageCharsets
    by_cases h : nli = 0
    · subst h; rfl
    · rw [if_pos h, if_neg h]; rfl
  generalize hE : (⟨languageCharsets nli, { Direction := MO, FirstOctet := 1, DA := ⟨0x91, digitsOf number⟩ }, Model.Sms.newCounter, Model.Sms.newCounter⟩ : Model.Sms.Encoder) = e at henc
  have hpdu : e.pdu = { Direction := MO, FirstOctet := 1, DA := ⟨0x91, digitsOf number⟩ } := by rw [← hE]
  have hcarry : CanCarry (group ((([] : List Model.Sms.EncoderOption).foldl Model.Sms.Encoder.apply e).pdu).DCS)
      (EncodeUserData msg (([] : List Model.Sms.EncoderOption).foldl Model.Sms.Encoder.apply e).eopts).2.2 := by
    simp only [List.foldl_nil, hpdu]
    rcases C40_alphabet msg e.eopts with ⟨h, _⟩ | ⟨h, _⟩ <;> rw [h] <;> decide
  obtain ⟨dcs, hdcs, hrun⟩ := encode_auto e msg [] (by simp only [List.foldl_nil, hpdu]; show (DCS.Alphabet 0).1 = .a7Bit; decide) hcarry
  simp only [List.foldl_nil] at hrun hdcs
  have hty : e.pdu.SmsType = SmsSubmit := by
    rw [hpdu]; show smsType (FirstOctet.MTI 1) MO = SmsSubmit; decide
  have hst : e.pdu.SmsType ∈ smsTypes := by rw [hty]; decide
  have hu : hdrLen e.pdu.UDH ≤ 121 := by rw [hpdu]; exact Nat.zero_le _
  have fin : ∀ (L : Lang) (d : Bytes) (a : Alphabet), EncodeUserData msg e.eopts = (d, L.header, a) →
      (msg ≠ [] → d ≠ []) →
      ∃ pdus, Sms.Encode msg ([Sms.AsSubmit, Sms.To number] ++ (if nli ≠ 0 then [.charsets (.charset [nli])] else [])) = .ok pdus ∧
        (msg ≠ [] → pdus ≠ []) ∧ ∀ p ∈ pdus, p.SmsType = SmsSubmit ∧ p.DA = ⟨0x91, digitsOf number⟩ := by
    intro L d a he h1
    rw [he] at hrun hdcs
    simp only at hrun hdcs
    have hroom := autoTemplate_room e.pdu dcs L e hst hu
    have hty' : (autoTemplate e.pdu dcs L.header).SmsType = SmsSubmit := by
      rw [← hty]
      unfold autoTemplate TPDU.SmsType
      simp only
      split
      · rw [mti_udhi]
      · rfl
    obtain ⟨res, hr, hcont, _⟩ := C33_pieces _ d _ hroom
    refine ⟨res.pdus, ?_, ?_, ?_⟩
    · unfold Model.Sms.Encode
      rw [henc, hrun, hr]
      rfl
    · intro hm h0
      rw [h0] at hcont
      exact h1 hm hcont.symm
    · intro p hp
      obtain ⟨r1, r2⟩ := segments_route _ d _ rfl hroom res hr p hp
      rw [hty'] at r1
      refine ⟨r1, ?_⟩
      unfold peer at r2
      rw [if_pos r1, if_pos hty'] at r2
      rw [r2]
      show e.pdu.DA = _
      rw [hpdu]
  rcases auto_cases msg e.eopts with ⟨L, d, hd, hg, hs, _⟩ | ⟨hd, hs⟩
  · have hlen := (C10_output _ _ msg d hg).2
    obtain ⟨sh, _, hlen⟩ := hlen
    refine fin L d _ hd ?_
    intro hm
    have := decodeRunes_ne msg hm
    rintro rfl
    have h0 : 0 < (Unicode.decodeRunes msg).length := List.length_pos_iff.2 this
    simp only [List.length_nil] at hlen
    omega
  · exact fin .default _ _ hd (fun hm => ucs2_encode_ne _ (decodeRunes_ne msg hm))

theorem lines_ok (pdus : List TPDU) : ∀ wire : List (List UInt8), pdus.map TPDU.MarshalBinary = wire.map .ok →
    pdus.mapM SmsSubmit.hexLine = .ok (wire.map Hex.EncodeToString) := by
  induction pdus with
  | nil => intro wire h; cases wire <;> simp at h; rfl
  | cons p pdus ih =>
    intro wire h
    cases wire with
    | nil => simp at h
    | cons b wire =>
      simp only [List.map_cons, List.cons.injEq] at h
      rw [List.mapM_cons, ih wire h.2]
      unfold SmsSubmit.hexLine
      rw [h.1]
      rfl

theorem spells_encode (wire : List (List UInt8)) : Spells (wire.map Hex.EncodeToString) wire := by
  refine ⟨by simp, ?_⟩
  intro p hp
  rw [List.zip_map_left, List.mem_map] at hp
  obtain ⟨⟨a, b⟩, hab, rfl⟩ := hp
  have : a = b := by
    rw [List.zip_eq_zipWith] at hab
    obtain ⟨i, hi⟩ := List.mem_iff_getElem?.1 hab
    rw [List.getElem?_zipWith] at hi
    cases h : wire[i]? with
    | none => rw [h] at hi; cases hi
    | some x => rw [h] at hi; cases hi; rfl
  subst this
  exact hex_encode a

/-- C65, partial: for a number of up to 255 digits, after an optional "+", and a text, the command prints TPDUs
in hex that are unmarshalled, as mobile originated, to SMS-SUBMITs to that number, which form a complete
message, if there are no more than 255, and are decoded to the text.  Missing: text with the character U+001B
(C38), and text that is not UTF-8. -/
theorem C65_submit_partial (number text : List UInt8) (nli : Int) (hn : number ≠ []) (ht : text ≠ [])
    (hd : Digits (digitsOf number)) (hl : (digitsOf number).length ≤ 255)
    (hesc : InSeptets (languageCharsets nli) text → 0x1b ∉ text)
    (hutf : ∃ rs, (∀ r ∈ rs, Scalar r) ∧ text = Unicode.encodeRunes rs) :
    ∃ lines wire qs, SmsSubmit.main number text nli = .ok (.tpdus lines) ∧ Spells lines wire ∧
      wire.map (fun b => Sms.Unmarshal b MO) = qs.map .ok ∧ Sms.Decode qs [] = .ok text ∧
      (lines.length ≤ 255 → Sms.IsCompleteMessage qs = true) ∧
      ∀ q ∈ qs, q.SmsType = SmsSubmit ∧ q.DA = ⟨0x91, digitsOf number⟩ := by
  obtain ⟨pdus, he, ⟨qs, ⟨wire, hw1, hw2⟩, hdec, hcomp, hudh, hroute, hdir⟩, _⟩ :=
    C39_submit_partial (digitsOf number) text (languageCharsets nli) hd hl hesc hutf
  have hlen : pdus.length = wire.length := by simpa using congrArg List.length hw1
  refine ⟨wire.map Hex.EncodeToString, wire, qs, ?_, spells_encode wire, ?_, hdec, ?_, ?_⟩
  · unfold SmsSubmit.main
    rw [if_neg (by simp [hn, ht])]
    simp only
    rw [(cmd_encode number text nli).resolve_right (fun h => h hd), he]
    simp only
    rw [lines_ok pdus wire hw1]
    rfl
  · rw [← hw2]
    have key : ∀ (ps : List TPDU) (ws : List (List UInt8)), ps.length = ws.length → (∀ p ∈ ps, p.Direction = MO) →
        ws.map (fun b => Sms.Unmarshal b MO) = (ps.zip ws).map (fun pw => Sms.Unmarshal pw.2 pw.1.Direction) := by
      intro ps
      induction ps with
      | nil => intro ws h _; cases ws <;> simp at h; rfl
      | cons p ps ih =>
        intro ws h hp
        cases ws with
        | nil => simp at h
        | cons w ws =>
          rw [List.map_cons, List.zip_cons_cons, List.map_cons, ih ws (by simpa using h) (fun p' h' => hp p' (by simp [h'])),
            hp p (by simp)]
    exact key pdus wire hlen hdir
  · intro h
    rw [List.length_map] at h
    refine hcomp ?_ (by omega)
    rintro rfl
    rw [List.zip_nil_left] at hw2
    have hq : qs = [] := by simpa using hw2.symm
    subst hq
    exact ht (Except.ok.inj (hdec.symm.trans (by decide : Sms.Decode [] [] = .ok [])))
  · intro q hq
    obtain ⟨r1, r2⟩ := hroute q hq
    refine ⟨r1, ?_⟩
    unfold peer at r2
    rw [if_pos r1] at r2
    exact r2

/-- Beside C65: "+12" and a text of two segments. -/
example : digitsOf [0x2b, 0x31, 0x32] = [0x31, 0x32] ∧ Digits [0x31, 0x32] ∧
    (SmsSubmit.main [0x2b, 0x31, 0x32] [0x41] 0 = .ok (.tpdus
      -- "01010291210000" "0141"
      [[0x30, 0x31, 0x30, 0x31, 0x30, 0x32, 0x39, 0x31, 0x32, 0x31, 0x30, 0x30, 0x30, 0x30, 0x30, 0x31, 0x34, 0x31]])) ∧
    (match SmsSubmit.main [0x31, 0x32] (List.replicate 200 0x41) 0 with
      | .ok (.tpdus l) => l.length
      | _ => 0) = 2 := by
  refine ⟨rfl, by unfold Digits; decide, by decide +kernel, by decide +kernel⟩

/-- C65 is false of a number with a character that is not a digit: the error is not reported, and every line
printed is empty. -/
theorem C65_invalid_number (number text : List UInt8) (nli : Int) (hn : number ≠ []) (ht : text ≠ [])
    (hd : ¬ Digits (digitsOf number)) :
    ∃ lines, SmsSubmit.main number text nli = .ok (.tpdus lines) ∧ lines ≠ [] ∧ ∀ l ∈ lines, l = [] := by
  obtain ⟨pdus, he, hne, hp⟩ := submit_segments number text nli
  have hline : ∀ p ∈ pdus, SmsSubmit.hexLine p = .ok [] := by
    intro p hpp
    obtain ⟨h1, h2⟩ := hp p hpp
    obtain ⟨_, d, _, _, _, _, hsemi⟩ := C05_encode_error _ hd
    have ha : p.DA.MarshalBinary = fail (encodeError "addr" (.semiInvalidDigit d)) := by
      rw [h2]
      unfold Address.MarshalBinary
      rw [if_neg (by show ¬ ((0x91 : UInt8) >>> 4) &&& 0x07 = 5; decide)]
      simp only
      rw [hsemi]
      rfl
    have hm : ∃ e, p.MarshalBinary = fail e := by
      refine ⟨encodeError (smsTypeString SmsSubmit) (encodeError "da" (encodeError "addr" (.semiInvalidDigit d))), ?_⟩
      unfold TPDU.MarshalBinary
      simp only [h1]
      rw [if_neg (by decide), if_neg (by decide), if_neg (by decide), if_pos trivial]
      unfold TPDU.marshalSubmit
      rw [ha]
      rfl
    obtain ⟨e, hm⟩ := hm
    unfold SmsSubmit.hexLine
    rw [hm]
    rfl
  have hmap : ∀ l : List TPDU, (∀ p ∈ l, SmsSubmit.hexLine p = .ok []) →
      l.mapM SmsSubmit.hexLine = .ok (l.map (fun _ => [])) := by
    intro l
    induction l with
    | nil => intro _; rfl
    | cons p l ih =>
      intro h
      rw [List.mapM_cons, h p (by simp), ih (fun q hq => h q (by simp [hq]))]
      rfl
  refine ⟨pdus.map (fun _ => []), ?_, by simpa using hne ht, by simp⟩
  unfold SmsSubmit.main
  rw [if_neg (by simp [hn, ht])]
  simp only
  rw [he]
  simp only
  rw [hmap pdus hline]
  rfl

/-- Beside it: the number "x". -/
example : ¬ Digits (digitsOf [0x78]) ∧ SmsSubmit.main [0x78] [0x41] 0 = .ok (.tpdus [[]]) :=
  ⟨by unfold Digits; decide, by decide +kernel⟩

/-- C65 is false of a number of 256 digits: what is printed is rejected by `Unmarshal`. -/
theorem C65_counterexample_long : Digits (digitsOf (List.replicate 256 0x31)) ∧
    ∃ lines, SmsSubmit.main (List.replicate 256 0x31) [0x41] 0 = .ok (.tpdus lines) ∧
      lines.map (fun l => do Sms.Unmarshal (← Hex.DecodeString l) MO) = [fail (.decode "SmsSubmit.ud.ud" 7 .overlength)] := by
  refine ⟨by unfold Digits; decide +kernel, ?_⟩
  have h : (match SmsSubmit.main (List.replicate 256 0x31) [0x41] 0 with
      | .ok (.tpdus lines) => some (lines.map (fun l => do Sms.Unmarshal (← Hex.DecodeString l) MO))
      | _ => none) = some [fail (.decode "SmsSubmit.ud.ud" 7 .overlength)] := by decide +kernel
  cases hm : SmsSubmit.main (List.replicate 256 0x31) [0x41] 0 with
  | error e => rw [hm] at h; cases h
  | ok o =>
    cases o with
    | usage => rw [hm] at h; cases h
    | failed e => rw [hm] at h; cases h
    | tpdus lines =>
      rw [hm] at h
      exact ⟨lines, rfl, Option.some.inj h⟩

end Verif.Props
