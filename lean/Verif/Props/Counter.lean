import Verif.Model.Counter
import Verif.Props.SmsEncode
import Verif.Props.Gsm7
import Verif.Props.Segment2

/-! C60: the statistics of smscounter. -/

namespace Verif.Props
open Verif.Model Verif.Spec Verif.Proofs Verif.Model.SmsCounter

/-- Octets of user data per counted unit: two for UCS-2, otherwise one (septets are held one to an octet). -/
def unitSize (p : TPDU) : Int := if p.Alphabet.1 = .ucs2 then 2 else 1

/-- The options the command passes to `Encode` for its language argument. -/
def languageOption (nli : Int) : List Model.Sms.EncoderOption :=
  if nli = 0 then [] else [.charsets (.charset [nli])]

/-- The charset options those are. -/
def languageCharsets (nli : Int) : List CharsetOpt := if nli = 0 then [] else [.charset [nli]]

/-- All the segments of a message have the same block size. -/
theorem segments_same_block (t : TPDU) (msg : List UInt8) (cfg : SegCfg) (h : Room t cfg) (res : SegResult)
    (hr : t.Segment msg cfg = .ok res) :
    ∀ p ∈ res.pdus, p.Alphabet = t.Alphabet ∧ ∀ q ∈ res.pdus, p.UDBlockSize = q.UDBlockSize := by
  by_cases hbig : (msg.length : Int) ≤ t.UDBlockSize
  · have key : ∀ p ∈ res.pdus, p.Alphabet = t.Alphabet ∧ p.UDBlockSize = t.UDBlockSize := by
      intro p hp
      obtain ⟨e, _⟩ := C36_single t msg cfg res hr hbig p hp
      rw [e]
      exact ⟨rfl, rfl⟩
    exact fun p hp => ⟨(key p hp).1, fun q hq => by rw [(key p hp).2, (key q hq).2]⟩
  · obtain ⟨res', hr', hf, _⟩ := C36_multi t msg cfg h hbig
    rw [hr] at hr'; cases hr'
    have key : ∀ p ∈ res.pdus, p.Alphabet = t.Alphabet ∧
        p.UDBlockSize = ({ t with FirstOctet := t.FirstOctet ||| 0x40, UDH := t.UDH ++ [concatIE cfg 0 0] } : TPDU).UDBlockSize := by
      intro p hp
      obtain ⟨k, hk⟩ := List.mem_iff_getElem?.1 hp
      have e := hf k p hk
      rw [e]
      refine ⟨rfl, ?_⟩
      rw [blockSize_eq, blockSize_eq]
      have hh : ∀ a b, hdrLen (t.UDH ++ [concatIE cfg a b]) = hdrLen (t.UDH ++ [concatIE cfg 0 0]) := by
        intro a b
        unfold hdrLen concatIE
        cases cfg.wide <;> simp
      show unitsLeft _ _ (hdrLen (t.UDH ++ [concatIE cfg _ _])) = _
      rw [hh]
      rfl
    exact fun p hp => ⟨(key p hp).1, fun q hq => by rw [(key p hp).2, (key q hq).2]⟩

theorem content_le (B : Int) (init : List TPDU) (last : TPDU) (h : ∀ p ∈ init, (p.UD.length : Int) ≤ B) :
    ((content (init ++ [last])).length : Int) ≤ B * init.length + last.UD.length := by
  induction init with
  | nil => simp [content]
  | cons p ps ih =>
    have h1 := h p (by simp)
    have h2 := ih (fun q hq => h q (by simp [hq]))
    simp only [content, List.cons_append, List.map_cons, List.flatten_cons, List.length_append, List.length_cons] at h2 ⊢
    push_cast
    rw [Int.mul_add]
    omega

theorem ucs2_encode_ne (rs : List Nat) (h : rs ≠ []) : Ucs2.Encode rs ≠ [] := by
  cases rs with
  | nil => exact absurd rfl h
  | cons r rs =>
    intro hh
    have := congrArg List.length hh
    unfold Ucs2.Encode at this
    rw [putBE16_length] at this
    simp only [List.flatMap_cons, List.length_append, List.length_nil] at this
    have hl : 1 ≤ (Unicode.utf16EncodeRune r).length := by
      unfold Unicode.utf16EncodeRune
      repeat' split
      all_goals simp
    omega

theorem decodeRunes_ne (msg : Bytes) (h : msg ≠ []) : Unicode.decodeRunes msg ≠ [] := by
  cases msg with
  | nil => exact absurd rfl h
  | cons b t => simp [Unicode.decodeRunes, Unicode.decodeRunesAux]

/-- What `Encode` yields for the command: for some template with room, the segments of the encoded text. -/
theorem counter_encode (msg : List UInt8) (nli : Int) :
    ∃ (t : TPDU) (d : Bytes) (cfg : SegCfg) (res : SegResult), Room t cfg ∧ t.Segment d cfg = .ok res ∧
      Sms.Encode msg (languageOption nli) = .ok res.pdus ∧ (msg ≠ [] → d ≠ []) ∧ (msg = [] → d = []) ∧
      (t.Alphabet.1 = .a7Bit ∧ InSeptets (languageCharsets nli) msg ∨
        t.Alphabet.1 = .ucs2 ∧ ¬ InSeptets (languageCharsets nli) msg ∧ d.length % 2 = 0) := by
  have henc : Sms.NewEncoder (Sms.AsSubmit :: languageOption nli) =
      ⟨languageCharsets nli, { Direction := MO, FirstOctet := 1 }, Model.Sms.newCounter, Model.Sms.newCounter⟩ := by
    unfold languageOption languageCharsets
    split <;> rfl
  generalize hE : (⟨languageCharsets nli, { Direction := MO, FirstOctet := 1 }, Model.Sms.newCounter, Model.Sms.newCounter⟩ : Model.Sms.Encoder) = e
  have hcs : e.eopts = languageCharsets nli := by rw [← hE]
  have hpdu : e.pdu = { Direction := MO, FirstOctet := 1 } := by rw [← hE]
  have hcarry : CanCarry (group ((([] : List Model.Sms.EncoderOption).foldl Model.Sms.Encoder.apply e).pdu).DCS)
      (EncodeUserData msg (([] : List Model.Sms.EncoderOption).foldl Model.Sms.Encoder.apply e).eopts).2.2 := by
    simp only [List.foldl_nil, hpdu]
    rcases C40_alphabet msg e.eopts with ⟨h, _⟩ | ⟨h, _⟩ <;> rw [h] <;> decide
  obtain ⟨dcs, hdcs, hrun⟩ := encode_auto e msg [] (by simp only [List.foldl_nil, hpdu]; decide) hcarry
  simp only [List.foldl_nil] at hrun hdcs
  have hst : e.pdu.SmsType ∈ smsTypes := by rw [hpdu]; decide
  have hu : hdrLen e.pdu.UDH ≤ 121 := by rw [hpdu]; decide
  have fin : ∀ (L : Lang) (d : Bytes) (a : Alphabet), EncodeUserData msg e.eopts = (d, L.header, a) →
      (msg ≠ [] → d ≠ []) → (msg = [] → d = []) →
      (a = .a7Bit ∧ InSeptets e.eopts msg ∨ a = .ucs2 ∧ ¬ InSeptets e.eopts msg ∧ d.length % 2 = 0) →
      ∃ (t : TPDU) (d : Bytes) (cfg : SegCfg) (res : SegResult), Room t cfg ∧ t.Segment d cfg = .ok res ∧
        Sms.Encode msg (languageOption nli) = .ok res.pdus ∧ (msg ≠ [] → d ≠ []) ∧ (msg = [] → d = []) ∧
        (t.Alphabet.1 = .a7Bit ∧ InSeptets (languageCharsets nli) msg ∨
          t.Alphabet.1 = .ucs2 ∧ ¬ InSeptets (languageCharsets nli) msg ∧ d.length % 2 = 0) := by
    intro L d a he h1 h2 h3
    rw [he] at hrun hdcs
    simp only at hrun hdcs
    have hroom := autoTemplate_room e.pdu dcs L e hst hu
    obtain ⟨res, hr, _⟩ := C33_pieces _ d _ hroom
    refine ⟨_, d, _, res, hroom, hr, ?_, h1, h2, ?_⟩
    · unfold Model.Sms.Encode
      rw [henc, hE, hrun, hr]
      rfl
    · rw [autoTemplate_alphabet, hdcs, ← hcs]
      exact h3
  rcases auto_cases msg e.eopts with ⟨L, d, hd, hg, hs, _⟩ | ⟨hd, hs⟩
  · have hlen := (C10_output _ _ msg d hg).2
    obtain ⟨sh, _, hlen⟩ := hlen
    refine fin L d _ hd ?_ ?_ (.inl ⟨rfl, hs⟩)
    · intro hm
      have := decodeRunes_ne msg hm
      rintro rfl
      have h0 : 0 < (Unicode.decodeRunes msg).length := List.length_pos_iff.2 this
      simp only [List.length_nil] at hlen
      omega
    · rintro rfl
      exact List.length_eq_zero_iff.1 hlen
  · refine fin .default _ _ hd (fun hm => ucs2_encode_ne _ (decodeRunes_ne msg hm)) ?_ (.inr ⟨rfl, hs, ?_⟩)
    · rintro rfl; rfl
    · unfold Ucs2.Encode
      rw [putBE16_length]; omega

/-- C60: for every non-empty message and every language argument the statistics are those of the TPDUs that
`Encode` produces for the same message: their number; the capacity of each of them, all alike, in characters of
the alphabet; the length of the last.  What remains is never negative, and the total is at least the encoded
length.  The encoding is named after the alphabet, with a mark when escaped characters are used. -/
theorem C60_count (msg : List UInt8) (nli : Int) (hne : msg ≠ []) :
    ∃ (pdus : List TPDU) (last : TPDU) (c : Count),
      Sms.Encode msg (languageOption nli) = .ok pdus ∧ NewCount msg nli = .ok c ∧ pdus.getLast? = some last ∧
      c.Messages = pdus.length ∧ 1 ≤ c.Messages ∧
      (∀ p ∈ pdus, p.UDBlockSize = unitSize p * c.Pdulen ∧ (p.UD.length : Int) ≤ unitSize p * c.Pdulen) ∧
      last.UD.length = unitSize last * c.Llen ∧ 1 ≤ c.Llen ∧
      0 ≤ c.Remaining ∧ c.Remaining = c.Pdulen - c.Llen ∧
      ((content pdus).length : Int) ≤ unitSize last * c.Tlen ∧ c.Tlen = c.Pdulen * (c.Messages - 1) + c.Llen ∧
      (c.Encoding = "UCS-2" ∧ ¬ InSeptets (languageCharsets nli) msg ∧ last.Alphabet.1 = .ucs2 ∨
        InSeptets (languageCharsets nli) msg ∧ last.Alphabet.1 = .a7Bit ∧
          c.Encoding = if 0x1b ∈ content pdus then "7BIT_EX" else "7BIT") := by
  obtain ⟨t, d, cfg, res, hroom, hr, henc, hd, _, hcase⟩ := counter_encode msg nli
  obtain ⟨res', hr', hcont, hfit⟩ := C33_pieces t d cfg hroom
  rw [hr] at hr'; cases hr'
  have hsame := segments_same_block t d cfg hroom res hr
  have hpne : res.pdus ≠ [] := by
    intro h
    rw [h] at hcont
    exact hd hne hcont.symm
  have hev : t.Alphabet.1 = .ucs2 → ∀ p ∈ res.pdus, p.UD.length % 2 = 0 := by
    intro ha
    rcases hcase with ⟨h, _⟩ | ⟨_, _, h⟩
    · rw [ha] at h; cases h
    · exact ucs2_segments_even t d cfg hroom ha h res hr
  generalize res.pdus = pdus at *
  obtain ⟨init, last, rfl⟩ : ∃ init last, pdus = init ++ [last] := 
    ⟨_, _, (List.dropLast_concat_getLast hpne).symm⟩
  obtain ⟨p0, rest, h0⟩ : ∃ p0 rest, init ++ [last] = p0 :: rest := by
    cases init with
    | nil => exact ⟨_, _, rfl⟩
    | cons a b => exact ⟨_, _, rfl⟩
  have hm0 : p0 ∈ init ++ [last] := by rw [h0]; simp
  have hml : last ∈ init ++ [last] := by simp
  have hopt : (if nli ≠ 0 then [Model.Sms.EncoderOption.charsets (CharsetOpt.charset [nli])] else []) = languageOption nli := by
    unfold languageOption
    by_cases h : nli = 0 <;> simp [h]
  have hi0 : idx (init ++ [last]) 0 = .ok p0 := by rw [h0]; rfl
  have hil : idx (init ++ [last]) (((init ++ [last]).length : Int) - 1) = .ok last := by
    unfold idx
    simp
  have hrun : NewCount msg nli = .ok
      ⟨(match p0.Alphabet.1 with
        | .a7Bit => if hasEscapes (init ++ [last]) then "7BIT_EX" else "7BIT"
        | .a8Bit => "8BIT" | .ucs2 => "UCS-2" | .reserved => ""), ((init ++ [last]).length : Int),
        (if p0.Alphabet.1 = .ucs2 then p0.UDBlockSize.tdiv 2 else p0.UDBlockSize) * (((init ++ [last]).length : Int) - 1) +
          (if p0.Alphabet.1 = .ucs2 then (last.UD.length : Int).tdiv 2 else last.UD.length),
        (if p0.Alphabet.1 = .ucs2 then (last.UD.length : Int).tdiv 2 else last.UD.length),
        (if p0.Alphabet.1 = .ucs2 then p0.UDBlockSize.tdiv 2 else p0.UDBlockSize),
        (if p0.Alphabet.1 = .ucs2 then p0.UDBlockSize.tdiv 2 else p0.UDBlockSize) -
          (if p0.Alphabet.1 = .ucs2 then (last.UD.length : Int).tdiv 2 else last.UD.length)⟩ := by
    unfold NewCount
    rw [hopt]
    show (Sms.Encode msg (languageOption nli) >>= _) = _
    rw [henc, ok_bind, hi0, ok_bind, hil, ok_bind]
    rfl
  have hal : ∀ p ∈ init ++ [last], p.Alphabet = t.Alphabet := fun p hp => (hsame p hp).1
  have hB : ∀ p ∈ init ++ [last], p.UDBlockSize = p0.UDBlockSize := fun p hp => (hsame p hp).2 p0 hm0
  have hll : 1 ≤ last.UD.length := List.length_pos_iff.2 (hfit last hml).1
  have hlB : (last.UD.length : Int) ≤ p0.UDBlockSize := by rw [← hB last hml]; exact (hfit last hml).2
  have hsum := content_le p0.UDBlockSize init last (fun p hp => by
    rw [← hB p (by simp [hp])]; exact (hfit p (by simp [hp])).2)
  have hesc : hasEscapes (init ++ [last]) = true ↔ 0x1b ∈ content (init ++ [last]) := by
    unfold hasEscapes content
    simp only [List.any_eq_true, decide_eq_true_eq, List.mem_flatten, List.mem_map]
    constructor
    · rintro ⟨p, hp, x, hx, rfl⟩; exact ⟨_, ⟨p, hp, rfl⟩, hx⟩
    · rintro ⟨_, ⟨p, hp, rfl⟩, hx⟩; exact ⟨p, hp, _, hx, rfl⟩
  refine ⟨_, last, _, henc, hrun, by simp, rfl, by simp only [List.length_append, List.length_singleton]; omega, ?_⟩
  have hus : ∀ p ∈ init ++ [last], unitSize p = if t.Alphabet.1 = .ucs2 then 2 else 1 := by
    intro p hp; unfold unitSize; rw [hal p hp]
  have hlen : (((init ++ [last]).length : Int) - 1) = init.length := by simp
  rw [hlen, hus last hml, hal p0 hm0, hal last hml]
  rcases hcase with ⟨ha, hs⟩ | ⟨ha, hs, _⟩
  · rw [ha]
    simp only [reduceCtorEq, if_false, Int.one_mul]
    refine ⟨fun p hp => ?_, trivial, by omega, by omega, trivial, hsum, trivial, .inr ⟨hs, trivial, ?_⟩⟩
    · have := hus p hp
      rw [ha] at this
      simp only [reduceCtorEq, if_false] at this
      rw [this, Int.one_mul, hB p hp]
      exact ⟨rfl, by rw [← hB p hp]; exact (hfit p hp).2⟩
    · by_cases h : 0x1b ∈ content (init ++ [last])
      · rw [if_pos h, if_pos (hesc.2 h)]
      · rw [if_neg h, if_neg (fun hh => h (hesc.1 hh))]
  · rw [ha]
    simp only [if_true]
    have hevl := hev ha last hml
    have hBe : p0.UDBlockSize % 2 = 0 := by
      rw [blockSize_eq, hal p0 hm0, ha]
      simp only [unitsLeft]
      omega
    have h1 : (last.UD.length : Int).tdiv 2 * 2 = last.UD.length := by
      rw [Int.tdiv_eq_ediv_of_nonneg (by omega)]; omega
    have h2 : p0.UDBlockSize.tdiv 2 * 2 = p0.UDBlockSize := by
      rw [Int.tdiv_eq_ediv_of_nonneg (by omega)]; omega
    generalize (last.UD.length : Int).tdiv 2 = l at *
    generalize p0.UDBlockSize.tdiv 2 = b at *
    refine ⟨fun p hp => ?_, by omega, by omega, by omega, trivial, ?_, trivial, .inl ⟨trivial, hs, trivial⟩⟩
    · have := hus p hp
      rw [ha] at this
      simp only [if_true] at this
      have hf := (hfit p hp).2
      rw [this, hB p hp]
      rw [hB p hp] at hf
      omega
    · rw [← h2, ← h1] at hsum
      have : 2 * (b * (init.length : Int) + l) = b * 2 * init.length + l * 2 := by
        rw [Int.mul_add, Int.mul_comm b 2, Int.mul_assoc, Int.mul_comm l 2]
      omega

/-- C60: an empty message has no TPDUs, and counting it panics (the command refuses it first). -/
theorem C60_empty (nli : Int) : Sms.Encode [] (languageOption nli) = .ok [] ∧ NewCount [] nli = panicM .index := by
  obtain ⟨t, d, cfg, res, _, hr, henc, _, hd, _⟩ := counter_encode [] nli
  rw [hd rfl] at hr
  cases hr
  refine ⟨henc, ?_⟩
  have hopt : (if nli ≠ 0 then [Model.Sms.EncoderOption.charsets (CharsetOpt.charset [nli])] else []) = languageOption nli := by
    unfold languageOption
    by_cases h : nli = 0 <;> simp [h]
  unfold NewCount
  rw [hopt]
  show (Sms.Encode [] (languageOption nli) >>= _) = _
  rw [henc]
  rfl

/-- C60: the total can exceed the encoded length: 152 letters and five euro signs are 162 septets, but are
counted as 163, the cut before an escape leaving one septet of the first TPDU unused. -/
theorem C60_total_not_exact : ∃ (msg : List UInt8) (pdus : List TPDU) (c : Count),
    Sms.Encode msg (languageOption 0) = .ok pdus ∧ NewCount msg 0 = .ok c ∧
      (content pdus).length = 162 ∧ c.Tlen = 163 ∧ c.Encoding = "7BIT_EX" := by
  have hx : (∃ pdus, Sms.Encode (List.replicate 152 0x41 ++ (List.replicate 5 [0xe2, 0x82, 0xac]).flatten) (languageOption 0) = .ok pdus ∧
      (content pdus).length = 162) ∧
    NewCount (List.replicate 152 0x41 ++ (List.replicate 5 [0xe2, 0x82, 0xac]).flatten) 0 =
      .ok ⟨"7BIT_EX", 2, 163, 10, 153, 143⟩ := by
    refine ⟨?_, by decide +kernel⟩
    have : (Sms.Encode (List.replicate 152 0x41 ++ (List.replicate 5 [0xe2, 0x82, 0xac]).flatten) (languageOption 0)).map
        (fun p => (content p).length) = .ok 162 := by decide +kernel
    generalize Sms.Encode _ _ = x at *
    cases x with
    | error f => cases this
    | ok p => simp only [Except.map, Except.ok.injEq] at this; exact ⟨p, rfl, this⟩
  obtain ⟨⟨pdus, h1, h2⟩, h3⟩ := hx
  exact ⟨_, pdus, _, h1, h3, h2, rfl, rfl⟩

/-- Beside C60: a long UCS-2 message. -/
example : NewCount ((List.replicate 71 [0xe2, 0x82, 0xac]).flatten ++ [0xc5, 0x82]) 0 = .ok ⟨"UCS-2", 2, 72, 5, 67, 62⟩ := by
  decide +kernel

end Verif.Props
