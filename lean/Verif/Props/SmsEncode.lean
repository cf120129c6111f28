import Verif.Proofs.EncodeSms

/-! Properties of `sms.Encode`: C38, C41, C42. -/

namespace Verif.Props
open Verif.Model Verif.Spec Verif.Proofs

/-- The template of an encoder call: that of the encoder with the options of the call applied. -/
def callTemplate (e : Model.Sms.Encoder) (options : List Model.Sms.EncoderOption) : TPDU :=
  (options.foldl Model.Sms.Encoder.apply e).pdu

/-- The charset options of an encoder call. -/
def callCharsets (e : Model.Sms.Encoder) (options : List Model.Sms.EncoderOption) : List CharsetOpt :=
  (options.foldl Model.Sms.Encoder.apply e).eopts

/-- C41: the alphabet chosen is unique, and there always is one. -/
theorem C41_chosen (dcs : UInt8) (options : List CharsetOpt) (text : List UInt8) :
    ∃ a, Chosen dcs options text a ∧ ∀ b, Chosen dcs options text b → b = a := by
  have hcases := alphabet_cases { DCS := dcs }
  have hal : ({ DCS := dcs } : TPDU).Alphabet = DCS.Alphabet dcs := rfl
  rw [hal] at hcases
  rcases hcases with h | h | h
  · by_cases hs : InSeptets options text
    · refine ⟨_, .septets h hs, ?_⟩
      intro b hb
      cases hb with
      | octets h' => rw [h] at h'; cases h'
      | ucs2 h' => rw [h] at h'; cases h'
      | septets => rfl
      | fallback _ h' => exact absurd hs h'
    · refine ⟨_, .fallback h hs, ?_⟩
      intro b hb
      cases hb with
      | octets h' => rw [h] at h'; cases h'
      | ucs2 => rfl
      | septets _ h' => exact absurd h' hs
      | fallback => rfl
  · refine ⟨_, .octets h, ?_⟩
    intro b hb
    cases hb with
    | octets => rfl
    | ucs2 h' => rw [h] at h'; cases h'
    | septets h' => rw [h] at h'; cases h'
    | fallback h' => rw [h] at h'; cases h'
  · refine ⟨_, .ucs2 h, ?_⟩
    intro b hb
    cases hb with
    | octets h' => rw [h] at h'; cases h'
    | ucs2 => rfl
    | septets h' => rw [h] at h'; cases h'
    | fallback => rfl

/-- C41: `Encode` returns an error exactly when the coding group of the template cannot carry the alphabet
chosen, and the error is `ErrDcsConflict`.  (For templates without room it panics, see C37.) -/
theorem C41_error_iff (e : Model.Sms.Encoder) (msg : List UInt8) (options : List Model.Sms.EncoderOption) (a : Alphabet)
    (ha : Chosen (callTemplate e options).DCS (callCharsets e options) msg a) (x : Err) :
    e.Encode msg options = fail x ↔ x = .dcsConflict ∧ ¬ CanCarry (group (callTemplate e options).DCS) a := by
  have carry : ∀ d : UInt8, (DCS.Alphabet d).1 ≠ .a7Bit → CanCarry (group d) (DCS.Alphabet d).1 := by
    apply forall_u8; decide +kernel
  have seg : ∀ (t : TPDU) (d : Bytes), (do
      let r ← t.Segment d (encCfg e)
      return (⟨r.pdus, r.mr.getD e.MsgCount, r.cr.getD e.ConcatRef⟩ : Model.Sms.EncResult) : M _) ≠ fail x := by
    intro t d
    rcases segment_outcome t d (encCfg e) with ⟨r, h⟩ | ⟨k, h⟩ <;> rw [h]
    · intro hh; cases hh
    · intro hh; cases hh
  have hauto : (DCS.Alphabet (callTemplate e options).DCS).1 = .a7Bit →
      (EncodeUserData msg (callCharsets e options)).2.2 = a →
      (e.Encode msg options = fail x ↔ x = .dcsConflict ∧ ¬ CanCarry (group (callTemplate e options).DCS) a) := by
    intro h hEa
    by_cases hc : CanCarry (group (callTemplate e options).DCS) a
    · subst hEa
      obtain ⟨dcs, _, hh⟩ := encode_auto e msg options h hc
      rw [hh]
      exact ⟨fun h => absurd h (seg _ _), fun h => absurd hc h.2⟩
    · subst hEa
      rw [encode_conflict e msg options h hc]
      constructor
      · intro h; cases h; exact ⟨rfl, hc⟩
      · rintro ⟨rfl, _⟩; rfl
  cases ha with
  | octets h =>
    rw [encode_explicit e msg options (.inl h)]
    have := carry (callTemplate e options).DCS (by rw [h]; simp)
    rw [h] at this
    exact ⟨fun h => absurd h (seg _ _), fun h => absurd this h.2⟩
  | ucs2 h =>
    rw [encode_explicit e msg options (.inr h)]
    have := carry (callTemplate e options).DCS (by rw [h]; simp)
    rw [h] at this
    exact ⟨fun h => absurd h (seg _ _), fun h => absurd this h.2⟩
  | septets h hs =>
    refine hauto h ?_
    rcases C40_alphabet msg (callCharsets e options) with ⟨hh, _⟩ | ⟨_, hh⟩
    · exact hh
    · exact absurd hs hh
  | fallback h hs =>
    refine hauto h ?_
    rcases C40_alphabet msg (callCharsets e options) with ⟨_, hh⟩ | ⟨hh, _⟩
    · exact absurd hh hs
    · exact hh

/-- A message waiting group (7 bit only) conflicts with text that needs UCS-2. -/
example : Sms.Encode [0xe4, 0xb8, 0xad] [.templateOption (.dcs 0xc0)] = fail .dcsConflict := by decide +kernel
example : ∃ a, Chosen 0xc0 [] [0xe4, 0xb8, 0xad] a ∧ ¬ CanCarry (group 0xc0) a := by
  refine ⟨.ucs2, .fallback (by decide) ?_, by decide⟩
  rintro (h | ⟨L, hL, _⟩)
  · obtain ⟨g, hg⟩ := (representable_iff _ _).mp h
    have : Gsm7.Encode [0xe4, 0xb8, 0xad] (langOpts .default) = fail (.gsm7InvalidUTF8 0x4e2d) := by decide +kernel
    rw [this] at hg; cases hg
  · cases hL

/-- C42 is false: the header chosen for a national language table replaces the header of the template. -/
theorem C42_counterexample : ∃ (t : TPDU) (pdus : List TPDU),
    Sms.Encode [0xc4, 0x9f] [.template t, .charsets .all] = .ok pdus ∧ t.UDH = [⟨0x70, [1]⟩] ∧
      pdus.map (·.UDH) = [[⟨25, [1]⟩]] := by
  refine ⟨{ FirstOctet := 0x41, Direction := 1, UDH := [⟨0x70, [1]⟩] },
    [{ FirstOctet := 0x41, Direction := 1, PI := 4, MR := 1, UDH := [⟨25, [1]⟩], UD := [0x0c] }], ?_, rfl, rfl⟩
  decide +kernel

/-- The types of TPDU, all of which have a defined user data size. -/
def smsTypes : List UInt8 :=
  [SmsDeliver, SmsDeliverReport, SmsSubmitReport, SmsSubmit, SmsStatusReport, SmsCommand]

theorem baseSize_ge (t : TPDU) (h : t.SmsType ∈ smsTypes) : 131 ≤ baseSize t := by
  unfold smsTypes at h
  simp only [List.mem_cons, List.not_mem_nil, or_false] at h
  unfold baseSize
  rcases h with h | h | h | h | h | h <;> rw [h] <;> simp [SmsDeliver, SmsDeliverReport, SmsSubmitReport, SmsSubmit, SmsStatusReport, SmsCommand]
  all_goals split <;> omega

theorem header_len (L : Lang) : hdrLen L.header ≤ 7 := by
  obtain ⟨l, s⟩ := L
  cases l <;> cases s <;> simp [Lang.header, hdrLen]

theorem autoTemplate_alphabet (t : TPDU) (dcs : UInt8) (udh : UDH) : (autoTemplate t dcs udh).Alphabet = DCS.Alphabet dcs := rfl

theorem autoTemplate_type (t : TPDU) (dcs : UInt8) (udh : UDH) : (autoTemplate t dcs udh).SmsType = t.SmsType := by
  unfold TPDU.SmsType autoTemplate
  simp only
  by_cases h : udh = []
  · simp [h]
  · simp [h, mti_udhi]

theorem autoTemplate_room (t : TPDU) (dcs : UInt8) (L : Lang) (e : Model.Sms.Encoder) (hst : t.SmsType ∈ smsTypes)
    (hu : hdrLen t.UDH ≤ 121) : Room (autoTemplate t dcs L.header) (encCfg e) := by
  apply room_of _ _ _ rfl
  · unfold autoTemplate
    simp only
    have := header_len L
    split <;> omega
  · apply baseSize_ge
    rw [autoTemplate_type]; exact hst

/-- The three ways `EncodeUserData` can turn out, with the tables used. -/
theorem auto_cases (text : List UInt8) (eopts : List CharsetOpt) :
    (∃ (L : Lang) (d : Bytes), EncodeUserData text eopts = (d, L.header, .a7Bit) ∧
      Gsm7.Encode text [.charset (L.locking.getD 0), .extCharset (L.shift.getD 0)] = .ok d ∧ InSeptets eopts text ∧
      (L = .default ∧ Representable .default text ∨ ¬ Representable .default text ∧ L.header ≠ []) ∧
      (∀ n, L.locking = some n → 1 ≤ n ∧ n ≤ 13 ∧ n ∈ offeredLocking eopts) ∧
      (∀ n, L.shift = some n → 1 ≤ n ∧ n ≤ 13 ∧ n ∈ offeredShift eopts)) ∨
    (EncodeUserData text eopts = (Ucs2.Encode (Unicode.decodeRunes text), Lang.default.header, .ucs2) ∧
      ¬ InSeptets eopts text) := by
  by_cases h : InSeptets eopts text
  · left
    by_cases hd : Representable .default text
    · obtain ⟨d, hh, hg⟩ := C40_default text eopts hd
      exact ⟨.default, d, hh, hg, h, .inl ⟨rfl, hd⟩, (by intro n hn; cases hn), (by intro n hn; cases hn)⟩
    · obtain ⟨pre, L, post, e, h1, h2⟩ := find_first (offered eopts) (fun L => Representable L text)
        (by rcases h with h | h
            · exact absurd h hd
            · exact h)
      obtain ⟨⟨d, hh, hg⟩, _⟩ := C40_language text eopts hd pre post L e h1 h2
      obtain ⟨k1, k2⟩ := offered_known (options := eopts) (by rw [e]; simp) hd h2
      refine ⟨L, d, hh, hg, h, .inr ⟨hd, ?_⟩, k1, k2⟩
      obtain ⟨l, s⟩ := L
      cases l with
      | some n => simp [Lang.header]
      | none =>
        cases s with
        | some n => simp [Lang.header]
        | none => exact absurd h2 hd
  · right
    exact ⟨C40_fallback text eopts h, h⟩

/-- Segments that each decode on their own. -/
theorem decodeLoop_plain (opts : List CharsetOpt) (segs : List TPDU) (xs : List Bytes)
    (h : segs.map (fun s => DecodeUserData s.UD s.UDH s.Alphabet.1 opts) = xs.map (fun x => ⟨x, none⟩)) :
    Model.Sms.decodeLoop opts segs [] = .ok xs.flatten := by
  induction segs generalizing xs with
  | nil =>
    cases xs with
    | nil => rfl
    | cons x xs => cases h
  | cons s ss ih =>
    cases xs with
    | nil => cases h
    | cons x xs =>
      simp only [List.map_cons, List.cons.injEq] at h
      rw [Model.Sms.decodeLoop]
      simp only [ne_eq, not_true_eq_false, if_false, h.1, ih xs h.2]
      rfl

/-- C38, partial: text encoded with an automatically chosen alphabet (default, national language or UCS-2) is
recovered by decoding with options that permit the languages offered to the encoder.  The template has room
for content, leaves the alphabet open, and its coding group can carry the alphabet chosen (else `Encode`
returns an error, C41).  Missing, because false: text with U+001B sent in septets (C09), and templates whose
own header announces a national language while the default alphabet is chosen. -/
theorem C38_text_partial (e : Model.Sms.Encoder) (text : List UInt8) (options : List Model.Sms.EncoderOption)
    (dopts : List CharsetOpt) (a : Alphabet)
    (hst : (callTemplate e options).SmsType ∈ smsTypes) (hu : hdrLen (callTemplate e options).UDH ≤ 121)
    (halpha : (callTemplate e options).Alphabet.1 = .a7Bit)
    (ha : Chosen (callTemplate e options).DCS (callCharsets e options) text a)
    (hcarry : CanCarry (group (callTemplate e options).DCS) a)
    (hm : Matching (callCharsets e options) dopts)
    (hnat : Representable .default text → ∀ ie ∈ (callTemplate e options).UDH, ie.ID ≠ 24 ∧ ie.ID ≠ 25)
    (hesc : a = .a7Bit → 0x1b ∉ text)
    (hutf : ∃ rs, (∀ r ∈ rs, Scalar r) ∧ text = Unicode.encodeRunes rs) :
    ∃ r, e.Encode text options = .ok r ∧ Sms.Decode r.pdus dopts = .ok text := by
  have hEa : (EncodeUserData text (callCharsets e options)).2.2 = a := by
    have hal : (DCS.Alphabet (callTemplate e options).DCS).1 = .a7Bit := halpha
    cases ha with
    | octets h => rw [h] at hal; cases hal
    | ucs2 h => rw [h] at hal; cases hal
    | septets h hs =>
      rcases C40_alphabet text (callCharsets e options) with ⟨hh, _⟩ | ⟨_, hh⟩
      · exact hh
      · exact absurd hs hh
    | fallback h hs =>
      rcases C40_alphabet text (callCharsets e options) with ⟨_, hh⟩ | ⟨hh, _⟩
      · exact absurd hh hs
      · exact hh
  obtain ⟨dcs, hdcs, henc⟩ := encode_auto e text options halpha (by rw [show (List.foldl _ e options).eopts = callCharsets e options from rfl, hEa]; exact hcarry)
  have h1 : (options.foldl Model.Sms.Encoder.apply e).pdu = callTemplate e options := rfl
  have h2 : (options.foldl Model.Sms.Encoder.apply e).eopts = callCharsets e options := rfl
  rw [h1, h2] at henc
  rw [h2] at hdcs
  rcases auto_cases text (callCharsets e options) with ⟨L, d, hd, hg, hs, hdef, hl, hsh⟩ | ⟨hd, hs⟩
  · rw [hd] at henc hdcs hEa
    simp only at henc hdcs hEa
    have hroom := autoTemplate_room (callTemplate e options) dcs L e hst hu
    have hal7 : (autoTemplate (callTemplate e options) dcs L.header).Alphabet.1 = .a7Bit := by
      rw [autoTemplate_alphabet, hdcs]
    obtain ⟨_, res, xs, hr, hxs, hfl⟩ := C34_text_partial (L.locking.getD 0) (L.shift.getD 0) text d hg (hesc hEa.symm)
      _ (encCfg e) hroom hal7
    refine ⟨_, by rw [henc, hr]; rfl, ?_⟩
    simp only
    unfold Model.Sms.Decode
    rw [← hfl]
    apply decodeLoop_plain
    obtain ⟨res', hr', _, hforms⟩ := segment_forms _ d (encCfg e) rfl hroom
    rw [hr] at hr'; cases hr'
    -- every segment selects the same tables
    have hn : ∀ p ∈ res.pdus, p.Alphabet.1 = .a7Bit ∧
        nliOf p.UDH lockingIEI ((Model.Sms.decodeOpts dopts).foldl applyDecodeOption {}).locking = L.locking ∧
        nliOf p.UDH shiftIEI ((Model.Sms.decodeOpts dopts).foldl applyDecodeOption {}).shift = L.shift := by
      intro p hp
      obtain ⟨⟨fo, pi, mr, udh, ud, rfl, hcase⟩, _⟩ := hforms p hp
      refine ⟨hal7, ?_⟩
      show nliOf udh _ _ = _ ∧ nliOf udh _ _ = _
      have hbase : nliOf (autoTemplate (callTemplate e options) dcs L.header).UDH lockingIEI
            ((Model.Sms.decodeOpts dopts).foldl applyDecodeOption {}).locking = L.locking ∧
          nliOf (autoTemplate (callTemplate e options) dcs L.header).UDH shiftIEI
            ((Model.Sms.decodeOpts dopts).foldl applyDecodeOption {}).shift = L.shift := by
        rcases hdef with ⟨rfl, hrep⟩ | ⟨_, hne⟩
        · have hU : (autoTemplate (callTemplate e options) dcs Lang.default.header).UDH = (callTemplate e options).UDH := rfl
          rw [hU]
          exact ⟨nliOf_none _ _ _ (fun ie hie => (hnat hrep ie hie).2), nliOf_none _ _ _ (fun ie hie => (hnat hrep ie hie).1)⟩
        · have hU : (autoTemplate (callTemplate e options) dcs L.header).UDH = L.header := by
            simp [autoTemplate, hne]
          rw [hU]
          apply nliOf_header
          · intro n hn
            obtain ⟨x, y, z⟩ := hl n hn
            exact ⟨x, y, (permitted_sms dopts n).1 ((hm n x y).1 z)⟩
          · intro n hn
            obtain ⟨x, y, z⟩ := hsh n hn
            exact ⟨x, y, (permitted_sms dopts n).2 ((hm n x y).2 z)⟩
      rcases hcase with ⟨_, rfl⟩ | ⟨_, ie, hid, _, rfl⟩
      · exact hbase
      · rw [nliOf_append _ _ _ _ (by rw [hid]; decide), nliOf_append _ _ _ _ (by rw [hid]; decide)]
        exact hbase
    -- hence each decodes as in `C34_text_partial`
    have key : ∀ (ps : List TPDU) (ys : List Bytes), (∀ p ∈ ps, p ∈ res.pdus) →
        ps.map (fun p => Gsm7.Decode p.UD [.charset (L.locking.getD 0), .extCharset (L.shift.getD 0)]) = ys.map .ok →
        ps.map (fun s => DecodeUserData s.UD s.UDH s.Alphabet.1 (Model.Sms.decodeOpts dopts)) =
          ys.map (fun x => ⟨x, none⟩) := by
      intro ps
      induction ps with
      | nil => intro ys _ h; cases ys with
        | nil => rfl
        | cons y ys => cases h
      | cons p ps ih =>
        intro ys hmem h
        cases ys with
        | nil => cases h
        | cons y ys =>
          simp only [List.map_cons, List.cons.injEq] at h ⊢
          refine ⟨?_, ih ys (fun q hq => hmem q (by simp [hq])) h.2⟩
          obtain ⟨n0, n1, n2⟩ := hn p (hmem p (by simp))
          obtain ⟨t, e1, e2⟩ := Sms.decodeUserData_7bit p.UD p.UDH p.Alphabet.1 (Model.Sms.decodeOpts dopts)
            (by rw [n0]; simp) (by rw [n0]; simp)
          rw [n1, n2] at e2
          have h1 : Gsm7.Decoder.Decode ⟨Charset.NewDecoder (L.locking.getD 0), Charset.NewExtDecoder (L.shift.getD 0), false⟩
            p.UD = .ok y := h.1
          rw [h1] at e2
          cases e2
          exact e1
    exact key res.pdus xs (fun _ h => h) hxs
  · rw [hd] at henc hdcs hEa
    simp only at henc hdcs hEa
    have hroom := autoTemplate_room (callTemplate e options) dcs .default e hst hu
    have halU : (autoTemplate (callTemplate e options) dcs Lang.default.header).Alphabet.1 = .ucs2 := by
      rw [autoTemplate_alphabet, hdcs]
    obtain ⟨res, rss, hr, hrs, hmap, _⟩ := C34_ucs2 _ (Unicode.decodeRunes text) (encCfg e) hroom halU
    obtain ⟨res', hr', hcont, hforms⟩ := segment_forms _ (Ucs2.Encode (Unicode.decodeRunes text)) (encCfg e) rfl hroom
    rw [hr] at hr'; cases hr'
    refine ⟨_, by rw [henc, hr]; rfl, ?_⟩
    simp only
    have hall : ∀ s ∈ res.pdus, s.Alphabet.1 = .ucs2 ∧ s.UD.length % 2 = 0 := by
      intro p hp
      have hud : p.UD ∈ rss.map Ucs2.Encode := by rw [← hmap]; exact List.mem_map_of_mem hp
      obtain ⟨x, _, hx⟩ := List.mem_map.mp hud
      obtain ⟨⟨fo, pi, mr, udh, ud, e1, _⟩, _⟩ := hforms p hp
      refine ⟨?_, ?_⟩
      · rw [e1]; exact halU
      · rw [← hx]; unfold Ucs2.Encode; rw [putBE16_length]; omega
    have hl := Sms.decodeLoop_all_ucs2 (Model.Sms.decodeOpts dopts) res.pdus hall [] (.inl rfl)
    unfold Model.Sms.Decode
    rw [hl, List.nil_append, show (res.pdus.map TPDU.UD).flatten = content res.pdus from rfl, hcont]
    obtain ⟨rs, hscal, rfl⟩ := hutf
    have hdr : Unicode.decodeRunes (Unicode.encodeRunes rs) = rs :=
      decodeRunes_encodeRunes rs (fun r hr => (isScalar_iff r).mpr (hscal r hr))
    rw [hdr, ucs2_roundtrip rs hscal]

/-- The hypotheses of `C38_text_partial` are met by Turkish text too long for one segment. -/
example : (callTemplate (Sms.NewEncoder [Sms.AsSubmit, .charsets .all]) []).SmsType ∈ smsTypes ∧
    hdrLen (callTemplate (Sms.NewEncoder [Sms.AsSubmit, .charsets .all]) []).UDH ≤ 121 ∧
    (callTemplate (Sms.NewEncoder [Sms.AsSubmit, .charsets .all]) []).Alphabet.1 = .a7Bit := by decide
example : ((do
    let pdus ← Sms.Encode (Unicode.encodeRunes (List.replicate 160 0x11f)) [.charsets .all]
    let text ← Sms.Decode pdus []
    return (pdus.length, text)) : M _) = .ok (2, Unicode.encodeRunes (List.replicate 160 0x11f)) := by decide +kernel

/-- C38 is false of text with U+001B, and of templates that announce a language themselves. -/
theorem C38_counterexample :
    (∃ pdus, Sms.Encode [0x1b, 0x65] [] = .ok pdus ∧ Sms.Decode pdus [] = .ok [0xe2, 0x82, 0xac]) ∧
    (∃ (t : TPDU) (pdus : List TPDU), t.UDH = [⟨25, [1]⟩] ∧ Sms.Encode [0xc3, 0xa8] [.template t] = .ok pdus ∧
      Sms.Decode pdus [] = .ok [0xe2, 0x82, 0xac]) := by
  refine ⟨⟨[{ Direction := 1, FirstOctet := 1, MR := 1, UD := [0x1b, 0x65] }], by decide +kernel, by decide +kernel⟩, ?_⟩
  exact ⟨{ Direction := 1, FirstOctet := 0x41, UDH := [⟨25, [1]⟩] },
    [{ Direction := 1, FirstOctet := 0x41, UDH := [⟨25, [1]⟩], MR := 1, UD := [0x04] }], rfl,
    by decide +kernel, by decide +kernel⟩

/-- Decoding without options permits all languages, and decoding with the options of the encoder permits what
was offered. -/
theorem C38_matching (eopts : List CharsetOpt) : Matching eopts [] ∧ Matching eopts eopts := by
  have hs : ∀ (os : List CharsetOpt) (o : CharsetOpt), o ∈ sinceAll os → o ∈ os := by
    intro os
    induction os with
    | nil => intro o h; exact h
    | cons x os ih =>
      intro o h
      rw [sinceAll] at h
      split at h
      · exact List.mem_cons_of_mem _ (ih o h)
      · exact h
  refine ⟨fun n h1 h2 => ⟨fun _ => .inl ⟨rfl, h1, h2⟩, fun _ => .inl ⟨rfl, h1, h2⟩⟩, fun n _ _ => ⟨fun h => ?_, fun h => ?_⟩⟩
  · obtain ⟨o, ho, hn⟩ := List.mem_flatMap.mp h
    exact .inr ⟨o, hs _ _ ho, hn⟩
  · obtain ⟨o, ho, hn⟩ := List.mem_flatMap.mp h
    exact .inr ⟨o, hs _ _ ho, hn⟩

theorem encode_explicit_ok (e : Model.Sms.Encoder) (msg : List UInt8) (options : List Model.Sms.EncoderOption)
    (halpha : (callTemplate e options).Alphabet.1 = .a8Bit ∨ (callTemplate e options).Alphabet.1 = .ucs2)
    (res : SegResult) (hr : (callTemplate e options).Segment msg (encCfg e) = .ok res) :
    e.Encode msg options = .ok ⟨res.pdus, res.mr.getD e.MsgCount, res.cr.getD e.ConcatRef⟩ := by
  rw [encode_explicit e msg options halpha]
  have h1 : (options.foldl Model.Sms.Encoder.apply e).pdu = callTemplate e options := rfl
  rw [h1, hr]; rfl

/-- C38: with an 8-bit template the octets come back, for every template with room. -/
theorem C38_octets (e : Model.Sms.Encoder) (msg : List UInt8) (options : List Model.Sms.EncoderOption)
    (dopts : List CharsetOpt) (hroom : Room (callTemplate e options) (encCfg e))
    (halpha : (callTemplate e options).Alphabet.1 = .a8Bit) :
    ∃ r, e.Encode msg options = .ok r ∧ Sms.Decode r.pdus dopts = .ok msg := by
  obtain ⟨res, hr, hc, hforms⟩ := segment_forms _ msg (encCfg e) rfl hroom
  refine ⟨_, encode_explicit_ok e msg options (.inl halpha) res hr, ?_⟩
  unfold Model.Sms.Decode
  rw [← hc]
  apply decodeLoop_plain
  rw [List.map_map]
  apply List.map_congr_left
  intro p hp
  obtain ⟨⟨fo, pi, mr, udh, ud, rfl, _⟩, _⟩ := hforms p hp
  have : ({ callTemplate e options with FirstOctet := fo, PI := pi, MR := mr, UDH := udh, UD := ud } : TPDU).Alphabet.1 = .a8Bit := halpha
  rw [this]; rfl

/-- Segments of a UCS-2 message of even length have even length. -/
theorem ucs2_segments_even (t : TPDU) (msg : List UInt8) (cfg : SegCfg) (h : Room t cfg) (ha : t.Alphabet.1 = .ucs2)
    (hev : msg.length % 2 = 0) (res : SegResult) (hr : t.Segment msg cfg = .ok res) :
    ∀ p ∈ res.pdus, p.UD.length % 2 = 0 := by
  obtain ⟨res', hr', hc, _⟩ := C33_pieces t msg cfg h
  rw [hr] at hr'; cases hr'
  have hpre : ∀ pre suf, res.pdus = pre ++ suf → (content pre).length % 2 = 0 := by
    intro pre suf e
    by_cases hp : pre = []
    · subst hp; rfl
    by_cases hs : suf = []
    · subst hs
      rw [List.append_nil] at e
      rw [← e, hc]; exact hev
    · have := C34_boundaries_partial t msg cfg h (by rw [ha]; simp) res hr pre suf e hp hs
      rw [ha] at this
      simp only [SplitsChar, not_or] at this
      omega
  intro p hp
  obtain ⟨pre, suf, e⟩ := List.append_of_mem hp
  have h1 := hpre pre (p :: suf) e
  have h2 := hpre (pre ++ [p]) suf (by rw [e]; simp)
  unfold content at h1 h2
  simp only [List.map_append, List.flatten_append, List.length_append, List.map_cons, List.map_nil, List.flatten_cons,
    List.flatten_nil, List.append_nil] at h1 h2
  omega

/-- C38: with a UCS-2 template, UTF-16 comes back as UTF-8, for every template with room. -/
theorem C38_utf16 (e : Model.Sms.Encoder) (msg : List UInt8) (options : List Model.Sms.EncoderOption)
    (dopts : List CharsetOpt) (hroom : Room (callTemplate e options) (encCfg e))
    (halpha : (callTemplate e options).Alphabet.1 = .ucs2) (rs : List Nat) (hev : msg.length % 2 = 0)
    (hg : Groups (units msg) rs) :
    ∃ r, e.Encode msg options = .ok r ∧ Sms.Decode r.pdus dopts = .ok (Unicode.encodeRunes rs) := by
  obtain ⟨res, hr, hc, hforms⟩ := segment_forms _ msg (encCfg e) rfl hroom
  refine ⟨_, encode_explicit_ok e msg options (.inr halpha) res hr, ?_⟩
  have hall : ∀ s ∈ res.pdus, s.Alphabet.1 = .ucs2 ∧ s.UD.length % 2 = 0 := by
    intro p hp
    refine ⟨?_, ucs2_segments_even _ msg _ hroom halpha hev res hr p hp⟩
    obtain ⟨⟨fo, pi, mr, udh, ud, rfl, _⟩, _⟩ := hforms p hp
    exact halpha
  have hl := Sms.decodeLoop_all_ucs2 (Model.Sms.decodeOpts dopts) res.pdus hall [] (.inl rfl)
  unfold Model.Sms.Decode
  rw [hl, List.nil_append, show (res.pdus.map TPDU.UD).flatten = content res.pdus from rfl, hc]
  rw [(decode_ok_iff msg rs).mpr ⟨hev, hg⟩]

theorem submit_type (t : TPDU) (h1 : t.FirstOctet = 1) (h2 : t.Direction = MO) : t.SmsType = SmsSubmit := by
  unfold TPDU.SmsType
  rw [h1, h2]
  decide

/-- C38: `As8Bit` and `AsUCS2` templates have room and the right alphabet. -/
theorem C38_as (number : List UInt8) :
    let t8 := callTemplate (Sms.NewEncoder [Sms.AsSubmit, Sms.To number, Sms.As8Bit]) []
    let tu := callTemplate (Sms.NewEncoder [Sms.AsSubmit, Sms.To number, Sms.AsUCS2]) []
    (∀ cfg, Room t8 cfg) ∧ t8.Alphabet.1 = .a8Bit ∧ (∀ cfg, Room tu cfg) ∧ tu.Alphabet.1 = .ucs2 := by
  refine ⟨fun cfg => C37_submit_deliver _ cfg (.inl (submit_type _ rfl rfl)) ?_, ?_, fun cfg => C37_submit_deliver _ cfg (.inl (submit_type _ rfl rfl)) ?_, ?_⟩
  · exact Nat.zero_le _
  · show (DCS.Alphabet 4).1 = .a8Bit
    decide
  · exact Nat.zero_le _
  · show (DCS.Alphabet 8).1 = .ucs2
    decide

/-- Beside `C38_utf16`: an emoji, as UTF-16. -/
example : Groups (units [0xD8, 0x3D, 0xDE, 0x01]) [0x1F601] := .pair (h := 0xD83D) (l := 0xDE01) (by unfold HighSurrogate; omega) (by unfold LowSurrogate; omega) .nil

/-- The encoder for a submission with charset options. -/
theorem submit_encoder (number : List UInt8) (cs : List CharsetOpt) :
    Sms.NewEncoder (Sms.AsSubmit :: Sms.To number :: cs.map .charsets) =
      { eopts := cs, pdu := { Direction := MO, FirstOctet := 1, DA := Address.NewFromNumber number },
        MsgCount := Model.Sms.newCounter, ConcatRef := Model.Sms.newCounter } := by
  have key : ∀ (cs : List CharsetOpt) (e : Model.Sms.Encoder),
      (cs.map Model.Sms.EncoderOption.charsets).foldl Model.Sms.Encoder.apply e = { e with eopts := e.eopts ++ cs } := by
    intro cs
    induction cs with
    | nil => intro e; simp
    | cons c cs ih => intro e; rw [List.map_cons, List.foldl_cons, ih]; simp [Model.Sms.Encoder.apply]
  unfold Model.Sms.NewEncoder
  rw [List.foldl_cons, List.foldl_cons, key]
  rfl

/-- C38: submitting text to a number with any charset options, and decoding without options or with the same
options, gives the text.  (Text with U+001B only when it is sent as UCS-2.) -/
theorem C38_submit_partial (number text : List UInt8) (cs : List CharsetOpt)
    (hesc : InSeptets cs text → 0x1b ∉ text)
    (hutf : ∃ rs, (∀ r ∈ rs, Scalar r) ∧ text = Unicode.encodeRunes rs) :
    ∃ pdus, Sms.Encode text (Sms.To number :: cs.map .charsets) = .ok pdus ∧
      Sms.Decode pdus [] = .ok text ∧ Sms.Decode pdus cs = .ok text := by
  obtain ⟨a, ha, _⟩ := C41_chosen 0 cs text
  have hca : CanCarry (group 0) a := by
    cases ha <;> decide
  have main : ∀ dopts, Matching cs dopts → ∃ r, (Sms.NewEncoder (Sms.AsSubmit :: Sms.To number :: cs.map .charsets)).Encode text [] = .ok r ∧
      Sms.Decode r.pdus dopts = .ok text := by
    intro dopts hm
    rw [submit_encoder]
    refine C38_text_partial _ text [] dopts a ?_ ?_ (by show (DCS.Alphabet 0).1 = .a7Bit; decide) ha hca hm ?_ ?_ hutf
    · rw [submit_type _ rfl rfl]
      decide
    · exact Nat.zero_le _
    · intro _ ie hie; cases hie
    · rintro rfl
      apply hesc
      cases ha with
      | septets _ h => exact h
  obtain ⟨r, h1, h2⟩ := main [] (C38_matching cs).1
  obtain ⟨r', h1', h2'⟩ := main cs (C38_matching cs).2
  rw [h1] at h1'; cases h1'
  refine ⟨r.pdus, ?_, h2, h2'⟩
  unfold Model.Sms.Encode
  rw [h1]; rfl

/-- C42, partial: unless a national language table is chosen, every TPDU carries the header of the template,
followed by at most the concatenation element.  Missing: the case of a national language table, for which
it is false. -/
theorem C42_header_kept_partial (e : Model.Sms.Encoder) (msg : List UInt8) (options : List Model.Sms.EncoderOption)
    (h : (callTemplate e options).Alphabet.1 = .a7Bit →
      Representable .default msg ∨ ¬ InSeptets (callCharsets e options) msg)
    (r : Model.Sms.EncResult) (hr : e.Encode msg options = .ok r) :
    ∀ p ∈ r.pdus, p.UDH = (callTemplate e options).UDH ∨
      ∃ ie : IE, ie.ID = 0 ∧ p.UDH = (callTemplate e options).UDH ++ [ie] := by
  have seg : ∀ (t : TPDU) (d : Bytes), t.UDH = (callTemplate e options).UDH → (do
      let r ← t.Segment d (encCfg e)
      return (⟨r.pdus, r.mr.getD e.MsgCount, r.cr.getD e.ConcatRef⟩ : Model.Sms.EncResult) : M _) = .ok r →
      ∀ p ∈ r.pdus, p.UDH = (callTemplate e options).UDH ∨
        ∃ ie : IE, ie.ID = 0 ∧ p.UDH = (callTemplate e options).UDH ++ [ie] := by
    intro t d ht hh p hp
    obtain ⟨res, hres, hh⟩ := bind_eq_ok.mp hh
    cases hh
    rcases segment_ok_forms t d _ res hres with ⟨h1, _⟩ | ⟨h1, _⟩ | ⟨cs, _, h1, _⟩
    · rw [h1] at hp; cases hp
    · rw [h1, List.mem_singleton] at hp; subst hp; exact .inl ht
    · simp only [h1, List.mem_mapIdx] at hp
      obtain ⟨i, hi, rfl⟩ := hp
      exact .inr ⟨_, rfl, by show t.UDH ++ _ = _; rw [ht]⟩
  rcases alphabet_cases (callTemplate e options) with h7 | h8
  · by_cases hc : CanCarry (group (callTemplate e options).DCS) (EncodeUserData msg (callCharsets e options)).2.2
    · obtain ⟨dcs, _, henc⟩ := encode_auto e msg options h7 hc
      rw [henc] at hr
      refine seg _ _ ?_ hr
      have : (EncodeUserData msg (callCharsets e options)).2.1 = [] := by
        rcases h h7 with h | h
        · obtain ⟨d, hd, _⟩ := C40_default msg (callCharsets e options) h
          rw [hd]
        · rw [C40_fallback msg _ h]
      show (autoTemplate (callTemplate e options) dcs (EncodeUserData msg (callCharsets e options)).2.1).UDH = _
      rw [this]; rfl
    · rw [encode_conflict e msg options h7 hc] at hr; cases hr
  · rw [encode_explicit e msg options h8] at hr
    exact seg _ _ rfl hr

/-- C42: with a national language table the header is that of the table, followed by at most the
concatenation element. -/
theorem C42_header_replaced (e : Model.Sms.Encoder) (msg : List UInt8) (options : List Model.Sms.EncoderOption)
    (halpha : (callTemplate e options).Alphabet.1 = .a7Bit) (hd : ¬ Representable .default msg)
    (pre post : List Lang) (L : Lang) (ho : offered (callCharsets e options) = pre ++ L :: post)
    (hpre : ∀ M ∈ pre, ¬ Representable M msg) (hL : Representable L msg)
    (r : Model.Sms.EncResult) (hr : e.Encode msg options = .ok r) :
    ∀ p ∈ r.pdus, p.UDH = L.header ∨ ∃ ie : IE, ie.ID = 0 ∧ p.UDH = L.header ++ [ie] := by
  obtain ⟨⟨d, hh, _⟩, _⟩ := C40_language msg _ hd pre post L ho hpre hL
  by_cases hc : CanCarry (group (callTemplate e options).DCS) (EncodeUserData msg (callCharsets e options)).2.2
  · obtain ⟨dcs, _, henc⟩ := encode_auto e msg options halpha hc
    rw [henc] at hr
    have hne : L.header ≠ [] := by
      obtain ⟨l, s⟩ := L
      cases l with
      | some n => simp [Lang.header]
      | none =>
        cases s with
        | some n => simp [Lang.header]
        | none => exact absurd hL hd
    have hU : (autoTemplate (callTemplate e options) dcs (EncodeUserData msg (callCharsets e options)).2.1).UDH = L.header := by
      rw [hh]; simp [autoTemplate, hne]
    obtain ⟨res, hres, hr⟩ := bind_eq_ok.mp hr
    cases hr
    intro p hp
    rcases segment_ok_forms _ _ _ res hres with ⟨h1, _⟩ | ⟨h1, _⟩ | ⟨cs, _, h1, _⟩
    · rw [h1] at hp; cases hp
    · rw [h1, List.mem_singleton] at hp; subst hp; exact .inl hU
    · simp only [h1, List.mem_mapIdx] at hp
      obtain ⟨i, hi, rfl⟩ := hp
      exact .inr ⟨_, rfl, by show (autoTemplate (callTemplate e options) dcs (EncodeUserData msg (callCharsets e options)).2.1).UDH ++ _ = _; rw [hU]⟩
  · rw [encode_conflict e msg options halpha hc] at hr; cases hr

end Verif.Props
